import Verif.Model.RadEnvironment
import Mathlib.Tactic.Linarith
import Mathlib.Tactic.Positivity
import Mathlib.Tactic.FieldSimp
/-!
C116: radiation flux and upset probability; C117: missions; C118: positions; C119: solar flares.
-/
namespace Verif.RadEnvironment

/-! ### Specification -/

/-- A position on or above the ground. -/
def Valid (p : Pos) : Prop := -90 ≤ p.lat ∧ p.lat ≤ 90 ∧ 0 ≤ p.alt

/-- Each particle flux, and the dose rate, of `f` is at most that of `g`. -/
def Le (f g : Flux) : Prop := f.electron ≤ g.electron ∧ f.proton ≤ g.proton ∧ f.ion ≤ g.ion ∧ f.dose ≤ g.dose

/-- No negative component. -/
def NonNeg (f : Flux) : Prop := 0 ≤ f.electron ∧ 0 ≤ f.proton ∧ 0 ≤ f.ion ∧ 0 ≤ f.dose

/-- Calls that change the environment. -/
inductive Op where
  | activity (a : ℝ)
  | shielding (t : ℝ) (m : Int)
  | flare (i : ℝ)

/-- One call. -/
noncomputable def Env.step (e : Env) : Op → Env
  | .activity a => e.setActivity a
  | .shielding t m => e.setShielding t m
  | .flare i => (e.flare i).2

/-- An environment after calls with arguments as documented: shielding not negative, flare intensity between 0 and 1. -/
inductive Reach (m : Mission) : Env → Prop
  | new (g : Int) : Reach m (Env.new m g)
  | activity (e : Env) (a : ℝ) : Reach m e → Reach m (e.setActivity a)
  | shielding (e : Env) (t : ℝ) (k : Int) : Reach m e → 0 ≤ t → Reach m (e.setShielding t k)
  | flare (e : Env) (i : ℝ) : Reach m e → 0 ≤ i → i ≤ 1 → Reach m (e.flare i).2

/-! ### Lemmas -/

theorem reach_inv {m : Mission} {e : Env} (h : Reach m e) : e.mission = m ∧ 0 ≤ e.activity ∧ e.activity ≤ 1 ∧ 0 ≤ e.thickness := by
  induction h with
  | new g => refine ⟨rfl, ?_, ?_, ?_⟩ <;> simp only [Env.new] <;> norm_num
  | activity e a _ ih =>
    obtain ⟨h1, h2, h3, h4⟩ := ih
    refine ⟨h1, ?_, ?_, h4⟩ <;> simp only [Env.setActivity] <;> split_ifs <;> linarith
  | shielding e t k _ ht ih =>
    obtain ⟨h1, h2, h3, h4⟩ := ih
    exact ⟨h1, h2, h3, ht⟩
  | flare e i _ h0 h1 ih =>
    obtain ⟨g1, g2, g3, g4⟩ := ih
    refine ⟨g1, ?_, ?_, g4⟩
    · exact le_min (by norm_num) (by linarith)
    · exact min_le_left _ _

/-- The factor of cosmic rays. -/
noncomputable def gk (p : Pos) : ℝ := (1 + 1 / 2 * |p.lat| / 90) *
  (if p.alt < 1000 then 7 / 10 + 3 / 10 * p.alt / 1000 else if p.alt < 20000 then 1 + 1 / 2 * (p.alt - 1000) / 19000 else 3 / 2)

theorem gk_bounds {p : Pos} (h : Valid p) : 7 / 10 ≤ gk p ∧ gk p ≤ 9 / 4 := by
  obtain ⟨h1, h2, h3⟩ := h
  have ha : 0 ≤ |p.lat| ∧ |p.lat| ≤ 90 := ⟨abs_nonneg _, abs_le.2 ⟨h1, h2⟩⟩
  have hk : ∀ k : ℝ, k = (if p.alt < 1000 then 7 / 10 + 3 / 10 * p.alt / 1000 else if p.alt < 20000 then 1 + 1 / 2 * (p.alt - 1000) / 19000 else 3 / 2) →
      7 / 10 ≤ k ∧ k ≤ 3 / 2 := by
    intro k hk
    rw [hk]
    split_ifs <;> constructor <;> linarith
  obtain ⟨k1, k2⟩ := hk _ rfl
  unfold gk
  generalize (if p.alt < 1000 then 7 / 10 + 3 / 10 * p.alt / 1000 else if p.alt < 20000 then 1 + 1 / 2 * (p.alt - 1000) / 19000 else 3 / 2) = k at *
  have m1 : 1 ≤ 1 + 1 / 2 * |p.lat| / 90 := by have := ha.1; linarith
  have m2 : 1 + 1 / 2 * |p.lat| / 90 ≤ 3 / 2 := by have := ha.2; linarith
  constructor <;> nlinarith

theorem gcr_eq (p : Pos) : gcr p = ⟨10 ^ 3 * gk p, 10 ^ 2 * gk p, 10 * gk p, 1 / 1000 * gk p⟩ := rfl

theorem belt_bounds (p : Pos) (c w : ℝ) (hw : 0 < w) : 0 ≤ belt p c w ∧ belt p c w ≤ 1 := by
  unfold belt
  split
  · constructor <;> norm_num
  · refine ⟨(Real.exp_pos _).le, ?_⟩
    rw [Real.exp_le_one_iff]
    have : 0 ≤ (lValue p - c) * (lValue p - c) / w := div_nonneg (mul_self_nonneg _) hw.le
    have e : -(lValue p - c) * (lValue p - c) / w = -((lValue p - c) * (lValue p - c) / w) := by ring
    rw [e]; linarith

theorem vanAllen_bounds {p : Pos} (h : Valid p) : NonNeg (vanAllen p) ∧ (vanAllen p).electron ≤ 10 ^ 5 ∧ (vanAllen p).proton ≤ 10 ^ 5 ∧ (vanAllen p).ion ≤ 200 := by
  obtain ⟨i0, i1⟩ := belt_bounds p (3 / 2) (1 / 2) (by norm_num)
  obtain ⟨o0, o1⟩ := belt_bounds p (9 / 2) 2 (by norm_num)
  have hk : ∀ k : ℝ, k = (if p.alt < 1000 then p.alt / 1000 else 1) → 0 ≤ k ∧ k ≤ 1 := by
    intro k hk; rw [hk]; have := h.2.2
    split_ifs <;> constructor <;> linarith
  obtain ⟨k0, k1⟩ := hk _ rfl
  simp only [vanAllen, NonNeg]
  generalize (if p.alt < 1000 then p.alt / 1000 else 1) = k at *
  generalize belt p (3 / 2) (1 / 2) = i at *
  generalize belt p (9 / 2) 2 = o at *
  have hik : i * k ≤ 1 := mul_le_one₀ i1 k0 k1
  have hok : o * k ≤ 1 := mul_le_one₀ o1 k0 k1
  refine ⟨⟨?_, ?_, ?_, ?_⟩, ?_, ?_, ?_⟩
  · positivity
  · positivity
  · positivity
  · positivity
  · nlinarith
  · nlinarith
  · nlinarith

theorem saa_bounds (p : Pos) : NonNeg (saa p) ∧ (saa p).electron ≤ 10 ^ 4 ∧ (saa p).proton ≤ 10 ^ 6 ∧ (saa p).ion ≤ 100 := by
  unfold saa
  simp only
  split
  · refine ⟨⟨le_rfl, le_rfl, le_rfl, le_rfl⟩, ?_, ?_, ?_⟩ <;> norm_num
  · generalize Real.sqrt ((p.lat - -30) * (p.lat - -30) + (p.lon - -40) * (p.lon - -40)) = d
    have h1 : Real.exp (-d * d / (2 * 10 * 10)) ≤ 1 := by
      rw [Real.exp_le_one_iff]
      have := mul_self_nonneg d
      have e : -d * d / (2 * 10 * 10) = -(d * d / 200) := by ring
      rw [e]; linarith
    have h0 := Real.exp_pos (-d * d / (2 * 10 * 10))
    generalize Real.exp (-d * d / (2 * 10 * 10)) = i at *
    refine ⟨⟨?_, ?_, ?_, ?_⟩, ?_, ?_, ?_⟩ <;> simp only <;> linarith

theorem raw_bounds (m : Mission) {p : Pos} (h : Valid p) :
    0 < (raw m p).electron ∧ 0 < (raw m p).proton ∧ 0 < (raw m p).ion ∧
    (raw m p).electron ≤ 225 * 10 ^ 4 ∧ (raw m p).proton ≤ 12 * 10 ^ 5 ∧ (raw m p).ion ≤ 225 * 10 ^ 2 := by
  obtain ⟨g1, g2⟩ := gk_bounds h
  obtain ⟨⟨v1, v2, v3, v4⟩, v5, v6, v7⟩ := vanAllen_bounds h
  obtain ⟨⟨s1, s2, s3, s4⟩, s5, s6, s7⟩ := saa_bounds p
  have e : gcr p = ⟨10 ^ 3 * gk p, 10 ^ 2 * gk p, 10 * gk p, 1 / 1000 * gk p⟩ := rfl
  have sp : ¬ ((1 : ℝ) < 3 / 10) := by norm_num
  cases m <;> simp only [raw, e, Flux.plus, Flux.scale, if_neg sp] <;> refine ⟨?_, ?_, ?_, ?_, ?_, ?_⟩ <;> linarith

theorem flux_electron (e : Env) (p : Pos) : (e.flux p).electron = (raw e.mission p).electron * (3 / 2 + 47 / 10 * e.activity) * Real.exp (-attE e.material * e.thickness) := by
  simp only [Env.flux, Env.shield, Env.solar, Flux.redose]; ring
theorem flux_proton (e : Env) (p : Pos) : (e.flux p).proton = (raw e.mission p).proton * (2 + 97 / 10 * e.activity) * Real.exp (-attP e.material * e.thickness) := by
  simp only [Env.flux, Env.shield, Env.solar, Flux.redose]; ring
theorem flux_ion (e : Env) (p : Pos) : (e.flux p).ion = (raw e.mission p).ion * (1 - 3 / 10 * e.activity) * Real.exp (-attH e.material * e.thickness) := by
  simp only [Env.flux, Env.shield, Env.solar, Flux.redose]
theorem flux_dose (e : Env) (p : Pos) : (e.flux p).dose = (e.flux p).electron * (1 / 1000) + (e.flux p).proton * (1 / 100) + (e.flux p).ion * (1 / 10) := rfl
theorem seu_eq (e : Env) (p : Pos) : e.seu p = (e.flux p).electron * (1 / 10 ^ 12) + (e.flux p).proton * (1 / 10 ^ 9) + (e.flux p).ion * (1 / 10 ^ 6) := by
  unfold Env.seu; ring

theorem le_of_three {f g : Flux} (h1 : f.electron ≤ g.electron) (h2 : f.proton ≤ g.proton) (h3 : f.ion ≤ g.ion)
    (hf : f.dose = f.electron * (1 / 1000) + f.proton * (1 / 100) + f.ion * (1 / 10)) (hg : g.dose = g.electron * (1 / 1000) + g.proton * (1 / 100) + g.ion * (1 / 10)) : Le f g :=
  ⟨h1, h2, h3, by rw [hf, hg]; linarith⟩

theorem att_pos (m : Int) : 0 < attE m ∧ 0 < attP m ∧ 0 < attH m := by
  refine ⟨?_, ?_, ?_⟩
  · unfold attE; split_ifs <;> norm_num
  · unfold attP; split_ifs <;> norm_num
  · unfold attH; split_ifs <;> norm_num

theorem att_le_one {a t : ℝ} (ha : 0 < a) (ht : 0 ≤ t) : Real.exp (-a * t) ≤ 1 := by
  rw [Real.exp_le_one_iff]; nlinarith

/-! ### C116 -/

/-- C116, range: in every environment and at every valid position every flux is positive, the dose rate is the weighted sum 10⁻³·electrons + 10⁻²·protons + 10⁻¹·heavy ions, and the upset probability is positive and below 4 %. -/
theorem C116_range {m : Mission} {e : Env} (he : Reach m e) {p : Pos} (hp : Valid p) :
    0 < (e.flux p).electron ∧ 0 < (e.flux p).proton ∧ 0 < (e.flux p).ion ∧
    (e.flux p).dose = (e.flux p).electron / 1000 + (e.flux p).proton / 100 + (e.flux p).ion / 10 ∧
    0 < e.seu p ∧ e.seu p < 4 / 100 := by
  obtain ⟨hm, a0, a1, t0⟩ := reach_inv he
  obtain ⟨r1, r2, r3, r4, r5, r6⟩ := raw_bounds e.mission hp
  obtain ⟨c1, c2, c3⟩ := att_pos e.material
  have x1 := att_le_one c1 t0
  have x2 := att_le_one c2 t0
  have x3 := att_le_one c3 t0
  have y1 := Real.exp_pos (-attE e.material * e.thickness)
  have y2 := Real.exp_pos (-attP e.material * e.thickness)
  have y3 := Real.exp_pos (-attH e.material * e.thickness)
  have f1 := flux_electron e p
  have f2 := flux_proton e p
  have f3 := flux_ion e p
  have k1 : 0 < 3 / 2 + 47 / 10 * e.activity := by linarith
  have k2 : 0 < 2 + 97 / 10 * e.activity := by linarith
  have k3 : 0 < 1 - 3 / 10 * e.activity := by linarith
  have p1 : 0 < (e.flux p).electron := by rw [f1]; positivity
  have p2 : 0 < (e.flux p).proton := by rw [f2]; positivity
  have p3 : 0 < (e.flux p).ion := by rw [f3]; positivity
  have u1 : (e.flux p).electron ≤ 225 * 10 ^ 4 * (31 / 5) := by
    rw [f1]
    calc _ ≤ (raw e.mission p).electron * (3 / 2 + 47 / 10 * e.activity) * 1 := mul_le_mul_of_nonneg_left x1 (by positivity)
      _ ≤ 225 * 10 ^ 4 * (31 / 5) * 1 := by
        apply mul_le_mul_of_nonneg_right _ (by norm_num)
        exact mul_le_mul r4 (by linarith) k1.le (by norm_num)
      _ = _ := by ring
  have u2 : (e.flux p).proton ≤ 12 * 10 ^ 5 * (117 / 10) := by
    rw [f2]
    calc _ ≤ (raw e.mission p).proton * (2 + 97 / 10 * e.activity) * 1 := mul_le_mul_of_nonneg_left x2 (by positivity)
      _ ≤ 12 * 10 ^ 5 * (117 / 10) * 1 := by
        apply mul_le_mul_of_nonneg_right _ (by norm_num)
        exact mul_le_mul r5 (by linarith) k2.le (by norm_num)
      _ = _ := by ring
  have u3 : (e.flux p).ion ≤ 225 * 10 ^ 2 := by
    rw [f3]
    calc _ ≤ (raw e.mission p).ion * (1 - 3 / 10 * e.activity) * 1 := mul_le_mul_of_nonneg_left x3 (by positivity)
      _ ≤ 225 * 10 ^ 2 * 1 * 1 := by
        apply mul_le_mul_of_nonneg_right _ (by norm_num)
        exact mul_le_mul r6 (by linarith) k3.le (by norm_num)
      _ = _ := by ring
  refine ⟨p1, p2, p3, by rw [flux_dose]; ring, ?_, ?_⟩
  · rw [seu_eq]; positivity
  · rw [seu_eq]; norm_num at *; linarith

/-- C116, shielding: with any material, thicker shielding never raises a flux, the dose rate or the upset probability, and lowers all of them strictly; with no shielding the material does not matter. -/
theorem C116_shielding {m : Mission} {e : Env} (he : Reach m e) {p : Pos} (hp : Valid p) (k : Int) {s t : ℝ} (hst : s < t) :
    let f := (e.setShielding s k).flux p
    let g := (e.setShielding t k).flux p
    g.electron < f.electron ∧ g.proton < f.proton ∧ g.ion < f.ion ∧ g.dose < f.dose ∧ (e.setShielding t k).seu p < (e.setShielding s k).seu p ∧
    ∀ k', (e.setShielding 0 k).flux p = (e.setShielding 0 k').flux p := by
  intro f g
  obtain ⟨hm, a0, a1, t0⟩ := reach_inv he
  obtain ⟨r1, r2, r3, _⟩ := raw_bounds e.mission hp
  obtain ⟨c1, c2, c3⟩ := att_pos k
  have k1 : 0 < 3 / 2 + 47 / 10 * e.activity := by linarith
  have k2 : 0 < 2 + 97 / 10 * e.activity := by linarith
  have k3 : 0 < 1 - 3 / 10 * e.activity := by linarith
  have h1 : g.electron < f.electron := by
    simp only [f, g, flux_electron]
    exact mul_lt_mul_of_pos_left (Real.exp_lt_exp.2 (by simp only [Env.setShielding]; nlinarith)) (mul_pos r1 k1)
  have h2 : g.proton < f.proton := by
    simp only [f, g, flux_proton]
    exact mul_lt_mul_of_pos_left (Real.exp_lt_exp.2 (by simp only [Env.setShielding]; nlinarith)) (mul_pos r2 k2)
  have h3 : g.ion < f.ion := by
    simp only [f, g, flux_ion]
    exact mul_lt_mul_of_pos_left (Real.exp_lt_exp.2 (by simp only [Env.setShielding]; nlinarith)) (mul_pos r3 k3)
  refine ⟨h1, h2, h3, ?_, ?_, ?_⟩
  · have d1 : f.dose = _ := flux_dose _ p
    have d2 : g.dose = _ := flux_dose _ p
    rw [d1, d2]; linarith
  · rw [seu_eq, seu_eq]
    have := h1; have := h2; have := h3
    norm_num at *; linarith
  · intro k'
    simp [Env.flux, Env.shield, Env.setShielding, Env.solar]

/-- C116, materials: of the three documented materials polyethylene is best against protons and tungsten against electrons and heavy ions; the others are like aluminium there. -/
theorem C116_materials {m : Mission} {e : Env} (he : Reach m e) {p : Pos} (hp : Valid p) {t : ℝ} (ht : 0 < t) :
    ((e.setShielding t 1).flux p).proton < ((e.setShielding t 0).flux p).proton ∧ ((e.setShielding t 2).flux p).proton = ((e.setShielding t 0).flux p).proton ∧
    ((e.setShielding t 2).flux p).electron < ((e.setShielding t 0).flux p).electron ∧ ((e.setShielding t 1).flux p).electron = ((e.setShielding t 0).flux p).electron ∧
    ((e.setShielding t 2).flux p).ion < ((e.setShielding t 0).flux p).ion ∧ ((e.setShielding t 1).flux p).ion = ((e.setShielding t 0).flux p).ion := by
  obtain ⟨hm, a0, a1, t0⟩ := reach_inv he
  obtain ⟨r1, r2, r3, _⟩ := raw_bounds e.mission hp
  have k1 : 0 < 3 / 2 + 47 / 10 * e.activity := by linarith
  have k2 : 0 < 2 + 97 / 10 * e.activity := by linarith
  have k3 : 0 < 1 - 3 / 10 * e.activity := by linarith
  simp only [flux_electron, flux_proton, flux_ion, Env.setShielding]
  refine ⟨?_, ?_, ?_, ?_, ?_, ?_⟩
  · exact mul_lt_mul_of_pos_left (Real.exp_lt_exp.2 (by norm_num [attP]; nlinarith)) (mul_pos r2 k2)
  · norm_num [attP]
  · exact mul_lt_mul_of_pos_left (Real.exp_lt_exp.2 (by norm_num [attE]; nlinarith)) (mul_pos r1 k1)
  · norm_num [attE]
  · exact mul_lt_mul_of_pos_left (Real.exp_lt_exp.2 (by norm_num [attH]; nlinarith)) (mul_pos r3 k3)
  · norm_num [attH]

/-- C116, activity: the activity set is limited to 0 … 1; higher activity means more electrons and protons and fewer heavy ions. -/
theorem C116_activity {m : Mission} {e : Env} (he : Reach m e) {p : Pos} (hp : Valid p) {a b : ℝ} (ha : 0 ≤ a) (hab : a < b) (hb : b ≤ 1) :
    let f := (e.setActivity a).flux p
    let g := (e.setActivity b).flux p
    f.electron < g.electron ∧ f.proton < g.proton ∧ g.ion < f.ion ∧
    (∀ c, c ≤ 0 → e.setActivity c = e.setActivity 0) ∧ (∀ c, 1 ≤ c → e.setActivity c = e.setActivity 1) ∧ (e.setActivity a).activity = a := by
  intro f g
  obtain ⟨r1, r2, r3, _⟩ := raw_bounds e.mission hp
  have ea : (e.setActivity a).activity = a := by
    simp only [Env.setActivity]; rw [if_neg (by linarith), if_neg (by linarith)]
  have eb : (e.setActivity b).activity = b := by
    simp only [Env.setActivity]; rw [if_neg (by linarith), if_neg (by linarith)]
  refine ⟨?_, ?_, ?_, ?_, ?_, ea⟩
  · simp only [f, g, flux_electron, ea, eb]
    exact mul_lt_mul_of_pos_right (mul_lt_mul_of_pos_left (by linarith) r1) (Real.exp_pos _)
  · simp only [f, g, flux_proton, ea, eb]
    exact mul_lt_mul_of_pos_right (mul_lt_mul_of_pos_left (by linarith) r2) (Real.exp_pos _)
  · simp only [f, g, flux_ion, ea, eb]
    exact mul_lt_mul_of_pos_right (mul_lt_mul_of_pos_left (by linarith) r3) (Real.exp_pos _)
  · intro c hc
    simp only [Env.setActivity]
    congr 1
    rcases lt_or_eq_of_le hc with h | h
    · rw [if_pos h, if_neg (by norm_num), if_neg (by norm_num)]
    · rw [h]
  · intro c hc
    simp only [Env.setActivity]
    congr 1
    rcases lt_or_eq_of_le hc with h | h
    · rw [if_neg (by linarith), if_pos h, if_neg (by norm_num), if_neg (by norm_num)]
    · rw [h]

/-- C116, heat map: one probability per position, in order. -/
theorem C116_heatmap (e : Env) (l : List Pos) : e.heatmap l = l.map e.seu := by
  have : ∀ (l : List Pos) (acc : List ℝ), l.foldl (fun acc p => acc ++ [e.seu p]) acc = acc ++ l.map e.seu := by
    intro l
    induction l with
    | nil => intro acc; simp
    | cons a t ih => intro acc; rw [List.foldl_cons, ih]; simp
  simpa [Env.heatmap] using this l []

/-- C116, violated: "default aluminum 5mm": the constructor reads a material that was never set; if it happens to read 2, the same constructor call gives a smaller electron flux at every position than if it reads 0. -/
theorem C116_default_material_violated (m : Mission) {p : Pos} (hp : Valid p) :
    ((Env.new m 2).flux p).electron < ((Env.new m 0).flux p).electron := by
  have := (C116_materials (Reach.new (m := m) 0) hp (t := 5) (by norm_num)).2.2.1
  exact this

/-! ### C117 -/

/-- The same environment for another mission. -/
def Env.on (e : Env) (m : Mission) : Env := { e with mission := m }

theorem flux_mono {e : Env} (ha : 0 ≤ e.activity ∧ e.activity ≤ 1) (m m' : Mission) (p : Pos)
    (h1 : (raw m p).electron ≤ (raw m' p).electron) (h2 : (raw m p).proton ≤ (raw m' p).proton) (h3 : (raw m p).ion ≤ (raw m' p).ion) :
    Le ((e.on m).flux p) ((e.on m').flux p) := by
  have k1 : 0 ≤ 3 / 2 + 47 / 10 * e.activity := by linarith [ha.1]
  have k2 : 0 ≤ 2 + 97 / 10 * e.activity := by linarith [ha.1]
  have k3 : 0 ≤ 1 - 3 / 10 * e.activity := by linarith [ha.2]
  refine le_of_three ?_ ?_ ?_ (flux_dose _ p) (flux_dose _ p)
  · simp only [flux_electron, Env.on]
    exact mul_le_mul_of_nonneg_right (mul_le_mul_of_nonneg_right h1 k1) (Real.exp_pos _).le
  · simp only [flux_proton, Env.on]
    exact mul_le_mul_of_nonneg_right (mul_le_mul_of_nonneg_right h2 k2) (Real.exp_pos _).le
  · simp only [flux_ion, Env.on]
    exact mul_le_mul_of_nonneg_right (mul_le_mul_of_nonneg_right h3 k3) (Real.exp_pos _).le

/-- C117, order of missions: at the same position and under the same conditions a lunar mission meets at least the cosmic radiation of the geostationary orbit, Mars at least that of the Moon, Jupiter at least that of Mars; the low and medium orbits add the belts, the low ones the anomaly too. -/
theorem C117_order {m : Mission} {e : Env} (he : Reach m e) {p : Pos} (hp : Valid p) :
    Le ((e.on .geo).flux p) ((e.on .lunar).flux p) ∧ Le ((e.on .lunar).flux p) ((e.on .mars).flux p) ∧ Le ((e.on .mars).flux p) ((e.on .jupiter).flux p) ∧
    Le ((e.on .geo).flux p) ((e.on .meo).flux p) ∧ Le ((e.on .geo).flux p) ((e.on .leoPolar).flux p) ∧ (e.on .leoPolar).flux p = (e.on .leoEquatorial).flux p := by
  obtain ⟨hm, a0, a1, t0⟩ := reach_inv he
  obtain ⟨g1, g2⟩ := gk_bounds hp
  obtain ⟨⟨v1, v2, v3, v4⟩, -⟩ := vanAllen_bounds hp
  obtain ⟨⟨s1, s2, s3, s4⟩, -⟩ := saa_bounds p
  have eg : gcr p = ⟨10 ^ 3 * gk p, 10 ^ 2 * gk p, 10 * gk p, 1 / 1000 * gk p⟩ := rfl
  refine ⟨?_, ?_, ?_, ?_, ?_, rfl⟩ <;> apply flux_mono ⟨a0, a1⟩ <;> simp only [raw, eg, Flux.plus, Flux.scale] <;> norm_num <;> linarith

/-- C117, sources: before solar activity and shielding each kind of particle of a mission in low orbit is the sum of that kind from cosmic rays, belts and anomaly; in medium orbit of cosmic rays and three times the belts; for Moon, Mars and Jupiter 1.5, 2 and 1000 times that of cosmic rays. -/
theorem C117_sources {m : Mission} {e : Env} (he : Reach m e) (p : Pos) :
    let E := (3 / 2 + 47 / 10 * e.activity) * Real.exp (-attE e.material * e.thickness)
    let P := (2 + 97 / 10 * e.activity) * Real.exp (-attP e.material * e.thickness)
    let H := (1 - 3 / 10 * e.activity) * Real.exp (-attH e.material * e.thickness)
    let g := gcr p
    let v := vanAllen p
    let a := saa p
    0 < E ∧ 0 < P ∧ 0 < H ∧
    (((e.on .leoPolar).flux p).electron = (g.electron + v.electron + a.electron) * E ∧ ((e.on .leoPolar).flux p).proton = (g.proton + v.proton + a.proton) * P ∧ ((e.on .leoPolar).flux p).ion = (g.ion + v.ion + a.ion) * H) ∧
    (((e.on .meo).flux p).electron = (g.electron + 3 * v.electron) * E ∧ ((e.on .meo).flux p).proton = (g.proton + 3 * v.proton) * P ∧ ((e.on .meo).flux p).ion = (g.ion + 3 * v.ion) * H) ∧
    (∀ q : Mission × ℝ, q ∈ [(Mission.lunar, (3 / 2 : ℝ)), (.mars, 2), (.jupiter, 1000)] → ((e.on q.1).flux p).electron = q.2 * g.electron * E ∧ ((e.on q.1).flux p).proton = q.2 * g.proton * P ∧ ((e.on q.1).flux p).ion = q.2 * g.ion * H) := by
  obtain ⟨hm, a0, a1, t0⟩ := reach_inv he
  refine ⟨mul_pos (by linarith) (Real.exp_pos _), mul_pos (by linarith) (Real.exp_pos _), mul_pos (by linarith) (Real.exp_pos _), ⟨?_, ?_, ?_⟩, ⟨?_, ?_, ?_⟩, ?_⟩
  · simp only [flux_electron, Env.on, raw, Flux.plus]; ring
  · simp only [flux_proton, Env.on, raw, Flux.plus]; ring
  · simp only [flux_ion, Env.on, raw, Flux.plus]; ring
  · simp only [flux_electron, Env.on, raw, Flux.plus, Flux.scale]; ring
  · simp only [flux_proton, Env.on, raw, Flux.plus, Flux.scale]; ring
  · simp only [flux_ion, Env.on, raw, Flux.plus, Flux.scale]; ring
  · intro q hq
    simp only [List.mem_cons, List.not_mem_nil, or_false] at hq
    rcases hq with rfl | rfl | rfl <;> refine ⟨?_, ?_, ?_⟩ <;> simp only [flux_electron, flux_proton, flux_ion, Env.on, raw, Flux.scale] <;> ring

/-- C117, violated: "Solar missions have intense particle flux": the solar probe's flux is everywhere exactly that of the geostationary orbit, less than that of a lunar mission; the distance to the Sun is fixed at 1 AU, so the increase is never applied. -/
theorem C117_solar_probe_violated {m : Mission} {e : Env} (he : Reach m e) {p : Pos} (hp : Valid p) :
    (e.on .solarProbe).flux p = (e.on .geo).flux p ∧ ((e.on .solarProbe).flux p).proton < ((e.on .lunar).flux p).proton := by
  obtain ⟨hm, a0, a1, t0⟩ := reach_inv he
  obtain ⟨g1, g2⟩ := gk_bounds hp
  have e1 : raw .solarProbe p = gcr p := by simp only [raw]; rw [if_neg (by norm_num)]
  refine ⟨?_, ?_⟩
  · have : raw .geo p = gcr p := rfl
    unfold Env.flux
    show Env.shield _ (Env.solar _ (raw .solarProbe p)) = Env.shield _ (Env.solar _ (raw .geo p))
    rw [e1, this]; rfl
  · simp only [flux_proton]
    show (raw .solarProbe p).proton * _ * _ < (raw .lunar p).proton * _ * _
    rw [e1]
    apply mul_lt_mul_of_pos_right _ (Real.exp_pos _)
    apply mul_lt_mul_of_pos_right _ (by simp only [Env.on]; linarith)
    simp only [raw, gcr_eq, Flux.scale]; linarith

/-- C117, violated: the geostationary orbit lies in the outer belt ("Outer belt: ~13000-60000 km"), but its mission is the only Earth orbit whose flux leaves the belts out: at every position away from the poles above the ground it has strictly fewer electrons than the other orbits. -/
theorem C117_geo_belt_violated {m : Mission} {e : Env} (he : Reach m e) {p : Pos} (hp : Valid p) (halt : 0 < p.alt) (hc : Real.cos (rad p.lat) ≠ 0) :
    ((e.on .geo).flux p).electron < ((e.on .leoEquatorial).flux p).electron ∧ ((e.on .geo).flux p).electron < ((e.on .meo).flux p).electron := by
  obtain ⟨hm, a0, a1, t0⟩ := reach_inv he
  obtain ⟨⟨s1, s2, s3, s4⟩, -⟩ := saa_bounds p
  have hv : 0 < (vanAllen p).electron := by
    have hb : 0 < belt p (9 / 2) 2 := by unfold belt; rw [if_neg hc]; exact Real.exp_pos _
    simp only [vanAllen]
    have hk : 0 < (if p.alt < 1000 then p.alt / 1000 else 1) := by split_ifs <;> linarith
    positivity
  have k1 : 0 < 3 / 2 + 47 / 10 * e.activity := by linarith
  constructor <;> simp only [flux_electron, Env.on] <;> apply mul_lt_mul_of_pos_right _ (Real.exp_pos _) <;> apply mul_lt_mul_of_pos_right _ k1 <;>
    simp only [raw, Flux.plus, Flux.scale] <;> linarith

/-! ### C119 -/

/-- C119, activity: after a flare of intensity 0 … 1 the activity is still between 0 and 1 and not lower than before, so electrons and protons do not fall. -/
theorem C119_flare {m : Mission} {e : Env} (he : Reach m e) {i : ℝ} (h0 : 0 ≤ i) (h1 : i ≤ 1) {p : Pos} (hp : Valid p) :
    e.activity ≤ (e.flare i).2.activity ∧ (e.flare i).2.activity ≤ 1 ∧
    (e.flux p).electron ≤ ((e.flare i).2.flux p).electron ∧ (e.flux p).proton ≤ ((e.flare i).2.flux p).proton := by
  obtain ⟨hm, a0, a1, t0⟩ := reach_inv he
  obtain ⟨r1, r2, r3, _⟩ := raw_bounds e.mission hp
  have hle : e.activity ≤ (e.flare i).2.activity := le_min a1 (by linarith)
  refine ⟨hle, min_le_left _ _, ?_, ?_⟩
  · simp only [flux_electron]
    apply mul_le_mul_of_nonneg_right _ (Real.exp_pos _).le
    exact mul_le_mul_of_nonneg_left (by linarith) r1.le
  · simp only [flux_proton]
    apply mul_le_mul_of_nonneg_right _ (Real.exp_pos _).le
    exact mul_le_mul_of_nonneg_left (by linarith) r2.le

/-- C119, violated: "Flux increase factor": a flare of full intensity reports a factor of 101, but no flux rises to four times its value, and heavy ions do not rise at all. -/
theorem C119_factor_violated {m : Mission} {e : Env} (he : Reach m e) {p : Pos} (hp : Valid p) :
    (e.flare 1).1 = 101 ∧ ((e.flare 1).2.flux p).electron < 4 * (e.flux p).electron ∧ ((e.flare 1).2.flux p).proton < 4 * (e.flux p).proton ∧
    ((e.flare 1).2.flux p).ion ≤ (e.flux p).ion := by
  obtain ⟨hm, a0, a1, t0⟩ := reach_inv he
  obtain ⟨r1, r2, r3, _⟩ := raw_bounds e.mission hp
  have hle : e.activity ≤ (e.flare 1).2.activity := le_min a1 (by linarith)
  have hup : (e.flare 1).2.activity ≤ e.activity + 1 / 2 := (min_le_right _ _).trans (by linarith)
  refine ⟨by simp only [Env.flare]; norm_num, ?_, ?_, ?_⟩
  · simp only [flux_electron]
    show (raw e.mission p).electron * (3 / 2 + 47 / 10 * (e.flare 1).2.activity) * Real.exp (-attE e.material * e.thickness) < _
    have : (raw e.mission p).electron * (3 / 2 + 47 / 10 * (e.flare 1).2.activity) < 4 * ((raw e.mission p).electron * (3 / 2 + 47 / 10 * e.activity)) := by
      nlinarith
    have := mul_lt_mul_of_pos_right this (Real.exp_pos (-attE e.material * e.thickness))
    linarith
  · simp only [flux_proton]
    show (raw e.mission p).proton * (2 + 97 / 10 * (e.flare 1).2.activity) * Real.exp (-attP e.material * e.thickness) < _
    have : (raw e.mission p).proton * (2 + 97 / 10 * (e.flare 1).2.activity) < 4 * ((raw e.mission p).proton * (2 + 97 / 10 * e.activity)) := by
      nlinarith
    have := mul_lt_mul_of_pos_right this (Real.exp_pos (-attP e.material * e.thickness))
    linarith
  · simp only [flux_ion]
    apply mul_le_mul_of_nonneg_right _ (Real.exp_pos _).le
    exact mul_le_mul_of_nonneg_left (by linarith) r3.le

/-- Calls that do not set the activity. -/
def Op.passive : Op → Prop
  | .shielding _ _ => True
  | _ => False

/-- C119, violated: "Increase solar activity temporarily": nothing the class offers, except setting the activity by hand or another flare, ever lowers it again. -/
theorem C119_permanent_violated (e : Env) (i : ℝ) (ops : List Op) (h : ∀ o ∈ ops, o.passive) :
    (ops.foldl Env.step (e.flare i).2).activity = (e.flare i).2.activity := by
  have : ∀ (ops : List Op) (e : Env), (∀ o ∈ ops, o.passive) → (ops.foldl Env.step e).activity = e.activity := by
    intro ops
    induction ops with
    | nil => intro e _; rfl
    | cons o t ih =>
      intro e h
      rw [List.foldl_cons, ih _ fun o ho => h o (by simp [ho])]
      have := h o (by simp)
      cases o with
      | shielding t m => rfl
      | activity a => exact absurd this id
      | flare i => exact absurd this id
  exact this ops _ h

/-- C119, limit: an intensity below 0, which is accepted, takes the activity below 0; at −20 and lower the proton flux becomes negative. -/
theorem C119_negative_limit (m : Mission) (g : Int) {p : Pos} (hp : Valid p) {i : ℝ} (hi : i ≤ -20) : (((Env.new m g).flare i).2.flux p).proton < 0 := by
  obtain ⟨r1, r2, r3, _⟩ := raw_bounds m hp
  rw [flux_proton]
  have ha : ((Env.new m g).flare i).2.activity ≤ -9 := by
    refine (min_le_right _ _).trans ?_
    simp only [Env.new]; linarith
  apply mul_neg_of_neg_of_pos _ (Real.exp_pos _)
  exact mul_neg_of_pos_of_neg r2 (by linarith)

/-! ### Cases -/

example : Valid ⟨-30, -40, 550⟩ := ⟨by norm_num, by norm_num, by norm_num⟩
example : Reach .mars (((Env.new .mars 7).setShielding 10 2).flare (1 / 2)).2 := .flare _ _ (.shielding _ _ _ (.new 7) (by norm_num)) (by norm_num) (by norm_num)
example : Real.cos (rad 0) ≠ 0 := by simp [rad]
example : (0 : ℝ) < 550 := by norm_num
example : (saa ⟨-30, -40, 550⟩).proton = 10 ^ 6 := by
  norm_num [saa]

end Verif.RadEnvironment
