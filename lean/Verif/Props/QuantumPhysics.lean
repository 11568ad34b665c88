import Verif.Model.QuantumPhysics
import Mathlib.Tactic.Linarith
import Mathlib.Tactic.Positivity
import Mathlib.Tactic.NormNum
import Mathlib.Tactic.Ring
import Mathlib.Tactic.FieldSimp
/-!
Properties C166–C171: tunnelling, zero-point energy, corrections of defects, cascades, displacement energy, decoherence and transitions.
-/
namespace Verif.QuantumPhysics
open Verif.QuantumField

theorem R.ok_bind {α β : Type} (a : α) (f : α → R β) : (R.ok a).bind f = f a := rfl

theorem unit_range (x : ℝ) : 0 ≤ unit x ∧ unit x ≤ 1 := by
  unfold unit
  split
  · norm_num
  · split <;> constructor <;> linarith

theorem unit_id {x : ℝ} (h0 : 0 ≤ x) (h1 : x ≤ 1) : unit x = x := by
  unfold unit
  rw [if_neg (not_lt.2 h0), if_neg (not_lt.2 h1)]

theorem unit_mono {x y : ℝ} (h : x ≤ y) : unit x ≤ unit y := by
  unfold unit
  split <;> split <;> (try split) <;> (try split) <;> linarith

theorem kB_pos : 0 < kB := by unfold kB; norm_num
theorem q0_pos : 0 < q0 := by unfold q0; norm_num

/-! ### C166: tunnelling -/

theorem thermal_range {b : ℝ} (hb : 0 < b) {T : ℝ} (hT : 0 ≤ T) : 0 ≤ thermal b T ∧ thermal b T ≤ 1 := by
  unfold thermal
  split
  · norm_num
  · refine ⟨(Real.exp_pos _).le, Real.exp_le_one_iff.2 ?_⟩
    have := kB_pos
    exact div_nonpos_of_nonpos_of_nonneg (by linarith) (by positivity)

theorem wkb_range {b m h : ℝ} (hh : 0 < h) : 0 < wkb b m h ∧ wkb b m h ≤ 1 := by
  unfold wkb
  refine ⟨Real.exp_pos _, Real.exp_le_one_iff.2 ?_⟩
  have := q0_pos
  have := Real.sqrt_nonneg (2 * m * (b * q0))
  exact div_nonpos_of_nonpos_of_nonneg (by nlinarith) (by positivity)

theorem tunnel_eq {b m h T : ℝ} (hb : 0 < b) (hm : 0 < m) (hh : 0 < h) (hT : 0 ≤ T) : tunnel b m h T = 1 - (1 - wkb b m h) * (1 - thermal b T) := by
  obtain ⟨t0, t1⟩ := thermal_range hb hT
  obtain ⟨w0, w1⟩ := wkb_range (b := b) (m := m) hh
  unfold tunnel
  rw [if_neg (by simp only [not_or, not_le]; exact ⟨hb, hm, hh⟩), unit_id]
  · ring
  · nlinarith
  · nlinarith

/-- C166: the tunnelling probability is a probability for all inputs. -/
theorem C166_range (b m h T : ℝ) : 0 ≤ tunnel b m h T ∧ tunnel b m h T ≤ 1 := by
  unfold tunnel
  split
  · norm_num
  · exact unit_range _

/-- C166: for positive barrier (eV), mass (kg), Planck constant (eV s) and temperature (K) it is the probability that at least one of two independent crossings happens: through a barrier 0.2 nm wide, exp(−2·w·√(2mE)/ħ), or over it, exp(−E/kT); at temperature 0 only the first; without barrier, mass or Planck constant it is 0. -/
theorem C166_formula (b m h T : ℝ) :
    (0 < b → 0 < m → 0 < h → 0 < T → tunnel b m h T =
      1 - (1 - Real.exp (-(2 * (2 / 10 ^ 10) * Real.sqrt (2 * m * (b * (1.602176634 / 10 ^ 19))) / (h * (1.602176634 / 10 ^ 19))))) * (1 - Real.exp (-(b / (8.617333262 / 10 ^ 5 * T))))) ∧
    (0 < b → 0 < m → 0 < h → tunnel b m h 0 = Real.exp (-(2 * (2 / 10 ^ 10) * Real.sqrt (2 * m * (b * (1.602176634 / 10 ^ 19))) / (h * (1.602176634 / 10 ^ 19))))) ∧
    (b ≤ 0 ∨ m ≤ 0 ∨ h ≤ 0 → tunnel b m h T = 0) := by
  have e1 : ∀ b m h : ℝ, wkb b m h = Real.exp (-(2 * (2 / 10 ^ 10) * Real.sqrt (2 * m * (b * (1.602176634 / 10 ^ 19))) / (h * (1.602176634 / 10 ^ 19)))) := by
    intro b m h
    unfold wkb q0
    rw [show (1.602176634 * (10 : ℝ)⁻¹ ^ 19) = 1.602176634 / 10 ^ 19 by norm_num, show (2 * (10 : ℝ)⁻¹ ^ 10) = 2 / 10 ^ 10 by norm_num]
    congr 1
    ring
  refine ⟨fun hb hm hh hT => ?_, fun hb hm hh => ?_, fun h => by simp [tunnel, h]⟩
  · rw [tunnel_eq hb hm hh hT.le, e1]
    congr 2
    unfold thermal kB
    rw [if_neg hT.ne', show (8.617333262 * (10 : ℝ)⁻¹ ^ 5) = 8.617333262 / 10 ^ 5 by norm_num, neg_div]
  · rw [tunnel_eq hb hm hh le_rfl, e1]
    simp [thermal]

/-- C166: a higher barrier or a heavier particle never makes tunnelling more likely; a higher temperature never makes it less likely. -/
theorem C166_monotone (b b' m m' h T T' : ℝ) (hb : 0 < b) (hbb : b ≤ b') (hm : 0 < m) (hmm : m ≤ m') (hh : 0 < h) (hT : 0 ≤ T) (hTT : T ≤ T') :
    tunnel b' m' h T ≤ tunnel b m h T' := by
  have hq := q0_pos
  have hk := kB_pos
  rw [tunnel_eq (by linarith) (by linarith) hh hT, tunnel_eq hb hm hh (by linarith)]
  have w : wkb b' m' h ≤ wkb b m h := by
    unfold wkb
    apply Real.exp_le_exp.2
    apply div_le_div_of_nonneg_right _ (by positivity)
    have : Real.sqrt (2 * m * (b * q0)) ≤ Real.sqrt (2 * m' * (b' * q0)) := Real.sqrt_le_sqrt (by
      have := mul_le_mul_of_nonneg_right hbb hq.le
      have := mul_pos hb hq
      nlinarith)
    nlinarith
  have t : thermal b' T ≤ thermal b T' := by
    by_cases h0 : T = 0
    · rw [h0]
      have := (thermal_range hb (show 0 ≤ T' by linarith)).1
      simpa [thermal] using this
    · have hT1 : 0 < T := lt_of_le_of_ne hT (Ne.symm h0)
      unfold thermal
      rw [if_neg h0, if_neg (by linarith)]
      apply Real.exp_le_exp.2
      rw [neg_div, neg_div, neg_le_neg_iff]
      apply div_le_div₀ (by linarith) hbb (by positivity)
      exact mul_le_mul_of_nonneg_left hTT hk.le
  obtain ⟨t0, t1⟩ := thermal_range (b := b') (by linarith) hT
  obtain ⟨w0, w1⟩ := wkb_range (b := b) (m := m) hh
  obtain ⟨t2, t3⟩ := thermal_range hb (show 0 ≤ T' by linarith)
  obtain ⟨w2, w3⟩ := wkb_range (b := b') (m := m') hh
  nlinarith

/-- C166: for a particle type the mass of the type counts; a type without mass is refused. -/
theorem C166_type (p : QParams) (k : Particle) (b T : ℝ) :
    (∀ m, p.masses k = some m → tunnelFor p k b T = .ok (tunnel b m p.hbar T)) ∧ (p.masses k = none → tunnelFor p k b T = .throw .runtime) := by
  constructor
  · intro m h; simp [tunnelFor, QParams.mass, h, R.bind]
  · intro h; simp [tunnelFor, QParams.mass, h, R.bind]

/-- C166 (limit): below absolute zero every barrier is crossed with certainty. -/
theorem C166_negative_limit (b m h T : ℝ) (hb : 0 < b) (hm : 0 < m) (hh : 0 < h) (hT : T < 0) : tunnel b m h T = 1 := by
  have hk := kB_pos
  obtain ⟨w0, w1⟩ := wkb_range (b := b) (m := m) hh
  have ht : 1 ≤ thermal b T := by
    unfold thermal
    rw [if_neg hT.ne]
    apply Real.one_le_exp
    exact div_nonneg_of_nonpos (by linarith) (by nlinarith)
  unfold tunnel
  rw [if_neg (by simp only [not_or, not_le]; exact ⟨hb, hm, hh⟩)]
  have : 1 ≤ wkb b m h + thermal b T - wkb b m h * thermal b T := by nlinarith
  unfold unit
  rw [if_neg (by linarith)]
  split
  · rfl
  · linarith

/-- C166: a proton and a barrier of 1 eV: a probability strictly between 0 and 1 at temperature 0. -/
example : 0 < tunnel 1 (1.6726219 * 10⁻¹ ^ 27) (6.582119569 * 10⁻¹ ^ 16) 0 ∧ tunnel 1 (1.6726219 * 10⁻¹ ^ 27) (6.582119569 * 10⁻¹ ^ 16) 0 < 1 := by
  rw [(C166_formula 1 (1.6726219 * 10⁻¹ ^ 27) (6.582119569 * 10⁻¹ ^ 16) 0).2.1 one_pos (by norm_num) (by norm_num)]
  refine ⟨Real.exp_pos _, ?_⟩
  rw [← Real.exp_zero]
  apply Real.exp_lt_exp.2
  rw [neg_lt_zero]
  have : 0 < Real.sqrt (2 * (1.6726219 * (10 : ℝ)⁻¹ ^ 27) * (1 * (1.602176634 / 10 ^ 19))) := Real.sqrt_pos.2 (by norm_num)
  positivity

/-! ### C167: zero-point energy -/

/-- C167: the zero-point energy is ħ/2 · √(10/m) / a · 1/(1 + T/100), with the lattice constant a in units of 10⁻¹⁰, and positive. -/
theorem C167_formula (hbar m a T : ℝ) (hh : 0 < hbar) (hm : 0 < m) (ha : 0 < a) (hT : 0 ≤ T) :
    zeroPoint hbar m a T = hbar / 2 * Real.sqrt (10 / m) / (a / 10 ^ 10) / (1 + T / 100) ∧ 0 < zeroPoint hbar m a T := by
  have hq := q0_pos
  have e : zeroPoint hbar m a T = hbar / 2 * Real.sqrt (10 / m) / (a / 10 ^ 10) / (1 + T / 100) := by
    unfold zeroPoint
    have : 10 / (a * (10 : ℝ)⁻¹ ^ 10 * (a * (10 : ℝ)⁻¹ ^ 10)) / m = 10 / m / (a / 10 ^ 10) ^ 2 := by field_simp
    rw [this, Real.sqrt_div' _ (by positivity), Real.sqrt_sq (by positivity)]
    field_simp
    ring
  refine ⟨e, ?_⟩
  rw [e]
  have : 0 < Real.sqrt (10 / m) := Real.sqrt_pos.2 (by positivity)
  positivity

/-- C167: heavier particles, wider lattices and higher temperatures never raise it. -/
theorem C167_monotone (hbar m m' a a' T T' : ℝ) (hh : 0 < hbar) (hm : 0 < m) (hmm : m ≤ m') (ha : 0 < a) (haa : a ≤ a') (hT : 0 ≤ T) (hTT : T ≤ T') :
    zeroPoint hbar m' a' T' ≤ zeroPoint hbar m a T := by
  rw [(C167_formula hbar m a T hh hm ha hT).1, (C167_formula hbar m' a' T' hh (by linarith) (by linarith) (by linarith)).1]
  have s : Real.sqrt (10 / m') ≤ Real.sqrt (10 / m) := Real.sqrt_le_sqrt (div_le_div_of_nonneg_left (by norm_num) hm hmm)
  have := Real.sqrt_nonneg (10 / m')
  have := Real.sqrt_nonneg (10 / m)
  apply div_le_div₀ (by positivity) _ (by positivity) (by linarith)
  apply div_le_div₀ (by positivity) _ (by positivity) (by linarith)
  exact mul_le_mul_of_nonneg_left s (by linarith)

/-- C167: the corrected energy of a defect is below the classical one, by the zero-point energy of the particle in the configured lattice, and comes closer to it with temperature; a type without mass is refused. -/
theorem C167_defect (p : QParams) (k : Particle) (T energy : ℝ) :
    (p.masses k = none → defectEnergy p k T energy = .throw .runtime) ∧
    ∀ m, p.masses k = some m → defectEnergy p k T energy = .ok (energy - zeroPoint p.hbar m p.lattice T) ∧
      (0 < p.hbar → 0 < m → 0 < p.lattice → 0 ≤ T → energy - zeroPoint p.hbar m p.lattice T < energy ∧ ∀ T', T ≤ T' → energy - zeroPoint p.hbar m p.lattice T ≤ energy - zeroPoint p.hbar m p.lattice T') := by
  refine ⟨fun h => by simp [defectEnergy, QParams.mass, h, R.bind], fun m h => ⟨by simp [defectEnergy, QParams.mass, h, R.bind], fun h1 h2 h3 h4 => ⟨?_, fun T' hT' => ?_⟩⟩⟩
  · have := (C167_formula p.hbar m p.lattice T h1 h2 h3 h4).2
    linarith
  · have := C167_monotone p.hbar m m p.lattice p.lattice T T' h1 h2 le_rfl h3 le_rfl h4 hT'
    linarith

theorem big_sqrt : (7 * 10 ^ 13 : ℝ) ≤ Real.sqrt (10 / (1.6726219 * 10⁻¹ ^ 27)) := by
  apply Real.le_sqrt_of_sq_le
  norm_num

/-- C167 (violated): the units do not fit: with the default parameters the zero-point energy of a proton at 300 K exceeds 50 MeV, so that every defect of up to 50 MeV (real ones need a few eV) gets a negative formation energy. -/
theorem C167_units_violated (energy : ℝ) (he : energy ≤ 5 * 10 ^ 7) : ∃ e, defectEnergy .default .proton 300 energy = .ok e ∧ e < 0 := by
  refine ⟨_, ((C167_defect .default .proton 300 energy).2 _ rfl).1, ?_⟩
  rw [(C167_formula QParams.default.hbar (1.6726219 * 10⁻¹ ^ 27) QParams.default.lattice 300 (by norm_num [QParams.default]) (by norm_num) (by norm_num [QParams.default]) (by norm_num)).1]
  have := big_sqrt
  simp only [QParams.default]
  norm_num at this ⊢
  linarith

/-! ### C168: corrections of a defect distribution -/

/-- The type is processed: it was asked for, or nothing was asked for and it has an entry. -/
def Processed (d : Defects) (asked : List Particle) (k : Particle) : Prop := k ∈ asked ∨ asked = [] ∧ ((d.inter k).isSome ∨ (d.vac k).isSome ∨ (d.clus k).isSome)

theorem mem_types (d : Defects) (asked : List Particle) (k : Particle) : k ∈ typesToProcess d asked ↔ Processed d asked k := by
  have hk : k ∈ allTypes := by cases k <;> simp [allTypes]
  unfold typesToProcess Processed
  rw [List.mem_filter]
  by_cases h : asked = []
  · subst h; simp [hk, or_assoc]
  · simp [hk, h]

theorem nodup_types (d : Defects) (asked : List Particle) : (typesToProcess d asked).Nodup := by
  unfold typesToProcess
  exact List.Nodup.filter _ (by simp [allTypes])

theorem loop_ok (p : QParams) (c : Crystal) (T : ℝ) : ∀ (ks : List Particle) (d : Defects), ks.Nodup → (∀ k ∈ ks, ∃ m, p.masses k = some m) →
    ∃ d', correctLoop p c T ks d = .ok d' ∧ (∀ k, k ∉ ks → d'.inter k = d.inter k ∧ d'.vac k = d.vac k ∧ d'.clus k = d.clus k) ∧
      ∀ k ∈ ks, ∀ m, p.masses k = some m →
        d'.inter k = (d.inter k).map (fun l => l.map (· * ((enhancement p c T m).1 * tempScale p T))) ∧
        d'.vac k = (d.vac k).map (fun l => l.map (· * ((enhancement p c T m).2.1 * tempScale p T))) ∧
        d'.clus k = (d.clus k).map (fun l => l.map (· * ((enhancement p c T m).2.2 * tempScale p T)))
  | [], d, _, _ => ⟨d, rfl, by simp, by simp⟩
  | k :: ks, d, hn, hm => by
    obtain ⟨hn1, hn2⟩ := List.nodup_cons.1 hn
    obtain ⟨m, hk⟩ := hm k (by simp)
    obtain ⟨d', h1, h2, h3⟩ := loop_ok p c T ks ⟨scaleAt d.inter k ((enhancement p c T m).1 * tempScale p T), scaleAt d.vac k ((enhancement p c T m).2.1 * tempScale p T), scaleAt d.clus k ((enhancement p c T m).2.2 * tempScale p T)⟩
      hn2 (fun j hj => hm j (by simp [hj]))
    refine ⟨d', ?_, ?_, ?_⟩
    · simp only [correctLoop, QParams.mass, hk, R.bind]
      exact h1
    · intro j hj
      have hj1 : j ≠ k := fun e => hj (by simp [e])
      have := h2 j (fun e => hj (by simp [e]))
      simpa [scaleAt, hj1] using this
    · intro j hj m' hm'
      by_cases e : j = k
      · subst e
        rw [hk] at hm'
        have e' : m = m' := by simpa using hm'
        subst e'
        have := h2 j hn1
        simpa [scaleAt] using this
      · have := h3 j (by simpa [e] using hj) m' hm'
        simpa [scaleAt, e] using this

theorem loop_throw (p : QParams) (c : Crystal) (T : ℝ) : ∀ (ks : List Particle) (d : Defects), (∃ k ∈ ks, p.masses k = none) → correctLoop p c T ks d = .throw .runtime
  | [], d, h => by simp at h
  | k :: ks, d, h => by
    cases hk : p.masses k with
    | none => simp [correctLoop, QParams.mass, hk, R.bind]
    | some m =>
      obtain ⟨j, hj, hm⟩ := h
      have hj' : j ∈ ks := by
        rcases List.mem_cons.1 hj with e | e
        · rw [e, hk] at hm; cases hm
        · exact e
      simp only [correctLoop, QParams.mass, hk, R.bind]
      exact loop_throw p c T ks _ ⟨j, hj', hm⟩

/-- C168: types that are not processed keep their defects, in a processed one every region is multiplied by one factor per kind of defect; asking for a type twice is asking once; if a processed type has no mass, the call throws. -/
theorem C168_correct (p : QParams) (c : Crystal) (T : ℝ) (asked : List Particle) (d : Defects) :
    ((∃ k, Processed d asked k ∧ p.masses k = none) → correct p c T asked d = .throw .runtime) ∧
    ((∀ k, Processed d asked k → ∃ m, p.masses k = some m) → ∃ d', correct p c T asked d = .ok d' ∧
      (∀ k, ¬ Processed d asked k → d'.inter k = d.inter k ∧ d'.vac k = d.vac k ∧ d'.clus k = d.clus k) ∧
      ∀ k m, Processed d asked k → p.masses k = some m → ∃ fi fv fc, 
        fi = min (1 + 5 * tunnel c.barrier m p.hbar T) (1 + kB * T / c.barrier) * tempScale p T ∧
        fv = min (1 + 3 * tunnel c.barrier m p.hbar T) (1 + kB * T / c.barrier) * tempScale p T ∧
        fc = min (1 + 2 * zeroPoint p.hbar m c.constant T / c.barrier) (1 + kB * T / c.barrier) * tempScale p T ∧
        d'.inter k = (d.inter k).map (fun l => l.map (· * fi)) ∧ d'.vac k = (d.vac k).map (fun l => l.map (· * fv)) ∧ d'.clus k = (d.clus k).map (fun l => l.map (· * fc))) := by
  constructor
  · rintro ⟨k, hk, hm⟩
    exact loop_throw p c T _ d ⟨k, (mem_types d asked k).2 hk, hm⟩
  · intro hm
    obtain ⟨d', h1, h2, h3⟩ := loop_ok p c T (typesToProcess d asked) d (nodup_types d asked) (fun k hk => hm k ((mem_types d asked k).1 hk))
    refine ⟨d', h1, fun k hk => h2 k (fun e => hk ((mem_types d asked k).1 e)), fun k m hk hmk => ⟨_, _, _, rfl, rfl, rfl, h3 k ((mem_types d asked k).2 hk) m hmk⟩⟩

/-- C168: the factors lie between the temperature scale and 1 + kT/barrier times it; vacancies are never enhanced more than interstitials; at absolute zero nothing is enhanced; the scale is 1 from the threshold on and grows below it. -/
theorem C168_factors (p : QParams) (c : Crystal) (T m : ℝ) (hb : 0 < c.barrier) (hT : 0 ≤ T) (hh : 0 < p.hbar) (hm : 0 < m) (ha : 0 < c.constant) (hs : 0 < p.scaling) :
    1 ≤ tempScale p T ∧ (p.threshold ≤ T → tempScale p T = 1) ∧ (∀ T', T ≤ T' → tempScale p T' ≤ tempScale p T) ∧
    (let fi := min (1 + 5 * tunnel c.barrier m p.hbar T) (1 + kB * T / c.barrier)
     let fv := min (1 + 3 * tunnel c.barrier m p.hbar T) (1 + kB * T / c.barrier)
     let fc := min (1 + 2 * zeroPoint p.hbar m c.constant T / c.barrier) (1 + kB * T / c.barrier)
     1 ≤ fv ∧ fv ≤ fi ∧ fi ≤ 1 + kB * T / c.barrier ∧ 1 ≤ fc ∧ fc ≤ 1 + kB * T / c.barrier ∧ (T = 0 → fi = 1 ∧ fv = 1 ∧ fc = 1)) := by
  have hk := kB_pos
  have ht := (C166_range c.barrier m p.hbar T).1
  have hz := (C167_formula p.hbar m c.constant T hh hm ha hT).2
  have hc : 0 ≤ kB * T / c.barrier := by positivity
  have hz' : 0 < 2 * zeroPoint p.hbar m c.constant T / c.barrier := by positivity
  refine ⟨?_, fun h => by unfold tempScale; rw [if_neg (not_lt.2 h)], fun T' hT' => ?_, ?_⟩
  · unfold tempScale
    split
    · have : 0 ≤ (p.threshold - T) / p.scaling := div_nonneg (by linarith) hs.le
      linarith
    · exact le_rfl
  · unfold tempScale
    split
    · rw [if_pos (by linarith)]
      have := div_le_div_of_nonneg_right (show p.threshold - T' ≤ p.threshold - T by linarith) hs.le
      linarith
    · split
      · have : 0 ≤ (p.threshold - T) / p.scaling := div_nonneg (by linarith) hs.le
        linarith
      · exact le_rfl
  · refine ⟨le_min (by linarith) (by linarith), min_le_min (by linarith) le_rfl, min_le_right _ _, le_min (by linarith) (by linarith), min_le_right _ _, fun h0 => ?_⟩
    subst h0
    simp only [mul_zero, zero_div, add_zero]
    exact ⟨min_eq_right (by linarith), min_eq_right (by linarith), min_eq_right (by linarith)⟩

/-- C168 (violated): "quantum effects are stronger at lower temperatures", but at absolute zero, where all enhancements are 1, every defect count is multiplied by 2.5, including those of a crystal without any quantum effect. -/
theorem C168_scale_violated (c : Crystal) (d : Defects) (hb : 0 < c.barrier) (ha : 0 < c.constant) (l : List ℝ) (hd : d.inter .proton = some l) :
    ∃ d', correct .default c 0 [.proton] d = .ok d' ∧ d'.inter .proton = some (l.map (· * (5 / 2))) := by
  have hpr : ∀ k, Processed d [.proton] k ↔ k = .proton := by intro k; simp [Processed]
  obtain ⟨d', h1, _, h3⟩ := (C168_correct .default c 0 [.proton] d).2 (fun k hk => by rw [(hpr k).1 hk]; exact ⟨_, rfl⟩)
  obtain ⟨fi, fv, fc, e1, _, _, e2, _⟩ := h3 .proton (1.6726219 * 10⁻¹ ^ 27) ((hpr _).2 rfl) rfl
  refine ⟨d', h1, ?_⟩
  have hf := (C168_factors .default c 0 (1.6726219 * 10⁻¹ ^ 27) hb le_rfl (by norm_num [QParams.default]) (by norm_num) ha (by norm_num [QParams.default])).2.2.2.2.2.2.2.2 rfl
  rw [hf.1] at e1
  have : fi = 5 / 2 := by rw [e1]; norm_num [tempScale, QParams.default]
  rw [e2, hd, this]
  rfl

/-- C168: a request for electrons leaves the proton defects alone. -/
example : ∃ d', correct .default ⟨.diamond, 5.43, 1⟩ 300 [.electron, .electron] .default = .ok d' ∧ d'.inter .proton = some [1, 2, 3] := by
  have hpr : ∀ k, Processed .default [.electron, .electron] k ↔ k = .electron := by intro k; simp [Processed]
  obtain ⟨d', h1, h2, _⟩ := (C168_correct .default ⟨.diamond, 5.43, 1⟩ 300 [.electron, .electron] .default).2 (fun k hk => by rw [(hpr k).1 hk]; exact ⟨_, rfl⟩)
  exact ⟨d', h1, (h2 .proton (by rw [hpr]; simp)).1⟩

/-! ### C169: displacement cascades -/

/-- The number of defects of a type. -/
noncomputable def Defects.count (d : Defects) (k : Particle) : ℝ := ((d.inter k).getD []).sum + ((d.vac k).getD []).sum + ((d.clus k).getD []).sum

/-- C169: an atom with more than the displacement energy produces ⌊0.8 E/E_d⌋ defects of its particle type, in three regions each, none negative; their number never falls with the energy. -/
theorem C169_cascade (pka e : ℝ) (k : Particle) (he : 0 < e) (h : e < pka) :
    (cascade pka e k).count k = ⌊4 / 5 * pka / e⌋ ∧ (∀ l, (cascade pka e k).inter k = some l ∨ (cascade pka e k).vac k = some l ∨ (cascade pka e k).clus k = some l → l.length = 3 ∧ ∀ x ∈ l, 0 ≤ x) ∧
    ∀ pka', pka ≤ pka' → (cascade pka e k).count k ≤ (cascade pka' e k).count k := by
  have key : ∀ pka, e < pka → (cascade pka e k).count k = ⌊4 / 5 * pka / e⌋ := by
    intro pka h
    unfold cascade Defects.count
    rw [if_pos h]
    have e0 : (0.8 : ℝ) = 4 / 5 := by norm_num
    simp only [putAt, if_true, Option.getD_some, List.sum_cons, List.sum_nil, e0]
    cases k <;> simp only [fractions] <;> ring
  refine ⟨key pka h, ?_, fun pka' h' => ?_⟩
  · intro l hl
    have hn : (0 : ℝ) ≤ ⌊0.8 * pka / e⌋ := by
      have : 0 ≤ ⌊0.8 * pka / e⌋ := Int.floor_nonneg.2 (div_nonneg (by linarith) he.le)
      exact_mod_cast this
    unfold cascade at hl
    rw [if_pos h] at hl
    simp only [putAt, if_true, Option.some.injEq] at hl
    have hf : 0 ≤ (fractions k).1 ∧ 0 ≤ (fractions k).2.1 ∧ 0 ≤ (fractions k).2.2 := by cases k <;> norm_num [fractions]
    obtain ⟨f1, f2, f3⟩ := hf
    rcases hl with rfl | rfl | rfl <;> refine ⟨rfl, ?_⟩ <;> simp only [List.mem_cons, List.not_mem_nil, or_false] <;> rintro x (rfl | rfl | rfl) <;> positivity
  · rw [key pka h, key pka' (by linarith)]
    have : ⌊4 / 5 * pka / e⌋ ≤ ⌊4 / 5 * pka' / e⌋ := Int.floor_le_floor (div_le_div_of_nonneg_right (by linarith) he.le)
    exact_mod_cast this

/-- C169 (violated): an atom with too little energy displaces nothing, but the distribution returned counts 15 proton defects; for every other particle they are added to the defects of that particle. -/
theorem C169_nothing_violated (pka e : ℝ) (k : Particle) : (pka ≤ e → (cascade pka e k).count .proton = 15) ∧ (k ≠ .proton → (cascade pka e k).count .proton = 15) := by
  constructor
  · intro h
    unfold cascade Defects.count
    rw [if_neg (not_lt.2 h)]
    norm_num [Defects.default]
  · intro h
    unfold cascade Defects.count
    split
    · simp only [putAt, if_neg (Ne.symm h)]
      norm_num [Defects.default]
    · norm_num [Defects.default]

/-- C169: 1000 eV at a displacement energy of 25 eV make 32 proton defects. -/
example : (cascade 1000 25 .proton).count .proton = 32 := by
  rw [(C169_cascade 1000 25 .proton (by norm_num) (by norm_num)).1]
  have : ⌊(4 / 5 * 1000 / 25 : ℝ)⌋ = 32 := by rw [Int.floor_eq_iff]; norm_num
  rw [this]; norm_num

/-! ### C170: displacement energy -/

/-- C170: the displacement energy is that of the lattice type, halved for electrons and raised by half for protons and heavy ions, plus the zero-point energy at 300 K; it is positive; a type without mass is refused. -/
theorem C170_displacement (p : QParams) (c : Crystal) (k : Particle) (hh : 0 < p.hbar) (ha : 0 < c.constant) :
    (p.masses k = none → displacement p c k = .throw .runtime) ∧
    ∀ m, p.masses k = some m → 0 < m → ∃ e b, displacement p c k = .ok e ∧
      b = (match c.type with | .fcc => 15 + 5 / 2 * c.constant | .bcc => 10 + 3 * c.constant | .diamond => 20 + 4 * c.constant) ∧
      e = b * (if k = .electron then 1 / 2 else if k = .proton ∨ k = .heavyIon then 3 / 2 else 1) + zeroPoint p.hbar m c.constant 300 ∧ 0 < e := by
  refine ⟨fun h => by simp [displacement, QParams.mass, h, R.bind], fun m h hm => ?_⟩
  have hz := (C167_formula p.hbar m c.constant 300 hh hm ha (by norm_num)).2
  have e0 : displacement p c k = .ok (displacementBase c k + zeroPoint p.hbar m c.constant 300) := by simp only [displacement, QParams.mass, h, R.bind]
  refine ⟨_, _, e0, rfl, ?_, ?_⟩
  · unfold displacementBase
    cases c.type <;> cases k <;> simp <;> first | (ring; done) | (left; ring; done) | (left; norm_num; done)
  · unfold displacementBase
    cases c.type <;> cases k <;> simp <;> positivity

/-- C170 (violated): "Proton ~62.6 eV" for silicon: the zero-point energy makes it more than 10 MeV. -/
theorem C170_silicon_violated : ∃ e, displacement .default ⟨.diamond, 5.431, 1⟩ .proton = .ok e ∧ 10 ^ 7 < e := by
  obtain ⟨e, b, h1, h2, h3, _⟩ := (C170_displacement .default ⟨.diamond, 5.431, 1⟩ .proton (by norm_num [QParams.default]) (by norm_num)).2 _ rfl (by norm_num)
  refine ⟨e, h1, ?_⟩
  rw [h3, h2, if_neg (by simp), if_pos (by simp), (C167_formula QParams.default.hbar (1.6726219 * 10⁻¹ ^ 27) 5.431 300 (by norm_num [QParams.default]) (by norm_num) (by norm_num) (by norm_num)).1]
  have := big_sqrt
  simp only [QParams.default]
  norm_num at this ⊢
  linarith

/-! ### C171: decoherence and transitions -/

/-- C171: the decoherence rate is positive, at least the rate of the particle type, and never falls with temperature or defects; types without rates of their own count with the default ones. -/
theorem C171_decoherence (rates diss : Particle → Option ℝ) (d d' : Defects) (T T' : ℝ) (k : Particle) (hr : ∀ r, rates k = some r → 0 < r) (hc : ∀ r, diss k = some r → 0 ≤ r)
    (hT : 0 ≤ T) (hTT : T ≤ T') (hd : 0 ≤ d.count k) (hdd : d.count k ≤ d'.count k) :
    decoherence rates diss d T k = (rates k).getD (10⁻¹ ^ 12) * (1 + T / 300) * (1 + d.count k * (diss k).getD (1 / 100)) ∧
    (rates k).getD (10⁻¹ ^ 12) ≤ decoherence rates diss d T k ∧ 0 < decoherence rates diss d T k ∧ decoherence rates diss d T k ≤ decoherence rates diss d' T' k := by
  have f : ∀ d T, decoherence rates diss d T k = (rates k).getD (10⁻¹ ^ 12) * (1 + T / 300) * (1 + d.count k * (diss k).getD (1 / 100)) := by
    intro d T
    unfold decoherence total Defects.count
    norm_num
  have hr' : 0 < (rates k).getD (10⁻¹ ^ 12) := by
    cases h : rates k with
    | none => norm_num
    | some r => exact hr r h
  have hc' : 0 ≤ (diss k).getD (1 / 100) := by
    cases h : diss k with
    | none => norm_num
    | some r => exact hc r h
  have h1 : 0 ≤ d.count k * (diss k).getD (1 / 100) := mul_nonneg hd hc'
  have h2 : (1 : ℝ) ≤ (1 + T / 300) * (1 + d.count k * (diss k).getD (1 / 100)) := by
    have : 0 ≤ T / 300 := by positivity
    nlinarith
  refine ⟨f d T, ?_, ?_, ?_⟩
  · rw [f, mul_assoc]; exact le_mul_of_one_le_right hr'.le h2
  · rw [f, mul_assoc]; exact mul_pos hr' (by linarith)
  · rw [f, f]
    have := mul_le_mul_of_nonneg_right hdd hc'
    have : T / 300 ≤ T' / 300 := by linarith
    have : 0 ≤ T / 300 := by positivity
    apply mul_le_mul _ (by linarith) (by linarith) (mul_nonneg hr'.le (by linarith))
    exact mul_le_mul_of_nonneg_left (by linarith) hr'.le

theorem transition_mono_aux (k : Particle) {t t' : ℝ} (h : t ≤ t') : unit (adjust t k) ≤ unit (adjust t' k) := by
  apply unit_mono
  cases k <;> simp only [adjust] <;> try exact h
  · exact min_le_min le_rfl (by linarith)
  · exact max_le_max le_rfl (by linarith)

/-- C171: the transition probability is a probability; it never falls with the incident energy and never rises with temperature; without energy it is 0; photons and electrons have at least the probability of the other particles; a type without mass is refused. -/
theorem C171_transition (p : QParams) (k : Particle) (E T : ℝ) (hh : 0 < p.hbar) (hT : 0 ≤ T) :
    (p.masses k = none → transition p k E T = .throw .runtime) ∧
    (∀ m, p.masses k = some m → ∃ x, transition p k E T = .ok x ∧ 0 ≤ x ∧ x ≤ 1 ∧ (E ≤ 0 → x = 0) ∧ (0 ≤ E → 1 - Real.exp (-(E / (kB * T + p.hbar * 10 ^ 15))) ≤ x) ∧
      (∀ E', E ≤ E' → ∃ y, transition p k E' T = .ok y ∧ x ≤ y) ∧ (∀ T', T ≤ T' → 0 ≤ E → ∃ y, transition p k E T' = .ok y ∧ y ≤ x)) := by
  have hk := kB_pos
  refine ⟨fun h => by simp [transition, QParams.mass, h, R.bind], fun m hm => ?_⟩
  have ok : ∀ E T, transition p k E T = .ok (unit (adjust (1 - Real.exp (-E / (kB * T + p.hbar * 10 ^ 15))) k)) := by
    intro E T
    simp only [transition, QParams.mass, hm, R.bind]
  have hden : ∀ T, 0 ≤ T → 0 < kB * T + p.hbar * 10 ^ 15 := fun T h => by positivity
  refine ⟨_, ok E T, (unit_range _).1, (unit_range _).2, ?_, ?_, fun E' hE => ⟨_, ok E' T, transition_mono_aux k ?_⟩, fun T' hTT hE => ⟨_, ok E T', transition_mono_aux k ?_⟩⟩
  · intro hE
    have : 1 - Real.exp (-E / (kB * T + p.hbar * 10 ^ 15)) ≤ 0 := by
      have := Real.one_le_exp (show 0 ≤ -E / (kB * T + p.hbar * 10 ^ 15) from div_nonneg (by linarith) (hden T hT).le)
      linarith
    have z : ∀ x ≤ 0, unit x = 0 := by
      intro x hx
      unfold unit
      split
      · rfl
      · rw [if_neg (by linarith)]; linarith
    apply z
    cases k <;> simp only [adjust] <;> try exact this
    · exact (min_le_right _ _).trans (by linarith)
    · exact max_le le_rfl (by linarith)
  · intro hE
    rw [← neg_div]
    have h0 : 0 ≤ 1 - Real.exp (-E / (kB * T + p.hbar * 10 ^ 15)) := by
      have := Real.exp_le_one_iff.2 (show -E / (kB * T + p.hbar * 10 ^ 15) ≤ 0 from div_nonpos_of_nonpos_of_nonneg (by linarith) (hden T hT).le)
      linarith
    have h1 : 1 - Real.exp (-E / (kB * T + p.hbar * 10 ^ 15)) ≤ 1 := by have := Real.exp_pos (-E / (kB * T + p.hbar * 10 ^ 15)); linarith
    conv_lhs => rw [← unit_id h0 h1]
    apply unit_mono
    cases k <;> simp only [adjust] <;> try exact le_rfl
    · exact le_min h1 (by linarith)
    · exact le_max_of_le_right (by linarith)
  · have := Real.exp_le_exp.2 (div_le_div_of_nonneg_right (show -E' ≤ -E by linarith) (hden T hT).le)
    linarith
  · have : -E / (kB * T + p.hbar * 10 ^ 15) ≤ -E / (kB * T' + p.hbar * 10 ^ 15) := by
      rw [neg_div, neg_div, neg_le_neg_iff]
      apply div_le_div_of_nonneg_left hE (hden T hT)
      have := mul_le_mul_of_nonneg_left hTT hk.le
      linarith
    have := Real.exp_le_exp.2 this
    linarith

/-- C171: the default distribution at 300 K decoheres at 2 · 1.15 times the rate of a proton. -/
example : decoherence (fun _ => some (10⁻¹ ^ 12)) (fun _ => some (1 / 100)) .default 300 .proton = 10⁻¹ ^ 12 * 2 * 1.15 := by
  have := (C171_decoherence (fun _ => some (10⁻¹ ^ 12)) (fun _ => some (1 / 100)) .default .default 300 300 .proton (by intro r h; rw [← Option.some.inj h]; norm_num) (by intro r h; rw [← Option.some.inj h]; norm_num) (by norm_num) le_rfl
    (by norm_num [Defects.count, Defects.default]) le_rfl).1
  rw [this]
  norm_num [Defects.count, Defects.default]

end Verif.QuantumPhysics
