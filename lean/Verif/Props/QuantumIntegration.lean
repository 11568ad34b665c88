import Verif.Model.QuantumIntegration
import Mathlib.Tactic
/-!
Properties of the integration of quantum corrections: C230 when and what is corrected, C231 the three terms, C232 the enhancement factor.
-/
namespace Verif.QuantumIntegration

theorem tunnel_range (b m h T : ℝ) : 0 ≤ tunnel b m h T ∧ tunnel b m h T ≤ 1 / 20 := by
  unfold tunnel
  refine ⟨le_min (by norm_num) (le_max_left _ _), (min_le_left _ _).trans (by norm_num)⟩

theorem hbar_pos : 0 < hbar := by unfold hbar; norm_num

theorem mass_bounds (l : Lattice) : 9 / 10 ^ 31 ≤ mass l ∧ mass l ≤ 11 / 10 ^ 31 := by cases l <;> simp only [mass] <;> norm_num

theorem kg_const (l : Lattice) (c size : ℝ) : kleinGordon hbar (mass l) 0.5 c size (10⁻¹ ^ 18) = 1 / 1000 := by
  unfold kleinGordon
  simp only
  set s := max size 0.001 with hs
  have hs1 : (1 : ℝ) / 1000 ≤ s := le_trans (by norm_num) (le_max_right size 0.001)
  set m := max (mass l) (10⁻¹ ^ 32) with hm
  have hm0 : 0 < m := lt_of_lt_of_le (by norm_num) (le_max_right (mass l) ((10 : ℝ)⁻¹ ^ 32))
  set d := min 0.1 (hbar * hbar / (2 * m * s * s)) with hd
  have hs0 : 0 < s := lt_of_lt_of_le (by norm_num) hs1
  have hd0 : 0 ≤ d := le_min (by norm_num) (by have := hbar_pos; positivity)
  have hd1 : d ≤ 1 / 10 := (min_le_left _ _).trans (by norm_num)
  have hi : min 0.1 (c * 0.5) ≤ (1 : ℝ) / 10 := (min_le_left _ _).trans (by norm_num)
  have hst0 : 0 ≤ d * 10⁻¹ ^ 18 / (s * s) := by positivity
  have hst1 : d * 10⁻¹ ^ 18 / (s * s) ≤ 1 / 10 ^ 6 := by
    rw [div_le_iff₀ (by positivity)]
    have : (1 : ℝ) / 10 ^ 6 ≤ s * s := by
      have := mul_le_mul hs1 hs1 (by norm_num) hs0.le
      calc (1 : ℝ) / 10 ^ 6 = 1 / 1000 * (1 / 1000) := by norm_num
        _ ≤ s * s := this
    have e : d * (10 : ℝ)⁻¹ ^ 18 ≤ 1 / 10 * (1 / 10 ^ 18) := by
      have : (10 : ℝ)⁻¹ ^ 18 = 1 / 10 ^ 18 := by norm_num
      rw [this]
      exact mul_le_mul_of_nonneg_right hd1 (by norm_num)
    have : (1 : ℝ) / 10 ^ 6 * (1 / 10 ^ 6) ≤ 1 / 10 ^ 6 * (s * s) := mul_le_mul_of_nonneg_left this (by norm_num)
    refine e.trans (le_trans ?_ this)
    norm_num
  have hp : d * 10⁻¹ ^ 18 / (s * s) * (1 + min 0.1 (c * 0.5)) ≤ 1 / 1000 := by
    calc _ ≤ d * 10⁻¹ ^ 18 / (s * s) * (2 : ℝ) := mul_le_mul_of_nonneg_left (by linarith) hst0
      _ ≤ 1 / 10 ^ 6 * 2 := by linarith
      _ ≤ _ := by norm_num
  rw [max_eq_left (by linarith), min_eq_right (by norm_num)]
  norm_num

theorem zero_range (h m a T : ℝ) (hh : 0 < h) : 0 ≤ zeroPoint h m a T ∧ zeroPoint h m a T ≤ 1 / 20 := by
  unfold zeroPoint
  simp only
  have hw : (0 : ℝ) < min (10 ^ 15) (max (10 ^ 12) (Real.sqrt (5 / (max a 0.1 * max a 0.1) / max m (10⁻¹ ^ 32)))) := lt_min (by norm_num) (lt_of_lt_of_le (by norm_num) (le_max_left _ _))
  have ht : (0 : ℝ) < max T 1 := lt_of_lt_of_le (by norm_num) (le_max_right _ _)
  refine ⟨le_min (by norm_num) (by positivity), (min_le_left _ _).trans (by norm_num)⟩

/-! ### C230 -/

/-- The terms of every correction lie between 0 and 0.05. -/
theorem terms_range (c : Crystal) (size T : ℝ) : 0 ≤ (terms c size T).tunnel ∧ (terms c size T).tunnel ≤ 1 / 20 ∧ (terms c size T).kg = 1 / 1000 ∧ 0 ≤ (terms c size T).zpe ∧ (terms c size T).zpe ≤ 1 / 20 :=
  ⟨(tunnel_range _ _ _ _).1, (tunnel_range _ _ _ _).2, kg_const _ _ _, (zero_range _ _ _ _ hbar_pos).1, (zero_range _ _ _ _ hbar_pos).2⟩

/-- **C230 (when).** Corrections apply exactly if they are enabled and either forced, or the temperature or the feature size is below, or the radiation above its threshold; otherwise the defects stay as they are. -/
theorem C230_when (d : Defects) (c : Crystal) (T size intensity : ℝ) (cfg : Config) :
    (should T size intensity cfg = true ↔ cfg.enable = true ∧ (cfg.force = true ∨ T < cfg.temperature ∨ size < cfg.size ∨ cfg.intensity < intensity)) ∧
    (should T size intensity cfg = false → simulate d c T size intensity cfg = d) := by
  constructor
  · unfold should
    cases cfg.enable <;> cases cfg.force <;> simp [or_assoc]
  · intro h; simp [simulate, h]

/-- A correction multiplies by a factor, one for each kind of defect. -/
noncomputable def gain (t : Terms) (a b : ℝ) : ℝ := (1 + a * t.tunnel + b * t.kg) * (1 + t.zpe * 0.008)

theorem correct_gain (t : Terms) (a b v : ℝ) : correct t a b v = v * gain t a b := by unfold correct gain; ring

/-- **C230 (what).** If corrections apply, every value of the four treated particle types is multiplied by a factor that depends on the kind of defect alone: between 1.0008 and 1.0614 for interstitials, 1.0006 and 1.0211 for vacancies, 1.0008 and 1.0413 for clusters; the number of values stays, other particle types are untouched. -/
theorem C230_what (d : Defects) (c : Crystal) (T size intensity : ℝ) (cfg : Config) (h : should T size intensity cfg = true) :
    ∃ gi gv gc : ℝ, (10008 / 10000 ≤ gi ∧ gi ≤ 10614 / 10000) ∧ (10006 / 10000 ≤ gv ∧ gv ≤ 10211 / 10000) ∧ (10008 / 10000 ≤ gc ∧ gc ≤ 10413 / 10000) ∧
      ∀ k, ((simulate d c T size intensity cfg).inter k = if k ∈ [Particle.proton, .electron, .neutron, .photon] then (d.inter k).map (List.map (· * gi)) else d.inter k) ∧
        ((simulate d c T size intensity cfg).vac k = if k ∈ [Particle.proton, .electron, .neutron, .photon] then (d.vac k).map (List.map (· * gv)) else d.vac k) ∧
        ((simulate d c T size intensity cfg).clus k = if k ∈ [Particle.proton, .electron, .neutron, .photon] then (d.clus k).map (List.map (· * gc)) else d.clus k) := by
  obtain ⟨h1, h2, h3, h4, h5⟩ := terms_range c size T
  have bound : ∀ a b : ℝ, 0 ≤ a → 0 ≤ b → 1 + b / 1000 ≤ gain (terms c size T) a b ∧ gain (terms c size T) a b ≤ (1 + a / 20 + b / 1000) * (1 + 0.008 / 20) := by
    intro a b ha hb
    unfold gain
    rw [h3]
    have t1 : 0 ≤ a * (terms c size T).tunnel := mul_nonneg ha h1
    have t2 : a * (terms c size T).tunnel ≤ a / 20 := by have := mul_le_mul_of_nonneg_left h2 ha; linarith
    have z1 : 0 ≤ (terms c size T).zpe * 0.008 := by positivity
    have z2 : (terms c size T).zpe * 0.008 ≤ 0.008 / 20 := by nlinarith
    constructor
    · nlinarith
    · apply mul_le_mul <;> nlinarith
  have hf : ∀ a b : ℝ, correct (terms c size T) a b = fun v => v * gain (terms c size T) a b := fun a b => funext fun v => correct_gain _ _ _ _
  refine ⟨gain (terms c size T) 1.2 0.8, gain (terms c size T) 0.4 0.6, gain (terms c size T) 0.8 0.8, ?_, ?_, ?_, ?_⟩
  · have := bound 1.2 0.8 (by norm_num) (by norm_num); constructor <;> norm_num at this ⊢ <;> linarith
  · have := bound 0.4 0.6 (by norm_num) (by norm_num); constructor <;> norm_num at this ⊢ <;> linarith
  · have := bound 0.8 0.8 (by norm_num) (by norm_num); constructor <;> norm_num at this ⊢ <;> linarith
  · intro k
    simp only [simulate, h, if_true, applyField, hf]
    cases k <;> simp [Particle.treated]

example : should 77 100 0 .default = true := by simp [should, Config.default]; norm_num
example : should 300 100 0 .default = false := by simp [should, Config.default]; norm_num

/-! ### C231 -/

/-- **C231.** The tunnelling probability and the zero-point energy lie between 0 and 0.05 for all arguments, and never rise with temperature; below 1 K they do not change. -/
theorem C231_temperature (b m h a T T' : ℝ) (hT : T ≤ T') (hh : 0 < h) :
    (0 ≤ tunnel b m h T ∧ tunnel b m h T ≤ 1 / 20 ∧ tunnel b m h T' ≤ tunnel b m h T) ∧
    (0 ≤ zeroPoint h m a T ∧ zeroPoint h m a T ≤ 1 / 20 ∧ zeroPoint h m a T' ≤ zeroPoint h m a T) ∧
    (T' ≤ 1 → tunnel b m h T' = tunnel b m h T ∧ zeroPoint h m a T' = zeroPoint h m a T) := by
  have hmax : max T 1 ≤ max T' 1 := max_le_max hT le_rfl
  have hpos : (0 : ℝ) < max T 1 := lt_of_lt_of_le (by norm_num) (le_max_right _ _)
  refine ⟨⟨(tunnel_range _ _ _ _).1, (tunnel_range _ _ _ _).2, ?_⟩, ⟨(zero_range _ _ _ _ hh).1, (zero_range _ _ _ _ hh).2, ?_⟩, ?_⟩
  · unfold tunnel
    simp only
    have hb : (0 : ℝ) < max b 0.01 := lt_of_lt_of_le (by norm_num) (le_max_right _ _)
    apply min_le_min le_rfl
    apply max_le_max le_rfl
    apply mul_le_mul_of_nonneg_left
    · apply Real.exp_le_exp.mpr
      apply neg_le_neg
      apply min_le_min le_rfl
      apply div_le_div_of_nonneg_right _ (by positivity)
      apply mul_le_mul_of_nonneg_left hmax (by norm_num)
    · exact le_min (by norm_num) (Real.exp_pos _).le
  · unfold zeroPoint
    simp only
    have hw : (0 : ℝ) < min (10 ^ 15) (max (10 ^ 12) (Real.sqrt (5 / (max a 0.1 * max a 0.1) / max m (10⁻¹ ^ 32)))) := lt_min (by norm_num) (lt_of_lt_of_le (by norm_num) (le_max_left _ _))
    generalize min (10 ^ 15) (max (10 ^ 12) (Real.sqrt (5 / (max a 0.1 * max a 0.1) / max m (10⁻¹ ^ 32)))) = w at hw
    apply min_le_min le_rfl
    apply mul_le_mul_of_nonneg_left _ (by positivity)
    apply one_div_le_one_div_of_le (by positivity)
    have : (8.617333262 * 10⁻¹ ^ 5 : ℝ) * max T 1 / (h * w) ≤ 8.617333262 * 10⁻¹ ^ 5 * max T' 1 / (h * w) := by
      apply div_le_div_of_nonneg_right _ (by positivity)
      apply mul_le_mul_of_nonneg_left hmax (by norm_num)
    linarith
  · intro h1
    have e : max T' 1 = max T 1 := by rw [max_eq_right h1, max_eq_right (hT.trans h1)]
    constructor
    · unfold tunnel; rw [e]
    · unfold zeroPoint; rw [e]

/-- **C231 (barrier).** A heavier particle never tunnels more easily. -/
theorem C231_mass (b m m' h T : ℝ) (hm : m ≤ m') (hh : 0 < h) : tunnel b m' h T ≤ tunnel b m h T := by
  unfold tunnel
  simp only
  have hb : (0 : ℝ) < max b 0.01 := lt_of_lt_of_le (by norm_num) (le_max_right _ _)
  apply min_le_min le_rfl
  apply max_le_max le_rfl
  apply mul_le_mul_of_nonneg_right _ (Real.exp_pos _).le
  apply min_le_min le_rfl
  apply Real.exp_le_exp.mpr
  apply max_le_max le_rfl
  apply div_le_div_of_nonneg_right _ hh.le
  have : Real.sqrt (2 * m * max b 0.01) ≤ Real.sqrt (2 * m' * max b 0.01) := Real.sqrt_le_sqrt (by nlinarith)
  linarith

/-- **C231, violated: Klein-Gordon.** The "Klein-Gordon correction" does not depend on anything: for every crystal, every feature size and every temperature it is its lower bound 0.001. -/
theorem C231_constant_violated (c : Crystal) (size T : ℝ) : (terms c size T).kg = 1 / 1000 := kg_const _ _ _

/-- **C231, violated: zero-point energy.** "Effects decrease with temperature": for lattice constants up to 6 it is cut off at 0.05 at every temperature up to 1000 K. -/
theorem C231_zero_violated (c : Crystal) (size T : ℝ) (ha : c.constant ≤ 6) (hT : T ≤ 1000) : (terms c size T).zpe = 1 / 20 := by
  show zeroPoint hbar (mass c.type) c.constant T = _
  obtain ⟨m1, m2⟩ := mass_bounds c.type
  unfold zeroPoint
  simp only
  have hm : max (mass c.type) (10⁻¹ ^ 32) = mass c.type := max_eq_left (le_trans (by norm_num) m1)
  rw [hm]
  have hm0 : 0 < mass c.type := lt_of_lt_of_le (by norm_num) m1
  set a := max c.constant 0.1 with haa
  have ha0 : 0 < a := lt_of_lt_of_le (by norm_num) (le_max_right _ _)
  have ha6 : a ≤ 6 := max_le ha (by norm_num)
  have hsq : (3 * 10 ^ 14 : ℝ) ≤ Real.sqrt (5 / (a * a) / mass c.type) := by
    apply Real.le_sqrt_of_sq_le
    rw [div_div, le_div_iff₀ (by positivity)]
    have e1 : a * a ≤ 36 := by nlinarith
    have e2 : a * a * mass c.type ≤ 36 * (11 / 10 ^ 31) := mul_le_mul e1 m2 hm0.le (by norm_num)
    calc (3 * 10 ^ 14 : ℝ) ^ 2 * (a * a * mass c.type) ≤ (3 * 10 ^ 14) ^ 2 * (36 * (11 / 10 ^ 31)) := mul_le_mul_of_nonneg_left e2 (by norm_num)
      _ ≤ 5 := by norm_num
  set w := min (10 ^ 15) (max (10 ^ 12) (Real.sqrt (5 / (a * a) / mass c.type))) with hw
  have hw3 : (3 * 10 ^ 14 : ℝ) ≤ w := le_min (by norm_num) (hsq.trans (le_max_right _ _))
  have hhw : (197 : ℝ) / 1000 ≤ hbar * w := by
    have := mul_le_mul_of_nonneg_left hw3 hbar_pos.le
    refine le_trans ?_ this
    unfold hbar; norm_num
  have hw0 : 0 < hbar * w := lt_of_lt_of_le (by norm_num) hhw
  have hth : (8.617333262 * 10⁻¹ ^ 5 : ℝ) * max T 1 ≤ 87 / 1000 := by
    have : max T 1 ≤ 1000 := max_le hT (by norm_num)
    have h0 : (8.617333262 * 10⁻¹ ^ 5 : ℝ) * max T 1 ≤ 8.617333262 * 10⁻¹ ^ 5 * 1000 := mul_le_mul_of_nonneg_left this (by norm_num)
    refine h0.trans ?_; norm_num
  have hth0 : (0 : ℝ) ≤ 8.617333262 * 10⁻¹ ^ 5 * max T 1 := by
    have : (0 : ℝ) ≤ max T 1 := le_trans (by norm_num) (le_max_right _ _)
    positivity
  have hq : (8.617333262 * 10⁻¹ ^ 5 : ℝ) * max T 1 / (hbar * w) ≤ 1 / 2 := by
    rw [div_le_iff₀ hw0]; linarith
  have hq0 : (0 : ℝ) ≤ 8.617333262 * 10⁻¹ ^ 5 * max T 1 / (hbar * w) := div_nonneg hth0 hw0.le
  have hs : (2 : ℝ) / 3 ≤ 1 / (1 + 8.617333262 * 10⁻¹ ^ 5 * max T 1 / (hbar * w)) := by
    rw [le_div_iff₀ (by linarith)]; linarith
  have : (1 : ℝ) / 20 ≤ 0.5 * hbar * w * (1 / (1 + 8.617333262 * 10⁻¹ ^ 5 * max T 1 / (hbar * w))) := by
    have h1 : (98 : ℝ) / 1000 ≤ 0.5 * hbar * w := by linarith
    calc (1 : ℝ) / 20 ≤ 98 / 1000 * (2 / 3) := by norm_num
      _ ≤ _ := mul_le_mul h1 hs (by norm_num) (by linarith)
  rw [min_eq_left (le_trans (by norm_num) this)]
  norm_num

example : (⟨.diamond, 5.43, 1⟩ : Crystal).constant ≤ 6 := by norm_num

/-! ### C232 -/

theorem tempPart (T : ℝ) : (if T < 150 then 1 * (1 + min 5 (150 / max T 10) * 0.04) else (1 : ℝ)) ≤ 12 / 10 ∧ 1 ≤ (if T < 150 then 1 * (1 + min 5 (150 / max T 10) * 0.04) else (1 : ℝ)) := by
  have hp : (0 : ℝ) < max T 10 := lt_of_lt_of_le (by norm_num) (le_max_right _ _)
  have h0 : (0 : ℝ) ≤ min 5 (150 / max T 10) := le_min (by norm_num) (by positivity)
  have h5 : min 5 (150 / max T 10) ≤ (5 : ℝ) := min_le_left _ _
  generalize min 5 (150 / max T 10) = x at h0 h5
  split <;> constructor <;> norm_num at * <;> linarith

theorem sizePart (s : ℝ) : (1 + min 4 (20 / max s 2) * 0.08 : ℝ) ≤ 132 / 100 ∧ (1 : ℝ) ≤ 1 + min 4 (20 / max s 2) * 0.08 := by
  have hp : (0 : ℝ) < max s 2 := lt_of_lt_of_le (by norm_num) (le_max_right _ _)
  have h0 : (0 : ℝ) ≤ min 4 (20 / max s 2) := le_min (by norm_num) (by positivity)
  have h4 : min 4 (20 / max s 2) ≤ (4 : ℝ) := min_le_left _ _
  generalize min 4 (20 / max s 2) = x at h0 h4
  constructor <;> norm_num at * <;> linarith

/-- The temperature part and the size part. -/
theorem enhancement_eq (T s : ℝ) : enhancement T s = (if T < 150 then 1 * (1 + min 5 (150 / max T 10) * 0.04) else 1) * (if s < 20 then 1 + min 4 (20 / max s 2) * 0.08 else 1) := by
  unfold enhancement
  simp only
  split_ifs <;> ring

/-- **C232.** For all temperatures and sizes, also 0 and negative ones, the enhancement lies between 1 and 1.584 and is 1 from 150 K and 20 nm on; it never rises with temperature or size. -/
theorem C232_range (T s T' s' : ℝ) (hT : T ≤ T') (hs : s ≤ s') :
    1 ≤ enhancement T s ∧ enhancement T s ≤ 1584 / 1000 ∧ (150 ≤ T → 20 ≤ s → enhancement T s = 1) ∧ enhancement T' s' ≤ enhancement T s := by
  have a := tempPart T
  have a' := tempPart T'
  have sp : ∀ s : ℝ, (if s < 20 then (1 + min 4 (20 / max s 2) * 0.08 : ℝ) else 1) ≤ 132 / 100 ∧ (1 : ℝ) ≤ if s < 20 then (1 + min 4 (20 / max s 2) * 0.08 : ℝ) else 1 := by
    intro s; have := sizePart s; split
    · exact this
    · norm_num
  have monoT : (if T' < 150 then 1 * (1 + min 5 (150 / max T' 10) * 0.04) else (1 : ℝ)) ≤ if T < 150 then 1 * (1 + min 5 (150 / max T 10) * 0.04) else 1 := by
    by_cases h' : T' < 150
    · rw [if_pos h', if_pos (lt_of_le_of_lt hT h')]
      have hp : (0 : ℝ) < max T 10 := lt_of_lt_of_le (by norm_num) (le_max_right _ _)
      have : min 5 (150 / max T' 10) ≤ min 5 (150 / max T 10) := min_le_min le_rfl (div_le_div_of_nonneg_left (by norm_num) hp (max_le_max hT le_rfl))
      linarith
    · rw [if_neg h']; exact a.2
  have monoS : (if s' < 20 then (1 + min 4 (20 / max s' 2) * 0.08 : ℝ) else 1) ≤ if s < 20 then (1 + min 4 (20 / max s 2) * 0.08 : ℝ) else 1 := by
    by_cases h' : s' < 20
    · rw [if_pos h', if_pos (lt_of_le_of_lt hs h')]
      have hp : (0 : ℝ) < max s 2 := lt_of_lt_of_le (by norm_num) (le_max_right _ _)
      have : min 4 (20 / max s' 2) ≤ min 4 (20 / max s 2) := min_le_min le_rfl (div_le_div_of_nonneg_left (by norm_num) hp (max_le_max hs le_rfl))
      linarith
    · rw [if_neg h']; exact (sp s).2
  rw [enhancement_eq, enhancement_eq]
  refine ⟨?_, ?_, ?_, ?_⟩
  · exact one_le_mul_of_one_le_of_one_le a.2 (sp s).2
  · calc _ ≤ (12 / 10 : ℝ) * (132 / 100) := mul_le_mul a.1 (sp s).1 (by linarith [(sp s).2]) (by norm_num)
      _ = _ := by norm_num
  · intro h1 h2; rw [if_neg (not_lt.mpr h1), if_neg (not_lt.mpr h2)]; norm_num
  · exact mul_le_mul monoT monoS (by linarith [(sp s').2]) (by linarith [a.2])

/-- **C232, violated.** "Temperature effects are capped at 4 % enhancement, feature size effects at 8 %": these are the least, not the most — every temperature below 150 K alone enhances by more than 4 %, every size below 20 nm by more than 8 %; the caps are 20 % and 32 %, reached below 30 K and 5 nm. -/
theorem C232_cap_violated (T s : ℝ) :
    (T < 150 → 20 ≤ s → 104 / 100 < enhancement T s) ∧ (150 ≤ T → s < 20 → 108 / 100 < enhancement T s) ∧ (T ≤ 30 → s ≤ 5 → enhancement T s = 1584 / 1000) := by
  rw [enhancement_eq]
  refine ⟨?_, ?_, ?_⟩
  · intro h1 h2
    rw [if_pos h1, if_neg (not_lt.mpr h2)]
    have hp : (0 : ℝ) < max T 10 := lt_of_lt_of_le (by norm_num) (le_max_right _ _)
    have : (1 : ℝ) < min 5 (150 / max T 10) := lt_min (by norm_num) (by rw [lt_div_iff₀ hp]; rw [one_mul]; exact max_lt h1 (by norm_num))
    generalize min 5 (150 / max T 10) = x at this
    norm_num at this ⊢; linarith
  · intro h1 h2
    rw [if_neg (not_lt.mpr h1), if_pos h2]
    have hp : (0 : ℝ) < max s 2 := lt_of_lt_of_le (by norm_num) (le_max_right _ _)
    have : (1 : ℝ) < min 4 (20 / max s 2) := lt_min (by norm_num) (by rw [lt_div_iff₀ hp]; rw [one_mul]; exact max_lt h2 (by norm_num))
    generalize min 4 (20 / max s 2) = x at this
    norm_num at this ⊢; linarith
  · intro h1 h2
    rw [if_pos (by linarith), if_pos (by linarith)]
    have hp : (0 : ℝ) < max T 10 := lt_of_lt_of_le (by norm_num) (le_max_right _ _)
    have hq : (0 : ℝ) < max s 2 := lt_of_lt_of_le (by norm_num) (le_max_right _ _)
    have e1 : min 5 (150 / max T 10) = (5 : ℝ) := min_eq_left (by rw [le_div_iff₀ hp]; have : max T 10 ≤ 30 := max_le h1 (by norm_num); linarith)
    have e2 : min 4 (20 / max s 2) = (4 : ℝ) := min_eq_left (by rw [le_div_iff₀ hq]; have : max s 2 ≤ 5 := max_le h2 (by norm_num); linarith)
    rw [e1, e2]; norm_num

/-- **C232, violated: header.** The same function in the header is not bounded: there are temperatures for which the factor exceeds every bound, and 10 K gives more than ten million instead of "5 % max". -/
theorem C232_header_violated : (∀ B : ℝ, ∃ T, 0 < T ∧ T < 150 ∧ B < enhancementHeader T 100) ∧ (10 : ℝ) ^ 7 < enhancementHeader 10 100 := by
  have form : ∀ T : ℝ, T < 150 → enhancementHeader T 100 = 1 + Real.exp (300 / T - 1) * 0.05 := by
    intro T hT
    unfold enhancementHeader
    simp only
    rw [if_pos hT, if_neg (by norm_num)]; ring
  constructor
  · intro B
    refine ⟨300 / (21 * |B| + 22), by positivity, ?_, ?_⟩
    · rw [div_lt_iff₀ (by positivity)]; have := abs_nonneg B; nlinarith
    · have hlt : 300 / (21 * |B| + 22) < (150 : ℝ) := by rw [div_lt_iff₀ (by positivity)]; have := abs_nonneg B; nlinarith
      rw [form _ hlt]
      have : (300 : ℝ) / (300 / (21 * |B| + 22)) - 1 = 21 * |B| + 21 := by
        rw [div_div_eq_mul_div, mul_div_assoc, mul_comm]
        have : (0 : ℝ) < 21 * |B| + 22 := by positivity
        field_simp; ring
      rw [this]
      have h1 := Real.add_one_le_exp (21 * |B| + 21)
      have h2 := le_abs_self B
      have h3 := abs_nonneg B
      norm_num
      nlinarith
  · rw [form 10 (by norm_num)]
    have h29 : (300 : ℝ) / 10 - 1 = (29 : ℕ) * 1 := by norm_num
    rw [h29, Real.exp_nat_mul]
    have he : (2 : ℝ) ≤ Real.exp 1 := by have := Real.add_one_le_exp (1 : ℝ); linarith
    have : (2 : ℝ) ^ 29 ≤ Real.exp 1 ^ 29 := pow_le_pow_left₀ (by norm_num) he 29
    norm_num at this ⊢
    linarith

end Verif.QuantumIntegration
