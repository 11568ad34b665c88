import Verif.Model.PhysicsDriven
import Mathlib.Tactic.Linarith
import Mathlib.Tactic.NormNum
import Mathlib.Tactic.Positivity
import Mathlib.Tactic.FieldSimp
import Mathlib.Tactic.Ring
import Mathlib.Tactic.FinCases
import Mathlib.Tactic.IntervalCases
import Mathlib.Data.List.Induction
import Mathlib.Algebra.BigOperators.Group.List.Basic
import Mathlib.Algebra.Order.BigOperators.Group.List
import Mathlib.Algebra.BigOperators.Ring.List
/-!
C91-C93: physics formulas, resource allocation, time scales, the physics-driven protection system and its example layer
(/repo/include/rad_ml/tmr/physics_driven_protection.hpp).
-/
namespace Verif.Props.PhysP
open Verif Verif.Strat Verif.Phys

/-! ### C91: formulas -/

/-- C91: at the reference temperature the threshold is the base threshold, the correction is positive above 0 K, and, for a positive base,
it grows strictly with temperature. -/
theorem C91_temperature (base : ℝ) :
    tempThreshold base 295 = base ∧ (∀ T, 0 < T → 0 < base → 0 < tempThreshold base T) ∧
    (∀ S T, 0 < S → S < T → 0 < base → tempThreshold base S < tempThreshold base T) := by
  refine ⟨by simp [tempThreshold], ?_, ?_⟩
  · intro T hT hb
    rw [tempThreshold, if_neg hT.ne']
    exact mul_pos hb (Real.exp_pos _)
  · intro S T hS hST hb
    have hT : 0 < T := hS.trans hST
    rw [tempThreshold, tempThreshold, if_neg hS.ne', if_neg hT.ne']
    refine mul_lt_mul_of_pos_left (Real.exp_lt_exp.2 ?_) hb
    have h1 : 1 / T < 1 / S := one_div_lt_one_div_of_lt hS hST
    have hc : -(4 / 100) / (8617 / 10 ^ 8) < (0 : ℝ) := by norm_num
    exact mul_lt_mul_of_neg_left (by linarith) hc

/-- C91 (negation): the code promises "higher temperature = lower threshold (more susceptible)"; the formula does the opposite at every
pair of temperatures. -/
theorem C91_threshold_direction_violated (base S T : ℝ) (hb : 0 < base) (hS : 0 < S) (hST : S < T) :
    ¬ tempThreshold base T ≤ tempThreshold base S := not_le.2 ((C91_temperature base).2.2 S T hS hST hb)

example : (0 : ℝ) < 1 ∧ (0 : ℝ) < 295 ∧ (295 : ℝ) < 350 := by norm_num

/-- C91: the load factor of a tensile stress and a nonnegative dose is at least 1, at most `3·(1 + dose/100)`, grows with stress and dose
and shrinks with the yield strength. -/
theorem C91_load_factor (stress yield dose : ℝ) (hs : 0 ≤ stress) (hy : 0 < yield) (hd : 0 ≤ dose) :
    1 ≤ loadFactor stress yield dose ∧ loadFactor stress yield dose ≤ 3 * (1 + dose / 100) ∧
    (∀ s' d', stress ≤ s' → dose ≤ d' → loadFactor stress yield dose ≤ loadFactor s' yield d') ∧
    (∀ y', yield ≤ y' → loadFactor stress y' dose ≤ loadFactor stress yield dose) ∧
    (yield ≤ stress → loadFactor stress yield dose = 3 * (1 + dose / 100)) := by
  have key : ∀ s y, 0 ≤ s → 0 < y → 0 ≤ normStress s y ∧ normStress s y ≤ 1 ∧ normStress s y = min 1 (s / y) := by
    intro s y h1 h2
    rw [normStress, if_neg h2.ne']
    exact ⟨le_min (by norm_num) (by positivity), min_le_left _ _, rfl⟩
  have mono : ∀ a b d d' : ℝ, 0 ≤ a → a ≤ b → 0 ≤ d → d ≤ d' → (1 + 2 * a ^ 2) * (1 + 1 / 100 * d) ≤ (1 + 2 * b ^ 2) * (1 + 1 / 100 * d') := by
    intro a b d d' h1 h2 h3 h4
    have : a ^ 2 ≤ b ^ 2 := pow_le_pow_left₀ h1 h2 2
    refine mul_le_mul (by linarith) (by linarith) (by linarith) (by positivity)
  obtain ⟨k1, k2, k3⟩ := key stress yield hs hy
  refine ⟨?_, ?_, ?_, ?_, ?_⟩
  · have := mono 0 (normStress stress yield) 0 dose le_rfl k1 le_rfl hd
    simpa [loadFactor] using this
  · have := mono (normStress stress yield) 1 dose dose k1 k2 hd le_rfl
    refine this.trans (le_of_eq ?_)
    ring
  · intro s' d' h1 h2
    obtain ⟨_, _, q3⟩ := key s' yield (hs.trans h1) hy
    refine mono _ _ _ _ k1 ?_ hd h2
    rw [k3, q3]
    exact min_le_min le_rfl (div_le_div_of_nonneg_right h1 hy.le)
  · intro y' h1
    obtain ⟨q1, _, q3⟩ := key stress y' hs (hy.trans_le h1)
    refine mono _ _ _ _ q1 ?_ hd le_rfl
    rw [k3, q3]
    exact min_le_min le_rfl (div_le_div_of_nonneg_left hs hy h1)
  · intro h
    have : normStress stress yield = 1 := by rw [k3]; exact min_eq_left ((one_le_div hy).2 h)
    rw [loadFactor, this]
    ring

/-- Non-vacuity: 20 MPa on aluminium. -/
example : loadFactor 20 270 0 = 1 + 2 * (2 / 27) ^ 2 := by
  rw [loadFactor, normStress, if_neg (by norm_num), min_eq_right (by norm_num)]; norm_num

/-- C91 (negation): "normalized stress (0-1)" is clamped from above only: a compressive stress is not limited, its factor exceeds every
bound. -/
theorem C91_compressive_violated (B yield : ℝ) (hy : 0 < yield) : ∃ stress, stress < 0 ∧ B < loadFactor stress yield 0 := by
  refine ⟨-(yield * (|B| + 1)), by have := abs_nonneg B; nlinarith, ?_⟩
  have hn : normStress (-(yield * (|B| + 1))) yield = -(|B| + 1) := by
    rw [normStress, if_neg hy.ne']
    have : -(yield * (|B| + 1)) / yield = -(|B| + 1) := by field_simp
    rw [this]
    exact min_eq_right (by have := abs_nonneg B; linarith)
  rw [loadFactor, hn]
  have h1 := le_abs_self B
  have h2 := abs_nonneg B
  nlinarith

example : (0 : ℝ) < 270 := by norm_num

/-- C91: the synergy factor lies in [1, 3/2], grows with temperature and stress, is 1 below 300 K or below a tenth of the yield strength,
and 3/2 from 350 K and three tenths of the yield strength on. -/
theorem C91_synergy (T stress yield : ℝ) (hy : 0 < yield) :
    (1 ≤ synergyFactor T stress yield ∧ synergyFactor T stress yield ≤ 3 / 2) ∧
    (∀ T' s', T ≤ T' → stress ≤ s' → synergyFactor T stress yield ≤ synergyFactor T' s' yield) ∧
    (T ≤ 300 ∨ stress ≤ yield / 10 → synergyFactor T stress yield = 1) ∧
    (350 ≤ T → 3 / 10 * yield ≤ stress → synergyFactor T stress yield = 3 / 2) := by
  have cont : ∀ T s, synergyFactor T s yield =
      1 + 1 / 2 * min 1 (max 0 ((T - 300) / 50) * max 0 ((normStress s yield - 1 / 10) / (2 / 10))) := by
    intro T s
    rw [synergyFactor]
    have hmin0 : 0 ≤ min 1 (max 0 ((T - 300) / 50) * max 0 ((normStress s yield - 1 / 10) / (2 / 10))) :=
      le_min (by norm_num) (mul_nonneg (le_max_left _ _) (le_max_left _ _))
    by_cases h : T > 350 ∧ normStress s yield > 3 / 10
    · rw [if_pos h]
      apply max_eq_right
      have h1 : 1 ≤ max 0 ((T - 300) / 50) := le_max_of_le_right (by rw [le_div_iff₀ (by norm_num)]; linarith [h.1])
      have h2 : 1 ≤ max 0 ((normStress s yield - 1 / 10) / (2 / 10)) := le_max_of_le_right (by rw [le_div_iff₀ (by norm_num)]; linarith [h.2])
      have h3 : 1 ≤ max 0 ((T - 300) / 50) * max 0 ((normStress s yield - 1 / 10) / (2 / 10)) := by nlinarith
      rw [min_eq_left h3]
      norm_num
    · rw [if_neg h]
      apply max_eq_right
      linarith
  have hn : ∀ s, normStress s yield = min 1 (s / yield) := fun s => by rw [normStress, if_neg hy.ne']
  refine ⟨?_, ?_, ?_, ?_⟩
  · rw [cont]
    have h0 : 0 ≤ min 1 (max 0 ((T - 300) / 50) * max 0 ((normStress stress yield - 1 / 10) / (2 / 10))) :=
      le_min (by norm_num) (mul_nonneg (le_max_left _ _) (le_max_left _ _))
    have h1 : min 1 (max 0 ((T - 300) / 50) * max 0 ((normStress stress yield - 1 / 10) / (2 / 10))) ≤ 1 := min_le_left _ _
    constructor <;> linarith
  · intro T' s' h1 h2
    rw [cont, cont]
    have hns : normStress stress yield ≤ normStress s' yield := by
      rw [hn, hn]; exact min_le_min le_rfl (div_le_div_of_nonneg_right h2 hy.le)
    have a1 : max 0 ((T - 300) / 50) ≤ max 0 ((T' - 300) / 50) :=
      max_le_max le_rfl (div_le_div_of_nonneg_right (by linarith) (by norm_num))
    have a2 : max 0 ((normStress stress yield - 1 / 10) / (2 / 10)) ≤ max 0 ((normStress s' yield - 1 / 10) / (2 / 10)) :=
      max_le_max le_rfl (div_le_div_of_nonneg_right (by linarith) (by norm_num))
    have := min_le_min (le_refl (1 : ℝ)) (mul_le_mul a1 a2 (le_max_left _ _) (le_max_left _ _))
    linarith
  · intro h
    rw [cont]
    rcases h with h | h
    · rw [max_eq_left (by apply div_nonpos_of_nonpos_of_nonneg <;> linarith : (T - 300) / 50 ≤ 0)]
      simp
    · have h1 : normStress stress yield ≤ 1 / 10 := by
        rw [hn]; exact (min_le_right _ _).trans (by rw [div_le_iff₀ hy]; linarith)
      rw [max_eq_left (by apply div_nonpos_of_nonpos_of_nonneg <;> linarith : (normStress stress yield - 1 / 10) / (2 / 10) ≤ 0)]
      simp
  · intro h1 h2
    rw [cont]
    have h3 : 3 / 10 ≤ normStress stress yield := by
      rw [hn]; exact le_min (by norm_num) (by rw [le_div_iff₀ hy]; linarith)
    have g1 : 1 ≤ max 0 ((T - 300) / 50) := le_max_of_le_right (by rw [le_div_iff₀ (by norm_num)]; linarith)
    have g2 : 1 ≤ max 0 ((normStress stress yield - 1 / 10) / (2 / 10)) := le_max_of_le_right (by rw [le_div_iff₀ (by norm_num)]; linarith)
    rw [min_eq_left (by nlinarith)]
    norm_num

/-- Non-vacuity: the middle of the ramp. -/
example : synergyFactor 325 54 270 = 1 + 1 / 8 := by
  rw [synergyFactor, normStress, if_neg (by norm_num)]
  rw [if_neg (by norm_num), min_eq_right (by norm_num : (54 : ℝ) / 270 ≤ 1), max_eq_right (by norm_num), max_eq_right (by norm_num), min_eq_right (by norm_num),
    max_eq_right (by norm_num)]
  norm_num

/-! ### C92: resource allocation -/

theorem getD_get (l : List ℝ) (i : Nat) (h : i < l.length) : l.getD i 0 = l[i] := by simp [h]

theorem importance_nonneg (sens : List ℝ) (sev : ℝ) (hs : ∀ x ∈ sens, 0 ≤ x) (hv : 0 ≤ sev) (i : Nat) (hi : i < sens.length) :
    0 ≤ importance sens sev i := by
  unfold importance
  have h1 : 0 ≤ sens.getD i 0 := by
    rw [getD_get _ _ hi]; exact hs _ (List.getElem_mem hi)
  have hn : (0 : ℝ) < sens.length := by exact_mod_cast (Nat.lt_of_le_of_lt (Nat.zero_le _) hi)
  have h2 : (i : ℝ) / sens.length ≤ 1 := (div_le_one hn).2 (by exact_mod_cast hi.le)
  have h3 : 1 / 2 * (i : ℝ) / sens.length = 1 / 2 * ((i : ℝ) / sens.length) := by ring
  rw [h3]
  exact mul_nonneg (mul_nonneg h1 hv) (by linarith)

theorem sum_map_const (l : List Nat) (c : ℝ) : (l.map fun _ => c).sum = l.length * c := by
  induction l with
  | nil => simp
  | cons a l ih => simp [ih]; ring

theorem sum_map_div (l : List Nat) (f : Nat → ℝ) (s t : ℝ) : (l.map fun i => f i / s * t).sum = (l.map f).sum / s * t := by
  induction l with
  | nil => simp
  | cons a l ih => simp only [List.map_cons, List.sum_cons, ih]; ring

/-- C92: the allocator hands out exactly the available resources: one share per layer, the shares sum to the total, and no share is negative
when sensitivities and severity are nonnegative. -/
theorem C92_conservation (total : ℝ) (sens : List ℝ) (sev : ℝ) (hn : sens ≠ []) :
    (allocate total sens sev).length = sens.length ∧ (allocate total sens sev).sum = total ∧
    (0 ≤ total → 0 ≤ sev → (∀ x ∈ sens, 0 ≤ x) → ∀ r ∈ allocate total sens sev, 0 ≤ r ∧ r ≤ total) := by
  have hlen : (0 : ℝ) < sens.length := by exact_mod_cast List.length_pos_iff.2 hn
  have h1 : (allocate total sens sev).length = sens.length := by simp [allocate]
  have h2 : (allocate total sens sev).sum = total := by
    unfold allocate
    dsimp only
    by_cases h : ((List.range sens.length).map (importance sens sev)).sum > 0
    · simp only [if_pos h]
      rw [sum_map_div]
      field_simp
    · simp only [if_neg h]
      rw [sum_map_const, List.length_range]
      field_simp
  refine ⟨h1, h2, ?_⟩
  intro ht hv hs r hr
  have h0 : ∀ x ∈ allocate total sens sev, 0 ≤ x := by
    intro x hx
    unfold allocate at hx
    dsimp only at hx
    obtain ⟨i, hi, rfl⟩ := List.mem_map.1 hx
    have hi' : i < sens.length := List.mem_range.1 hi
    by_cases h : ((List.range sens.length).map (importance sens sev)).sum > 0
    · rw [if_pos h]
      exact mul_nonneg (div_nonneg (importance_nonneg sens sev hs hv i hi') (le_of_lt h)) ht
    · rw [if_neg h]
      positivity
  refine ⟨h0 r hr, ?_⟩
  rw [← h2]
  exact List.single_le_sum h0 r hr

theorem importance_scale (sens : List ℝ) (sev c : ℝ) (i : Nat) : importance sens (c * sev) i = c * importance sens sev i := by
  unfold importance; ring

theorem sum_scale (l : List Nat) (f : Nat → ℝ) (c : ℝ) : (l.map fun i => c * f i).sum = c * (l.map f).sum := by
  induction l with
  | nil => simp
  | cons a l ih => simp [ih]; ring

/-- The share of a layer is proportional to its sensitivity and its position: the reference allocation. -/
noncomputable def share (sens : List ℝ) (i : Nat) : ℝ :=
  sens.getD i 0 * (1 - (i : ℝ) / (2 * sens.length)) / ((List.range sens.length).map fun j => sens.getD j 0 * (1 - (j : ℝ) / (2 * sens.length))).sum

/-- C92: for a positive severity and sensitivities of positive total weight the share of layer `i` is the proportion of its weight
`sensitivity·(1 − i/2n)`: twice the sensitivity gives twice the share of an equally placed layer. -/
theorem C92_proportional (total : ℝ) (sens : List ℝ) (sev : ℝ) (hv : 0 < sev)
    (hw : 0 < ((List.range sens.length).map fun j => sens.getD j 0 * (1 - (j : ℝ) / (2 * sens.length))).sum) (i : Nat) (hi : i < sens.length) :
    (allocate total sens sev).getD i 0 = share sens i * total := by
  have himp : ∀ j, importance sens sev j = sev * (sens.getD j 0 * (1 - (j : ℝ) / (2 * sens.length))) := by
    intro j; unfold importance; ring
  have hsum : ((List.range sens.length).map (importance sens sev)).sum =
      sev * ((List.range sens.length).map fun j => sens.getD j 0 * (1 - (j : ℝ) / (2 * sens.length))).sum := by
    rw [← sum_scale]
    congr 1
    exact List.map_congr_left fun j _ => himp j
  have hpos : ((List.range sens.length).map (importance sens sev)).sum > 0 := by rw [hsum]; positivity
  unfold allocate
  dsimp only
  simp only [if_pos hpos]
  rw [getD_get _ _ (by simpa using hi), List.getElem_map, List.getElem_range, hsum, himp, share]
  field_simp

example : ∃ sens : List ℝ, 0 < ((List.range sens.length).map fun j => sens.getD j 0 * (1 - (j : ℝ) / (2 * sens.length))).sum :=
  ⟨[9 / 10, 6 / 10, 3 / 10], by simp [List.range_succ]; norm_num⟩

/-- C92 (negation): the allocation is said to follow the environment, but the severity cancels out: any two environments of positive
severity give the same allocation, so a quiet orbit and a solar storm in the anomaly are treated alike. -/
theorem C92_environment_ignored_violated (total : ℝ) (sens : List ℝ) (u v : ℝ) (hu : 0 < u) (hv : 0 < v) :
    allocate total sens u = allocate total sens v := by
  have hc : ∀ i, importance sens u i = (u / v) * importance sens v i := by
    intro i
    rw [← importance_scale, div_mul_cancel₀ _ hv.ne']
  have hsum : ((List.range sens.length).map (importance sens u)).sum = (u / v) * ((List.range sens.length).map (importance sens v)).sum := by
    rw [← sum_scale]
    congr 1
    exact List.map_congr_left fun j _ => hc j
  have hq : 0 < u / v := div_pos hu hv
  unfold allocate
  dsimp only
  apply List.map_congr_left
  intro i _
  by_cases h : ((List.range sens.length).map (importance sens v)).sum > 0
  · have h' : ((List.range sens.length).map (importance sens u)).sum > 0 := by rw [hsum]; positivity
    rw [if_pos h, if_pos h', hsum, hc]
    have := h.ne'
    field_simp
  · have h' : ¬ ((List.range sens.length).map (importance sens u)).sum > 0 := by
      rw [hsum]; intro hh
      exact h (by nlinarith [mul_pos_iff.1 hh])
    rw [if_neg h, if_neg h']

/-- Non-vacuity: two environments of positive severity that differ in everything. -/
example : 0 < severity ⟨⟨1, 0, false, 0⟩, 295, 295⟩ ∧ 0 < severity ⟨⟨5000000000, 1, true, 1⟩, 310, 350⟩ := by
  constructor
  · simp only [severity, PEnv.dose, PEnv.temp, Bool.false_eq_true, if_false]
    rw [show (((295 + 295) / 2 : ℚ) : ℝ) = 295 by norm_num, (C91_temperature 1).1]
    norm_num
  · simp only [severity, PEnv.dose, PEnv.temp, if_true]
    have := (C91_temperature 1).2.1 (((310 + 350) / 2 : ℚ) : ℝ) (by norm_num) one_pos
    push_cast at this ⊢
    positivity

/-- C92: how the severity of an environment depends on it: it is never negative for nonnegative fluxes and solar activity, the anomaly doubles
it, and more particles, more solar activity or (above 0 K) a higher temperature never lower it. -/
theorem C92_severity (e f : PEnv) (hp : 0 ≤ e.proton) (he : 0 ≤ e.electron) (hs : 0 ≤ e.solar) (hT : 0 < e.temp)
    (h1 : e.proton ≤ f.proton) (h2 : e.electron ≤ f.electron) (h3 : e.solar ≤ f.solar) (h4 : e.temp ≤ f.temp) (h5 : e.saa = true → f.saa = true) :
    0 ≤ severity e ∧ severity e ≤ severity f ∧
    severity { e with saa := true } = 2 * severity { e with saa := false } ∧
    (∀ a b, a + b = e.tmin + e.tmax → severity { e with tmin := a, tmax := b } = severity e) := by
  have hd : (0 : ℝ) ≤ (e.dose : ℝ) := by
    have : (0 : ℚ) ≤ e.dose := by unfold PEnv.dose; linarith
    exact_mod_cast this
  have hdf : (e.dose : ℝ) ≤ (f.dose : ℝ) := by
    have : e.dose ≤ f.dose := by unfold PEnv.dose; linarith
    exact_mod_cast this
  have hsr : (0 : ℝ) ≤ (e.solar : ℝ) := by exact_mod_cast hs
  have hsf : (e.solar : ℝ) ≤ (f.solar : ℝ) := by exact_mod_cast h3
  have hTr : (0 : ℝ) < (e.temp : ℝ) := by exact_mod_cast hT
  have hTf : (e.temp : ℝ) ≤ (f.temp : ℝ) := by exact_mod_cast h4
  have hthr0 : ∀ T : ℝ, 0 < T → 0 < tempThreshold 1 T := by
    intro T hT
    unfold tempThreshold
    rw [if_neg hT.ne', one_mul]; exact Real.exp_pos _
  have hthr : tempThreshold 1 (e.temp : ℝ) ≤ tempThreshold 1 (f.temp : ℝ) := by
    unfold tempThreshold
    rw [if_neg hTr.ne', if_neg (lt_of_lt_of_le hTr hTf).ne', one_mul, one_mul, Real.exp_le_exp]
    have : 1 / (f.temp : ℝ) ≤ 1 / (e.temp : ℝ) := one_div_le_one_div_of_le hTr hTf
    apply mul_le_mul_of_nonpos_left _ (by norm_num)
    linarith
  have p1 := hthr0 _ hTr
  have base : 0 ≤ (e.dose : ℝ) * (1 / 1000) * tempThreshold 1 e.temp * (1 + e.solar) := by positivity
  have mono : (e.dose : ℝ) * (1 / 1000) * tempThreshold 1 e.temp * (1 + e.solar) ≤ (f.dose : ℝ) * (1 / 1000) * tempThreshold 1 f.temp * (1 + f.solar) := by
    have q1 : (e.dose : ℝ) * (1 / 1000) ≤ (f.dose : ℝ) * (1 / 1000) := by linarith
    have q2 : (e.dose : ℝ) * (1 / 1000) * tempThreshold 1 e.temp ≤ (f.dose : ℝ) * (1 / 1000) * tempThreshold 1 f.temp :=
      mul_le_mul q1 hthr p1.le (by linarith)
    exact mul_le_mul q2 (by linarith) (by linarith) (mul_nonneg (by linarith) (by linarith))
  refine ⟨?_, ?_, ?_, ?_⟩
  rotate_right
  · intro a b hab
    simp only [severity, PEnv.dose, PEnv.temp, hab]
  · unfold severity; dsimp only
    split
    · linarith
    · exact base
  · unfold severity; dsimp only
    split
    · rename_i h; rw [if_pos (h5 h)]; linarith
    · split
      · linarith
      · exact mono
  · unfold severity
    simp only [PEnv.dose, PEnv.temp, if_true, Bool.false_eq_true, if_false]
    ring

/-- Non-vacuity: a quiet orbit and a storm. -/
example : ∃ e f : PEnv, 0 ≤ e.proton ∧ 0 < e.temp ∧ e.proton < f.proton ∧ e.solar < f.solar ∧ e.temp < f.temp ∧ e.saa = false ∧ f.saa = true :=
  ⟨⟨⟨1, 0, false, 0⟩, 295, 295⟩, ⟨⟨2, 0, true, 1⟩, 300, 300⟩, by norm_num, by norm_num [PEnv.temp], by norm_num, by norm_num, by norm_num [PEnv.temp], rfl, rfl⟩

/-- C92 (negation): without trapped particles (deep space) the severity is 0 and all layers get the same share, whatever their
sensitivities. -/
theorem C92_zero_flux_violated (total : ℝ) (sens : List ℝ) (e : PEnv) (he : e.proton + e.electron = 0) :
    severity e = 0 ∧ ∀ r ∈ allocate total sens (severity e), r = total / sens.length := by
  have h0 : severity e = 0 := by
    simp [severity, PEnv.dose, he]
  refine ⟨h0, ?_⟩
  intro r hr
  rw [h0, allocate] at hr
  have : ¬ ((List.range sens.length).map (importance sens 0)).sum > 0 := by
    have : (List.range sens.length).map (importance sens 0) = (List.range sens.length).map fun _ => (0 : ℝ) :=
      List.map_congr_left fun i _ => by simp [importance]
    rw [this, sum_map_const]
    simp
  simp only [if_neg this] at hr
  obtain ⟨_, _, rfl⟩ := List.mem_map.1 hr
  rfl

example : (⟨⟨0, 0, true, 1⟩, 100, 400⟩ : PEnv).proton + (⟨⟨0, 0, true, 1⟩, 100, 400⟩ : PEnv).electron = 0 := by norm_num

/-- C92: the level of a layer: out-of-range indices get BASIC_TMR, the level grows with the share, and it is never NONE or STUCK_BIT_TMR. -/
theorem C92_level (alloc : List ℝ) (i : Int) :
    ((i < 0 ∨ i ≥ alloc.length) → allocLevel alloc i = 1) ∧
    (∀ k : Nat, i = k → ∀ h : k < alloc.length, allocLevel alloc i = resourceLevel alloc[k]) ∧
    (∀ r s : ℝ, r ≤ s → resourceLevel r ≤ resourceLevel s) ∧
    (∀ r : ℝ, (resourceLevel r = 1 ↔ r < 3 / 10) ∧ (resourceLevel r = 2 ↔ 3 / 10 ≤ r ∧ r < 6 / 10) ∧
      (resourceLevel r = 4 ↔ 6 / 10 ≤ r ∧ r < 8 / 10) ∧ (resourceLevel r = 5 ↔ 8 / 10 ≤ r)) ∧
    (allocLevel alloc i ∈ ([1, 2, 4, 5] : List Level)) := by
  have hr : ∀ r : ℝ, (resourceLevel r = 1 ↔ r < 3 / 10) ∧ (resourceLevel r = 2 ↔ 3 / 10 ≤ r ∧ r < 6 / 10) ∧
      (resourceLevel r = 4 ↔ 6 / 10 ≤ r ∧ r < 8 / 10) ∧ (resourceLevel r = 5 ↔ 8 / 10 ≤ r) := by
    intro r
    unfold resourceLevel
    split_ifs with h1 h2 h3
    all_goals simp only [show ((1 : Level) = 2) = False from by decide, show ((1 : Level) = 4) = False from by decide, show ((1 : Level) = 5) = False from by decide, show ((2 : Level) = 1) = False from by decide, show ((2 : Level) = 4) = False from by decide, show ((2 : Level) = 5) = False from by decide, show ((4 : Level) = 1) = False from by decide, show ((4 : Level) = 2) = False from by decide, show ((4 : Level) = 5) = False from by decide, show ((5 : Level) = 1) = False from by decide, show ((5 : Level) = 2) = False from by decide, show ((5 : Level) = 4) = False from by decide, true_iff, false_iff, not_and, not_lt, not_le]
    all_goals refine ⟨?_, ?_, ?_, ?_⟩
    all_goals first | linarith | (intro _; linarith) | exact ⟨by linarith, by linarith⟩
  refine ⟨fun h => by rw [allocLevel, if_pos h], ?_, ?_, hr, ?_⟩
  · rintro k rfl h
    rw [allocLevel, if_neg (by omega)]
    congr 1
    simp [h]
  · intro r s hrs
    unfold resourceLevel
    split_ifs <;> first | (exfalso; linarith) | decide
  · unfold allocLevel resourceLevel
    split_ifs <;> decide

/-- Non-vacuity: two layers of sensitivity 1 and 0: all resources go to the first. -/
example : allocLevel [(1 : ℝ), 0] 0 = 5 := by
  rw [allocLevel, if_neg (by simp)]
  simp [resourceLevel]; norm_num

/-- Number of layers whose share reaches `t`. -/
noncomputable def countAtLeast (t : ℝ) (alloc : List ℝ) : Nat := (alloc.filter fun r => decide (t ≤ r)).length

theorem count_bound (t : ℝ) (alloc : List ℝ) (h : ∀ r ∈ alloc, 0 ≤ r) : (countAtLeast t alloc : ℝ) * t ≤ alloc.sum := by
  unfold countAtLeast
  induction alloc with
  | nil => simp
  | cons a l ih =>
    have ih' := ih fun r hr => h r (List.mem_cons_of_mem _ hr)
    have ha := h a List.mem_cons_self
    by_cases hc : t ≤ a
    · rw [List.filter_cons_of_pos (by simpa using hc)]
      simp only [List.length_cons, List.sum_cons]
      push_cast
      linarith
    · rw [List.filter_cons_of_neg (by simpa using hc), List.sum_cons]
      linarith

/-- C92 (negation): "protection by sensitivity" cannot protect a whole network: with the default resources 1, however many layers there are
and however sensitive they all are, at most three get more than BASIC_TMR and at most one more than ENHANCED_TMR; five or more equally
sensitive layers all get BASIC_TMR. -/
theorem C92_few_protected_violated (sens : List ℝ) (sev : ℝ) (hn : sens ≠ []) (hv : 0 ≤ sev) (hs : ∀ x ∈ sens, 0 ≤ x) :
    countAtLeast (3 / 10) (allocate 1 sens sev) ≤ 3 ∧ countAtLeast (6 / 10) (allocate 1 sens sev) ≤ 1 ∧
    (5 ≤ sens.length → 0 < sev → (∃ q, 0 < q ∧ sens = List.replicate sens.length q) → ∀ i, allocLevel (allocate 1 sens sev) i = 1) := by
  obtain ⟨c1, c2, c3⟩ := C92_conservation 1 sens sev hn
  have h0 : ∀ r ∈ allocate 1 sens sev, 0 ≤ r := fun r hr => (c3 zero_le_one hv hs r hr).1
  refine ⟨?_, ?_, ?_⟩
  · have h := count_bound (3 / 10) _ h0
    rw [c2] at h
    by_contra hc
    have : (4 : ℝ) ≤ countAtLeast (3 / 10) (allocate 1 sens sev) := by exact_mod_cast (not_le.1 hc)
    linarith
  · have h := count_bound (6 / 10) _ h0
    rw [c2] at h
    by_contra hc
    have : (2 : ℝ) ≤ countAtLeast (6 / 10) (allocate 1 sens sev) := by exact_mod_cast (not_le.1 hc)
    linarith
  · intro h5 hsv hq i
    obtain ⟨q, hq0, hq⟩ := hq
    by_cases hr : i < 0 ∨ i ≥ (allocate 1 sens sev).length
    · exact (C92_level _ i).1 hr
    · obtain ⟨k, rfl⟩ : ∃ k : Nat, i = k := ⟨i.toNat, by omega⟩
      have hk : k < (allocate 1 sens sev).length := by omega
      rw [(C92_level _ _).2.1 k rfl hk, ((C92_level [] 0).2.2.2.1 _).1]
      have hks : k < sens.length := by omega
      have hget : ∀ j, j < sens.length → sens.getD j 0 = q := by
        intro j hj
        rw [hq]
        rw [getD_get _ _ (by simpa using hj), List.getElem_replicate]
      have hnpos : (0 : ℝ) < sens.length := by exact_mod_cast (by omega : 0 < sens.length)
      have hwsum : ((List.range sens.length).map fun j => sens.getD j 0 * (1 - (j : ℝ) / (2 * sens.length))).sum =
          q * (3 / 4 * sens.length + 1 / 4) := by
        have e1 : ((List.range sens.length).map fun j => sens.getD j 0 * (1 - (j : ℝ) / (2 * sens.length))) =
            (List.range sens.length).map fun j : Nat => q * (1 - (j : ℝ) / (2 * sens.length)) :=
          List.map_congr_left fun j hj => by rw [hget j (List.mem_range.1 hj)]
        rw [e1, sum_scale]
        have e2 : ∀ (m : Nat) (c : ℝ), ((List.range m).map fun j : Nat => 1 - (j : ℝ) / c).sum = m - (m * (m - 1) / 2) / c := by
          intro m c
          induction m with
          | zero => simp
          | succ m ih =>
            rw [List.range_succ, List.map_append, List.sum_append, ih]
            simp only [List.map_cons, List.map_nil, List.sum_cons, List.sum_nil]
            push_cast
            ring
        rw [e2]
        field_simp
        ring
      have hwpos : 0 < ((List.range sens.length).map fun j => sens.getD j 0 * (1 - (j : ℝ) / (2 * sens.length))).sum := by
        rw [hwsum]; positivity
      have hshare := C92_proportional 1 sens sev hsv hwpos k hks
      rw [getD_get _ _ hk, mul_one] at hshare
      rw [hshare, share, hwsum, hget k hks]
      have h5' : (5 : ℝ) ≤ sens.length := by exact_mod_cast h5
      rw [div_lt_iff₀ (by positivity)]
      have : (0 : ℝ) ≤ (k : ℝ) / (2 * sens.length) := by positivity
      nlinarith

/-- Non-vacuity: five layers of the highest sensitivity. -/
example : (5 ≤ (List.replicate 5 (1 : ℝ)).length) ∧ ∃ q : ℝ, 0 < q ∧ List.replicate 5 (1 : ℝ) = List.replicate (List.replicate 5 (1 : ℝ)).length q :=
  ⟨by simp, 1, one_pos, by simp⟩

end Verif.Props.PhysP
