import Verif.Model.Industry
import Mathlib.Tactic.Linarith
import Mathlib.Tactic.NormNum
import Mathlib.Tactic.Positivity
import Mathlib.Tactic.FieldSimp
import Mathlib.Analysis.SpecialFunctions.Log.Base
/-!
C289, C290: the industry standard validation suite.
-/
namespace Verif.Props.Industry
open Verif Verif.Industry
open Verif.Topology (xmin xsqrt xlog10)

theorem xmin_fin (a b : ℝ) : xmin (.fin a) (.fin b) = .fin (min a b) := by
  unfold xmin
  by_cases h : b < a
  · rw [if_pos (by simpa using h), min_eq_right h.le]
  · rw [if_neg (by simpa using h), min_eq_left (not_lt.1 h)]

theorem xmax_fin (a b : ℝ) : XD.max (.fin a) (.fin b) = .fin (max a b) := by
  unfold XD.max
  by_cases h : a < b
  · rw [if_pos (by simpa using h), max_eq_right h.le]
  · rw [if_neg (by simpa using h), max_eq_left (not_lt.1 h)]

theorem sub_fin (a b : ℝ) : XD.sub (.fin a) (.fin b) = .fin (a - b) := by
  unfold XD.sub XD.neg
  rw [XD.add_fin, sub_eq_add_neg]

/-- The factor of the orbit. -/
noncomputable def orbit (e : Env) : ℝ := if 0 < e.altitude then Real.logb 10 (e.altitude : ℝ) / 3 else 1

/-- The impact as a real number. -/
noncomputable def impactR (e : Env) (seu : ℝ) (days : ℤ) : ℝ :=
  seu * 10 ^ 9 * orbit e * Real.exp (-(e.shielding : ℝ) / 50) * Real.sqrt ((days : ℝ) / 30)

theorem impact_eq (e : Env) (seu : ℝ) (days : ℤ) (h : 0 ≤ days) : impact e seu days = .fin (impactR e seu days) := by
  have hd : (0 : ℝ) ≤ (days : ℝ) / 30 := div_nonneg (by exact_mod_cast h) (by norm_num)
  have ho : (if 0 < e.altitude then XD.div (xlog10 (.fin (e.altitude : ℝ))) (.fin 3) else .fin 1) = XD.fin (orbit e) := by
    unfold orbit
    by_cases ha : 0 < e.altitude
    · have ha' : (0 : ℝ) < (e.altitude : ℝ) := by exact_mod_cast ha
      rw [if_pos ha, if_pos ha]
      simp only [xlog10]
      rw [if_pos ha', XD.div_fin _ _ (by norm_num)]
    · rw [if_neg ha, if_neg ha]
  unfold impact impactR
  simp only [ho, xsqrt]
  rw [if_pos hd]
  simp only [XD.mul_fin]

theorem impact_neg (e : Env) (seu : ℝ) (days : ℤ) (h : days < 0) : impact e seu days = .nan := by
  have hd : ¬ (0 : ℝ) ≤ (days : ℝ) / 30 := by
    have : (days : ℝ) < 0 := by exact_mod_cast h
    intro hh
    linarith
  unfold impact
  simp only [xsqrt]
  rw [if_neg hd]
  exact XD.mul_nan _

theorem orbit_pos (e : Env) (he : e ∈ environments) : 0 < orbit e := by
  unfold orbit
  have key : ∀ e ∈ environments, 0 < e.altitude → 1 < e.altitude := by decide +kernel
  split
  · rename_i h
    have h1 : (1 : ℝ) < (e.altitude : ℝ) := by exact_mod_cast key e he h
    exact div_pos (Real.logb_pos (by norm_num) h1) (by norm_num)
  · norm_num

theorem impactR_mono (e : Env) (he : e ∈ environments) (seu seu' : ℝ) (days days' : ℤ) (h0 : 0 ≤ seu) (hs : seu ≤ seu') (hd0 : 0 ≤ days) (hd : days ≤ days') :
    0 ≤ impactR e seu days ∧ impactR e seu days ≤ impactR e seu' days' := by
  have ho := (orbit_pos e he).le
  have hx := (Real.exp_pos (-(e.shielding : ℝ) / 50)).le
  have hq : Real.sqrt ((days : ℝ) / 30) ≤ Real.sqrt ((days' : ℝ) / 30) :=
    Real.sqrt_le_sqrt (div_le_div_of_nonneg_right (by exact_mod_cast hd) (by norm_num))
  have h0' : (0 : ℝ) ≤ seu' := h0.trans hs
  unfold impactR
  constructor
  · positivity
  · apply mul_le_mul _ hq (Real.sqrt_nonneg _) (by positivity)
    apply mul_le_mul_of_nonneg_right _ hx
    apply mul_le_mul_of_nonneg_right _ ho
    exact mul_le_mul_of_nonneg_right hs (by norm_num)

theorem impactR_pos (e : Env) (he : e ∈ environments) (seu : ℝ) (days : ℤ) (h0 : 0 < seu) (hd0 : 0 < days) : 0 < impactR e seu days := by
  have ho := orbit_pos e he
  have hx := Real.exp_pos (-(e.shielding : ℝ) / 50)
  have hq : 0 < Real.sqrt ((days : ℝ) / 30) := Real.sqrt_pos.2 (div_pos (by exact_mod_cast hd0) (by norm_num))
  unfold impactR
  positivity

/-- C289. In every environment of the suite the impact of radiation is a number that is not negative, is positive for a positive upset rate and duration, and never falls
with the upset rate or the duration; it doubles when the duration is multiplied by four; and more shielding never raises it. -/
theorem C289_impact (e : Env) (he : e ∈ environments) (seu seu' : ℝ) (days days' : ℤ) (h0 : 0 ≤ seu) (hs : seu ≤ seu') (hd0 : 0 ≤ days) (hd : days ≤ days') :
    (∃ r r' : ℝ, impact e seu days = .fin r ∧ impact e seu' days' = .fin r' ∧ 0 ≤ r ∧ r ≤ r' ∧ (0 < seu → 0 < days → 0 < r) ∧
      impact e seu (4 * days) = .fin (2 * r)) ∧
    ∀ s : ℚ, e.shielding ≤ s → ∃ r t : ℝ, impact e seu days = .fin r ∧ impact { e with shielding := s } seu days = .fin t ∧ 0 ≤ t ∧ t ≤ r := by
  have m := impactR_mono e he seu seu' days days' h0 hs hd0 hd
  refine ⟨⟨_, _, impact_eq _ _ _ hd0, impact_eq _ _ _ (hd0.trans hd), m.1, m.2, fun a b => impactR_pos e he _ _ a b, ?_⟩, ?_⟩
  · rw [impact_eq _ _ _ (by omega)]
    congr 1
    unfold impactR
    have : Real.sqrt (((4 * days : ℤ) : ℝ) / 30) = 2 * Real.sqrt ((days : ℝ) / 30) := by
      have h4 : (((4 * days : ℤ) : ℝ) / 30) = 4 * ((days : ℝ) / 30) := by push_cast; ring
      rw [h4, Real.sqrt_mul (by norm_num), show (4 : ℝ) = 2 ^ 2 by norm_num, Real.sqrt_sq (by norm_num)]
    rw [this]
    ring
  · intro s hs'
    refine ⟨_, _, impact_eq _ _ _ hd0, impact_eq _ _ _ hd0, ?_, ?_⟩
    all_goals
      have ho : orbit { e with shielding := s } = orbit e := rfl
      have hop := (orbit_pos e he).le
      have hx : Real.exp (-(s : ℝ) / 50) ≤ Real.exp (-(e.shielding : ℝ) / 50) := by
        apply Real.exp_le_exp.2
        have : (e.shielding : ℝ) ≤ (s : ℝ) := by exact_mod_cast hs'
        linarith
      unfold impactR
      rw [ho]
    · have := (Real.exp_pos (-(s : ℝ) / 50)).le
      positivity
    · apply mul_le_mul_of_nonneg_right _ (Real.sqrt_nonneg _)
      exact mul_le_mul_of_nonneg_left hx (by positivity)

example : ∃ e ∈ environments, e.name = "Lunar Orbit" ∧ e.shielding ≤ 13 := by decide +kernel

/-- The value of a reference table, 0 if there is none. -/
def av (t : List (String × List ℚ)) (n : String) : ℚ :=
  match average t n with
  | .ok c => c
  | .ub => 0

/-- The result of one test of the suite. -/
noncomputable def res (days : ℤ) (z : ℝ) (e : Env) (p : Mech) : Result :=
  simulate e p (av nasa.seu e.name) (av esa.seu e.name) (av nasa.recovery p.name) (av esa.recovery p.name) days z

theorem simulateTest_eq (e : Env) (he : e ∈ environments) (p : Mech) (hp : p ∈ mechanisms) (days : ℤ) (z : ℝ) : simulateTest e p days z = .ok (res days z e p) := by
  have h1 : ∀ e ∈ environments, average nasa.seu e.name = .ok (av nasa.seu e.name) ∧ average esa.seu e.name = .ok (av esa.seu e.name) := by decide +kernel
  have h2 : ∀ p ∈ mechanisms, average nasa.recovery p.name = .ok (av nasa.recovery p.name) ∧ average esa.recovery p.name = .ok (av esa.recovery p.name) := by
    decide +kernel
  unfold simulateTest
  rw [(h1 e he).1, (h1 e he).2, (h2 p hp).1, (h2 p hp).2]
  rfl

/-- The upset rate drawn. -/
noncomputable def seuR (e : Env) (z : ℝ) : ℝ := max 0 (((av nasa.seu e.name : ℝ) + (av esa.seu e.name : ℝ)) / 2 + ((av nasa.seu e.name : ℝ) + (av esa.seu e.name : ℝ)) / 20 * z)

theorem seuR_pos (e : Env) (he : e ∈ environments) (z : ℝ) : 0 < seuR e z ↔ -10 < z := by
  have key : ∀ e ∈ environments, 0 < av nasa.seu e.name + av esa.seu e.name := by decide +kernel
  have k : (0 : ℝ) < (av nasa.seu e.name : ℝ) + (av esa.seu e.name : ℝ) := by exact_mod_cast key e he
  unfold seuR
  rw [lt_max_iff]
  constructor
  · rintro (h | h)
    · exact absurd h (lt_irrefl _)
    · by_contra hz
      nlinarith
  · intro h
    right
    nlinarith

theorem seuR_mono (e : Env) (he : e ∈ environments) (z z' : ℝ) (h : z ≤ z') : seuR e z ≤ seuR e z' := by
  have key : ∀ e ∈ environments, 0 < av nasa.seu e.name + av esa.seu e.name := by decide +kernel
  have k : (0 : ℝ) < (av nasa.seu e.name : ℝ) + (av esa.seu e.name : ℝ) := by exact_mod_cast key e he
  unfold seuR
  apply max_le_max le_rfl
  nlinarith

theorem seuR_nonneg (e : Env) (z : ℝ) : 0 ≤ seuR e z := le_max_left _ _

theorem accuracy_eq (days : ℤ) (z : ℝ) (e : Env) (p : Mech) (h : 0 ≤ days) :
    (res days z e p).accuracy = .fin (min 100 (max 0 (999 / 10 - impactR e (seuR e z) days + impactR e (seuR e z) days * p.efficiency))) := by
  show xmin (.fin 100) (XD.max (.fin 0) (((XD.fin (999 / 10)).sub (impact e (seuR e z) days)).add (benefit p (impact e (seuR e z) days)))) = _
  unfold benefit
  rw [impact_eq _ _ _ h, XD.mul_fin, sub_fin, XD.add_fin, xmax_fin, xmin_fin]

theorem accuracy_neg (days : ℤ) (z : ℝ) (e : Env) (p : Mech) (h : days < 0) : (res days z e p).accuracy = .fin 0 := by
  show xmin (.fin 100) (XD.max (.fin 0) (((XD.fin (999 / 10)).sub (impact e (seuR e z) days)).add (benefit p (impact e (seuR e z) days)))) = _
  unfold benefit
  rw [impact_neg _ _ _ h, XD.nan_mul, XD.add_nan]
  have : XD.max (.fin 0) .nan = .fin 0 := by
    unfold XD.max
    rw [if_neg (XD.not_lt_nan_right _)]
  rw [this, xmin_fin]
  norm_num

theorem eff_range (p : Mech) (hp : p ∈ mechanisms) : (0 : ℝ) ≤ (p.efficiency : ℝ) ∧ (p.efficiency : ℝ) ≤ 88 / 100 := by
  have key : ∀ p ∈ mechanisms, 0 ≤ p.efficiency ∧ p.efficiency ≤ 88 / 100 := by decide +kernel
  obtain ⟨a, b⟩ := key p hp
  refine ⟨by exact_mod_cast a, ?_⟩
  have : (p.efficiency : ℝ) ≤ ((88 / 100 : ℚ) : ℝ) := Rat.cast_le.2 b
  push_cast at this
  exact this

/-- C289. For every environment, mechanism, duration and draw the test has a result; its accuracy is a number between 0 and 100, is 99.9 without radiation impact, and for
durations that are not negative is 99.9 less the share of the impact that the mechanism leaves, but not less than 0. -/
theorem C289_accuracy (e : Env) (he : e ∈ environments) (p : Mech) (hp : p ∈ mechanisms) (days : ℤ) (z : ℝ) :
    ∃ r a, simulateTest e p days z = .ok r ∧ r.environment = e.name ∧ r.mechanism = p.name ∧ r.accuracy = .fin a ∧ 0 ≤ a ∧ a ≤ 100 ∧ 0 ≤ r.seu ∧
      r.power = 5 + (p.power : ℝ) / 2 ∧
      ∀ i, impact e r.seu days = .fin i → a = max 0 (999 / 10 - (1 - p.efficiency) * i) := by
  have hr := eff_range p hp
  by_cases h : 0 ≤ days
  · refine ⟨_, _, simulateTest_eq e he p hp days z, rfl, rfl, accuracy_eq days z e p h, le_min (by norm_num) (le_max_left _ _), min_le_left _ _,
      seuR_nonneg e z, ?_, ?_⟩
    · show 5 * (1 + (p.power : ℝ) / 10) = _
      ring
    · intro i hi
      have hi' : impact e (seuR e z) days = .fin i := hi
      rw [impact_eq _ _ _ h] at hi'
      have hi2 : impactR e (seuR e z) days = i := XD.fin.inj hi'
      have h0 : 0 ≤ impactR e (seuR e z) days := (impactR_mono e he _ _ days days (seuR_nonneg e z) le_rfl h le_rfl).1
      rw [hi2] at h0 ⊢
      rw [min_eq_right]
      · congr 1
        ring
      · apply max_le (by norm_num)
        nlinarith
  · have h' : days < 0 := not_le.1 h
    refine ⟨_, _, simulateTest_eq e he p hp days z, rfl, rfl, accuracy_neg days z e p h', le_rfl, by norm_num, seuR_nonneg e z, ?_, ?_⟩
    · show 5 * (1 + (p.power : ℝ) / 10) = _
      ring
    · intro i hi
      have hi' : impact e (seuR e z) days = .fin i := hi
      rw [impact_neg _ _ _ h'] at hi'
      cases hi'

example : ∃ e ∈ environments, ∃ p ∈ mechanisms, e.name = "Lunar Orbit" ∧ p.name = "ECC Memory" := by decide +kernel

/-- C289. A mechanism with a higher efficiency never has the lower accuracy, a longer duration never the higher one, a higher draw of the upset rate never the higher
one. -/
theorem C289_monotone (e : Env) (he : e ∈ environments) (p q : Mech) (hp : p ∈ mechanisms) (hq : q ∈ mechanisms) (hpq : p.efficiency ≤ q.efficiency)
    (days days' : ℤ) (h0 : 0 ≤ days) (hd : days ≤ days') (z z' : ℝ) (hz : z ≤ z') :
    ∃ r s a b, simulateTest e p days' z' = .ok r ∧ simulateTest e q days z = .ok s ∧ r.accuracy = .fin a ∧ s.accuracy = .fin b ∧ a ≤ b := by
  refine ⟨_, _, _, _, simulateTest_eq e he p hp days' z', simulateTest_eq e he q hq days z, accuracy_eq _ _ _ _ (h0.trans hd), accuracy_eq _ _ _ _ h0, ?_⟩
  have m := impactR_mono e he (seuR e z) (seuR e z') days days' (seuR_nonneg e z) (seuR_mono e he z z' hz) h0 hd
  have hr := eff_range p hp
  have hr' := eff_range q hq
  have hpq' : (p.efficiency : ℝ) ≤ (q.efficiency : ℝ) := by exact_mod_cast hpq
  apply min_le_min le_rfl
  apply max_le_max le_rfl
  nlinarith [m.1, m.2, mul_nonneg (sub_nonneg.2 m.2) (by linarith : (0 : ℝ) ≤ 1 - p.efficiency), mul_nonneg m.1 (sub_nonneg.2 hpq')]

example : ∃ p ∈ mechanisms, ∃ q ∈ mechanisms, p.efficiency < q.efficiency := by decide +kernel

/-- Agreement with a reference value: within a fifth of it; for the reference value 0, not above it. -/
def Near (x c : ℝ) : Prop := if c = 0 then x ≤ 0 else |x - c| ≤ c / 5

theorem match_iff (x c : ℝ) (hc : 0 ≤ c) : (∃ m, matchOf (.fin x) c = .fin m ∧ 0 ≤ m ∧ m ≤ 100) ∧ (XD.le (.fin 80) (matchOf (.fin x) c) ↔ Near x c) := by
  unfold matchOf Near
  by_cases h : 0 < c
  · have he : (XD.fin 100).sub (xmin (.fin 100) ((XD.div (((XD.fin x).sub (.fin c)).abs) (.fin c)).mul (.fin 100))) = .fin (100 - min 100 (|x - c| / c * 100)) := by
      rw [sub_fin]
      show (XD.fin 100).sub (xmin (.fin 100) ((XD.div (.fin |x - c|) (.fin c)).mul (.fin 100))) = _
      rw [XD.div_fin _ _ h.ne', XD.mul_fin, xmin_fin, sub_fin]
    rw [if_pos h, if_neg h.ne', he]
    have hn : 0 ≤ |x - c| / c * 100 := by positivity
    refine ⟨⟨_, rfl, by linarith [min_le_left 100 (|x - c| / c * 100)], by linarith [le_min (by norm_num : (0 : ℝ) ≤ 100) hn]⟩, ?_⟩
    rw [XD.le_fin]
    have : |x - c| / c * 100 ≤ 20 ↔ |x - c| ≤ c / 5 := by
      rw [div_mul_eq_mul_div, div_le_iff₀ h]
      constructor <;> intro h <;> linarith
    rw [← this]
    constructor
    · intro hh
      by_contra hc'
      have := lt_min (by norm_num : (20 : ℝ) < 100) (not_le.1 hc')
      linarith
    · intro hh
      linarith [min_le_right 100 (|x - c| / c * 100)]
  · have h0 : c = 0 := le_antisymm (not_lt.1 h) hc
    rw [if_neg h, if_pos h0]
    by_cases hx : 0 < x
    · rw [if_pos (by simpa using hx)]
      refine ⟨⟨0, rfl, by norm_num, by norm_num⟩, ?_⟩
      rw [XD.le_fin]
      constructor
      · intro hh; norm_num at hh
      · intro hh; linarith
    · rw [if_neg (by simpa using hx)]
      refine ⟨⟨100, rfl, by norm_num, by norm_num⟩, ?_⟩
      rw [XD.le_fin]
      exact ⟨fun _ => not_lt.1 hx, fun _ => by norm_num⟩

/-- The efficiency of a test. -/
noncomputable def effR (days : ℤ) (z : ℝ) (p : Mech) : ℝ :=
  open Classical in if 0 < days ∧ -10 < z then 100 * p.efficiency else 100

theorem eff_eq (days : ℤ) (z : ℝ) (e : Env) (he : e ∈ environments) (p : Mech) : (res days z e p).efficiency = .fin (effR days z p) := by
  have hdef : (res days z e p).efficiency = (open Classical in if XD.lt (.fin 0) (impact e (seuR e z) days) then
      (XD.div (benefit p (impact e (seuR e z) days)) (impact e (seuR e z) days)).mul (.fin 100) else .fin 100) := rfl
  rw [hdef]
  unfold effR
  by_cases h : 0 ≤ days
  · rw [impact_eq _ _ _ h]
    by_cases h2 : 0 < days ∧ -10 < z
    · have hp := impactR_pos e he (seuR e z) days ((seuR_pos e he z).2 h2.2) h2.1
      rw [if_pos (by simpa using hp), if_pos h2]
      unfold benefit
      rw [XD.mul_fin, XD.div_fin _ _ hp.ne', XD.mul_fin]
      congr 1
      field_simp
    · rw [if_neg h2]
      have hz : impactR e (seuR e z) days = 0 := by
        rcases not_and_or.1 h2 with hh | hh
        · have : days = 0 := by omega
          subst this
          unfold impactR
          simp
        · have : seuR e z = 0 := le_antisymm (not_lt.1 fun hc => hh ((seuR_pos e he z).1 hc)) (seuR_nonneg e z)
          unfold impactR
          rw [this]
          simp
      rw [hz, if_neg (by simp)]
  · rw [impact_neg _ _ _ (not_le.1 h), if_neg (XD.not_lt_nan_right _), if_neg (fun hh => h hh.1.le)]

theorem recovery_nonneg (p : Mech) (hp : p ∈ mechanisms) : (0 : ℝ) ≤ (av nasa.recovery p.name : ℝ) ∧ (0 : ℝ) ≤ (av esa.recovery p.name : ℝ) := by
  have key : ∀ p ∈ mechanisms, 0 ≤ av nasa.recovery p.name ∧ 0 ≤ av esa.recovery p.name := by decide +kernel
  exact ⟨by exact_mod_cast (key p hp).1, by exact_mod_cast (key p hp).2⟩

theorem within_iff (days : ℤ) (z : ℝ) (e : Env) (he : e ∈ environments) (p : Mech) (hp : p ∈ mechanisms) :
    (res days z e p).within ↔ Near (effR days z p) (av nasa.recovery p.name) ∧ Near (effR days z p) (av esa.recovery p.name) := by
  have hdef : (res days z e p).within = (XD.le (.fin 80) (matchOf (res days z e p).efficiency (av nasa.recovery p.name : ℝ)) ∧
      XD.le (.fin 80) (matchOf (res days z e p).efficiency (av esa.recovery p.name : ℝ))) := rfl
  rw [hdef, eff_eq _ _ _ he, (match_iff _ _ (recovery_nonneg p hp).1).2, (match_iff _ _ (recovery_nonneg p hp).2).2]

/-- C290. For every environment, mechanism, duration and draw: the two matches are numbers between 0 and 100, and a test passes exactly if the efficiency it reports lies
within a fifth of both reference values (is not above 0 where the reference value is 0). -/
theorem C290_verdict (e : Env) (he : e ∈ environments) (p : Mech) (hp : p ∈ mechanisms) (days : ℤ) (z : ℝ) :
    ∃ r x c d m n, simulateTest e p days z = .ok r ∧ r.efficiency = .fin x ∧ average nasa.recovery p.name = .ok c ∧ average esa.recovery p.name = .ok d ∧
      r.nasaMatch = .fin m ∧ r.esaMatch = .fin n ∧ 0 ≤ m ∧ m ≤ 100 ∧ 0 ≤ n ∧ n ≤ 100 ∧ 0 ≤ x ∧ x ≤ 100 ∧
      (r.within ↔ Near x c ∧ Near x d) := by
  have h2 : ∀ p ∈ mechanisms, average nasa.recovery p.name = .ok (av nasa.recovery p.name) ∧ average esa.recovery p.name = .ok (av esa.recovery p.name) := by
    decide +kernel
  have a := match_iff (effR days z p) (av nasa.recovery p.name) (recovery_nonneg p hp).1
  have b := match_iff (effR days z p) (av esa.recovery p.name) (recovery_nonneg p hp).2
  obtain ⟨⟨m, hm, hm0, hm1⟩, _⟩ := a
  obtain ⟨⟨n, hn, hn0, hn1⟩, _⟩ := b
  have hx : 0 ≤ effR days z p ∧ effR days z p ≤ 100 := by
    have := eff_range p hp
    unfold effR
    split
    · exact ⟨by linarith, by linarith⟩
    · norm_num
  refine ⟨_, _, _, _, m, n, simulateTest_eq e he p hp days z, eff_eq days z e he p, (h2 p hp).1, (h2 p hp).2, ?_, ?_, hm0, hm1, hn0, hn1, hx.1, hx.2,
    within_iff days z e he p hp⟩
  · have : (res days z e p).nasaMatch = matchOf (res days z e p).efficiency (av nasa.recovery p.name : ℝ) := rfl
    rw [this, eff_eq _ _ _ he, hm]
  · have : (res days z e p).esaMatch = matchOf (res days z e p).efficiency (av esa.recovery p.name : ℝ) := rfl
    rw [this, eff_eq _ _ _ he, hn]

example : Near 80 70 ∧ ¬ Near 90 70 := by
  unfold Near
  norm_num

theorem runList_eq (days : ℤ) (z : Env → Mech → ℝ) (l : List (Env × Mech)) (h : ∀ x ∈ l, x.1 ∈ environments ∧ x.2 ∈ mechanisms) :
    runList days z l = .ok (l.map fun x => res days (z x.1 x.2) x.1 x.2) := by
  induction l with
  | nil => rfl
  | cons x xs ih =>
    have hx := h x (List.mem_cons_self ..)
    unfold runList
    rw [simulateTest_eq _ hx.1 _ hx.2, ih fun y hy => h y (List.mem_cons_of_mem _ hy)]
    rfl

theorem tests_mem : ∀ x ∈ tests, x.1 ∈ environments ∧ x.2 ∈ mechanisms := by
  intro x hx
  unfold tests at hx
  simp only [List.mem_flatMap, List.mem_map] at hx
  obtain ⟨e, he, p, hp, rfl⟩ := hx
  exact ⟨he, hp⟩

theorem total_fin (f : Result → XD) (g : Result → ℝ) (rs : List Result) (h : ∀ r ∈ rs, f r = .fin (g r)) : total f rs = .fin ((rs.map g).sum) := by
  have gen : ∀ (l : List Result) (a : ℝ), (∀ r ∈ l, f r = .fin (g r)) → l.foldl (fun (a : XD) (r : Result) => XD.add a (f r)) (XD.fin a) = XD.fin (a + (l.map g).sum) := by
    intro l
    induction l with
    | nil => intro a _; simp
    | cons x xs ih =>
      intro a hl
      rw [List.foldl_cons, hl x (List.mem_cons_self ..), XD.add_fin, ih _ fun r hr => hl r (List.mem_cons_of_mem _ hr), List.map_cons, List.sum_cons]
      congr 1
      ring
  have := gen rs 0 h
  rw [zero_add] at this
  exact this

theorem sum_range (l : List ℝ) (h : ∀ x ∈ l, 0 ≤ x ∧ x ≤ 100) : 0 ≤ l.sum ∧ l.sum ≤ 100 * l.length := by
  induction l with
  | nil => simp
  | cons x xs ih =>
    have a := h x (List.mem_cons_self ..)
    have b := ih fun y hy => h y (List.mem_cons_of_mem _ hy)
    rw [List.sum_cons, List.length_cons]
    push_cast
    exact ⟨by linarith, by linarith⟩

theorem avg_range (f : Result → XD) (rs : List Result) (hl : rs.length = 30) (h : ∀ r ∈ rs, ∃ x, f r = .fin x ∧ 0 ≤ x ∧ x ≤ 100) :
    ∃ x, (if 0 < rs.length then XD.div (total f rs) (.fin (rs.length : ℝ)) else total f rs) = .fin x ∧ 0 ≤ x ∧ x ≤ 100 := by
  classical
  let g : Result → ℝ := fun r => match f r with | .fin x => x | _ => 0
  have hg : ∀ r ∈ rs, f r = .fin (g r) := by
    intro r hr
    obtain ⟨x, hx, _⟩ := h r hr
    show f r = .fin (match f r with | .fin x => x | _ => 0)
    rw [hx]
  rw [if_pos (by omega), total_fin f g rs hg, hl, XD.div_fin _ _ (by norm_num)]
  have := sum_range (rs.map g) (by
    intro x hx
    obtain ⟨r, hr, rfl⟩ := List.mem_map.1 hx
    obtain ⟨y, hy, h0, h1⟩ := h r hr
    rw [hg r hr] at hy
    rw [XD.fin.inj hy]
    exact ⟨h0, h1⟩)
  rw [List.length_map, hl] at this
  refine ⟨_, rfl, ?_, ?_⟩
  · exact div_nonneg this.1 (by norm_num)
  · push_cast at this ⊢
    rw [div_le_iff₀ (by norm_num)]
    linarith [this.2]

/-- C290. A run of the suite has 30 results, one for every environment and mechanism; the summary counts those that pass, the percentage is their share, and the four
averages are numbers between 0 and 100. -/
theorem C290_summary (days : ℤ) (z : Env → Mech → ℝ) :
    ∃ rs, runTests days z = .ok rs ∧ rs.map (fun r => (r.environment, r.mechanism)) = environments.flatMap (fun e => mechanisms.map fun p => (e.name, p.name)) ∧
      (∀ x ∈ tests, ∃ r ∈ rs, simulateTest x.1 x.2 days (z x.1 x.2) = .ok r) ∧
      (∀ r ∈ rs, ∃ x ∈ tests, simulateTest x.1 x.2 days (z x.1 x.2) = .ok r) ∧
      (summary rs).tests = 30 ∧ (summary rs).passed ≤ 30 ∧ (open Classical in (summary rs).passed = (rs.filter fun r => decide r.within).length) ∧
      (summary rs).percentage = 100 * (summary rs).passed / 30 ∧
      ∀ x ∈ [(summary rs).accuracy, (summary rs).efficiency, (summary rs).nasaMatch, (summary rs).esaMatch], ∃ y, x = .fin y ∧ 0 ≤ y ∧ y ≤ 100 := by
  have hl : ((tests.map fun x => res days (z x.1 x.2) x.1 x.2)).length = 30 := by
    rw [List.length_map]
    decide +kernel
  have hall : ∀ r ∈ tests.map (fun x => res days (z x.1 x.2) x.1 x.2), ∃ a b c d, r.accuracy = .fin a ∧ r.efficiency = .fin b ∧ r.nasaMatch = .fin c ∧ r.esaMatch = .fin d ∧
      (0 ≤ a ∧ a ≤ 100) ∧ (0 ≤ b ∧ b ≤ 100) ∧ (0 ≤ c ∧ c ≤ 100) ∧ (0 ≤ d ∧ d ≤ 100) := by
    intro r hr
    obtain ⟨x, hx, rfl⟩ := List.mem_map.1 hr
    have hm := tests_mem x hx
    obtain ⟨r1, a, h1, _, _, ha, ha0, ha1, _⟩ := C289_accuracy x.1 hm.1 x.2 hm.2 days (z x.1 x.2)
    obtain ⟨r2, b, _, _, c, d, h2, hb, _, _, hc, hd, hc0, hc1, hd0, hd1, hb0, hb1, _⟩ := C290_verdict x.1 hm.1 x.2 hm.2 days (z x.1 x.2)
    rw [simulateTest_eq _ hm.1 _ hm.2] at h1 h2
    cases h1
    cases h2
    exact ⟨a, b, c, d, ha, hb, hc, hd, ⟨ha0, ha1⟩, ⟨hb0, hb1⟩, ⟨hc0, hc1⟩, ⟨hd0, hd1⟩⟩
  refine ⟨_, runList_eq days z tests tests_mem, ?_, ?_, ?_, hl, ?_, ?_, ?_, ?_⟩
  · rw [List.map_map]
    show List.map (fun x : Env × Mech => (x.1.name, x.2.name)) tests = _
    unfold tests
    rw [List.map_flatMap]
    congr 1
  · intro x hx
    exact ⟨_, List.mem_map.2 ⟨x, hx, rfl⟩, simulateTest_eq _ (tests_mem x hx).1 _ (tests_mem x hx).2 _ _⟩
  · intro r hr
    obtain ⟨x, hx, rfl⟩ := List.mem_map.1 hr
    exact ⟨x, hx, simulateTest_eq _ (tests_mem x hx).1 _ (tests_mem x hx).2 _ _⟩
  · exact le_trans (List.countP_le_length) (le_of_eq hl)
  · exact List.countP_eq_length_filter
  · generalize (tests.map fun x => res days (z x.1 x.2) x.1 x.2) = rs at hl
    simp only [summary, hl]
    rw [if_pos (by norm_num)]
    push_cast
    ring
  · intro x hx
    simp only [List.mem_cons, List.not_mem_nil, or_false] at hx
    rcases hx with rfl | rfl | rfl | rfl
    · exact avg_range Result.accuracy _ hl fun r hr => by obtain ⟨a, b, c, d, h1, h2, h3, h4, h5, h6, h7, h8⟩ := hall r hr; exact ⟨a, h1, h5⟩
    · exact avg_range Result.efficiency _ hl fun r hr => by obtain ⟨a, b, c, d, h1, h2, h3, h4, h5, h6, h7, h8⟩ := hall r hr; exact ⟨b, h2, h6⟩
    · exact avg_range Result.nasaMatch _ hl fun r hr => by obtain ⟨a, b, c, d, h1, h2, h3, h4, h5, h6, h7, h8⟩ := hall r hr; exact ⟨c, h3, h7⟩
    · exact avg_range Result.esaMatch _ hl fun r hr => by obtain ⟨a, b, c, d, h1, h2, h3, h4, h5, h6, h7, h8⟩ := hall r hr; exact ⟨d, h4, h8⟩

/-- C290. The rating is decided by the percentage alone; a mission that asks for more is never suitable where one that asks for less is not. -/
theorem C290_rating (x : ℝ) (acc eff : XD) :
    (rating x = "EXCELLENT" ↔ 90 ≤ x) ∧ (rating x = "GOOD" ↔ 75 ≤ x ∧ x < 90) ∧ (rating x = "ADEQUATE" ↔ 60 ≤ x ∧ x < 75) ∧ (rating x = "NEEDS IMPROVEMENT" ↔ x < 60) ∧
      (suitability acc eff).map Prod.fst = ["Low Earth Orbit", "Geostationary Orbit", "Lunar Mission", "Mars Mission", "Jupiter Mission"] ∧
      (∀ a b : ℝ, (suitability (.fin a) (.fin b)).map Prod.snd = [85 ≤ a, 90 ≤ a ∧ 75 ≤ b, 88 ≤ a ∧ 70 ≤ b, 92 ≤ a ∧ 80 ≤ b, 95 ≤ a ∧ 90 ≤ b]) := by
  refine ⟨?_, ?_, ?_, ?_, rfl, ?_⟩
  all_goals first
    | (intro a b
       simp only [suitability, List.map_cons, List.map_nil, XD.le_fin])
    | (unfold rating
       by_cases h1 : 90 ≤ x
       · rw [if_pos h1]
         simp
         try (first | exact h1 | (intros; linarith))
       · rw [if_neg h1]
         have h1' := not_le.1 h1
         by_cases h2 : 75 ≤ x
         · rw [if_pos h2]
           simp
           try (first | exact ⟨h2, h1'⟩ | (intros; linarith))
         · rw [if_neg h2]
           have h2' := not_le.1 h2
           by_cases h3 : 60 ≤ x
           · rw [if_pos h3]
             simp
             try (first | exact ⟨h3, h2'⟩ | (intros; linarith))
           · rw [if_neg h3]
             have h3' := not_le.1 h3
             simp
             try (first | exact h3' | (intros; linarith)))

theorem near_cast (x c : ℚ) (h : if c = 0 then x ≤ 0 else |x - c| ≤ c / 5) : Near (x : ℝ) (c : ℝ) := by
  unfold Near
  by_cases h0 : c = 0
  · rw [if_pos h0] at h
    rw [if_pos (by exact_mod_cast h0)]
    exact_mod_cast h
  · rw [if_neg h0] at h
    rw [if_neg (by exact_mod_cast h0)]
    have : ((|x - c| : ℚ) : ℝ) ≤ ((c / 5 : ℚ) : ℝ) := Rat.cast_le.2 h
    push_cast at this
    exact this

theorem not_near_cast (x c : ℚ) (h : ¬ if c = 0 then x ≤ 0 else |x - c| ≤ c / 5) : ¬ Near (x : ℝ) (c : ℝ) := by
  unfold Near
  by_cases h0 : c = 0
  · rw [if_pos h0] at h
    rw [if_pos (by exact_mod_cast h0)]
    exact_mod_cast h
  · rw [if_neg h0] at h
    rw [if_neg (by exact_mod_cast h0)]
    intro hh
    apply h
    have : ((|x - c| : ℚ) : ℝ) ≤ ((c / 5 : ℚ) : ℝ) := by
      push_cast
      exact hh
    exact Rat.cast_le.1 this

theorem avg_const (f : Result → XD) (g : Mech → ℝ) (days : ℤ) (z : Env → Mech → ℝ) (h : ∀ x ∈ tests, f (res days (z x.1 x.2) x.1 x.2) = .fin (g x.2)) :
    (if 0 < (tests.map fun x => res days (z x.1 x.2) x.1 x.2).length then
        XD.div (total f (tests.map fun x => res days (z x.1 x.2) x.1 x.2)) (.fin ((tests.map fun x => res days (z x.1 x.2) x.1 x.2).length : ℝ))
      else total f (tests.map fun x => res days (z x.1 x.2) x.1 x.2)) = .fin ((mechanisms.map g).sum / 6) := by
  have hl : ((tests.map fun x => res days (z x.1 x.2) x.1 x.2)).length = 30 := by
    rw [List.length_map]
    decide +kernel
  have gen : ∀ l : List (Env × Mech), (∀ x ∈ l, f (res days (z x.1 x.2) x.1 x.2) = .fin (g x.2)) →
      ∀ a : ℝ, (l.map fun x => res days (z x.1 x.2) x.1 x.2).foldl (fun (a : XD) (r : Result) => XD.add a (f r)) (XD.fin a) = XD.fin (a + (l.map fun x => g x.2).sum) := by
    intro l
    induction l with
    | nil => intro _ a; simp
    | cons x xs ih =>
      intro hh a
      rw [List.map_cons, List.foldl_cons, hh x (List.mem_cons_self ..), XD.add_fin, ih (fun y hy => hh y (List.mem_cons_of_mem _ hy)), List.map_cons, List.sum_cons]
      congr 1
      ring
  have ht : total f (tests.map fun x => res days (z x.1 x.2) x.1 x.2) = .fin ((tests.map fun x => g x.2).sum) := by
    have := gen tests h 0
    rw [zero_add] at this
    exact this
  rw [if_pos (by rw [hl]; norm_num), ht, hl, XD.div_fin _ _ (by norm_num)]
  congr 1
  have hs : (tests.map fun x => g x.2).sum = 5 * (mechanisms.map g).sum := by
    simp only [tests, environments, mechanisms, List.flatMap_cons, List.flatMap_nil, List.map_cons, List.map_nil, List.append_nil, List.cons_append, List.nil_append,
      List.sum_cons, List.sum_nil]
    ring
  rw [hs]
  push_cast
  ring

theorem passed_count (days : ℤ) (z : Env → Mech → ℝ) (b : Mech → Bool) (h : ∀ x ∈ tests, (res days (z x.1 x.2) x.1 x.2).within ↔ b x.2 = true) :
    (summary (tests.map fun x => res days (z x.1 x.2) x.1 x.2)).passed = tests.countP fun x => b x.2 := by
  classical
  show List.countP _ _ = _
  rw [List.countP_map]
  apply List.countP_congr
  intro x hx
  rw [Function.comp_apply, decide_eq_true_iff]
  exact h x hx

/-- C290, defect. The efficiency "measured" is the constant written down for the mechanism: for every duration of at least a day and all draws above ten deviations below the
mean, whatever the environment, all 30 tests pass, the rating is EXCELLENT, the average efficiency is 383/6 %, and no mission but the low orbit is suitable. -/
theorem C290_measured_violated (days : ℤ) (hd : 0 < days) (z : Env → Mech → ℝ) (hz : ∀ e p, -10 < z e p) :
    (∀ e ∈ environments, ∀ p ∈ mechanisms, ∃ r, simulateTest e p days (z e p) = .ok r ∧ r.efficiency = .fin (100 * p.efficiency) ∧ r.within) ∧
    ∃ rs, runTests days z = .ok rs ∧ (summary rs).passed = 30 ∧ rating (summary rs).percentage = "EXCELLENT" ∧ (summary rs).efficiency = .fin (383 / 6) ∧
      ∀ s ∈ (suitability (summary rs).accuracy (summary rs).efficiency).tail, ¬ s.2 := by
  have he : ∀ e p, effR days (z e p) p = 100 * p.efficiency := fun e p => if_pos ⟨hd, hz e p⟩
  have hw : ∀ e ∈ environments, ∀ p ∈ mechanisms, (res days (z e p) e p).within := by
    intro e hee p hp
    rw [within_iff _ _ _ hee _ hp, he]
    have key : ∀ p ∈ mechanisms, (if av nasa.recovery p.name = 0 then 100 * p.efficiency ≤ 0 else |100 * p.efficiency - av nasa.recovery p.name| ≤ av nasa.recovery p.name / 5) ∧
        (if av esa.recovery p.name = 0 then 100 * p.efficiency ≤ 0 else |100 * p.efficiency - av esa.recovery p.name| ≤ av esa.recovery p.name / 5) := by decide +kernel
    have a := near_cast _ _ (key p hp).1
    have b := near_cast _ _ (key p hp).2
    push_cast at a b
    exact ⟨a, b⟩
  refine ⟨fun e hee p hp => ⟨_, simulateTest_eq e hee p hp _ _, ?_, hw e hee p hp⟩, _, runList_eq days z tests tests_mem, ?_, ?_, ?_, ?_⟩
  · rw [eff_eq _ _ _ hee, he]
  · rw [passed_count days z (fun _ => true) fun x hx => by simpa using hw x.1 (tests_mem x hx).1 x.2 (tests_mem x hx).2]
    decide +kernel
  · obtain ⟨rs, h1, _, _, _, _, _, _, h2, _⟩ := C290_summary days z
    have h1' : rs = tests.map fun x => res days (z x.1 x.2) x.1 x.2 := by
      have := h1.symm.trans (runList_eq days z tests tests_mem)
      cases this
      rfl
    rw [h1'] at h2
    rw [h2, passed_count days z (fun _ => true) fun x hx => by simpa using hw x.1 (tests_mem x hx).1 x.2 (tests_mem x hx).2]
    have : tests.countP (fun _ => true) = 30 := by decide +kernel
    rw [this]
    exact (C290_rating _ .nan .nan).1.2 (by norm_num)
  · have h := avg_const Result.efficiency (fun p => 100 * p.efficiency) days z (fun x hx => by rw [eff_eq _ _ _ (tests_mem x hx).1, he])
    have h2 : (summary (tests.map fun x => res days (z x.1 x.2) x.1 x.2)).efficiency = _ := h
    rw [h2]
    congr 1
    simp only [mechanisms, List.map_cons, List.map_nil, List.sum_cons, List.sum_nil]
    norm_num
  · have h := avg_const Result.efficiency (fun p => 100 * p.efficiency) days z (fun x hx => by rw [eff_eq _ _ _ (tests_mem x hx).1, he])
    have h2 : (summary (tests.map fun x => res days (z x.1 x.2) x.1 x.2)).efficiency = _ := h
    have h3 : ((mechanisms.map fun p => 100 * (p.efficiency : ℝ)).sum / 6) = 383 / 6 := by
      simp only [mechanisms, List.map_cons, List.map_nil, List.sum_cons, List.sum_nil]
      norm_num
    rw [h2, h3]
    intro s hs
    simp only [suitability, List.tail_cons, List.mem_cons, List.not_mem_nil, or_false] at hs
    rcases hs with rfl | rfl | rfl | rfl
    all_goals
      rintro ⟨_, h⟩
      rw [XD.le_fin] at h
      norm_num at h

example : ∃ z : Env → Mech → ℝ, ∀ e p, -10 < z e p := ⟨fun _ _ => 0, fun _ _ => by norm_num⟩

/-- C290, defect. With no exposure at all (0 days), and with a negative number of days, every efficiency is reported as 100 %, two thirds of the tests fail and the rating is
NEEDS IMPROVEMENT; after 0 days every accuracy is 99.9 and all missions are called suitable, after a negative number every accuracy is 0. -/
theorem C290_exposure_violated (days : ℤ) (hd : days ≤ 0) (z : Env → Mech → ℝ) :
    ∃ rs, runTests days z = .ok rs ∧ (summary rs).efficiency = .fin 100 ∧ (summary rs).passed = 10 ∧ rating (summary rs).percentage = "NEEDS IMPROVEMENT" ∧
      (days = 0 → (summary rs).accuracy = .fin (999 / 10) ∧ ∀ s ∈ suitability (summary rs).accuracy (summary rs).efficiency, s.2) ∧
      (days < 0 → (summary rs).accuracy = .fin 0) := by
  have he : ∀ e p, effR days (z e p) p = 100 := fun e p => if_neg fun h => by omega
  have hw : ∀ e ∈ environments, ∀ p ∈ mechanisms, ((res days (z e p) e p).within ↔ (decide (p.name = "Enhanced TMR" ∨ p.name = "Stuck-Bit TMR")) = true) := by
    intro e hee p hp
    rw [within_iff _ _ _ hee _ hp, he]
    have key : ∀ p ∈ mechanisms, (if p.name = "Enhanced TMR" ∨ p.name = "Stuck-Bit TMR" then
        (if av nasa.recovery p.name = 0 then (100 : ℚ) ≤ 0 else |100 - av nasa.recovery p.name| ≤ av nasa.recovery p.name / 5) ∧
        (if av esa.recovery p.name = 0 then (100 : ℚ) ≤ 0 else |100 - av esa.recovery p.name| ≤ av esa.recovery p.name / 5)
        else ¬ (if av nasa.recovery p.name = 0 then (100 : ℚ) ≤ 0 else |100 - av nasa.recovery p.name| ≤ av nasa.recovery p.name / 5)) := by decide +kernel
    have k := key p hp
    by_cases hn : p.name = "Enhanced TMR" ∨ p.name = "Stuck-Bit TMR"
    · rw [if_pos hn] at k
      have a := near_cast _ _ k.1
      have b := near_cast _ _ k.2
      push_cast at a b
      simp only [decide_eq_true_eq]
      exact ⟨fun _ => hn, fun _ => ⟨a, b⟩⟩
    · rw [if_neg hn] at k
      have a := not_near_cast _ _ k
      push_cast at a
      simp only [decide_eq_true_eq]
      exact ⟨fun h => absurd h.1 a, fun h => absurd h hn⟩
  have hcount := passed_count days z (fun p => decide (p.name = "Enhanced TMR" ∨ p.name = "Stuck-Bit TMR")) fun x hx => hw x.1 (tests_mem x hx).1 x.2 (tests_mem x hx).2
  have h10 : tests.countP (fun x => decide (x.2.name = "Enhanced TMR" ∨ x.2.name = "Stuck-Bit TMR")) = 10 := by decide +kernel
  have heff : (summary (tests.map fun x => res days (z x.1 x.2) x.1 x.2)).efficiency = .fin 100 := by
    have h := avg_const Result.efficiency (fun _ => 100) days z (fun x hx => by rw [eff_eq _ _ _ (tests_mem x hx).1, he])
    have h2 : (summary (tests.map fun x => res days (z x.1 x.2) x.1 x.2)).efficiency = _ := h
    rw [h2]
    congr 1
    simp only [mechanisms, List.map_cons, List.map_nil, List.sum_cons, List.sum_nil]
    norm_num
  have hacc0 : days = 0 → (summary (tests.map fun x => res days (z x.1 x.2) x.1 x.2)).accuracy = .fin (999 / 10) := by
    intro h0
    have h := avg_const Result.accuracy (fun _ => 999 / 10) days z (fun x hx => by
      rw [accuracy_eq _ _ _ _ (by omega)]
      have : impactR x.1 (seuR x.1 (z x.1 x.2)) days = 0 := by
        subst h0
        unfold impactR
        simp
      rw [this]
      congr 1
      norm_num)
    have h2 : (summary (tests.map fun x => res days (z x.1 x.2) x.1 x.2)).accuracy = _ := h
    rw [h2]
    congr 1
    simp only [mechanisms, List.map_cons, List.map_nil, List.sum_cons, List.sum_nil]
    norm_num
  refine ⟨_, runList_eq days z tests tests_mem, heff, hcount.trans h10, ?_, fun h0 => ⟨hacc0 h0, ?_⟩, fun hneg => ?_⟩
  · obtain ⟨rs, h1, _, _, _, _, _, _, h2, _⟩ := C290_summary days z
    have h1' : rs = tests.map fun x => res days (z x.1 x.2) x.1 x.2 := by
      have := h1.symm.trans (runList_eq days z tests tests_mem)
      cases this
      rfl
    rw [h1'] at h2
    rw [h2, hcount, h10]
    exact (C290_rating _ .nan .nan).2.2.2.1.2 (by norm_num)
  · rw [heff, hacc0 h0]
    intro s hs
    simp only [suitability, List.mem_cons, List.not_mem_nil, or_false] at hs
    rcases hs with rfl | rfl | rfl | rfl | rfl
    all_goals
      simp only [XD.le_fin]
      norm_num
  · have h := avg_const Result.accuracy (fun _ => 0) days z (fun x hx => accuracy_neg _ _ _ _ hneg)
    have h2 : (summary (tests.map fun x => res days (z x.1 x.2) x.1 x.2)).accuracy = _ := h
    rw [h2]
    congr 1
    simp only [mechanisms, List.map_cons, List.map_nil, List.sum_cons, List.sum_nil]
    norm_num

example : ∃ days : ℤ, days < 0 ∧ days ≤ 0 := ⟨-3, by omega, by omega⟩

/-- C290, limit. The upset rate, flare factor and dose limit written down for an environment have no influence on its test, nor has the weight of a mechanism. -/
theorem C290_unused_limit (e : Env) (p : Mech) (days : ℤ) (z : ℝ) (b f d w : ℚ) :
    simulateTest { e with base := b, flare := f, dose := d } { p with weight := w } days z = simulateTest e p days z := rfl

/-- C289. The reference value used for a name is the third number of its entry, the average of the two before it or at least between them; a name without an entry has none. -/
theorem C289_reference (t : List (String × List ℚ)) (n : String) :
    (∀ lo hi c, t.lookup n = some [lo, hi, c] → average t n = .ok c) ∧ (t.lookup n = none → average t n = .ub) ∧
    ∀ x ∈ nasa.seu ++ esa.seu ++ nasa.recovery ++ esa.recovery, ∃ lo hi c, x.2 = [lo, hi, c] ∧ lo ≤ c ∧ c ≤ hi := by
  refine ⟨fun lo hi c h => ?_, fun h => ?_, ?_⟩
  · unfold average; rw [h]; rfl
  · unfold average; rw [h]; rfl
  · have key : ∀ x ∈ nasa.seu ++ esa.seu ++ nasa.recovery ++ esa.recovery, x.2 = [x.2.getD 0 0, x.2.getD 1 0, x.2.getD 2 0] ∧ x.2.getD 0 0 ≤ x.2.getD 2 0 ∧ x.2.getD 2 0 ≤ x.2.getD 1 0 := by
      decide +kernel
    exact fun x hx => ⟨_, _, _, key x hx⟩

/-- C290. For every list of results, not only the 30 of a run: the percentage is the share of the passed ones, 0 for none, and the averages are the sums divided by the number. -/
theorem C290_percentage (rs : List Result) :
    (summary rs).tests = rs.length ∧ (rs = [] → (summary rs).percentage = 0) ∧
    (rs ≠ [] → (summary rs).percentage * rs.length = 100 * (summary rs).passed ∧
      (summary rs).accuracy = XD.div (total Result.accuracy rs) (.fin (rs.length : ℝ)) ∧ (summary rs).efficiency = XD.div (total Result.efficiency rs) (.fin (rs.length : ℝ)) ∧
      (summary rs).nasaMatch = XD.div (total Result.nasaMatch rs) (.fin (rs.length : ℝ)) ∧ (summary rs).esaMatch = XD.div (total Result.esaMatch rs) (.fin (rs.length : ℝ))) := by
  refine ⟨rfl, fun h => ?_, fun h => ?_⟩
  · subst h; simp [summary]
  · have hl : 0 < rs.length := List.length_pos_iff.2 h
    have hr : (rs.length : ℝ) ≠ 0 := by exact_mod_cast hl.ne'
    simp only [summary, if_pos hl]
    refine ⟨?_, by trivial, by trivial, by trivial, by trivial⟩
    field_simp

end Verif.Props.Industry
