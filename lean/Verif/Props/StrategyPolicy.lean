import Verif.Model.Strategies
import Mathlib.Tactic.Linarith
import Mathlib.Tactic.NormNum
import Mathlib.Tactic.Ring
import Mathlib.Tactic.Positivity
import Mathlib.Tactic.GCongr
import Mathlib.Tactic.FieldSimp
import Mathlib.Algebra.Order.Field.Basic
/-!
Properties C75–C78: environment-driven choice of the protection level, checkpoint interval, per-layer policy, mission
controller (`rad_ml::tmr`).
-/
namespace Verif.Props.PolicyP
open Verif Verif.Strat

/-! ### C75: choice of the protection level -/

/-- `e'` is at least as harsh as `e`. -/
def Harsher (e e' : Env) : Prop :=
  0 ≤ e.proton + e.electron ∧ e.proton ≤ e'.proton ∧ e.electron ≤ e'.electron ∧ (e.saa = true → e'.saa = true) ∧ e.solar ≤ e'.solar

/-- The cascade of adaptive_protection_impl.hpp:689-699. -/
def cascade (need crit : ℚ) : Level :=
  if need > 5 ∨ crit > 9 / 10 then 5
  else if need > 2 ∨ crit > 7 / 10 then 4
  else if need > 1 ∨ crit > 5 / 10 then 2
  else if need > 5 / 10 then 1
  else 1

theorem cascade_mono {n n' c c' : ℚ} (hn : n ≤ n') (hc : c ≤ c') : cascade n c ≤ cascade n' c' := by
  unfold cascade
  by_cases h5 : n > 5 ∨ c > 9 / 10
  · rw [if_pos h5, if_pos (h5.imp (fun h => lt_of_lt_of_le h hn) (fun h => lt_of_lt_of_le h hc))]
  · rw [if_neg h5]
    by_cases h4 : n > 2 ∨ c > 7 / 10
    · rw [if_pos h4]
      split
      · decide
      · rw [if_pos (h4.imp (fun h => lt_of_lt_of_le h hn) (fun h => lt_of_lt_of_le h hc))]
    · rw [if_neg h4]
      by_cases h2 : n > 1 ∨ c > 5 / 10
      · rw [if_pos h2]
        split
        · decide
        · split
          · decide
          · rw [if_pos (h2.imp (fun h => lt_of_lt_of_le h hn) (fun h => lt_of_lt_of_le h hc))]
      · rw [if_neg h2]
        have : (if n > 5 / 10 then (1 : Level) else 1) = 1 := by split <;> rfl
        rw [this]
        repeat' split
        all_goals decide

/-- The need as computed in adaptive_protection_impl.hpp:674-686. -/
def need (e : Env) (tol crit : ℚ) : ℚ :=
  let n := (e.proton + e.electron) * (1 / 100000) / tol * crit
  let n := if e.saa then n * 2 else n
  if e.solar > 7 / 10 then n * (3 / 2) else n

theorem optimal_eq (e : Env) (tol crit : ℚ) : optimalLevel e tol crit = cascade (need e tol crit) crit := rfl

theorem need_mono {e e' : Env} {tol tol' crit crit' : ℚ} (he : Harsher e e') (ht : 0 < tol') (ht' : tol' ≤ tol)
    (hc : 0 ≤ crit) (hc' : crit ≤ crit') : need e tol crit ≤ need e' tol' crit' := by
  obtain ⟨h0, h1, h2, h3, h4⟩ := he
  have hb : (e.proton + e.electron) * (1 / 100000) / tol * crit ≤
      (e'.proton + e'.electron) * (1 / 100000) / tol' * crit' := by
    have i1 : (e.proton + e.electron) * (1 / 100000) / tol ≤ (e'.proton + e'.electron) * (1 / 100000) / tol' := by
      apply div_le_div₀
      · linarith
      · linarith
      · exact ht
      · exact ht'
    have i0 : 0 ≤ (e.proton + e.electron) * (1 / 100000) / tol := div_nonneg (by linarith) (by linarith)
    exact mul_le_mul i1 hc' hc (by linarith)
  have hp : 0 ≤ (e.proton + e.electron) * (1 / 100000) / tol * crit :=
    mul_nonneg (div_nonneg (by linarith) (by linarith)) hc
  unfold need
  simp only
  generalize (e.proton + e.electron) * (1 / 100000) / tol * crit = n at *
  generalize (e'.proton + e'.electron) * (1 / 100000) / tol' * crit' = n' at *
  have hs : (if e.saa then n * 2 else n) ≤ (if e'.saa then n' * 2 else n') ∧ 0 ≤ (if e.saa then n * 2 else n) := by
    cases hsa : e.saa
    · cases e'.saa <;> simp <;> constructor <;> linarith
    · rw [h3 hsa]; simp; constructor <;> linarith
  obtain ⟨hs, hs0⟩ := hs
  generalize (if e.saa then n * 2 else n) = m at *
  generalize (if e'.saa then n' * 2 else n') = m' at *
  by_cases c : e.solar > 7 / 10
  · rw [if_pos c, if_pos (lt_of_lt_of_le c h4)]; linarith
  · rw [if_neg c]; split <;> linarith

/-- **C75 (monotone choice).** A harsher environment (more flux, entering the SAA, more solar activity), a less tolerant
material or a more critical component never lowers the chosen protection level. -/
theorem C75_level_monotone (e e' : Env) (tol tol' crit crit' : ℚ) (he : Harsher e e') (ht : 0 < tol') (ht' : tol' ≤ tol)
    (hc : 0 ≤ crit) (hc' : crit ≤ crit') : optimalLevel e tol crit ≤ optimalLevel e' tol' crit' := by
  rw [optimal_eq, optimal_eq]
  exact cascade_mono (need_mono he ht ht' hc hc') hc'

/-- **C75 (never unprotected).** The chosen level is never NONE, and a component with criticality above 0.9 always gets
HYBRID_REDUNDANCY — in every environment, for every tolerance. -/
theorem C75_never_unprotected (e : Env) (tol crit : ℚ) :
    optimalLevel e tol crit ≠ 0 ∧ (crit > 9 / 10 → optimalLevel e tol crit = 5) := by
  rw [optimal_eq]
  unfold cascade
  constructor
  · repeat' split
    all_goals decide
  · intro h; rw [if_pos (Or.inr h)]

/-- **C75 (need thresholds).** Exactly which level a component of low criticality gets. -/
theorem C75_thresholds (e : Env) (tol crit : ℚ) (hc : crit ≤ 1 / 2) :
    let n := (e.proton + e.electron) / 100000 / tol * crit * (if e.saa then 2 else 1) * (if e.solar > 7 / 10 then 3 / 2 else 1)
    (optimalLevel e tol crit = 5 ↔ n > 5) ∧ (optimalLevel e tol crit ≥ 4 ↔ n > 2) ∧ (optimalLevel e tol crit ≥ 2 ↔ n > 1) := by
  intro n
  have hn : need e tol crit = n := by
    unfold need
    simp only [n]
    cases e.saa <;> by_cases c : e.solar > 7 / 10 <;> simp only [c, Bool.false_eq_true, if_true, if_false] <;> ring
  rw [optimal_eq, hn]
  clear hn
  generalize n = m
  unfold cascade
  have c1 : ¬ crit > 9 / 10 := by linarith
  have c2 : ¬ crit > 7 / 10 := by linarith
  have c3 : ¬ crit > 5 / 10 := by linarith
  simp only [c1, c2, c3, or_false]
  have e1 : (if m > 5 / 10 then (1 : Level) else 1) = 1 := by split <;> rfl
  rw [e1]
  by_cases h5 : m > 5
  · rw [if_pos h5]
    exact ⟨by simp [h5], ⟨fun _ => by linarith, fun _ => by decide⟩, ⟨fun _ => by linarith, fun _ => by decide⟩⟩
  · rw [if_neg h5]
    by_cases h4 : m > 2
    · rw [if_pos h4]
      exact ⟨by simp [h5], ⟨fun _ => h4, fun _ => by decide⟩, ⟨fun _ => by linarith, fun _ => by decide⟩⟩
    · rw [if_neg h4]
      by_cases h2 : m > 1
      · rw [if_pos h2]
        exact ⟨by simp [h5], ⟨fun h => absurd h (by decide), fun h => absurd h h4⟩, ⟨fun _ => h2, fun _ => by decide⟩⟩
      · rw [if_neg h2]
        exact ⟨by simp [h5], ⟨fun h => absurd h (by decide), fun h => absurd h h4⟩,
          ⟨fun h => absurd h (by decide), fun h => absurd h h2⟩⟩

/-- A concrete pair of environments that is properly ordered. -/
example : Harsher ⟨100, 50, false, 1 / 2⟩ ⟨2000, 50, true, 9 / 10⟩ ∧ optimalLevel ⟨100, 50, false, 1 / 2⟩ 1 (1 / 4) = 1 := by
  refine ⟨⟨by norm_num, by norm_num, by norm_num, fun _ => rfl, by norm_num⟩, ?_⟩
  rw [optimal_eq]; unfold cascade need; norm_num

/-! ### C76: checkpoint interval -/

/-- **C76 (bounds).** Whatever the base interval and the factors are — including zero, negative, infinite and NaN `double`s —
the checkpoint interval is a number between 10 s and one hour. -/
theorem C76_interval_bounds (base temp stress synergy ops : Dbl) (saa n1 n2 n3 n4 : Bool) :
    ∃ q : ℚ, adjustInterval base temp stress synergy ops saa n1 n2 n3 n4 = .fin q ∧ 10 ≤ q ∧ q ≤ 3600 := by
  unfold adjustInterval
  simp only
  generalize Dbl.div n4 _ ops = x
  unfold Dbl.max Dbl.min
  cases x with
  | nan => exact ⟨3600, by simp [Dbl.lt]; norm_num, by norm_num, by norm_num⟩
  | ninf => exact ⟨10, by simp [Dbl.lt], by norm_num, by norm_num⟩
  | pinf => exact ⟨3600, by simp [Dbl.lt]; norm_num, by norm_num, by norm_num⟩
  | fin q =>
    by_cases h : q < 3600
    · by_cases h' : 10 < q
      · exact ⟨q, by simp [Dbl.lt, h, h'], h'.le, h.le⟩
      · exact ⟨10, by simp [Dbl.lt, h, h'], le_refl _, by norm_num⟩
    · exact ⟨3600, by simp [Dbl.lt, h]; norm_num, by norm_num, by norm_num⟩

/-- The clamped quotient. -/
def clamp (x : ℚ) : ℚ := max 10 (min 3600 x)

/-- **C76 (value).** For positive factors the interval is the base interval divided by all of them (and by 2 in the SAA),
clamped to [10, 3600]. -/
theorem C76_interval_value (base temp stress synergy ops : ℚ) (saa n1 n2 n3 n4 : Bool) (h1 : 0 < temp) (h2 : 0 < stress)
    (h3 : 0 < synergy) (h4 : 0 < ops) :
    adjustInterval (.fin base) (.fin temp) (.fin stress) (.fin synergy) (.fin ops) saa n1 n2 n3 n4 =
      .fin (clamp (base / (temp * stress * synergy * (if saa then 2 else 1) * ops))) := by
  have e : ∀ x : ℚ, Dbl.max (.fin 10) (Dbl.min (.fin 3600) (.fin x)) = .fin (clamp x) := by
    intro x
    unfold Dbl.max Dbl.min clamp
    by_cases h : x < 3600
    · by_cases h' : 10 < x
      · simp [Dbl.lt, h, h', min_eq_right h.le, max_eq_right h'.le]
      · simp [Dbl.lt, h, h', min_eq_right h.le, max_eq_left (not_lt.mp h')]
    · simp only [Dbl.lt, h, decide_false, Bool.false_eq_true, if_false, min_eq_left (not_lt.mp h)]
      norm_num
  unfold adjustInterval
  have h22 : ¬ (2 : ℚ) = 0 := by norm_num
  cases saa
  · simp only [Bool.false_eq_true, if_false, Dbl.div, h1.ne', h2.ne', h3.ne', h4.ne', e]
    congr 2
    rw [mul_one]
    field_simp
  · simp only [if_true, if_false, Dbl.div, h1.ne', h2.ne', h3.ne', h4.ne', h22, e]
    congr 2
    field_simp

/-- **C76 (monotone).** For a nonnegative base interval, larger factors or being in the SAA never make checkpoints rarer. -/
theorem C76_interval_monotone (base t t' s s' y y' o o' : ℚ) (saa saa' n1 n2 n3 n4 : Bool) (hb : 0 ≤ base)
    (h1 : 0 < t) (h2 : 0 < s) (h3 : 0 < y) (h4 : 0 < o) (g1 : t ≤ t') (g2 : s ≤ s') (g3 : y ≤ y') (g4 : o ≤ o')
    (g5 : saa = true → saa' = true) :
    ∃ q q' : ℚ, adjustInterval (.fin base) (.fin t) (.fin s) (.fin y) (.fin o) saa n1 n2 n3 n4 = .fin q ∧
      adjustInterval (.fin base) (.fin t') (.fin s') (.fin y') (.fin o') saa' n1 n2 n3 n4 = .fin q' ∧ q' ≤ q := by
  refine ⟨_, _, C76_interval_value _ _ _ _ _ _ _ _ _ _ h1 h2 h3 h4,
    C76_interval_value _ _ _ _ _ _ _ _ _ _ (h1.trans_le g1) (h2.trans_le g2) (h3.trans_le g3) (h4.trans_le g4), ?_⟩
  have hs : (if saa then (2 : ℚ) else 1) ≤ (if saa' then 2 else 1) ∧ 0 < (if saa then (2 : ℚ) else 1) := by
    cases hh : saa
    · cases saa' <;> norm_num
    · rw [g5 hh]; norm_num
  obtain ⟨hs, hs0⟩ := hs
  generalize (if saa then (2 : ℚ) else 1) = m at *
  generalize (if saa' then (2 : ℚ) else 1) = m' at *
  have p1 : 0 < t' := h1.trans_le g1
  have p2 : 0 < s' := h2.trans_le g2
  have p3 : 0 < y' := h3.trans_le g3
  have p4 : 0 < o' := h4.trans_le g4
  have p5 : 0 < m' := hs0.trans_le hs
  unfold clamp
  apply max_le_max_left
  apply min_le_min_left
  apply div_le_div_of_nonneg_left hb
  · positivity
  · gcongr

example : ∃ q : ℚ, adjustInterval (.fin 300) (.fin 0) (.fin 0) .nan (.fin 1) true false true false false = .fin q ∧ 10 ≤ q ∧ q ≤ 3600 :=
  C76_interval_bounds _ _ _ _ _ _ _ _ _ _

/-! ### C77: per-layer policy -/

/-- Both vectors keep the length given to the constructor. -/
def Sized (n : Nat) (p : Policy) : Prop := p.levels.length = n ∧ p.sens.length = n

theorem sized_step {n : Nat} {p : Policy} (h : Sized n p) (o : PolicyOp) : ∃ q, p.step o = some q ∧ Sized n q := by
  obtain ⟨h1, h2⟩ := h
  cases o with
  | setLevel i l =>
    refine ⟨_, rfl, ?_⟩
    unfold Policy.setLevel
    split
    · exact ⟨by simpa using h1, h2⟩
    · exact ⟨h1, h2⟩
  | setSens i x =>
    refine ⟨_, rfl, ?_⟩
    unfold Policy.setSens
    split
    · exact ⟨h1, by simpa using h2⟩
    · exact ⟨h1, h2⟩
  | optimize e =>
    show ∃ q, p.optimize e = some q ∧ Sized n q
    unfold Policy.optimize
    rw [if_neg (by omega)]
    exact ⟨_, rfl, by simp [h1], h2⟩

theorem sized_run {n : Nat} : ∀ (ops : List PolicyOp) (p : Policy), Sized n p → ∃ q, p.run ops = some q ∧ Sized n q
  | [], p, h => ⟨p, rfl, h⟩
  | o :: l, p, h => by
    obtain ⟨q, hq, hs⟩ := sized_step h o
    obtain ⟨r, hr, hs'⟩ := sized_run l q hs
    exact ⟨r, by simp [Policy.run, hq, hr], hs'⟩

/-- **C77 (memory safe, sized).** Every history of calls with arbitrary (also negative or too large) indices is free of
out-of-range accesses and leaves the number of layers unchanged. -/
theorem C77_policy_safe (n : Nat) (ops : List PolicyOp) :
    ∃ q, (Policy.new n).run ops = some q ∧ q.levels.length = n := by
  obtain ⟨q, h1, h2⟩ := sized_run (n := n) ops (Policy.new n) ⟨by simp [Policy.new], by simp [Policy.new]⟩
  exact ⟨q, h1, h2.1⟩

/-- **C77 (set and get).** Setting a layer in range is read back, no other layer changes, and indices out of range change
nothing and read as BASIC_TMR. -/
theorem C77_set_get (p : Policy) (i j : Int) (l : Level) :
    ((0 ≤ i ∧ i < p.levels.length) → (p.setLevel i l).getLevel i = l) ∧
    (i ≠ j → (p.setLevel i l).getLevel j = p.getLevel j) ∧
    (¬ (0 ≤ i ∧ i < p.levels.length) → p.setLevel i l = p ∧ p.getLevel i = 1) := by
  refine ⟨fun h => ?_, fun h => ?_, fun h => ?_⟩
  · unfold Policy.setLevel Policy.getLevel
    rw [if_pos h]
    simp only [List.length_set]
    rw [if_pos h, List.getD_eq_getElem?_getD, List.getElem?_set_self (by omega)]
    rfl
  · unfold Policy.setLevel Policy.getLevel
    split
    · simp only [List.length_set]
      split
      · rw [List.getD_eq_getElem?_getD, List.getD_eq_getElem?_getD, List.getElem?_set_ne (by omega)]
      · rfl
    · rfl
  · unfold Policy.setLevel Policy.getLevel
    exact ⟨if_neg h, if_neg h⟩

theorem layerLevel_need {e : Env} {n i : Nat} {s : ℚ} : layerLevel e n i s =
    (let m := s * (1 - (i : ℚ) / n * (5 / 10))
     if e.saa = true ∨ e.solar > 7 / 10 ∨ m > 8 / 10 then 5
     else if e.solar > 5 / 10 ∨ m > 6 / 10 then 4
     else if e.solar > 3 / 10 ∨ m > 4 / 10 then 2 else 1) := rfl

theorem level_mono (e : Env) {m m' : ℚ} (h : m ≤ m') :
    (if e.saa = true ∨ e.solar > 7 / 10 ∨ m > 8 / 10 then (5 : Level)
     else if e.solar > 5 / 10 ∨ m > 6 / 10 then 4
     else if e.solar > 3 / 10 ∨ m > 4 / 10 then 2 else 1) ≤
    (if e.saa = true ∨ e.solar > 7 / 10 ∨ m' > 8 / 10 then (5 : Level)
     else if e.solar > 5 / 10 ∨ m' > 6 / 10 then 4
     else if e.solar > 3 / 10 ∨ m' > 4 / 10 then 2 else 1) := by
  by_cases h5 : e.saa = true ∨ e.solar > 7 / 10 ∨ m > 8 / 10
  · rw [if_pos h5, if_pos (h5.imp id (fun g => g.imp id (fun g => lt_of_lt_of_le g h)))]
  · rw [if_neg h5]
    by_cases h4 : e.solar > 5 / 10 ∨ m > 6 / 10
    · rw [if_pos h4]
      split
      · decide
      · rw [if_pos (h4.imp id (fun g => lt_of_lt_of_le g h))]
    · rw [if_neg h4]
      by_cases h2 : e.solar > 3 / 10 ∨ m > 4 / 10
      · rw [if_pos h2]
        split
        · decide
        · split
          · decide
          · rw [if_pos (h2.imp id (fun g => lt_of_lt_of_le g h))]
      · rw [if_neg h2]
        repeat' split
        all_goals decide

/-- **C77 (optimisation).** After any history, `optimizeProtection` gives every layer at least BASIC_TMR; in the SAA or above
0.7 solar activity every layer gets HYBRID_REDUNDANCY; and of two layers the one that is not later in the network and not
less sensitive never gets less protection (for nonnegative sensitivities). -/
theorem C77_optimize (n : Nat) (ops : List PolicyOp) (e : Env) :
    ∃ p q, (Policy.new n).run ops = some p ∧ p.optimize e = some q ∧ p.sens.length = n ∧
      (∀ i : Nat, q.getLevel i ≠ 0) ∧
      ((e.saa = true ∨ e.solar > 7 / 10) → ∀ i : Nat, i < n → q.getLevel i = 5) ∧
      (∀ i j : Nat, i ≤ j → j < n → 0 ≤ p.sens.getD j 0 → p.sens.getD j 0 ≤ p.sens.getD i 0 → q.getLevel j ≤ q.getLevel i) := by
  obtain ⟨p, h1, h2, h3⟩ := sized_run (n := n) ops (Policy.new n) ⟨by simp [Policy.new], by simp [Policy.new]⟩
  refine ⟨p, ⟨(List.range p.levels.length).map fun i => layerLevel e p.levels.length i (p.sens.getD i 0), p.sens⟩, h1, ?_, h3, ?_⟩
  · unfold Policy.optimize; rw [if_neg (by omega)]
  have hget : ∀ i : Nat, i < n → Policy.getLevel ⟨(List.range p.levels.length).map fun i => layerLevel e p.levels.length i (p.sens.getD i 0), p.sens⟩ i =
      layerLevel e n i (p.sens.getD i 0) := by
    intro i hi
    unfold Policy.getLevel
    simp only [List.length_map, List.length_range, h2]
    rw [if_pos ⟨by omega, by omega⟩, List.getD_eq_getElem?_getD, List.getElem?_map, List.getElem?_range (by simpa using hi)]
    simp
  have hout : ∀ i : Nat, ¬ i < n → Policy.getLevel ⟨(List.range p.levels.length).map fun i => layerLevel e p.levels.length i (p.sens.getD i 0), p.sens⟩ i = 1 := by
    intro i hi
    unfold Policy.getLevel
    simp only [List.length_map, List.length_range, h2]
    rw [if_neg (by omega)]
  refine ⟨fun i => ?_, fun h i hi => ?_, fun i j hij hj hs0 hs => ?_⟩
  · by_cases hi : i < n
    · rw [hget i hi, layerLevel_need]
      simp only
      repeat' split
      all_goals decide
    · rw [hout i hi]; decide
  · rw [hget i hi, layerLevel_need]
    simp only
    rw [if_pos (by rcases h with h | h; exact Or.inl h; exact Or.inr (Or.inl h))]
  · rw [hget i (by omega), hget j hj, layerLevel_need, layerLevel_need]
    apply level_mono
    have hn : (0 : ℚ) < n := by exact_mod_cast (by omega : 0 < n)
    have a1 : (i : ℚ) / n ≤ (j : ℚ) / n := by
      apply div_le_div_of_nonneg_right _ hn.le
      exact_mod_cast hij
    have a2 : (j : ℚ) / n ≤ 1 := by
      rw [div_le_one hn]; exact_mod_cast hj.le
    apply mul_le_mul hs _ (by linarith) (by linarith)
    linarith

/-- The sensitivities set through the API are used: a three-layer network. -/
example : ∃ p q, (Policy.new 3).run [.setSens 0 (9 / 10), .setSens 7 1, .setLevel (-1) 3] = some p ∧
    p.optimize ⟨0, 0, false, 1 / 10⟩ = some q ∧ q.getLevel 0 = 5 ∧ q.getLevel 2 = 1 := by
  refine ⟨_, _, rfl, rfl, ?_, ?_⟩
  · show layerLevel _ 3 0 (9 / 10) = 5
    rw [layerLevel_need]; norm_num
  · show layerLevel _ 3 2 (5 / 10) = 1
    rw [layerLevel_need]; norm_num

/-! ### C78: mission controller -/

/-- **C78 (last decision wins).** After any history, entering a known phase sets exactly the level registered last for it,
entering an unknown phase changes nothing, and updating the environment sets the level of that environment. -/
theorem C78_last_decision (ops : List CtrlOp) (e : Env) (n : String) (l : Level) :
    let c := Ctrl.new.run ops
    (c.phases n = some l → (c.enter n).level = l) ∧ (c.phases n = none → c.enter n = c) ∧
    ((c.setPhase n l).enter n).level = l ∧
    (∀ m, m ≠ n → ((c.setPhase n l).enter m).level = (c.enter m).level) ∧
    ((e.saa = true ∨ e.solar > 7 / 10) → (c.updateEnv e).level = 5) ∧ (c.updateEnv e).level ≠ 0 := by
  intro c
  refine ⟨fun h => ?_, fun h => ?_, ?_, fun m hm => ?_, fun h => ?_, ?_⟩
  · unfold Ctrl.enter; rw [h]
  · unfold Ctrl.enter; rw [h]
  · unfold Ctrl.enter Ctrl.setPhase; simp
  · unfold Ctrl.enter Ctrl.setPhase
    simp only [if_neg hm]
    cases c.phases m <;> rfl
  · show envLevel e = 5
    unfold envLevel
    rcases h with h | h
    · rw [if_pos h]
    · rw [if_pos h, ite_self]
  · show envLevel e ≠ 0
    unfold envLevel
    repeat' split
    all_goals decide

/-- Harsher environments never get a lower level from `updateEnvironment`. -/
theorem C78_environment_monotone (c : Ctrl) (e e' : Env) (hs : e.saa = true → e'.saa = true) (hl : e.solar ≤ e'.solar) :
    (c.updateEnv e).level ≤ (c.updateEnv e').level := by
  show envLevel e ≤ envLevel e'
  unfold envLevel
  by_cases h0 : e.saa = true
  · rw [if_pos h0, if_pos (hs h0)]
  · rw [if_neg h0]
    by_cases g0 : e'.saa = true
    · rw [if_pos g0]
      repeat' split
      all_goals decide
    · rw [if_neg g0]
      by_cases h1 : e.solar > 7 / 10
      · rw [if_pos h1, if_pos (lt_of_lt_of_le h1 hl)]
      · rw [if_neg h1]
        by_cases h2 : e.solar > 5 / 10
        · rw [if_pos h2]
          split
          · decide
          · rw [if_pos (lt_of_lt_of_le h2 hl)]
        · rw [if_neg h2]
          by_cases h3 : e.solar > 3 / 10
          · rw [if_pos h3]
            split
            · decide
            · split
              · decide
              · rw [if_pos (lt_of_lt_of_le h3 hl)]
          · rw [if_neg h3]
            repeat' split
            all_goals decide

theorem env_known (ops : List CtrlOp) (c : Ctrl) (h : c.env.isSome) : (c.run ops).env.isSome := by
  unfold Ctrl.run
  induction ops generalizing c with
  | nil => exact h
  | cons o l ih =>
    apply ih
    cases o with
    | updateEnv e => rfl
    | setPhase n l => exact h
    | enter n =>
      show (c.enter n).env.isSome
      unfold Ctrl.enter
      split <;> exact h

/-- **C78 (strategy, partial).** After `updateEnvironment` has been called at least once, in every later state the strategy
created has the current protection level (BASIC_TMR if that is NONE); a HybridRedundancy strategy has a delay of 100 ms if
the last environment was in the SAA and 50 ms otherwise.  Missing: before the first `updateEnvironment`, see
`C78_uninitialised_violated`. -/
theorem C78_strategy_matches_level_partial (before after : List CtrlOp) (e : Env) :
    let c := ((Ctrl.new.run before).updateEnv e).run after
    ∃ e' d, c.env = some e' ∧ c.create = .ok (if c.level = 0 then 1 else c.level, d) ∧
      d = if c.level = 5 then some (if e'.saa = true then 100 else 50) else none := by
  intro c
  have hs : c.env.isSome := env_known after _ rfl
  obtain ⟨e', he⟩ := Option.isSome_iff_exists.mp hs
  clear_value c
  unfold Ctrl.create
  obtain ⟨l, en, ph⟩ := c
  simp only at he
  subst he
  match l with
  | 0 => exact ⟨e', none, rfl, rfl, rfl⟩
  | 1 => exact ⟨e', none, rfl, rfl, rfl⟩
  | 2 => exact ⟨e', none, rfl, rfl, rfl⟩
  | 3 => exact ⟨e', none, rfl, rfl, rfl⟩
  | 4 => exact ⟨e', none, rfl, rfl, rfl⟩
  | 5 => exact ⟨e', _, rfl, rfl, rfl⟩

/-- **C78 (predefined phases).** Unless redefined, NORMAL_OPERATION and LOW_POWER are the only predefined phases that do not
get the strongest level, and they get BASIC_TMR and ENHANCED_TMR. -/
theorem C78_predefined (n : String) (h : (Ctrl.new.phases n).isSome) :
    (Ctrl.new.enter n).level = if n = "NORMAL_OPERATION" then 1 else if n = "LOW_POWER" then 2 else 5 := by
  unfold Ctrl.enter
  have hp : Ctrl.new.phases n = (if n = "LAUNCH" then some 5 else if n = "ORBIT_INSERTION" then some 5 else
      if n = "NORMAL_OPERATION" then some 1
      else if n = "SAA_CROSSING" then some 5 else if n = "SOLAR_STORM" then some 5 else if n = "CRITICAL_OPERATION" then some 5
      else if n = "LOW_POWER" then some 2 else if n = "SAFE_MODE" then some 5 else none) := rfl
  rw [hp] at h ⊢
  by_cases h1 : n = "LAUNCH"
  · subst h1; simp
  by_cases h2 : n = "ORBIT_INSERTION"
  · subst h2; simp
  by_cases h3 : n = "NORMAL_OPERATION"
  · subst h3; simp
  by_cases h4 : n = "SAA_CROSSING"
  · subst h4; simp
  by_cases h5 : n = "SOLAR_STORM"
  · subst h5; simp
  by_cases h6 : n = "CRITICAL_OPERATION"
  · subst h6; simp
  by_cases h7 : n = "LOW_POWER"
  · subst h7; simp
  by_cases h8 : n = "SAFE_MODE"
  · subst h8; simp
  · simp [h1, h2, h3, h4, h5, h6, h7, h8] at h

/-- **C78 (uninitialised environment, violated).** Constructing a controller, entering the predefined phase LAUNCH and creating
a strategy reads the indeterminate `saa_region`: undefined behaviour. -/
theorem C78_uninitialised_violated : (Ctrl.new.enter "LAUNCH").create = .ub := by
  unfold Ctrl.enter Ctrl.new Ctrl.create
  simp

/-- **C78 (phase overrides environment, violated).** In the SAA, entering the predefined phase NORMAL_OPERATION lowers the
protection to BASIC_TMR, whatever happened before. -/
theorem C78_phase_lowers_saa_violated (e : Env) (he : e.saa = true) :
    (Ctrl.new.updateEnv e).level = 5 ∧ ((Ctrl.new.updateEnv e).enter "NORMAL_OPERATION").level = 1 := by
  refine ⟨?_, ?_⟩
  · show envLevel e = 5
    unfold envLevel; rw [if_pos he]
  · unfold Ctrl.enter Ctrl.updateEnv Ctrl.new
    simp

example : ∃ e : Env, e.saa = true := ⟨⟨0, 0, true, 0⟩, rfl⟩

end Verif.Props.PolicyP
