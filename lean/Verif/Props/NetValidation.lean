import Verif.Model.NetValidation
import Verif.Props.MissionCritical
import Verif.Props.RadEnvironment2
import Mathlib.Analysis.Real.Pi.Bounds
import Mathlib.Analysis.SpecialFunctions.Trigonometric.Bounds
import Mathlib.Tactic.FieldSimp
/-! Properties C386–C389: test/verification/neural_network_validation.cpp. -/
namespace Verif.Props.NetVal
open Verif Verif.NetVal
open Verif.MissionCrit (best argmax)
open Verif.RadEnvironment (Pos Mission orbit trunc period)

/-! ### C386: the data set -/

/-- **C386 (target).** With three or more outputs a target is a unit vector: of the first class for sums above one half, of the second for sums below minus one half, of the third between; with two outputs the middle is shared; with one it is the hyperbolic tangent; with none the write is out of bounds. -/
theorem C386_target (s : ℝ) :
    (∀ n, target (n + 3) s = .ok ((if 1 / 2 < s then [1, 0, 0] else if s < -(1 / 2) then [0, 1, 0] else [0, 0, 1]) ++ List.replicate n 0)) ∧
    target 2 s = .ok (if 1 / 2 < s then [1, 0] else if s < -(1 / 2) then [0, 1] else [1 / 2, 1 / 2]) ∧
    target 1 s = .ok [Real.tanh s] ∧ target 0 s = .ub := by
  refine ⟨fun n => ?_, ?_, ?_, ?_⟩
  · have e : List.replicate (n + 3) (0 : ℝ) = 0 :: 0 :: 0 :: List.replicate n 0 := by
      rw [List.replicate_succ, List.replicate_succ, List.replicate_succ]
    unfold target
    rw [if_pos (by omega), e, if_pos (by omega : 2 < n + 3)]
    by_cases h1 : 1 / 2 < s
    · rw [if_pos h1, if_pos h1]; rfl
    · rw [if_neg h1, if_neg h1]
      by_cases h2 : s < -(1 / 2)
      · rw [if_pos h2, if_pos h2]; rfl
      · rw [if_neg h2, if_neg h2]; rfl
  · unfold target
    rw [if_pos (by omega), if_neg (by omega : ¬ 2 < 2)]
    by_cases h1 : 1 / 2 < s
    · rw [if_pos h1, if_pos h1]; rfl
    · rw [if_neg h1, if_neg h1]
      by_cases h2 : s < -(1 / 2)
      · rw [if_pos h2, if_pos h2]; rfl
      · rw [if_neg h2, if_neg h2]; rfl
  · unfold target
    rw [if_neg (by omega), if_neg (by omega)]; rfl
  · unfold target
    rw [if_neg (by omega), if_pos rfl]

/-- **C386 (data set).** For at least one output the data set is defined for every stream of draws and every size: it has as many samples as asked for, each with as many inputs and outputs as asked for; sample `i` is made of the `i`-th block of draws, and its target is that of their sum. -/
theorem C386_dataset (ins outs : ℕ) (ho : 0 < outs) (draws : ℕ → ℝ) (n : ℕ) :
    ∃ d, dataset ins outs draws n = .ok d ∧ d.length = n ∧
      ∀ i < n, ∃ x y, d[i]? = some (x, y) ∧ x.length = ins ∧ (∀ j < ins, x.getD j 0 = draws (i * ins + j)) ∧ y.length = outs ∧ target outs x.sum = .ok y := by
  have ht : ∀ s, ∃ y, target outs s = .ok y ∧ y.length = outs := by
    intro s
    unfold target
    split_ifs with a b c e <;> first | exact ⟨_, rfl, by simp⟩ | omega
  induction n with
  | zero => exact ⟨[], rfl, rfl, by omega⟩
  | succ n ih =>
    obtain ⟨d, hd, hl, hi⟩ := ih
    obtain ⟨y, hy, hyl⟩ := ht (inputsOf ins draws n).sum
    refine ⟨d ++ [(inputsOf ins draws n, y)], by simp [dataset, hd, hy, Outcome.bind], by simp [hl], fun i h => ?_⟩
    by_cases e : i < n
    · obtain ⟨x, z, hx, r⟩ := hi i e
      refine ⟨x, z, ?_, r⟩
      rw [List.getElem?_append_left (by omega), hx]
    · have : i = n := by omega
      subst this
      refine ⟨inputsOf ins draws i, y, ?_, by simp [inputsOf], fun j hj => ?_, hyl, hy⟩
      · rw [List.getElem?_append_right (by omega), hl]; simp
      · simp [inputsOf, List.getD_eq_getElem?_getD, hj]

/-- **C386, limit.** With no outputs already one sample is undefined. -/
theorem C386_empty_limit (ins : ℕ) (draws : ℕ → ℝ) (n : ℕ) : dataset ins 0 draws (n + 1) = .ub := by
  have h : ∀ s, target 0 s = .ub := fun s => (C386_target s).2.2.2
  induction n with
  | zero => simp [dataset, h, Outcome.bind]
  | succ n ih => rw [dataset, ih]; rfl

/-- Non-vacuity: the second sample of two inputs from the stream 0, 1/4, 1/2, … is of the first class. -/
example : ∃ d, dataset 2 3 (fun k => (k : ℝ) / 4) 2 = .ok d ∧ d[1]? = some ([1 / 2, 3 / 4], [1, 0, 0]) := by
  refine ⟨[([0, 1 / 4], [0, 0, 1]), ([1 / 2, 3 / 4], [1, 0, 0])], ?_, rfl⟩
  have a : inputsOf 2 (fun k => (k : ℝ) / 4) 0 = [0, 1 / 4] := by simp [inputsOf, List.range_succ]
  have b : inputsOf 2 (fun k => (k : ℝ) / 4) 1 = [1 / 2, 3 / 4] := by simp [inputsOf, List.range_succ]; norm_num
  have ha : target 3 ([0, 1 / 4] : List ℝ).sum = .ok [0, 0, 1] := by
    rw [(C386_target _).1 0, if_neg (by norm_num), if_neg (by norm_num)]; rfl
  have hb : target 3 ([1 / 2, 3 / 4] : List ℝ).sum = .ok [1, 0, 0] := by
    rw [(C386_target _).1 0, if_pos (by norm_num)]; rfl
  simp only [dataset, a, b, Outcome.bind, ha, hb]
  rfl

/-! ### C387: accuracy -/

/-- A prediction agrees with its target: same size, and with several outputs the same position of the first largest one, with a single output the same side of the threshold; an empty prediction never agrees. -/
def Agrees (t : ℝ) (p a : List ℝ) : Prop :=
  p.length = a.length ∧ ((∃ k, 1 < p.length ∧ Props.MissionCrit.FirstMax p k ∧ Props.MissionCrit.FirstMax a k) ∨ ∃ x y, p = [x] ∧ a = [y] ∧ (t ≤ x ↔ t ≤ y))

theorem firstMax_unique {l : List ℝ} {i j : ℕ} (hi : Props.MissionCrit.FirstMax l i) (hj : Props.MissionCrit.FirstMax l j) : i = j := by
  rcases lt_trichotomy i j with h | h | h
  · have := hj.2.2 i h; have := hi.2.1 j hj.1; linarith
  · exact h
  · have := hi.2.2 j h; have := hj.2.1 i hi.1; linarith

theorem counts_iff (t : ℝ) (p a : List ℝ) : counts t p a = true ↔ Agrees t p a := by
  unfold counts Agrees
  by_cases hl : p.length = a.length
  · rw [if_neg (by simpa using hl)]
    by_cases h1 : 1 < p.length
    · rw [if_pos h1]
      have hp : p ≠ [] := by rintro rfl; simp at h1
      have ha : a ≠ [] := by
        rintro rfl
        rw [hl] at h1; simp at h1
      have bp := Props.MissionCrit.C351_best p hp
      have ba := Props.MissionCrit.C351_best a ha
      simp only [decide_eq_true_eq]
      constructor
      · intro e
        exact ⟨hl, .inl ⟨best p, h1, bp, e ▸ ba⟩⟩
      · rintro ⟨_, ⟨k, _, hk, hk'⟩ | ⟨x, y, rfl, _⟩⟩
        · rw [firstMax_unique bp hk, firstMax_unique ba hk']
        · simp at h1
    · rw [if_neg h1]
      by_cases h2 : p.length = 1
      · rw [if_pos h2]
        obtain ⟨x, rfl⟩ := List.length_eq_one_iff.mp h2
        obtain ⟨y, rfl⟩ := List.length_eq_one_iff.mp (hl ▸ h2)
        constructor
        · intro e
          refine ⟨rfl, .inr ⟨x, y, rfl, rfl, ?_⟩⟩
          exact decide_eq_decide.mp (beq_iff_eq.mp e)
        · rintro ⟨_, ⟨k, h, _⟩ | ⟨x', y', hx, hy, e⟩⟩
          · exact absurd h h1
          · cases hx; cases hy
            exact beq_iff_eq.mpr (decide_eq_decide.mpr e)
      · rw [if_neg h2]
        constructor
        · intro e; cases e
        · rintro ⟨_, ⟨k, h, _⟩ | ⟨x', y', rfl, _⟩⟩
          · exact absurd h h1
          · simp at h2
  · rw [if_pos (by simpa using hl)]
    simp [hl]

open Classical in
theorem correct_eq (t : ℝ) (p a : List (List ℝ)) (c : ℕ) : correct t p a c = c + (p.zip a).countP (fun q => decide (Agrees t q.1 q.2)) := by
  induction p generalizing a c with
  | nil => simp [correct]
  | cons x p ih =>
    cases a with
    | nil => simp [correct]
    | cons y a =>
      rw [correct, ih, List.zip_cons_cons, List.countP_cons]
      by_cases h : Agrees t x y
      · rw [if_pos ((counts_iff t x y).mpr h), if_pos (by simpa using h)]; omega
      · rw [if_neg (fun e => h ((counts_iff t x y).mp e)), if_neg (by simpa using h)]; omega

open Classical in
/-- **C387 (accuracy).** The accuracy is 0 for lists of different sizes and for empty ones, else the percentage of samples whose prediction agrees with its target. -/
theorem C387_accuracy (t : ℝ) (p a : List (List ℝ)) :
    accuracy t p a = if p.length ≠ a.length ∨ p = [] then 0 else 100 * ((p.zip a).countP (fun q => decide (Agrees t q.1 q.2)) : ℝ) / p.length := by
  unfold accuracy
  rw [correct_eq, Nat.zero_add]

/-- **C387 (range).** The accuracy is between 0 and 100, and 100 exactly if the lists are of the same size, not empty, and every prediction agrees with its target. -/
theorem C387_range (t : ℝ) (p a : List (List ℝ)) :
    0 ≤ accuracy t p a ∧ accuracy t p a ≤ 100 ∧ (accuracy t p a = 100 ↔ p.length = a.length ∧ p ≠ [] ∧ ∀ q ∈ p.zip a, Agrees t q.1 q.2) := by
  classical
  rw [C387_accuracy]
  by_cases h : p.length ≠ a.length ∨ p = []
  · rw [if_pos h]
    refine ⟨le_rfl, by norm_num, ?_⟩
    constructor
    · intro e; norm_num at e
    · rintro ⟨a1, a2, _⟩
      rcases h with h | h
      · exact absurd a1 h
      · exact absurd h a2
  · rw [if_neg h]
    rw [not_or, not_not] at h
    have hz : (p.zip a).length = p.length := by simp [h.1]
    have hp : (0 : ℝ) < p.length := by exact_mod_cast List.length_pos_iff.mpr h.2
    have hc : (p.zip a).countP (fun q => decide (Agrees t q.1 q.2)) ≤ p.length := hz ▸ List.countP_le_length
    have hc' : (((p.zip a).countP (fun q => decide (Agrees t q.1 q.2)) : ℕ) : ℝ) ≤ p.length := by exact_mod_cast hc
    refine ⟨by positivity, ?_, ?_⟩
    · rw [div_le_iff₀ hp]; linarith
    · rw [div_eq_iff hp.ne']
      constructor
      · intro e
        have : (((p.zip a).countP (fun q => decide (Agrees t q.1 q.2)) : ℕ) : ℝ) = p.length := by linarith
        have : (p.zip a).countP (fun q => decide (Agrees t q.1 q.2)) = (p.zip a).length := by rw [hz]; exact_mod_cast this
        rw [List.countP_eq_length] at this
        exact ⟨h.1, h.2, fun q hq => by simpa using this q hq⟩
      · rintro ⟨_, _, hq⟩
        have : (p.zip a).countP (fun q => decide (Agrees t q.1 q.2)) = (p.zip a).length := by
          rw [List.countP_eq_length]
          intro q h; simpa using hq q h
        rw [this, hz]

/-- **C387 (effectiveness).** The effectiveness is 0 for a baseline of 0; else it is the ratio of the accuracies in per cent. With accuracies of the same number of samples it never exceeds 100 per sample. -/
theorem C387_effectiveness (t : ℝ) (p p' a : List (List ℝ)) :
    (accuracy t p a = 0 → effectiveness (accuracy t p a) (accuracy t p' a) = 0) ∧
    (accuracy t p a ≠ 0 → effectiveness (accuracy t p a) (accuracy t p' a) * accuracy t p a = 100 * accuracy t p' a) ∧
    0 ≤ effectiveness (accuracy t p a) (accuracy t p' a) ∧ effectiveness (accuracy t p a) (accuracy t p' a) ≤ 100 * a.length := by
  classical
  obtain ⟨h0, _, _⟩ := C387_range t p a
  obtain ⟨h0', h1', _⟩ := C387_range t p' a
  unfold effectiveness
  refine ⟨fun e => ?_, fun e => ?_, ?_, ?_⟩
  · rw [e, if_neg (lt_irrefl _)]
  · have : 0 < accuracy t p a := lt_of_le_of_ne h0 (Ne.symm e)
    rw [if_pos this]
    field_simp
  · split_ifs with h
    · positivity
    · exact le_rfl
  · split_ifs with h
    · have hb : 100 ≤ accuracy t p a * a.length := by
        rw [C387_accuracy] at h ⊢
        by_cases e : p.length ≠ a.length ∨ p = []
        · rw [if_pos e] at h; exact absurd h (lt_irrefl _)
        · rw [if_neg e] at h ⊢
          rw [not_or, not_not] at e
          have hp : (0 : ℝ) < p.length := by exact_mod_cast List.length_pos_iff.mpr e.2
          rw [← e.1, div_mul_cancel₀ _ hp.ne']
          have hc : 0 < (p.zip a).countP (fun q => decide (Agrees t q.1 q.2)) := by
            rcases Nat.eq_zero_or_pos ((p.zip a).countP (fun q => decide (Agrees t q.1 q.2))) with z | z
            · rw [z] at h; simp at h
            · exact z
          have : (1 : ℝ) ≤ ((p.zip a).countP (fun q => decide (Agrees t q.1 q.2)) : ℕ) := by exact_mod_cast hc
          linarith
      have hn : (0 : ℝ) ≤ a.length := by positivity
      rw [div_mul_eq_mul_div, div_le_iff₀ h]
      nlinarith
    · positivity

/-- Non-vacuity: one of two predictions agrees. -/
example : accuracy (1 / 2) [[1, 0], [1, 0]] [[1, 0], [0, 1]] = 50 := by
  simp [accuracy, correct, counts, best, argmax]; norm_num

/-! ### C388: the walk through the orbit -/

/-- The average the repeated halving amounts to: the first prediction has weight `2^-T`, prediction `t + 1` weight `2^-(T - t)`, for `T + 1` predictions. -/
noncomputable def average (x : ℕ → ℝ) (T : ℕ) : ℝ := x 0 / 2 ^ T + ∑ t ∈ Finset.range T, x (t + 1) / 2 ^ (T - t)

theorem average_zero (x : ℕ → ℝ) : average x 0 = x 0 := by simp [average]

theorem average_succ (x : ℕ → ℝ) (T : ℕ) : average x (T + 1) = (average x T + x (T + 1)) / 2 := by
  unfold average
  rw [Finset.sum_range_succ]
  have : ∑ t ∈ Finset.range T, x (t + 1) / 2 ^ (T + 1 - t) = (∑ t ∈ Finset.range T, x (t + 1) / 2 ^ (T - t)) / 2 := by
    rw [Finset.sum_div]
    refine Finset.sum_congr rfl fun t ht => ?_
    have : T + 1 - t = (T - t) + 1 := by have := Finset.mem_range.mp ht; omega
    rw [this, pow_succ]; field_simp
  rw [this]
  have h1 : T + 1 - T = 1 := by omega
  rw [h1, pow_succ]
  field_simp
  ring

variable {σ : Type} {m : ℕ}

theorem forwards_length (n : Net σ m) (l : ℝ) (s : σ) (xs : List (List ℝ)) : (forwards n l s xs).1.length = xs.length := by
  induction xs generalizing s with
  | nil => rfl
  | cons x xs ih => simp [forwards, ih]

theorem merge_length (as ps : List (Fin m → ℝ)) : (merge as ps).length = max as.length ps.length := by
  induction as generalizing ps with
  | nil => simp [merge]
  | cons a as ih =>
    cases ps with
    | nil => simp [merge]
    | cons p ps => simp [merge, ih]

theorem merge_get (as ps : List (Fin m → ℝ)) (h : as.length = ps.length) (i : ℕ) (j : Fin m) (hi : i < as.length) :
    (merge as ps).getD i 0 j = (as.getD i 0 j + ps.getD i 0 j) / 2 := by
  induction as generalizing ps i with
  | nil => simp at hi
  | cons a as ih =>
    cases ps with
    | nil => simp at h
    | cons p ps =>
      cases i with
      | zero => simp [merge]
      | succ i =>
        simp only [merge, List.getD_cons_succ]
        exact ih ps (by simpa using h) i (by simpa using hi)

/-- What holds after every position but the first. -/
def Inv (k : ℕ) (w : Walk σ m) : Prop :=
  ∃ T, w.log.length = T + 1 ∧ w.acc.length = k ∧ (∀ r ∈ w.log, r.length = k) ∧
    ∀ i < k, ∀ j, w.acc.getD i 0 j = average (fun t => (w.log.getD t []).getD i 0 j) T

theorem visit_first (n : Net σ m) (level : Pos → ℝ) (xs : List (List ℝ)) (s : σ) (p : Pos) (w : Walk σ m)
    (h : visit n level xs ⟨s, [], []⟩ p = .ok w) : Inv xs.length w := by
  unfold visit at h
  cases hs : seed p with
  | ub => rw [hs] at h; cases h
  | ok k =>
    rw [hs] at h
    simp only [Outcome.bind, Outcome.ok.injEq] at h
    subst h
    refine ⟨0, by simp, by simp [merge, forwards_length], by simp [forwards_length], fun i hi j => ?_⟩
    rw [average_zero]
    simp [merge]

theorem visit_next (n : Net σ m) (level : Pos → ℝ) (xs : List (List ℝ)) (w w' : Walk σ m) (p : Pos) (hw : Inv xs.length w)
    (h : visit n level xs w p = .ok w') : Inv xs.length w' := by
  unfold visit at h
  cases hs : seed p with
  | ub => rw [hs] at h; cases h
  | ok k =>
    rw [hs] at h
    simp only [Outcome.bind, Outcome.ok.injEq] at h
    subst h
    obtain ⟨T, hl, ha, hr, hv⟩ := hw
    generalize hq : (forwards n (level p * 10 ^ 7) (n.radiate w.net (level p * 10 ^ 7) k) xs).1 = q
    have hql : q.length = xs.length := by rw [← hq, forwards_length]
    refine ⟨T + 1, by simp [hl], by simp [merge_length, ha, hql], ?_, fun i hi j => ?_⟩
    · intro r hrm
      rcases List.mem_append.mp hrm with e | e
      · exact hr r e
      · rw [List.mem_singleton.mp e, hql]
    · rw [merge_get _ _ (by omega) i j (by omega), hv i hi j, average_succ]
      have e1 : ((w.log ++ [q]).getD (T + 1) []) = q := by
        rw [List.getD_eq_getElem?_getD, List.getElem?_append_right (by omega), hl]; simp
      have e2 : average (fun t => ((w.log ++ [q]).getD t []).getD i 0 j) T = average (fun t => (w.log.getD t []).getD i 0 j) T := by
        have e3 : ∀ t, t ≤ T → (w.log ++ [q]).getD t [] = w.log.getD t [] := by
          intro t ht
          rw [List.getD_eq_getElem?_getD, List.getD_eq_getElem?_getD, List.getElem?_append_left (by omega)]
        unfold average
        beta_reduce
        rw [e3 0 (by omega)]
        congr 1
        refine Finset.sum_congr rfl fun t ht => ?_
        rw [e3 (t + 1) (by have := Finset.mem_range.mp ht; omega)]
      rw [e1, e2]

theorem walk_inv (n : Net σ m) (level : Pos → ℝ) (xs : List (List ℝ)) (ps : List Pos) (w w' : Walk σ m) (hw : Inv xs.length w)
    (h : walk n level xs w ps = .ok w') : Inv xs.length w' ∧ w'.log.length = w.log.length + ps.length := by
  induction ps generalizing w with
  | nil =>
    simp only [walk, Outcome.ok.injEq] at h
    subst h; exact ⟨hw, by simp⟩
  | cons p ps ih =>
    rw [walk] at h
    cases hv : visit n level xs w p with
    | ub => rw [hv] at h; cases h
    | ok v =>
      rw [hv] at h
      have hl : v.log.length = w.log.length + 1 := by
        unfold visit at hv
        cases hs : seed p with
        | ub => rw [hs] at hv; cases hv
        | ok k =>
          rw [hs] at hv
          simp only [Outcome.bind, Outcome.ok.injEq] at hv
          subst hv; simp
      obtain ⟨a, b⟩ := ih v (visit_next n level xs w v p hw hv) h
      exact ⟨a, by rw [b, hl, List.length_cons]; omega⟩

theorem walk_start (n : Net σ m) (level : Pos → ℝ) (xs : List (List ℝ)) (p : Pos) (ps : List Pos) (s : σ) (w : Walk σ m)
    (h : walk n level xs ⟨s, [], []⟩ (p :: ps) = .ok w) : Inv xs.length w ∧ w.log.length = ps.length + 1 := by
  rw [walk] at h
  cases hv : visit n level xs ⟨s, [], []⟩ p with
  | ub => rw [hv] at h; cases h
  | ok v =>
    rw [hv] at h
    have hl : v.log.length = 1 := by
      unfold visit at hv
      cases hs : seed p with
      | ub => rw [hs] at hv; cases hv
      | ok k =>
        rw [hs] at hv
        simp only [Outcome.bind, Outcome.ok.injEq] at hv
        subst hv; simp
    obtain ⟨a, b⟩ := walk_inv n level xs ps v w (visit_first n level xs s p v hv) h
    exact ⟨a, by rw [b, hl]; omega⟩

theorem trajectory_cons (k : Mission) : ∃ p ps, trajectory k = p :: ps := by
  unfold trajectory
  rw [show (36 : ℕ) = 35 + 1 from rfl, List.range_succ_eq_map]
  exact ⟨_, _, rfl⟩

/-- **C388 (average).** Where the test is defined, there is a prediction for every sample, before and under radiation. Each of the first five samples is predicted once per position, and what is judged is, output by output, the average with weights `2^-T` for the first of `T + 1` positions and `2^-(T - t)` for position `t + 1`: the last position counts for half. -/
theorem C388_average (n : Net σ m) (s : σ) (picks : List ℕ) (level : Pos → ℝ) (k : Mission) (d : List (List ℝ × List ℝ)) (r : Res m)
    (h : testIn n s picks level k d = .ok r) :
    r.base.length = d.length ∧ r.rad.length = d.length ∧ r.log.length = (trajectory k).length ∧
    (∀ l ∈ r.log, l.length = min 5 d.length) ∧
    ∀ i < min 5 d.length, ∀ j, r.rad.getD i 0 j = average (fun t => (r.log.getD t []).getD i 0 j) ((trajectory k).length - 1) := by
  unfold testIn at h
  by_cases hd : d = []
  · rw [if_pos hd] at h; cases h
  rw [if_neg hd] at h
  dsimp only at h
  obtain ⟨p, ps, ht⟩ := trajectory_cons k
  rw [ht] at h ⊢
  generalize hb : forwards n 0 (forwards n 0 s (picks.map fun i => (d.map Prod.fst).getD i [])).2 (d.map Prod.fst) = b at h
  cases hw : walk n level ((d.map Prod.fst).take 5) ⟨b.2, [], []⟩ (p :: ps) with
  | ub => rw [hw] at h; cases h
  | ok w =>
    rw [hw] at h
    simp only [Outcome.bind, Outcome.ok.injEq] at h
    subst h
    obtain ⟨⟨T, hT, ha, hr, hv⟩, hl⟩ := walk_start n level _ p ps _ w hw
    have hlen : ((d.map Prod.fst).take 5).length = min 5 d.length := by simp
    rw [hlen] at ha hr hv
    dsimp only
    refine ⟨by rw [← hb, forwards_length, List.length_map], ?_, by rw [hl, List.length_cons], hr, fun i hi j => ?_⟩
    · rw [List.length_append, forwards_length, List.length_drop, List.length_map, ha]; omega
    · have e : (w.acc ++ (forwards n 0 w.net ((d.map Prod.fst).drop w.acc.length)).1).getD i 0 = w.acc.getD i 0 := by
        rw [List.getD_eq_getElem?_getD, List.getElem?_append_left (by omega), ← List.getD_eq_getElem?_getD]
      rw [e, hv i hi j, List.length_cons]
      congr 1
      omega

/-- **C388 (range).** An average of numbers in an interval is in the interval, for every number of positions: outputs of a sigmoid stay outputs of a sigmoid. -/
theorem C388_range (x : ℕ → ℝ) (T : ℕ) (lo hi : ℝ) (h : ∀ t ≤ T, lo ≤ x t ∧ x t ≤ hi) : lo ≤ average x T ∧ average x T ≤ hi := by
  induction T with
  | zero => rw [average_zero]; exact h 0 le_rfl
  | succ T ih =>
    obtain ⟨a, b⟩ := ih fun t ht => h t (by omega)
    obtain ⟨c, e⟩ := h (T + 1) le_rfl
    rw [average_succ]
    constructor <;> linarith

/-- **C387 (result).** The accuracies of a result are those of its predictions before and under radiation, at the threshold one half, and its effectiveness compares the second with the first. -/
theorem C387_result (n : Net σ m) (s : σ) (picks : List ℕ) (level : Pos → ℝ) (k : Mission) (d : List (List ℝ × List ℝ)) (r : Res m)
    (h : testIn n s picks level k d = .ok r) :
    r.accBase = accuracy (1 / 2) (r.base.map List.ofFn) (d.map Prod.snd) ∧ r.accRad = accuracy (1 / 2) (r.rad.map List.ofFn) (d.map Prod.snd) ∧
    (r.accBase ≠ 0 → r.effect * r.accBase = 100 * r.accRad) ∧ d ≠ [] := by
  unfold testIn at h
  by_cases hd : d = []
  · rw [if_pos hd] at h; cases h
  rw [if_neg hd] at h
  dsimp only at h
  cases hw : walk n level ((d.map Prod.fst).take 5) ⟨(forwards n 0 (forwards n 0 s (picks.map fun i => (d.map Prod.fst).getD i [])).2 (d.map Prod.fst)).2, [], []⟩ (trajectory k) with
  | ub => rw [hw] at h; cases h
  | ok w =>
    rw [hw] at h
    simp only [Outcome.bind, Outcome.ok.injEq] at h
    subst h
    exact ⟨rfl, rfl, (C387_effectiveness _ _ _ _).2.1, hd⟩

theorem countP_diff (P : List ℝ × List ℝ → Bool) (p q a : List (List ℝ)) (k : ℕ) (h : p.drop k = q.drop k) :
    (p.zip a).countP P ≤ (q.zip a).countP P + k := by
  rw [← List.take_append_drop k (p.zip a), ← List.take_append_drop k (q.zip a), List.countP_append, List.countP_append, List.zip_eq_zipWith, List.zip_eq_zipWith, List.drop_zipWith, List.drop_zipWith, h]
  have : ((List.zipWith Prod.mk p a).take k).countP P ≤ k := (List.countP_le_length).trans (by simp)
  omega

/-- **C388, limit.** Only the first five samples ever see radiation: if the other predictions, all made after the orbit at level 0, are those made before it, the accuracies differ by at most `500 / n` percentage points, five points for the hundred samples of the program. -/
theorem C388_few_limit (n : Net σ m) (s : σ) (picks : List ℕ) (level : Pos → ℝ) (k : Mission) (d : List (List ℝ × List ℝ)) (r : Res m)
    (h : testIn n s picks level k d = .ok r) (hsame : r.rad.drop 5 = r.base.drop 5) : |r.accRad - r.accBase| * d.length ≤ 500 := by
  classical
  obtain ⟨hb, hr, -⟩ := C388_average n s picks level k d r h
  have hacc := C387_result n s picks level k d r h
  obtain ⟨e1, e2, -, hd⟩ := hacc
  have hn : (0 : ℝ) < d.length := by exact_mod_cast List.length_pos_iff.mpr hd
  have key : ∀ l : List (Fin m → ℝ), l.length = d.length → accuracy (1 / 2) (l.map List.ofFn) (d.map Prod.snd) * d.length =
      100 * (((l.map List.ofFn).zip (d.map Prod.snd)).countP (fun q => decide (Agrees (1 / 2) q.1 q.2)) : ℕ) := by
    intro l hl
    rw [C387_accuracy, if_neg, List.length_map, hl, div_mul_cancel₀ _ hn.ne']
    rw [not_or, not_not]
    refine ⟨by simp [hl], fun e => hd ?_⟩
    rw [List.map_eq_nil_iff] at e
    rw [e] at hl
    exact List.length_eq_zero_iff.mp hl.symm
  have c1 := countP_diff (fun q => decide (Agrees (1 / 2) q.1 q.2)) (r.rad.map List.ofFn) (r.base.map List.ofFn) (d.map Prod.snd) 5 (by rw [← List.map_drop, ← List.map_drop, hsame])
  have c2 := countP_diff (fun q => decide (Agrees (1 / 2) q.1 q.2)) (r.base.map List.ofFn) (r.rad.map List.ofFn) (d.map Prod.snd) 5 (by rw [← List.map_drop, ← List.map_drop, hsame])
  have k1 := key r.rad hr
  have k2 := key r.base hb
  rw [← e2] at k1
  rw [← e1] at k2
  rw [← abs_of_pos hn, ← abs_mul, sub_mul, k1, k2, abs_le]
  generalize (((r.rad.map List.ofFn).zip (d.map Prod.snd)).countP (fun q => decide (Agrees (1 / 2) q.1 q.2))) = A at c1 c2
  generalize (((r.base.map List.ofFn).zip (d.map Prod.snd)).countP (fun q => decide (Agrees (1 / 2) q.1 q.2))) = B at c1 c2
  have c1' : (A : ℝ) ≤ B + 5 := by exact_mod_cast c1
  have c2' : (B : ℝ) ≤ A + 5 := by exact_mod_cast c2
  constructor <;> linarith

/-- What is done to a network: a forward pass, or radiation of a level with a seed. -/
inductive Ev where
  | fwd (x : List ℝ) (l : ℝ)
  | rad (l : ℝ) (k : ℕ)

/-- A network that remembers everything done to it; its answers may depend on all of it. -/
def recorder (out : List Ev → List ℝ → ℝ → Fin m → ℝ) : Net (List Ev) m := ⟨fun s x l => (out s x l, s ++ [.fwd x l]), fun s l k => s ++ [.rad l k]⟩

theorem forwards_recorder (out : List Ev → List ℝ → ℝ → Fin m → ℝ) (l : ℝ) (xs : List (List ℝ)) (s : List Ev) :
    (forwards (recorder out) l s xs).2 = s ++ xs.map (fun x => .fwd x l) := by
  induction xs generalizing s with
  | nil => simp [forwards]
  | cons x xs ih =>
    rw [forwards]
    dsimp only
    rw [ih]
    simp [recorder]

/-- **C388 (schedule).** The walk does to the network, for every position in order: radiation of ten million times the upset probability, seeded by the whole thousandths of the latitude, and then one forward pass of each of the first samples at the same level; nothing else, and nothing is forgotten between positions. -/
theorem C388_schedule (out : List Ev → List ℝ → ℝ → Fin m → ℝ) (level : Pos → ℝ) (xs : List (List ℝ)) (ps : List Pos) (w w' : Walk (List Ev) m)
    (h : walk (recorder out) level xs w ps = .ok w') :
    w'.net = w.net ++ ps.flatMap (fun p => Ev.rad (level p * 10 ^ 7) ⌊p.lat * 1000⌋₊ :: xs.map (fun x => Ev.fwd x (level p * 10 ^ 7))) := by
  induction ps generalizing w with
  | nil =>
    simp only [walk, Outcome.ok.injEq] at h
    subst h; simp
  | cons p ps ih =>
    rw [walk] at h
    cases hs : seed p with
    | ub => unfold visit at h; rw [hs] at h; cases h
    | ok k =>
      have hv : ∃ v, visit (recorder out) level xs w p = .ok v ∧ v.net = (forwards (recorder out) (level p * 10 ^ 7) (w.net ++ [.rad (level p * 10 ^ 7) k]) xs).2 := by
        unfold visit; rw [hs]; exact ⟨_, rfl, rfl⟩
      obtain ⟨v, hv, hn⟩ := hv
      rw [hv] at h
      change walk (recorder out) level xs v ps = _ at h
      rw [ih _ h]
      have hk : k = ⌊p.lat * 1000⌋₊ := by
        unfold seed at hs
        split_ifs at hs with c
        cases hs
        unfold trunc at c ⊢
        by_cases h0 : 0 ≤ p.lat * 1000
        · rw [if_pos h0]; rfl
        · rw [if_neg h0] at c ⊢
          have : ⌈p.lat * 1000⌉ ≤ 0 := Int.ceil_le.mpr (by push_cast; linarith)
          rw [Nat.floor_of_nonpos (by linarith)]
          omega
      rw [hn, forwards_recorder, hk]
      simp

/-- **C388 (predictions).** Each prediction of a row is made by the network in the state the earlier ones have left it in. -/
theorem C388_chain (n : Net σ m) (l : ℝ) (s : σ) (xs : List (List ℝ)) (i : ℕ) (x : List ℝ) (h : xs[i]? = some x) :
    (forwards n l s xs).1[i]? = some (n.forward ((xs.take i).foldl (fun s x => (n.forward s x l).2) s) x l).1 := by
  induction xs generalizing s i with
  | nil => simp at h
  | cons y xs ih =>
    cases i with
    | zero =>
      simp only [List.getElem?_cons_zero, Option.some.injEq] at h
      subst h
      simp [forwards]
    | succ i =>
      rw [forwards]
      simp only [List.getElem?_cons_succ, List.take_succ_cons, List.foldl_cons] at h ⊢
      exact ih _ i h

/-! ### C389: seeds -/

theorem walk_ub (n : Net σ m) (level : Pos → ℝ) (xs : List (List ℝ)) (ps : List Pos) (w : Walk σ m) : walk n level xs w ps = .ub ↔ ∃ p ∈ ps, seed p = .ub := by
  induction ps generalizing w with
  | nil => simp [walk]
  | cons p ps ih =>
    rw [walk]
    cases hs : seed p with
    | ub =>
      have : visit n level xs w p = .ub := by unfold visit; rw [hs]; rfl
      rw [this]
      exact ⟨fun _ => ⟨p, by simp, hs⟩, fun _ => rfl⟩
    | ok k =>
      have : ∃ v, visit n level xs w p = .ok v := by unfold visit; rw [hs]; exact ⟨_, rfl⟩
      obtain ⟨v, hv⟩ := this
      rw [hv]
      show walk n level xs v ps = .ub ↔ _
      rw [ih]
      simp [hs]

theorem testIn_ub (n : Net σ m) (s : σ) (picks : List ℕ) (level : Pos → ℝ) (k : Mission) (d : List (List ℝ × List ℝ)) :
    testIn n s picks level k d = .ub ↔ d = [] ∨ ∃ p ∈ trajectory k, seed p = .ub := by
  unfold testIn
  by_cases hd : d = []
  · rw [if_pos hd]; simp [hd]
  rw [if_neg hd]
  dsimp only
  rw [← walk_ub n level ((d.map Prod.fst).take 5) (trajectory k) ⟨(forwards n 0 (forwards n 0 s (picks.map fun i => (d.map Prod.fst).getD i [])).2 (d.map Prod.fst)).2, [], []⟩]
  cases walk n level ((d.map Prod.fst).take 5) ⟨(forwards n 0 (forwards n 0 s (picks.map fun i => (d.map Prod.fst).getD i [])).2 (d.map Prod.fst)).2, [], []⟩ (trajectory k) with
  | ub => simp [Outcome.bind]
  | ok w => simp [Outcome.bind, hd]

/-- The seed is defined exactly for latitudes above −1/1000 whose thousandfold is below 2^64. -/
theorem seed_ub (p : Pos) : seed p = .ub ↔ p.lat ≤ -(1 / 1000) ∨ 2 ^ 64 ≤ p.lat * 1000 := by
  have key : (0 ≤ trunc (p.lat * 1000) ∧ trunc (p.lat * 1000) < 2 ^ 64) ↔ (-1 < p.lat * 1000 ∧ p.lat * 1000 < 2 ^ 64) := by
    unfold trunc
    by_cases h : 0 ≤ p.lat * 1000
    · rw [if_pos h, Int.floor_lt, Int.le_floor]
      push_cast
      constructor
      · rintro ⟨a, b⟩; exact ⟨by linarith, by norm_num at b ⊢; exact b⟩
      · rintro ⟨a, b⟩; exact ⟨h, by norm_num at b ⊢; exact b⟩
    · rw [if_neg h]
      have hc : ⌈p.lat * 1000⌉ ≤ 0 := Int.ceil_le.mpr (by push_cast; linarith)
      have h2 : 0 ≤ ⌈p.lat * 1000⌉ ↔ -1 < p.lat * 1000 := by
        rw [show (0 ≤ ⌈p.lat * 1000⌉) ↔ (-1 < ⌈p.lat * 1000⌉) from by omega, Int.lt_ceil]
        push_cast; rfl
      rw [h2]
      constructor
      · rintro ⟨a, b⟩; exact ⟨a, by linarith⟩
      · rintro ⟨a, b⟩; exact ⟨a, by omega⟩
  unfold seed
  by_cases h : 0 ≤ trunc (p.lat * 1000) ∧ trunc (p.lat * 1000) < 2 ^ 64
  · rw [if_pos h]
    rw [key] at h
    simp only [reduceCtorEq, false_iff, not_or, not_le]
    exact ⟨by linarith [h.1], h.2⟩
  · rw [if_neg h]
    rw [key] at h
    simp only [true_iff]
    by_contra hc
    rw [not_or, not_le, not_le] at hc
    exact h ⟨by linarith [hc.1], hc.2⟩

/-- In the second half of an orbit of inclination 45 the latitude is negative. -/
theorem south (alt t : ℝ) (hP : 0 < period alt) (h1 : 21 / 40 * period alt ≤ t) (h2 : t ≤ 3 / 4 * period alt) : seed (orbit 45 alt t) = .ub := by
  rw [seed_ub]
  left
  have hpi := Real.pi_pos
  have a : 21 / 40 ≤ t / period alt := by rw [le_div_iff₀ hP]; exact h1
  have b : t / period alt ≤ 3 / 4 := by rw [div_le_iff₀ hP]; exact h2
  show 45 * Real.sin (RadEnvironment.fmod (t / period alt * 2 * Real.pi) (2 * Real.pi)) ≤ _
  rw [RadEnvironment.sin_fmod]
  generalize t / period alt = q at a b
  have e : q * 2 * Real.pi = (q * 2 * Real.pi - Real.pi) + Real.pi := by ring
  have hs := Real.mul_le_sin (x := q * 2 * Real.pi - Real.pi) (by nlinarith) (by nlinarith)
  have hm : 2 / Real.pi * (q * 2 * Real.pi - Real.pi) = 2 * (2 * q - 1) := by field_simp
  rw [hm] at hs
  rw [e, Real.sin_add_pi]
  linarith

theorem period_bounds (alt lo hi : ℝ) (h0 : 0 ≤ lo) (h0' : 0 ≤ hi) (h1 : lo ^ 2 ≤ ((6371 + alt) * 1000) ^ 3 / (3986 * 10 ^ 11)) (h2 : ((6371 + alt) * 1000) ^ 3 / (3986 * 10 ^ 11) ≤ hi ^ 2) :
    6.28 * lo / 3600 ≤ period alt ∧ period alt ≤ 6.3 * hi / 3600 := by
  unfold RadEnvironment.period
  have a : lo ≤ Real.sqrt (((6371 + alt) * 1000) ^ 3 / (3986 * 10 ^ 11)) := Real.le_sqrt_of_sq_le h1
  have b : Real.sqrt (((6371 + alt) * 1000) ^ 3 / (3986 * 10 ^ 11)) ≤ hi := Real.sqrt_le_iff.mpr ⟨h0', h2⟩
  generalize Real.sqrt (((6371 + alt) * 1000) ^ 3 / (3986 * 10 ^ 11)) = q at a b
  have p1 := Real.pi_gt_d2
  have p2 := Real.pi_lt_d2
  constructor
  · have : 6.28 * lo ≤ 2 * Real.pi * q := by nlinarith
    linarith
  · have : 2 * Real.pi * q ≤ 6.3 * hi := by nlinarith
    linarith

/-- **C389 (violated).** The test is meant to follow every orbit, but the seed is the latitude cast to an unsigned number, undefined south of the equator: for every network, every upset probability and every data set the test of every mission but the geostationary one is undefined. -/
theorem C389_seed_violated (n : Net σ m) (s : σ) (picks : List ℕ) (level : Pos → ℝ) (k : Mission) (hk : k ≠ .geo) (d : List (List ℝ × List ℝ)) :
    testIn n s picks level k d = .ub := by
  rw [testIn_ub]
  right
  have saa : ∀ k : Mission, k = .leoEquatorial ∨ k = .leoPolar → ∃ p ∈ trajectory k, seed p = .ub := by
    intro k h
    refine ⟨⟨-30, -30, altitude k⟩, ?_, (seed_ub _).mpr (.inl (by norm_num))⟩
    unfold trajectory
    rw [if_pos h]; simp
  have mem : ∀ (k : Mission) (i : ℕ), i < 36 → orbit (inclination k) (altitude k) ((i : ℝ) * (1 / 4)) ∈ trajectory k := by
    intro k i hi
    unfold trajectory
    exact List.mem_append_left _ (List.mem_map.mpr ⟨i, List.mem_range.mpr hi, rfl⟩)
  have low : ∀ k : Mission, inclination k = 45 → altitude k = 1000 → ∃ p ∈ trajectory k, seed p = .ub := by
    intro k h1 h2
    refine ⟨_, mem k 4 (by omega), ?_⟩
    rw [h1, h2]
    obtain ⟨a, b⟩ := period_bounds 1000 1000 1005 (by norm_num) (by norm_num) (by norm_num) (by norm_num)
    norm_num at a b
    refine south 1000 _ (by linarith) ?_ ?_ <;> push_cast <;> linarith
  cases k with
  | leoEquatorial => exact saa _ (.inl rfl)
  | leoPolar => exact saa _ (.inr rfl)
  | meo =>
    refine ⟨_, mem .meo 32 (by omega), ?_⟩
    show seed (orbit 45 20000 _) = _
    obtain ⟨a, b⟩ := period_bounds 20000 6700 6800 (by norm_num) (by norm_num) (by norm_num) (by norm_num)
    norm_num at a b
    refine south 20000 _ (by linarith) ?_ ?_ <;> push_cast <;> linarith
  | geo => exact absurd rfl hk
  | lunar => exact low _ rfl rfl
  | mars => exact low _ rfl rfl
  | jupiter => exact low _ rfl rfl
  | solarProbe => exact low _ rfl rfl

/-- **C389 (geostationary).** The test of the geostationary mission is defined for every network and every non-empty data set: its positions of the first nine hours are all north of the equator. -/
theorem C389_geo (n : Net σ m) (s : σ) (picks : List ℕ) (level : Pos → ℝ) (d : List (List ℝ × List ℝ)) (hd : d ≠ []) :
    ∃ r, testIn n s picks level .geo d = .ok r := by
  cases h : testIn n s picks level .geo d with
  | ok r => exact ⟨r, rfl⟩
  | ub =>
    exfalso
    rw [testIn_ub] at h
    rcases h with h | ⟨p, hp, hs⟩
    · exact hd h
    · have hp' : p ∈ (List.range 36).map fun i : ℕ => orbit 45 35786 ((i : ℝ) * (1 / 4)) := by
        simpa [trajectory, inclination, altitude] using hp
      obtain ⟨i, hi, rfl⟩ := List.mem_map.mp hp'
      have hi' : (i : ℝ) ≤ 35 := by exact_mod_cast (by have := List.mem_range.mp hi; omega : i ≤ 35)
      obtain ⟨a, -⟩ := period_bounds 35786 13000 14000 (by norm_num) (by norm_num) (by norm_num) (by norm_num)
      norm_num at a
      have hP : 0 < period 35786 := by linarith
      have hpi := Real.pi_pos
      rw [seed_ub] at hs
      have hq0 : 0 ≤ (i : ℝ) * (1 / 4) / period 35786 := by positivity
      have hq1 : (i : ℝ) * (1 / 4) / period 35786 ≤ 1 / 2 := by rw [div_le_iff₀ hP]; linarith
      have hl : (orbit 45 35786 ((i : ℝ) * (1 / 4))).lat = 45 * Real.sin ((i : ℝ) * (1 / 4) / period 35786 * 2 * Real.pi) := by
        show 45 * Real.sin (RadEnvironment.fmod _ _) = _
        rw [RadEnvironment.sin_fmod]
      rw [hl] at hs
      generalize (i : ℝ) * (1 / 4) / period 35786 = q at hq0 hq1 hs
      have h0 := Real.sin_nonneg_of_nonneg_of_le_pi (x := q * 2 * Real.pi) (by positivity) (by nlinarith)
      have h1 := Real.sin_le_one (q * 2 * Real.pi)
      rcases hs with hs | hs
      · linarith
      · norm_num at hs; linarith

/-- **C389 (violated, program).** The plan has every mission with every protection level, 48 pairs without repetition; but the program, which begins with a low orbit, is undefined for all networks and all data. -/
theorem C389_run_violated (n : ℕ → Net σ m) (s : σ) (picks : ℕ → List ℕ) (level : Mission → Pos → ℝ) (d : List (List ℝ × List ℝ)) :
    plan.length = 48 ∧ plan.Nodup ∧ (∀ k l, (k, l) ∈ plan ↔ l < 6) ∧ run n s picks level d plan = .ub := by
  refine ⟨by decide +kernel, by decide +kernel, fun k l => ?_, ?_⟩
  · cases k <;> simp [plan, missions]
  · have : plan = (.leoEquatorial, 0) :: plan.tail := by decide +kernel
    rw [this, run, C389_seed_violated _ _ _ _ _ (by decide)]
    rfl

/-- Non-vacuity: a network that answers 1/2 and the level, and data of two samples; the geostationary test is defined, and has 36 positions. -/
example : ∃ r, testIn (σ := Unit) (m := 2) ⟨fun _ _ l => (fun j => if j = 0 then 1 / 2 else l, ()), fun _ _ _ => ()⟩ () [0] (fun _ => 1) .geo [([0], [0, 1]), ([1], [1, 0])] = .ok r ∧ r.log.length = 36 ∧ r.rad.length = 2 := by
  obtain ⟨r, hr⟩ := C389_geo (σ := Unit) (m := 2) ⟨fun _ _ l => (fun j => if j = 0 then 1 / 2 else l, ()), fun _ _ _ => ()⟩ () [0] (fun _ => 1) [([0], [0, 1]), ([1], [1, 0])] (by simp)
  obtain ⟨_, h1, h2, _⟩ := C388_average _ _ _ _ _ _ _ hr
  exact ⟨r, hr, by rw [h2]; simp [trajectory], by rw [h1]; rfl⟩

end Verif.Props.NetVal
