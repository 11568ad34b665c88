import Verif.Model.ErrorLookup
import Mathlib.Tactic.Linarith
import Mathlib.Tactic.NormNum
import Mathlib.Data.List.Basic
import Mathlib.Data.List.Induction
import Mathlib.Data.Prod.Lex
/-!
Properties of `RadiationErrorPredictor` (C107).
-/
namespace Verif.Props.ErrorLookupP
open Verif Verif.ErrorLookup

variable {I O : Type} [LinearOrder O]

/-! Specification: the training pairs accepted so far, the latest first. -/

/-- Pairs (corrupted output, correct output) of one accepted call of `train`, latest first. -/
def pairs : Op I O → List (O × O)
  | .train bad good => if bad.length = good.length then ((bad.zip good).map fun x => (x.1.2, x.2.2)).reverse else []
  | _ => []

/-- All training pairs of a history, latest first. -/
def known (ops : List (Op I O)) : List (O × O) := (ops.reverse.map pairs).flatten

/-- The correct output last given for a corrupted one. -/
def lastTruth (ops : List (Op I O)) (y : O) : Option O := ((known ops).find? (·.1 = y)).map (·.2)

theorem look_put {V : Type} (l : List (O × V)) (hs : (l.map (·.1)).Pairwise (· < ·)) (k : O) (v : V) (k' : O) :
    look (put l k v) k' = if k = k' then some v else look l k' := by
  unfold look
  induction l with
  | nil => unfold put; by_cases h : k = k' <;> simp [h]
  | cons x t ih =>
    obtain ⟨a, b⟩ := x
    simp only [List.map_cons, List.pairwise_cons] at hs
    unfold put
    by_cases h1 : k < a
    · rw [if_pos h1]
      by_cases h : k = k'
      · simp [h]
      · rw [if_neg h, List.find?_cons_of_neg (by simpa using h)]
    · rw [if_neg h1]
      by_cases h2 : a < k
      · rw [if_pos h2]
        by_cases h : a = k'
        · rw [List.find?_cons_of_pos (by simpa using h), if_neg (by rw [← h]; exact ne_of_gt h2), List.find?_cons_of_pos (by simpa using h)]
        · rw [List.find?_cons_of_neg (by simpa using h), ih hs.2, List.find?_cons_of_neg (by simpa using h)]
      · rw [if_neg h2]
        have : a = k := le_antisymm (not_lt.1 h1) (not_lt.1 h2)
        subst this
        by_cases h : a = k'
        · simp [h]
        · rw [if_neg h, List.find?_cons_of_neg (by simpa using h), List.find?_cons_of_neg (by simpa using h)]

theorem put_keys {V : Type} (l : List (O × V)) (k : O) (v : V) (k' : O) : k' ∈ (put l k v).map (·.1) ↔ k' = k ∨ k' ∈ l.map (·.1) := by
  induction l with
  | nil => simp [put]
  | cons x t ih =>
    obtain ⟨a, b⟩ := x
    unfold put
    by_cases h1 : k < a
    · rw [if_pos h1]; simp
    · rw [if_neg h1]
      by_cases h2 : a < k
      · rw [if_pos h2, List.map_cons, List.mem_cons, ih]; simp only [List.map_cons, List.mem_cons]; tauto
      · rw [if_neg h2]
        have : a = k := le_antisymm (not_lt.1 h1) (not_lt.1 h2)
        subst this
        simp

theorem put_sorted {V : Type} (l : List (O × V)) (k : O) (v : V) (h : (l.map (·.1)).Pairwise (· < ·)) : ((put l k v).map (·.1)).Pairwise (· < ·) := by
  induction l with
  | nil => simp [put]
  | cons x t ih =>
    obtain ⟨a, b⟩ := x
    simp only [List.map_cons, List.pairwise_cons] at h
    unfold put
    by_cases h1 : k < a
    · rw [if_pos h1]
      simp only [List.map_cons, List.pairwise_cons]
      refine ⟨?_, h⟩
      intro c hc
      rcases List.mem_cons.1 hc with rfl | hc
      · exact h1
      · exact lt_trans h1 (h.1 c hc)
    · rw [if_neg h1]
      by_cases h2 : a < k
      · rw [if_pos h2]
        simp only [List.map_cons, List.pairwise_cons]
        refine ⟨?_, ih h.2⟩
        intro c hc
        rcases (put_keys t k v c).1 hc with rfl | hc
        · exact h2
        · exact h.1 c hc
      · rw [if_neg h2]
        simp only [List.map_cons, List.pairwise_cons]
        exact h

theorem look_keys {V : Type} (l : List (O × V)) (k : O) : (look l k).isSome ↔ k ∈ l.map (·.1) := by
  unfold look
  rw [Option.isSome_map, List.find?_isSome]
  simp [List.mem_map, eq_comm]

theorem fold_put {V : Type} (xs : List (O × V)) : ∀ m : List (O × V), (m.map (·.1)).Pairwise (· < ·) →
    let m' := xs.foldl (fun m x => put m x.1 x.2) m
    (m'.map (·.1)).Pairwise (· < ·) ∧ ∀ k, look m' k = (((xs.reverse.find? (·.1 = k)).map (·.2)).or (look m k)) := by
  induction xs with
  | nil => intro m h; exact ⟨h, by simp⟩
  | cons x t ih =>
    intro m h
    obtain ⟨h1, h2⟩ := ih (put m x.1 x.2) (put_sorted m x.1 x.2 h)
    refine ⟨h1, ?_⟩
    intro k
    simp only [List.foldl_cons] at *
    rw [h2 k, look_put m h, List.reverse_cons, List.find?_append]
    cases (t.reverse.find? (·.1 = k)) with
    | some a => rfl
    | none =>
      by_cases hx : x.1 = k
      · simp [hx]
      · simp [hx]

/-- What holds after a history. -/
structure Inv (ops : List (Op I O)) (p : Pred I O) : Prop where
  sorted : (p.samples.map (·.1)).Pairwise (· < ·)
  truth : ∀ y, look p.samples y = lastTruth ops y
  ctx : p.trained = true → p.contexts ≠ []
  trained : p.trained = !(known ops).isEmpty
  det : 0 ≤ p.detect ∧ p.detect ≤ 1
  conf : 0 ≤ p.confidence ∧ p.confidence ≤ 1

theorem put_ne_nil {V : Type} (l : List (O × V)) (k : O) (v : V) : put l k v ≠ [] := by
  cases l with
  | nil => simp [put]
  | cons x t => obtain ⟨a, b⟩ := x; unfold put; split <;> [simp; (split <;> simp)]

theorem fold_ne_nil {V X : Type} (f : X → O) (g : X → V) (xs : List X) (h : xs ≠ []) (m : List (O × V)) : xs.foldl (fun m x => put m (f x) (g x)) m ≠ [] := by
  have : ∀ (xs : List X) (m : List (O × V)), m ≠ [] → xs.foldl (fun m x => put m (f x) (g x)) m ≠ [] := by
    intro xs
    induction xs with
    | nil => intro m hm; exact hm
    | cons x t ih => intro m _; exact ih _ (put_ne_nil _ _ _)
  cases xs with
  | nil => exact absurd rfl h
  | cons x t => exact this t _ (put_ne_nil _ _ _)

omit [LinearOrder O] in
theorem known_snoc (ops : List (Op I O)) (o : Op I O) : known (ops ++ [o]) = pairs o ++ known ops := by simp [known]

theorem clamp (t : ℚ) : 0 ≤ max 0 (min 1 t) ∧ max 0 (min 1 t) ≤ 1 := ⟨le_max_left _ _, max_le (by norm_num) (min_le_left _ _)⟩

theorem step_inv (ops : List (Op I O)) (p : Pred I O) (h : Inv ops p) (o : Op I O) : Inv (ops ++ [o]) (p.step o) := by
  cases o with
  | setDetect t =>
    have e : known (ops ++ [Op.setDetect (I := I) t]) = known ops := by rw [known_snoc]; rfl
    exact ⟨h.sorted, fun y => by unfold lastTruth; rw [e]; exact h.truth y, h.ctx, by rw [e]; exact h.trained, clamp t, h.conf⟩
  | setConfidence t =>
    have e : known (ops ++ [Op.setConfidence (I := I) t]) = known ops := by rw [known_snoc]; rfl
    exact ⟨h.sorted, fun y => by unfold lastTruth; rw [e]; exact h.truth y, h.ctx, by rw [e]; exact h.trained, h.det, clamp t⟩
  | train bad good =>
    unfold Pred.step
    simp only
    unfold Pred.train
    by_cases hc : bad.length ≠ good.length ∨ bad = []
    · rw [if_pos hc]
      have e : known (ops ++ [Op.train bad good]) = known ops := by
        rw [known_snoc]
        unfold pairs
        simp only
        rcases hc with hc | hc
        · rw [if_neg hc]; rfl
        · subst hc; by_cases hg : ([] : List (I × O)).length = good.length
          · rw [if_pos hg]; simp
          · rw [if_neg hg]; rfl
      exact ⟨h.sorted, fun y => by unfold lastTruth; rw [e]; exact h.truth y, h.ctx, by rw [e]; exact h.trained, h.det, h.conf⟩
    · rw [if_neg hc]
      push Not at hc
      obtain ⟨hl, hne⟩ := hc
      have hz : bad.zip good ≠ [] := by
        intro hh
        have := congrArg List.length hh
        simp at this
        cases bad with
        | nil => exact hne rfl
        | cons a t => cases good <;> simp_all
      have e : known (ops ++ [Op.train bad good]) = ((bad.zip good).map fun x => (x.1.2, x.2.2)).reverse ++ known ops := by
        rw [known_snoc]; unfold pairs; simp only; rw [if_pos hl]
      have hf := fold_put ((bad.zip good).map fun x => (x.1.2, x.2.2)) p.samples h.sorted
      rw [List.foldl_map] at hf
      refine ⟨hf.1, ?_, ?_, ?_, h.det, h.conf⟩
      · intro y
        unfold lastTruth
        rw [e, List.find?_append, Option.map_or]
        simp only
        rw [hf.2 y, h.truth y]
        rfl
      · intro _
        exact fold_ne_nil _ _ _ hz _
      · rw [e]
        cases hzz : bad.zip good with
        | nil => exact absurd hzz hz
        | cons a t => simp

theorem run_inv (ops : List (Op I O)) : Inv ops (Pred.run ops) := by
  induction ops using List.reverseRecOn with
  | nil => exact ⟨by simp [Pred.run], by intro y; simp [Pred.run, look, lastTruth, known], by simp [Pred.run], by simp [Pred.run, known], by norm_num [Pred.run], by norm_num [Pred.run]⟩
  | append_singleton ops o ih =>
    have : Pred.run (ops ++ [o]) = (Pred.run ops).step o := by simp [Pred.run]
    rw [this]; exact step_inv ops _ ih o

theorem prob_eq (ops : List (Op I O)) (x : I) (y : O) : (Pred.run ops).probability x y =
    if known ops = [] then 1 / 2 else if (lastTruth ops y).isSome then 9 / 10 else 1 / 10 := by
  have h := run_inv ops
  unfold Pred.probability
  rw [h.trained, h.truth y]
  by_cases hk : known ops = []
  · rw [hk]; rfl
  · have hke : (known ops).isEmpty = false := by simpa using hk
    rw [hke, if_neg hk]
    rw [if_neg (by simp)]
    have hne : (Pred.run ops).contexts ≠ [] := h.ctx (by rw [h.trained, hke]; rfl)
    congr 1
    rw [if_neg (by simp [partly])]
    have : ∀ (l : List (O × I)) (m : ℚ), m = 1 / 10 → l.foldl (fun m x' => max m (similarity x x'.2)) m = 1 / 10 := by
      intro l
      induction l with
      | nil => intro m hm; exact hm
      | cons a t ih => intro m hm; rw [List.foldl_cons]; apply ih; rw [hm]; unfold similarity; exact max_self _
    cases hc : (Pred.run ops).contexts with
    | nil => exact absurd hc hne
    | cons a t =>
      rw [List.foldl_cons]
      apply this
      unfold similarity
      norm_num

/-- C107: after any history, `train` accepts exactly non-empty data of matching sizes and changes nothing otherwise; the probability is 0.5 before the first accepted
training, then 0.9 for an output that was given as corrupted and 0.1 for any other. -/
theorem C107_detection (ops : List (Op I O)) (bad good : List (I × O)) (x : I) (y : O) :
    let p := Pred.run ops
    (p.train bad good).1 = decide (bad.length = good.length ∧ bad ≠ []) ∧ (¬ (bad.length = good.length ∧ bad ≠ []) → (p.train bad good).2 = p) ∧
    p.trained = decide (known ops ≠ []) ∧
    p.probability x y = if known ops = [] then 1 / 2 else if y ∈ (known ops).map (·.1) then 9 / 10 else 1 / 10 := by
  intro p
  refine ⟨?_, ?_, ?_, ?_⟩
  · unfold Pred.train
    by_cases h1 : bad.length = good.length <;> by_cases h2 : bad = [] <;> simp [h1, h2]
  · intro hc
    unfold Pred.train
    rw [if_pos]
    by_contra hh
    push Not at hh
    exact hc hh
  · have := (run_inv ops).trained
    rw [this]
    cases known ops <;> simp
  · rw [prob_eq]
    have : (lastTruth ops y).isSome ↔ y ∈ (known ops).map (·.1) := look_keys (known ops) y
    simp only [this]

/-- One training call with two samples. -/
def demoOps : List (Op Nat Int) := [.train [(1, 100), (2, 200)] [(1, 10), (2, 20)], .train [(3, 100)] [(3, 30)]]

/-- Non-vacuity: the later truth wins. -/
example : (Pred.run demoOps).probability 7 100 = 9 / 10 ∧ (Pred.run demoOps).probability 7 101 = 1 / 10 ∧ (Pred.run demoOps).suggest 1 100 = some 30 ∧
    (Pred.run demoOps).suggest 1 200 = some 20 ∧ (Pred.run demoOps).suggest 1 10 = none := by decide +kernel

/-- C107: with the thresholds at their defaults (or any detection threshold above 0.1 and at most 0.9) a correction is suggested exactly for the outputs known as
corrupted: the correct output last given for it. -/
theorem C107_correction (ops : List (Op I O)) (x : I) (y : O) (hd : 1 / 10 < (Pred.run ops).detect) (hd' : (Pred.run ops).detect ≤ 9 / 10) :
    (Pred.run ops).suggest x y = lastTruth ops y := by
  have h := run_inv ops
  unfold Pred.suggest
  rw [prob_eq, h.truth y, h.trained]
  by_cases hk : known ops = []
  · have : lastTruth ops y = none := by unfold lastTruth; rw [hk]; rfl
    rw [hk, this]; rfl
  · have hke : (known ops).isEmpty = false := by simpa using hk
    rw [hke, if_neg hk]
    cases hl : lastTruth ops y with
    | none =>
      rw [if_pos]
      simp only [Option.isSome_none, Bool.false_eq_true, if_false, Bool.not_false, Bool.not_true, Bool.false_or, decide_eq_true_eq]
      exact hd
    | some z =>
      rw [if_neg]
      simp only [Option.isSome_some, if_true, Bool.not_false, Bool.not_true, Bool.false_or, decide_eq_true_eq]
      exact not_lt.2 hd'

/-- Non-vacuity: the defaults. -/
example : 1 / 10 < (Pred.run demoOps).detect ∧ (Pred.run demoOps).detect ≤ 9 / 10 := by decide +kernel

/-- C107: whatever the thresholds, a suggestion is always a correct output that was given in training. -/
theorem C107_suggestion_known (ops : List (Op I O)) (x : I) (y z : O) (h : (Pred.run ops).suggest x y = some z) : ∃ y', (y', z) ∈ known ops := by
  have hi := run_inv ops
  have fin : ∀ y', lastTruth ops y' = some z → ∃ y', (y', z) ∈ known ops := by
    intro y' hy
    unfold lastTruth at hy
    cases hf : (known ops).find? (·.1 = y') with
    | none => rw [hf] at hy; cases hy
    | some a =>
      rw [hf] at hy
      simp only [Option.map_some, Option.some.injEq] at hy
      refine ⟨a.1, ?_⟩
      rw [← hy]; exact List.mem_of_find?_eq_some hf
  unfold Pred.suggest at h
  split at h
  · cases h
  · rw [hi.truth y] at h
    cases hl : lastTruth ops y with
    | some w => rw [hl] at h; simp only [Option.some.injEq] at h; subst h; exact fin y hl
    | none =>
      rw [hl] at h
      simp only at h
      split at h
      · cases hb : (closest (Pred.run ops).samples y).1 with
        | none => rw [hb] at h; cases h
        | some k => rw [hb] at h; simp only [Option.bind_some] at h; rw [hi.truth k] at h; exact fin k h
      · cases h

/-- Non-vacuity. -/
example : (Pred.run demoOps).suggest 5 200 = some 20 ∧ ((200, 20) : Int × Int) ∈ known demoOps := by decide +kernel

/-- C107 (negation): the input is not considered: a value that was a corrupted output for one input is declared corrupted (0.9) and replaced for every other input, in particular for one for
which it is the correct output. -/
theorem C107_input_ignored_violated (x₁ x₂ : I) (y z : O) :
    let p := Pred.run [Op.train [(x₁, y)] [(x₁, z)], .train [(x₂, z)] [(x₂, y)]]
    p.probability x₂ y = 9 / 10 ∧ p.suggest x₂ y = if y = z then some y else some z := by
  intro p
  have hk : known [Op.train [(x₁, y)] [(x₁, z)], .train [(x₂, z)] [(x₂, y)]] = [(z, y), (y, z)] := rfl
  have ht : lastTruth [Op.train [(x₁, y)] [(x₁, z)], .train [(x₂, z)] [(x₂, y)]] y = if y = z then some y else some z := by
    unfold lastTruth
    rw [hk]
    by_cases h : z = y
    · subst h; simp
    · rw [if_neg (fun hh => h hh.symm), List.find?_cons_of_neg (by simpa using h)]; simp
  refine ⟨?_, ?_⟩
  · rw [show p = Pred.run [Op.train [(x₁, y)] [(x₁, z)], .train [(x₂, z)] [(x₂, y)]] from rfl, prob_eq, hk, ht]
    split
    · simp_all
    · rw [if_pos]; split <;> rfl
  · have := C107_correction [Op.train [(x₁, y)] [(x₁, z)], .train [(x₂, z)] [(x₂, y)]] x₂ y (by show (1 / 10 : ℚ) < 7 / 10; norm_num) (by show (7 / 10 : ℚ) ≤ 9 / 10; norm_num)
    rw [← ht]; exact this

/-- Non-vacuity: 5 is right for input 2, and replaced by 9. -/
example : (Pred.run [Op.train [((1 : Nat), (5 : Int))] [(1, 9)], .train [(2, 9)] [(2, 5)]]).suggest 2 5 = some 9 := by decide +kernel

/-- C107 (negation): outputs similar to known corrupted ones are never recognised: any output that is not exactly a known corrupted one gets 0.1 and, with the default thresholds,
no correction, however close it is. -/
theorem C107_similar_violated (ops : List (Op I O)) (x : I) (y : O) (hk : known ops ≠ []) (hy : ∀ z, (y, z) ∉ known ops) :
    (Pred.run ops).probability x y = 1 / 10 ∧ (1 / 10 < (Pred.run ops).detect → (Pred.run ops).suggest x y = none) := by
  have h := (C107_detection ops [] [] x y).2.2.2
  have hp : (Pred.run ops).probability x y = 1 / 10 := by
    rw [h, if_neg hk, if_neg]; intro hm; obtain ⟨a, ha, rfl⟩ := List.mem_map.1 hm; exact hy a.2 ha
  refine ⟨hp, ?_⟩
  intro hd
  unfold Pred.suggest
  rw [hp, if_pos]
  simp only [Bool.or_eq_true, decide_eq_true_eq]
  exact Or.inr hd

/-- Non-vacuity: one element of four differs from the known corrupted output. -/
example : (Pred.run [Op.train [(0, (toLex (1, 2) : Lex (Int × Int)))] [((0 : Nat), toLex (1, 1))]]).probability 0 (toLex (1, 3)) = 1 / 10 := by
  refine (C107_similar_violated _ _ _ (by simp [known, pairs]) (by simp [known, pairs])).1

/-- C107 (limit): with both thresholds at most 0.1 every unknown output is "corrected" to the correction of the smallest known one. -/
theorem C107_low_threshold_limit (ops : List (Op I O)) (x : I) (y : O) (hk : known ops ≠ []) (hy : ∀ z, (y, z) ∉ known ops)
    (hd : (Pred.run ops).detect ≤ 1 / 10) (hc : (Pred.run ops).confidence < 1 / 10) :
    ∃ k z, (k, z) ∈ known ops ∧ (Pred.run ops).suggest x y = some z ∧ lastTruth ops k = some z ∧ ∀ k' z', (k', z') ∈ known ops → k ≤ k' := by
  have hi := run_inv ops
  have hp := (C107_similar_violated ops x y hk hy).1
  have hke : (known ops).isEmpty = false := by simpa using hk
  have hnone : lastTruth ops y = none := by
    unfold lastTruth
    rw [List.find?_eq_none.2]
    · rfl
    · intro a ha hh
      have : a.1 = y := by simpa using hh
      exact hy a.2 (by rw [← this]; exact ha)
  have hmem : ∀ k, k ∈ (Pred.run ops).samples.map (·.1) ↔ ∃ z, (k, z) ∈ known ops := by
    intro k
    rw [← look_keys, hi.truth]
    unfold lastTruth
    rw [Option.isSome_map, List.find?_isSome]
    constructor
    · rintro ⟨a, ha, hb⟩
      refine ⟨a.2, ?_⟩
      have : a.1 = k := by simpa using hb
      rw [← this]; exact ha
    · rintro ⟨z, hz⟩; exact ⟨_, hz, by simp⟩
  have hclose : ∀ (t : List (O × O)) (b : Option O × ℚ), b.2 = 1 / 10 → t.foldl (fun (b : Option O × ℚ) x => if similarity y x.1 > b.2 then (some x.1, similarity y x.1) else b) b = b := by
    intro t
    induction t with
    | nil => intro b _; rfl
    | cons a t ih => intro b hb; rw [List.foldl_cons, if_neg (by rw [hb]; unfold similarity; exact lt_irrefl _)]; exact ih b hb
  cases hs : (Pred.run ops).samples with
  | nil =>
    exfalso
    cases hkk : known ops with
    | nil => exact hk hkk
    | cons a t =>
      have := (hmem a.1).2 ⟨a.2, by rw [hkk]; exact List.mem_cons_self⟩
      rw [hs] at this; simp at this
  | cons a t =>
    have hclosest : closest (Pred.run ops).samples y = (some a.1, 1 / 10) := by
      rw [hs]
      unfold closest
      rw [List.foldl_cons, if_pos (by unfold similarity; norm_num)]
      exact hclose t _ rfl
    have hget : look (Pred.run ops).samples a.1 = some a.2 := by rw [hs]; unfold look; simp
    obtain ⟨z, hz⟩ := (hmem a.1).1 (by rw [hs]; simp)
    have hlt : lastTruth ops a.1 = some a.2 := by rw [← hi.truth]; exact hget
    have hka : (a.1, a.2) ∈ known ops := by
      unfold lastTruth at hlt
      cases hf : (known ops).find? (·.1 = a.1) with
      | none => rw [hf] at hlt; cases hlt
      | some b =>
        rw [hf] at hlt
        simp only [Option.map_some, Option.some.injEq] at hlt
        have h1 : b.1 = a.1 := by simpa using List.find?_some hf
        rw [← hlt, ← h1]; exact List.mem_of_find?_eq_some hf
    refine ⟨a.1, a.2, hka, ?_, hlt, ?_⟩
    · unfold Pred.suggest
      rw [hp, hi.trained, hke, hi.truth y, hnone, hclosest, if_neg (by simpa using hd)]
      simp only
      rw [if_pos hc]
      simp only [Option.bind_some]
      exact hget
    · intro k' z' hk'
      have := (hmem k').2 ⟨z', hk'⟩
      have hsort := hi.sorted
      rw [hs] at this hsort
      simp only [List.map_cons, List.pairwise_cons] at hsort
      rcases List.mem_cons.1 this with rfl | h
      · exact le_refl _
      · exact le_of_lt (hsort.1 k' h)

/-- Non-vacuity. -/
example : (Pred.run (demoOps ++ [.setDetect 0, .setConfidence 0])).suggest 1 12345 = some 30 := by decide +kernel

end Verif.Props.ErrorLookupP
