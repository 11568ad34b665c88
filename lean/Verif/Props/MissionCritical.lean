import Verif.Model.MissionCritical
import Mathlib.Tactic.Linarith
import Mathlib.Tactic.NormNum
import Mathlib.Tactic.Positivity
import Mathlib.Tactic.IntervalCases
import Mathlib.Tactic.Ring
import Mathlib.Data.List.GetD
import Mathlib.Algebra.BigOperators.Group.List.Basic
import Mathlib.Algebra.BigOperators.Group.Finset.Basic
import Mathlib.Algebra.BigOperators.Intervals
/-!
Properties C347-C349: /repo/test/framework_validation_test.cpp.
Properties C350-C355: /repo/test/mission_critical_validation.cpp.
-/
namespace Verif.Props.FrameworkVal
open Verif Verif.FrameworkVal

/-! ### C347: the test of the basic voter -/

/-- C347: whatever the stored value and a different corrupting value, the first four checks hold: the value is stored, survives a repair, survives the corruption of one copy and is lost with the second one. -/
theorem C347_checks {α : Type} [DecidableEq α] (v x : α) (h : x ≠ v) : basicChecks v x = (true, true, true, true, false) := by
  simp [basicChecks, BTmr.Basic.set, BTmr.Basic.get, BTmr.Basic.repair, BTmr.Basic.strike, h]

/-- C347: the fifth check expects a repair to bring back a value two of whose three copies are gone; it can never hold, so the test fails in every run and so does the program. -/
theorem C347_repair_violated {α : Type} [DecidableEq α] (v x : α) (h : x ≠ v) (u : ℕ → ℕ → ℝ) (lucky : ℕ → Bool) :
    basicTest v x = false ∧ exitCode u lucky = 1 := by
  have key : ∀ {β : Type} [DecidableEq β] (v x : β), x ≠ v → basicTest v x = false := by
    intro β _ v x h
    unfold basicTest
    rw [C347_checks v x h]
    rfl
  refine ⟨key v x h, ?_⟩
  unfold exitCode
  rw [key (42 : BitVec 32) 100 (by decide)]
  rfl

example : (100 : BitVec 32) ≠ 42 := by decide

/-! ### C348: the levels of protection -/

/-- C348: the level chosen is that of the basic voter for all six environments, from no radiation to Jupiter, so four of the six verdicts of the test are unfavourable and the test fails. -/
theorem C348_levels_violated :
    levels (BTmr.State.new 50) environments = [(1, true), (1, true), (1, false), (1, false), (1, false), (1, false)] ∧ physicsTest = false := by
  decide +kernel
/-! ### C349: injection of errors -/

theorem jupiter_level : jupiter.level = 1 := by decide +kernel

/-- The number of the three executions of an operation that are hit. -/
noncomputable def hits (u : ℕ → ℝ) : ℕ := open Classical in ((List.range 3).filter fun k => u k < 3 / 10).length

/-- C349, one operation: the value is right exactly when at most one of its three executions is hit, whatever the random number of the protection object; an error is reported exactly when the first execution differs from the two others. -/
theorem C349_operation (u : ℕ → ℝ) (lucky : Bool) :
    ((operation u lucky).value = 42 ↔ hits u ≤ 1) ∧
    ((operation u lucky).detected = true ↔ ((u 0 < 3 / 10 ∧ ¬ u 1 < 3 / 10 ∧ ¬ u 2 < 3 / 10) ∨ (¬ u 0 < 3 / 10 ∧ u 1 < 3 / 10 ∧ u 2 < 3 / 10))) := by
  unfold operation hits
  rw [jupiter_level]
  have e : ∀ k, Visualizer.operation (3 / 10) (u k) = open Classical in if u k < 3 / 10 then -999 else 42 := by
    intro k
    unfold Visualizer.operation
    norm_num
  simp only [BTmr.executeProtected, BTmr.execBasic, e, List.range, List.range.loop]
  by_cases h0 : u 0 < 3 / 10 <;> by_cases h1 : u 1 < 3 / 10 <;> by_cases h2 : u 2 < 3 / 10 <;> simp [h0, h1, h2]

/-- C349, the verdict: for every number of operations the first count is that of the operations with at most one execution hit; the test succeeds exactly when that is 900 or more of the 1000. -/
theorem C349_verdict (u : ℕ → ℕ → ℝ) (lucky : ℕ → Bool) :
    (∀ n, (counts u lucky n).1 = open Classical in ((List.range n).filter fun i => hits (u i) ≤ 1).length) ∧
    (injectionTest u lucky = true ↔ 900 ≤ (counts u lucky 1000).1) := by
  constructor
  · intro n
    unfold counts
    induction n with
    | zero => rfl
    | succ n ih =>
      rw [forN]
      dsimp only
      rw [ih, List.range_succ, List.filter_append, List.length_append]
      by_cases h : hits (u n) ≤ 1
      · rw [if_pos ((C349_operation (u n) (lucky n)).1.2 h)]; simp [h]
      · rw [if_neg (fun x => h ((C349_operation (u n) (lucky n)).1.1 x))]; simp [h]
  · unfold injectionTest
    generalize (counts u lucky 1000).1 = c
    simp only [Bool.and_eq_true, decide_eq_true_eq, ge_iff_le, gt_iff_lt]
    constructor
    · rintro ⟨-, h⟩
      rw [le_div_iff₀ (by norm_num)] at h
      norm_num at h
      exact_mod_cast h
    · intro h
      have : (900 : ℝ) ≤ c := by exact_mod_cast h
      constructor
      · rw [lt_div_iff₀ (by norm_num)]; linarith
      · rw [le_div_iff₀ (by norm_num)]; linarith

/-- C349: an error in the second or third execution alone is corrected without being reported, so the printed detection rate and correction rate do not describe the same errors: with the second execution hit in every operation, 1000 operations are right and none is reported. -/
theorem C349_unreported_violated : ∃ u : ℕ → ℕ → ℝ, ∀ lucky, (∀ i, hits (u i) = 1) ∧ counts u lucky 1000 = (1000, 0) := by
  refine ⟨fun _ k => if k = 1 then 0 else 1, fun lucky => ?_⟩
  have h1 : ∀ i : ℕ, hits ((fun (_ k : ℕ) => if k = 1 then (0 : ℝ) else 1) i) = 1 := by
    intro i
    simp only [hits, List.range, List.range.loop]
    norm_num
  refine ⟨h1, ?_⟩
  have : ∀ n, counts (fun _ k => if k = 1 then (0 : ℝ) else 1) lucky n = (n, 0) := by
    intro n
    unfold counts
    induction n with
    | zero => rfl
    | succ n ih =>
      rw [forN, ih]
      dsimp only
      rw [if_pos ((C349_operation _ _).1.2 (h1 n).le), if_neg]
      intro x
      have := (C349_operation _ _).2.1 x
      norm_num at this
  exact this 1000

example : injectionTest (fun _ _ => 1) (fun _ => false) = true := by
  rw [(C349_verdict _ _).2, (C349_verdict _ _).1 1000]
  have : ∀ i ∈ List.range 1000, decide (hits ((fun _ _ => (1 : ℝ) : ℕ → ℕ → ℝ) i) ≤ 1) = true := by
    intro i _
    simp only [hits, List.range, List.range.loop]
    norm_num
  rw [List.filter_eq_self.2 (by convert this)]
  simp

end Verif.Props.FrameworkVal

namespace Verif.Props.MissionCrit
open Verif Verif.MissionCrit

/-! ### C350: what the protection does -/

/-- C350: the protected execution of a function always returns the value of the function: neither the errors nor the protection change it.  An error is counted exactly when the next random number is below the probability of the environment, corrected exactly when, besides, the following one is below the effectiveness of the level; nothing else of the object changes but the position in the sequence of random numbers. -/
theorem C350_exec {α : Type} (p : Prot) (a : α) :
    (p.exec a).1.value = a ∧
    ((p.exec a).1.detected = true ↔ p.gen 0 < errorProb p.env) ∧
    ((p.exec a).1.corrected = true ↔ p.gen 0 < errorProb p.env ∧ p.gen 1 < effectiveness p.level) ∧
    (p.exec a).2.detected = p.detected + (if (p.exec a).1.detected then 1 else 0) ∧
    (p.exec a).2.corrected = p.corrected + (if (p.exec a).1.corrected then 1 else 0) ∧
    (p.exec a).2.level = p.level ∧ (p.exec a).2.env = p.env ∧
    (p.exec a).2.gen = fun i => p.gen (i + (if (p.exec a).1.detected then 2 else 1)) := by
  unfold Prot.exec
  split_ifs with h h' <;> simp_all

/-- C350: no level corrects every error, every environment causes some and none more than the deep-space probe's; a level is at least as effective as another exactly when it costs at least as much. -/
theorem C350_tables : (∀ l, 0 ≤ effectiveness l ∧ effectiveness l < 1) ∧ (∀ e, 0 < errorProb e ∧ errorProb e ≤ errorProb .probe) ∧
    (∀ l l', effectiveness l ≤ effectiveness l' ↔ overhead l ≤ overhead l') := by
  refine ⟨fun l => ?_, fun e => ?_, fun l l' => ?_⟩
  · cases l <;> norm_num [effectiveness]
  · cases e <;> norm_num [errorProb]
  · cases l <;> cases l' <;> norm_num [effectiveness, overhead]

/-- C350, as a defect: an error that is detected and not corrected leaves the result as it was, so the accuracy the test measures cannot depend on radiation. -/
theorem C350_harmless_violated {α : Type} (p q : Prot) (a : α) : (p.exec a).1.value = (q.exec a).1.value ∧
    ∃ r : Prot, (r.exec a).1.detected = true ∧ (r.exec a).1.corrected = false ∧ (r.exec a).1.value = a := by
  refine ⟨by rw [(C350_exec p a).1, (C350_exec q a).1], ⟨.none, .leo, 0, 0, fun _ => 0⟩, ?_, ?_, (C350_exec _ a).1⟩
  · rw [(C350_exec _ a).2.1]; norm_num [errorProb]
  · rw [Bool.eq_false_iff, Ne, (C350_exec _ a).2.2.1]; norm_num [effectiveness]

/-! ### C351: gradients and updates -/

/-- C351: the length of the gradients is the number of parameters the sizes of the network ask for, five more if they are corrupted. -/
theorem C351_length (n : Net) (x t : List ℝ) (c : Bool) (e : Fin 5 → ℝ) :
    (n.gradients x t c e).length = n.inp * n.hid + n.hid * n.out + n.hid + n.out + (if c then 5 else 0) := by
  unfold Net.gradients
  simp only [List.length_append, List.length_flatMap, List.length_map, List.length_range, List.map_const', List.sum_replicate, smul_eq_mul]
  cases c <;> simp

/-- C351: the gradient of every parameter, for uncorrupted gradients: input times hidden error, hidden output times output error, hidden error, output error. -/
theorem C351_entries (n : Net) (x t : List ℝ) (e : Fin 5 → ℝ) :
    (∀ i j, i < n.inp → j < n.hid → (n.gradients x t false e).getD (i * n.hid + j) 0 = x.getD i 0 * (n.hidErr x t).getD j 0) ∧
    (∀ i j, i < n.hid → j < n.out → (n.gradients x t false e).getD (n.inp * n.hid + (i * n.out + j)) 0 = (n.hidden x).getD i 0 * (n.outErr x t).getD j 0) ∧
    (∀ i, i < n.hid → (n.gradients x t false e).getD (n.inp * n.hid + n.hid * n.out + i) 0 = (n.hidErr x t).getD i 0) ∧
    (∀ i, i < n.out → (n.gradients x t false e).getD (n.inp * n.hid + n.hid * n.out + n.hid + i) 0 = (n.outErr x t).getD i 0) := by
  have flat : ∀ (a b : ℕ) (f : ℕ → ℕ → ℝ) (l : List ℝ) (i j : ℕ), i < a → j < b →
      (((List.range a).flatMap fun i => (List.range b).map fun j => f i j) ++ l).getD (i * b + j) 0 = f i j := by
    intro a b f l i j
    induction a generalizing l with
    | zero => intro h; omega
    | succ a ih =>
      intro hi hj
      rw [List.range_succ, List.flatMap_append, List.append_assoc]
      by_cases h : i < a
      · exact ih _ h hj
      · obtain rfl : i = a := by omega
        have hl : ((List.range i).flatMap fun i => (List.range b).map fun j => f i j).length = i * b := by
          simp [List.length_flatMap]
        rw [List.getD_append_right _ _ _ _ (by rw [hl]; omega), hl, Nat.add_sub_cancel_left]
        simp [List.getD_eq_getElem?_getD, List.getElem?_append, hj]
  have l1 : ((List.range n.inp).flatMap fun i => (List.range n.hid).map fun j => x.getD i 0 * (n.hidErr x t).getD j 0).length = n.inp * n.hid := by
    simp [List.length_flatMap]
  have l2 : ((List.range n.hid).flatMap fun i => (List.range n.out).map fun j => (n.hidden x).getD i 0 * (n.outErr x t).getD j 0).length = n.hid * n.out := by
    simp [List.length_flatMap]
  unfold Net.gradients
  rw [if_neg (by simp), List.append_nil, List.append_assoc, List.append_assoc]
  refine ⟨fun i j hi hj => flat n.inp n.hid (fun i j => x.getD i 0 * (n.hidErr x t).getD j 0) _ i j hi hj, fun i j hi hj => ?_, fun i hi => ?_, fun i hi => ?_⟩
  · rw [List.getD_append_right _ _ _ _ (by rw [l1]; omega), l1, Nat.add_sub_cancel_left]
    exact flat n.hid n.out (fun i j => (n.hidden x).getD i 0 * (n.outErr x t).getD j 0) _ i j hi hj
  · rw [List.getD_append_right _ _ _ _ (by rw [l1]; omega), l1, show n.inp * n.hid + n.hid * n.out + i - n.inp * n.hid = n.hid * n.out + i by omega,
      List.getD_append_right _ _ _ _ (by rw [l2]; omega), l2, Nat.add_sub_cancel_left, List.getD_append _ _ _ _ (by simpa using hi)]
    simp [List.getD_eq_getElem?_getD, hi]
  · rw [List.getD_append_right _ _ _ _ (by rw [l1]; omega), l1, show n.inp * n.hid + n.hid * n.out + n.hid + i - n.inp * n.hid = n.hid * n.out + (n.hid + i) by omega,
      List.getD_append_right _ _ _ _ (by rw [l2]; omega), l2, Nat.add_sub_cancel_left, List.getD_append_right _ _ _ _ (by simp)]
    simp [List.getD_eq_getElem?_getD, hi]

/-- C351: corrupted gradients are always rejected and the network stays as it was; others are always accepted, and every parameter becomes itself minus the learning rate times its gradient. The sizes stay right. -/
theorem C351_update (n : Net) (h : n.Sized) (x t : List ℝ) (c : Bool) (e : Fin 5 → ℝ) (lr : ℝ) :
    ((n.update (n.gradients x t c e) lr).1 = !c) ∧ (n.update (n.gradients x t c e) lr).2.Sized ∧
    (c = true → (n.update (n.gradients x t c e) lr).2 = n) ∧
    (c = false → ∀ m, m = (n.update (n.gradients x t c e) lr).2 → m.inp = n.inp ∧ m.hid = n.hid ∧ m.out = n.out ∧
      (∀ i, i < n.inp * n.hid → m.w1.getD i 0 = n.w1.getD i 0 - lr * (n.gradients x t c e).getD i 0) ∧
      (∀ i, i < n.hid * n.out → m.w2.getD i 0 = n.w2.getD i 0 - lr * (n.gradients x t c e).getD (n.inp * n.hid + i) 0) ∧
      (∀ i, i < n.hid + n.out → m.b.getD i 0 = n.b.getD i 0 - lr * (n.gradients x t c e).getD (n.inp * n.hid + n.hid * n.out + i) 0)) := by
  have hl := C351_length n x t c e
  generalize n.gradients x t c e = g at *
  obtain ⟨h1, h2, h3⟩ := h
  unfold Net.update
  cases c with
  | true =>
    rw [if_pos (by rw [hl, h1, h2, h3]; simp; omega)]
    exact ⟨rfl, ⟨h1, h2, h3⟩, fun _ => rfl, by simp⟩
  | false =>
    rw [if_neg (by rw [hl, h1, h2, h3]; simp; omega)]
    refine ⟨rfl, ⟨by simp [h1], by simp [h2], by simp [h3]⟩, by simp, fun _ m hm => ?_⟩
    subst hm
    refine ⟨rfl, rfl, rfl, fun i hi => ?_, fun i hi => ?_, fun i hi => ?_⟩
    · simp [List.getD_eq_getElem?_getD, h1, hi]
    · simp [List.getD_eq_getElem?_getD, h1, h2, hi]
    · simp [List.getD_eq_getElem?_getD, h1, h2, h3, hi]

/-- C351: inference is refused exactly for inputs of the wrong size; otherwise its result is the output layer, of the right size and strictly between 0 and 1. -/
theorem C351_forward (n : Net) (p : Prot) (x : List ℝ) :
    (n.forward p x = none ↔ x.length ≠ n.inp) ∧
    ∀ y q, n.forward p x = some (y, q) → y = n.output x ∧ y.length = n.out ∧ ∀ v ∈ y, 0 < v ∧ v < 1 := by
  unfold Net.forward
  constructor
  · split_ifs with h <;> simp [h]
  · intro y q hy
    split_ifs at hy with h
    simp only [Option.some.injEq, Prod.mk.injEq, (C350_exec p _).1] at hy
    obtain ⟨rfl, -⟩ := hy
    refine ⟨rfl, by simp [Net.output], fun v hv => ?_⟩
    simp only [Net.output, List.mem_map] at hv
    obtain ⟨i, -, rfl⟩ := hv
    have := Real.exp_pos (-(forN n.hid (fun j s => s + (n.hidden x).getD j 0 * n.w2.getD (j * n.out + i) 0) 0 + n.b.getD (n.hid + i) 0))
    constructor
    · positivity
    · rw [div_lt_one (by positivity)]; linarith

theorem forN_sum (f : ℕ → ℝ) (k : ℕ) : forN k (fun j s => s + f j) 0 = ∑ j ∈ Finset.range k, f j := by
  induction k with
  | zero => simp [forN]
  | succ k ih => rw [forN, ih, Finset.sum_range_succ]

theorem hidden_at (n : Net) (x : List ℝ) (j : ℕ) (h : j < n.hid) :
    (n.hidden x).getD j 0 = max 0 (∑ k ∈ Finset.range n.inp, x.getD k 0 * n.w1.getD (k * n.hid + j) 0 + n.b.getD j 0) := by
  unfold Net.hidden
  rw [List.getD_eq_getElem?_getD, List.getElem?_map, List.getElem?_range h]
  show max (0 : ℝ) _ = _
  rw [forN_sum]

/-- C351: the two layers: the hidden one is the positive part of the weighted inputs with the first biases, the output one the logistic function of the weighted hidden values with the biases after those; a matrix entry from `j` to `i` is at `j` times the width of the target layer plus `i`. -/
theorem C351_layers (n : Net) (p : Prot) (x y : List ℝ) (q : Prot) (h : n.forward p x = some (y, q)) (i : ℕ) (hi : i < n.out) :
    y.getD i 0 = 1 / (1 + Real.exp (-(∑ j ∈ Finset.range n.hid, max 0 (∑ k ∈ Finset.range n.inp, x.getD k 0 * n.w1.getD (k * n.hid + j) 0 + n.b.getD j 0) * n.w2.getD (j * n.out + i) 0 + n.b.getD (n.hid + i) 0))) := by
  rw [((C351_forward n p x).2 y q h).1]
  unfold Net.output
  rw [List.getD_eq_getElem?_getD, List.getElem?_map, List.getElem?_range hi]
  show (1 : ℝ) / _ = _
  rw [forN_sum]
  have e : ∑ j ∈ Finset.range n.hid, (n.hidden x).getD j 0 * n.w2.getD (j * n.out + i) 0 =
      ∑ j ∈ Finset.range n.hid, max 0 (∑ k ∈ Finset.range n.inp, x.getD k 0 * n.w1.getD (k * n.hid + j) 0 + n.b.getD j 0) * n.w2.getD (j * n.out + i) 0 := by
    refine Finset.sum_congr rfl fun j hj => ?_
    rw [hidden_at n x j (Finset.mem_range.mp hj)]
  rw [e]

/-- The position of the first largest element, independently of the search. -/
def FirstMax (l : List ℝ) (k : ℕ) : Prop := k < l.length ∧ (∀ j, j < l.length → l.getD j 0 ≤ l.getD k 0) ∧ ∀ j, j < k → l.getD j 0 < l.getD k 0

theorem argmax_spec (r : List ℝ) (a : List ℝ) (k : ℕ) (h : FirstMax a k) : FirstMax (a ++ r) (argmax r k (a.getD k 0) a.length) := by
  induction r generalizing a k with
  | nil => simpa [argmax] using h
  | cons y r ih =>
    have hk : k < a.length := h.1
    have e : a ++ y :: r = (a ++ [y]) ++ r := by simp
    have ay : (a ++ [y]).getD a.length 0 = y := by simp [List.getD_eq_getElem?_getD]
    have aj : ∀ j, j < a.length → (a ++ [y]).getD j 0 = a.getD j 0 := fun j hj => List.getD_append _ _ _ _ hj
    have len : (a ++ [y]).length = a.length + 1 := by simp
    rw [e]
    unfold argmax
    split_ifs with hy
    · have := ih (a ++ [y]) a.length ⟨by omega, fun j hj => ?_, fun j hj => ?_⟩
      · rwa [ay, len] at this
      · rw [ay]
        rcases Nat.lt_or_ge j a.length with q | q
        · rw [aj j q]; exact (h.2.1 j q).trans hy.le
        · obtain rfl : j = a.length := by omega
          rw [ay]
      · rw [ay, aj j hj]; exact lt_of_le_of_lt (h.2.1 j hj) hy
    · have := ih (a ++ [y]) k ⟨by omega, fun j hj => ?_, fun j hj => ?_⟩
      · rwa [aj k hk, len] at this
      · rw [aj k hk]
        rcases Nat.lt_or_ge j a.length with q | q
        · rw [aj j q]; exact h.2.1 j q
        · obtain rfl : j = a.length := by omega
          rw [ay]; exact not_lt.1 hy
      · rw [aj k hk, aj j (by omega)]; exact h.2.2 j hj

/-- C351: the class of a vector is the position of its first largest element. -/
theorem C351_best (l : List ℝ) (h : l ≠ []) : FirstMax l (best l) := by
  cases l with
  | nil => exact absurd rfl h
  | cons y l =>
    have := argmax_spec l [y] 0 ⟨by simp, fun j hj => ?_, by simp⟩
    · simpa [best] using this
    · obtain rfl : j = 0 := by simpa using hj
      exact le_rfl

/-- The data of the right size that the network classifies right. -/
noncomputable def rights (n : Net) (ds : List (List ℝ × List ℝ)) : ℕ := (ds.filter fun d => best (n.output d.1) = best d.2).length

theorem score_spec (n : Net) (ds : List (List ℝ × List ℝ)) (hd : ∀ d ∈ ds, d.1.length = n.inp) (p : Prot) (c : ℕ) :
    ∃ q, score n p ds c = some (c + rights n ds, q) := by
  induction ds generalizing p c with
  | nil => exact ⟨p, rfl⟩
  | cons d ds ih =>
    have f : n.forward p d.1 = some (n.output d.1, (p.exec (n.output d.1)).2) := by
      unfold Net.forward
      rw [if_neg (by simpa using hd d (by simp)), (C350_exec p _).1]
    obtain ⟨q, hq⟩ := ih (fun d' h' => hd d' (by simp [h'])) (p.exec (n.output d.1)).2 (if best (n.output d.1) = best d.2 then c + 1 else c)
    refine ⟨q, ?_⟩
    unfold score
    rw [f, Option.bind_some, hq]
    unfold rights
    rw [List.filter_cons]
    by_cases h : best (n.output d.1) = best d.2
    · simp [h]; omega
    · simp [h]

/-- C351: the accuracy is the share of the validation data classified right, between 0 and 1; it is the same for every state of the protection. -/
theorem C351_accuracy (n : Net) (ds : List (List ℝ × List ℝ)) (hd : ∀ d ∈ ds, d.1.length = n.inp) (p : Prot) :
    ∃ q, accuracy n p ds = some ((rights n ds : ℝ) / ds.length, q) ∧ 0 ≤ (rights n ds : ℝ) / ds.length ∧ (rights n ds : ℝ) / ds.length ≤ 1 := by
  have b : (rights n ds : ℝ) ≤ ds.length := by
    unfold rights; exact_mod_cast List.length_filter_le _ _
  have r : 0 ≤ (rights n ds : ℝ) / ds.length ∧ (rights n ds : ℝ) / ds.length ≤ 1 := ⟨by positivity, div_le_one_of_le₀ b (by positivity)⟩
  unfold accuracy
  split_ifs with h
  · subst h; exact ⟨p, by simp [rights], r⟩
  · obtain ⟨q, hq⟩ := score_spec n ds hd p 0
    exact ⟨q, by rw [hq]; simp, r⟩

example : (⟨1, 1, 2, [1], [1, 2], [0, 0, 0]⟩ : Net).Sized := ⟨rfl, rfl, rfl⟩

/-! ### The state after a number of minutes -/

/-- The network trained on the first `j` samples, one by one, the corrupted ones left out: no radiation, no spikes, no protection. -/
noncomputable def trained (w : World) (n : Net) : ℕ → Net
  | 0 => n
  | j + 1 => if w.corrupt j then trained w n j
    else ((trained w n j).update ((trained w n j).gradients (w.trainX j) (w.trainT j) false (fun _ => 0)) 0.01).2

theorem trained_sized (w : World) (n : Net) (h : n.Sized) (j : ℕ) : (trained w n j).Sized ∧ (trained w n j).inp = n.inp := by
  induction j with
  | zero => exact ⟨h, rfl⟩
  | succ j ih =>
    rw [trained]
    split_ifs
    · exact ih
    · have u := C351_update (trained w n j) ih.1 (w.trainX j) (w.trainT j) false (fun _ => 0) 0.01
      exact ⟨u.2.1, ((u.2.2.2 rfl _ rfl).1).trans ih.2⟩

/-- The part of the state that training leaves alone. -/
def Same (s s' : Ms) : Prop := s'.counter = s.counter ∧ s'.env = s.env ∧ s'.prot = s.prot ∧ s'.corrected = s.corrected ∧ s'.uncorrected = s.uncorrected ∧
  s'.envLog = s.envLog ∧ s'.rows = s.rows ∧ s'.events.filter (·.2 ≠ .skipped) = s.events.filter (·.2 ≠ .skipped)

/-- What training has done after `j` samples. -/
def Tr (w : World) (n : Net) (j : ℕ) (s : Ms) : Prop := s.processed = j ∧ s.net = trained w n j ∧ s.skipped = (List.range j).countP w.corrupt ∧
  (s.events.filter (·.2 = .skipped)).length = s.skipped

theorem sample_step (w : World) (n : Net) (hn : n.Sized) (m j : ℕ) (hj : j < 10000) (s : Ms) (h : Tr w n j s) : Tr w n (j + 1) (sample w m s) ∧ Same s (sample w m s) := by
  obtain ⟨h1, h2, h3, h4⟩ := h
  have u := C351_update (trained w n j) (trained_sized w n hn j).1 (w.trainX j) (w.trainT j) (w.corrupt j) (w.extra j) 0.01
  have v : (trained w n j).gradients (w.trainX j) (w.trainT j) false (w.extra j) = (trained w n j).gradients (w.trainX j) (w.trainT j) false (fun _ => 0) := by
    simp [Net.gradients]
  unfold sample
  rw [if_pos (by rw [h1]; exact hj), h1, h2, Nat.mod_eq_of_lt hj]
  unfold Tr Same
  dsimp only
  cases c : w.corrupt j with
  | true =>
    rw [c] at u
    rw [u.1, u.2.2.1 rfl]
    simp [trained, c, List.range_succ, List.countP_append, h3, h4]
  | false =>
    rw [c] at u
    rw [u.1, v]
    simp [trained, c, List.range_succ, List.countP_append, h3, h4]

theorem Same.trans {a b c : Ms} (h : Same a b) (h' : Same b c) : Same a c := by
  obtain ⟨h1, h2, h3, h4, h5, h6, h7, h8⟩ := h
  obtain ⟨i1, i2, i3, i4, i5, i6, i7, i8⟩ := h'
  exact ⟨i1.trans h1, i2.trans h2, i3.trans h3, i4.trans h4, i5.trans h5, i6.trans h6, i7.trans h7, i8.trans h8⟩

theorem train_step (w : World) (n : Net) (hn : n.Sized) (m j : ℕ) (hj : j + 3 ≤ 10000) (s : Ms) (h : Tr w n j s) : Tr w n (j + 3) (train w m s) ∧ Same s (train w m s) := by
  have e : train w m s = sample w m (sample w m (sample w m s)) := rfl
  rw [e]
  have a := sample_step w n hn m j (by omega) s h
  have b := sample_step w n hn m (j + 1) (by omega) _ a.1
  have c := sample_step w n hn m (j + 2) (by omega) _ b.1
  exact ⟨c.1, (a.2.trans b.2).trans c.2⟩

/-- The scheduled environment of a minute, independently of the counter in the program. -/
def scheduled (m : ℕ) : Environment := [Environment.leo, .meo, .geo, .lunar, .mars, .saa].getD ((m / 120 + 1) % 6) .leo

theorem envOf_eq (m : ℕ) : envOf ((m / 120 + 1) % 6) = scheduled m := by
  unfold scheduled
  have : (m / 120 + 1) % 6 < 6 := Nat.mod_lt _ (by norm_num)
  interval_cases (m / 120 + 1) % 6 <;> rfl

/-- What inference leaves alone in the protection. -/
theorem score_prot (n : Net) (ds : List (List ℝ × List ℝ)) (p : Prot) (c : ℕ) (r : ℕ × Prot) (h : score n p ds c = some r) :
    r.2.level = p.level ∧ r.2.env = p.env ∧ p.detected ≤ r.2.detected ∧ r.2.detected ≤ p.detected + ds.length ∧
    p.corrected ≤ r.2.corrected ∧ r.2.corrected + p.detected ≤ p.corrected + r.2.detected := by
  induction ds generalizing p c with
  | nil =>
    simp only [score, Option.some.injEq] at h
    subst h
    simp
  | cons d ds ih =>
    unfold score at h
    have x := C350_exec p (n.output d.1)
    obtain ⟨-, -, x3, x4, x5, x6, x7, -⟩ := x
    have y : (p.exec (n.output d.1)).1.corrected = true → (p.exec (n.output d.1)).1.detected = true := fun q => (C350_exec p _).2.1.2 (x3.1 q).1
    unfold Net.forward at h
    split_ifs at h with hx
    · simp at h
    · rw [Option.bind_some] at h
      obtain ⟨i1, i2, i3, i4, i5, i6⟩ := ih _ _ h
      dsimp only at i1 i2 i3 i4 i5 i6
      rw [x6] at i1
      rw [x7] at i2
      rw [x4] at i3 i4 i6
      rw [x5] at i5 i6
      refine ⟨i1, i2, ?_, ?_, ?_, ?_⟩ <;>
        cases hd : (p.exec (n.output d.1)).1.detected <;> cases hc : (p.exec (n.output d.1)).1.corrected <;> simp_all <;> omega

theorem accuracy_prot (n : Net) (ds : List (List ℝ × List ℝ)) (p : Prot) (r : ℝ × Prot) (h : accuracy n p ds = some r) :
    r.2.level = p.level ∧ r.2.env = p.env ∧ p.detected ≤ r.2.detected ∧ r.2.detected ≤ p.detected + ds.length ∧
    p.corrected ≤ r.2.corrected ∧ r.2.corrected + p.detected ≤ p.corrected + r.2.detected := by
  unfold accuracy at h
  split_ifs at h with hd
  · simp only [Option.some.injEq] at h
    subst h
    simp
  · obtain ⟨q, hq, hr⟩ := Option.bind_eq_some_iff.1 h
    simp only [Option.some.injEq] at hr
    subst hr
    exact score_prot n ds p 0 q hq

/-- The row of hour `h`, but for the counts of errors. -/
def RowOf (w : World) (n : Net) (h : ℕ) (r : Row) : Prop :=
  r.accuracy = (rights (trained w n (180 * h + 3)) w.valid : ℝ) / w.valid.length ∧
  r.errorRate = ((r.corrected + r.uncorrected : ℕ) : ℝ) / (180 * h + 3 : ℕ) ∧
  r.corrected + r.uncorrected ≤ (4 * h + 1) * w.valid.length ∧
  r.skipped = (List.range (180 * h + 3)).countP w.corrupt ∧
  r.util = 0.5 + 0.5 * ((180 * h + 3 : ℕ) : ℝ) / 10000 ∧
  r.overhead = reported ((h / 2 + 1) % 6) (inSpike w.spikes (60 * h))

/-- The facts about the state after `k` minutes. -/
structure Inv (w : World) (n : Net) (k : ℕ) (s : Ms) : Prop where
  tr : Tr w n (3 * k) s
  counter : s.counter = if k = 0 then 0 else ((k - 1) / 120 + 1) % 6
  env : s.env = envOf s.counter
  level : s.prot.level = .moderate
  log : s.envLog = (0, .leo) :: (List.range ((k + 119) / 120)).map fun j => (120 * j, scheduled (120 * j))
  spikes : (s.events.filter (·.2 = .spike)).map (·.1) = (List.range k).filter (inSpike w.spikes)
  count : s.rows.length = (k + 59) / 60
  row : ∀ h r, s.rows[h]? = some r → RowOf w n h r
  order : s.prot.corrected ≤ s.prot.detected
  bound : s.prot.detected ≤ ((k + 19) / 20 + (k + 59) / 60) * w.valid.length
  sums : s.corrected + s.uncorrected ≤ s.prot.detected

theorem change_spec (m : ℕ) (s : Ms) (hc : s.counter = if m = 0 then 0 else ((m - 1) / 120 + 1) % 6) (he : s.env = envOf s.counter)
    (hl : s.envLog = (0, .leo) :: (List.range ((m + 119) / 120)).map fun j => (120 * j, scheduled (120 * j))) :
    (change m s).counter = (m / 120 + 1) % 6 ∧ (change m s).env = scheduled m ∧
    (change m s).envLog = (0, .leo) :: (List.range ((m + 1 + 119) / 120)).map (fun j => (120 * j, scheduled (120 * j))) ∧
    (change m s).prot = { s.prot with env := if m % 120 = 0 then scheduled m else s.prot.env } ∧
    (change m s).net = s.net ∧ (change m s).processed = s.processed ∧ (change m s).skipped = s.skipped ∧ (change m s).corrected = s.corrected ∧
    (change m s).uncorrected = s.uncorrected ∧ (change m s).events = s.events ∧ (change m s).rows = s.rows := by
  unfold change
  split_ifs with h
  · have k : (s.counter + 1) % 6 = (m / 120 + 1) % 6 := by
      rw [hc]
      split_ifs with z
      · subst z; rfl
      · omega
    have r : (m + 1 + 119) / 120 = (m + 119) / 120 + 1 := by omega
    have q : 120 * ((m + 119) / 120) = m := by omega
    dsimp only
    rw [k, envOf_eq, hl, r, List.range_succ, List.map_append]
    simp [q]
  · have k : s.counter = (m / 120 + 1) % 6 := by
      rw [hc]
      split_ifs with z
      · subst z; simp at h
      · omega
    have r : (m + 1 + 119) / 120 = (m + 119) / 120 := by omega
    have h' : ¬ m % 120 = 0 := h
    refine ⟨k, ?_, ?_, ?_, rfl, rfl, rfl, rfl, rfl, rfl, rfl⟩
    · rw [he, k, envOf_eq]
    · rw [hl, r]
    · simp

theorem spike_spec (sp : List ℕ) (m : ℕ) (s : Ms) :
    (spike sp m s).counter = s.counter ∧ (spike sp m s).env = s.env ∧ (spike sp m s).net = s.net ∧ (spike sp m s).processed = s.processed ∧
    (spike sp m s).skipped = s.skipped ∧ (spike sp m s).corrected = s.corrected ∧ (spike sp m s).uncorrected = s.uncorrected ∧
    (spike sp m s).envLog = s.envLog ∧ (spike sp m s).rows = s.rows ∧
    (spike sp m s).prot = { s.prot with env := if inSpike sp m then .probe else if m > 0 ∧ (m - 1) % 120 ≠ 0 ∧ inSpike sp (m - 1) = true then s.env else s.prot.env } ∧
    (spike sp m s).events = s.events ++ (if inSpike sp m then [(m, .spike)] else if m > 0 ∧ (m - 1) % 120 ≠ 0 ∧ inSpike sp (m - 1) = true then [(m, .ended)] else []) := by
  unfold spike
  split_ifs <;> simp_all

/-- One minute. -/
theorem minute_step (w : World) (n : Net) (hn : n.Sized) (hv : ∀ d ∈ w.valid, d.1.length = n.inp) (k : ℕ) (hk : k < minutes) (s : Ms) (h : Inv w n k s) :
    ∃ s', minute w k s = some s' ∧ Inv w n (k + 1) s' ∧
      s'.prot.env = (if inSpike w.spikes k then .probe else if k % 120 = 0 then scheduled k
        else if k > 0 ∧ (k - 1) % 120 ≠ 0 ∧ inSpike w.spikes (k - 1) = true then scheduled k else s.prot.env) ∧
      s'.events.filter (·.2 ≠ .skipped) = s.events.filter (·.2 ≠ .skipped) ++
        (if inSpike w.spikes k then [(k, .spike)] else if k > 0 ∧ (k - 1) % 120 ≠ 0 ∧ inSpike w.spikes (k - 1) = true then [(k, .ended)] else []) := by
  have hk' : k < 2880 := hk
  obtain ⟨c1, c2, c3, c4, c5, c6, c7, c8, c9, c10, c11⟩ := change_spec k s h.counter h.env h.log
  obtain ⟨p1, p2, p3, p4, p5, p6, p7, p8, p9, p10, p11⟩ := spike_spec w.spikes k (change k s)
  have t0 : Tr w n (3 * k) (spike w.spikes k (change k s)) := by
    obtain ⟨a, b, c, d⟩ := h.tr
    refine ⟨by rw [p4, c6, a], by rw [p3, c5, b], by rw [p5, c7, c], ?_⟩
    rw [p11, c10, List.filter_append, List.length_append, d, p5, c7]
    split_ifs <;> simp
  obtain ⟨⟨a1, a2, a3, a4⟩, s1, s2, s3, s4, s5, s6, s7, s8⟩ := train_step w n hn k (3 * k) (by omega) _ t0
  have ev : (train w k (spike w.spikes k (change k s))).events.filter (·.2 ≠ .skipped) = s.events.filter (·.2 ≠ .skipped) ++
        (if inSpike w.spikes k then [(k, .spike)] else if k > 0 ∧ (k - 1) % 120 ≠ 0 ∧ inSpike w.spikes (k - 1) = true then [(k, .ended)] else []) := by
    rw [s8, p11, List.filter_append, c10]
    congr 1
    split_ifs <;> simp
  have spl : ∀ l : List (ℕ × Ev), l.filter (·.2 = .spike) = (l.filter (·.2 ≠ .skipped)).filter (·.2 = .spike) := by
    intro l
    rw [List.filter_filter]
    congr 1
    funext x
    cases x.2 <;> simp
  have evs : (((train w k (spike w.spikes k (change k s))).events.filter (·.2 = .spike)).map (·.1)) = (List.range (k + 1)).filter (inSpike w.spikes) := by
    rw [spl, ev, List.filter_append, ← spl, List.map_append, h.spikes, List.range_succ, List.filter_append]
    congr 1
    split_ifs <;> simp_all
  have tz := trained_sized w n hn (3 * k + 3)
  have hv' : ∀ d ∈ w.valid, d.1.length = (trained w n (3 * k + 3)).inp := fun d hd => by rw [tz.2]; exact hv d hd
  have penv : (train w k (spike w.spikes k (change k s))).prot.env = (if inSpike w.spikes k then .probe else if k % 120 = 0 then scheduled k
        else if k > 0 ∧ (k - 1) % 120 ≠ 0 ∧ inSpike w.spikes (k - 1) = true then scheduled k else s.prot.env) := by
    rw [s3, p10, c2, c4]
    dsimp only
    split_ifs <;> rfl
  have plev : (train w k (spike w.spikes k (change k s))).prot.level = .moderate ∧ (train w k (spike w.spikes k (change k s))).prot.detected = s.prot.detected ∧
      (train w k (spike w.spikes k (change k s))).prot.corrected = s.prot.corrected := by
    rw [s3, p10, c4]
    exact ⟨h.level, rfl, rfl⟩
  rw [p1, c1] at s1
  rw [p2, c2] at s2
  rw [p6, c8] at s4
  rw [p7, c9] at s5
  rw [p8, c3] at s6
  rw [p9, c11] at s7
  unfold minute
  generalize train w k (spike w.spikes k (change k s)) = t at *
  -- validation
  obtain ⟨q1, hq1, -, -⟩ := C351_accuracy (trained w n (3 * k + 3)) w.valid hv' t.prot
  have b1 := accuracy_prot _ _ _ _ hq1
  have V : ∃ v, validate w k t = some v ∧ v.counter = t.counter ∧ v.env = t.env ∧ v.envLog = t.envLog ∧ v.rows = t.rows ∧ v.events = t.events ∧ v.net = t.net ∧ v.processed = t.processed ∧
      v.skipped = t.skipped ∧ v.prot.env = t.prot.env ∧ v.prot.level = t.prot.level ∧ v.prot.corrected ≤ v.prot.detected ∧
      v.prot.detected ≤ ((k + 1 + 19) / 20 + (k + 59) / 60) * w.valid.length ∧ v.corrected + v.uncorrected ≤ v.prot.detected ∧
      (k % 20 = 0 → v.corrected + v.uncorrected = v.prot.detected) := by
    have ho := h.order
    have hb := h.bound
    have hs := h.sums
    unfold validate
    split_ifs with z
    · rw [a2, hq1, Option.bind_some]
      refine ⟨_, rfl, rfl, rfl, rfl, rfl, rfl, a2.symm ▸ rfl, rfl, rfl, b1.2.1, b1.1, ?_, ?_, ?_, ?_⟩
      · dsimp only at b1 ⊢; omega
      · dsimp only at b1 ⊢
        have r : (k + 1 + 19) / 20 + (k + 59) / 60 = ((k + 19) / 20 + (k + 59) / 60) + 1 := by omega
        rw [r, Nat.add_mul, one_mul]
        omega
      · dsimp only at b1 ⊢; omega
      · intro _; dsimp only at b1 ⊢; omega
    · have r : (k + 1 + 19) / 20 = (k + 19) / 20 := by omega
      refine ⟨_, rfl, rfl, rfl, rfl, rfl, rfl, rfl, rfl, rfl, rfl, rfl, ?_, ?_, ?_, fun y => absurd y z⟩
      · omega
      · rw [r]; omega
      · omega
  obtain ⟨v, v0, v1, v2, v3, v4, v5, v6, v7, v8, v9, v10, v11, v12, v13, v14⟩ := V
  rw [v0, Option.bind_some]
  -- checkpoint
  obtain ⟨q2, hq2, -, -⟩ := C351_accuracy (trained w n (3 * k + 3)) w.valid hv' v.prot
  have b2 := accuracy_prot _ _ _ _ hq2
  dsimp only at b2
  have cnt : ((if k + 1 = 0 then 0 else ((k + 1 - 1) / 120 + 1) % 6) : ℕ) = (k / 120 + 1) % 6 := by rw [if_neg (by omega), Nat.add_sub_cancel]
  unfold checkpoint
  by_cases z : k % (1 * 60) = 0
  · rw [if_pos z, v6, a2, hq2, Option.bind_some]
    have z' : k % 60 = 0 := z
    have r60 : (k + 1 + 59) / 60 = (k + 59) / 60 + 1 := by omega
    refine ⟨_, rfl, ⟨⟨by dsimp only; rw [v7, a1]; omega, by dsimp only; rfl, by dsimp only; rw [v8, a3]; rfl, by dsimp only; rw [v5, v8]; exact a4⟩, ?_, ?_, ?_, ?_, ?_, ?_, ?_, ?_, ?_, ?_⟩, ?_, ?_⟩
    · dsimp only; rw [v1, s1, cnt]
    · dsimp only; rw [v2, s2, v1, s1, envOf_eq]
    · dsimp only; rw [b2.1, v10, plev.1]
    · dsimp only; rw [v3, s6]
    · dsimp only; rw [v5]; exact evs
    · dsimp only; rw [v4, s7, List.length_append, h.count, r60]; rfl
    · dsimp only
      intro j r hr
      rw [v4, s7] at hr
      rcases Nat.lt_or_ge j s.rows.length with g | g
      · rw [List.getElem?_append_left g] at hr
        exact h.row j r hr
      · rw [List.getElem?_append_right g] at hr
        have g1 : j - s.rows.length = 0 := by
          by_contra g2
          rw [List.getElem?_eq_none (by simp; omega)] at hr
          simp at hr
        have hj : j = k / 60 := by rw [h.count] at g1 g; omega
        have hk60 : k = 60 * j := by omega
        rw [g1] at hr
        simp only [List.getElem?_cons_zero, Option.some.injEq] at hr
        subst hr
        have e3 : 180 * j + 3 = 3 * k + 3 := by omega
        unfold RowOf
        rw [e3]
        refine ⟨rfl, ?_, ?_, ?_, ?_, ?_⟩
        · dsimp only; rw [v7, a1, if_pos (by omega)]
        · dsimp only
          refine v13.trans (v12.trans (Nat.mul_le_mul_right _ ?_))
          omega
        · dsimp only; rw [v8, a3]
        · dsimp only; rw [v7, a1]; ring
        · dsimp only; rw [v1, s1, ← hk60, show k / 120 = j / 2 by omega]
    · dsimp only; omega
    · dsimp only
      rw [r60, ← Nat.add_assoc, Nat.add_mul, one_mul]
      omega
    · dsimp only; omega
    · refine Eq.trans ?_ penv; exact b2.2.1.trans v9
    · dsimp only; rw [v5]; exact ev
  · rw [if_neg z]
    have z' : ¬ k % 60 = 0 := z
    have r60 : (k + 1 + 59) / 60 = (k + 59) / 60 := by omega
    refine ⟨_, rfl, ⟨⟨by rw [v7, a1]; omega, by rw [v6, a2]; rfl, by rw [v8, a3]; rfl, by rw [v5, v8]; exact a4⟩, ?_, ?_, ?_, ?_, ?_, ?_, ?_, ?_, ?_, ?_⟩, ?_, ?_⟩
    · rw [v1, s1, cnt]
    · rw [v2, s2, v1, s1, envOf_eq]
    · rw [v10, plev.1]
    · rw [v3, s6]
    · rw [v5]; exact evs
    · rw [v4, s7, h.count, r60]
    · rw [v4, s7]; exact h.row
    · exact v11
    · rw [r60]; exact v12
    · exact v13
    · exact v9.trans penv
    · rw [v5]; exact ev

theorem mission_inv (w : World) (n : Net) (gen : ℕ → ℝ) (hn : n.Sized) (hv : ∀ d ∈ w.valid, d.1.length = n.inp) (k : ℕ) (hk : k ≤ minutes) :
    ∃ s, mission w n gen k = some s ∧ Inv w n k s := by
  induction k with
  | zero =>
    refine ⟨start n gen, rfl, ⟨⟨rfl, rfl, rfl, rfl⟩, rfl, rfl, rfl, rfl, rfl, rfl, ?_, le_rfl, Nat.zero_le _, le_rfl⟩⟩
    intro h r hr
    simp [start] at hr
  | succ k ih =>
    obtain ⟨s, h1, h2⟩ := ih (by omega)
    obtain ⟨s', h3, h4, -⟩ := minute_step w n hn hv k (by omega) s h2
    exact ⟨s', by rw [mission, h1, Option.bind_some, h3], h4⟩

/-! ### C352: samples -/

/-- C352: with data of the right size the mission never stops early; after `k` minutes, for every `k` up to the end, three samples a minute have been taken from the training data, the skipped ones are exactly the corrupted ones among them and each has its entry in the log. At the end 8640 of the 10000 samples have been taken. -/
theorem C352_samples (w : World) (n : Net) (gen : ℕ → ℝ) (hn : n.Sized) (hv : ∀ d ∈ w.valid, d.1.length = n.inp) (k : ℕ) (hk : k ≤ minutes) :
    ∃ s, mission w n gen k = some s ∧ s.processed = 3 * k ∧ s.skipped = (List.range (3 * k)).countP w.corrupt ∧
      (s.events.filter (·.2 = .skipped)).length = s.skipped := by
  obtain ⟨s, h, i⟩ := mission_inv w n gen hn hv k hk
  exact ⟨s, h, i.tr.1, i.tr.2.2.1, i.tr.2.2.2⟩

/-- C352: the file of results claims 10000 minus the skipped samples as processed, 1360 more than the mission has left after its skipped ones, whatever was skipped after the last full hour; the skipped number it prints is that of minute 2820, not of the end. -/
theorem C352_file_violated (w : World) (n : Net) (gen : ℕ → ℝ) (hn : n.Sized) (hv : ∀ d ∈ w.valid, d.1.length = n.inp) :
    ∃ s r, mission w n gen minutes = some s ∧ s.rows.getLast? = some r ∧
      r.skipped = (List.range 8463).countP w.corrupt ∧ s.processed = 8640 ∧ fileProcessed r ≥ (s.processed - s.skipped : ℤ) + 1360 := by
  obtain ⟨s, h, i⟩ := mission_inv w n gen hn hv minutes le_rfl
  have hc : s.rows.length = 48 := i.count
  have hg : s.rows[47]? = some s.rows[47] := List.getElem?_eq_getElem (by omega)
  have hr := i.row 47 _ hg
  have hp : s.processed = 8640 := i.tr.1
  have hs : s.skipped = (List.range 8640).countP w.corrupt := i.tr.2.2.1
  have hk : s.rows[47].skipped = (List.range 8463).countP w.corrupt := hr.2.2.2.1
  refine ⟨s, s.rows[47], h, ?_, hk, hp, ?_⟩
  · have e47 : s.rows.length - 1 = 47 := by omega
    rw [List.getLast?_eq_getElem?]
    exact (congrArg (fun q => s.rows[q]?) e47).trans hg
  · have : (List.range 8463).countP w.corrupt ≤ (List.range 8640).countP w.corrupt := by
      rw [List.countP_eq_length_filter, List.countP_eq_length_filter]
      exact (List.Sublist.filter _ (List.range_sublist.2 (by norm_num))).length_le
    unfold fileProcessed
    rw [hk, hp, hs]
    push_cast
    omega

/-! ### C353: environments -/

/-- C353: the environment scheduled after minute `m` is that of its two-hour slot in the cycle MEO, GEO, lunar, Mars, SAA, LEO, and the log has one entry for each slot begun, after the one for the start. -/
theorem C353_schedule (w : World) (n : Net) (gen : ℕ → ℝ) (hn : n.Sized) (hv : ∀ d ∈ w.valid, d.1.length = n.inp) (m : ℕ) (hm : m < minutes) :
    ∃ s, mission w n gen (m + 1) = some s ∧ s.env = [Environment.meo, .geo, .lunar, .mars, .saa, .leo].getD (m / 120 % 6) .leo ∧
      s.envLog = (0, .leo) :: (List.range (m / 120 + 1)).map fun j => (120 * j, scheduled (120 * j)) := by
  obtain ⟨s, h, i⟩ := mission_inv w n gen hn hv (m + 1) hm
  refine ⟨s, h, ?_, ?_⟩
  · rw [i.env, i.counter, if_neg (by omega), Nat.add_sub_cancel, envOf_eq]
    unfold scheduled
    have e : (m / 120 + 1) % 6 = (m / 120 % 6 + 1) % 6 := by omega
    rw [e]
    have : m / 120 % 6 < 6 := Nat.mod_lt _ (by norm_num)
    interval_cases m / 120 % 6 <;> rfl
  · rw [i.log, show (m + 1 + 119) / 120 = m / 120 + 1 by omega]

/-- C353: the mission that its log says has started in low Earth orbit never computes anything there before minute 600: its first minute already belongs to medium Earth orbit. -/
theorem C353_start_violated (w : World) (n : Net) (gen : ℕ → ℝ) (hn : n.Sized) (hv : ∀ d ∈ w.valid, d.1.length = n.inp) (m : ℕ) (hm : m < 600) :
    ∃ s, mission w n gen (m + 1) = some s ∧ s.envLog.head? = some (0, .leo) ∧ s.env ≠ .leo := by
  obtain ⟨s, h, e, l⟩ := C353_schedule w n gen hn hv m (by unfold minutes; omega)
  refine ⟨s, h, by rw [l]; rfl, ?_⟩
  rw [e]
  have : m / 120 < 5 := by omega
  rw [Nat.mod_eq_of_lt (by omega)]
  interval_cases m / 120 <;> simp

/-- C353: the protection works with the environment of the deep-space probe during a spike and with the scheduled one otherwise, if no spike has its last minute at the beginning of a slot. -/
theorem C353_protection_partial (w : World) (n : Net) (gen : ℕ → ℝ) (hn : n.Sized) (hv : ∀ d ∈ w.valid, d.1.length = n.inp)
    (hs : ∀ j, inSpike w.spikes j = true → inSpike w.spikes (j + 1) = false → j % 120 ≠ 0) (m : ℕ) (hm : m < minutes) :
    ∃ s, mission w n gen (m + 1) = some s ∧ s.prot.env = if inSpike w.spikes m then .probe else scheduled m := by
  induction m with
  | zero =>
    obtain ⟨s, h, i⟩ := mission_inv w n gen hn hv 0 (by omega)
    obtain ⟨s', h', -, e, -⟩ := minute_step w n hn hv 0 hm s i
    refine ⟨s', by rw [mission, h, Option.bind_some, h'], ?_⟩
    rw [e]
    split_ifs <;> simp_all
  | succ m ih =>
    obtain ⟨s, h, i⟩ := mission_inv w n gen hn hv (m + 1) (by omega)
    obtain ⟨s', h', -, e, -⟩ := minute_step w n hn hv (m + 1) hm s i
    refine ⟨s', by rw [mission, h, Option.bind_some, h'], ?_⟩
    obtain ⟨t, ht, hp⟩ := ih (by omega)
    rw [h, Option.some.injEq] at ht
    subst ht
    rw [e]
    simp only [Nat.add_sub_cancel]
    by_cases a : inSpike w.spikes (m + 1) = true
    · rw [if_pos a, if_pos a]
    · rw [if_neg a, if_neg a]
      by_cases b : (m + 1) % 120 = 0
      · rw [if_pos b]
      · rw [if_neg b]
        by_cases c : inSpike w.spikes m = true
        · rw [if_pos ⟨by omega, hs m c (by simpa using a), c⟩]
        · rw [if_neg (fun x => c x.2.2), hp, if_neg c]
          unfold scheduled
          rw [show (m + 1) / 120 = m / 120 by omega]

/-- The spikes of the program end in time, for instance, when there is a single one not beginning 29 minutes before a slot. -/
example : ∀ j, inSpike [100] j = true → inSpike [100] (j + 1) = false → j % 120 ≠ 0 := by
  intro j
  simp [inSpike]
  omega

/-- C353: a spike whose last minute is the first of a slot is never ended: after the spike of minutes 91 to 120 the protection goes on with the probe's environment until minute 239, whatever else happens. -/
theorem C353_stuck_violated (w : World) (n : Net) (gen : ℕ → ℝ) (hn : n.Sized) (hv : ∀ d ∈ w.valid, d.1.length = n.inp) (hw : w.spikes = [91])
    (m : ℕ) (h1 : 121 ≤ m) (h2 : m ≤ 239) :
    ∃ s, mission w n gen (m + 1) = some s ∧ inSpike w.spikes m = false ∧ s.prot.env = .probe ∧ s.env = .geo ∧ (m, Ev.ended) ∉ s.events := by
  have key : ∀ d, d ≤ 119 → ∃ s, mission w n gen (120 + d + 1) = some s ∧ s.prot.env = .probe := by
    intro d hd
    induction d with
    | zero =>
      obtain ⟨s, h, i⟩ := mission_inv w n gen hn hv 120 (by unfold minutes; omega)
      obtain ⟨s', h', -, e, -⟩ := minute_step w n hn hv 120 (by unfold minutes; omega) s i
      refine ⟨s', by rw [mission, h, Option.bind_some, h'], ?_⟩
      rw [e, hw]
      rfl
    | succ d ih =>
      obtain ⟨s, h, hp⟩ := ih (by omega)
      obtain ⟨t, ht, i⟩ := mission_inv w n gen hn hv (120 + d + 1) (by unfold minutes; omega)
      rw [h, Option.some.injEq] at ht
      subst ht
      obtain ⟨s', h', -, e, -⟩ := minute_step w n hn hv (120 + d + 1) (by unfold minutes; omega) s i
      refine ⟨s', by rw [show 120 + (d + 1) + 1 = (120 + d + 1) + 1 by omega, mission, h, Option.bind_some, h'], ?_⟩
      have a : ¬ inSpike w.spikes (120 + d + 1) = true := by rw [hw]; simp [inSpike]
      rw [e, if_neg a, if_neg (by omega), if_neg, hp]
      rintro ⟨-, x, y⟩
      rw [hw] at y
      simp [inSpike] at y
      omega
  have noend : ∀ k, k ≤ 240 → ∀ s, mission w n gen k = some s → ∀ e ∈ s.events, e.2 ≠ .ended := by
    intro k
    induction k with
    | zero => intro _ s hs e he; simp only [mission, Option.some.injEq] at hs; subst hs; simp [start] at he
    | succ k ih =>
      intro hk s' hs' e he
      obtain ⟨s, h, i⟩ := mission_inv w n gen hn hv k (by unfold minutes; omega)
      obtain ⟨s'', h', -, -, ev⟩ := minute_step w n hn hv k (by unfold minutes; omega) s i
      rw [mission, h, Option.bind_some, h', Option.some.injEq] at hs'
      subst hs'
      intro q
      have m1 : e ∈ s''.events.filter (·.2 ≠ .skipped) := by
        rw [List.mem_filter]; exact ⟨he, by simp [q]⟩
      rw [ev, List.mem_append] at m1
      rcases m1 with m1 | m1
      · exact ih (by omega) s h e (List.mem_of_mem_filter m1) q
      · split_ifs at m1 with y z
        · simp only [List.mem_singleton] at m1
          subst m1; simp at q
        · obtain ⟨-, z2, z3⟩ := z
          rw [hw] at z3 y
          simp [inSpike] at z3 y
          omega
        · simp at m1
  obtain ⟨s, h, hp⟩ := key (m - 120) (by omega)
  rw [show 120 + (m - 120) + 1 = m + 1 by omega] at h
  obtain ⟨t, ht, he, -⟩ := C353_schedule w n gen hn hv m (by unfold minutes; omega)
  rw [h, Option.some.injEq] at ht
  subst ht
  refine ⟨s, h, by rw [hw]; simp [inSpike]; omega, hp, ?_, fun q => noend (m + 1) (by omega) s h _ q rfl⟩
  rw [he, show m / 120 = 1 by omega]
  rfl

/-! ### C354: logs and overhead -/

/-- C354: a spike is announced in every minute it lasts: the entries of spikes are one for each minute of the mission within a spike, so a single spike of 30 minutes has 30 of them. -/
theorem C354_spike_violated (w : World) (n : Net) (gen : ℕ → ℝ) (hn : n.Sized) (hv : ∀ d ∈ w.valid, d.1.length = n.inp) :
    (∀ k, k ≤ minutes → ∃ s, mission w n gen k = some s ∧ (s.events.filter (·.2 = .spike)).map (·.1) = (List.range k).filter (inSpike w.spikes)) ∧
    (w.spikes = [100] → ∃ s, mission w n gen minutes = some s ∧ (s.events.filter (·.2 = .spike)).length = 30) := by
  have key : ∀ k, k ≤ minutes → ∃ s, mission w n gen k = some s ∧ (s.events.filter (·.2 = .spike)).map (·.1) = (List.range k).filter (inSpike w.spikes) := by
    intro k hk
    obtain ⟨s, h, i⟩ := mission_inv w n gen hn hv k hk
    exact ⟨s, h, i.spikes⟩
  refine ⟨key, fun hw => ?_⟩
  obtain ⟨s, h, e⟩ := key minutes le_rfl
  refine ⟨s, h, ?_⟩
  rw [← List.length_map (f := (·.1)), e, hw, ← List.countP_eq_length_filter]
  have split3 : ∀ a b c : ℕ, List.range (a + (b + c)) = List.range a ++ ((List.range b).map (a + ·) ++ (List.range c).map (a + b + ·)) := by
    intro a b c
    rw [List.range_add, List.range_add, List.map_append, List.map_map]
    have f : ((fun x => a + x) ∘ fun x => b + x) = fun x => a + b + x := by
      funext x
      simp only [Function.comp]
      omega
    rw [f]
  have this : List.range minutes = List.range 100 ++ ((List.range 30).map (100 + ·) ++ (List.range 2750).map (100 + 30 + ·)) := split3 100 30 2750
  rw [this, List.countP_append, List.countP_append, List.countP_map, List.countP_map]
  have a : (List.range 100).countP (inSpike [100]) = 0 := by
    rw [List.countP_eq_zero]
    intro x hx
    have := List.mem_range.1 hx
    simp [inSpike]; omega
  have b : (List.range 30).countP (inSpike [100] ∘ (100 + ·)) = 30 := by decide
  have c : (List.range 2750).countP (inSpike [100] ∘ (100 + 30 + ·)) = 0 := by
    rw [List.countP_eq_zero]
    intro x hx
    simp [inSpike]
  rw [a, b, c]

/-- C354: the level of protection stays moderate throughout, whatever the environment and the spikes, and with it the overhead of an execution at 50; the overhead reported is that of a table by environment, 200 in a spike. -/
theorem C354_overhead_violated (w : World) (n : Net) (gen : ℕ → ℝ) (hn : n.Sized) (hv : ∀ d ∈ w.valid, d.1.length = n.inp) (k : ℕ) (hk : k ≤ minutes) :
    ∃ s, mission w n gen k = some s ∧ s.prot.level = .moderate ∧ overhead s.prot.level = 50 ∧ s.rows.length = (k + 59) / 60 ∧
      ∀ h r, s.rows[h]? = some r → r.overhead = if inSpike w.spikes (60 * h) then 200 else [(50 : ℝ), 75, 100, 100, 200, 25].getD (h / 2 % 6) 0 := by
  obtain ⟨s, h, i⟩ := mission_inv w n gen hn hv k hk
  refine ⟨s, h, i.level, by rw [i.level]; rfl, i.count, fun j r hr => ?_⟩
  rw [(i.row j r hr).2.2.2.2.2]
  unfold reported
  split_ifs
  · rfl
  · have e : (j / 2 + 1) % 6 = (j / 2 % 6 + 1) % 6 := by omega
    rw [e]
    have : j / 2 % 6 < 6 := Nat.mod_lt _ (by norm_num)
    interval_cases j / 2 % 6 <;> rfl

/-! ### C355: what the mission measures -/

/-- C355: radiation has no effect on anything but the counts of errors: the network after `k` minutes is that trained on the first `3 k` samples without the corrupted ones, and the accuracy reported for hour `h` is the share of the validation data that the network trained on `180 h + 3` samples classifies right. Neither mentions the random numbers of the protection or the spikes. -/
theorem C355_radiation_violated (w : World) (n : Net) (gen : ℕ → ℝ) (hn : n.Sized) (hv : ∀ d ∈ w.valid, d.1.length = n.inp) (k : ℕ) (hk : k ≤ minutes) :
    ∃ s, mission w n gen k = some s ∧ s.net = trained w n (3 * k) ∧
      ∀ h r, s.rows[h]? = some r → r.accuracy = (rights (trained w n (180 * h + 3)) w.valid : ℝ) / w.valid.length ∧ 0 ≤ r.accuracy ∧ r.accuracy ≤ 1 := by
  obtain ⟨s, h, i⟩ := mission_inv w n gen hn hv k hk
  refine ⟨s, h, i.tr.2.1, fun j r hr => ?_⟩
  have e := (i.row j r hr).1
  have hv' : ∀ d ∈ w.valid, d.1.length = (trained w n (180 * j + 3)).inp := fun d hd => by rw [(trained_sized w n hn _).2]; exact hv d hd
  obtain ⟨q, -, b⟩ := C351_accuracy (trained w n (180 * j + 3)) w.valid hv' ⟨.none, .leo, 0, 0, gen⟩
  rw [e]
  exact ⟨rfl, b⟩

/-- C355: two missions with the same network, data and corrupted samples report the same accuracies, skipped samples and utilisation, however their spikes and random numbers differ. -/
theorem C355_same_violated (w w' : World) (n : Net) (gen gen' : ℕ → ℝ) (hn : n.Sized) (hv : ∀ d ∈ w.valid, d.1.length = n.inp)
    (h1 : w'.trainX = w.trainX) (h2 : w'.trainT = w.trainT) (h3 : w'.valid = w.valid) (h4 : w'.corrupt = w.corrupt) :
    ∃ s s', mission w n gen minutes = some s ∧ mission w' n gen' minutes = some s' ∧ s.rows.length = 48 ∧ s'.rows.length = 48 ∧
      ∀ (h : ℕ) r r', s.rows[h]? = some r → s'.rows[h]? = some r' → r.accuracy = r'.accuracy ∧ r.skipped = r'.skipped ∧ r.util = r'.util := by
  have t : ∀ j, trained w' n j = trained w n j := by
    intro j
    induction j with
    | zero => rfl
    | succ j ih => rw [trained, trained, ih, h1, h2, h4]
  obtain ⟨s, a, i⟩ := mission_inv w n gen hn hv minutes le_rfl
  obtain ⟨s', a', i'⟩ := mission_inv w' n gen' hn (by rw [h3]; exact hv) minutes le_rfl
  refine ⟨s, s', a, a', i.count, i'.count, fun h r r' hr hr' => ?_⟩
  have x := i.row h r hr
  have y := i'.row h r' hr'
  refine ⟨?_, ?_, ?_⟩
  · rw [x.1, y.1, t, h3]
  · rw [x.2.2.2.1, y.2.2.2.1, h4]
  · rw [x.2.2.2.2.1, y.2.2.2.2.1]

/-- C355: the errors reported for hour `h` are at most one for each validation datum in each of the `4 h + 1` inferences made up to then, and the reported rate divides them by the number of training samples, to which they have nothing to do. -/
theorem C355_rate (w : World) (n : Net) (gen : ℕ → ℝ) (hn : n.Sized) (hv : ∀ d ∈ w.valid, d.1.length = n.inp) (k : ℕ) (hk : k ≤ minutes) :
    ∃ s, mission w n gen k = some s ∧ ∀ h r, s.rows[h]? = some r →
      r.corrected + r.uncorrected ≤ (4 * h + 1) * w.valid.length ∧ r.errorRate = ((r.corrected + r.uncorrected : ℕ) : ℝ) / (180 * h + 3 : ℕ) := by
  obtain ⟨s, h, i⟩ := mission_inv w n gen hn hv k hk
  exact ⟨s, h, fun j r hr => ⟨(i.row j r hr).2.2.1, (i.row j r hr).2.1⟩⟩

theorem score_all (n : Net) (ds : List (List ℝ × List ℝ)) (p : Prot) (hg : ∀ i, p.gen i = 0) (c : ℕ) (r : ℕ × Prot)
    (h : score n p ds c = some r) : r.2.detected = p.detected + ds.length := by
  induction ds generalizing p c with
  | nil =>
    simp only [score, Option.some.injEq] at h
    subst h
    rfl
  | cons d ds ih =>
    have x := C350_exec p (n.output d.1)
    have hd : (p.exec (n.output d.1)).1.detected = true := x.2.1.2 (by rw [hg]; exact (C350_tables.2.1 p.env).1)
    unfold score Net.forward at h
    split_ifs at h with hx
    · simp at h
    · rw [Option.bind_some] at h
      have := ih (p.exec (n.output d.1)).2 (fun i => by rw [x.2.2.2.2.2.2.2]; exact hg _) _ h
      rw [this, x.2.2.2.1, hd, List.length_cons, if_pos rfl]
      omega

/-- C355: the reported error rate is no rate of anything: when every inference is hit, the row of the first minute divides the number of validation data, 500 in the program, by the three samples of that minute, so the rate exceeds 1 for any four data. -/
theorem C355_rate_violated (w : World) (n : Net) (hn : n.Sized) (hv : ∀ d ∈ w.valid, d.1.length = n.inp) (h4 : 4 ≤ w.valid.length) :
    ∃ s r, mission w n (fun _ => 0) 1 = some s ∧ s.rows = [r] ∧ r.errorRate = (w.valid.length : ℝ) / 3 ∧ 1 < r.errorRate := by
  obtain ⟨s, h, i⟩ := mission_inv w n (fun _ => 0) hn hv 1 (by unfold minutes; omega)
  obtain ⟨r, hr⟩ : ∃ r, s.rows = [r] := List.length_eq_one_iff.1 i.count
  have e := (i.row 0 r (by rw [hr]; rfl)).2.1
  have c : r.corrected + r.uncorrected = w.valid.length := by
    rw [mission, mission, Option.bind_some] at h
    unfold minute at h
    obtain ⟨v, hv1, hv2⟩ := Option.bind_eq_some_iff.1 h
    have t0 : Tr w n 0 (spike w.spikes 0 (change 0 (start n fun _ => 0))) := by
      obtain ⟨c1, c2, c3, c4, c5, c6, c7, c8, c9, c10, c11⟩ := change_spec 0 (start n fun _ => 0) rfl rfl rfl
      obtain ⟨p1, p2, p3, p4, p5, p6, p7, p8, p9, p10, p11⟩ := spike_spec w.spikes 0 (change 0 (start n fun _ => 0))
      refine ⟨by rw [p4, c6]; rfl, by rw [p3, c5]; rfl, by rw [p5, c7]; rfl, ?_⟩
      rw [p11, c10, p5, c7]
      simp [start]
    have pr : (train w 0 (spike w.spikes 0 (change 0 (start n fun _ => 0)))).prot.detected = 0 ∧ (∀ i, (train w 0 (spike w.spikes 0 (change 0 (start n fun _ => 0)))).prot.gen i = 0) ∧
        (train w 0 (spike w.spikes 0 (change 0 (start n fun _ => 0)))).prot.corrected = 0 ∧ (train w 0 (spike w.spikes 0 (change 0 (start n fun _ => 0)))).rows = [] := by
      have q := (train_step w n hn 0 0 (by norm_num) _ t0).2
      have c4 := (change_spec 0 (start n fun _ => 0) rfl rfl rfl)
      have p := spike_spec w.spikes 0 (change 0 (start n fun _ => 0))
      have e1 := q.2.2.1
      rw [p.2.2.2.2.2.2.2.2.2.1, c4.2.2.2.1] at e1
      refine ⟨by rw [e1]; rfl, by rw [e1]; exact fun _ => rfl, by rw [e1]; rfl, ?_⟩
      rw [q.2.2.2.2.2.2.1, p.2.2.2.2.2.2.2.2.1, c4.2.2.2.2.2.2.2.2.2.2]
      rfl
    generalize train w 0 (spike w.spikes 0 (change 0 (start n fun _ => 0))) = t at *
    unfold validate at hv1
    rw [if_pos (by norm_num)] at hv1
    obtain ⟨a, ha1, ha2⟩ := Option.bind_eq_some_iff.1 hv1
    simp only [Option.some.injEq] at ha2
    have bp := accuracy_prot _ _ _ _ ha1
    have da : a.2.detected = w.valid.length := by
      unfold accuracy at ha1
      rw [if_neg (by intro z; rw [z] at h4; simp at h4)] at ha1
      obtain ⟨b, hb1, hb2⟩ := Option.bind_eq_some_iff.1 ha1
      simp only [Option.some.injEq] at hb2
      subst hb2
      have := score_all _ _ _ pr.2.1 0 b hb1
      rw [pr.1] at this
      simpa using this
    unfold checkpoint at hv2
    rw [if_pos (by norm_num)] at hv2
    obtain ⟨b, hb1, hb2⟩ := Option.bind_eq_some_iff.1 hv2
    simp only [Option.some.injEq] at hb2
    rw [← hb2, ← ha2] at hr
    dsimp only at hr
    rw [pr.2.2.2, List.nil_append, List.cons.injEq] at hr
    rw [← hr.1]
    dsimp only
    rw [da]
    have := bp.2.2.2.2.2
    rw [pr.1, pr.2.2.1] at this
    omega
  refine ⟨s, r, h, hr, ?_, ?_⟩
  · rw [e, c]; norm_num
  · rw [e, c]
    have : (4 : ℝ) ≤ w.valid.length := by exact_mod_cast h4
    norm_num
    rw [lt_div_iff₀ (by norm_num)]
    linarith

/-- The data of the program have the right size. -/
example : ∃ (w : World) (n : Net), n.Sized ∧ 4 ≤ w.valid.length ∧ (∀ d ∈ w.valid, d.1.length = n.inp) ∧ w.spikes = [91] :=
  ⟨⟨fun _ => [0], fun _ => [0, 1], List.replicate 500 ([1], [1, 0]), [91], fun _ => false, fun _ _ => 0⟩, ⟨1, 1, 2, [1], [1, 2], [0, 0, 0]⟩, ⟨rfl, rfl, rfl⟩, by rw [List.length_replicate]; omega, fun d hd => by rw [List.eq_of_mem_replicate hd]; rfl, rfl⟩

end Verif.Props.MissionCrit
