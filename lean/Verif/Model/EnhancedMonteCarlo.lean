import Verif.Model.MonteCarlo
import Verif.Model.PyMethods
import Mathlib.Analysis.SpecialFunctions.Pow.Real
import Mathlib.Analysis.SpecialFunctions.Log.Base
import Mathlib.Data.List.Sort
/-!
# enhanced_monte_carlo.py

The comparison of the protection methods: trials, thresholds, table and recommendations (/repo/enhanced_monte_carlo.py). The methods are those of `Verif.PyMethods`, the channel, the
intervals and the threshold those of `Verif.MonteCarlo` (the code of enhanced_monte_carlo.py:76-123 is that of rs_monte_carlo.py again). Python floats of rates are real numbers. A trial brings the
binary32 value packed for its weight, the test whether a value is within 1e-6 of the weight, and the draws. Plots, progress bars and the wording of the files are not modelled.
-/
namespace Verif.EnhMC
open Classical

/-- A trial (enhanced_monte_carlo.py:52-69). -/
structure Trial where
  v : PyMethods.Value
  near : PyMethods.Value → Bool
  draws : ℕ → ℝ

/-- Whether one trial succeeds (enhanced_monte_carlo.py:57-69); `none`: an exception. -/
noncomputable def trialOk (m : PyMethods.Method) (rate : ℝ) (t : Trial) : Option Bool :=
  (m.recover (MonteCarlo.applyErrors (m.protect t.v) rate t.draws)).map fun r => r.2 && t.near r.1

/-- The number of successes of all trials of a rate (enhanced_monte_carlo.py:49-69). -/
noncomputable def successes (m : PyMethods.Method) (rate : ℝ) : List Trial → Option ℕ
  | [] => some 0
  | t :: ts => match trialOk m rate t with
    | none => none
    | some b => match successes m rate ts with
      | none => none
      | some k => some (k + if b then 1 else 0)

/-- `success_rate` and `confidence_interval` (enhanced_monte_carlo.py:71-100); `none`: an exception, `ZeroDivisionError` without trials. -/
noncomputable def rateRow (m : PyMethods.Method) (rate : ℝ) (ts : List Trial) : Option (ℝ × ℝ × ℝ) :=
  match successes m rate ts with
  | none => none
  | some k =>
    if ts.length = 0 then none else
    let p : ℝ := (k : ℝ) / ts.length
    some (p, MonteCarlo.interval ts.length p)

/-- The dictionary of results (enhanced_monte_carlo.py:41-47, 123-125). -/
structure Result where
  method : String
  overhead : ℝ
  rates : List ℝ
  success : List ℝ
  threshold : Option ℝ

/-- All rates of a method (enhanced_monte_carlo.py:49-100). -/
noncomputable def rows (m : PyMethods.Method) : List (ℝ × List Trial) → Option (List (ℝ × ℝ × ℝ))
  | [] => some []
  | r :: rs => match rateRow m r.1 r.2 with
    | none => none
    | some x => match rows m rs with
      | none => none
      | some xs => some (x :: xs)

/-- `run_monte_carlo_trials_for_method` (enhanced_monte_carlo.py:17-127) for the trials of each rate; `none`: an exception. -/
noncomputable def run (forney : List ℕ → List ℕ → List ℕ → Option (List ℕ × Bool)) (name : String) (rs : List (ℝ × List Trial)) : Option Result :=
  match PyMethods.create forney name with
  | none => none
  | some (m, o) => match rows m rs with
    | none => none
    | some xs => some ⟨name, (o : ℝ) / 64, rs.map (·.1), xs.map (·.1), MonteCarlo.threshold (rs.map (·.1)) (xs.map (·.1))⟩

/-! ### The table -/

/-- `np.logspace(np.log10(min), np.log10(max), n)` (enhanced_monte_carlo.py:599-602). -/
noncomputable def logspace (lo hi : ℝ) (n : ℕ) : List ℝ :=
  (List.range n).map fun k : ℕ => (10 : ℝ) ^ (Real.logb 10 lo + (k : ℝ) * ((Real.logb 10 hi - Real.logb 10 lo) / ((n : ℝ) - 1)))

/-- The three success rates of a row (enhanced_monte_carlo.py:241-252): a later rate overwrites an earlier one. -/
structure Cells where
  at01 : Option ℝ := none
  at1 : Option ℝ := none
  at5 : Option ℝ := none

/-- One turn of the loop (enhanced_monte_carlo.py:246-252). -/
noncomputable def cell (c : Cells) (x : ℝ × ℝ) : Cells :=
  if |x.1 - 1 / 1000| < 1 / 10000 then { c with at01 := some (x.2 * 100) }
  else if |x.1 - 1 / 100| < 1 / 10000 then { c with at1 := some (x.2 * 100) }
  else if |x.1 - 5 / 100| < 1 / 10000 then { c with at5 := some (x.2 * 100) }
  else c

/-- The loop (enhanced_monte_carlo.py:241-252). -/
noncomputable def cells (rates success : List ℝ) : Cells := (rates.zip success).foldl cell {}

/-- The order of the keys (enhanced_monte_carlo.py:273-275): numbers, then infinity for "N/A". `shown` is the number printed with three digits and read again. -/
def keyLE (shown : ℝ → ℝ) (a b : Result) : Prop :=
  match a.threshold, b.threshold with
  | some x, some y => shown x ≤ shown y
  | _, none => True
  | none, some _ => False

/-- The rows of the table in their order (enhanced_monte_carlo.py:254-275); `list.sort` is stable. -/
noncomputable def table (shown : ℝ → ℝ) (rs : List Result) : List Result := rs.insertionSort (keyLE shown)

/-! ### The recommendations -/

/-- `min(range(len(l)), key=…)` (enhanced_monte_carlo.py:352-355) on the distances: the first smallest; `none`: `ValueError` for an empty list. -/
noncomputable def closest (e : ℝ) : List ℝ → Option ℕ
  | [] => none
  | x :: xs => match closest e xs with
    | none => some 0
    | some i => if |x - e| ≤ |xs.getD i 0 - e| then some 0 else some (i + 1)

/-- `best_method`, `best_success`, `best_overhead`; `none` for the initial values None, -1, infinity (enhanced_monte_carlo.py:346-348). -/
structure Best where
  method : String
  success : ℝ
  overhead : ℝ

/-- One method (enhanced_monte_carlo.py:350-366); at the beginning every success rate is more than 0.05 above -1. -/
noncomputable def consider (best : Option Best) (r : Result) (i : ℕ) : Option Best :=
  let s := r.success.getD i 0
  match best with
  | none => if -1 + 5 / 100 < s ∨ |s - -1| < 5 / 100 then some ⟨r.method, s, r.overhead⟩ else none
  | some b => if b.success + 5 / 100 < s ∨ |s - b.success| < 5 / 100 ∧ r.overhead < b.overhead then some ⟨r.method, s, r.overhead⟩ else some b

/-- The recommendation for an environment with error rate `e` (enhanced_monte_carlo.py:345-372); outer `none`: an exception. -/
noncomputable def recommendFrom (e : ℝ) : Option Best → List Result → Option (Option Best)
  | b, [] => some b
  | b, r :: rs => match closest e r.rates with
    | none => none
    | some i => recommendFrom e (consider b r i) rs

/-- See `recommendFrom` (enhanced_monte_carlo.py:345-372). -/
noncomputable def recommend (e : ℝ) (rs : List Result) : Option (Option Best) := recommendFrom e none rs

end Verif.EnhMC
