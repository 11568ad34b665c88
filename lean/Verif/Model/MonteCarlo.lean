import Verif.Model.PyCodec
import Mathlib.Analysis.SpecialFunctions.Sqrt
/-!
The Monte Carlo experiment of /repo/rs_monte_carlo.py (lines 356-516, 673-694): the channel, the counters, the trials, the intervals and the threshold.

A draw of `np.random.random()` is an argument (a stream of real numbers). Python floats of rates and intervals are real numbers. A trial brings the four bytes
of its weight and, as a function, the test whether bytes are within 1e-6 of that weight (`False` also for the exception caught there).
-/
namespace Verif.MonteCarlo
open Classical

/-- One bit of `apply_bit_errors` (rs_monte_carlo.py:371-378): bit `b` of the new byte. -/
noncomputable def newBit (byte b : ℕ) (rate u : ℝ) : ℕ :=
  let v := (byte >>> b) &&& 1
  (if u < rate then 1 - v else v) <<< b

/-- The inner loop of `apply_bit_errors` (rs_monte_carlo.py:367-379). -/
noncomputable def newByte (byte : ℕ) (rate : ℝ) (u : ℕ → ℝ) : ℕ := forN 8 (fun b acc => acc ||| newBit byte b rate (u b)) 0

/-- `apply_bit_errors` (rs_monte_carlo.py:356-380). -/
noncomputable def applyErrors (data : List ℕ) (rate : ℝ) (u : ℕ → ℝ) : List ℕ :=
  (List.range data.length).map fun i => newByte (data.getD i 0) rate fun b => u (8 * i + b)

/-- `count_bit_errors` (rs_monte_carlo.py:383-402); `none`: IndexError. -/
def countErrors (original corrupted : List ℕ) : Option ℕ :=
  if corrupted.length < original.length then none else
  some (forN original.length (fun i c => forN 8 (fun b c => if (((original.getD i 0) ^^^ (corrupted.getD i 0)) >>> b) &&& 1 ≠ 0 then c + 1 else c) c) 0)

/-- A trial: the bytes of the weight, whether bytes are near it, and the draws. -/
structure Trial where
  data : List ℕ
  near : List ℕ → Bool
  draws : ℕ → ℝ

/-- The counters of one error rate (rs_monte_carlo.py:434-437). -/
structure Counts where
  successes : ℕ := 0
  bitErrors : ℕ := 0
  corrected : ℕ := 0
  results : List ℕ := []

/-- `forney` stands for the error values (see `Verif.PyRs.decode`). -/
abbrev Forney := List ℕ → List ℕ → List ℕ → Option (List ℕ × Bool)

/-- The end of a trial, from `if success` (rs_monte_carlo.py:456-477). -/
noncomputable def score (t : Trial) (encoded corrupted decoded : List ℕ) (ok : Bool) (c : Counts) : Option Counts :=
  if ok then
    match countErrors (encoded.take decoded.length) (corrupted.take decoded.length) with
    | some k =>
      let c := { c with corrected := c.corrected + k }
      some (if t.near decoded then { c with successes := c.successes + 1, results := c.results ++ [1] } else { c with results := c.results ++ [0] })
    | none => none
  else some { c with results := c.results ++ [0] }

/-- One trial (rs_monte_carlo.py:439-477). -/
noncomputable def trial (forney : Forney) (rate : ℝ) (t : Trial) (c : Counts) : Option Counts :=
  let encoded := PyRs.encode t.data
  let corrupted := applyErrors encoded rate t.draws
  match countErrors encoded corrupted, PyRs.decode forney corrupted with
  | some k, some (decoded, ok) => score t encoded corrupted decoded ok { c with bitErrors := c.bitErrors + k }
  | _, _ => none

/-- All trials of one rate (rs_monte_carlo.py:439-477). -/
noncomputable def trials (forney : Forney) (rate : ℝ) : List Trial → Counts → Option Counts
  | [], c => some c
  | t :: ts, c => match trial forney rate t c with
    | some c => trials forney rate ts c
    | none => none

/-- z of the intervals (rs_monte_carlo.py:488-489, 493). -/
noncomputable def z : ℝ := 196 / 100

/-- The interval (rs_monte_carlo.py:483-506). -/
noncomputable def interval (n : ℕ) (p : ℝ) : ℝ × ℝ :=
  if 30 < n then
    let e := Real.sqrt (p * (1 - p) / n)
    (max 0 (p - z * e), min 1 (p + z * e))
  else
    let d := 1 + z ^ 2 / n
    let center := (p + z ^ 2 / (2 * n)) / d
    let margin := z * Real.sqrt ((p * (1 - p) + z ^ 2 / (4 * n)) / n) / d
    (max 0 (center - margin), min 1 (center + margin))

/-- The entries of one rate in the result (rs_monte_carlo.py:479-514). -/
structure Row where
  success : ℝ
  interval : ℝ × ℝ
  bitErrors : ℝ
  corrected : ℝ

/-- One error rate of `run_monte_carlo_trials` (rs_monte_carlo.py:433-514); `none`: an exception (ZeroDivisionError without trials). -/
noncomputable def row (forney : Forney) (rate : ℝ) (ts : List Trial) : Option Row :=
  match trials forney rate ts {} with
  | none => none
  | some c =>
    if ts.length = 0 then none else
    let p : ℝ := (c.successes : ℝ) / ts.length
    some ⟨p, interval ts.length p, (c.bitErrors : ℝ) / ts.length, (c.corrected : ℝ) / ts.length⟩

/-- `threshold_idx` (rs_monte_carlo.py:673-675). -/
noncomputable def thresholdIndex (success : List ℝ) : Option ℕ := success.findIdx? fun r => r < 1 / 2

/-- The threshold printed (rs_monte_carlo.py:676-694); `none`: "could not determine". -/
noncomputable def threshold (rates success : List ℝ) : Option ℝ :=
  match thresholdIndex success with
  | none => none
  | some 0 => none
  | some (i + 1) =>
    let y1 := success.getD i 0
    let y2 := success.getD (i + 1) 0
    let x1 := rates.getD i 0
    let x2 := rates.getD (i + 1) 0
    some (if y1 ≠ y2 then x1 + (1 / 2 - y1) * (x2 - x1) / (y2 - y1) else x1)

end Verif.MonteCarlo
