import Verif.Spec.XReal
import Mathlib.Data.List.Basic
/-!
Model of the simplified Monte Carlo test (/repo/simplified_monte_carlo_test.py): the two protected values, radiation on a network, a run over the error rates and its summary.

Simplifications: Python floats are ideal doubles (`XD`: no rounding, but infinities and NaN); a flip is any function on values; the layers of a network are one list of parameters;
the generator of `numpy.random` is a stream of numbers fixed by its seed, as the code seeds it; the arithmetic of the forward pass is a function of the values it reads (and of the draws for dropout).
Not modelled: plots, CSV files, the generation of the data set.
-/
namespace Verif.SimpleMC
open Classical

/-- `StandardTMR` and `EnhancedTMR` (simplified_monte_carlo_test.py:68-102). -/
structure Tmr where
  v1 : XD
  v2 : XD
  v3 : XD
  value : XD
  checksum : XD

/-- The constructors (simplified_monte_carlo_test.py:69-73, 95-97). -/
noncomputable def Tmr.new (v : XD) : Tmr := ⟨v, v, v, v, XD.mul v (XD.fin 3)⟩

/-- `StandardTMR.check_integrity` (simplified_monte_carlo_test.py:75-76). -/
def Tmr.anyPair (t : Tmr) : Prop := XD.eq t.v1 t.v2 ∨ XD.eq t.v1 t.v3 ∨ XD.eq t.v2 t.v3

/-- `EnhancedTMR.check_integrity` (simplified_monte_carlo_test.py:99-102). -/
def Tmr.checked (t : Tmr) : Prop := t.anyPair ∧ XD.lt (XD.abs (XD.sub (XD.add (XD.add t.v1 t.v2) t.v3) t.checksum)) (XD.fin (1 / 100000))

/-- `check_integrity` of the class used: `enhanced` for every level but MINIMAL (simplified_monte_carlo_test.py:75-76, 99-102, 278-291). -/
def Tmr.intact (enhanced : Bool) (t : Tmr) : Prop := if enhanced then t.checked else t.anyPair

/-- `correct` (simplified_monte_carlo_test.py:78-91). -/
noncomputable def Tmr.correct (t : Tmr) : Bool × Tmr :=
  if XD.eq t.v1 t.v2 then (true, { t with v3 := t.v1, value := t.v1 })
  else if XD.eq t.v1 t.v3 then (true, { t with v2 := t.v1, value := t.v1 })
  else if XD.eq t.v2 t.v3 then (true, { t with v1 := t.v2, value := t.v2 })
  else (false, t)

/-- The counters of `simulate_radiation_effects` (simplified_monte_carlo_test.py:344). -/
structure Stats where
  flips : ℕ := 0
  detected : ℕ := 0
  corrected : ℕ := 0
  deriving DecidableEq

/-- One parameter that is struck (simplified_monte_carlo_test.py:355-371, 376-390). -/
noncomputable def strike (enhanced : Bool) (flip : XD → XD) (s : Stats) (t : Tmr) : Stats × Tmr :=
  let t := { t with v1 := flip t.v1 }
  let s := { s with flips := s.flips + 1 }
  if t.intact enhanced then (s, t)
  else
    let s := { s with detected := s.detected + 1 }
    let c := t.correct
    if c.1 then ({ s with corrected := s.corrected + 1 }, c.2) else (s, c.2)

/-- `simulate_radiation_effects` on a protected network (simplified_monte_carlo_test.py:342-390): for each parameter a draw and, if it is below the rate, a flip. -/
noncomputable def radiate (enhanced : Bool) (rate : ℝ) : List (ℝ × (XD → XD)) → Stats → List Tmr → Stats × List Tmr
  | (d, f) :: ds, s, t :: ts =>
    let r := if d < rate then strike enhanced f s t else (s, t)
    let rest := radiate enhanced rate ds r.1 ts
    (rest.1, r.2 :: rest.2)
  | _, s, ts => (s, ts)

/-- `simulate_radiation_effects` on an unprotected network (simplified_monte_carlo_test.py:391-406). -/
noncomputable def radiatePlain (rate : ℝ) : List (ℝ × (XD → XD)) → ℕ → List XD → ℕ × List XD
  | (d, f) :: ds, n, v :: vs =>
    let r := if d < rate then (n + 1, f v) else (n, v)
    let rest := radiatePlain rate ds r.1 vs
    (rest.1, r.2 :: rest.2)
  | _, n, vs => (n, vs)

/-! ### Runs -/

/-- What is fixed over a run: the stream of `numpy.random` and the flips (drawn from `random`; how many draws precede one depends on the rate) for each rate and seed, the number of parameters, and how a network of these values fares on the test data, given the draws left for dropout
(simplified_monte_carlo_test.py:302-340, 468-471). -/
structure Setup where
  stream : ℕ → ℕ → ℝ
  flips : ℝ → ℕ → ℕ → XD → XD
  size : ℕ
  weight : ℕ → ℝ → XD
  accuracy : List XD → (ℕ → ℝ) → ℝ

/-- The parameters of the network made after seeding: parameter `i` from draw `i` (simplified_monte_carlo_test.py:269-300, 473-479). -/
def Setup.fresh (s : Setup) (seed : ℕ) : List XD := (List.range s.size).map fun i : ℕ => s.weight i (s.stream seed i)

/-- The draws of the radiation: one per parameter, after those of the weights (simplified_monte_carlo_test.py:355, 376). -/
def Setup.draws (s : Setup) (rate : ℝ) (seed : ℕ) : List (ℝ × (XD → XD)) := (List.range s.size).map fun i : ℕ => (s.stream seed (s.size + i), s.flips rate seed i)

/-- One trial of a protected network: its counters and its accuracy (simplified_monte_carlo_test.py:468-501). -/
noncomputable def Setup.trial (s : Setup) (enhanced : Bool) (rate : ℝ) (seed : ℕ) : Stats × ℝ :=
  let r := radiate enhanced rate (s.draws rate seed) {} ((s.fresh seed).map Tmr.new)
  (r.1, s.accuracy (r.2.map Tmr.value) fun i => s.stream seed (s.size + s.size + i))

/-- The row of one error rate (simplified_monte_carlo_test.py:505-529). -/
structure Row where
  rate : ℝ
  accuracy : ℝ
  percentage : ℝ
  detected : ℝ
  corrected : ℝ
  correctionRate : ℝ

/-- One row: averages over three seeds, share of the baseline, correction rate (simplified_monte_carlo_test.py:505-529). -/
noncomputable def row (rate baseline : ℝ) (trials : List (Stats × ℝ)) : Row :=
  let acc := (trials.map (·.2)).sum / trials.length
  let det : ℝ := (((trials.map (·.1.detected)).sum : ℕ) : ℝ) / 3
  let cor : ℝ := (((trials.map (·.1.corrected)).sum : ℕ) : ℝ) / 3
  { rate := rate, accuracy := acc, percentage := if 0 < baseline then acc / baseline * 100 else 0, detected := det, corrected := cor,
    correctionRate := if 0 < det then cor / det * 100 else 100 }

/-- All rows of a run on a protected network (simplified_monte_carlo_test.py:448-529); NUM_SEEDS is 3. -/
noncomputable def Setup.rows (s : Setup) (enhanced : Bool) (baseline : ℝ) (rates : List ℝ) : List Row :=
  rates.map fun r => row r baseline ((List.range 3).map fun seed : ℕ => s.trial enhanced r seed)

/-- `max_sustainable_error_rate` (simplified_monte_carlo_test.py:649-655): the largest rate with at least 90 %, 0 if there is none. -/
noncomputable def sustainable (rs : List Row) : ℝ :=
  match rs.filter (fun r => decide (90 ≤ r.percentage)) with
  | [] => 0
  | r :: t => t.foldl (fun m x => max m x.rate) r.rate

/-- The class of a sample (simplified_monte_carlo_test.py:249-250): `trunc` is `int(sum / 2)`. -/
def label (trunc : ℤ) : ℤ := min 3 (max 0 (trunc + 2))

end Verif.SimpleMC
