import Verif.Model.BasicTmr
import Verif.Model.Loop
import Mathlib.Data.Real.Basic
/-!
The protection visualizer (/repo/tools/protection_visualizer.cpp).  Doubles are rationals (no rounding); the draws of `dist(gen)` are real numbers
compared with the rate.  Printing is not modelled: the rows of the CSV file and the totals are.
-/
namespace Verif.Visualizer
open Verif.BTmr (State Result executeProtected)

/-- The members of `sim::RadiationEnvironment` the tool sets (tools/protection_visualizer.cpp:29-106). -/
structure Env where
  proton : ℚ
  electron : ℚ
  tmin : ℚ
  tmax : ℚ
  solar : ℚ
  saa : Bool

/-- `createEnvironment` (tools/protection_visualizer.cpp:29-106). -/
def createEnvironment (name : String) : Env :=
  if name = "LEO" then ⟨10 ^ 7, 5 * 10 ^ 6, 270, 290, 2 / 10, false⟩
  else if name = "SAA" then ⟨5 * 10 ^ 9, 10 ^ 9, 280, 310, 3 / 10, true⟩
  else if name = "GEO" then ⟨5 * 10 ^ 7, 2 * 10 ^ 7, 250, 320, 4 / 10, false⟩
  else if name = "LUNAR" then ⟨8 * 10 ^ 7, 3 * 10 ^ 7, 100, 390, 5 / 10, false⟩
  else if name = "MARS" then ⟨2 * 10 ^ 8, 8 * 10 ^ 7, 150, 300, 4 / 10, false⟩
  else if name = "SOLAR_STORM" then ⟨10 ^ 10, 5 * 10 ^ 9, 300, 350, 9 / 10, false⟩
  else if name = "JUPITER" then ⟨10 ^ 12, 5 * 10 ^ 11, 120, 400, 1, false⟩
  else ⟨10 ^ 5, 10 ^ 4, 270, 280, 1 / 10, false⟩

/-- `calculateErrorRate` (tools/protection_visualizer.cpp:135-155). -/
def errorRate (e : Env) : ℚ :=
  let base := e.proton * (2 / 10 ^ 12) + e.electron * (5 / 10 ^ 13)
  let temp := 1 + max 0 (((e.tmin + e.tmax) / 2 - 273) / 100)
  let solar := 1 + e.solar * (5 / 10)
  let saa := if e.saa then 3 / 2 else 1
  min (max (base * temp * solar * saa) 0) (5 / 10)

/-- `protectionLevelToString` (tools/protection_visualizer.cpp:109-119). -/
def levelName (l : Fin 6) : String := match l with
  | 0 => "None"
  | 1 => "Basic TMR"
  | 2 => "Enhanced TMR"
  | 3 => "Stuck-Bit TMR"
  | 4 => "Health-Weighted TMR"
  | 5 => "Hybrid Redundancy"

/-- The environments visited (tools/protection_visualizer.cpp:169-171). -/
def environments : List String := ["NONE", "LEO", "GEO", "SAA", "MARS", "SOLAR_STORM", "JUPITER"]

/-- The mission phase entered for an environment (tools/protection_visualizer.cpp:213-219). -/
def phase (name : String) : String :=
  if name = "SAA" then "SAA_CROSSING" else if name = "SOLAR_STORM" then "SOLAR_STORM" else "NOMINAL"

/-- The protection object in an environment: `updateEnvironment`, then `enterMissionPhase` (tools/protection_visualizer.cpp:203-219). -/
def visit (p : State) (name : String) : State :=
  let e := createEnvironment name
  p.run [.env ⟨e.proton, e.electron, e.tmin, e.tmax⟩, .phase (phase name)]

/-- `error_prone_op` (tools/protection_visualizer.cpp:251-256): `u` is the draw. -/
noncomputable def operation (rate : ℚ) (u : ℝ) : ℤ :=
  open Classical in if u < (rate : ℝ) then -999 else 42

/-- The draws of one environment: `u i k` for the `k`-th execution of operation `i`, and the draw of the protection object for operation `i` compared with 0.85. -/
structure Draws where
  u : ℕ → ℕ → ℝ
  lucky : ℕ → Bool

/-- `executeProtected` of operation `i` (tools/protection_visualizer.cpp:259). -/
noncomputable def protectedOp (p : State) (rate : ℚ) (d : Draws) (i : ℕ) : Result ℤ :=
  executeProtected (fun a b => decide (a = b)) p.level (fun k => operation rate (d.u i k)) (d.lucky i)

/-- A row of the CSV file (tools/protection_visualizer.cpp:272-305). -/
structure Row where
  time : ℕ
  env : String
  level : Fin 6
  name : String
  interval : ℚ
  temp : ℚ
  rad : ℚ
  syn : ℚ
  corrections : ℕ
  errors : ℕ
  rate : ℚ
  success : ℚ

/-- The variables of the inner loop: `total_time`, `environment_corrections`, `environment_errors`, the rows written. -/
structure Acc where
  time : ℕ
  corrections : ℕ
  errors : ℕ
  rows : List Row

/-- The number of operations per environment (tools/protection_visualizer.cpp:238). -/
def operationsPerEnv : ℕ := 200

/-- The body of the inner loop (tools/protection_visualizer.cpp:243-319). -/
noncomputable def body (p : State) (name : String) (rate : ℚ) (d : Draws) (i : ℕ) (a : Acc) : Acc :=
  let time := a.time + 1
  let r := protectedOp p rate d i
  let errors := if r.detected then a.errors + 1 else a.errors
  let corrections := if r.value = 42 then a.corrections + 1 else a.corrections
  ⟨time, corrections, errors,
    if i % 20 = 0 ∨ i = operationsPerEnv - 1 then
      a.rows ++ [⟨time, name, p.level, levelName p.level, p.interval, p.temp, p.rad, p.syn, corrections, errors, rate, (corrections : ℚ) / (i + 1) * 100⟩]
    else a.rows⟩

/-- The inner loop (tools/protection_visualizer.cpp:238-320). -/
noncomputable def inner (p : State) (name : String) (d : Draws) (time : ℕ) : Acc :=
  forN operationsPerEnv (body p name (errorRate (createEnvironment name)) d) ⟨time, 0, 0, []⟩

/-- The variables of `main`: total time, operations, corrections, errors, the rows, the protection object. -/
structure Run where
  time : ℕ
  operations : ℕ
  corrections : ℕ
  errors : ℕ
  rows : List Row
  prot : State

/-- One environment of the outer loop (tools/protection_visualizer.cpp:202-321). -/
noncomputable def oneEnv (r : Run) (x : String × Draws) : Run :=
  let p := visit r.prot x.1
  let a := inner p x.1 x.2 r.time
  ⟨a.time, r.operations + operationsPerEnv, r.corrections + a.corrections, r.errors + a.errors, r.rows ++ a.rows, p⟩

/-- The tolerance of `createAluminumProperties` (tools/protection_visualizer.cpp:122-132). -/
def tolerance : ℚ := 50

/-- `main` (tools/protection_visualizer.cpp:157-340) with the draws of the `k`-th environment. -/
noncomputable def run (d : ℕ → Draws) : Run :=
  (environments.zipIdx.map fun x => (x.1, d x.2)).foldl oneEnv ⟨0, 0, 0, 0, [], State.new tolerance⟩

/-- `overall_success_rate` (tools/protection_visualizer.cpp:326). -/
def Run.success (r : Run) : ℚ := (r.corrections : ℚ) / r.operations * 100

end Verif.Visualizer
