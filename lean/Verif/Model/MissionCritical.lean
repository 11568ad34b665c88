import Verif.Model.BasicTmr
import Verif.Model.Visualizer
import Mathlib.Analysis.SpecialFunctions.Exp
/-!
Models of two test programs:
* /repo/test/framework_validation_test.cpp, on top of the models of `BasicTMR`, `PhysicsDrivenProtection` and the table of environments;
* /repo/test/mission_critical_validation.cpp, which brings its own stand-ins for the framework.

Real numbers stand for `float` and `double` (no rounding).  Random numbers are arguments.  Printed texts are left out; a log is modelled by its entries.
-/
namespace Verif.FrameworkVal
open Verif.BTmr (Basic State Result executeProtected)

/-- The five checks of `testBasicTMR` for the stored value `v` and the corrupting value `x`, 42 and 100 in the program (framework_validation_test.cpp:100-150). -/
def basicChecks {α : Type} [DecidableEq α] (v x : α) : Bool × Bool × Bool × Bool × Bool :=
  let eq := fun a b : α => decide (a = b)
  let t := Basic.set v
  let initial := t.get eq
  let t := t.repair eq
  let afterRepair := t.get eq
  let t := t.strike 0 x
  let corrected := t.get eq
  let t := t.strike 1 x
  let majority := t.get eq
  let t := t.repair eq
  let full := t.get eq
  (decide (initial = v), decide (afterRepair = v), decide (corrected = v), decide (majority = x), decide (full = v))

/-- `overall` (framework_validation_test.cpp:140-141). -/
def basicTest {α : Type} [DecidableEq α] (v x : α) : Bool :=
  let c := basicChecks v x
  c.1 && c.2.1 && c.2.2.1 && c.2.2.2.1 && c.2.2.2.2

/-- The environments of `testPhysicsDrivenProtection` (framework_validation_test.cpp:162-164); their values (12-71) are those of the visualizer. -/
def environments : List String := ["NONE", "LEO", "GEO", "SAA", "SOLAR_STORM", "JUPITER"]

/-- The levels accepted for an environment (framework_validation_test.cpp:198-212). -/
def accepted (name : String) (l : Fin 6) : Bool :=
  if name = "NONE" ∨ name = "LEO" then decide (l = 1) || decide (l = 2)
  else if name = "GEO" then decide (l = 2) || decide (l = 4)
  else if name = "SAA" ∨ name = "SOLAR_STORM" ∨ name = "JUPITER" then decide (l = 5) || decide (l = 4)
  else true

/-- The loop of `testPhysicsDrivenProtection` (framework_validation_test.cpp:171-224): the level and its verdict for each environment. -/
def levels : State → List String → List (Fin 6 × Bool)
  | _, [] => []
  | p, n :: ns =>
    let p := Visualizer.visit p n
    (p.level, accepted n p.level) :: levels p ns

/-- `testPhysicsDrivenProtection` (framework_validation_test.cpp:153-230); the tolerance is that of `createAluminumProperties` (74-84). -/
def physicsTest : Bool := (levels (State.new 50) environments).all (·.2)

/-- The protection object of `testErrorInjectionAndRecovery` (framework_validation_test.cpp:236-243). -/
def jupiter : State :=
  let e := Visualizer.createEnvironment "JUPITER"
  (State.new 50).run [.env ⟨e.proton, e.electron, e.tmin, e.tmax⟩]

/-- One operation: `u k` is the draw of its `k`-th execution, the rate 0.3 (framework_validation_test.cpp:253, 260-271). -/
noncomputable def operation (u : ℕ → ℝ) (lucky : Bool) : Result ℤ :=
  executeProtected (fun a b => decide (a = b)) jupiter.level (fun k => Visualizer.operation (3 / 10) (u k)) lucky

/-- `corrected_count` and `detected_count` after `n` operations (framework_validation_test.cpp:260-281). -/
noncomputable def counts (u : ℕ → ℕ → ℝ) (lucky : ℕ → Bool) (n : ℕ) : ℕ × ℕ :=
  forN n (fun i c => (if (operation (u i) (lucky i)).value = 42 then c.1 + 1 else c.1, if (operation (u i) (lucky i)).detected then c.2 + 1 else c.2)) (0, 0)

open Classical in
/-- The result of `testErrorInjectionAndRecovery` (framework_validation_test.cpp:284-305). -/
noncomputable def injectionTest (u : ℕ → ℕ → ℝ) (lucky : ℕ → Bool) : Bool :=
  let rate := ((counts u lucky 1000).1 : ℝ) / 1000
  decide (rate > 1 - 3 / 10) && decide (rate ≥ 9 / 10)

/-- The exit code of `main` (framework_validation_test.cpp:308-329). -/
noncomputable def exitCode (u : ℕ → ℕ → ℝ) (lucky : ℕ → Bool) : ℕ :=
  if basicTest (42 : BitVec 32) 100 && physicsTest && injectionTest u lucky then 0 else 1

end Verif.FrameworkVal

namespace Verif.MissionCrit

/-- `sim::Environment` (mission_critical_validation.cpp:38-46). -/
inductive Environment | leo | meo | geo | lunar | mars | probe | saa
  deriving DecidableEq

/-- `error_probability` of `createEnvironment` (mission_critical_validation.cpp:60-79); the flux is never read. -/
noncomputable def errorProb : Environment → ℝ
  | .leo => 1 / 10 ^ 6
  | .meo => 5 / 10 ^ 6
  | .geo => 1 / 10 ^ 5
  | .lunar => 2 / 10 ^ 5
  | .mars => 5 / 10 ^ 5
  | .probe => 1 / 10 ^ 4
  | .saa => 8 / 10 ^ 5

/-- `neural::ProtectionLevel` (mission_critical_validation.cpp:84-91). -/
inductive Level | none | minimal | moderate | high | veryHigh | adaptive
  deriving DecidableEq

/-- `getProtectionEffectiveness` (mission_critical_validation.cpp:161-171). -/
noncomputable def effectiveness : Level → ℝ
  | .none => 0
  | .minimal => 0.3
  | .moderate => 0.7
  | .high => 0.9
  | .veryHigh => 0.95
  | .adaptive => 0.85

/-- `getProtectionOverhead` (mission_critical_validation.cpp:173-183). -/
noncomputable def overhead : Level → ℝ
  | .none => 0
  | .minimal => 25
  | .moderate => 50
  | .high => 100
  | .veryHigh => 200
  | .adaptive => 75

/-- `AdaptiveProtection` (mission_critical_validation.cpp:101-120); `gen` are the numbers its engine will deliver. -/
structure Prot where
  level : Level
  env : Environment
  detected : ℕ
  corrected : ℕ
  gen : ℕ → ℝ

/-- `Result` (mission_critical_validation.cpp:123-128). -/
structure Res (α : Type) where
  value : α
  detected : Bool
  corrected : Bool

open Classical in
/-- `executeProtected` for a function returning `a` (mission_critical_validation.cpp:130-154); `protection_overhead` is a function of the level. -/
noncomputable def Prot.exec {α : Type} (p : Prot) (a : α) : Res α × Prot :=
  if p.gen 0 < errorProb p.env then
    if p.gen 1 < effectiveness p.level then
      (⟨a, true, true⟩, { p with detected := p.detected + 1, corrected := p.corrected + 1, gen := fun i => p.gen (i + 2) })
    else (⟨a, true, false⟩, { p with detected := p.detected + 1, gen := fun i => p.gen (i + 2) })
  else (⟨a, false, false⟩, { p with gen := fun i => p.gen (i + 1) })

/-- `MissionCriticalNetwork` without its protection object (mission_critical_validation.cpp:262-271). -/
structure Net where
  inp : ℕ
  hid : ℕ
  out : ℕ
  w1 : List ℝ
  w2 : List ℝ
  b : List ℝ

/-- The sizes the constructor establishes (mission_critical_validation.cpp:282-284). -/
def Net.Sized (n : Net) : Prop := n.w1.length = n.inp * n.hid ∧ n.w2.length = n.hid * n.out ∧ n.b.length = n.hid + n.out

/-- The hidden layer (mission_critical_validation.cpp:307-316, 338-345). -/
noncomputable def Net.hidden (n : Net) (x : List ℝ) : List ℝ := (List.range n.hid).map fun i =>
  max 0 (forN n.inp (fun j s => s + x.getD j 0 * n.w1.getD (j * n.hid + i) 0) 0 + n.b.getD i 0)

/-- The output layer (mission_critical_validation.cpp:318-327, 347-354). -/
noncomputable def Net.output (n : Net) (x : List ℝ) : List ℝ := (List.range n.out).map fun i =>
  1 / (1 + Real.exp (-(forN n.hid (fun j s => s + (n.hidden x).getD j 0 * n.w2.getD (j * n.out + i) 0) 0 + n.b.getD (n.hid + i) 0)))

/-- `forward` (mission_critical_validation.cpp:300-331): `none` if the size of the input does not match, which throws before anything else happens. -/
noncomputable def Net.forward (n : Net) (p : Prot) (x : List ℝ) : Option (List ℝ × Prot) :=
  if x.length ≠ n.inp then none else some ((p.exec (n.output x)).1.value, (p.exec (n.output x)).2)

/-- The error of the output layer (mission_critical_validation.cpp:358-361). -/
noncomputable def Net.outErr (n : Net) (x t : List ℝ) : List ℝ := (List.range n.out).map fun i => (n.output x).getD i 0 - t.getD i 0

open Classical in
/-- The error of the hidden layer (mission_critical_validation.cpp:364-370). -/
noncomputable def Net.hidErr (n : Net) (x t : List ℝ) : List ℝ := (List.range n.hid).map fun i =>
  forN n.out (fun j s => s + (n.outErr x t).getD j 0 * n.w2.getD (i * n.out + j) 0) 0 * (if 0 < (n.hidden x).getD i 0 then 1 else 0)

/-- `computeGradients` (mission_critical_validation.cpp:334-408); `extra` are the five numbers appended to a corrupted one. -/
noncomputable def Net.gradients (n : Net) (x t : List ℝ) (corrupt : Bool) (extra : Fin 5 → ℝ) : List ℝ :=
  ((List.range n.inp).flatMap fun i => (List.range n.hid).map fun j => x.getD i 0 * (n.hidErr x t).getD j 0) ++
  ((List.range n.hid).flatMap fun i => (List.range n.out).map fun j => (n.hidden x).getD i 0 * (n.outErr x t).getD j 0) ++
  ((List.range n.hid).map fun i => (n.hidErr x t).getD i 0) ++
  ((List.range n.out).map fun i => (n.outErr x t).getD i 0) ++
  (if corrupt then List.ofFn extra else [])

/-- `updateWeights` (mission_critical_validation.cpp:411-440). -/
noncomputable def Net.update (n : Net) (g : List ℝ) (lr : ℝ) : Bool × Net :=
  if g.length ≠ n.w1.length + n.w2.length + n.b.length then (false, n)
  else (true, { n with
    w1 := (List.range n.w1.length).map fun i => n.w1.getD i 0 - lr * g.getD i 0
    w2 := (List.range n.w2.length).map fun i => n.w2.getD i 0 - lr * g.getD (n.w1.length + i) 0
    b := (List.range n.b.length).map fun i => n.b.getD i 0 - lr * g.getD (n.w1.length + n.w2.length + i) 0 })

open Classical in
/-- `std::max_element(...) - begin()`: position `k` of the best so far, its value, position `i` of the next element. -/
noncomputable def argmax : List ℝ → ℕ → ℝ → ℕ → ℕ
  | [], k, _, _ => k
  | y :: l, k, m, i => if m < y then argmax l i y (i + 1) else argmax l k m (i + 1)

/-- The position of the first largest element, 0 for none (mission_critical_validation.cpp:454-455). -/
noncomputable def best : List ℝ → ℕ
  | [] => 0
  | y :: l => argmax l 0 y 1

/-- The loop of `calculateAccuracy` (mission_critical_validation.cpp:449-460): the number of correct ones. -/
noncomputable def score (n : Net) : Prot → List (List ℝ × List ℝ) → ℕ → Option (ℕ × Prot)
  | p, [], c => some (c, p)
  | p, d :: ds, c => (n.forward p d.1).bind fun r => score n r.2 ds (if best r.1 = best d.2 then c + 1 else c)

/-- `calculateAccuracy` for as many targets as inputs (mission_critical_validation.cpp:443-463). -/
noncomputable def accuracy (n : Net) (p : Prot) (ds : List (List ℝ × List ℝ)) : Option (ℝ × Prot) :=
  if ds = [] then some (0, p) else (score n p ds 0).bind fun r => some ((r.1 : ℝ) / ds.length, r.2)

/-- The environment of each value of `environment_change_counter` (mission_critical_validation.cpp:564-589). -/
def envOf (k : ℕ) : Environment := match k with
  | 1 => .meo
  | 2 => .geo
  | 3 => .lunar
  | 4 => .mars
  | 5 => .saa
  | _ => .leo

/-- An entry of the event log (mission_critical_validation.cpp:602, 626, 650). -/
inductive Ev | spike | ended | skipped
  deriving DecidableEq

/-- An entry of each vector of `TestResults` (mission_critical_validation.cpp:692-722). -/
structure Row where
  accuracy : ℝ
  errorRate : ℝ
  corrected : ℕ
  uncorrected : ℕ
  skipped : ℕ
  util : ℝ
  overhead : ℝ

/-- The variables of `simulateMission` (mission_critical_validation.cpp:511-556). -/
structure Ms where
  counter : ℕ
  env : Environment
  net : Net
  prot : Prot
  processed : ℕ
  skipped : ℕ
  corrected : ℕ
  uncorrected : ℕ
  envLog : List (ℕ × Environment)
  events : List (ℕ × Ev)
  rows : List Row

/-- What is drawn before the mission or by the calls to `rand` in it: training data, validation data, spikes, the samples whose gradients are corrupted and the numbers appended then. -/
structure World where
  trainX : ℕ → List ℝ
  trainT : ℕ → List ℝ
  valid : List (List ℝ × List ℝ)
  spikes : List ℕ
  corrupt : ℕ → Bool
  extra : ℕ → Fin 5 → ℝ

/-- Whether a minute lies in a spike (mission_critical_validation.cpp:595-608, 614-621). -/
def inSpike (spikes : List ℕ) (m : ℕ) : Bool := spikes.any fun s => decide (s ≤ m) && decide (m < s + 30)

/-- Scheduled change of environment (mission_critical_validation.cpp:560-592). -/
def change (m : ℕ) (s : Ms) : Ms :=
  if m % (2 * 60) = 0 then
    let k := (s.counter + 1) % 6
    { s with counter := k, env := envOf k, envLog := s.envLog ++ [(m, envOf k)], prot := { s.prot with env := envOf k } }
  else s

/-- Beginning and end of spikes (mission_critical_validation.cpp:594-629). -/
def spike (spikes : List ℕ) (m : ℕ) (s : Ms) : Ms :=
  if inSpike spikes m then { s with prot := { s.prot with env := .probe }, events := s.events ++ [(m, .spike)] }
  else if m > 0 ∧ (m - 1) % (2 * 60) ≠ 0 ∧ inSpike spikes (m - 1) = true then
    { s with prot := { s.prot with env := s.env }, events := s.events ++ [(m, .ended)] }
  else s

/-- One training sample (mission_critical_validation.cpp:633-655). -/
noncomputable def sample (w : World) (m : ℕ) (s : Ms) : Ms :=
  if s.processed < 10000 then
    let i := s.processed % 10000
    let u := s.net.update (s.net.gradients (w.trainX i) (w.trainT i) (w.corrupt s.processed) (w.extra s.processed)) 0.01
    { s with
      net := u.2
      skipped := if u.1 then s.skipped else s.skipped + 1
      events := if u.1 then s.events else s.events ++ [(m, .skipped)]
      processed := s.processed + 1 }
  else s

/-- The training of one minute (mission_critical_validation.cpp:631-655). -/
noncomputable def train (w : World) (m : ℕ) (s : Ms) : Ms := forN (10000 / (48 * 60)) (fun _ s => sample w m s) s

/-- Periodic validation (mission_critical_validation.cpp:657-689). -/
noncomputable def validate (w : World) (m : ℕ) (s : Ms) : Option Ms :=
  if m % 20 = 0 then
    (accuracy s.net s.prot w.valid).bind fun r => some { s with prot := r.2, corrected := r.2.corrected, uncorrected := r.2.detected - r.2.corrected }
  else some s

/-- Overhead reported for an environment (mission_critical_validation.cpp:709-720). -/
noncomputable def reported (counter : ℕ) (spike : Bool) : ℝ :=
  if spike then 200 else match counter with
    | 0 => 25
    | 1 => 50
    | 2 => 75
    | 3 => 100
    | 4 => 100
    | 5 => 200
    | _ => 0

/-- Checkpoint of the results (mission_critical_validation.cpp:691-723). -/
noncomputable def checkpoint (w : World) (m : ℕ) (s : Ms) : Option Ms :=
  if m % (1 * 60) = 0 then
    (accuracy s.net s.prot w.valid).bind fun r => some { s with
      prot := r.2
      rows := s.rows ++ [⟨r.1, if s.processed > 0 then ((s.corrected + s.uncorrected : ℕ) : ℝ) / s.processed else 0, s.corrected, s.uncorrected, s.skipped,
        0.5 + 0.5 * ((s.processed : ℝ) / 10000), reported s.counter (inSpike w.spikes m)⟩] }
  else some s

/-- One minute (mission_critical_validation.cpp:559-726). -/
noncomputable def minute (w : World) (m : ℕ) (s : Ms) : Option Ms :=
  (validate w m (train w m (spike w.spikes m (change m s)))).bind (checkpoint w m)

/-- The state before the loop (mission_critical_validation.cpp:524-556). -/
def start (n : Net) (gen : ℕ → ℝ) : Ms :=
  ⟨0, .leo, n, ⟨.moderate, .leo, 0, 0, gen⟩, 0, 0, 0, 0, [(0, .leo)], [], []⟩

/-- The state after `k` minutes (mission_critical_validation.cpp:559-726). -/
noncomputable def mission (w : World) (n : Net) (gen : ℕ → ℝ) : ℕ → Option Ms
  | 0 => some (start n gen)
  | k + 1 => (mission w n gen k).bind (minute w k)

/-- The minutes of the mission (mission_critical_validation.cpp:527). -/
def minutes : ℕ := 48 * 60

/-- `Total Samples Processed` in the file of results (mission_critical_validation.cpp:222). -/
def fileProcessed (r : Row) : ℤ := 10000 - r.skipped

end Verif.MissionCrit
