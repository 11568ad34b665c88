import Mathlib.Algebra.Order.Field.Rat
/-!
Model of `rad_ml::core::adaptive::AdaptiveFramework` (/repo/include/rad_ml/core/adaptive/adaptive_framework.hpp).

Times are integers in nanoseconds.  Error rate, pattern distribution, scores and settings are exact rationals instead of
`float`.  What the global error tracker reports is an input of the calls that read it.  A listener is represented by its
id; listeners do not call back into the framework.
-/
namespace Verif.Adaptive

/-- `EnvironmentType` by its enumerator value: BENIGN 0, LEO 1, MEO 2, GEO 3, SOLAR_FLARE 4, JUPITER 5, EXTREME 6
(adaptive_framework.hpp:37-45). -/
abbrev Env := Fin 7

/-- `ProtectionSettings` (adaptive_framework.hpp:50-57). -/
structure Settings where
  scrubMs : Int
  errorThreshold : ℚ
  weightedVoting : Bool
  ecc : Bool
  redundancy : Int
  checkpoint : ℚ

/-- `initializeEnvironmentSettings` (adaptive_framework.hpp:302-372). -/
def defaults : Env → Settings
  | 0 => ⟨5000, 1 / 10, false, false, 3, 1 / 100⟩
  | 1 => ⟨1000, 5 / 100, true, true, 3, 5 / 100⟩
  | 2 => ⟨500, 2 / 100, true, true, 3, 1 / 10⟩
  | 3 => ⟨250, 1 / 100, true, true, 3, 2 / 10⟩
  | 4 => ⟨100, 5 / 1000, true, true, 5, 5 / 10⟩
  | 5 => ⟨50, 1 / 1000, true, true, 5, 8 / 10⟩
  | 6 => ⟨10, 5 / 10000, true, true, 7, 1⟩

/-- The members (adaptive_framework.hpp:287-297) and the id counter (:141).  `log` records the notifications: listener id
and environment.  `unordered_map` iterates in an unspecified order; the list order stands for it. -/
structure State where
  env : Env
  mode : Bool
  current : Settings
  table : Env → Option Settings
  listeners : List Nat
  lastCheck : Int
  lastChange : Int
  errors : Nat
  nextId : Nat
  log : List (Nat × Env)

/-- What the tracker reports at the moment of a call: clock, rate, pattern distribution. -/
structure Report where
  now : Int
  rate : ℚ
  dist : Fin 6 → ℚ

/-- `updateProtectionStrategy` (adaptive_framework.hpp:377-386).  The last case would be the default-constructed entry that
`operator[]` creates. -/
def updateStrategy (s : State) : State :=
  match s.table s.env with
  | some x => { s with current := x }
  | none => match s.table 6 with
    | some x => { s with current := x }
    | none => { s with current := ⟨0, 0, false, false, 0, 0⟩ }

/-- The constructor at time `now` (adaptive_framework.hpp:62-73); `last_environment_change` is the clock's epoch. -/
def init (now : Int) : State :=
  updateStrategy ⟨0, true, ⟨0, 0, false, false, 0, 0⟩, fun e => some (defaults e), [], now, 0, 0, 0, []⟩

/-- `setEnvironment` (adaptive_framework.hpp:80-90). -/
def setEnvironment (s : State) (e : Env) : State :=
  if s.env ≠ e then
    let s := updateStrategy { s with env := e }
    { s with log := s.log ++ s.listeners.map (fun i => (i, e)) }
  else s

/-- `pattern_weights` (adaptive_framework.hpp:190-197). -/
def weight : Fin 6 → ℚ
  | 0 => 1 | 1 => 2 | 2 => 3 | 3 => 4 | 4 => 5 | 5 => 5 / 2

/-- `severity_score` (adaptive_framework.hpp:187-203). -/
def severity (r : Report) : ℚ :=
  (0 + r.dist 0 * weight 0 + r.dist 1 * weight 1 + r.dist 2 * weight 2 + r.dist 3 * weight 3 + r.dist 4 * weight 4 +
    r.dist 5 * weight 5) * r.rate

/-- The threshold cascade (adaptive_framework.hpp:206-222). -/
def detect (score : ℚ) : Env :=
  if score < 1 / 100 then 0
  else if score < 1 / 10 then 1
  else if score < 5 / 10 then 2
  else if score < 1 then 3
  else if score < 5 then 4
  else if score < 20 then 5
  else 6

/-- `std::abs(static_cast<int>(a) - static_cast<int>(b))` (adaptive_framework.hpp:228). -/
def levelDiff (a b : Env) : Nat := ((a.val : Int) - (b.val : Int)).natAbs

/-- `autoDetectEnvironment` (adaptive_framework.hpp:164-238). -/
def autoDetect (s : State) (r : Report) : State :=
  if !s.mode then s
  else if r.now - s.lastCheck < 10000000000 then s
  else
    let s := { s with lastCheck := r.now }
    if r.rate > 10 then setEnvironment s 6
    else
      let d := detect (severity r)
      if d ≠ s.env then
        if levelDiff d s.env ≥ 2 ∨ r.now - s.lastChange > 300000000000 then
          let s := setEnvironment s d
          { s with lastChange := r.now }
        else s
      else s

/-- `setAdaptiveMode` (adaptive_framework.hpp:106-112). -/
def setMode (s : State) (b : Bool) (r : Report) : State :=
  let s := { s with mode := b }
  if b then autoDetect s r else s

/-- `registerEnvironmentChangeCallback` (adaptive_framework.hpp:138-146). -/
def register (s : State) : State × Nat :=
  ({ s with nextId := s.nextId + 1, listeners := s.listeners ++ [s.nextId] }, s.nextId)

/-- `unregisterEnvironmentChangeCallback` (adaptive_framework.hpp:154-156). -/
def unregister (s : State) (i : Nat) : State × Bool :=
  ({ s with listeners := s.listeners.filter (fun j => j ≠ i) }, decide (i ∈ s.listeners))

/-- `logError` (adaptive_framework.hpp:246-258); the tracker has already recorded the error when `r` is read. -/
def logError (s : State) (r : Report) : State :=
  let s := { s with errors := s.errors + 1 }
  if s.errors ≥ 10 then
    let s := autoDetect s r
    { s with errors := 0 }
  else s

/-- `customizeEnvironmentSettings` (adaptive_framework.hpp:266-273). -/
def customize (s : State) (e : Env) (x : Settings) : State :=
  let s := { s with table := fun k => if k = e then some x else s.table k }
  if e = s.env then updateStrategy s else s

/-- API calls; `performMaintenance` (adaptive_framework.hpp:281-284) is `detect`. -/
inductive Op where
  | setEnv (e : Env)
  | setMode (b : Bool) (r : Report)
  | register
  | unregister (i : Nat)
  | detect (r : Report)
  | logError (r : Report)
  | customize (e : Env) (x : Settings)

/-- One call. -/
def apply (s : State) : Op → State
  | .setEnv e => setEnvironment s e
  | .setMode b r => Adaptive.setMode s b r
  | .register => (register s).1
  | .unregister i => (unregister s i).1
  | .detect r => autoDetect s r
  | .logError r => logError s r
  | .customize e x => customize s e x

/-- A history. -/
def run (s : State) (ops : List Op) : State := ops.foldl apply s

end Verif.Adaptive
