import Mathlib.Algebra.Order.Field.Rat
import Verif.Model.Loop
/-!
Model of the strategy classes of /repo/include/rad_ml/tmr/adaptive_protection.hpp,
/repo/include/rad_ml/tmr/adaptive_protection_impl.hpp and /repo/src/tmr/adaptive_protection.cpp.

`execute(operation)` runs the operation three times; the three results `a`, `b`, `c` are the inputs of the model.  `eq` is
`==` on `T`.  Confidences (`double`) are exact rationals; the members of `TMRResult` have no initialisers, `none` is an
indeterminate flag.  The delays of `HybridRedundancy` are not modelled.  (The header also declares a class
`EnhancedTMR`, which clashes with the class of the same name in tmr/enhanced_tmr.hpp.)  `BitProtectionStrategy` is declared
but nowhere defined.
-/
namespace Verif.Strat

/-- `ProtectionLevel` by enumerator value: NONE 0, BASIC_TMR 1, ENHANCED_TMR 2, STUCK_BIT_TMR 3, HEALTH_WEIGHTED_TMR 4,
HYBRID_REDUNDANCY 5 (adaptive_protection.hpp:24-31). -/
abbrev Level := Fin 6

/-- `TMRResult` (adaptive_protection.hpp:36-42). -/
structure Result (α : Type) where
  value : α
  confidence : ℚ
  detected : Option Bool
  corrected : Option Bool
  deriving DecidableEq, Repr

variable {α : Type}

/-- `NoProtection::execute` (adaptive_protection.hpp:72-80); the operation runs once. -/
def execNone (a : α) : Result α := ⟨a, 1, some false, some false⟩

/-- `BasicTMR::execute` (adaptive_protection_impl.hpp:23-64). -/
def execBasic (eq : α → α → Bool) (a b c : α) : Result α :=
  if eq a b && eq a c then ⟨a, 1, some false, some false⟩
  else if eq a b then ⟨a, 67 / 100, some true, some true⟩
  else if eq a c then ⟨a, 67 / 100, some true, some true⟩
  else if eq b c then ⟨b, 67 / 100, some true, some true⟩
  else ⟨a, 33 / 100, some true, some false⟩

/-- `HybridRedundancy::execute` (adaptive_protection_impl.hpp:576-627) without the delays. -/
def execHybrid (eq : α → α → Bool) (a b c : α) : Result α :=
  if eq a b && eq a c then ⟨a, 1, some false, some false⟩
  else if eq a b then ⟨a, 8 / 10, some true, some true⟩
  else if eq a c then ⟨a, 8 / 10, some true, some true⟩
  else if eq b c then ⟨b, 8 / 10, some true, some true⟩
  else ⟨a, 33 / 100, some true, some false⟩

/-- The voting of `EnhancedTMR::execute` (adaptive_protection_impl.hpp:93-157) for given checksums `x`, `y`, `z`.  When all
values and checksums agree (line 99-100) the flags are never written. -/
def voteEnhanced (eq : α → α → Bool) (a b c : α) (x y z : Nat) : Result α :=
  if eq a b && eq a c then
    (if x = y ∧ x = z then ⟨a, 1, none, none⟩ else ⟨a, 9 / 10, some true, some true⟩)
  else if eq a b then ⟨a, if x = y then 8 / 10 else 7 / 10, some true, some true⟩
  else if eq a c then ⟨a, if x = z then 8 / 10 else 7 / 10, some true, some true⟩
  else if eq b c then ⟨b, if y = z then 8 / 10 else 7 / 10, some true, some true⟩
  else if x = y then ⟨a, 5 / 10, some true, some false⟩
  else if x = z then ⟨a, 5 / 10, some true, some false⟩
  else if y = z then ⟨b, 5 / 10, some true, some false⟩
  else ⟨a, 3 / 10, some true, some false⟩

/-- `EnhancedTMR::execute` (adaptive_protection_impl.hpp:71-158); `sum` is `static_cast<size_t>` (`none`: undefined, for
floating-point values that do not fit), or constantly 0 for types that are not arithmetic (lines 79-90). -/
def execEnhanced (eq : α → α → Bool) (sum : α → Option Nat) (a b c : α) : Outcome (Result α) :=
  match sum a, sum b, sum c with
  | some x, some y, some z => .ok (voteEnhanced eq a b c x y z)
  | _, _, _ => .ub

/-- `static_cast<size_t>` of a finite floating-point value: truncation, undefined if the truncated value does not fit. -/
def floatSum (q : ℚ) : Option Nat := if -1 < q ∧ q < 2 ^ 64 then some (if q < 0 then 0 else q.floor.toNat) else none

/-- `static_cast<size_t>` of a signed `w`-bit integer, `w ≤ 64`: sign extension (always defined). -/
def intSum {w : Nat} (x : BitVec w) : Option Nat := some (x.signExtend 64).toNat

/-- `StuckBitTMR::execute` (adaptive_protection_impl.hpp:165-254); the vector specialisation (:335-433) is the same code with
element-wise equality.  `stuck` is `checkForStuckBits`, `fix` is `attemptBitCorrection`. -/
def execStuck (eq : α → α → Bool) (stuck : α → Bool) (fix : α → α → α → α) (a b c : α) : Result α :=
  let s1 := stuck a
  let s2 := stuck b
  let s3 := stuck c
  let valid := (if s1 then 0 else 1) + (if s2 then 0 else 1) + (if s3 then 0 else 1)
  if valid = 3 then
    if eq a b && eq a c then ⟨a, 1, some false, some false⟩
    else if eq a b then ⟨a, 7 / 10, some true, some true⟩
    else if eq a c then ⟨a, 7 / 10, some true, some true⟩
    else if eq b c then ⟨b, 7 / 10, some true, some true⟩
    else ⟨a, 3 / 10, some true, some false⟩
  else if valid = 2 then
    if !s1 && !s2 && eq a b then ⟨a, 8 / 10, some true, some true⟩
    else if !s1 && !s3 && eq a c then ⟨a, 8 / 10, some true, some true⟩
    else if !s2 && !s3 && eq b c then ⟨b, 8 / 10, some true, some true⟩
    else ⟨if !s1 then a else if !s2 then b else c, 5 / 10, some true, some false⟩
  else if valid = 1 then ⟨if !s1 then a else if !s2 then b else c, 6 / 10, some true, some true⟩
  else ⟨fix a b c, 2 / 10, some true, some false⟩

/-- `checkForStuckBits` for a `w`-bit integer type (adaptive_protection_impl.hpp:257-270); `max` is
`numeric_limits<T>::max()`. -/
def stuckInt {w : Nat} (max : BitVec w) (x : BitVec w) : Bool := x == 0#w || x == max

/-- `attemptBitCorrection` for integers (adaptive_protection_impl.hpp:275-277). -/
def fixInt {w : Nat} (a b c : BitVec w) : BitVec w := (a &&& b) ||| (a &&& c) ||| (b &&& c)

/-- `checkForStuckBits` for a vector (adaptive_protection_impl.hpp:289-312); `sus` is the test of the first element
(constantly false for elements that are not arithmetic). -/
def stuckVec (eq : α → α → Bool) (sus : α → Bool) : List α → Bool
  | [] => true
  | x :: l => if l.all (fun y => eq y x) then sus x else false

/-- `vectors_equal` (adaptive_protection_impl.hpp:356-362). -/
def vecEq (eq : α → α → Bool) (a b : List α) : Bool :=
  if a.length ≠ b.length then false else (a.zip b).all fun p => eq p.1 p.2

/-- `attemptBitCorrection` for vectors (adaptive_protection_impl.hpp:315-332). -/
def fixVec (a b c : List α) : List α :=
  if a ≠ [] ∧ a.length ≤ b.length ∧ a.length ≤ c.length then a
  else if b ≠ [] ∧ b.length ≤ a.length ∧ b.length ≤ c.length then b
  else c

/-- The three `health_scores` (adaptive_protection.hpp:147). -/
structure Health where
  h0 : ℚ := 1
  h1 : ℚ := 1
  h2 : ℚ := 1

/-- `updateHealthScores(_, true)` (adaptive_protection_impl.hpp:564). -/
def worse (h : ℚ) : ℚ := max (1 / 10) (h * (8 / 10))
/-- `updateHealthScores(_, false)` (adaptive_protection_impl.hpp:567). -/
def better (h : ℚ) : ℚ := min 1 (h * (11 / 10))

/-- "Use highest health component" (adaptive_protection_impl.hpp:474-483, 498-507, 522-531, 537-546). -/
def healthiest (a b c : α) (w1 w2 w3 : ℚ) : α × ℚ :=
  if w1 ≥ w2 ∧ w1 ≥ w3 then (a, w1) else if w2 ≥ w1 ∧ w2 ≥ w3 then (b, w2) else (c, w3)

/-- `HealthWeightedTMR::execute` (adaptive_protection_impl.hpp:440-557). -/
def execHealth (eq : α → α → Bool) (h : Health) (a b c : α) : Result α × Health :=
  let total := h.h0 + h.h1 + h.h2
  let w1 := h.h0 / total
  let w2 := h.h1 / total
  let w3 := h.h2 / total
  let best := healthiest a b c w1 w2 w3
  let low : Result α := ⟨best.1, best.2, some true, some false⟩
  if eq a b && eq a c then (⟨a, 1, some false, some false⟩, h)
  else if eq a b then
    (if w1 + w2 > 6 / 10 then (⟨a, w1 + w2, some true, some true⟩, { h with h2 := worse h.h2 }) else (low, h))
  else if eq a c then
    (if w1 + w3 > 6 / 10 then (⟨a, w1 + w3, some true, some true⟩, { h with h1 := worse h.h1 }) else (low, h))
  else if eq b c then
    (if w2 + w3 > 6 / 10 then (⟨b, w2 + w3, some true, some true⟩, { h with h0 := worse h.h0 }) else (low, h))
  else (low, ⟨better h.h0, better h.h1, better h.h2⟩)

/-- A history of `execute` calls on one `HealthWeightedTMR` object: the results of the three runs in each call. -/
def runHealth (eq : α → α → Bool) (h : Health) (calls : List (α × α × α)) : Health :=
  calls.foldl (fun h t => (execHealth eq h t.1 t.2.1 t.2.2).2) h

/-! ### Environment-driven choices -/

/-- The members of `sim::RadiationEnvironment` that are read (sim/mission_environment.hpp:34-52); exact rationals. -/
structure Env where
  proton : ℚ
  electron : ℚ
  saa : Bool
  solar : ℚ

/-- `calculateOptimalProtectionLevel` (adaptive_protection_impl.hpp:666-700), for a nonzero tolerance. -/
def optimalLevel (e : Env) (tolerance criticality : ℚ) : Level :=
  let need := (e.proton + e.electron) * (1 / 100000) / tolerance * criticality
  let need := if e.saa then need * 2 else need
  let need := if e.solar > 7 / 10 then need * (3 / 2) else need
  if need > 5 ∨ criticality > 9 / 10 then 5
  else if need > 2 ∨ criticality > 7 / 10 then 4
  else if need > 1 ∨ criticality > 5 / 10 then 2
  else if need > 5 / 10 then 1
  else 1

/-- A `double` as far as division, comparison, `std::min` and `std::max` are concerned. -/
inductive Dbl where
  | nan
  | ninf
  | fin (q : ℚ)
  | pinf
  deriving DecidableEq, Repr

/-- IEEE `<`. -/
def Dbl.lt : Dbl → Dbl → Bool
  | .nan, _ => false
  | _, .nan => false
  | .ninf, .ninf => false
  | .ninf, _ => true
  | .fin _, .ninf => false
  | .fin a, .fin b => decide (a < b)
  | .fin _, .pinf => true
  | .pinf, _ => false

/-- IEEE division without rounding; the sign of a zero divisor is not tracked (`neg` says which sign it has). -/
def Dbl.div (neg : Bool) : Dbl → Dbl → Dbl
  | .nan, _ => .nan
  | _, .nan => .nan
  | .fin a, .fin b =>
    if b = 0 then (if a = 0 then .nan else if (decide (a < 0)) ^^ neg then .ninf else .pinf) else .fin (a / b)
  | .fin _, .pinf => .fin 0
  | .fin _, .ninf => .fin 0
  | .pinf, .fin b => if decide (b < 0) || (decide (b = 0) && neg) then .ninf else .pinf
  | .ninf, .fin b => if decide (b < 0) || (decide (b = 0) && neg) then .pinf else .ninf
  | _, _ => .nan

/-- `std::max(a, b)`: `(a < b) ? b : a`. -/
def Dbl.max (a b : Dbl) : Dbl := if a.lt b then b else a
/-- `std::min(a, b)`: `(b < a) ? b : a`. -/
def Dbl.min (a b : Dbl) : Dbl := if b.lt a then b else a

/-- `adjustCheckpointInterval` (src/tmr/adaptive_protection.cpp:25-56): the new interval; `onePlusSolar` is the `double`
`1.0 + env.solar_activity`, the signs of zero divisors are arbitrary. -/
def adjustInterval (base temp stress synergy onePlusSolar : Dbl) (saa : Bool) (n1 n2 n3 n4 : Bool) : Dbl :=
  let x := Dbl.div n1 base temp
  let x := Dbl.div n2 x stress
  let x := Dbl.div n3 x synergy
  let x := if saa then Dbl.div false x (.fin 2) else x
  let x := Dbl.div n4 x onePlusSolar
  Dbl.max (.fin 10) (Dbl.min (.fin 3600) x)

/-! ### `LayerProtectionPolicy` (src/tmr/adaptive_protection.cpp:62-123) -/

/-- The two vectors. -/
structure Policy where
  levels : List Level
  sens : List ℚ

/-- Constructor for `n ≥ 0` layers (src/tmr/adaptive_protection.cpp:62-66). -/
def Policy.new (n : Nat) : Policy := ⟨List.replicate n 1, List.replicate n (5 / 10)⟩

/-- `setLayerProtection` (:68-72). -/
def Policy.setLevel (p : Policy) (i : Int) (l : Level) : Policy :=
  if i ≥ 0 ∧ i < p.levels.length then { p with levels := p.levels.set i.toNat l } else p
/-- `getLayerProtection` (:74-79). -/
def Policy.getLevel (p : Policy) (i : Int) : Level :=
  if i ≥ 0 ∧ i < p.levels.length then p.levels.getD i.toNat 1 else 1
/-- `setLayerSensitivity` (:81-85). -/
def Policy.setSens (p : Policy) (i : Int) (s : ℚ) : Policy :=
  if i ≥ 0 ∧ i < p.sens.length then { p with sens := p.sens.set i.toNat s } else p

/-- The level chosen for layer `i` of `n` with sensitivity `s` (:97-118). -/
def layerLevel (e : Env) (n i : Nat) (s : ℚ) : Level :=
  let need := s * (1 - (i : ℚ) / n * (5 / 10))
  if e.saa = true ∨ e.solar > 7 / 10 ∨ need > 8 / 10 then 5
  else if e.solar > 5 / 10 ∨ need > 6 / 10 then 4
  else if e.solar > 3 / 10 ∨ need > 4 / 10 then 2
  else 1

/-- `optimizeProtection` (:87-123); `none`: `layer_sensitivities[i]` out of range. -/
def Policy.optimize (p : Policy) (e : Env) : Option Policy :=
  if p.sens.length < p.levels.length then none
  else some { p with levels := (List.range p.levels.length).map fun i => layerLevel e p.levels.length i (p.sens.getD i 0) }

/-- Calls. -/
inductive PolicyOp where
  | setLevel (i : Int) (l : Level)
  | setSens (i : Int) (s : ℚ)
  | optimize (e : Env)

/-- One call. -/
def Policy.step (p : Policy) : PolicyOp → Option Policy
  | .setLevel i l => some (p.setLevel i l)
  | .setSens i s => some (p.setSens i s)
  | .optimize e => p.optimize e

/-- A history. -/
def Policy.run (p : Policy) : List PolicyOp → Option Policy
  | [] => some p
  | o :: l => (p.step o).bind fun q => q.run l

/-! ### `MissionAwareProtectionController` (adaptive_protection.hpp:314-352) -/

/-- The members.  `env` is `none` until `updateEnvironment` is called: `RadiationEnvironment` has no initialisers. -/
structure Ctrl where
  level : Level := 1
  env : Option Env := none
  phases : String → Option Level

/-- Constructor (src/tmr/adaptive_protection.cpp:129-141). -/
def Ctrl.new : Ctrl :=
  { phases := fun s =>
      if s = "LAUNCH" then some 5 else if s = "ORBIT_INSERTION" then some 5 else if s = "NORMAL_OPERATION" then some 1
      else if s = "SAA_CROSSING" then some 5 else if s = "SOLAR_STORM" then some 5 else if s = "CRITICAL_OPERATION" then some 5
      else if s = "LOW_POWER" then some 2 else if s = "SAFE_MODE" then some 5 else none }

/-- The level chosen for an environment (src/tmr/adaptive_protection.cpp:147-157). -/
def envLevel (e : Env) : Level :=
  if e.saa then 5 else if e.solar > 7 / 10 then 5 else if e.solar > 5 / 10 then 4 else if e.solar > 3 / 10 then 2 else 1

/-- `updateEnvironment` (src/tmr/adaptive_protection.cpp:143-158). -/
def Ctrl.updateEnv (c : Ctrl) (e : Env) : Ctrl := { c with env := some e, level := envLevel e }
/-- `setMissionPhaseProtection` (:160-162). -/
def Ctrl.setPhase (c : Ctrl) (n : String) (l : Level) : Ctrl :=
  { c with phases := fun s => if s = n then some l else c.phases s }
/-- `enterMissionPhase` (:164-169). -/
def Ctrl.enter (c : Ctrl) (n : String) : Ctrl :=
  match c.phases n with
  | some l => { c with level := l }
  | none => c

/-- `createCurrentStrategy` (adaptive_protection_impl.hpp:707-728): the level of the strategy created and its delay in
milliseconds if it is a `HybridRedundancy`.  Reading the indeterminate `saa_region` is undefined. -/
def Ctrl.create (c : Ctrl) : Outcome (Level × Option Nat) :=
  if c.level = 1 then .ok (1, none)
  else if c.level = 2 then .ok (2, none)
  else if c.level = 3 then .ok (3, none)
  else if c.level = 4 then .ok (4, none)
  else if c.level = 5 then (match c.env with
    | some e => .ok (5, some (if e.saa then 100 else 50))
    | none => .ub)
  else .ok (1, none)

/-- Calls. -/
inductive CtrlOp where
  | updateEnv (e : Env)
  | setPhase (n : String) (l : Level)
  | enter (n : String)

/-- One call. -/
def Ctrl.step (c : Ctrl) : CtrlOp → Ctrl
  | .updateEnv e => c.updateEnv e
  | .setPhase n l => c.setPhase n l
  | .enter n => c.enter n

/-- A history. -/
def Ctrl.run (c : Ctrl) (ops : List CtrlOp) : Ctrl := ops.foldl Ctrl.step c

end Verif.Strat
