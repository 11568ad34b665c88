import Mathlib.Analysis.SpecialFunctions.Exp
import Mathlib.Algebra.Order.Floor.Defs
import Mathlib.Algebra.Order.Round
import Verif.Model.Strategies
/-!
Model of /repo/include/rad_ml/tmr/physics_driven_protection.hpp: the physics formulas, the resource allocator, the multi-scale manager,
the protection system and the example neural layer.

Doubles are exact reals (`exp` is the real exponential); a division by zero is treated case by case as noted.  Time is in nanoseconds.
-/
namespace Verif.Phys
open Verif Verif.Strat

/-! ### `PhysicsModels` -/

/-- `calculateTemperatureCorrectedThreshold` (physics_driven_protection.hpp:33-47).  At 0 K the reciprocal is +inf and the exponential 0. -/
noncomputable def tempThreshold (base T : ℝ) : ℝ :=
  base * (if T = 0 then 0 else Real.exp (-(4 / 100) / (8617 / 10 ^ 8) * (1 / T - 1 / 295)))

/-- `normalized_stress` (physics_driven_protection.hpp:64, 94).  For yield strength 0 and a stress ≥ 0 the quotient is +inf or NaN and
`std::min(1.0, _)` is 1; yield strength 0 with a negative stress (-inf) is not modelled. -/
noncomputable def normStress (stress yield : ℝ) : ℝ := if yield = 0 then 1 else min 1 (stress / yield)

/-- `calculateMechanicalLoadFactor` (physics_driven_protection.hpp:58-77). -/
noncomputable def loadFactor (stress yield dose : ℝ) : ℝ := (1 + 2 * normStress stress yield ^ 2) * (1 + 1 / 100 * dose)

/-- `calculateSynergyFactor` (physics_driven_protection.hpp:88-114). -/
noncomputable def synergyFactor (T stress yield : ℝ) : ℝ :=
  let n := normStress stress yield
  let s : ℝ := if T > 350 ∧ n > 3 / 10 then 3 / 2 else 1
  let tempScale := max 0 ((T - 300) / 50)
  let stressScale := max 0 ((n - 1 / 10) / (2 / 10))
  max s (1 + 1 / 2 * min 1 (tempScale * stressScale))

/-! ### Environment -/

/-- The members of `sim::RadiationEnvironment` read here (sim/mission_environment.hpp:32-52): those of `Strat.Env` and the temperatures. -/
structure PEnv extends Env where
  tmin : ℚ
  tmax : ℚ

/-- Mean temperature (physics_driven_protection.hpp:150, 402, 486). -/
def PEnv.temp (e : PEnv) : ℚ := (e.tmin + e.tmax) / 2
/-- `radiation_dose` (physics_driven_protection.hpp:151, 489). -/
def PEnv.dose (e : PEnv) : ℚ := (e.proton + e.electron) * (1 / 100000)

/-! ### `SensitivityBasedResourceAllocator` -/

/-- `calculateEnvironmentSeverity` (physics_driven_protection.hpp:207-228). -/
noncomputable def severity (e : PEnv) : ℝ :=
  let s := (e.dose : ℝ) * (1 / 1000) * tempThreshold 1 e.temp * (1 + e.solar)
  if e.saa then s * 2 else s

/-- `importance_factors[i]` (physics_driven_protection.hpp:160-161). -/
noncomputable def importance (sens : List ℝ) (sev : ℝ) (i : Nat) : ℝ :=
  sens.getD i 0 * sev * (1 - 1 / 2 * (i : ℝ) / (sens.length : ℝ))

/-- `optimizeResourceAllocation` (physics_driven_protection.hpp:141-177) for resources `total`: the new `allocated_resources`. -/
noncomputable def allocate (total : ℝ) (sens : List ℝ) (sev : ℝ) : List ℝ :=
  let sum := ((List.range sens.length).map (importance sens sev)).sum
  (List.range sens.length).map fun i => if sum > 0 then importance sens sev i / sum * total else total / (sens.length : ℝ)

/-- The thresholds of `getProtectionLevel` (physics_driven_protection.hpp:192-200). -/
noncomputable def resourceLevel (r : ℝ) : Level := if r < 3 / 10 then 1 else if r < 6 / 10 then 2 else if r < 8 / 10 then 4 else 5

/-- `getProtectionLevel` (physics_driven_protection.hpp:184-201). -/
noncomputable def allocLevel (alloc : List ℝ) (i : Int) : Level :=
  if i < 0 ∨ i ≥ alloc.length then 1 else resourceLevel (alloc.getD i.toNat 0)

/-! ### `MultiScaleProtectionManager` -/

/-- `static_cast<int>` of a finite double: truncation, undefined if the result does not fit. -/
noncomputable def castInt (x : ℝ) : Outcome ℤ :=
  if -(2 ^ 31) - 1 < x ∧ x < 2 ^ 31 then .ok (if 0 ≤ x then ⌊x⌋ else ⌈x⌉) else .ub

/-- The members (physics_driven_protection.hpp:246-252); scales MICROSECOND 0, SECOND 1, MINUTE 2, HOUR 3, DAY 4 (lines 237-243). -/
structure Multi where
  last : Fin 5 → ℤ
  state : Fin 5 → ℤ

/-- Constructor at time `t0` (physics_driven_protection.hpp:255-274). -/
def Multi.new (t0 : ℤ) : Multi := ⟨fun _ => t0, fun _ => 0⟩

/-- `update_intervals` in nanoseconds (physics_driven_protection.hpp:269-273). -/
def interval (s : Fin 5) : ℤ :=
  match s with
  | 0 => 1 * 10 ^ 6
  | 1 => 1000 * 10 ^ 6
  | 2 => 60000 * 10 ^ 6
  | 3 => 3600000 * 10 ^ 6
  | 4 => 86400000 * 10 ^ 6

/-- `updateProtectionAtScale` and the three helpers it calls (physics_driven_protection.hpp:345-420) for a material of radiation tolerance
`tol`: the new state.  Tolerance 0 makes `health_metric` infinite or NaN, whose conversion is undefined. -/
noncomputable def scaleState (s : Fin 5) (e : PEnv) (tol : ℚ) : Outcome ℤ :=
  match s with
  | 0 => castInt ((e.proton : ℝ) / 10 ^ 7)
  | 1 => .ok (if e.saa then 10 else if e.solar > 7 / 10 then 8 else 5)
  | 2 => if e.saa then .ok 10 else if e.solar > 8 / 10 then .ok 9 else if e.solar > 5 / 10 then .ok 7
      else (castInt (((e.proton : ℝ) + e.electron) / 10 ^ 8 * 10)).bind fun k => .ok (min 10 k)
  | 3 => if tol = 0 then .ub else (castInt (5 * tempThreshold 1 e.temp / ((tol : ℝ) / 100))).bind fun k => .ok (min 10 k)
  | 4 => (castInt ((e.solar : ℝ) * 10)).bind fun k => .ok (min 10 k)

/-- The loop of `updateProtection` (physics_driven_protection.hpp:290-305) over the remaining scales. -/
noncomputable def scaleLoop (now : ℤ) (e : PEnv) (tol : ℚ) : List (Fin 5) → Multi × Fin 5 → Outcome (Multi × Fin 5)
  | [], m => .ok m
  | s :: l, (m, high) =>
    if now - m.last s ≥ interval s then
      (scaleState s e tol).bind fun k =>
        scaleLoop now e tol l (⟨Function.update m.last s now, Function.update m.state s k⟩, s)
    else scaleLoop now e tol l (m, high)

/-- `updateProtection` (physics_driven_protection.hpp:282-307): the new state and the returned time scale. -/
noncomputable def Multi.update (m : Multi) (now : ℤ) (e : PEnv) (tol : ℚ) : Outcome (Multi × Fin 5) :=
  scaleLoop now e tol [0, 1, 2, 3, 4] (m, 0)

/-- `scale_weight` (physics_driven_protection.hpp:325-332). -/
def weight (s : Fin 5) : ℚ :=
  match s with
  | 0 => 2 / 10
  | 1 => 3 / 10
  | 2 => 2 / 10
  | 3 => 2 / 10
  | 4 => 1 / 10

/-- `getProtectionFactor` (physics_driven_protection.hpp:313-339). -/
def Multi.factor (m : Multi) : ℚ :=
  [0, 1, 2, 3, 4].foldl (fun f s => f * (1 + weight s * (m.state s : ℚ) / 10)) 1

/-! ### `PhysicsDrivenProtection` -/

/-- The members (physics_driven_protection.hpp:428-442); `tol` and `yield` are the two material properties read. -/
structure PDP where
  tol : ℚ
  yield : ℚ
  ctrl : Ctrl
  policy : Policy
  ckpt : ℝ
  alloc : List ℝ
  multi : Multi
  sens : List ℚ
  tempF : ℝ
  stressF : ℝ
  synF : ℝ

/-- Constructor at time `t0` (physics_driven_protection.hpp:450-460). -/
noncomputable def PDP.new (tol yield : ℚ) (n : Nat) (t0 : ℤ) : PDP :=
  { tol, yield, ctrl := Ctrl.new, policy := Policy.new n, ckpt := 300, alloc := List.replicate n (1 / (n : ℝ)), multi := Multi.new t0,
    sens := List.replicate n (1 / 2), tempF := 1, stressF := 1, synF := 1 }

/-- `setLayerSensitivity` (physics_driven_protection.hpp:467-472). -/
def PDP.setSens (p : PDP) (i : Int) (s : ℚ) : PDP :=
  if i ≥ 0 ∧ i < p.sens.length then { p with sens := p.sens.set i.toNat s, policy := p.policy.setSens i s } else p

/-- `adjustCheckpointInterval` (src/tmr/adaptive_protection.cpp:25-56) with base interval 300, for nonzero divisors. -/
noncomputable def ckptInterval (e : PEnv) (tempF stressF synF : ℝ) : ℝ :=
  let x := 300 / tempF / stressF / synF
  let x := if e.saa then x / 2 else x
  max 10 (min 3600 (x / (1 + e.solar)))

/-- `updateEnvironment` (physics_driven_protection.hpp:479-518) at time `now`. -/
noncomputable def PDP.update (p : PDP) (now : ℤ) (e : PEnv) (stress : ℚ) : Outcome PDP :=
  let tf := tempThreshold 1 e.temp
  let sf := loadFactor stress p.yield e.dose
  let yf := synergyFactor e.temp stress p.yield
  match p.policy.optimize e.toEnv with
  | none => .ub
  | some pol =>
    (p.multi.update now e p.tol).bind fun mr =>
      .ok { p with tempF := tf, stressF := sf, synF := yf, ctrl := p.ctrl.updateEnv e.toEnv, policy := pol, ckpt := ckptInterval e tf sf yf,
                   alloc := allocate 1 (p.sens.map fun q => ((q : ℚ) : ℝ)) (severity e), multi := mr.1 }

/-- `enterMissionPhase` (physics_driven_protection.hpp:584-586). -/
def PDP.enter (p : PDP) (name : String) : PDP := { p with ctrl := p.ctrl.enter name }

/-- The level chosen by `executeProtected` (physics_driven_protection.hpp:534-540). -/
noncomputable def PDP.level (p : PDP) (i : Int) : Level :=
  if allocLevel p.alloc i > p.policy.getLevel i then allocLevel p.alloc i else p.policy.getLevel i

variable {α : Type}

/-- How the strategy for `level` runs an operation whose `k`-th execution returns `op k` (adaptive_protection_impl.hpp); `stuck` and `fix` are
the helpers of `StuckBitTMR`, a fresh `HealthWeightedTMR` has full health. -/
def strategy (eq : α → α → Bool) (sum : α → Option Nat) (stuck : α → Bool) (fix : α → α → α → α) (level : Level) (op : Nat → α) :
    Outcome (Result α) :=
  if level = 1 then .ok (execBasic eq (op 0) (op 1) (op 2))
  else if level = 2 then execEnhanced eq sum (op 0) (op 1) (op 2)
  else if level = 3 then .ok (execStuck eq stuck fix (op 0) (op 1) (op 2))
  else if level = 4 then .ok (execHealth eq {} (op 0) (op 1) (op 2)).1
  else if level = 5 then .ok (execHybrid eq (op 0) (op 1) (op 2))
  else .ok (execBasic eq (op 0) (op 1) (op 2))

/-- `executeProtected` (physics_driven_protection.hpp:528-574); the criticality is only passed on to the mission controller. -/
noncomputable def PDP.execute (eq : α → α → Bool) (sum : α → Option Nat) (stuck : α → Bool) (fix : α → α → α → α) (p : PDP) (i : Int)
    (op : Nat → α) (_criticality : ℚ) : Outcome (Result α) :=
  if p.level i ≠ 0 then strategy eq sum stuck fix (p.level i) op
  else p.ctrl.create.bind fun c => strategy eq sum stuck fix c.1 op

/-- The delay between executions, in milliseconds, at level HYBRID_REDUNDANCY (physics_driven_protection.hpp:559). -/
def PDP.delay (p : PDP) : ℚ := 50 * p.multi.factor

/-- Calls. -/
inductive PDPOp where
  | setSens (i : Int) (s : ℚ)
  | update (now : ℤ) (e : PEnv) (stress : ℚ)
  | enter (name : String)

/-- One call. -/
noncomputable def PDP.step (p : PDP) : PDPOp → Outcome PDP
  | .setSens i s => .ok (p.setSens i s)
  | .update now e stress => p.update now e stress
  | .enter n => .ok (p.enter n)

/-- A history. -/
noncomputable def PDP.run (p : PDP) : List PDPOp → Outcome PDP
  | [] => .ok p
  | o :: l => (p.step o).bind fun q => q.run l

/-! ### `ProtectedNeuralLayer` -/

/-- The arithmetic of the element type. -/
structure Num (α : Type) where
  add : α → α → α
  mul : α → α → α
  /-- `x > 0` -/
  pos : α → Bool
  zero : α
  /-- `==` -/
  eq : α → α → Bool

/-- The two vectors (physics_driven_protection.hpp:626-627). -/
structure Layer (α : Type) where
  weights : List α
  biases : List α

/-- `forward_op` (physics_driven_protection.hpp:670-697); dividing by the empty input's size is undefined. -/
def Layer.forwardOp (N : Num α) (L : Layer α) (inputs : List α) : Outcome (List α) :=
  if L.weights = [] ∨ L.biases = [] then .ok []
  else if inputs.length = 0 then .ub
  else
    let out := L.weights.length / inputs.length
    if out = 0 ∨ out ≠ L.biases.length then .ok []
    else .ok ((List.range out).map fun i =>
      let x := forN inputs.length (fun j s => N.add s (N.mul (L.weights.getD (i * inputs.length + j) N.zero) (inputs.getD j N.zero)))
        (L.biases.getD i N.zero)
      if N.pos x then x else N.zero)

/-- `forward` (physics_driven_protection.hpp:668-704) of the layer with index `i`; the checksum of a vector is the constant 0
(adaptive_protection_impl.hpp:84-90). -/
noncomputable def Layer.forward (N : Num α) (stuck : List α → Bool) (L : Layer α) (p : PDP) (i : Int) (criticality : ℚ) (inputs : List α) :
    Outcome (List α) :=
  (L.forwardOp N inputs).bind fun r =>
    (p.execute (vecEq N.eq) (fun _ => some 0) stuck fixVec i (fun _ => r) criticality).bind fun t => .ok t.value

/-- `setWeights` (physics_driven_protection.hpp:642-650): the executions of the update all succeed, so every strategy has run it. -/
def Layer.setWeights (L : Layer α) (w : List α) : Layer α := { L with weights := w }
/-- `setBiases` (physics_driven_protection.hpp:655-663). -/
def Layer.setBiases (L : Layer α) (b : List α) : Layer α := { L with biases := b }

end Verif.Phys
