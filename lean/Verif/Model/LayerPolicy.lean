import Verif.Model.Topology
import Verif.Model.Hardening
import Mathlib.Analysis.SpecialFunctions.Exp
/-!
Model of /repo/include/rad_ml/neural/layer_protection_policy.hpp: protection policies of layers and their manager.

The header includes selective_hardening.hpp, which does not compile; it is modelled as its text defines it.  Doubles are real numbers: every divisor is
shown positive where the code divides.  `std::map` is a list of entries with distinct keys; iteration visits every entry once, and sums do not depend on the order.
A policy reached through `getPolicy` is shared with the manager, so its setters are operations of the manager.
-/
namespace Verif.LayerPolicy
open Classical
open Verif.Topology (Text)
open Verif.Hardening (Level)

/-- `MissionProfile` of this header (layer_protection_policy.hpp:17-24). -/
inductive Mission where
  | earthOrbit | deepSpace | lunar | mars | jupiter | solar
  deriving DecidableEq

/-- `HardeningStrategy` (selective_hardening.hpp:94-103) as far as it is told apart here. -/
inductive Strategy where
  | protectAll | fixedThreshold | resourceConstrained | other
  deriving DecidableEq

/-- The order of `ProtectionLevel` (selective_hardening.hpp:26-34), by which levels are compared. -/
def ord : Level → ℕ
  | .none => 0
  | .checksum => 1
  | .recovery => 2
  | .selective => 3
  | .approximate => 4
  | .health => 5
  | .full => 6

/-- `ProtectionConfig` (layer_protection_policy.hpp:34-40). -/
structure Config where
  level : Level
  allocation : ℝ
  dynamic : Bool
  strategy : Text
  mission : Mission := .earthOrbit

/-- `setResourceAllocation` (layer_protection_policy.hpp:121-125). -/
noncomputable def Config.setAllocation (c : Config) (a : ℝ) : Config :=
  let a := if a < 0 then 0 else a
  let a := if 1 < a then 1 else a
  { c with allocation := a }

/-- Raise to a level (layer_protection_policy.hpp:159-161, 167-169, 174-176). -/
def Config.atLeast (c : Config) (l : Level) : Config := if ord c.level < ord l then { c with level := l } else c

/-- `"solar_optimized"` (layer_protection_policy.hpp:192). -/
def solarName : Text := "solar_optimized".toList

/-- `setMissionProfile` with `adjustProtectionForMission` (layer_protection_policy.hpp:141-196). -/
noncomputable def Config.setMission (c : Config) (m : Mission) : Config :=
  let c := { c with mission := m }
  match m with
  | .earthOrbit => c
  | .deepSpace => { c.atLeast .health with dynamic := true }
  | .lunar => c.atLeast .selective
  | .mars => let c := c.atLeast .selective; { c with allocation := min 1 (c.allocation * (12 / 10)) }
  | .jupiter => { c with level := .full, dynamic := true, allocation := min 1 (c.allocation * (15 / 10)) }
  | .solar => { c with level := .full, dynamic := true, strategy := solarName }

/-- `policies_` (layer_protection_policy.hpp:466). -/
abbrev Manager := List (Text × Config)

/-- `addProtectionPolicy` (layer_protection_policy.hpp:213-218). -/
noncomputable def add (n : Text) (c : Config) : Manager → Manager
  | [] => [(n, c)]
  | e :: es => if e.1 = n then (n, c) :: es else e :: add n c es

/-- `getPolicy` (layer_protection_policy.hpp:226-232), the value behind the pointer. -/
noncomputable def get (m : Manager) (n : Text) : Option Config := (m.find? fun e => decide (e.1 = n)).map Prod.snd

/-- `hasPolicy` (layer_protection_policy.hpp:240-242). -/
noncomputable def has (m : Manager) (n : Text) : Bool := (m.find? fun e => decide (e.1 = n)).isSome

/-- `getPolicyLayers` (layer_protection_policy.hpp:249-255). -/
def layers (m : Manager) : List Text := m.map Prod.fst

/-- `removePolicy` (layer_protection_policy.hpp:263-270): the result and the manager. -/
noncomputable def remove (m : Manager) (n : Text) : Bool × Manager :=
  if has m n then (true, m.filter fun e => decide (e.1 ≠ n)) else (false, m)

/-- A change of every policy in a loop over the map, or of one policy through its pointer. -/
def update (f : Text → Config → Config) (m : Manager) : Manager := m.map fun e => (e.1, f e.1 e.2)

/-- The values `determineProtectionLevel` compares with (layer_protection_policy.hpp:475-502). -/
noncomputable def levelFor (c : ℝ) : Strategy → Level
  | .fixedThreshold => if 8 / 10 < c then .full else if 6 / 10 < c then .approximate else if 4 / 10 < c then .recovery else if 2 / 10 < c then .checksum else .none
  | .resourceConstrained =>
    if 9 / 10 < c then .full else if 75 / 100 < c then .approximate else if 6 / 10 < c then .selective else if 4 / 10 < c then .recovery else if 2 / 10 < c then .checksum else .none
  | _ => if 5 / 10 < c then .recovery else if 2 / 10 < c then .checksum else .none

/-- `TopologicalAnalysisResult` as the manager reads it (layer_protection_policy.hpp:279-315, 407-420, 512-540); criticalities are the entries of `layer_criticality`. -/
structure Result where
  crit : List (Text × ℝ)
  paths : List Text
  bottleneck : Text → Option ℝ
  fanOut : Text → Option ℕ

/-- `getStrategyVariant` (layer_protection_policy.hpp:512-540). -/
noncomputable def variant (r : Result) (n : Text) (c : ℝ) : Text :=
  if ∃ b, r.bottleneck n = some b ∧ 5 / 10 < b then "bottleneck_protection".toList
  else if ∃ k, r.fanOut n = some k ∧ 2 < k then "fanout_isolation".toList
  else if ∃ p ∈ r.paths, n <:+: p then "critical_path_protection".toList
  else if 8 / 10 < c then "high_criticality".toList
  else if 5 / 10 < c then "medium_criticality".toList
  else "low_criticality".toList

/-- `total_criticality` (layer_protection_policy.hpp:287-291). -/
noncomputable def totalCrit (r : Result) : ℝ := (r.crit.map Prod.snd).sum

/-- The configuration of a new policy (layer_protection_policy.hpp:299-313). -/
noncomputable def configFor (r : Result) (budget : ℝ) (s : Strategy) (e : Text × ℝ) : Config where
  level := levelFor e.2 s
  allocation := e.2 / totalCrit r * budget
  dynamic := decide (7 / 10 < e.2)
  strategy := variant r e.1 e.2

/-- `createPoliciesFromAnalysis` (layer_protection_policy.hpp:279-315). -/
noncomputable def create (r : Result) (budget : ℝ := 1) (s : Strategy := .resourceConstrained) : Manager :=
  if totalCrit r ≤ 0 then [] else r.crit.foldl (fun m e => add e.1 (configFor r budget s e) m) []

/-- The sum of the allocations (layer_protection_policy.hpp:354-359). -/
noncomputable def total (m : Manager) : ℝ := (m.map fun e => e.2.allocation).sum

/-- `normalizeResourceAllocations` (layer_protection_policy.hpp:353-368). -/
noncomputable def normalize (m : Manager) : Manager :=
  if total m ≤ 0 then m else update (fun _ c => c.setAllocation (c.allocation / total m)) m

/-- `decay_factor` (layer_protection_policy.hpp:338). -/
noncomputable def decay (networkDepth depth : ℤ) : ℝ := Real.exp (-2 * depth / networkDepth)

/-- The change of one policy (layer_protection_policy.hpp:333-343). -/
noncomputable def decayOne (networkDepth : ℤ) (depths : Text → Option ℤ) (n : Text) (c : Config) : Config :=
  match depths n with
  | some d => c.setAllocation (c.allocation * decay networkDepth d)
  | none => c

/-- `applyImportanceDecayStrategy` (layer_protection_policy.hpp:325-348). -/
noncomputable def applyDecay (networkDepth : ℤ) (depths : Text → Option ℤ) (m : Manager) : Manager :=
  if networkDepth ≤ 0 then m else normalize (update (decayOne networkDepth depths) m)

/-- `path.find(layer_name)` (layer_protection_policy.hpp:409). -/
noncomputable def firstPos (n path : Text) : Option ℕ := (List.range (path.length + 1)).find? fun i => decide (n <+: path.drop i)

/-- Arrows that begin before a position (layer_protection_policy.hpp:411-417). -/
noncomputable def arrowsBefore (path : Text) (pos : ℕ) : ℕ := ((List.range pos).filter fun i => decide ((path.drop i).take 4 = Topology.arrow)).length

/-- The depth of a layer (layer_protection_policy.hpp:405-421). -/
noncomputable def depthOf (paths : List Text) (n : Text) : ℕ :=
  paths.foldl (fun d p => match firstPos n p with
    | some pos => max d (arrowsBefore p pos)
    | none => d) 0

/-- `max_depth` (layer_protection_policy.hpp:402-423). -/
noncomputable def maxDepth (paths : List Text) (names : List Text) : ℕ := names.foldl (fun d n => max d (depthOf paths n)) 0

/-- `ensureInputLayersProtection` (layer_protection_policy.hpp:441-454); the second and third condition imply the first. -/
noncomputable def ensureInput (l : Level) (m : Manager) : Manager := update (fun n c => if ['i', 'n', 'p', 'u', 't'] <:+: n then c.atLeast l else c) m

/-- `enableDynamicAdjustment` (layer_protection_policy.hpp:459-463). -/
def enableDynamic (m : Manager) : Manager := update (fun _ c => { c with dynamic := true }) m

/-- `configureForMission` (layer_protection_policy.hpp:376-436); `paths` are those of the analysis, if one is given. -/
noncomputable def configure (mission : Mission) (paths : Option (List Text)) (m : Manager) : Manager :=
  let m := update (fun _ c => c.setMission mission) m
  match mission with
  | .jupiter => ensureInput .health m
  | .solar => enableDynamic m
  | .deepSpace => match paths with
    | some ps => applyDecay (maxDepth ps (layers m)) (fun n => if n ∈ layers m then some (depthOf ps n : ℤ) else none) m
    | none => m
  | _ => m

/-- The operations of a manager and of the policies it hands out (layer_protection_policy.hpp:112-145, 213-463). -/
inductive Op where
  | add (n : Text) (c : Config)
  | remove (n : Text)
  | setLevel (n : Text) (l : Level)
  | setAllocation (n : Text) (a : ℝ)
  | setDynamic (n : Text) (b : Bool)
  | setMission (n : Text) (m : Mission)
  | create (r : Result) (budget : ℝ) (s : Strategy)
  | decay (networkDepth : ℤ) (depths : Text → Option ℤ)
  | normalize
  | configure (mission : Mission) (paths : Option (List Text))
  | ensureInput (l : Level)
  | enableDynamic

/-- The change of one policy through its pointer, if there is one (layer_protection_policy.hpp:112-145, 226-232). -/
noncomputable def one (n : Text) (f : Config → Config) (m : Manager) : Manager := update (fun k c => if k = n then f c else c) m

/-- One operation. -/
noncomputable def step (m : Manager) : Op → Manager
  | .add n c => LayerPolicy.add n c m
  | .remove n => (LayerPolicy.remove m n).2
  | .setLevel n l => one n (fun c => { c with level := l }) m
  | .setAllocation n a => one n (fun c => c.setAllocation a) m
  | .setDynamic n b => one n (fun c => { c with dynamic := b }) m
  | .setMission n x => one n (fun c => c.setMission x) m
  | .create r b s => LayerPolicy.create r b s
  | .decay d ds => applyDecay d ds m
  | .normalize => LayerPolicy.normalize m
  | .configure x ps => LayerPolicy.configure x ps m
  | .ensureInput l => LayerPolicy.ensureInput l m
  | .enableDynamic => LayerPolicy.enableDynamic m

/-- A manager after a sequence of operations. -/
noncomputable def run (ops : List Op) : Manager := ops.foldl step []

end Verif.LayerPolicy
