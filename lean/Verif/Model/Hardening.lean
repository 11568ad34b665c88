import Verif.Spec.XReal
import Mathlib.Data.List.Dedup
import Mathlib.Logic.Function.Basic
import Mathlib.Data.Real.Basic
/-!
Model of /repo/include/rad_ml/neural/selective_hardening.hpp: criticality scores, the three hardening strategies that are defined
(fixed threshold, resource constrained, layerwise importance), the adaptive update and the estimates of resource usage and error rates.

The header does not compile: `analyzeAndProtect` passes two arguments to strategies defined with one and calls four strategies that
are defined nowhere, and `applyProtection` returns different types from one `auto` function.  The strategies are modelled as they are
defined, `analyzeAndProtect` as the composition its text describes for the strategies that exist; `applyProtection` and the text report are left out.

Doubles are real numbers; scores, which are quotients by a sum of weights, are ideal doubles.  `std::map` is a function from keys to
values: iteration over a map visits every key once, and in real arithmetic sums do not depend on the order.  `std::sort` may
place equivalent elements in any order: the sorted list is an argument, `Ranked` says what it may be.
-/
namespace Verif.Hardening
open Classical

/-- `ProtectionLevel` (selective_hardening.hpp:26-34). -/
inductive Level where
  | none | checksum | recovery | selective | approximate | health | full
  deriving DecidableEq

/-- `CriticalityMetrics` (selective_hardening.hpp:39-44). -/
structure Metrics where
  sensitivity : ℝ
  frequency : ℝ
  influence : ℝ
  complexity : ℝ
  memory : ℝ

/-- The five entries of the weight map that are looked up (selective_hardening.hpp:54-58). -/
structure Weights where
  sensitivity : Option ℝ := none
  frequency : Option ℝ := none
  influence : Option ℝ := none
  complexity : Option ℝ := none
  memory : Option ℝ := none

/-- The sum of the weights (selective_hardening.hpp:54-61). -/
noncomputable def Weights.sum (w : Weights) : ℝ :=
  w.sensitivity.getD (35 / 100) + w.frequency.getD (2 / 10) + w.influence.getD (3 / 10) + w.complexity.getD (1 / 10) + w.memory.getD (5 / 100)

/-- `calculateScore` (selective_hardening.hpp:52-74). -/
noncomputable def Metrics.score (m : Metrics) (w : Weights) : XD :=
  let n := fun x : ℝ => XD.div (.fin x) (.fin w.sum)
  XD.add (XD.add (XD.add (XD.add
    (XD.mul (.fin m.sensitivity) (n (w.sensitivity.getD (35 / 100))))
    (XD.mul (.fin m.frequency) (n (w.frequency.getD (2 / 10)))))
    (XD.mul (.fin m.influence) (n (w.influence.getD (3 / 10)))))
    (XD.mul (.fin m.complexity) (n (w.complexity.getD (1 / 10)))))
    (XD.mul (.fin m.memory) (n (w.memory.getD (5 / 100))))

/-- `NetworkComponent` (selective_hardening.hpp:80-89) without the members no strategy reads. -/
structure Component where
  id : String
  layer : String
  crit : Metrics

/-- `HardeningStrategy`, the strategies that are defined (selective_hardening.hpp:94-103). -/
inductive Strategy where
  | fixed | constrained | layerwise | adaptive
  deriving DecidableEq

/-- `HardeningConfig` (selective_hardening.hpp:120-125). -/
structure Config where
  strategy : Strategy
  threshold : ℝ
  budget : ℝ
  weights : Weights

/-- `defaultConfig` (selective_hardening.hpp:130-145). -/
noncomputable def Config.default : Config :=
  ⟨.constrained, 7 / 10, 3 / 10, ⟨some (35 / 100), some (2 / 10), some (3 / 10), some (1 / 10), some (5 / 100)⟩⟩

/-- `protection_map` (selective_hardening.hpp:111). -/
abbrev Map := String → Option Level

/-- `m[k] = l`. -/
def Map.set (m : Map) (k : String) (l : Level) : Map := Function.update m k (some l)

/-- The score of a component under a configuration. -/
noncomputable def Component.score (c : Component) (w : Weights) : XD := c.crit.score w

/-- What `std::sort` may leave (selective_hardening.hpp:191-196): the same components, none after one with a lower score. -/
def Ranked (w : Weights) (cs r : List Component) : Prop := r.Perm cs ∧ r.Pairwise fun a b => ¬ XD.lt (a.score w) (b.score w)

/-- Sum of scores in the order of the components (selective_hardening.hpp:514-517). -/
noncomputable def total (w : Weights) (cs : List Component) : XD := cs.foldl (fun s c => XD.add s (c.score w)) (.fin 0)

/-- `calculateLayerCriticality` (selective_hardening.hpp:502-520): the score of a layer, if it has components. -/
noncomputable def layerCriticality (w : Weights) (cs : List Component) (l : String) : Option XD :=
  let own := cs.filter fun c => c.layer = l
  if own = [] then none else some (XD.div (total w own) (.fin own.length))

/-- The level for a score (selective_hardening.hpp:531-545). -/
noncomputable def levelFor (t : ℝ) (s : XD) : Level :=
  if XD.le (.fin t) s then .full
  else if XD.le (.fin (t * (8 / 10))) s then .health
  else if XD.le (.fin (t * (6 / 10))) s then .approximate
  else if XD.le (.fin (t * (4 / 10))) s then .checksum
  else .none

/-- `applyFixedThresholdStrategy` (selective_hardening.hpp:527-547). -/
noncomputable def fixedThreshold (cfg : Config) (ranked : List Component) : Map :=
  ranked.foldl (fun m c => m.set c.id (levelFor cfg.threshold (c.score cfg.weights))) fun _ => none

/-- `level_costs` (selective_hardening.hpp:559-565, 698-704); a level that is not in the map is inserted with cost 0. -/
noncomputable def cost : Level → ℝ
  | .checksum => 5 / 100
  | .approximate => 15 / 100
  | .health => 25 / 100
  | .full => 33 / 100
  | _ => 0

/-- What a level costs a component (selective_hardening.hpp:581). -/
noncomputable def price (c : Component) (l : Level) : ℝ := cost l * (1 + c.crit.complexity)

/-- The highest level within the budget (selective_hardening.hpp:575-588). -/
noncomputable def affordable (budget usage : ℝ) (c : Component) : Option Level :=
  [Level.full, .health, .approximate, .checksum].find? fun l => decide (usage + price c l ≤ budget)

/-- The allocation loop (selective_hardening.hpp:573-594): map and usage. -/
noncomputable def allocate (budget : ℝ) : List Component → Map → ℝ → Map × ℝ
  | [], m, u => (m, u)
  | c :: cs, m, u =>
    match affordable budget u c with
    | some l =>
      if budget ≤ u + price c l then (m.set c.id l, u + price c l) else allocate budget cs (m.set c.id l) (u + price c l)
    | none => if budget ≤ u then (m, u) else allocate budget cs m u

/-- `applyResourceConstrainedStrategy` (selective_hardening.hpp:554-595). -/
noncomputable def constrained (cfg : Config) (ranked : List Component) : Map × ℝ :=
  allocate cfg.budget ranked (ranked.foldl (fun m c => m.set c.id .none) fun _ => none) 0

/-- The level of a layer at position `pos` of `n` (selective_hardening.hpp:635-654). -/
noncomputable def layerLevel (pos n : ℕ) : Level :=
  let p : ℝ := 1 - (pos : ℝ) / n
  if 8 / 10 ≤ p then .full else if 6 / 10 ≤ p then .health else if 4 / 10 ≤ p then .approximate else if 2 / 10 ≤ p then .checksum else .none

/-- The upgrade of highly critical components (selective_hardening.hpp:656-676). -/
def upgrade : Level → Level
  | .health => .full
  | .approximate => .health
  | .checksum => .approximate
  | .none => .checksum
  | l => l

/-- The level wanted for a component in a layer at a position (selective_hardening.hpp:635-676). -/
noncomputable def wanted (w : Weights) (pos n : ℕ) (c : Component) : Level :=
  if XD.lt (.fin (8 / 10)) (c.score w) then upgrade (layerLevel pos n) else layerLevel pos n

/-- The loop of `applyLayerwiseImportanceStrategy` (selective_hardening.hpp:619-686): map and usage. -/
noncomputable def assign (cfg : Config) (layers : List String) : List Component → Map → ℝ → Map × ℝ
  | [], m, u => (m, u)
  | c :: cs, m, u =>
    if c.layer ∈ layers then
      let l := wanted cfg.weights (layers.idxOf c.layer) layers.length c
      if u + cost l ≤ cfg.budget then assign cfg layers cs (m.set c.id l) (u + cost l) else assign cfg layers cs (m.set c.id .none) u
    else assign cfg layers cs m u

/-- What `std::sort` may leave of the layers (selective_hardening.hpp:604-613): each once, none after one with a lower score. -/
def Layers (w : Weights) (cs : List Component) (ls : List String) : Prop :=
  ls.Nodup ∧ (∀ l, l ∈ ls ↔ ∃ c ∈ cs, c.layer = l) ∧
  ls.Pairwise fun a b => ∀ x y, layerCriticality w cs a = some x → layerCriticality w cs b = some y → ¬ XD.lt x y

/-- `applyLayerwiseImportanceStrategy` (selective_hardening.hpp:602-687). -/
noncomputable def layerwise (cfg : Config) (layers : List String) (ranked : List Component) : Map × ℝ := assign cfg layers ranked (fun _ => none) 0

/-- `calculateResourceUsage` (selective_hardening.hpp:694-720): entries of the map that belong to a component, at the complexity of the first such component. -/
noncomputable def usage (ranked : List Component) (m : Map) : ℝ :=
  ((ranked.map Component.id).dedup.map fun i =>
    match m i, ranked.find? (fun c => c.id = i) with
    | some l, some c => price c l
    | _, _ => 0).sum

/-- `error_reduction` (selective_hardening.hpp:733-739); a level that is not in the map is inserted with reduction 0. -/
noncomputable def reduction : Level → ℝ
  | .checksum => 3 / 10
  | .approximate => 7 / 10
  | .health => 9 / 10
  | .full => 99 / 100
  | _ => 0

/-- `baseline_error_rate` (selective_hardening.hpp:741-743). -/
noncomputable def baseline (ranked : List Component) : ℝ := (ranked.map fun c => c.crit.sensitivity * (1 / 100)).sum

/-- `expected_error_rate` (selective_hardening.hpp:741-756). -/
noncomputable def expected (ranked : List Component) (m : Map) : ℝ :=
  (ranked.map fun c => c.crit.sensitivity * (1 / 100) * (1 - reduction ((m c.id).getD .none))).sum

/-- `SensitivityAnalysisResult` (selective_hardening.hpp:108-115). -/
structure Result where
  ranked : List Component
  layers : String → Option XD
  map : Map
  usage : ℝ
  expected : ℝ
  baseline : ℝ

/-- The map of a strategy (selective_hardening.hpp:202-228); the adaptive strategy starts like the constrained one. -/
noncomputable def strategyMap (cfg : Config) (layers : List String) (ranked : List Component) : Map := match cfg.strategy with
  | .fixed => fixedThreshold cfg ranked
  | .layerwise => (layerwise cfg layers ranked).1
  | .constrained | .adaptive => (constrained cfg ranked).1

/-- `analyzeAndProtect` (selective_hardening.hpp:185-235); `ranked` and `layers` are what the sorts leave. -/
noncomputable def analyze (cfg : Config) (cs ranked : List Component) (layers : List String) : Result :=
  let m := strategyMap cfg layers ranked
  ⟨ranked, layerCriticality cfg.weights cs, m, usage ranked m, expected ranked m, baseline ranked⟩

/-- One level up (selective_hardening.hpp:378-397). -/
def up : Level → Level
  | .none => .checksum
  | .checksum => .approximate
  | .approximate => .health
  | .health => .full
  | l => l

/-- One level down (selective_hardening.hpp:406-424). -/
def down : Level → Level
  | .full => .health
  | .health => .approximate
  | .approximate => .checksum
  | .checksum => .none
  | l => l

/-- The new entry of one component (selective_hardening.hpp:357-427): `old` its entry before, `errors` and `fixed` its counts; `none` if the map is not written. -/
noncomputable def adjust (old : Option Level) (errors fixed : ℤ) : Option Level :=
  if errors = 0 then none
  else
    let rate : ℝ := if 0 < errors then (fixed : ℝ) / errors else 1
    let cur := old.getD .none
    if rate < 8 / 10 ∧ cur ≠ .full then some (up cur)
    else if 95 / 100 < rate ∧ errors < 3 ∧ cur ≠ .none then some (down cur)
    else none

/-- `updateAdaptiveProtection` (selective_hardening.hpp:344-434); `errors` and `fixed` are the two maps of counts. -/
noncomputable def update (cfg : Config) (r : Result) (errors fixed : String → Option ℤ) : Result :=
  if cfg.strategy ≠ .adaptive then r
  else
    let m : Map := fun i => match errors i with
      | none => r.map i
      | some e => match adjust (r.map i) e ((fixed i).getD 0) with
        | some l => some l
        | none => r.map i
    { r with map := m, usage := usage r.ranked m, expected := expected r.ranked m, baseline := baseline r.ranked }

end Verif.Hardening
