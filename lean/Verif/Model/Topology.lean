import Verif.Spec.XReal
import Mathlib.Data.List.Dedup
import Mathlib.Analysis.SpecialFunctions.Log.Base
import Mathlib.Analysis.SpecialFunctions.Pow.Real
/-!
Model of /repo/include/rad_ml/neural/sensitivity_analysis.hpp: topology of a network (connections, paths, propagation, bottlenecks, criticality),
importance of parameters and activations, effects of the space environment.

The header includes selective_hardening.hpp, which does not compile; it is modelled as its text defines it.  A text is a list of characters.
`double` is an ideal double (real, infinite or NaN, no rounding).  A `std::map` written in a loop over the layers is a function from names:
the last layer with a name wins.  Where the code iterates over a map, the model iterates over a list of entries; sums and maxima do not depend on the order.
-/
namespace Verif.Topology
open Classical

/-- `std::string`. -/
abbrev Text := List Char

/-- The types of layers the code distinguishes (sensitivity_analysis.hpp:275-297, 900-918, 953-969); any other text is `other`. -/
inductive Kind where
  | dense | conv | pool | dropout | batchNorm | activation | other
  deriving DecidableEq

/-- `LayerInfo` (sensitivity_analysis.hpp:21-30); `index` is never read. -/
structure Layer where
  name : Text
  kind : Kind
  inSize : ℕ
  outSize : ℕ
  inputs : List Text
  outputs : List Text
  critical : Bool

/-! ### Mathematics -/

/-- `std::min(x, y)`. -/
noncomputable def xmin (x y : XD) : XD := if XD.lt y x then y else x

/-- `std::sqrt`. -/
noncomputable def xsqrt : XD → XD
  | .fin x => if 0 ≤ x then .fin (Real.sqrt x) else .nan
  | .pinf => .pinf
  | .ninf => .nan
  | .nan => .nan

/-- `std::log10`. -/
noncomputable def xlog10 : XD → XD
  | .fin x => if 0 < x then .fin (Real.logb 10 x) else if x = 0 then .ninf else .nan
  | .pinf => .pinf
  | .ninf => .nan
  | .nan => .nan

/-- `output_size / static_cast<double>(input_size)` (sensitivity_analysis.hpp:277, 329). -/
noncomputable def ratio (l : Layer) : XD := XD.div (.fin l.outSize) (.fin l.inSize)

/-! ### Topology -/

/-- `layer_map` (sensitivity_analysis.hpp:210-214): the last layer with a name. -/
noncomputable def lookup (ls : List Layer) (n : Text) : Option Layer := ls.reverse.find? fun l => decide (l.name = n)

/-- `calculateConnectivityMetrics` (sensitivity_analysis.hpp:166-184) for one of the counters: all counters are set to 0, then increased. -/
noncomputable def countMap (size : Layer → ℕ) (ls : List Layer) : Text → Option ℕ :=
  ls.foldl (fun m l => fun n => if n = l.name then some ((m n).getD 0 + size l) else m n)
    (ls.foldl (fun m l => fun n => if n = l.name then some 0 else m n) fun _ => none)

/-- `fan_in_count` (sensitivity_analysis.hpp:170-178). -/
noncomputable def fanIn (ls : List Layer) : Text → Option ℕ := countMap (fun l => l.inputs.length) ls

/-- `fan_out_count` (sensitivity_analysis.hpp:170-183). -/
noncomputable def fanOut (ls : List Layer) : Text → Option ℕ := countMap (fun l => l.outputs.length) ls

/-- The separator in a path (sensitivity_analysis.hpp:240). -/
def arrow : Text := [' ', '-', '>', ' ']

/-- `findPaths` (sensitivity_analysis.hpp:227-258): the paths appended to `critical_paths`.  `fuel` bounds the depth of the recursion; C210 shows that it never ends a search. -/
noncomputable def findPaths (m : Text → Option Layer) (fin : Text) : ℕ → Text → List Text → Text → List Text
  | 0, _, _, _ => []
  | fuel + 1, start, visited, cur =>
    let visited' := start :: visited
    let cur' := if cur = [] then start else cur ++ arrow ++ start
    if start = fin then [cur']
    else match m start with
      | none => []
      | some l => l.outputs.flatMap fun next => if next ∈ visited' then [] else findPaths m fin fuel next visited' cur'

/-- `calculateCriticalPaths` (sensitivity_analysis.hpp:192-222). -/
noncomputable def criticalPaths (ls : List Layer) : List Text :=
  (ls.filter fun l => l.inputs = []).flatMap fun i => (ls.filter fun l => l.outputs = []).flatMap fun o =>
    findPaths (lookup ls) o.name (ls.length + 2) i.name [] []

/-- `calculatePropagationFactor` (sensitivity_analysis.hpp:267-311). -/
noncomputable def propagation (l : Layer) : XD :=
  let f : XD := match l.kind with
    | .dense => xsqrt (ratio l)
    | .conv => .fin (7 / 10)
    | .pool => .fin (5 / 10)
    | .dropout => .fin (3 / 10)
    | .batchNorm => .fin (12 / 10)
    | _ => .fin 1
  if 1 < l.outputs.length then XD.mul f (.fin (1 + 1 / 10 * Real.log l.outputs.length)) else f

/-- `calculateInformationBottlenecks` (sensitivity_analysis.hpp:316-352) for one layer; `fi` and `fo` are the counters. -/
noncomputable def bottleneck (l : Layer) (fi fo : ℕ) : XD :=
  let s : XD :=
    if 1 < fi ∧ XD.lt (ratio l) (.fin 1) then XD.mul (.fin (fi * (3 / 10))) (XD.sub (.fin 1) (ratio l))
    else if 1 < fo ∧ XD.lt (ratio l) (.fin 1) then XD.mul (.fin (fo * (3 / 10))) (XD.sub (.fin 1) (ratio l))
    else .fin (1 / 10)
  if l.inputs ≠ [] ∧ l.outputs ≠ [] then XD.mul s (.fin (15 / 10)) else s

/-- `TopologicalAnalysisResult` (sensitivity_analysis.hpp:63-70) without the criticality. -/
structure Analysis where
  propagation : Text → Option XD
  paths : List Text
  fanIn : Text → Option ℕ
  fanOut : Text → Option ℕ
  bottleneck : Text → Option XD

/-- The first part of `analyzeNetwork` (sensitivity_analysis.hpp:105-125). -/
noncomputable def analysis (ls : List Layer) : Analysis where
  propagation n := (lookup ls n).map propagation
  paths := criticalPaths ls
  fanIn := fanIn ls
  fanOut := fanOut ls
  bottleneck n := (lookup ls n).map fun l => bottleneck l ((fanIn ls n).getD 0) ((fanOut ls n).getD 0)

/-- How many paths contain a name: `path.find(layer.name) != npos` (sensitivity_analysis.hpp:386-390). -/
noncomputable def onPaths (paths : List Text) (n : Text) : ℕ := (paths.filter fun p => decide (n <:+: p)).length

/-- `calculateTopologicalCriticality` (sensitivity_analysis.hpp:357-405). -/
noncomputable def criticality (l : Layer) (a : Analysis) : XD :=
  let prop : XD := match a.propagation l.name with
    | some x => XD.div x (.fin 2)
    | none => .fin 0
  let bott : XD := match a.bottleneck l.name with
    | some x => xmin (.fin (5 / 10)) x
    | none => .fin 0
  let conn : XD := match a.fanIn l.name, a.fanOut l.name with
    | some i, some o => xmin (.fin (5 / 10)) (.fin (((i + o : ℕ) : ℝ) * (1 / 10)))
    | _, _ => .fin 0
  let path : XD := xmin (.fin (5 / 10)) (.fin (onPaths a.paths l.name * (1 / 10)))
  let c := XD.add (XD.add (XD.add prop bott) conn) path
  xmin (.fin 1) (if l.critical then XD.add c (.fin (2 / 10)) else c)

/-- `layer_criticality` of `analyzeNetwork` (sensitivity_analysis.hpp:127-131). -/
noncomputable def layerCriticality (ls : List Layer) (n : Text) : Option XD := (lookup ls n).map fun l => criticality l (analysis ls)

/-! ### Importance -/

/-- An entry `m[k] = x` of a map held as a list of entries. -/
noncomputable def put (k : Text) (x : XD) : List (Text × XD) → List (Text × XD)
  | [] => [(k, x)]
  | e :: es => if e.1 = k then (k, x) :: es else e :: put k x es

/-- `normalizeImportanceMap` (sensitivity_analysis.hpp:658-672). -/
noncomputable def normalize (m : List (Text × XD)) : List (Text × XD) :=
  let top := m.foldl (fun a e => XD.max a e.2) (.fin 0)
  if XD.lt (.fin 0) top then m.map fun e => (e.1, XD.div e.2 top) else m

/-- A network as the mapper uses it (sensitivity_analysis.hpp:432-470): outputs are vectors of one length. -/
structure Net (N I : Type) where
  params : N → List (Text × ℝ)
  set : N → Text → ℝ → N
  forward : N → I → List ℝ

/-- `calculateOutputDifference` (sensitivity_analysis.hpp:600-614). -/
noncomputable def distance (a b : List ℝ) : ℝ := Real.sqrt ((List.zipWith (fun x y => (x - y) * (x - y)) a b).sum)

/-- Sensitivity of a parameter before the absolute value (sensitivity_analysis.hpp:444-472); the dataset is cut to 50 samples. -/
noncomputable def sensitivity {N I : Type} (net : Net N I) (n : N) (data : List I) (p : Text × ℝ) : XD :=
  XD.div ((data.take 50).foldl (fun s x => XD.add s (XD.div (.fin (distance (net.forward n x) (net.forward (net.set n p.1 (p.2 * (1001 / 1000))) x))) (.fin (p.2 * (1 / 1000))))) (.fin 0))
    (.fin (data.take 50).length)

/-- `calculateParameterImportance` (sensitivity_analysis.hpp:432-480). -/
noncomputable def parameterImportance {N I : Type} (net : Net N I) (n : N) (data : List I) : List (Text × XD) :=
  normalize ((net.params n).foldl (fun m p => put p.1 (XD.abs (sensitivity net n data p)) m) [])

/-- `calculateSparsity` (sensitivity_analysis.hpp:622-637). -/
noncomputable def sparsity (v : List ℝ) : ℝ := if v = [] then 0 else ((v.filter fun x => decide (|x| < 1 / 10 ^ 6)).length : ℝ) / v.length

/-- `calculateMagnitude` (sensitivity_analysis.hpp:645-651). -/
noncomputable def magnitude (v : List ℝ) : ℝ := Real.sqrt ((v.map fun x => x * x).sum)

/-- The score of a layer before normalisation (sensitivity_analysis.hpp:500-530): `acts` are the activations of the layer in the samples, `n` is the number of samples. -/
noncomputable def activationScore (n : ℕ) (acts : List (List ℝ)) : ℝ := (1 - (acts.map sparsity).sum / n) * ((acts.map magnitude).sum / n)

/-- `calculateActivationImportance` (sensitivity_analysis.hpp:492-536); `samples` are the activations of at most 50 samples: names with values. -/
noncomputable def activationImportance (samples : List (List (Text × List ℝ))) : List (Text × XD) :=
  let all := (samples.take 50).flatten
  normalize ((all.map Prod.fst).dedup.map fun n => (n, .fin (activationScore (samples.take 50).length ((all.filter fun a => a.1 = n).map Prod.snd))))

/-! ### Space environment -/

/-- `std::log10(input_size * output_size) / 10.0`, cut at 1 (sensitivity_analysis.hpp:925, 973, 1010); the product is a `size_t` and wraps. -/
noncomputable def sizeFactor (l : Layer) : XD := xmin (.fin 1) (XD.div (xlog10 (.fin ((l.inSize * l.outSize % 2 ^ 64 : ℕ) : ℝ))) (.fin 10))

/-- `std::min(1.0, std::max(0.0, x))`. -/
noncomputable def clamp (x : XD) : XD := xmin (.fin 1) (XD.max (.fin 0) x)

/-- Base vulnerability (sensitivity_analysis.hpp:900-918). -/
noncomputable def baseVulnerability : Kind → ℝ
  | .dense => 7 / 10
  | .conv => 5 / 10
  | .pool => 3 / 10
  | .activation => 3 / 10
  | .batchNorm => 8 / 10
  | _ => 5 / 10

/-- `calculateRadiationVulnerability` for one layer (sensitivity_analysis.hpp:892-942); without an environment the flux is 1e-7. -/
noncomputable def vulnerability (flux : Option ℝ) (l : Layer) : XD :=
  let v := XD.add (.fin (5 / 10 * baseVulnerability l.kind)) (XD.mul (.fin (5 / 10)) (sizeFactor l))
  let f := xmin (.fin 1) (XD.add (xlog10 (.fin (flux.getD (1 / 10 ^ 7) + 1 / 10 ^ 15))) (.fin 15))
  let v := XD.mul v (XD.add (.fin (5 / 10)) (XD.div (XD.mul (.fin (5 / 10)) f) (.fin 10)))
  clamp (if l.critical then XD.mul v (.fin (12 / 10)) else v)

/-- Base thermal sensitivity (sensitivity_analysis.hpp:953-969). -/
noncomputable def baseThermal : Kind → ℝ
  | .dense => 7 / 10
  | .conv => 8 / 10
  | .pool => 3 / 10
  | .activation => 2 / 10
  | _ => 5 / 10

/-- `calculateThermalSensitivity` for one layer (sensitivity_analysis.hpp:947-982). -/
noncomputable def thermal (l : Layer) : XD := clamp (XD.add (.fin (6 / 10 * baseThermal l.kind)) (XD.mul (.fin (4 / 10)) (sizeFactor l)))

/-- Base power impact (sensitivity_analysis.hpp:993-1007). -/
noncomputable def basePower : Kind → ℝ
  | .dense => 6 / 10
  | .conv => 8 / 10
  | .pool => 3 / 10
  | .activation => 2 / 10
  | _ => 5 / 10

/-- `calculatePowerImpact` for one layer (sensitivity_analysis.hpp:987-1025); `crit` is its criticality, if it has one. -/
noncomputable def power (l : Layer) (crit : Option XD) : XD :=
  let p := XD.add (.fin (7 / 10 * basePower l.kind)) (XD.mul (.fin (3 / 10)) (sizeFactor l))
  clamp (match crit with
    | some c => XD.mul p (XD.add (.fin 1) (XD.mul (.fin (5 / 10)) c))
    | none => p)

/-- The value added for a layer: nothing if it is not in the map (sensitivity_analysis.hpp:1040-1054). -/
noncomputable def term (x : Option XD) : XD := x.getD (.fin 0)

/-- `calculateSpaceEnvironmentImpact` (sensitivity_analysis.hpp:1030-1066): `names` are the keys of `layer_criticality`, the maps the three factors. -/
noncomputable def impact (names : List Text) (rad therm pow : Text → Option XD) : XD :=
  let total := fun f : Text → Option XD => names.foldl (fun s n => XD.add s (term (f n))) (.fin 0)
  if 0 < names.length then
    let avg := fun f => XD.div (total f) (.fin names.length)
    XD.add (XD.add (XD.mul (.fin (5 / 10)) (avg rad)) (XD.mul (.fin (3 / 10)) (avg therm))) (XD.mul (.fin (2 / 10)) (avg pow))
  else .fin 0

/-- `SpaceAwareTopologicalResult` as far as it is read (sensitivity_analysis.hpp:75-90): entries of `layer_criticality`, vulnerabilities, impact, flux of the environment. -/
structure SpaceResult where
  crit : List (Text × XD)
  rad : Text → Option XD
  impact : XD
  flux : ℝ

/-- `analyzeSpaceRadiationEffects` (sensitivity_analysis.hpp:743-782): `flux` of the environment, if one is set, otherwise low Earth orbit. -/
noncomputable def spaceAnalysis (flux : Option ℝ) (ls : List Layer) (crit : List (Text × XD)) : SpaceResult :=
  let rad := fun n => (lookup ls n).map (vulnerability flux)
  let critOf := fun n => (crit.find? fun e => decide (e.1 = n)).map Prod.snd
  ⟨crit, rad, impact (crit.map Prod.fst) rad (fun n => (lookup ls n).map thermal) (fun n => (lookup ls n).map fun l => power l (critOf n)), flux.getD (1 / 10 ^ 7)⟩

/-- `calculateRadiationAdjustedCriticality` (sensitivity_analysis.hpp:791-820). -/
noncomputable def adjusted (crit : List (Text × XD)) (rad : Text → Option XD) : List (Text × XD) :=
  normalize (crit.map fun e => (e.1, XD.mul e.2 (match rad e.1 with
    | some v => XD.add (.fin 1) v
    | none => .fin 1)))

/-- The recommended levels (sensitivity_analysis.hpp:850-864). -/
inductive Level where
  | checksum | recovery | selective | health | full
  deriving DecidableEq

/-- `flux_factor` (sensitivity_analysis.hpp:842-847). -/
noncomputable def fluxFactor (flux : ℝ) : XD :=
  xmin (.fin 1) (XD.div (XD.max (.fin 0) (XD.add (xlog10 (.fin (flux + 1 / 10 ^ 15))) (.fin 15))) (.fin 10))

/-- The level for a layer (sensitivity_analysis.hpp:833-866). -/
noncomputable def levelOf (crit : XD) (rad : Option XD) (flux : ℝ) : Level :=
  let a := XD.mul crit (XD.add (.fin 1) (rad.getD (.fin 1)))
  let f := fluxFactor flux
  if XD.lt (.fin (8 / 10)) a ∨ XD.lt (.fin (8 / 10)) f then .full
  else if XD.lt (.fin (6 / 10)) a ∨ XD.lt (.fin (6 / 10)) f then .health
  else if XD.lt (.fin (4 / 10)) a ∨ XD.lt (.fin (4 / 10)) f then .selective
  else if XD.lt (.fin (2 / 10)) a ∨ XD.lt (.fin (2 / 10)) f then .recovery
  else .checksum

/-- `getRecommendedProtectionLevels` (sensitivity_analysis.hpp:827-872). -/
noncomputable def recommended (r : SpaceResult) : List (Text × Level) := r.crit.map fun e => (e.1, levelOf e.2 (r.rad e.1) r.flux)

end Verif.Topology
