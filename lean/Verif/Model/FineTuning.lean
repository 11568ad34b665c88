import Verif.Model.Loop
import Verif.Spec.XReal
import Mathlib.Analysis.SpecialFunctions.Log.Base
import Mathlib.Data.List.Sort
/-!
Model of the fine-tuning classes (/repo/include/rad_ml/neural/fine_tuning.hpp, /repo/include/rad_ml/neural/fine_tuning_integration.hpp): `EnhancedSensitivityAnalyzer`, `LayerProtectionOptimizer`, `AdaptiveReedSolomonSelector`, `ErrorPatternLearner`, `MemoryLayoutOptimizer`, `FineTuningValidation` and `FineTuningOptimizer`.

The headers name types that are defined nowhere (`WeightBlock`, `ErrorEvent`, `LayerType`) and include a header that does not compile; they are modelled as their text defines them.
Floats are real numbers, or ideal doubles where the code divides or takes logarithms without a check.  The network is what its functions deliver: gradients, layer types, weights; what the code does to it is recorded.
`static_cast<size_t>(0.8 * n)` is the floor of the real product.
-/
namespace Verif.FineTuning
open Classical

/-- `ProtectionLevel` (adaptive_protection.hpp:45-52). -/
inductive Level where
  | none | minimal | moderate | high | veryHigh | adaptive
  deriving DecidableEq

/-- `sensitivities[i] += std::abs(gradients[i])` for every gradient (fine_tuning.hpp:49-51); more gradients than weights write past the end. -/
noncomputable def addAbs : List ℝ → List ℝ → Outcome (List ℝ)
  | s, [] => .ok s
  | [], _ :: _ => .ub
  | a :: s, g :: gs => (addAbs s gs).bind fun r => .ok ((a + |g|) :: r)

/-- The loop over samples, left after the thousandth (fine_tuning.hpp:46-58). -/
noncomputable def samplesLoop : ℕ → List ℝ → List (List ℝ) → Outcome (List ℝ)
  | _, s, [] => .ok s
  | c, s, g :: gs => (addAbs s g).bind fun s' => if c + 1 ≥ 1000 then .ok s' else samplesLoop (c + 1) s' gs

/-- `*std::max_element(...)` (fine_tuning.hpp:61); undefined on an empty vector. -/
noncomputable def maxElement : List ℝ → Outcome ℝ
  | [] => .ub
  | a :: l => .ok (l.foldl (fun m x => if m < x then x else m) a)

/-- `analyzeWeightSensitivity` (fine_tuning.hpp:36-69) on `n` weights; the gradients of each sample. -/
noncomputable def analyze (n : ℕ) (gradients : List (List ℝ)) : Outcome (List ℝ) :=
  (samplesLoop 0 (List.replicate n 0) gradients).bind fun s =>
  (maxElement s).bind fun m => .ok (if 0 < m then s.map (· / m) else s)

/-- `sorted[static_cast<size_t>(q * size)]` (fine_tuning.hpp:86-90); reading past the end is undefined. -/
noncomputable def threshold (q : ℝ) (s : List ℝ) : Outcome ℝ := match (s.insertionSort (· ≤ ·))[⌊q * s.length⌋₊]? with
  | some t => .ok t
  | none => .ub

/-- `applyProtectionProfile` (fine_tuning.hpp:78-101): the level of every weight. -/
noncomputable def profile (s : List ℝ) : Outcome (List Level) :=
  (threshold (8 / 10) s).bind fun high => (threshold (5 / 10) s).bind fun moderate =>
  .ok (s.map fun x => if high ≤ x then .high else if moderate ≤ x then .moderate else .minimal)

/-- The layer types that are told apart (fine_tuning.hpp:131-137). -/
inductive Kind where
  | convolutional | batchNorm | other
  deriving DecidableEq

/-- `determineMiddleLayerProtection` (fine_tuning.hpp:148-158). -/
noncomputable def middle (rate : ℝ) : Level := if 1 / 10 ^ 4 ≤ rate then .high else if 1 / 10 ^ 5 ≤ rate then .moderate else .minimal

/-- `increaseProtection` (fine_tuning.hpp:166-183). -/
def increase : Level → Level
  | .none => .minimal
  | .minimal => .moderate
  | .moderate => .high
  | .high => .veryHigh
  | .veryHigh => .veryHigh
  | .adaptive => .adaptive

/-- `decreaseProtection` (fine_tuning.hpp:191-208). -/
def decrease : Level → Level
  | .veryHigh => .high
  | .high => .moderate
  | .moderate => .minimal
  | .minimal => .none
  | .none => .none
  | .adaptive => .adaptive

/-- What a middle layer gets (fine_tuning.hpp:131-137). -/
noncomputable def forKind (rate : ℝ) : Kind → Level
  | .convolutional => increase (middle rate)
  | .batchNorm => decrease (middle rate)
  | .other => middle rate

/-- Setting the level of a layer; `getLayer` of a layer that is not there is undefined (fine_tuning.hpp:122-123, 128). -/
def setLayer (i : ℕ) (l : Level) (ls : List Level) : Outcome (List Level) := if i < ls.length then .ok (ls.set i l) else .ub

/-- The loop over the middle layers (fine_tuning.hpp:127-138), from layer `i` on, `k` more to come. -/
noncomputable def middleLoop (rate : ℝ) (kinds : List Kind) : ℕ → ℕ → List Level → Outcome (List Level)
  | 0, _, ls => .ok ls
  | k + 1, i, ls => match kinds[i]? with
    | some x => (setLayer i (forKind rate x) ls).bind (middleLoop rate kinds k (i + 1))
    | none => .ub

/-- `optimizeLayerProtection` (fine_tuning.hpp:116-139): the levels of the layers before and after.  In a network without layers `numLayers() - 1` wraps, but reading layer 0 comes first. -/
noncomputable def layers (rate : ℝ) (kinds : List Kind) (ls : List Level) : Outcome (List Level) :=
  (setLayer 0 .high ls).bind fun ls => (setLayer (ls.length - 1) .high ls).bind (middleLoop rate kinds (ls.length - 2) 1)

/-- The three configurations (fine_tuning.hpp:281-283). -/
inductive Code where
  | light | standard | heavy
  deriving DecidableEq

/-- The selection, the same text in `encodeWithAdaptiveRS` and `decodeWithAdaptiveRS` (fine_tuning.hpp:231-242, 260-270). -/
noncomputable def select (importance rate : ℝ) : Code :=
  if 8 / 10 < importance ∨ 5 / 10 ^ 5 < rate then .heavy
  else if 4 / 10 < importance ∨ 1 / 10 ^ 5 < rate then .standard else .light

/-- `convertToBytes` (fine_tuning.hpp:291-304); a value is the list of its bytes. -/
def toBytes : List (List UInt8) → List UInt8
  | [] => []
  | v :: vs => v ++ toBytes vs

/-- `convertFromBytes` (fine_tuning.hpp:314-327) for values of `w` bytes: bytes that are not there stay 0. -/
def fromBytes (w : ℕ) (bytes : List UInt8) (n : ℕ) : List (List UInt8) :=
  (List.range n).map fun i => (List.range w).map fun j => bytes.getD (i * w + j) 0

/-- The three codecs as they are used: encoder and decoder of each configuration (fine_tuning.hpp:281-283). -/
structure Codecs where
  encode : Code → List UInt8 → List UInt8
  decode : Code → List UInt8 → Option (List UInt8)

/-- `encodeWithAdaptiveRS` (fine_tuning.hpp:225-243). -/
noncomputable def encode (c : Codecs) (data : List (List UInt8)) (importance rate : ℝ) : List UInt8 := c.encode (select importance rate) (toBytes data)

/-- `decodeWithAdaptiveRS` (fine_tuning.hpp:254-277). -/
noncomputable def decode (c : Codecs) (w : ℕ) (encoded : List UInt8) (n : ℕ) (importance rate : ℝ) : Option (List (List UInt8)) :=
  (c.decode (select importance rate) encoded).map fun b => fromBytes w b n

/-- `ErrorPatternLearner` (fine_tuning.hpp:394-396): weights with their patterns, and the error rate of the environment learned in. -/
structure Learner (P : Type) where
  weights : List (P × ℝ)
  rate : Option ℝ

/-- `learnFromObservedErrors` (fine_tuning.hpp:350-365, 404-425): `order` is the order of the map's keys; every pattern observed gets its frequency. -/
noncomputable def learn {P : Type} [DecidableEq P] (order : List P) (errors : List P) (rate : ℝ) : Learner P :=
  let counts := (order.filter (· ∈ errors)).map fun p => (p, errors.count p)
  let total := (counts.map Prod.snd).sum
  ⟨if 0 < total then counts.map fun e => (e.1, (e.2 : ℝ) / total) else [], some rate⟩

/-- `std::log10` on a finite double: minus infinity at 0, not a number below (fine_tuning.hpp:489-490, 514). -/
noncomputable def log10 (x : ℝ) : XD := if 0 < x then .fin (Real.logb 10 x) else if x = 0 then .ninf else .nan

/-- `estimateFromEnvironment` (fine_tuning.hpp:477-494). -/
noncomputable def estimate (rate : ℝ) : ℝ :=
  if 1 / 10 ^ 4 ≤ rate then 1 else if rate ≤ 1 / 10 ^ 6 then 1 / 10
  else 1 / 10 + 9 / 10 * ((Real.logb 10 rate - Real.logb 10 (1 / 10 ^ 6)) / (Real.logb 10 (1 / 10 ^ 4) - Real.logb 10 (1 / 10 ^ 6)))

/-- `environmentFactorRatio` (fine_tuning.hpp:502-522). -/
noncomputable def ratio (learned : Option ℝ) (current : ℝ) : XD := match learned with
  | none => .fin 1
  | some l => if l ≤ 0 then .fin 1 else
    let r := (log10 current).div (log10 l)
    if r.le (.fin (1 / 10)) then .fin 0 else if XD.le (.fin 10) r then .fin 1 else (r.sub (.fin (1 / 10))).div (.fin (99 / 10))

/-- `std::clamp(x, 0, 1)` (fine_tuning.hpp:468). -/
noncomputable def clamp01 (x : XD) : XD := if x.lt (.fin 0) then .fin 0 else if XD.lt (.fin 1) x then .fin 1 else x

/-- The three features of a block: mean and largest magnitude and the share of zeros (fine_tuning.hpp:444-460). -/
noncomputable def features (block : List ℝ) : ℝ × ℝ × ℝ :=
  let s := block.foldl (fun (s : ℝ × ℝ × ℝ) v => (s.1 + |v|, max s.2.1 |v|, if |v| < 1 / 10 ^ 6 then s.2.2 + 1 else s.2.2)) (0, 0, 0)
  if block = [] then s else (s.1 / block.length, s.2.1, s.2.2 / block.length)

/-- `predictSusceptibility` (fine_tuning.hpp:434-469). -/
noncomputable def susceptibility {P : Type} (l : Learner P) (block : List ℝ) (current : ℝ) : XD :=
  if l.weights = [] ∨ l.rate = none then .fin (estimate current) else
  let f := features block
  clamp01 (XD.add (.fin (4 / 10 * (f.1 / (f.2.1 + 1 / 10 ^ 6)) + 3 / 10 * f.2.2)) (XD.mul (.fin (3 / 10)) (ratio l.rate current)))

/-- The strategies recommended (fine_tuning.hpp:381-389). -/
inductive Strategy where
  | patternBased | bitLevel | wordError | standard
  deriving DecidableEq

/-- `recommendStrategy` (fine_tuning.hpp:374-390). -/
noncomputable def recommend {P : Type} (l : Learner P) (block : List ℝ) (current : ℝ) : Strategy :=
  let s := susceptibility l block current
  if XD.lt (.fin (75 / 100)) s then .patternBased else if XD.lt (.fin (5 / 10)) s then .bitLevel else if XD.lt (.fin (25 / 100)) s then .wordError else .standard

/-- A result of `std::sort` on the indices with the order of fine_tuning.hpp:543-550: the indices rearranged, sensitivities falling; which order equal ones get is left open. -/
structure IsSort (s : List ℝ) (order : List ℕ) : Prop where
  perm : order.Perm (List.range s.length)
  falling : order.Pairwise fun a b => s.getD b 0 ≤ s.getD a 0

/-- `WeightBlock` (fine_tuning.hpp:586-599): indices and values. -/
abbrev Block := List (ℕ × ℝ)

/-- `createInterleavedBlock` (fine_tuning.hpp:579-602) on the indices from `start` to `end`; an index without weight is undefined. -/
def block (weights : List ℝ) : List ℕ → Outcome Block
  | [] => .ok []
  | i :: is => match weights[i]? with
    | some v => (block weights is).bind fun b => .ok ((i, v) :: b)
    | none => .ub

/-- The loop over blocks of 64 (fine_tuning.hpp:556-563), `fuel` an upper bound of the number of blocks. -/
def blocks (weights : List ℝ) (order : List ℕ) : ℕ → ℕ → Outcome (List Block)
  | 0, _ => .ok []
  | fuel + 1, i => if i < order.length then
      (block weights ((order.drop i).take (min (i + 64) order.length - i))).bind fun b => (blocks weights order fuel (i + 64)).bind fun r => .ok (b :: r)
    else .ok []

/-- `optimizeLayout` (fine_tuning.hpp:537-566): what replaces the weight storage. -/
def layout (weights : List ℝ) (order : List ℕ) : Outcome (List Block) := blocks weights order order.length 0

/-- `OptimizationResult` (fine_tuning.hpp:614-619). -/
structure Result where
  errors : XD
  accuracy : XD
  overhead : XD
  significant : Prop

/-- `simulateRadiationEffects` (fine_tuning.hpp:835-852): error rate, accuracy and overhead, whatever the network and the environment. -/
noncomputable def simulate {N E : Type} (_ : N) (_ : E) : ℝ × ℝ × ℝ := (0, 0, 0)

/-- The sum of one figure over the environments, divided by their number (fine_tuning.hpp:779-798). -/
noncomputable def mean {N E : Type} (net : N) (envs : List E) (f : ℝ × ℝ × ℝ → ℝ) : XD :=
  XD.div (.fin ((envs.map fun e => f (simulate net e)).sum)) (.fin envs.length)

/-- The comparison of `testWeightSensitivity` (fine_tuning.hpp:755-814). -/
noncomputable def compare {N E : Type} (baseline optimized : N) (envs : List E) : Result :=
  let be := mean baseline envs (·.1)
  let oe := mean optimized envs (·.1)
  let ba := mean baseline envs (·.2.1)
  let oa := mean optimized envs (·.2.1)
  let bo := mean baseline envs (·.2.2)
  let oo := mean optimized envs (·.2.2)
  let e := (be.sub oe).div be
  let a := (oa.sub ba).div ba
  ⟨e, a, (bo.sub oo).div bo, XD.lt (.fin (1 / 10)) e ∧ XD.lt (.fin (5 / 100)) a⟩

/-- What `optimizeNetwork` has done to the network: the levels of weights and layers, the storage, the weights with Reed-Solomon protection, the strategies of the weights. -/
structure Net where
  weightLevels : List Level
  layerLevels : List Level
  storage : Option (List Block)
  rs : List ℕ
  strategies : Option (List Strategy)

/-- The members of `FineTuningOptimizer` that are read (fine_tuning_integration.hpp:153-158). -/
structure Optimizer (P : Type) where
  environment : Option ℝ
  history : List P
  learner : Learner P

/-- `configureReedSolomon` (fine_tuning_integration.hpp:166-181): the weights that get it. -/
noncomputable def rsWeights (s : List ℝ) : Outcome (List ℕ) :=
  (threshold (8 / 10) s).bind fun t => .ok ((List.range s.length).filter fun i => decide (t ≤ s.getD i 0))

/-- `applyErrorPatternProtection` (fine_tuning_integration.hpp:189-212): weight `j` gets the strategy of its block of 64. -/
noncomputable def patterns {P : Type} (l : Learner P) (n : ℕ) (weight : ℕ → ℝ) (rate : ℝ) : List Strategy :=
  (List.range n).map fun j => recommend l ((List.range' (j / 64 * 64) (min 64 (n - j / 64 * 64))).map weight) rate

/-- `optimizeNetwork` (fine_tuning_integration.hpp:66-109): the network afterwards, the optimizer, and the number returned.  `order` is the result of the sort, `keys` the order of the patterns, `weight` what `getWeight` delivers. -/
noncomputable def optimize {P : Type} [DecidableEq P] (keys : List P) (o : Optimizer P) (kinds : List Kind) (weights : List ℝ) (weight : ℕ → ℝ) (gradients : List (List ℝ)) (order : List ℕ) (level : ℤ) (net : Net) :
    Outcome (Net × Optimizer P × Bool) := match o.environment with
  | none => .ok (net, o, false)
  | some rate =>
    (analyze weights.length gradients).bind fun s =>
    (profile s).bind fun p =>
    let net := { net with weightLevels := p }
    (if 1 ≤ level then (layers rate kinds net.layerLevels).bind fun ls => .ok { net with layerLevels := ls } else .ok net).bind fun net =>
    (if 2 ≤ level then (layout weights order).bind fun b => (rsWeights s).bind fun r => .ok { net with storage := some b, rs := r } else .ok net).bind fun net =>
    if 3 ≤ level then
      if o.history ≠ [] then
        let l := learn keys o.history rate
        .ok ({ net with strategies := some (patterns l s.length weight rate) }, { o with learner := l }, true)
      else .ok (net, o, false)
    else .ok (net, o, true)

/-- `updateErrorHistory` (fine_tuning_integration.hpp:116-123). -/
noncomputable def updateHistory {P : Type} [DecidableEq P] (keys : List P) (errors : List P) (o : Optimizer P) : Optimizer P :=
  let h := o.history ++ errors
  match o.environment with
  | some rate => { o with history := h, learner := learn keys h rate }
  | none => { o with history := h }

/-- `setEnvironment` (fine_tuning_integration.hpp:44-46). -/
def setEnvironment {P : Type} (rate : Option ℝ) (o : Optimizer P) : Optimizer P := { o with environment := rate }

/-- A new `FineTuningOptimizer` (fine_tuning_integration.hpp:31-37): the learner keeps the environment given. -/
def Optimizer.new {P : Type} (rate : Option ℝ) : Optimizer P := ⟨rate, [], ⟨[], rate⟩⟩

end Verif.FineTuning
