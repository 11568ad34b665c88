import Verif.Model.AutoSearch
import Verif.Model.FaultTools
import Mathlib.Analysis.SpecialFunctions.Exp
/-!
Model of `research::RadiationAwareTraining` (/repo/include/rad_ml/research/radiation_aware_training.hpp, /repo/src/rad_ml/research/radiation_aware_training.cpp).

Weights and biases are the 32 bits of a `float`; data, probabilities, accuracies and losses are real numbers, except that an accuracy over no samples is `none` (not a number).
The engine is a stream of numbers in [0,1).  The network is a parameter (`Network`), of which `Lib` is the one the library instantiates.
Logging and the unused baseline accuracy (radiation_aware_training.cpp:120-135) are left out; counts of flips do not overflow; a negative number of epochs is 0.
-/
namespace Verif.RadTraining
open Verif.AutoSearch (Rng maxIdx)
open Verif.ArchTester (Env)

/-- Bits of a `float`. -/
abbrev Word := BitVec 32

/-- `ProtectedNeuralNetwork::Layer` (protected_neural_network.hpp:100-103). -/
@[ext] structure Layer where
  weights : List (List Word)
  biases : List Word

/-- What the template uses of a network (radiation_aware_training.cpp:65-66, 125, 152, 302, 307, 429, 468-482). -/
structure Network (N : Type) where
  inSize : N → ℕ
  outSize : N → ℕ
  forward : N → List ℝ → List ℝ
  loss : N → List ℝ → List ℝ → ℝ
  /-- `train(sample, label, 1, 1, learning_rate)`. -/
  step : N → List ℝ → List ℝ → N
  layers : N → List Layer
  /-- The network after writing to its layers through `getLayerMutable`. -/
  set : N → List Layer → N

/-- A library network: `forward` and `calculateLoss` use the protected weights, `layers_` is a separate copy (protected_neural_network.hpp:260-300, 483-494, 551-622, 1024; residual_network.hpp:448-494). -/
@[ext] structure Lib where
  input : ℕ
  output : ℕ
  forward : List ℝ → List ℝ
  loss : List ℝ → List ℝ → ℝ
  layers : List Layer

/-- The operations of library networks; `train` computes a loss and changes nothing (protected_neural_network.hpp:506-523, residual_network.hpp:420-434). -/
def lib : Network Lib where
  inSize n := n.input
  outSize n := n.output
  forward n x := n.forward x
  loss n x y := n.loss x y
  step n _ _ := n
  layers n := n.layers
  set n l := { n with layers := l }

/-- `TrainingStats` (radiation_aware_training.hpp:45-57). -/
structure Stats where
  flips : ℕ
  drop : Option ℝ
  recovery : Option ℝ

/-- Criticality of each weight. -/
abbrev Crit := List (List (List ℝ))

/-- `RadiationAwareTraining` (radiation_aware_training.hpp:139-148) without the engine. -/
structure Trainer where
  prob : ℝ
  target : Bool
  env : Env
  stats : Stats
  crit : Option Crit

/-- Constructor (radiation_aware_training.cpp:31-47). -/
noncomputable def Trainer.new (prob : ℝ := 1 / 100) (target : Bool := false) (env : Env := .mars) : Trainer := ⟨prob, target, env, ⟨0, some 0, some 0⟩, none⟩

/-- `setBitFlipProbability` (radiation_aware_training.cpp:365-367). -/
def Trainer.setProb (t : Trainer) (p : ℝ) : Trainer := { t with prob := p }
/-- `setTargetCriticalWeights` (radiation_aware_training.cpp:369-374). -/
def Trainer.setTarget (t : Trainer) (b : Bool) : Trainer := { t with target := b }
/-- `setEnvironment` (radiation_aware_training.cpp:376-378). -/
def Trainer.setEnv (t : Trainer) (e : Env) : Trainer := { t with env := e }

/-- `env_factor` (radiation_aware_training.cpp:283-297). -/
noncomputable def factor : Env → ℝ
  | .earthOrbit => 1 / 2
  | .iss => 1 / 2
  | .mars => 2
  | .jupiter => 5
  | .extreme => 10
  | _ => 1

/-- An entry of a three-dimensional vector. -/
def at3 {α : Type} (m : List (List (List α))) (l i j : ℕ) : Option α := (m[l]?).bind fun a => (a[i]?).bind fun b => b[j]?

/-- Overwriting an entry. -/
def put3 {α : Type} (m : List (List (List α))) (l i j : ℕ) (v : α) : List (List (List α)) := m.modify l fun a => a.modify i fun b => b.set j v

/-- One parameter hit with probability `p` (radiation_aware_training.cpp:327-338, 345-351): value, engine, number of flips. -/
noncomputable def hit (p : ℝ) (w : Word) (g : Rng) : Word × Rng × ℕ :=
  if g.seq 0 < p then (FaultTools.flipBit w ⌊g.next.seq 0 * 32⌋₊, g.next.next, 1) else (w, g.next, 0)

/-- Parameters in a row, the first having index `j` (radiation_aware_training.cpp:311-339, 343-353). -/
noncomputable def injList (p : ℕ → ℝ) : ℕ → List Word → Rng → List Word × Rng × ℕ
  | _, [], g => ([], g, 0)
  | j, w :: t, g =>
    let x := hit (p j) w g
    let y := injList p (j + 1) t x.2.1
    (x.1 :: y.1, y.2.1, x.2.2 + y.2.2)

/-- Rows (radiation_aware_training.cpp:310-340). -/
noncomputable def injRows (p : ℕ → ℕ → ℝ) : ℕ → List (List Word) → Rng → List (List Word) × Rng × ℕ
  | _, [], g => ([], g, 0)
  | i, r :: t, g =>
    let x := injList (p i) 0 r g
    let y := injRows p (i + 1) t x.2.1
    (x.1 :: y.1, y.2.1, x.2.2 + y.2.2)

/-- Layers (radiation_aware_training.cpp:305-354). -/
noncomputable def injLayers (p : ℕ → ℕ → ℕ → ℝ) (b : ℝ) : ℕ → List Layer → Rng → List Layer × Rng × ℕ
  | _, [], g => ([], g, 0)
  | k, l :: t, g =>
    let x := injRows (p k) 0 l.weights g
    let z := injList (fun _ => b) 0 l.biases x.2.1
    let y := injLayers p b (k + 1) t z.2.1
    (⟨x.1, z.1⟩ :: y.1, y.2.1, x.2.2 + z.2.2 + y.2.2)

/-- `flip_probability` of a weight (radiation_aware_training.cpp:312-324). -/
noncomputable def Trainer.weightProb (t : Trainer) (l i j : ℕ) : ℝ :=
  let p := t.prob * factor t.env
  if t.target then
    match t.crit with
    | some m => match at3 m l i j with
      | some c => p * (1 + 5 * c)
      | none => p
    | none => p
  else p

/-- `injectRadiationEffects` on the layers (radiation_aware_training.cpp:280-358). -/
noncomputable def Trainer.inject (t : Trainer) (ls : List Layer) (g : Rng) : Trainer × List Layer × Rng :=
  let x := injLayers t.weightProb (t.prob * factor t.env * (1 / 2)) 0 ls g
  ({ t with stats := { t.stats with flips := t.stats.flips + x.2.2 } }, x.1, x.2.1)

/-! ### Criticality -/

/-- The sigmoid (radiation_aware_training.cpp:485). -/
noncomputable def sigmoid (x : ℝ) : ℝ := 1 / (1 + Real.exp (-x))

/-- A random position in a layer (radiation_aware_training.cpp:456-462): a layer without rows, or an empty row, is indexed out of bounds. -/
noncomputable def pickPos (ws : List (List Word)) (g : Rng) : Outcome ((ℕ × ℕ) × Rng) :=
  let i := ⌊g.seq 0 * ws.length⌋₊
  match ws[i]? with
  | none => .ub
  | some r => if r = [] then .ub else .ok ((i, ⌊g.next.seq 0 * r.length⌋₊), g.next.next)

/-- Several positions (radiation_aware_training.cpp:452-463). -/
noncomputable def picks (ws : List (List Word)) : ℕ → Rng → Outcome (List (ℕ × ℕ) × Rng)
  | 0, g => .ok ([], g)
  | n + 1, g => (pickPos ws g).bind fun x => (picks ws n x.2).bind fun y => .ok (x.1 :: y.1, y.2)

/-- Writing one weight of a list of layers. -/
def setWeight (ls : List Layer) (l i j : ℕ) (w : Word) : List Layer := ls.modify l fun a => { a with weights := a.weights.modify i fun r => r.set j w }

/-- Test of one weight (radiation_aware_training.cpp:466-486): flip a bit, measure the loss, restore, enter the sigmoid of the difference.  An entry the map does not have is out of bounds. -/
noncomputable def probe {N : Type} (nw : Network N) (x y : List ℝ) (base : ℝ) (l : ℕ) (ij : ℕ × ℕ) (n : N) (m : Crit) (g : Rng) : Outcome (N × Crit × Rng) :=
  match at3 ((nw.layers n).map Layer.weights) l ij.1 ij.2 with
  | none => .ub
  | some w =>
    let n1 := nw.set n (setWeight (nw.layers n) l ij.1 ij.2 (FaultTools.flipBit w ⌊g.seq 0 * 32⌋₊))
    let impact := nw.loss n1 x y - base
    let n2 := nw.set n1 (setWeight (nw.layers n1) l ij.1 ij.2 w)
    match at3 m l ij.1 ij.2 with
    | none => .ub
    | some _ => .ok (n2, put3 m l ij.1 ij.2 (sigmoid impact), g.next)

/-- Tests of the selected weights of a layer (radiation_aware_training.cpp:466-487). -/
noncomputable def probes {N : Type} (nw : Network N) (x y : List ℝ) (base : ℝ) (l : ℕ) : List (ℕ × ℕ) → N → Crit → Rng → Outcome (N × Crit × Rng)
  | [], n, m, g => .ok (n, m, g)
  | ij :: t, n, m, g => (probe nw x y base l ij n m g).bind fun s => probes nw x y base l t s.1 s.2.1 s.2.2

/-- Number of weights tested in a layer: a tenth, at least one (radiation_aware_training.cpp:433-445). -/
def toTest (ws : List (List Word)) : ℕ := max 1 ((ws.map List.length).sum / 10)

/-- The layers from index `l` on (radiation_aware_training.cpp:435-488). -/
noncomputable def probeLayers {N : Type} (nw : Network N) (x y : List ℝ) (base : ℝ) : ℕ → List Layer → N → Crit → Rng → Outcome (N × Crit × Rng)
  | _, [], n, m, g => .ok (n, m, g)
  | l, a :: t, n, m, g =>
    (picks a.weights (toTest a.weights) g).bind fun ps =>
    (probes nw x y base l ps.1 n m ps.2).bind fun s => probeLayers nw x y base (l + 1) t s.1 s.2.1 s.2.2

/-- A map of zeros in the shape of the network (radiation_aware_training.cpp:416-426). -/
def zeros (ls : List Layer) : Crit := ls.map fun a => a.weights.map fun r => r.map fun _ => (0 : ℝ)

/-- `updateCriticalityMap` (radiation_aware_training.cpp:388-510). -/
noncomputable def update {N : Type} (nw : Network N) (data labels : List ℝ) (n : N) (c : Option Crit) (g : Rng) : Outcome (N × Option Crit × Rng) :=
  if nw.inSize n = 0 ∨ nw.outSize n = 0 then .ub
  else if data.length % nw.inSize n ≠ 0 ∨ labels.length % nw.outSize n ≠ 0 then .ok (n, c, g)
  else if data.length < nw.inSize n ∨ labels.length < nw.outSize n then .ub
  else
    let x := data.take (nw.inSize n)
    let y := labels.take (nw.outSize n)
    (probeLayers nw x y (nw.loss n x y) 0 (nw.layers n) n (c.getD (zeros (nw.layers n))) g).bind fun s => .ok (s.1, some s.2.1, s.2.2)

/-! ### Training -/

/-- The samples: sample `i` of size `k` (radiation_aware_training.cpp:83-97). -/
def chop (k n : ℕ) (l : List ℝ) : List (List ℝ) := (List.range n).map fun i => (l.drop (i * k)).take k

/-- Accuracy over the samples (radiation_aware_training.cpp:164-178, 190-204, 214-228). -/
noncomputable def accuracy {N : Type} (nw : Network N) (n : N) (ps : List (List ℝ × List ℝ)) : Option ℝ :=
  if ps = [] then none else some ((ps.filter fun p => maxIdx (nw.forward n p.1) = maxIdx p.2).length / ps.length)

/-- Training steps on `k` samples from index `start` on; an index beyond the samples is out of bounds (radiation_aware_training.cpp:148-153). -/
noncomputable def trainFrom {N : Type} (nw : Network N) (ps : List (List ℝ × List ℝ)) (start : ℕ) : ℕ → N → Outcome N
  | 0, n => .ok n
  | k + 1, n => (trainFrom nw ps start k n).bind fun n =>
    match ps[start + k]? with
    | none => .ub
    | some p => .ok (nw.step n p.1 p.2)

/-- First sample of batch `b` (radiation_aware_training.cpp:144), `size_t` arithmetic. -/
def batchStart (size b : ℕ) : ℕ := b * size % 2 ^ 64

/-- Number of samples of batch `b` out of `len` (radiation_aware_training.cpp:145-146), `size_t` arithmetic. -/
def batchCount (size len b : ℕ) : ℕ := (min ((batchStart size b + size) % 2 ^ 64) len + 2 ^ 64 - batchStart size b) % 2 ^ 64

/-- Training on batch `b` (radiation_aware_training.cpp:143-153). -/
noncomputable def batch {N : Type} (nw : Network N) (ps : List (List ℝ × List ℝ)) (size b : ℕ) (n : N) : Outcome N := trainFrom nw ps (batchStart size b) (batchCount size ps.length b) n

/-- The batches from the first on (radiation_aware_training.cpp:142-154). -/
noncomputable def batches {N : Type} (nw : Network N) (ps : List (List ℝ × List ℝ)) (size : ℕ) : ℕ → N → Outcome N
  | 0, n => .ok n
  | b + 1, n => (batches nw ps size b n).bind (batch nw ps size b)

/-- Number of batches (radiation_aware_training.cpp:139-140). -/
def numBatches (n size : ℕ) : ℕ := (n + size + 2 ^ 64 - 1) % 2 ^ 64 / size

/-- `TrainingConfig` as far as it is used (training_config.hpp:20-22); `batch` is the batch size as `size_t`. -/
structure Config where
  epochs : ℕ := 10
  batch : ℕ := 32

/-- `injection_frequency` (radiation_aware_training.cpp:118): converting a value outside `int`, or infinity, is undefined. -/
noncomputable def frequency (p : ℝ) : Outcome ℕ := if p = 0 ∨ 2 ^ 31 ≤ 1 / p ∨ 1 / p ≤ -2 ^ 31 - 1 then .ub else .ok (max 1 ⌊1 / p⌋₊)

/-- Everything that changes during training. -/
structure State (N : Type) where
  net : N
  trainer : Trainer
  rng : Rng

/-- The first samples, flat (radiation_aware_training.cpp:102-112, 246-256). -/
def firstTen (ps : List (List ℝ × List ℝ)) : List ℝ × List ℝ := (((ps.take 10).map Prod.fst).flatten, ((ps.take 10).map Prod.snd).flatten)

/-- The criticality update of the trainer. -/
noncomputable def State.critical {N : Type} (nw : Network N) (ps : List (List ℝ × List ℝ)) (s : State N) : Outcome (State N) :=
  (update nw (firstTen ps).1 (firstTen ps).2 s.net s.trainer.crit s.rng).bind fun u => .ok ⟨u.1, { s.trainer with crit := u.2.1 }, u.2.2⟩

/-- Injection with its statistics (radiation_aware_training.cpp:157-240). -/
noncomputable def State.injection {N : Type} (nw : Network N) (ps : List (List ℝ × List ℝ)) (s : State N) : State N :=
  let pre := accuracy nw s.net ps
  let x := s.trainer.inject (nw.layers s.net) s.rng
  let n2 := nw.set s.net x.2.1
  let post := accuracy nw n2 ps
  let n3 := ps.foldl (fun n p => nw.step n p.1 p.2) n2
  let rec' := accuracy nw n3 ps
  let drop := pre.bind fun a => post.map fun b => a - b
  let gain := rec'.bind fun a => post.map fun b => a - b
  let st := x.1.stats
  ⟨n3, { x.1 with stats :=
    { st with
      drop := st.drop.bind fun d => drop.map fun e => d + e
      recovery := st.recovery.bind fun r => gain.map fun e => r + e / max (1 / 1000) (drop.getD 0) } }, x.2.2⟩

/-- One epoch (radiation_aware_training.cpp:137-260); `10 * injection_frequency` must fit an `int`. -/
noncomputable def State.epoch {N : Type} (nw : Network N) (ps : List (List ℝ × List ℝ)) (batch freq e : ℕ) (s : State N) : Outcome (State N) :=
  if batch = 0 then .ub
  else (batches nw ps batch (numBatches ps.length batch) s.net).bind fun n =>
    let s := { s with net := n }
    (if e % freq = 0 then (if 10 * freq ≥ 2 ^ 31 then .ub else .ok (s.injection nw ps)) else .ok s : Outcome (State N)).bind fun s =>
      if s.trainer.target = true ∧ s.trainer.crit.isSome ∧ e % (10 * freq) = 0 then s.critical nw ps else .ok s

/-- The epochs before number `e` (radiation_aware_training.cpp:137-260). -/
noncomputable def State.epochs {N : Type} (nw : Network N) (ps : List (List ℝ × List ℝ)) (batch freq : ℕ) : ℕ → State N → Outcome (State N)
  | 0, s => .ok s
  | e + 1, s => (State.epochs nw ps batch freq e s).bind fun s => s.epoch nw ps batch freq e

/-- Division of the statistics (radiation_aware_training.cpp:262-265). -/
noncomputable def Stats.normalise (s : Stats) (k : ℕ) : Stats := { s with drop := s.drop.map (· / k), recovery := s.recovery.map (· / k) }

/-- What `train` returns: one of its two messages, or the statistics. -/
inductive Res where
  | sizes
  | counts
  | stats (s : Stats)

/-- `train` (radiation_aware_training.cpp:49-278). -/
noncomputable def train {N : Type} (nw : Network N) (data labels : List ℝ) (cfg : Config) (s : State N) : Outcome (Res × State N) :=
  let i := nw.inSize s.net
  let o := nw.outSize s.net
  if i = 0 ∨ o = 0 then .ub
  else if data.length % i ≠ 0 ∨ labels.length % o ≠ 0 then .ok (.sizes, s)
  else if data.length / i * o ≠ labels.length then .ok (.counts, s)
  else
    let k := data.length / i
    let ps := (chop i k data).zip (chop o k labels)
    (if s.trainer.target = true ∧ s.trainer.crit = none then s.critical nw ps else .ok s : Outcome (State N)).bind fun s =>
    (frequency s.trainer.prob).bind fun f =>
    (State.epochs nw ps cfg.batch f cfg.epochs s).bind fun s =>
      let st := s.trainer.stats.normalise (max 1 (cfg.epochs / f))
      .ok (.stats st, { s with trainer := { s.trainer with stats := st } })

/-! ### Saved results -/

/-- A line of the results file (radiation_aware_training.cpp:522-543). -/
inductive Line where
  | header
  | prob (x : ℝ)
  | target (b : Bool)
  | env (n : ℕ)
  | flips (n : ℕ)
  | drop (x : Option ℝ)
  | recovery (x : Option ℝ)
  | blank
  | critHeader
  | critColumns
  | crit (layer index : ℕ) (value : ℝ)

/-- The lines of the map (radiation_aware_training.cpp:536-542): the column of a weight is not written. -/
noncomputable def critLines (m : Crit) : List Line :=
  m.zipIdx.flatMap fun a => a.1.zipIdx.flatMap fun r => r.1.map fun v => .crit a.2 r.2 (ArchTester.sig6 v)

/-- Contents of the file (radiation_aware_training.cpp:522-543). -/
noncomputable def Trainer.lines (t : Trainer) : List Line :=
  [.header, .prob (ArchTester.sig6 t.prob), .target t.target, .env t.env.toNat, .flips t.stats.flips, .drop (t.stats.drop.map ArchTester.sig6), .recovery (t.stats.recovery.map ArchTester.sig6)] ++
    match t.crit with
    | none => []
    | some m => [.blank, .critHeader, .critColumns] ++ critLines m

/-- `saveResults` (radiation_aware_training.cpp:512-551): `create_directories` of an empty path fails, so does opening; the file gets the first `room` lines (a full device is not noticed). -/
noncomputable def Trainer.save (t : Trainer) (parentEmpty canCreate canOpen : Bool) (room : ℕ) : Bool × Option (List Line) :=
  if parentEmpty || !canCreate then (false, none) else if !canOpen then (false, none) else (true, some (t.lines.take room))

end Verif.RadTraining
