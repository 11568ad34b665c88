import Verif.Model.Multibit
import Verif.Spec.Float
/-!
Model of `neural::ProtectedNeuralNetwork<float>` (/repo/include/rad_ml/neural/protected_neural_network.hpp).

* The weights are `MultibitProtection<float>` objects (`WeightType`, lines 627-632), modelled by `Multibit.Obj`.
* A vector of vectors is a function of its indices; its dimensions are given by `layer_sizes_`: `initializeNetwork` (lines 636-659)
  makes them so and no operation resizes them.  `Layer` objects reached through `getLayers()` are assumed not to be resized.
* Float arithmetic is a parameter (`Arith`); floats are their bit patterns; radiation levels are rationals.
* Random draws are arguments.  A layer of size 0 makes the distributions of lines 396-449 undefined: draws are then absent.
* An operation returns the new state and the exception thrown, if any.
-/
namespace Verif.PNet
open Verif Verif.Multibit Verif.Spec

/-- `ProtectionLevel` (protected_neural_network.hpp:77-84). -/
inductive Level where
  | none | checksumOnly | selectiveTmr | fullTmr | adaptiveTmr | spaceOptimized
  deriving DecidableEq, Repr

/-- The enumerator's value, used by `protection_level_ >= SELECTIVE_TMR` (protected_neural_network.hpp:398). -/
def Level.rank : Level → Nat
  | .none => 0 | .checksumOnly => 1 | .selectiveTmr => 2 | .fullTmr => 3 | .adaptiveTmr => 4 | .spaceOptimized => 5

/-- The exceptions thrown. -/
inductive Exc where
  | outOfRange | invalidArgument
  deriving DecidableEq, Repr

/-- `sum += w * a` of the float type. -/
structure Arith where
  add : Word → Word → Word
  mul : Word → Word → Word

/-- The members (protected_neural_network.hpp:1012-1031). -/
structure Net where
  sizes : List Nat
  level : Level
  counter : Nat
  w : Nat → Nat → Nat → Obj
  b : Nat → Nat → Obj
  act : Nat → Word → Word
  vw : Nat → Nat → Nat → Word
  vb : Nat → Nat → Word
  detected : Nat
  corrected : Nat
  uncorrectable : Nat

/-- `layer_sizes_[l]`. -/
def Net.size (n : Net) (l : Nat) : Nat := n.sizes.getD l 0

/-- `weights_.size()`. -/
def Net.depth (n : Net) : Nat := n.sizes.length - 1

/-- Assignment to one element of a vector of vectors of vectors. -/
def upd3 {α : Type} (f : Nat → Nat → Nat → α) (l i j : Nat) (v : α) : Nat → Nat → Nat → α :=
  fun l' i' j' => if l' = l ∧ i' = i ∧ j' = j then v else f l' i' j'

/-- Assignment to one element of a vector of vectors. -/
def upd2 {α : Type} (f : Nat → Nat → α) (l j : Nat) (v : α) : Nat → Nat → α :=
  fun l' j' => if l' = l ∧ j' = j then v else f l' j'

/-- A default-constructed `MultibitProtection` (multi_bit_protection.hpp:64-69): scheme NONE. -/
def blank (junk : Nat → BitVec 8) : Obj := Obj.mk' junk 0#32 .none

/-- The check after reading an element (protected_neural_network.hpp:734-742, 787-795): statistics and new element. -/
def account (o : Obj) (n : Net) : Obj × Net :=
  if o.hasError then
    let r := o.correctErrors
    if r.1 then (r.2, { n with detected := n.detected + 1, corrected := n.corrected + 1 })
    else (r.2, { n with detected := n.detected + 1, uncorrectable := n.uncorrectable + 1 })
  else (o, n)

/-- `getWeight` (protected_neural_network.hpp:723-745). -/
def getWeight (n : Net) (l i j : Nat) : Except Exc (Word × Net) :=
  if l ≥ n.depth ∨ i ≥ n.size l ∨ j ≥ n.size (l + 1) then .error .outOfRange
  else
    let r := (n.w l i j).getValue
    let a := account r.2 n
    .ok (r.1, { a.2 with w := upd3 n.w l i j a.1 })

/-- `getBias` (protected_neural_network.hpp:778-798). -/
def getBias (n : Net) (l j : Nat) : Except Exc (Word × Net) :=
  if l ≥ n.depth ∨ j ≥ n.size (l + 1) then .error .outOfRange
  else
    let r := (n.b l j).getValue
    let a := account r.2 n
    .ok (r.1, { a.2 with b := upd2 n.b l j a.1 })

/-- `setWeight` (protected_neural_network.hpp:754-769). -/
def setWeight (n : Net) (l i j : Nat) (v : Word) : Net × Option Exc :=
  if l ≥ n.depth ∨ i ≥ n.size l ∨ j ≥ n.size (l + 1) then (n, some .outOfRange)
  else ({ n with w := upd3 n.w l i j ((n.w l i j).setValue v), vw := upd3 n.vw l i j v }, none)

/-- `setBias` (protected_neural_network.hpp:806-819). -/
def setBias (n : Net) (l j : Nat) (v : Word) : Net × Option Exc :=
  if l ≥ n.depth ∨ j ≥ n.size (l + 1) then (n, some .outOfRange)
  else ({ n with b := upd2 n.b l j ((n.b l j).setValue v), vb := upd2 n.vb l j v }, none)

/-- `raw_setWeight` (protected_neural_network.hpp:829-841): the first member of the object is `value_`. -/
def rawSetWeight (n : Net) (l i j : Nat) (v : Word) : Net × Option Exc :=
  if l ≥ n.depth ∨ i ≥ n.size l ∨ j ≥ n.size (l + 1) then (n, some .outOfRange)
  else ({ n with w := upd3 n.w l i j { n.w l i j with value := v } }, none)

/-- `raw_setBias` (protected_neural_network.hpp:850-860). -/
def rawSetBias (n : Net) (l j : Nat) (v : Word) : Net × Option Exc :=
  if l ≥ n.depth ∨ j ≥ n.size (l + 1) then (n, some .outOfRange)
  else ({ n with b := upd2 n.b l j { n.b l j with value := v } }, none)

/-- The loop of `setWeight` over one row (protected_neural_network.hpp:353-355). -/
def setRow (n : Net) (l i : Nat) (row : List Word) : Net :=
  forN row.length (fun j n => (setWeight n l i j (row.getD j 0)).1) n

/-- The loop over the rows (protected_neural_network.hpp:348-356), from row `i` on. -/
def setRows (n : Net) (l i : Nat) : List (List Word) → Net × Option Exc
  | [] => (n, none)
  | row :: rest => if row.length ≠ n.size (l + 1) then (n, some .invalidArgument) else setRows (setRow n l i row) l (i + 1) rest

/-- `setLayerWeights` (protected_neural_network.hpp:336-357). -/
def setLayerWeights (n : Net) (l : Nat) (ws : List (List Word)) : Net × Option Exc :=
  if l ≥ n.depth then (n, some .outOfRange)
  else if ws.length ≠ n.size l then (n, some .invalidArgument)
  else setRows n l 0 ws

/-- `setLayerBiases` (protected_neural_network.hpp:365-380). -/
def setLayerBiases (n : Net) (l : Nat) (bs : List Word) : Net × Option Exc :=
  if l ≥ n.depth then (n, some .outOfRange)
  else if bs.length ≠ n.size (l + 1) then (n, some .invalidArgument)
  else (forN bs.length (fun j n => (setBias n l j (bs.getD j 0)).1) n, none)

/-- `setActivationFunction` (protected_neural_network.hpp:320-328). -/
def setActivation (n : Net) (l : Nat) (f : Word → Word) : Net × Option Exc :=
  if l ≥ n.depth then (n, some .outOfRange) else ({ n with act := fun k => if k = l then f else n.act k }, none)

/-- One iteration of the initialisation for layer `l` (protected_neural_network.hpp:664-683). -/
def initLayer (vals : Nat → Nat → Nat → Word) (l : Nat) (n : Net) : Net :=
  let n := forN (n.size l) (fun i n => forN (n.size (l + 1)) (fun j n => (setWeight n l i j (vals l i j)).1) n) n
  forN (n.size (l + 1)) (fun j n => (setBias n l j 0#32).1) n

/-- Constructor (protected_neural_network.hpp:111-127, 636-684): `vals` are the random initial weights, `relu` the default
activation, `junk` the uninitialised check bytes. -/
def construct (sizes : List Nat) (level : Level) (vals : Nat → Nat → Nat → Word) (relu : Word → Word) (junk : Nat → BitVec 8) :
    Except Exc Net :=
  if sizes.length < 2 then .error .invalidArgument
  else
    let n : Net := ⟨sizes, level, 0, fun _ _ _ => blank junk, fun _ _ => blank junk, fun _ => relu, fun _ _ _ => 0#32, fun _ _ => 0#32, 0, 0, 0⟩
    .ok (forN n.depth (initLayer vals) n)

/-- One element in `repairAllWeights` (protected_neural_network.hpp:983-990, 998-1005). -/
def repairOne (o : Obj) (n : Net) : Obj × Net := account o n

/-- `repairAllWeights` (protected_neural_network.hpp:976-1009). -/
def repairAll (n : Net) : Net :=
  let n := forN n.depth (fun l n => forN (n.size l) (fun i n => forN (n.size (l + 1)) (fun j n =>
    let r := repairOne (n.w l i j) n; { r.2 with w := upd3 n.w l i j r.1 }) n) n) n
  forN n.depth (fun l n => forN (n.size (l + 1)) (fun j n =>
    let r := repairOne (n.b l j) n; { r.2 with b := upd2 n.b l j r.1 }) n) n

/-- `adaptToRadiationLevel` (protected_neural_network.hpp:956-971). -/
def adapt (n : Net) (rad : Rat) : Net :=
  if n.level ≠ .adaptiveTmr then n
  else
    let n := { n with counter := n.counter + 1 }
    if rad > 1 / 2 then if n.counter % 10 = 0 then repairAll n else n
    else if n.counter % 100 = 0 then repairAll n else n

/-- `applyBitFlip` (protected_neural_network.hpp:870-891): bit `k` is bit `k % 8` of byte `k / 8`. -/
def bitFlip (x : Word) (k : Nat) : Word := x ^^^ (1#32 <<< k)

/-- The vote on one activation (protected_neural_network.hpp:926-947): `c1`, `c2` are the copies. -/
def voteActivation (a c1 c2 : Word) (n : Net) : Word × Net :=
  if f32eq a c1 then (a, n)
  else if f32eq c1 c2 then (c1, { n with detected := n.detected + 1, corrected := n.corrected + 1 })
  else if f32eq a c2 then (a, { n with detected := n.detected + 1, corrected := n.corrected + 1 })
  else (a, { n with detected := n.detected + 1, uncorrectable := n.uncorrectable + 1 })

/-- The copies' bit flips drawn for one activation: `none` if the copy is not struck. -/
abbrev Strikes := Option Nat × Option Nat

/-- A copy after its possible strike (protected_neural_network.hpp:915-923). -/
def struck (a : Word) (s : Option Nat) : Word := match s with | some k => bitFlip a k | none => a

/-- `protectActivations` (protected_neural_network.hpp:899-949). -/
def protectActivations (acts : List Word) (rad : Rat) (dr : Nat → Strikes) (n : Net) : List Word × Net :=
  if n.level = .none then (acts, n)
  else if (n.level = .fullTmr ∨ n.level = .adaptiveTmr) ∧ rad > 1 / 5 then
    forN acts.length (fun i (st : List Word × Net) =>
      let a := st.1.getD i 0
      let r := voteActivation a (struck a (dr i).1) (struck a (dr i).2) st.2
      (st.1.set i r.1, r.2)) (acts, n)
  else (acts, n)

/-- The inner sum (protected_neural_network.hpp:283-287). -/
def weightedSum (A : Arith) (l k : Nat) (prev : List Word) (s : Word) (n : Net) : Nat → Except Exc (Word × Net)
  | 0 => .ok (s, n)
  | m + 1 => match weightedSum A l k prev s n m with
    | .error e => .error e
    | .ok (s, n) => match getWeight n l m k with
      | .error e => .error e
      | .ok (w, n) => .ok (A.add s (A.mul w (prev.getD m 0)), n)

/-- One neuron (protected_neural_network.hpp:281-291). -/
def neuron (A : Arith) (l k : Nat) (prev : List Word) (n : Net) : Except Exc (Word × Net) :=
  match getBias n l k with
  | .error e => .error e
  | .ok (s, n) => match weightedSum A l k prev s n (n.size l) with
    | .error e => .error e
    | .ok (s, n) => .ok (n.act l s, n)

/-- The neurons of a layer (protected_neural_network.hpp:281-291), `m` of them. -/
def neurons (A : Arith) (l : Nat) (prev : List Word) (n : Net) : Nat → Except Exc (List Word × Net)
  | 0 => .ok ([], n)
  | m + 1 => match neurons A l prev n m with
    | .error e => .error e
    | .ok (out, n) => match neuron A l m prev n with
      | .error e => .error e
      | .ok (v, n) => .ok (out ++ [v], n)

/-- The layers of the forward pass (protected_neural_network.hpp:277-297), `m` of them; `dr l i` are the draws for activation `i` of
layer `l`. -/
def layers (A : Arith) (input : List Word) (rad : Rat) (dr : Nat → Nat → Strikes) (n : Net) : Nat → Except Exc (List Word × Net)
  | 0 => .ok (input, n)
  | m + 1 => match layers A input rad dr n m with
    | .error e => .error e
    | .ok (prev, n) => match neurons A m prev n (n.size (m + 1)) with
      | .error e => .error e
      | .ok (out, n) => .ok (protectActivations out rad (dr m) n)

/-- `forward` (protected_neural_network.hpp:260-300). -/
def forward (A : Arith) (n : Net) (input : List Word) (rad : Rat) (dr : Nat → Nat → Strikes) : Except Exc (List Word × Net) :=
  if input.length ≠ n.size 0 then .error .invalidArgument
  else
    let n := if n.level = .adaptiveTmr then adapt n rad else n
    layers A input rad dr n n.depth

/-- A strike on a weight: its place and the corruption applied to the value read (drawn). -/
structure WHit where
  l : Nat
  i : Nat
  j : Nat
  f : Word → Word

/-- A strike on a bias. -/
structure BHit where
  l : Nat
  j : Nat
  f : Word → Word

/-- One iteration of the weight loop of `applyRadiationEffects` (protected_neural_network.hpp:400-418, 437-449). -/
def hitWeight (n : Net) (h : WHit) : Net :=
  match getWeight n h.l h.i h.j with
  | .error _ => n
  | .ok (v, n) => (rawSetWeight n h.l h.i h.j (h.f v)).1

/-- One iteration of the bias loop (protected_neural_network.hpp:421-433). -/
def hitBias (n : Net) (h : BHit) : Net :=
  match getBias n h.l h.j with
  | .error _ => n
  | .ok (v, n) => (rawSetBias n h.l h.j (h.f v)).1

/-- `applyRadiationEffects` (protected_neural_network.hpp:388-458) with the strikes drawn; strikes outside the network are never
drawn and are ignored. -/
def applyRadiation (n : Net) (rad : Rat) (ws : List WHit) (bs : List BHit) : Net :=
  if rad ≤ 0 then n
  else
    let n := ws.foldl hitWeight n
    let n := if n.level.rank ≥ Level.selectiveTmr.rank then bs.foldl hitBias n else n
    if n.level = .adaptiveTmr ∨ n.level = .fullTmr then repairAll n else n

/-- Writing a weight through `getLayerMutable(l)` or `getLayers()` (protected_neural_network.hpp:492-494, 618-623). -/
def editLayerWeight (n : Net) (l i j : Nat) (v : Word) : Net × Option Exc :=
  if l ≥ n.depth then (n, some .outOfRange) else ({ n with vw := upd3 n.vw l i j v }, none)

/-- Writing a bias through `getLayerMutable(l)`. -/
def editLayerBias (n : Net) (l j : Nat) (v : Word) : Net × Option Exc :=
  if l ≥ n.depth then (n, some .outOfRange) else ({ n with vb := upd2 n.vb l j v }, none)

/-- `resetErrorStats` (protected_neural_network.hpp:472-476). -/
def resetStats (n : Net) : Net := { n with detected := 0, corrected := 0, uncorrectable := 0 }

/-- `getErrorStats` (protected_neural_network.hpp:465-467). -/
def errorStats (n : Net) : Nat × Nat := (n.detected, n.corrected)

/-- Copy constructor (protected_neural_network.hpp:134-169): member by member; the elements of `weights_` and `biases_` are copied one by
one. -/
def copy (o : Net) : Net :=
  { sizes := o.sizes, level := o.level, counter := o.counter
    w := fun l i j => o.w l i j
    b := fun l j => o.b l j
    act := o.act, vw := o.vw, vb := o.vb
    detected := o.detected, corrected := o.corrected, uncorrectable := o.uncorrectable }

/-- Result of `calculateLoss`: the shapes do not fit (loss 1), a division by zero, an exception, or the pairs (output, target) from
which the mean squared error is computed. -/
inductive Loss where
  | mismatch
  | divByZero
  | threw (e : Exc)
  | of (pairs : List (List Word × List Word))

/-- The sample loop of `calculateLoss` (protected_neural_network.hpp:575-595) with radiation 0. -/
def lossLoop (A : Arith) (data labels : List Word) (n : Net) : Nat → Except Exc (List (List Word × List Word) × Net)
  | 0 => .ok ([], n)
  | m + 1 => match lossLoop A data labels n m with
    | .error e => .error e
    | .ok (ps, n) =>
      let is := n.size 0
      let os := n.sizes.getLastD 0
      match forward A n ((data.drop (m * is)).take is) 0 (fun _ _ => (none, none)) with
      | .error e => .error e
      | .ok (out, n) => .ok (ps ++ [(out, (labels.drop (m * os)).take os)], n)

/-- `calculateLoss` (protected_neural_network.hpp:551-598). -/
def calculateLoss (A : Arith) (n : Net) (data labels : List Word) : Loss × Net :=
  let is := n.size 0
  let os := n.sizes.getLastD 0
  if is = 0 then (.divByZero, n)
  else
    let ns := data.length / is
    if ns = 0 ∨ labels.length ≠ ns * os then (.mismatch, n)
    else match lossLoop A data labels n ns with
      | .error e => (.threw e, n)
      | .ok (ps, n) => (.of ps, n)

/-- `train` (protected_neural_network.hpp:506-523): `epochs` evaluations of the loss. -/
def train (A : Arith) (n : Net) (data labels : List Word) (epochs : Int) : Net :=
  forN epochs.toNat (fun _ n => (calculateLoss A n data labels).2) n

end Verif.PNet
