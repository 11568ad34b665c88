import Verif.Model.Loop
/-!
Models of
* `core::redundancy::TripleModularRedundancy` (/repo/include/rad_ml/core/redundancy/tmr.hpp);
* `inference::layers::ConvolutionalLayer` (/repo/include/rad_ml/inference/layers/conv_layer.hpp).

`eq` is `==` of the element type; its arithmetic is a parameter (`Num`), so the theorems hold for `FixedPoint`, whose products are
truncated, as well as for exact numbers.  Overflow of the element type is not modelled here (see FixedPoint).  Indices are cast to `int`
(conv_layer.hpp:128-129); template arguments above 2^31 are not modelled.
-/
namespace Verif.Conv

/-! ### TripleModularRedundancy -/

/-- `values_` (tmr.hpp:82). -/
structure Tri (α : Type) where
  v0 : α
  v1 : α
  v2 : α
  deriving DecidableEq, Repr

variable {α : Type}

/-- Constructors, `set` and `operator=` (tmr.hpp:25-36, 56-60, 76-79). -/
def Tri.set (v : α) : Tri α := ⟨v, v, v⟩

/-- `get` and the conversion operator (tmr.hpp:39-53, 71-73). -/
def Tri.get (eq : α → α → Bool) (t : Tri α) : α :=
  if eq t.v0 t.v1 then t.v0
  else if eq t.v0 t.v2 then t.v0
  else if eq t.v1 t.v2 then t.v1
  else t.v0

/-- `repair` (tmr.hpp:63-68). -/
def Tri.repair (eq : α → α → Bool) (t : Tri α) : Tri α :=
  let correct := t.get eq
  ⟨correct, correct, correct⟩

/-- A fault: one copy is overwritten (not part of the code). -/
def Tri.strike (t : Tri α) (k : Fin 3) (x : α) : Tri α :=
  match k with
  | 0 => { t with v0 := x }
  | 1 => { t with v1 := x }
  | 2 => { t with v2 := x }

/-! ### ConvolutionalLayer -/

/-- The template arguments (conv_layer.hpp:31-40). -/
structure Dims where
  IC : Nat
  OC : Nat
  H : Nat
  W : Nat
  K : Nat
  S : Nat := 1
  P : Nat := 0

/-- `OutputHeight`, `OutputWidth` for an input extent `n` (conv_layer.hpp:44-45), in `size_t` arithmetic. -/
def Dims.out (d : Dims) (n : Nat) : Nat :=
  ((BitVec.ofNat 64 n - BitVec.ofNat 64 d.K + 2#64 * BitVec.ofNat 64 d.P) / BitVec.ofNat 64 d.S + 1#64).toNat

/-- The arithmetic of the element type. -/
structure Num (α : Type) where
  add : α → α → α
  mul : α → α → α
  zero : α

/-- The members (conv_layer.hpp:171-174). -/
structure Layer (α : Type) where
  w : Nat → Nat → Nat → Nat → Tri α
  b : Nat → Tri α

/-- Assignment to one element of `weights_`. -/
def Layer.updW (L : Layer α) (oc ic kh kw : Nat) (t : Tri α) : Layer α :=
  { L with w := fun a b c d => if a = oc ∧ b = ic ∧ c = kh ∧ d = kw then t else L.w a b c d }

/-- Assignment to one element of `biases_`. -/
def Layer.updB (L : Layer α) (oc : Nat) (t : Tri α) : Layer α :=
  { L with b := fun a => if a = oc then t else L.b a }

/-- The loop nest over all parameters used by the constructor and by `repair` (conv_layer.hpp:52-61, 157-166). -/
def Layer.all (d : Dims) (f : Tri α → Tri α) (L : Layer α) : Layer α :=
  forN d.OC (fun oc L =>
    let L := forN d.IC (fun ic L => forN d.K (fun kh L => forN d.K (fun kw L => L.updW oc ic kh kw (f (L.w oc ic kh kw))) L) L) L
    L.updB oc (f (L.b oc))) L

/-- Constructor (conv_layer.hpp:50-62); `raw` is what the arrays' default construction left. -/
def Layer.new (d : Dims) (N : Num α) (raw : Layer α) : Layer α := raw.all d fun _ => Tri.set N.zero

/-- `setWeight` (conv_layer.hpp:73-80): outside the arrays the assertion fails or, without assertions, the write is out of bounds. -/
def Layer.setWeight (d : Dims) (L : Layer α) (oc ic kh kw : Nat) (v : α) : Outcome (Layer α) :=
  if oc < d.OC ∧ ic < d.IC ∧ kh < d.K ∧ kw < d.K then .ok (L.updW oc ic kh kw (Tri.set v)) else .ub

/-- `setBias` (conv_layer.hpp:88-92). -/
def Layer.setBias (d : Dims) (L : Layer α) (oc : Nat) (v : α) : Outcome (Layer α) :=
  if oc < d.OC then .ok (L.updB oc (Tri.set v)) else .ub

/-- `repair` (conv_layer.hpp:156-167). -/
def Layer.repair (d : Dims) (eq : α → α → Bool) (L : Layer α) : Layer α := L.all d (Tri.repair eq)

/-- `input[ic][ih][iw]`: outside the array the read is undefined. -/
def readInput (d : Dims) (input : Nat → Nat → Nat → α) (ic : Nat) (ih iw : Int) : Outcome α :=
  if ic < d.IC ∧ 0 ≤ ih ∧ ih < d.H ∧ 0 ≤ iw ∧ iw < d.W then .ok (input ic ih.toNat iw.toNat) else .ub

/-- The body of the innermost loop (conv_layer.hpp:127-142). -/
def tap (d : Dims) (N : Num α) (eq : α → α → Bool) (L : Layer α) (input : Nat → Nat → Nat → α) (oc oh ow ic kh kw : Nat) (sum : α) :
    Outcome α :=
  let ih : Int := (oh * d.S : Nat) + kh - d.P
  let iw : Int := (ow * d.S : Nat) + kw - d.P
  if ih ≥ 0 ∧ ih < d.H ∧ iw ≥ 0 ∧ iw < d.W then
    (readInput d input ic ih iw).bind fun value => .ok (N.add sum (N.mul ((L.w oc ic kh kw).get eq) value))
  else .ok sum

/-- One output element (conv_layer.hpp:117-145). -/
def cell (d : Dims) (N : Num α) (eq : α → α → Bool) (L : Layer α) (input : Nat → Nat → Nat → α) (oc oh ow : Nat) : Outcome α :=
  forN d.IC (fun ic s => forN d.K (fun kh s => forN d.K (fun kw (s : Outcome α) =>
    s.bind (tap d N eq L input oc oh ow ic kh kw)) s) s) (.ok ((L.b oc).get eq))

/-- Assignment to one element of `output`. -/
def upd3 (f : Nat → Nat → Nat → α) (i j k : Nat) (v : α) : Nat → Nat → Nat → α :=
  fun a b c => if a = i ∧ b = j ∧ c = k then v else f a b c

/-- The zeroing of the output (conv_layer.hpp:105-111). -/
def zeroOut (d : Dims) (N : Num α) (out : Nat → Nat → Nat → α) : Nat → Nat → Nat → α :=
  forN d.OC (fun oc o => forN (d.out d.H) (fun oh o => forN (d.out d.W) (fun ow o => upd3 o oc oh ow N.zero) o) o) out

/-- `forward` (conv_layer.hpp:100-149): the new contents of the output array. -/
def forward (d : Dims) (N : Num α) (eq : α → α → Bool) (L : Layer α) (input out : Nat → Nat → Nat → α) : Outcome (Nat → Nat → Nat → α) :=
  forN d.OC (fun oc o => forN (d.out d.H) (fun oh o => forN (d.out d.W) (fun ow (o : Outcome (Nat → Nat → Nat → α)) =>
    o.bind fun o => (cell d N eq L input oc oh ow).bind fun s => .ok (upd3 o oc oh ow s)) o) o) (.ok (zeroOut d N out))

/-- A parameter of the layer. -/
inductive Param where
  | w (oc ic kh kw : Nat)
  | b (oc : Nat)
  deriving DecidableEq, Repr

/-- The copies of a parameter. -/
def Layer.at (L : Layer α) : Param → Tri α
  | .w oc ic kh kw => L.w oc ic kh kw
  | .b oc => L.b oc

/-- Calls and faults. -/
inductive Op (α : Type) where
  | set (p : Param) (v : α)
  | strike (p : Param) (k : Fin 3) (x : α)
  | repair

/-- One call or fault. -/
def Layer.step (d : Dims) (eq : α → α → Bool) (L : Layer α) : Op α → Outcome (Layer α)
  | .set (.w oc ic kh kw) v => L.setWeight d oc ic kh kw v
  | .set (.b oc) v => L.setBias d oc v
  | .strike (.w oc ic kh kw) k x => .ok (L.updW oc ic kh kw ((L.w oc ic kh kw).strike k x))
  | .strike (.b oc) k x => .ok (L.updB oc ((L.b oc).strike k x))
  | .repair => .ok (L.repair d eq)

/-- A history. -/
def Layer.run (d : Dims) (eq : α → α → Bool) (L : Layer α) : List (Op α) → Outcome (Layer α)
  | [] => .ok L
  | o :: l => (L.step d eq o).bind fun L => L.run d eq l

end Verif.Conv
