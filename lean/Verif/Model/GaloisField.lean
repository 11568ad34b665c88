/-!
Model of `GaloisField<m, Poly>` (include/rad_ml/neural/galois_field.hpp).

Field elements are values of the unsigned type `element_t` (8 bits if `m ≤ 8`, else 16 bits) and are
modelled as natural numbers below `2 ^ elBits`.  `std::array` and `std::vector` are lists; an access
outside the list is undefined behaviour (`ub`).  `throws` stands for `std::domain_error`.
-/
namespace Verif.GF

/-- Result of a call: a value, undefined behaviour, or an exception. -/
inductive Eff (α : Type) where
  | ok (a : α)
  | ub
  | throws
  deriving DecidableEq, Repr

/-- Sequencing of C++ statements. -/
def Eff.bind {α β : Type} (x : Eff α) (f : α → Eff β) : Eff β :=
  match x with
  | .ok a => f a
  | .ub => .ub
  | .throws => .throws

instance : Monad Eff where
  pure := .ok
  bind := Eff.bind

/-- `for (i = 0; i < n; ++i) s = body(i, s)` where the body may fail. -/
def forE {σ : Type} : Nat → (Nat → σ → Eff σ) → σ → Eff σ
  | 0, _, s => .ok s
  | n + 1, body, s => Eff.bind (forE n body s) (body n)

/-- `v[i]` as a read of an array or vector: out of bounds is undefined. -/
def rd (l : List Nat) (i : Nat) : Eff Nat :=
  match l[i]? with
  | some v => .ok v
  | none => .ub

/-- `v[i] = x`: out of bounds is undefined. -/
def wr (l : List Nat) (i : Nat) (x : Nat) : Eff (List Nat) :=
  if i < l.length then .ok (l.set i x) else .ub

/-- Template parameters `m` and `Poly` (galois_field.hpp:37-38). -/
structure Params where
  m : Nat
  poly : Nat

/-- Number of bits of `element_t` (galois_field.hpp:40). -/
def Params.elBits (P : Params) : Nat := if P.m ≤ 8 then 8 else 16

/-- Conversion to `element_t`. -/
def Params.toEl (P : Params) (x : Nat) : Nat := x % 2 ^ P.elBits

/-- `field_size` (galois_field.hpp:42): `1 << m` converted to `element_t`. -/
def Params.fieldSize (P : Params) : Nat := P.toEl (2 ^ P.m)

/-- `field_mask` (galois_field.hpp:43): `field_size - 1` converted to `element_t` (0 - 1 wraps). -/
def Params.fieldMask (P : Params) : Nat := P.toEl (P.fieldSize + 2 ^ P.elBits - 1)

/-- `primitive_poly` (galois_field.hpp:44). -/
def Params.primPoly (P : Params) : Nat := P.toEl P.poly

/-- The `size_t` index obtained from the `int` value `field_size - 1` (negative wraps to `2^64 - 1`). -/
def Params.lastIdx (P : Params) : Nat := (P.fieldSize + 2 ^ 64 - 1) % 2 ^ 64

/-- The `int` value `field_size - 1` as a modulus or loop bound.  It is used by the member functions,
which need a constructed object, so `field_size ≥ 1` holds there and natural subtraction is exact; in the
constructor the loop bound -1 executes no iteration, which the truncated 0 reproduces. -/
def Params.order (P : Params) : Nat := P.fieldSize - 1

/-- `multiply_no_lut` (galois_field.hpp:452-471), loop state `(result, a)`. -/
def Params.mulNoLut (P : Params) (a b : Nat) : Nat :=
  let rec go : Nat → Nat → Nat → Nat → Nat
    | 0, _, result, _ => result
    | n + 1, i, result, a =>
      let result := if (b &&& (1 <<< i)) ≠ 0 then result ^^^ a else result
      let overflow : Bool := (a &&& (1 <<< (P.m - 1))) != 0
      let a' := P.toEl (a <<< 1)
      let a'' := if overflow then a' ^^^ (P.primPoly &&& P.fieldMask) else a'
      go n (i + 1) result a''
  go P.m 0 0 a &&& P.fieldMask

/-- The two lookup tables of an object (galois_field.hpp:405-406). -/
structure Tables where
  exp : List Nat
  log : List Nat
  deriving DecidableEq, Repr

/-- Body of the exp-table loop (galois_field.hpp:422-430). -/
def Params.expStep (P : Params) (i : Nat) (s : List Nat × Nat) : Eff (List Nat × Nat) :=
  Eff.bind (wr s.1 i s.2) fun e =>
    let x := P.mulNoLut s.2 2
    let x := if x ≥ P.fieldSize then x ^^^ P.primPoly else x
    .ok (e, x)

/-- Body of the log-table loop (galois_field.hpp:438-440). -/
def logStep (exp : List Nat) (i : Nat) (log : List Nat) : Eff (List Nat) :=
  Eff.bind (rd exp i) fun v => wr log v i

/-- Constructor and `initialize_tables` (galois_field.hpp:49-53, 411-441).  The arrays have `field_size`
elements; the clearing loop :417-420 sets every element to 0.  Simplification: the loop counters have type
`element_t`; they stay below `field_size`, which is an `element_t`, so they do not wrap. -/
def Params.construct (P : Params) : Eff Tables :=
  let zero := List.replicate P.fieldSize 0
  Eff.bind (forE P.order P.expStep (zero, 1)) fun s =>
  Eff.bind (rd s.1 0) fun e0 =>
  Eff.bind (wr s.1 P.lastIdx e0) fun exp =>
  Eff.bind (wr zero 0 0) fun log =>
  Eff.bind (forE P.order (logStep exp) log) fun log =>
  .ok ⟨exp, log⟩

/-- `add` (galois_field.hpp:62). -/
def add (a b : Nat) : Nat := a ^^^ b

/-- `subtract` (galois_field.hpp:71). -/
def subtract (a b : Nat) : Nat := a ^^^ b

section
variable (P : Params) (t : Tables)

/-- `multiply` (galois_field.hpp:80-87). -/
def multiply (a b : Nat) : Eff Nat :=
  if a = 0 ∨ b = 0 then .ok 0
  else Eff.bind (rd t.log a) fun la => Eff.bind (rd t.log b) fun lb => rd t.exp ((la + lb) % P.order)

/-- `divide` (galois_field.hpp:96-105).  `log[a] + field_size - 1 - log[b]` is non-negative because table
entries are below `field_size`. -/
def divide (a b : Nat) : Eff Nat :=
  if b = 0 then .throws
  else if a = 0 then .ok 0
  else Eff.bind (rd t.log a) fun la => Eff.bind (rd t.log b) fun lb =>
    rd t.exp ((la + P.order - lb) % P.order)

/-- `pow` (galois_field.hpp:114-122); the product is computed in 32-bit unsigned arithmetic. -/
def pow (a power : Nat) : Eff Nat :=
  if a = 0 then .ok (if power = 0 then 1 else 0)
  else if power = 0 then .ok 1
  else Eff.bind (rd t.log a) fun la => rd t.exp (((la * power) % 2 ^ 32) % P.order)

/-- `inverse` (galois_field.hpp:130-137). -/
def inverse (a : Nat) : Eff Nat :=
  if a = 0 then .throws
  else Eff.bind (rd t.log a) fun la => rd t.exp (P.order - la)

/-- `eval_poly` (galois_field.hpp:146-155): Horner's rule, coefficients highest degree first. -/
def evalPoly (x : Nat) : List Nat → Nat → Eff Nat
  | [], result => .ok result
  | c :: cs, result => Eff.bind (multiply P t result x) fun r => evalPoly x cs (add r c)

/-- Inner loop of `rs_generator_poly` (galois_field.hpp:178-180). -/
def genStep (g : List Nat) (i j : Nat) (gn : List Nat) : Eff (List Nat) :=
  Eff.bind (rd gn (j + 1)) fun old => Eff.bind (rd g j) fun gj => Eff.bind (rd t.exp i) fun e =>
  Eff.bind (multiply P t gj e) fun p => wr gn (j + 1) (add old p)

/-- `rs_generator_poly` (galois_field.hpp:163-185). -/
def generatorPoly (nsym : Nat) : Eff (List Nat) :=
  forE nsym (fun i g => forE g.length (genStep P t g i) (g ++ [0])) [1]

/-- Body of the loop of `rs_calc_syndromes` (galois_field.hpp:200-202). -/
def syndStep (msg : List Nat) (i : Nat) (s : List Nat) : Eff (List Nat) :=
  Eff.bind (rd t.exp i) fun x => Eff.bind (evalPoly P t x msg 0) fun v => wr s i v

/-- `rs_calc_syndromes` (galois_field.hpp:194-204).  With `nsym = 255` the `uint8_t` counter never exceeds
`nsym` and the loop does not end; that case is outside the model (the table read at index 255 is modelled). -/
def calcSyndromes (msg : List Nat) (nsym : Nat) : Eff (List Nat) :=
  forE (nsym + 1) (syndStep P t msg) (List.replicate (nsym + 1) 0)

/-- Discrepancy loop (galois_field.hpp:222-225), `n` iterations `j = 1, …, n`. -/
def discrepancy (errLoc synd : List Nat) (i : Nat) : Nat → Nat → Eff Nat
  | 0, d => .ok d
  | n + 1, d => Eff.bind (discrepancy errLoc synd i n d) fun d =>
      Eff.bind (rd errLoc (errLoc.length - 1 - (n + 1))) fun c =>
      -- `i + 1 - j` with j > i + 1 converts to a huge index
      Eff.bind (if n + 1 ≤ i + 1 then rd synd (i + 1 - (n + 1)) else .ub) fun s =>
      Eff.bind (multiply P t c s) fun p => .ok (add d p)

/-- Update of `new_loc` (galois_field.hpp:232-234). -/
def locStep (errLoc : List Nat) (delta j : Nat) (nl : List Nat) : Eff (List Nat) :=
  Eff.bind (rd errLoc j) fun e => Eff.bind (rd nl j) fun o =>
  Eff.bind (multiply P t delta o) fun p => wr nl j (add e p)

/-- `for (auto& el : old_loc) el = multiply(el, delta)` (galois_field.hpp:239-241). -/
def scaleList (delta : Nat) : List Nat → Eff (List Nat)
  | [] => .ok []
  | x :: xs => Eff.bind (multiply P t x delta) fun y => Eff.bind (scaleList delta xs) fun ys => .ok (y :: ys)

/-- One iteration of Berlekamp–Massey (galois_field.hpp:220-247); state `(err_loc, old_loc)`. -/
def bmStep (synd : List Nat) (i : Nat) (s : List Nat × List Nat) : Eff (List Nat × List Nat) :=
  let errLoc := s.1
  let oldLoc := s.2
  Eff.bind (rd synd (i + 1)) fun d0 =>
  Eff.bind (discrepancy P t errLoc synd i (errLoc.length - 1) d0) fun delta =>
  let newLoc := 0 :: oldLoc
  Eff.bind (if delta ≠ 0 then forE newLoc.length (locStep P t errLoc delta) newLoc else .ok newLoc) fun newLoc =>
  if 2 * oldLoc.length ≤ i + 1 ∧ delta ≠ 0 then
    Eff.bind (scaleList P t delta errLoc) fun ol => .ok (newLoc, ol)
  else .ok (errLoc, newLoc)

/-- One coefficient of the evaluator (galois_field.hpp:254-258), `n` iterations. -/
def evalCoeff (errLoc synd : List Nat) (i : Nat) : Nat → Eff Nat
  | 0 => .ok 0
  | n + 1 => Eff.bind (evalCoeff errLoc synd i n) fun tmp => Eff.bind (rd errLoc n) fun c =>
      Eff.bind (rd synd (i - n + 1)) fun s => Eff.bind (multiply P t c s) fun p => .ok (add tmp p)

/-- `rs_find_error_locator` (galois_field.hpp:213-262). -/
def findErrorLocator (synd : List Nat) (nsym : Nat) : Eff (List Nat × List Nat) :=
  Eff.bind (forE nsym (bmStep P t synd) ([1], [1])) fun s =>
  Eff.bind (forE nsym (fun i ev => Eff.bind (evalCoeff P t s.1 synd i (min (i + 1) s.1.length)) fun v =>
    wr ev i v) (List.replicate nsym 0)) fun ev => .ok (s.1, ev)

/-- `α^(-i)` as the code computes it (galois_field.hpp:286, 328): `size_t` arithmetic, wrapping. -/
def alphaInv (i : Nat) : Eff Nat :=
  rd t.exp (((P.order + 2 ^ 64 - i % 2 ^ 64) % 2 ^ 64) % P.order)

/-- Body of the Chien search (galois_field.hpp:284-297). -/
def chienStep (errLoc : List Nat) (msgLen i : Nat) (pos : List Nat) : Eff (List Nat) :=
  Eff.bind (alphaInv P t i) fun x => Eff.bind (evalPoly P t x errLoc 0) fun v =>
  .ok (if v = 0 then pos ++ [msgLen - 1 - i] else pos)

/-- `rs_find_errors` (galois_field.hpp:271-304). -/
def findErrors (errLoc : List Nat) (msgLen : Nat) : Eff (List Nat) :=
  let num := errLoc.length - 1
  if num > msgLen then .ok []
  else Eff.bind (forE msgLen (chienStep P t errLoc msgLen) []) fun pos =>
    .ok (if pos.length ≠ num then [] else pos)

/-- Evaluator at a position (galois_field.hpp:331-334). -/
def forneyNum (ev : List Nat) (x : Nat) : Nat → Eff Nat
  | 0 => .ok 0
  | n + 1 => Eff.bind (forneyNum ev x n) fun acc => Eff.bind (rd ev n) fun c =>
      Eff.bind (pow P t x n) fun p => Eff.bind (multiply P t c p) fun q => .ok (add acc q)

/-- Locator derivative at a position (galois_field.hpp:337-340): `n` iterations, `j = 2k + 1`. -/
def forneyDen (errLoc : List Nat) (x : Nat) : Nat → Eff Nat
  | 0 => .ok 0
  | n + 1 => Eff.bind (forneyDen errLoc x n) fun acc => Eff.bind (rd errLoc (2 * n + 1)) fun c =>
      Eff.bind (pow P t x (2 * n)) fun p => Eff.bind (multiply P t c p) fun q => .ok (add acc q)

/-- `rs_correct_errors_at_positions` (galois_field.hpp:315-349). -/
def correctAt (ev errLoc : List Nat) : List Nat → List Nat → Eff (List Nat)
  | [], msg => .ok msg
  | pos :: ps, msg =>
    Eff.bind (alphaInv P t pos) fun x =>
    Eff.bind (forneyNum P t ev x ev.length) fun num =>
    Eff.bind (forneyDen P t errLoc x (errLoc.length / 2)) fun den =>
    Eff.bind (multiply P t x den) fun d =>
    Eff.bind (divide P t num d) fun mag =>
    Eff.bind (rd msg pos) fun old =>
    Eff.bind (wr msg pos (add old mag)) fun msg => correctAt ev errLoc ps msg

/-- `rs_correct_errors` (galois_field.hpp:358-389); `none` is `std::nullopt`. -/
def correctErrors (msg : List Nat) (nsym : Nat) : Eff (Option (List Nat)) :=
  Eff.bind (calcSyndromes P t msg nsym) fun synd =>
  if (synd.drop 1).all (· == 0) then .ok (some msg)
  else
    Eff.bind (findErrorLocator P t synd nsym) fun (loc, ev) =>
    Eff.bind (findErrors P t loc msg.length) fun pos =>
    if pos.isEmpty then .ok none
    else Eff.bind (correctAt P t ev loc pos msg) fun m => .ok (some m)

end

/-- `GF16` (galois_field.hpp:475). -/
def gf16 : Params := ⟨4, 0x13⟩
/-- `GF256` (galois_field.hpp:476). -/
def gf256 : Params := ⟨8, 0x11d⟩
/-- `GF1024` (galois_field.hpp:477). -/
def gf1024 : Params := ⟨10, 0x409⟩

end Verif.GF
