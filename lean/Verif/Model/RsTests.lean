import Verif.Model.Loop
/-!
Model of the stand-alone Reed–Solomon programs /repo/rs_improved_test.cpp (classes `GF256`, `ReedSolomon`), /repo/rs_minimal_test.cpp (`SimpleReedSolomon`) and
/repo/gf_minimal_test.cpp (`SimpleGF256::multiply`).

Bytes are `BitVec 8`, a `float` is its binary32 pattern, with the bytes of the union in the order of a little-endian machine. Output is left out. `SimpleGF256` of rs_minimal_test.cpp:11-59
has the tables and the multiplication of `GF256` and is not modelled again.
-/
namespace Verif.RsTests
open Verif

/-- A byte. -/
abbrev Byte := BitVec 8
/-- A binary32 value. -/
abbrev Value := BitVec 32

/-! ### GF256 -/

/-- `multiply_by_alpha` (rs_improved_test.cpp:115-122), elements as natural numbers below 256. -/
def timesAlpha (x : Nat) : Nat := (if (x <<< 1) &&& 0x100 != 0 then x <<< 1 ^^^ 0x11D else x <<< 1) &&& 0xFF

/-- The first `n` values of `x` (rs_improved_test.cpp:26-32). -/
def powers : Nat → Nat → List Nat
  | 0, _ => []
  | n + 1, x => x :: powers n (timesAlpha x)

/-- `exp_table` (rs_improved_test.cpp:22, 26-35). -/
def expTable : List Nat := powers 255 1 ++ [1]

/-- `exp_table[i]`. -/
def exp (i : Nat) : Nat := expTable.getD i 0

/-- `log_table[a]` (rs_improved_test.cpp:23, 38-41): the index at which `a` was written last. -/
def log (a : Nat) : Nat := forN 255 (fun i l => if exp i = a then i else l) 0

/-- `add` (rs_improved_test.cpp:47). -/
def add (a b : Nat) : Nat := a ^^^ b

/-- `multiply` (rs_improved_test.cpp:50-55). -/
def multiply (a b : Nat) : Nat := if a = 0 ∨ b = 0 then 0 else exp ((log a + log b) % 255)

/-- `divide` (rs_improved_test.cpp:58-67); `none` is `std::domain_error`. -/
def divide (a b : Nat) : Option Nat := if b = 0 then none else if a = 0 then some 0 else some (exp ((log a + 255 - log b) % 255))

/-- `eval_poly` (rs_improved_test.cpp:70-81). -/
def evalPoly (poly : List Nat) (x : Nat) : Nat :=
  (poly.foldl (fun (s : Nat × Nat) c => (add s.1 (multiply c s.2), multiply s.2 x)) (0, 1)).1

/-- `poly_mul` (rs_improved_test.cpp:98-110), for polynomials that are not both empty. -/
def polyMul (p q : List Nat) : List Nat :=
  forN p.length (fun i r => forN q.length (fun j (r : List Nat) => r.set (i + j) (add (r.getD (i + j) 0) (multiply (p.getD i 0) (q.getD j 0)))) r)
    (List.replicate (p.length + q.length - 1) 0)

/-- `rs_generator_poly` (rs_improved_test.cpp:84-95), `nsym` a byte. -/
def generator (nsym : Nat) : List Nat := forN nsym (fun i g => polyMul g [1, exp i]) [1]

/-! ### The improved code -/

/-- Byte `i` of a value. -/
def byteAt (v : Value) (i : Nat) : Byte := BitVec.ofNat 8 (v.toNat / 256 ^ i)

/-- The value of the first four bytes. -/
def valueOf (w : List Byte) : Value :=
  BitVec.ofNat 32 ((w.getD 0 0#8).toNat + 256 * ((w.getD 1 0#8).toNat + 256 * ((w.getD 2 0#8).toNat + 256 * (w.getD 3 0#8).toNat)))

/-- The exclusive or (rs_improved_test.cpp:294-296, 330-333, 238, 241). -/
def sum1 (w : List Byte) : Byte := forN 4 (fun i c => c ^^^ w.getD i 0#8) 0#8

/-- The weighted one (rs_improved_test.cpp:299-301, 336-340, 239, 242). -/
def sum2 (w : List Byte) : Byte := forN 4 (fun i c => c ^^^ (w.getD i 0#8 <<< (i % 4))) 0#8

/-- The third (rs_improved_test.cpp:304-308, 343-347). -/
def sum3 (w : List Byte) : Byte := forN 4 (fun i c => (c <<< 1) ^^^ w.getD i 0#8) 0#8

/-- The fourth (rs_improved_test.cpp:311-315, 350-354). -/
def sum4 (w : List Byte) : Byte := forN 4 (fun i c => ((c >>> 4) ||| (c <<< 4)) ^^^ w.getD i 0#8) 0x5A#8

/-- The four bytes of a value. -/
def bytesOf (v : Value) : List Byte := [byteAt v 0, byteAt v 1, byteAt v 2, byteAt v 3]

/-- `encode` with `compute_ecc` (rs_improved_test.cpp:144-170, 283-318). -/
def encode (v : Value) : List Byte := bytesOf v ++ [sum1 (bytesOf v), sum2 (bytesOf v), sum3 (bytesOf v), sum4 (bytesOf v)]

/-- `calculate_syndromes` (rs_improved_test.cpp:321-357). -/
def syndromes (w : List Byte) : List Byte := [sum1 w ^^^ w.getD 4 0#8, sum2 w ^^^ w.getD 5 0#8, sum3 w ^^^ w.getD 6 0#8, sum4 w ^^^ w.getD 7 0#8]

/-- `decode` (rs_improved_test.cpp:195-264). -/
def decode (w : List Byte) : Option Value :=
  if w.length < 8 then none
  else if (syndromes w).all (· == 0#8) then some (valueOf w)
  else if !(sum1 w == w.getD 4 0#8) && !(sum2 w == w.getD 5 0#8) then none
  else some (valueOf w)

/-- `correction_capability` (rs_improved_test.cpp:267-271). -/
def capability : Nat := 4 / 2

/-! ### The minimal code -/

/-- `SimpleReedSolomon::encode` (rs_minimal_test.cpp:69-102). -/
def minEncode (v : Value) : List Byte :=
  bytesOf v ++ [sum1 (bytesOf v), ~~~ sum1 (bytesOf v), byteAt v 0 ^^^ byteAt v 1, byteAt v 2 ^^^ byteAt v 3]

/-- `~checksum`: the operand is promoted to `int` (rs_minimal_test.cpp:120). -/
def intNot (c : Byte) : Int := -(c.toNat : Int) - 1

/-- `SimpleReedSolomon::decode` (rs_minimal_test.cpp:104-173). -/
def minDecode (w : List Byte) : Option Value :=
  if w.length < 8 then none
  else
    let checksum := sum1 w
    let valid := checksum == w.getD 4 0#8
    let invValid := intNot checksum == ((w.getD 5 0#8).toNat : Int)
    let xor1 := (w.getD 0 0#8 ^^^ w.getD 1 0#8) == w.getD 6 0#8
    let xor2 := (w.getD 2 0#8 ^^^ w.getD 3 0#8) == w.getD 7 0#8
    if valid && invValid && xor1 && xor2 then some (valueOf w)
    else if !valid && invValid then
      some (valueOf (if xor1 && !xor2 && (w.getD 7 0#8 != (w.getD 2 0#8 ^^^ w.getD 3 0#8)) then w.set 3 (w.getD 2 0#8 ^^^ w.getD 7 0#8) else w))
    else none

/-- `SimpleGF256::multiply` of gf_minimal_test.cpp:38-49. -/
def stubMultiply (a b : Byte) : Byte :=
  if a = 0#8 ∨ b = 0#8 then 0#8 else if a = 1#8 then b else if b = 1#8 then a else if a = 2#8 ∧ b = 2#8 then 4#8 else if a = 2#8 ∧ b = 4#8 then 8#8 else 0#8

end Verif.RsTests
