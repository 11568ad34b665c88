import Verif.Model.Loop
/-!
Model of the class `ReedSolomonCode` of /repo/src/testing/protection_techniques.cpp:72-179 (no other code uses it).

Symbols are bytes; the `size_t` factors handed to `gf_multiply` are reduced to a byte by the call.
-/
namespace Verif.TestRs

/-- `uint8_t`. -/
abbrev Byte := BitVec 8

/-- `carry = a & 0x80; a <<= 1; if (carry) a ^= 0x1D;` (protection_techniques.cpp:85-87). -/
def shift (a : Byte) : Byte := if a &&& 0x80#8 != 0#8 then (a <<< 1) ^^^ 0x1D#8 else a <<< 1

/-- `gf_multiply` (protection_techniques.cpp:81-90): the pair is `(a, p)`; `b` does not change in the loop. -/
def gfMultiply (a b : Byte) : Byte :=
  (forN 8 (fun _ (s : Byte × Byte) => (shift s.1, if b &&& 1#8 != 0#8 then s.2 ^^^ s.1 else s.2)) (a, 0#8)).2

/-- `for (j = 0; j < n; j++) x ^= f(j)` from 0 (protection_techniques.cpp:101-104, 121-124, 164-167). -/
def xorSum (n : Nat) (f : Nat → Byte) : Byte := forN n (fun j x => x ^^^ f j) 0#8

/-- One parity symbol (protection_techniques.cpp:100-106): `i - j` as a byte. -/
def paritySymbol (cw : List Byte) (i : Nat) : Byte :=
  xorSum 223 (fun j => gfMultiply (cw.getD j 0#8) (gfMultiply 1#8 (BitVec.ofNat 8 (i - j))))

/-- `encode` (protection_techniques.cpp:93-109). `std::copy` of more than 255 symbols writes past the end. -/
def encode (data : List Byte) : Outcome (List Byte) :=
  if 255 < data.length then .ub
  else .ok (forN 32 (fun k cw => cw.set (223 + k) (paritySymbol cw (223 + k))) (data ++ List.replicate (255 - data.length) 0#8))

/-- One syndrome (protection_techniques.cpp:120-125). -/
def syndrome (cw : List Byte) (i : Nat) : Byte :=
  xorSum 255 (fun j => gfMultiply (cw.getD j 0#8) (gfMultiply 1#8 (BitVec.ofNat 8 (i * j))))

/-- `lambda`, `b` and `L` (protection_techniques.cpp:131-133); `m` and `delta` are never read. -/
structure Bm where
  lam : List Byte
  b : List Byte
  L : Nat

/-- The initial state (protection_techniques.cpp:131-135). -/
def Bm.init : Bm := ⟨1#8 :: List.replicate 31 0#8, 1#8 :: List.replicate 31 0#8, 0⟩

/-- `d` (protection_techniques.cpp:138-141); reading `lambda[i]` or `syndromes[n - i]` for `i <= L` out of bounds is undefined. -/
def discrepancy (synd : List Byte) (s : Bm) (n : Nat) : Outcome Byte :=
  if s.L ≤ 31 ∧ s.L ≤ n then
    .ok (synd.getD n 0#8 ^^^ xorSum s.L (fun i => gfMultiply (s.lam.getD (i + 1) 0#8) (synd.getD (n - (i + 1)) 0#8)))
  else .ub

/-- `lambda[i] ^= gf_multiply(d, b[i])` for all `i` (protection_techniques.cpp:147-149, 155-157). -/
def addScaled (d : Byte) (lam b : List Byte) : List Byte := List.zipWith (fun l x => l ^^^ gfMultiply d x) lam b

/-- One iteration (protection_techniques.cpp:137-160). -/
def bmStep (synd : List Byte) (n : Nat) (s : Bm) : Outcome Bm :=
  (discrepancy synd s n).bind fun d =>
    if d == 0#8 then .ok s
    else if 2 * s.L ≤ n then .ok ⟨addScaled d s.lam s.b, s.lam, n + 1 - s.L⟩
    else .ok { s with lam := addScaled d s.lam s.b }

/-- All iterations (protection_techniques.cpp:137). -/
def berlekampMassey (synd : List Byte) : Outcome Bm := forN 32 (fun n (r : Outcome Bm) => r.bind (bmStep synd n)) (Outcome.ok Bm.init)

/-- `eval` at position `i` (protection_techniques.cpp:164-167), undefined beyond the 32 coefficients. -/
def evalAt (s : Bm) (i : Nat) : Outcome Byte :=
  if s.L ≤ 31 then .ok (xorSum (s.L + 1) (fun j => gfMultiply (s.lam.getD j 0#8) (gfMultiply 1#8 (BitVec.ofNat 8 (i * j))))) else .ub

/-- The correction at one position (protection_techniques.cpp:168-173). -/
def fixAt (s : Bm) (i : Nat) (data : List Byte) : Outcome (List Byte) :=
  (evalAt s i).bind fun e => .ok (if e == 0#8 then (if i < 223 then data.set i (data.getD i 0#8 ^^^ 1#8) else data) else data)

/-- `decode` (protection_techniques.cpp:112-178): the data and whether errors were found; reads past the end of a word of fewer than 255 symbols. -/
def decode (cw : List Byte) : Outcome (List Byte × Bool) :=
  if cw.length < 255 then .ub
  else
    let data := cw.take 223
    let synd := (List.range 32).map (syndrome cw)
    if synd.all (· == 0#8) then .ok (data, false)
    else (berlekampMassey synd).bind fun s =>
      (forN 255 (fun i (r : Outcome (List Byte)) => r.bind (fixAt s i)) (Outcome.ok data)).bind fun d => .ok (d, true)

end Verif.TestRs
