import Verif.Model.PyCodec
import Verif.Spec.Float
/-!
Model of the protection methods of /repo/protection_methods.py (with `float_to_bytes`, `bytes_to_float` of /repo/rs_monte_carlo.py:344-353).

A value is a binary32 pattern: `struct.pack("!f", x)` of a double that is no binary32 value rounds first (and raises for one out of range), which is not modelled, and the packing of
signalling NaNs is taken to keep the pattern. Bits are `Bool`, bytes natural numbers. A returned `none` is an exception that leaves the method.
-/
namespace Verif.PyMethods
open Verif

/-- A binary32 value. -/
abbrev Value := BitVec 32

/-- `float_to_bytes` (rs_monte_carlo.py:344-347): big endian. -/
def floatBytes (v : Value) : List Nat := [v.toNat / 2 ^ 24, v.toNat / 2 ^ 16 % 256, v.toNat / 2 ^ 8 % 256, v.toNat % 256]

/-- `bytes_to_float` (rs_monte_carlo.py:350-353); `none`: not four bytes, `struct.error` or `ValueError`. -/
def bytesFloat : List Nat → Option Value
  | [a, b, c, d] => if a < 256 ∧ b < 256 ∧ c < 256 ∧ d < 256 then some (BitVec.ofNat 32 (((a * 256 + b) * 256 + c) * 256 + d)) else none
  | _ => none

/-! ### Bits and bytes -/

/-- `byte |= bits[j] << j` for the first (at most eight) bits (protection_methods.py:204-207, 223-226, 318-321). -/
def byteOf (bits : List Bool) : Nat := forN (min 8 bits.length) (fun j byte => byte ||| ((bits.getD j false).toNat <<< j)) 0

/-- Bits to bytes (protection_methods.py:221-227, 316-322). -/
def packBits (bits : List Bool) : List Nat := (List.range ((bits.length + 7) / 8)).map fun c => byteOf (bits.drop (8 * c))

/-- Bytes to bits, lowest first (protection_methods.py:190-193, 234-237, 329-332). -/
def unpackBits (bytes : List Nat) : List Bool := bytes.flatMap fun b => (List.range 8).map fun i => (b >>> i) &&& 1 == 1

/-- `_float_to_bits` (protection_methods.py:184-195). -/
def floatBits (v : Value) : List Bool := unpackBits (floatBytes v)

/-- `_bits_to_float` (protection_methods.py:197-211); `none`: `ValueError`. -/
def bitsFloat (bits : List Bool) : Option Value := if bits.length ≠ 32 then none else bytesFloat ((List.range 4).map fun i => byteOf (bits.drop (i * 8)))

/-! ### Hamming code -/

/-- `i & (i - 1) == 0` (protection_methods.py:124, 179). -/
def isPow2 (i : Nat) : Bool := i &&& (i - 1) == 0

/-- The loop for the number of parity bits (protection_methods.py:114-115); `m + 1` rounds suffice. -/
def growParity (m : Nat) : Nat → Nat → Nat
  | 0, r => r
  | f + 1, r => if 1 <<< r < m + r + 1 then growParity m f (r + 1) else r

/-- The number of parity bits for `m` data bits (protection_methods.py:112-115). -/
def paritySize (m : Nat) : Nat := growParity m (m + 1) 1

/-- Data bits at the positions (from `i` on) that are no powers of two (protection_methods.py:118-126). The data never run out (C275). -/
def fill : Nat → Nat → List Bool → List Bool
  | 0, _, _ => []
  | n + 1, i, d => if isPow2 i then false :: fill n (i + 1) d else d.headD false :: fill n (i + 1) d.tail

/-- The parity of the bits at positions with bit `i` set, for the list that starts at position `p` (protection_methods.py:131-136, 157-161), as a recursion over the list. -/
def parity (i : Nat) : Nat → List Bool → Bool
  | _, [] => false
  | p, b :: bs => xor (if (p &&& (1 <<< i)) != 0 then b else false) (parity i (p + 1) bs)

/-- `_calculate_parity_bits` (protection_methods.py:109-140). -/
def calculate (d : List Bool) : List Bool :=
  forN (paritySize d.length) (fun i ext => ext.set (1 <<< i - 1) (parity i (1 <<< i - 1 + 1) (ext.drop (1 <<< i - 1)))) (fill (d.length + paritySize d.length) 1 d)

/-- The loop for the number of syndrome bits (protection_methods.py:150-152). -/
def growSyndrome (n : Nat) : Nat → Nat → Nat
  | 0, r => r
  | f + 1, r => if 1 <<< r ≤ n then growSyndrome n f (r + 1) else r

/-- `syndrome` (protection_methods.py:150-164). -/
def syndrome (h : List Bool) : Nat :=
  forN (growSyndrome h.length (h.length + 1) 0) (fun i s => if parity i 1 h then s ||| (1 <<< i) else s) 0

/-- The word after the correction, and `success` (protection_methods.py:167-174). -/
def correct (h : List Bool) : List Bool × Bool :=
  if syndrome h ≠ 0 then
    if syndrome h ≤ h.length then (h.set (syndrome h - 1) (!h.getD (syndrome h - 1) false), true) else (h, false)
  else (h, true)

/-- The data bits of the list that starts at position `p` (protection_methods.py:177-180). -/
def dataFrom : Nat → List Bool → List Bool
  | _, [] => []
  | p, b :: bs => if isPow2 p then dataFrom (p + 1) bs else b :: dataFrom (p + 1) bs

/-- `_extract_data_bits` (protection_methods.py:142-182). -/
def extract (h : List Bool) : List Bool × Bool := (dataFrom 1 (correct h).1, (correct h).2)

/-- Truncation, padding and conversion (protection_methods.py:242-255, 337-352). -/
def finish (r : List Bool × Bool) : Value × Bool :=
  let d := r.1.take 32
  match bitsFloat (d ++ List.replicate (32 - d.length) false) with
  | some v => (v, r.2)
  | none => (0#32, false)

/-- `HammingProtection.protect` (protection_methods.py:213-229). -/
def hammingProtect (v : Value) : List Nat := packBits (calculate (floatBits v))

/-- `HammingProtection.recover` (protection_methods.py:231-255). -/
def hammingRecover (l : List Nat) : Value × Bool := finish (extract (unpackBits l))

/-! ### SEC-DED -/

/-- `overall_parity` (protection_methods.py:274-276, 297-299). -/
def overall (h : List Bool) : Bool := h.foldl xor false

/-- `_calculate_secded` (protection_methods.py:268-279). -/
def calculateSecded (d : List Bool) : List Bool := calculate d ++ [overall (calculate d)]

/-- `_extract_data_bits_secded` (protection_methods.py:282-312); `none`: `IndexError` for the empty list. -/
def extractSecded (h : List Bool) : Option (List Bool × Bool) :=
  match h.getLast? with
  | none => none
  | some received =>
    let code := h.dropLast
    let r := extract code
    if overall code != received then if !r.2 then some (r.1, false) else some r else some r

/-- `SECDEDProtection.protect` (protection_methods.py:314-330). -/
def secdedProtect (v : Value) : List Nat := packBits (calculateSecded (floatBits v))

/-- `SECDEDProtection.recover` (protection_methods.py:333-358). -/
def secdedRecover (l : List Nat) : Option (Value × Bool) := (extractSecded (unpackBits l)).map finish

/-! ### TMR, Reed–Solomon, none -/

/-- `TMRProtection.protect` (protection_methods.py:370-386). -/
def tmrProtect (v : Value) : List Nat := floatBytes v ++ floatBytes v ++ floatBytes v

/-- A copy cut or padded to four bytes (protection_methods.py:401-403). -/
def four (l : List Nat) : List Nat := (l ++ List.replicate 4 0).take 4

/-- The vote (protection_methods.py:412-419). -/
def vote (a b c : Value) : Value × Bool :=
  if Spec.f32eq a b || Spec.f32eq a c then (a, true) else if Spec.f32eq b c then (b, true) else (a, false)

/-- `TMRProtection.recover` (protection_methods.py:388-421). -/
def tmrRecover (l : List Nat) : Value × Bool :=
  if l.length < 12 then (0#32, false)
  else
    let n := l.length / 3
    match bytesFloat (four (l.take n)), bytesFloat (four ((l.drop n).take n)), bytesFloat (four ((l.drop (2 * n)).take n)) with
    | some a, some b, some c => vote a b c
    | _, _, _ => (0#32, false)

/-- `ReedSolomonProtection.protect` (protection_methods.py:72-78); the number of symbols given to the constructor is not used (protection_methods.py:69-71). -/
def rsProtect (v : Value) : List Nat := PyRs.encode (floatBytes v)

/-- `ReedSolomonProtection.recover` (protection_methods.py:80-95). -/
def rsRecover (forney : List Nat → List Nat → List Nat → Option (List Nat × Bool)) (l : List Nat) : Option (Value × Bool) :=
  (PyRs.decode forney l).map fun r =>
    if !r.2 then (0#32, false)
    else match bytesFloat r.1 with
      | some v => (v, true)
      | none => (0#32, false)

/-- `NoProtection.recover` (protection_methods.py:532-543). -/
def noneRecover (l : List Nat) : Value × Bool :=
  if l.length ≥ 4 then match bytesFloat (l.take 4) with
    | some v => (v, true)
    | none => (0#32, false)
  else (0#32, false)

/-! ### Hybrid -/

/-- A protection method; `none` is an exception. -/
structure Method where
  protect : Value → List Nat
  recover : List Nat → Option (Value × Bool)

/-- `HybridProtection.protect` (protection_methods.py:449-469). -/
def hybridProtect (ms : List Method) (v : Value) : List Nat :=
  List.range ms.length ++ ms.map (fun m => (m.protect v).length) ++ ms.flatMap (fun m => m.protect v)

/-- The parts (protection_methods.py:482-489). -/
def split (l : List Nat) : Nat → List Nat → List (List Nat)
  | _, [] => []
  | start, n :: ns => if start + n ≤ l.length then ((l.drop start).take n) :: split l (start + n) ns else [] :: split l start ns

/-- `recover` of each part by the method its marker names (protection_methods.py:495-500); `none` if one raises. -/
def results (ms : List Method) : List Nat → List (List Nat) → Option (List (Value × Bool))
  | k :: ks, p :: ps =>
    match ms[k]? with
    | some m => (m.recover p).bind fun r => (results ms ks ps).map (r :: ·)
    | none => results ms ks ps
  | _, _ => some []

/-- The first success, else the first value, else 0.0 (protection_methods.py:503-511). -/
def pick (rs : List (Value × Bool)) : Value × Bool :=
  match rs.find? (·.2) with
  | some r => (r.1, true)
  | none => match rs with
    | r :: _ => (r.1, false)
    | [] => (0#32, false)

/-- `HybridProtection.recover` (protection_methods.py:471-514). -/
def hybridRecover (ms : List Method) (l : List Nat) : Value × Bool :=
  if l.length < ms.length * 2 then (0#32, false)
  else match results ms (l.take ms.length) (split l (ms.length * 2) ((l.drop ms.length).take ms.length)) with
    | some rs => pick rs
    | none => (0#32, false)

/-! ### The factory -/

/-- The methods of `create_protection_method` as objects. -/
def hamming : Method := ⟨hammingProtect, fun l => some (hammingRecover l)⟩
/-- `SECDEDProtection()`. -/
def secded : Method := ⟨secdedProtect, secdedRecover⟩
/-- `TMRProtection()`. -/
def tmr : Method := ⟨tmrProtect, fun l => some (tmrRecover l)⟩
/-- `ReedSolomonProtection(n)`. -/
def rs (forney : List Nat → List Nat → List Nat → Option (List Nat × Bool)) : Method := ⟨rsProtect, rsRecover forney⟩
/-- `NoProtection()` (protection_methods.py:520-543). -/
def unprotected : Method := ⟨floatBytes, fun l => some (noneRecover l)⟩
/-- `HybridProtection(name, ms)`. -/
def hybrid (ms : List Method) : Method := ⟨hybridProtect ms, fun l => some (hybridRecover ms l)⟩

/-- `create_protection_method` (protection_methods.py:548-593): the object and its `overhead` attribute in sixty-fourths; `none`: `ValueError`. -/
def create (forney : List Nat → List Nat → List Nat → Option (List Nat × Bool)) (name : String) : Option (Method × Nat) :=
  if name = "none" then some (unprotected, 0)
  else if name = "hamming" then some (hamming, 20)
  else if name = "secded" then some (secded, 24)
  else if name = "tmr" then some (tmr, 128)
  else if name = "rs4" then some (rs forney, 64)
  else if name = "rs8" then some (rs forney, 128)
  else if name = "hybrid_rs4_tmr" then some (hybrid [tmr, rs forney], 128 / 2 + 64 / 2)
  else if name = "hybrid_hamming_rs4" then some (hybrid [hamming, rs forney], 20 * 3 / 4 + 64 / 4)
  else none

end Verif.PyMethods
