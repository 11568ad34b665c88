import Verif.Model.Loop
/-!
Model of `MultibitProtection<T>` and `ChecksumProtection<T>` for 4-byte `T`
(include/rad_ml/neural/multibit_protection.hpp).

The value is its 32 object bits (the code accesses them through a union; `bytes[i]` is byte `i` of the
little-endian representation).  `value_` is `mutable`: `getValue` and `correctErrors` change it, so they return the
new state.  Not modelled: `applyMultiBitErrors` (a random fault injector), and the TMR-based subclasses, which only
forward to classes modelled elsewhere.
-/
namespace Verif.Multibit
open Verif

abbrev Word := BitVec 32

/-- `ECCCodingScheme` (multibit_protection.hpp:42-47). -/
inductive Scheme where
  | none | hamming | secded | reedSolomon
  deriving DecidableEq, Repr

/-- `arr[j] = v` on a byte array. -/
def upd (a : Nat → BitVec 8) (j : Nat) (v : BitVec 8) : Nat → BitVec 8 := fun k => if k = j then v else a k

/-- The loop computing the six parity bytes (multibit_protection.hpp:437-447, 478-488, 525-535, 570-580).  The array
starts filled with 0. -/
def parityBytes (bits : Word) : Nat → BitVec 8 :=
  forN 32 (fun i p =>
    if bits.getLsbD i then
      forN 6 (fun j p => if (((i + 1) >>> j) &&& 1) ≠ 0 then upd p j (p j ^^^ 1#8) else p) p
    else p) (fun _ => 0#8)

/-- The overall parity byte (multibit_protection.hpp:450-456, 491-497, 583-589). -/
def overallByte (bits : Word) (p : Nat → BitVec 8) : BitVec 8 :=
  forN 32 (fun i a => a ^^^ (if bits.getLsbD i then 1#8 else 0#8)) (forN 6 (fun i a => a ^^^ p i) 0#8)

/-- The seven check bytes: `generateHammingCode` and the recomputation in the checkers. -/
def hammingBytes (bits : Word) : Nat → BitVec 8 :=
  upd (parityBytes bits) 6 (overallByte bits (parityBytes bits))

/-- Byte `i` of the value. -/
def byteOf (bits : Word) (i : Nat) : BitVec 8 := bits.extractLsb' (8 * i) 8

/-- Replace byte `i` of the value: `data.bytes[i] = b`. -/
def setByte (bits : Word) (i : Nat) (b : BitVec 8) : Word :=
  bits ^^^ (((bits.extractLsb' (8 * i) 8 ^^^ b).setWidth 32) <<< (8 * i))

/-- `check0 ^= data.bytes[i]` over the value (multibit_protection.hpp:659-664, 701-706). -/
def check0 (bits : Word) : BitVec 8 := forN 4 (fun i c => c ^^^ byteOf bits i) 0#8
/-- `check1 ^= (data.bytes[i] << (i % 4))`: an `int` shift, truncated to a byte. -/
def check1 (bits : Word) : BitVec 8 := forN 4 (fun i c => c ^^^ (byteOf bits i <<< (i % 4))) 0#8
/-- `check2 ^= (data.bytes[i] >> (i % 4))`. -/
def check2 (bits : Word) : BitVec 8 := forN 4 (fun i c => c ^^^ (byteOf bits i >>> (i % 4))) 0#8
/-- `check3 ^= (data.bytes[i] * (i + 1))`, truncated to a byte. -/
def check3 (bits : Word) : BitVec 8 := forN 4 (fun i c => c ^^^ (byteOf bits i * BitVec.ofNat 8 (i + 1))) 0#8

/-- The hash (multibit_protection.hpp:667-670, 715-718). -/
def hash (bits : Word) : Word :=
  forN 4 (fun i h => ((h <<< 5) + h) + (byteOf bits i).setWidth 32) 0x5555#32

/-- `generateReedSolomon` (multibit_protection.hpp:638-677): the eight check bytes. -/
def rsBytes (bits : Word) (k : Nat) : BitVec 8 :=
  match k with
  | 0 => check0 bits
  | 1 => check1 bits
  | 2 => check2 bits
  | 3 => check3 bits
  | 4 => (hash bits &&& 0xFF#32).setWidth 8
  | 5 => ((hash bits >>> 8) &&& 0xFF#32).setWidth 8
  | 6 => ((hash bits >>> 16) &&& 0xFF#32).setWidth 8
  | 7 => ((hash bits >>> 24) &&& 0xFF#32).setWidth 8
  | _ => 0#8

/-- The object (multibit_protection.hpp:385-395). -/
structure Obj where
  value : Word
  scheme : Scheme
  ecc : Nat → BitVec 8
  valid : Bool

/-- `updateECC` (multibit_protection.hpp:400-420).  With scheme NONE `ecc_data_` keeps its old content. -/
def Obj.updateECC (o : Obj) : Obj :=
  match o.scheme with
  | .none => o
  | .hamming | .secded => { o with ecc := fun k => if k < 7 then hammingBytes o.value k else if k < 8 then 0#8 else o.ecc k }
  | .reedSolomon => { o with ecc := fun k => if k < 8 then rsBytes o.value k else o.ecc k }

/-- Constructor with initial value (multibit_protection.hpp:76-81); `junk` is the uninitialised `ecc_data_`. -/
def Obj.mk' (junk : Nat → BitVec 8) (value : Word) (scheme : Scheme) : Obj :=
  Obj.updateECC ⟨value, scheme, junk, true⟩

/-- `setValue` (multibit_protection.hpp:109-114). -/
def Obj.setValue (o : Obj) (v : Word) : Obj := Obj.updateECC { o with value := v, valid := true }

/-- `checkHammingParity` (multibit_protection.hpp:464-507). -/
def Obj.checkHamming (o : Obj) : Bool :=
  let cur := hammingBytes o.value
  (List.range 7).any fun i => cur i != o.ecc i

/-- `checkReedSolomon` (multibit_protection.hpp:684-733). -/
def Obj.checkRS (o : Obj) : Bool :=
  if check0 o.value ≠ o.ecc 0 ∨ check1 o.value ≠ o.ecc 1 ∨ check2 o.value ≠ o.ecc 2 ∨ check3 o.value ≠ o.ecc 3 then true
  else if rsBytes o.value 4 ≠ o.ecc 4 ∨ rsBytes o.value 5 ≠ o.ecc 5 ∨ rsBytes o.value 6 ≠ o.ecc 6 ∨
    rsBytes o.value 7 ≠ o.ecc 7 then true
  else false

/-- `hasError` (multibit_protection.hpp:121-141). -/
def Obj.hasError (o : Obj) : Bool :=
  if !o.valid then true
  else match o.scheme with
    | .none => false
    | .hamming | .secded => o.checkHamming
    | .reedSolomon => o.checkRS

/-- Syndrome (multibit_protection.hpp:538-542, 592-596). -/
def syndrome (cur ecc : Nat → BitVec 8) : Nat :=
  forN 6 (fun i s => if cur i ≠ ecc i then s ||| (1 <<< i) else s) 0

/-- `correctHammingCode` (multibit_protection.hpp:514-553): result and new state. -/
def Obj.correctHamming (o : Obj) : Bool × Obj :=
  let s := syndrome (parityBytes o.value) o.ecc
  if s > 0 ∧ s ≤ 32 then (true, { o with value := o.value ^^^ (1#32 <<< (s - 1)) })
  else (false, o)

/-- `correctSECDED` (multibit_protection.hpp:560-630). -/
def Obj.correctSecded (o : Obj) : Bool × Obj :=
  let cur := hammingBytes o.value
  let s := syndrome cur o.ecc
  let overall := cur 6 != o.ecc 6
  if s = 0 ∧ overall = false then (true, o)
  else if s > 0 ∧ overall = true then
    if s ≤ 32 then (true, { o with value := o.value ^^^ (1#32 <<< (s - 1)) }) else (false, o)
  else if s = 0 ∧ overall = true then (true, o)
  else (false, o)

/-- The test inside the brute-force search (multibit_protection.hpp:786-803). -/
def Obj.trialOk (o : Obj) (w : Word) : Bool :=
  check0 w == o.ecc 0 && check1 w == o.ecc 1 && check2 w == o.ecc 2 && check3 w == o.ecc 3

/-- `correctReedSolomon` (multibit_protection.hpp:742-815): the first byte position `i` and value `j`, in loop order,
whose trial word passes the four checks.  Between trials the original byte is restored. -/
def Obj.correctRS (o : Obj) : Bool × Obj :=
  let trials := (List.range 4).flatMap fun i => (List.range 256).map fun j => setByte o.value i (BitVec.ofNat 8 j)
  match trials.find? o.trialOk with
  | some w => (true, { o with value := w })
  | none => (false, o)

/-- `correctErrors` (multibit_protection.hpp:148-169). -/
def Obj.correctErrors (o : Obj) : Bool × Obj :=
  if !o.hasError then (true, o)
  else match o.scheme with
    | .none => (false, o)
    | .hamming => o.correctHamming
    | .secded => o.correctSecded
    | .reedSolomon => o.correctRS

/-- `getValue` (multibit_protection.hpp:88-102): returned value and new state. -/
def Obj.getValue (o : Obj) : Word × Obj :=
  if o.hasError then let r := o.correctErrors; (r.2.value, r.2)
  else (o.value, o)

/-- `markInvalid` (multibit_protection.hpp:174). -/
def Obj.markInvalid (o : Obj) : Obj := { o with valid := false }

/-- `isValid` (multibit_protection.hpp:181). -/
def Obj.isValid (o : Obj) : Bool := o.valid && !o.hasError

/-- `applyBitInterleaving` (multibit_protection.hpp:188-213) on the bits of `value_`. -/
def interleave (w : Word) : Word :=
  forN 32 (fun i r =>
    if i % 2 = 0 then r ||| (((w >>> i) &&& 1#32) <<< (i / 2))
    else r ||| (((w >>> i) &&& 1#32) <<< (16 + i / 2))) 0#32

/-- `undoBitInterleaving` (multibit_protection.hpp:221-238). -/
def deinterleave (w : Word) : Word :=
  forN 16 (fun i r =>
    (r ||| (((w >>> i) &&& 1#32) <<< (i * 2))) ||| (((w >>> (i + 16)) &&& 1#32) <<< (i * 2 + 1))) 0#32

/-- `ChecksumProtection::calculateChecksum` (multibit_protection.hpp:865-880) for a 4-byte value. -/
def checksum (w : Word) : Word :=
  forN 4 (fun i s => (s <<< 1) ^^^ (byteOf w i).setWidth 32) 0#32

/-- `ChecksumProtection` (multibit_protection.hpp:824-881): the base object has scheme NONE. -/
structure ChkObj where
  base : Obj
  sum : Word

/-- Constructor and `setValue` (multibit_protection.hpp:834-846). -/
def ChkObj.store (junk : Nat → BitVec 8) (v : Word) : ChkObj := ⟨Obj.mk' junk v .none, checksum v⟩

/-- `hasError` (multibit_protection.hpp:851): the base `getValue` of a scheme NONE object returns `value_`. -/
def ChkObj.hasError (o : ChkObj) : Bool := o.sum != checksum (o.base.getValue).1

end Verif.Multibit
