import Verif.Model.Crc
import Verif.Spec.Float
/-!
Model of `rad_ml::tmr::ApproximateTMR<T>` (/repo/include/rad_ml/tmr/approximate_tmr.hpp).

`eq` is `==` of `T`; `ap` collects the type-specific approximation functions.  Integer types are bit vectors
(signed comparison/shift where the C++ type is signed; `<<` of a negative signed value is taken with its
two's-complement meaning, which every supported compiler documents although C++17 leaves it undefined);
`float` is its binary32 bit pattern.
-/
namespace Verif.ATmr
open Verif.Spec

/-- approximate_tmr.hpp:19-24. -/
inductive ApproxType where
  | exact | reducedPrecision | rangeLimited | custom
  deriving DecidableEq, Repr

variable {α : Type _}

/-- The approximations available for a type. -/
structure Approx (α : Type _) where
  reduce : α → α
  limit : α → α
  custom : Option (α → α)

/-- Data members, approximate_tmr.hpp:143-153 (`approximation_types_` is passed separately: it never changes). -/
structure State (α : Type _) where
  copies : Fin 3 → α
  checksums : Fin 3 → BitVec 32

/-- The default configuration, approximate_tmr.hpp:47-51. -/
def defaultTypes : Fin 3 → ApproxType
  | 0 => .exact
  | 1 => .reducedPrecision
  | 2 => .rangeLimited

/-- approximate_tmr.hpp:162-182 `applyApproximation`. -/
def applyApproximation (ap : Approx α) (v : α) : ApproxType → α
  | .exact => v
  | .reducedPrecision => ap.reduce v
  | .rangeLimited => ap.limit v
  | .custom => match ap.custom with
    | some f => f v
    | none => v

/-- approximate_tmr.hpp:97-106 `set`; also the constructor (:44-58), which calls `set`. -/
def set (ap : Approx α) (ty : Fin 3 → ApproxType) (crc : α → BitVec 32) (v : α) : State α :=
  let c := fun i => applyApproximation ap v (ty i)
  ⟨c, fun i => crc (c i)⟩

/-- approximate_tmr.hpp:65-90 `get` (`getExactValue`, :190-196, returns the copy as it is). -/
def get (eq : α → α → Bool) (ty : Fin 3 → ApproxType) (s : State α) : α :=
  if eq (s.copies 0) (s.copies 1) then s.copies 0
  else if eq (s.copies 0) (s.copies 2) then s.copies 0
  else if eq (s.copies 1) (s.copies 2) then s.copies 1
  else if ty 0 = .exact then s.copies 0
  else if ty 1 = .exact then s.copies 1
  else if ty 2 = .exact then s.copies 2
  else s.copies 0

/-- approximate_tmr.hpp:114-117 `getApproximateValue`; `dflt` is `T{}`. -/
def getApproximateValue (dflt : α) (s : State α) (index : Nat) : α :=
  if h : index ≥ 3 then dflt else s.copies ⟨index, by omega⟩

/-- approximate_tmr.hpp:289-292 `verifyChecksum`. -/
def verifyChecksum (crc : α → BitVec 32) (s : State α) (i : Fin 3) : Bool :=
  s.checksums i == crc (s.copies i)

/-- approximate_tmr.hpp:124-131 `verify`. -/
def verify (crc : α → BitVec 32) (s : State α) : Bool :=
  verifyChecksum crc s 0 && verifyChecksum crc s 1 && verifyChecksum crc s 2

/-- approximate_tmr.hpp:136-142 `repair`. -/
def repair (eq : α → α → Bool) (ap : Approx α) (ty : Fin 3 → ApproxType) (crc : α → BitVec 32)
    (s : State α) : State α :=
  set ap ty crc (get eq ty s)

/-- A radiation upset of the value of copy `i` (environment). -/
def upset (i : Fin 3) (x : α) (s : State α) : State α :=
  { s with copies := fun j => if j = i then x else s.copies j }

/-! ### Integer types -/

/-- approximate_tmr.hpp:226: `shift = sizeof(T) <= 2 ? 2 : 3`. -/
def shiftFor (w : Nat) : Nat := if w / 8 ≤ 2 then 2 else 3

/-- approximate_tmr.hpp:224-228 for signed `T`. -/
def reduceSigned {w : Nat} (v : BitVec w) : BitVec w := (v.sshiftRight (shiftFor w)) <<< (shiftFor w)

/-- approximate_tmr.hpp:224-228 for unsigned `T`. -/
def reduceUnsigned {w : Nat} (v : BitVec w) : BitVec w := (v >>> (shiftFor w)) <<< (shiftFor w)

/-- approximate_tmr.hpp:250-254 for signed `T`: `limit = max / 2 = 2^(w-2) - 1`.
`std::min(v, l)` is `l < v ? l : v`; `std::max(a, b)` is `a < b ? b : a`. -/
def limitSigned {w : Nat} (v : BitVec w) : BitVec w :=
  let limit := BitVec.ofNat w (2 ^ (w - 2) - 1)
  let m := if limit.slt v then limit else v
  if m.slt (-limit) then -limit else m

/-- approximate_tmr.hpp:250-254 for unsigned `T`: `limit = max / 2 = 2^(w-1) - 1`, and
`static_cast<T>(-limit)` wraps around. -/
def limitUnsigned {w : Nat} (v : BitVec w) : BitVec w :=
  let limit := BitVec.ofNat w (2 ^ (w - 1) - 1)
  let m := if limit < v then limit else v
  if m < -limit then -limit else m

/-- Signed integer types. -/
def signed (w : Nat) (custom : Option (BitVec w → BitVec w)) : Approx (BitVec w) :=
  ⟨reduceSigned, limitSigned, custom⟩

/-- Unsigned integer types. -/
def unsigned (w : Nat) (custom : Option (BitVec w → BitVec w)) : Approx (BitVec w) :=
  ⟨reduceUnsigned, limitUnsigned, custom⟩

/-! ### `float` -/

/-- approximate_tmr.hpp:206-223 for `float`: the low five mantissa bits are cleared (the upper half of the
`uint64_t` union member is never used in the result). -/
def reduceF32 (v : BitVec 32) : BitVec 32 := v &&& ~~~ ((1#32 <<< 5) - 1#32)

/-- `a < b` on binary32 patterns. -/
def f32lt (a b : BitVec 32) : Bool :=
  let key (x : BitVec 32) : Int :=
    if x.getLsbD 31 then -((x.toNat % 2 ^ 31 : Nat) : Int) else ((x.toNat % 2 ^ 31 : Nat) : Int)
  !f32isNaN a && !f32isNaN b && decide (key a < key b)

/-- approximate_tmr.hpp:244-248 for `float`: clamp to ±1e6 (0x49742400 is `1e6f`, 0xC9742400 is `-1e6f`). -/
def limitF32 (v : BitVec 32) : BitVec 32 :=
  let m := if f32lt 0x49742400#32 v then 0x49742400#32 else v
  if f32lt m 0xC9742400#32 then 0xC9742400#32 else m

/-- `float`. -/
def f32 (custom : Option (BitVec 32 → BitVec 32)) : Approx (BitVec 32) := ⟨reduceF32, limitF32, custom⟩

end Verif.ATmr
