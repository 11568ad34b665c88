import Verif.Model.WeightedVoting
/-!
Models of `rad_ml::core::memory::AlignedProtectedMemory`, `InterleavedBitMemory`
(/repo/include/rad_ml/core/memory/aligned_memory.hpp) and `ProtectedValue`
(/repo/include/rad_ml/core/memory/protected_value.hpp) for integer types.

`AlignedProtectedMemory::scrub()` without argument (aligned_memory.hpp:133-148) passes `AlignedValue` objects to the
voting templates, which only accept arithmetic types; it does not compile when used and is not modelled.
`ProtectedValue::bind` (protected_value.hpp:130-145) needs a member type `value_type` no class of the library has and
is not modelled.
-/
namespace Verif.AlignedMem
open Verif.Voting

/-- aligned_memory.hpp:192-194: the values of the three copies and the flag. -/
structure State (W : Nat) where
  copy : Fin 3 → BitVec W
  scrubbing : Bool

variable {W : Nat}

/-- aligned_memory.hpp:49-55 constructor. -/
def new (v : BitVec W) : State W := ⟨fun _ => v, true⟩

/-- aligned_memory.hpp:94-98 `set`. -/
def set (s : State W) (v : BitVec W) : State W := { s with copy := fun _ => v }

/-- aligned_memory.hpp:105-107 `enableScrubbing`. -/
def enableScrubbing (s : State W) (b : Bool) : State W := { s with scrubbing := b }

/-- aligned_memory.hpp:115-126 `scrub(correct_value)`. -/
def scrub (s : State W) (v : BitVec W) : Bool × State W :=
  forN 3 (fun i r => if h : i < 3 then
      (if r.2.copy ⟨i, h⟩ ≠ v then
        (true, { r.2 with copy := fun j => if j = ⟨i, h⟩ then v else r.2.copy j })
      else r) else r) (false, s)

/-- aligned_memory.hpp:62-87 `get` (with the automatic scrub). -/
def get (g : Garbage W) (s : State W) : Outcome (BitVec W × State W) :=
  if s.copy 0 = s.copy 1 ∧ s.copy 1 = s.copy 2 then .ok (s.copy 0, s)
  else match detectFaultPatternWithConfidence (s.copy 0) (s.copy 1) (s.copy 2) with
    | .ub => .ub
    | .ok (pattern, confidence) =>
      let result := adaptiveVote (· == ·) g (s.copy 0) (s.copy 1) (s.copy 2) pattern
      .ok (result, if s.scrubbing && decide (confidence < 1) then (scrub s result).2 else s)

/-- aligned_memory.hpp:166-168 `corruptCopy` (also the effect of writing through `getRawCopy`, :156-158). -/
def corruptCopy (s : State W) (index : Nat) (v : BitVec W) : State W :=
  { s with copy := fun j => if j.val = index % 3 then v else s.copy j }

end Verif.AlignedMem

namespace Verif.Interleaved
open Verif.Voting

/-- aligned_memory.hpp:270-278 `StorageType` for types of at most 2 bytes (64 bits) and of 4 bytes (128 bits).  For
8-byte types it is an array type and the class does not compile. -/
def storageBits (w : Nat) : Nat := if w ≤ 16 then 64 else 128

variable {w : Nat} {S : Nat}

/-- aligned_memory.hpp:288-299 `interleave`.  `static_cast<StorageType>(value)` may sign-extend; only bits below `w`
are looked at. -/
def interleave (data : BitVec S) (value : BitVec w) (idx : Nat) : BitVec S :=
  forN w (fun i data =>
    let b := (value.signExtend S >>> i) &&& 1#S
    data ||| (b <<< (i * 3 + idx))) data

/-- aligned_memory.hpp:308-323 `deinterleave`. -/
def deinterleave (w : Nat) (data : BitVec S) (idx : Nat) : BitVec w :=
  forN w (fun i result =>
    let b := ((data >>> (i * 3 + idx)) &&& 1#S).setWidth w
    result ||| (b <<< i)) 0

/-- aligned_memory.hpp:249-255 `set`. -/
def set (S : Nat) (v : BitVec w) : BitVec S := interleave (interleave (interleave 0 v 0) v 1) v 2

/-- aligned_memory.hpp:231-242 `get`; `p` is the pattern `detectFaultPattern` returns for the three copies (the result
turns out not to depend on it), `g` the indeterminate upper bytes for narrow types. -/
def get {W : Nat} (g : Garbage W) (p : FaultPattern) (data : BitVec S) : BitVec w :=
  adaptiveVote (· == ·) g (deinterleave w data 0) (deinterleave w data 1) (deinterleave w data 2) p

/-- aligned_memory.hpp:262-266 `scrub`. -/
def scrub {W : Nat} (w : Nat) (g : Garbage W) (p : FaultPattern) (data : BitVec S) : BitVec S :=
  set S (get (w := w) g p data)

end Verif.Interleaved

namespace Verif.PValue
open Verif.Voting

/-- protected_value.hpp:183-185: the three copies, `none` for a copy that was never initialised, and the error flag
set by the private error constructor. -/
structure State (W : Nat) where
  copies : Option (BitVec W × BitVec W × BitVec W)
  hasError : Bool

/-- The variant returned by `get`: an error with its pattern and confidence, or a value. -/
inductive Res (W : Nat) where
  | error (p : FaultPattern) (confidence : ℚ)
  | value (v : BitVec W)

variable {W : Nat}

/-- protected_value.hpp:49-50 constructor. -/
def new (v : BitVec W) : State W := ⟨some (v, v, v), false⟩

/-- protected_value.hpp:180-181 private constructor used for error propagation: it stores the error but leaves the
copies uninitialised. -/
def ofError : State W := ⟨none, true⟩

/-- protected_value.hpp:57-80 `get`; it never looks at the error flag.  Reading uninitialised copies is undefined. -/
def get (g : Garbage W) (s : State W) : Outcome (Res W) :=
  match s.copies with
  | none => .ub
  | some (a, b, c) =>
    if a = b ∧ b = c then .ok (.value a)
    else match detectFaultPatternWithConfidence a b c with
      | .ub => .ub
      | .ok (pattern, confidence) =>
        if confidence < 7 / 10 then .ok (.error pattern confidence)
        else .ok (.value (adaptiveVote (· == ·) g a b c pattern))

/-- protected_value.hpp:88-94 `getOrFallback`. -/
def getOrFallback (g : Garbage W) (s : State W) (fallback : BitVec W) : Outcome (BitVec W) :=
  (get g s).bind fun
    | .error _ _ => .ok fallback
    | .value v => .ok v

/-- protected_value.hpp:106-118 `transform` for a function from `T` to `T` (for other result types the private
constructor is not accessible). -/
def transform (g : Garbage W) (s : State W) (f : BitVec W → BitVec W) : Outcome (State W) :=
  (get g s).bind fun
    | .error _ _ => .ok ofError
    | .value v => .ok (new (f v))

/-- protected_value.hpp:152-154 `set`. -/
def set (s : State W) (v : BitVec W) : State W := { s with copies := some (v, v, v) }

/-- protected_value.hpp:161-176 `scrub`. -/
def scrub (g : Garbage W) (s : State W) : Outcome (Bool × State W) :=
  match s.copies with
  | none => .ub
  | some (a, b, c) =>
    if a = b ∧ b = c then .ok (false, s)
    else match detectFaultPattern a b c with
      | .ub => .ub
      | .ok p =>
        let r := adaptiveVote (· == ·) g a b c p
        .ok (true, { s with copies := some (r, r, r) })

end Verif.PValue
