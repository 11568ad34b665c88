import Verif.Model.EnhancedTmr
import Verif.Spec.Float
/-!
Model of `rad_ml::core::redundancy::SpaceEnhancedTMR<T>`
(/repo/include/rad_ml/core/redundancy/space_enhanced_tmr.hpp).

The data members (:794-801) are those of `EnhancedTMR`, so `ETmr.State` is reused; the checksum loop
(:42-63) is `Crc.crc32`.  The no-majority fallback depends on the type and may fail to terminate for floats,
so it is a parameter `fb : α → α → α → Outcome α` of the voting functions (`ub` = never returns: unbounded
recursion, i.e. stack overflow).
-/
namespace Verif.STmr
open Verif.ETmr (State Stats verifyChecksum validCount firstValid incrementErrorStats recalculateChecksums)
open Verif.Spec

/-- The status codes used by the class (core/error/status_code.hpp:42-44). -/
inductive Status where
  | success | redundancyFailure | radiationDetection
  deriving DecidableEq, Repr

variable {α : Type _}

/-- core/redundancy/space_enhanced_tmr.hpp:469-500 `performMajorityVoting`. -/
def performMajorityVoting (eq : α → α → Bool) (fb : α → α → α → Outcome α) (s : State α) : Outcome α :=
  if eq (s.vals 0) (s.vals 1) then .ok (s.vals 0)
  else if eq (s.vals 0) (s.vals 2) then .ok (s.vals 0)
  else if eq (s.vals 1) (s.vals 2) then .ok (s.vals 1)
  else fb (s.vals 0) (s.vals 1) (s.vals 2)

/-- core/redundancy/space_enhanced_tmr.hpp:186-250 `get`: status and value, and the new statistics. -/
def get (eq : α → α → Bool) (fb : α → α → α → Outcome α) (crc : α → BitVec 32) (s : State α) :
    Outcome (Status × α) × State α :=
  let ok := verifyChecksum crc s
  let n := validCount crc s
  let good := { s with stats := incrementErrorStats true s.stats }
  let bad := { s with stats := incrementErrorStats false s.stats }
  let vote (st : Status) : Outcome (Status × α) :=
    match performMajorityVoting eq fb s with
    | .ok v => .ok (st, v)
    | .ub => .ub
  if n = 3 then (vote .success, s)
  else if n = 1 then (.ok (.success, firstValid crc s), good)
  else if n = 2 then
    if ok 0 && ok 1 && eq (s.vals 0) (s.vals 1) then (.ok (.success, s.vals 0), good)
    else if ok 0 && ok 2 && eq (s.vals 0) (s.vals 2) then (.ok (.success, s.vals 0), good)
    else if ok 1 && ok 2 && eq (s.vals 1) (s.vals 2) then (.ok (.success, s.vals 1), good)
    else (.ok (.redundancyFailure, firstValid crc s), bad)
  else (vote .redundancyFailure, bad)

/-- core/redundancy/space_enhanced_tmr.hpp:258-264 `set` (also constructors :119-145). -/
def set (crc : α → BitVec 32) (v : α) (s : State α) : State α := ETmr.set crc v s

/-- core/redundancy/space_enhanced_tmr.hpp:271-283 `repair`. -/
def repair (eq : α → α → Bool) (fb : α → α → α → Outcome α) (crc : α → BitVec 32) (s : State α) :
    Outcome (Status × State α) :=
  match get eq fb crc s with
  | (.ok (st, v), t) => .ok (st, recalculateChecksums crc { t with vals := fun _ => v })
  | (.ub, _) => .ub

/-- core/redundancy/space_enhanced_tmr.hpp:290-313 `verify`. -/
def verify (eq : α → α → Bool) (crc : α → BitVec 32) (s : State α) : Status :=
  if verifyChecksum crc s 0 && verifyChecksum crc s 1 && verifyChecksum crc s 2 then .success
  else if eq (s.vals 0) (s.vals 1) || eq (s.vals 0) (s.vals 2) || eq (s.vals 1) (s.vals 2) then
    .radiationDetection
  else .redundancyFailure

/-- core/redundancy/space_enhanced_tmr.hpp:527-558 `bitLevelVote`: counting bits, `mask <<= 1`. -/
def bitLevelVote {w : Nat} (a b c : BitVec w) : BitVec w :=
  (forN w (fun _ (st : BitVec w × BitVec w) =>
    let (result, mask) := st
    let count := (if a &&& mask ≠ 0#w then 1 else 0) + (if b &&& mask ≠ 0#w then 1 else 0)
      + (if c &&& mask ≠ 0#w then 1 else 0)
    (if count ≥ 2 then result ||| mask else result, mask <<< 1)) (0#w, 1#w)).1

/-! ### `float` fallback (`sizeof(U) == 4` branch) -/

/-- core/redundancy/space_enhanced_tmr.hpp:681-691 `majorityBit`. -/
def majorityBit (a b c : BitVec 32) (position : Nat) : BitVec 32 :=
  let mask := 1#32 <<< position
  let count := (if a &&& mask ≠ 0#32 then 1 else 0) + (if b &&& mask ≠ 0#32 then 1 else 0)
    + (if c &&& mask ≠ 0#32 then 1 else 0)
  if count ≥ 2 then mask else 0#32

/-- core/redundancy/space_enhanced_tmr.hpp:697-700 `isSpecialFloat`. -/
def isSpecialFloat (x : BitVec 32) : Bool := f32isNaN x || f32isInf x || f32isZero x

/-- core/redundancy/space_enhanced_tmr.hpp:754-771 `findNearestValidExponent`: three conditional swaps. -/
def findNearestValidExponent (a b c : BitVec 32) : BitVec 32 :=
  let ea := (a >>> 23) &&& 0xFF#32
  let eb := (b >>> 23) &&& 0xFF#32
  let ec := (c >>> 23) &&& 0xFF#32
  let (ea, eb) := if eb < ea then (eb, ea) else (ea, eb)
  let (eb, _ec) := if ec < eb then (ec, eb) else (eb, ec)
  let (_ea, eb) := if eb < ea then (eb, ea) else (ea, eb)
  eb <<< 23

/-- Numeric order of finite binary32 values, as an integer key (sign and magnitude). -/
def f32key (x : BitVec 32) : Int :=
  if x.getLsbD 31 then -((x.toNat % 2 ^ 31 : Nat) : Int) else ((x.toNat % 2 ^ 31 : Nat) : Int)

/-- `std::nth_element(begin, begin+1, end)` on three floats (median), modelled by a sorting network on the
numeric order (core/redundancy/space_enhanced_tmr.hpp:780-782). -/
def median3 (a b c : BitVec 32) : BitVec 32 :=
  let (a, b) := if f32key b < f32key a then (b, a) else (a, b)
  let (b, _c) := if f32key c < f32key b then (c, b) else (b, c)
  let (_a, b) := if f32key b < f32key a then (b, a) else (a, b)
  b

/-- core/redundancy/space_enhanced_tmr.hpp:776-792 `findBestFloatFallback`. -/
def findBestFloatFallback (a b c : BitVec 32) : BitVec 32 :=
  if f32isFinite a && f32isFinite b && f32isFinite c then median3 a b c
  else if f32isFinite a then a
  else if f32isFinite b then b
  else if f32isFinite c then c
  else 0#32

/-- The structured vote of core/redundancy/space_enhanced_tmr.hpp:585-675 (float branch), for inputs that
are not special. -/
def structuredVote (a b c : BitVec 32) : BitVec 32 :=
  let result := majorityBit a b c 31
  let exp_result := forN 8 (fun k r => r ||| majorityBit a b c (30 - k)) 0#32
  let exp_only := exp_result &&& 0x7F800000#32
  let exp_result := if exp_only = 0#32 ∨ exp_only = 0x7F800000#32 then findNearestValidExponent a b c
    else exp_result
  let result := result ||| exp_result
  let result := forN 23 (fun k r => r ||| majorityBit a b c (22 - k)) result
  if result &&& 0x7F800000#32 = 0x7F800000#32 then findBestFloatFallback a b c
  else result

/-- `finite_values[0..finite_count)` of core/redundancy/space_enhanced_tmr.hpp:708-714. -/
def finiteValues (a b c : BitVec 32) : List (BitVec 32) := [a, b, c].filter f32isFinite

/-- The mutual recursion `bitLevelVoteFloat` (core/redundancy/space_enhanced_tmr.hpp:568-675) /
`handleSpecialFloatVoting` (:706-748), with the number of remaining calls of `bitLevelVoteFloat` bounded by
`fuel` (`none` = more calls are needed).  `close x y` is
`std::abs(x - y) < std::numeric_limits<float>::epsilon() * 1000`; it is a parameter because rounding of the
subtraction is not modelled. -/
def bitLevelVoteFloat (close : BitVec 32 → BitVec 32 → Bool) : Nat → BitVec 32 → BitVec 32 → BitVec 32 →
    Option (BitVec 32)
  | 0, _, _, _ => none
  | fuel + 1, a, b, c =>
    if isSpecialFloat a || isSpecialFloat b || isSpecialFloat c then
      match finiteValues a b c with
      | [x] => some x
      | x :: y :: rest =>
        if close x y then some x
        else bitLevelVoteFloat close fuel x y (match rest with | z :: _ => z | [] => x)
      | [] =>
        if f32eq a b then some a
        else if f32eq a c then some a
        else if f32eq b c then some b
        else if f32isNaN a && f32isNaN b && f32isNaN c then some 0x7FC00000#32
        else some 0#32
    else some (structuredVote a b c)

/-- The float branch of `performMajorityVoting` (core/redundancy/space_enhanced_tmr.hpp:487-494) with a
bound on the recursion. -/
def floatFallback (close : BitVec 32 → BitVec 32 → Bool) (fuel : Nat) (a b c : BitVec 32) :
    Option (BitVec 32) :=
  if f32isFinite a && f32isFinite b && f32isFinite c then some (findBestFloatFallback a b c)
  else bitLevelVoteFloat close fuel a b c

end Verif.STmr
