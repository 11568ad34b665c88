import Verif.Model.SpaceTmr
import Mathlib.Data.Nat.Notation
import Mathlib.Data.Int.Notation
/-!
Model of the program that tests the voter on floating-point values (/repo/test/verification/ieee754_tmr_test.cpp), for any IEEE-754 binary format.

Simplifications: values are bit patterns, so comparisons are exact; the tolerance test `|result - base| <= tolerance` is a relation `near` (its rounding is not modelled);
`std::sort` with exactly one NaN among the three has undefined behaviour (the order is no longer a strict weak order), with two or three it leaves the order (nothing is less than anything).
The voter is the model of `SpaceEnhancedTMR` (Verif.STmr) with the fallback for floats; texts printed are not modelled.
-/
namespace Verif.Ieee
open Verif.STmr (Status)

/-- A binary format: exponent and mantissa bits; `float` is (8, 23), `double` (11, 52) (ieee754_tmr_test.cpp:51-52: the template argument). -/
structure Fmt where
  e : ℕ
  m : ℕ

/-- A value of the format (ieee754_tmr_test.cpp:51-52). -/
abbrev Fmt.V (f : Fmt) : Type := BitVec (f.e + f.m + 1)

variable (f : Fmt)

/-- Exponent field (`std::isfinite`, ieee754_tmr_test.cpp:183). -/
def expo (x : f.V) : ℕ := x.toNat / 2 ^ f.m % 2 ^ f.e

/-- Mantissa field (`std::isnan`, ieee754_tmr_test.cpp:159). -/
def mant (x : f.V) : ℕ := x.toNat % 2 ^ f.m

/-- `std::isfinite` (ieee754_tmr_test.cpp:183). -/
def finite (x : f.V) : Bool := expo f x != 2 ^ f.e - 1

/-- `std::isnan` (ieee754_tmr_test.cpp:159). -/
def nan (x : f.V) : Bool := expo f x == 2 ^ f.e - 1 && mant f x != 0

/-- Sign and magnitude as an integer: the numeric order of values that are not NaN; both zeros have key 0 (ieee754_tmr_test.cpp:197, 225, 238-245). -/
def key (x : f.V) : ℤ := if x.getLsbD (f.e + f.m) then -((x.toNat % 2 ^ (f.e + f.m) : ℕ) : ℤ) else ((x.toNat % 2 ^ (f.e + f.m) : ℕ) : ℤ)

/-- `a == b` (ieee754_tmr_test.cpp:169, 213-220). -/
def eq (a b : f.V) : Bool := !nan f a && !nan f b && decide (key f a = key f b)

/-- `a < 0` (ieee754_tmr_test.cpp:238). -/
def neg (a : f.V) : Bool := !nan f a && decide (key f a < 0)

/-- `a > 0` (ieee754_tmr_test.cpp:238). -/
def pos (a : f.V) : Bool := !nan f a && decide (0 < key f a)

/-- The middle of three sorted values (ieee754_tmr_test.cpp:196-198; std::nth_element in core/redundancy/space_enhanced_tmr.hpp:780-782). -/
def middle (a b c : f.V) : f.V :=
  let (a, b) := if key f b < key f a then (b, a) else (a, b)
  let (b, _c) := if key f c < key f b then (c, b) else (b, c)
  let (_a, b) := if key f b < key f a then (b, a) else (a, b)
  b

/-- `flipBit` (ieee754_tmr_test.cpp:51-74) on a value of `n` bytes: C++ division and remainder, a comparison as unsigned numbers, and an undefined shift by a negative amount. -/
def flipBit {n : ℕ} (x : BitVec (8 * n)) (position : ℤ) : Outcome (BitVec (8 * n)) :=
  let byteIndex := Int.tdiv position 8
  let bitIndex := Int.tmod position 8
  if 0 ≤ byteIndex ∧ byteIndex < n then
    if bitIndex < 0 then .ub
    else .ok (x ^^^ ((1#(8 * n) <<< bitIndex.toNat) <<< (8 * byteIndex.toNat)))
  else .ok x

/-- `injectTwoBitError` (ieee754_tmr_test.cpp:83-89). -/
def injectTwoBitError {n : ℕ} (x : BitVec (8 * n)) (p q : ℤ) : Outcome (BitVec (8 * n)) := (flipBit x p).bind fun r => flipBit r q

/-- The voter's fallback when no two copies are equal (core/redundancy/space_enhanced_tmr.hpp:487-494); `special` is what it does unless all three are finite. -/
def fallback (special : f.V → f.V → f.V → Outcome f.V) (a b c : f.V) : Outcome f.V :=
  if finite f a && finite f b && finite f c then .ok (middle f a b c) else special a b c

/-- `createTMRWithValues` (ieee754_tmr_test.cpp:94-104, with ENABLE_TESTING): a fresh voter, `setForTesting` for each copy, checksums computed anew. -/
def create (crc : f.V → BitVec 32) (a b c : f.V) : ETmr.State f.V :=
  let s := ETmr.new crc 0
  let put := fun (s : ETmr.State f.V) (i : Fin 3) (v : f.V) => { s with vals := fun j => if j = i then v else s.vals j }
  ETmr.recalculateChecksums crc (put (put (put s 0 a) 1 b) 2 c)

/-- What the voter answers (ieee754_tmr_test.cpp:135-139). -/
def ask (special : f.V → f.V → f.V → Outcome f.V) (crc : f.V → BitVec 32) (a b c : f.V) : Outcome (Status × f.V) :=
  (STmr.get (eq f) (fallback f special) crc (create f crc a b c)).1

/-- `std::sort` of the three and the element in the middle (ieee754_tmr_test.cpp:196-198, 224-226). -/
def sorted (a b c : f.V) : Outcome f.V :=
  let n := (nan f a).toNat + (nan f b).toNat + (nan f c).toNat
  if n = 0 then .ok (middle f a b c) else if n = 1 then .ub else .ok b

/-- The value expected (ieee754_tmr_test.cpp:210-227). -/
def expected (a b c : f.V) : Outcome f.V :=
  if eq f a b then .ok a
  else if eq f a c then .ok a
  else if eq f b c then .ok b
  else sorted f a b c

/-- Values of both signs (ieee754_tmr_test.cpp:237-238). -/
def signTest (a b c : f.V) : Bool := (pos f a && neg f b) || (neg f a && pos f b) || (pos f a && neg f c) || (neg f a && pos f c)

/-- The sign branch (ieee754_tmr_test.cpp:240-252). -/
def signPassed (a b c r : f.V) : Bool := decide (2 ≤ (neg f a).toNat + (neg f b).toNat + (neg f c).toNat) == neg f r

/-- The verdict on a result (ieee754_tmr_test.cpp:157-279). -/
def judge (near : f.V → f.V → Bool) (name : String) (a b c r : f.V) : Outcome Bool :=
  if name = "All NaN Values" then .ok (nan f r)
  else if name = "All Values Different" then .ok (eq f r b)
  else if name = "One NaN Value" ∨ name = "One Infinity Value" then .ok (finite f r)
  else if name = "Double with Exponent Bit Flips" then (sorted f a b c).bind fun v => .ok (eq f r v)
  else (expected f a b c).bind fun v => if signTest f a b c then .ok (signPassed f a b c r) else .ok (near r v)

/-- `testFloatTMR` (ieee754_tmr_test.cpp:127-279): whether the test passed. -/
def testFloatTMR (special : f.V → f.V → f.V → Outcome f.V) (crc : f.V → BitVec 32) (near : f.V → f.V → Bool) (name : String) (a b c : f.V) : Outcome Bool :=
  (ask f special crc a b c).bind fun p => if p.1 ≠ .success then .ok false else judge f near name a b c p.2

/-- `double` (ieee754_tmr_test.cpp:282). -/
def f64 : Fmt := ⟨11, 52⟩

/-- `float` (ieee754_tmr_test.cpp:303). -/
def f32 : Fmt := ⟨8, 23⟩

/-- `testDoubleTMRWithBitFlips` (ieee754_tmr_test.cpp:282-290). -/
def testDouble (special : f64.V → f64.V → f64.V → Outcome f64.V) (crc : f64.V → BitVec 32) (near : f64.V → f64.V → Bool) (name : String) (base : f64.V) (p q : ℤ) : Outcome Bool :=
  (flipBit (n := 8) base p).bind fun b => (flipBit (n := 8) base q).bind fun c => testFloatTMR f64 special crc near name base b c

/-- The special branch of the voter for `float`, with the stack depth left (core/redundancy/space_enhanced_tmr.hpp:568-748). -/
def special32 (close : BitVec 32 → BitVec 32 → Bool) (fuel : ℕ) (a b c : f32.V) : Outcome f32.V :=
  match STmr.bitLevelVoteFloat close fuel a b c with
  | some r => .ok r
  | none => .ub

/-- The summary: tests passed, tests in all, percentage, return value of the program (ieee754_tmr_test.cpp:374-397). -/
def summary (results : List Bool) : ℕ × ℕ × ℕ × ℕ :=
  let passed := results.countP id
  let total := results.length
  (passed, total, passed * 100 / total, if passed = total then 0 else 1)

end Verif.Ieee
