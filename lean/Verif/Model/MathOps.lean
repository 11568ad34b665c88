import Verif.Model.Loop
/-!
Models of `rad_ml::math::BranchlessOps` (/repo/include/rad_ml/math/branchless_ops.hpp) and
`rad_ml::utils::BitManipulation` (/repo/include/rad_ml/utils/bit_manipulation.hpp).

Integer types of `w` bits are `BitVec w`.  For types narrower than `int` the C++ operators compute on promoted
operands and convert the result back; for `&`, `|`, `^`, `~` that is the same as computing on `w` bits.
-/
namespace Verif.Branchless

variable {w : Nat}

/-- `a <= b` of a signed (`sg = true`) or unsigned type. -/
def leB (sg : Bool) (a b : BitVec w) : Bool := if sg then a.sle b else a.ule b

/-- `-(cond)` converted to `T`: the bool is promoted to `int` and negated, giving all ones or all zeros. -/
def mask (c : Bool) : BitVec w := if c then BitVec.allOnes w else 0

/-- branchless_ops.hpp:26-31 `min`. -/
def min (sg : Bool) (a b : BitVec w) : BitVec w := (mask (leB sg a b) &&& a) ||| (~~~ mask (leB sg a b) &&& b)

/-- branchless_ops.hpp:40-45 `max` (`a >= b` is `b <= a`). -/
def max (sg : Bool) (a b : BitVec w) : BitVec w := (mask (leB sg b a) &&& a) ||| (~~~ mask (leB sg b a) &&& b)

/-- branchless_ops.hpp:53-59 `abs`: `(x ^ mask) - mask` with the arithmetic-shift mask; for types of at least `int`'s
width the subtraction can overflow, which is undefined; for narrower types it is done in `int` and converted back. -/
def abs (x : BitVec w) : Outcome (BitVec w) :=
  let m := x.sshiftRight (w - 1)
  if 32 ≤ w ∧ ((x ^^^ m).toInt - m.toInt < -2 ^ (w - 1) ∨ 2 ^ (w - 1) ≤ (x ^^^ m).toInt - m.toInt) then .ub
  else .ok (BitVec.ofInt w ((x ^^^ m).toInt - m.toInt))

/-- branchless_ops.hpp:67-71 `sign`: `(T(0) < x) - (x < T(0))`. -/
def sign (x : BitVec w) : BitVec w :=
  BitVec.ofInt w ((((0 : BitVec w).slt x).toNat : Int) - ((x.slt 0).toNat : Int))

/-- branchless_ops.hpp:81-86 `select`; `c` is `condition != 0`. -/
def select (c : Bool) (t e : BitVec w) : BitVec w := (mask c &&& t) ||| (~~~ mask c &&& e)

/-- branchless_ops.hpp:96-105 `clamp`. -/
def clamp (sg : Bool) (x low high : BitVec w) : BitVec w :=
  let m1 := mask (leB sg x high)
  let r := (m1 &&& x) ||| (~~~ m1 &&& high)
  let m2 := mask (leB sg low r)
  (m2 &&& r) ||| (~~~ m2 &&& low)

end Verif.Branchless

namespace Verif.BitManip

variable {w : Nat}

/-- bit_manipulation.hpp:31-48 (`float`, w = 32), :57-74 (`double`, w = 64), :84-93 (integral types): `flipBit`.
The union reinterprets the value as its bit pattern. -/
def flipBit (v : BitVec w) (pos : Int) : BitVec w :=
  if pos < 0 ∨ pos ≥ w then v else v ^^^ (1#w <<< pos.toNat)

/-- bit_manipulation.hpp:106-115: width of `UIntType` for a type of `n` bytes. -/
def uintBits (n : Nat) : Nat := if n = 8 then 64 else if n = 4 then 32 else if n = 2 then 16 else 8

/-- bit_manipulation.hpp:130-133: `while (diff) { count += diff & 1; diff >>= 1; }`. -/
def countLoop (diff : BitVec w) (count : Nat) : Nat :=
  if h : diff = 0 then count else countLoop (diff >>> 1) (count + (diff &&& 1#w).toNat)
termination_by diff.toNat
decreasing_by
  rw [BitVec.toNat_ushiftRight, Nat.shiftRight_eq_div_pow]
  have : diff.toNat ≠ 0 := fun e => h (BitVec.eq_of_toNat_eq (by simpa using e))
  omega

/-- bit_manipulation.hpp:103-136 `countBitDifferences` for a type of `n` bytes (little-endian: the union exposes the
low-order bytes). -/
def countBitDifferences {n : Nat} (a b : BitVec (8 * n)) : Nat :=
  countLoop (a.setWidth (uintBits n) ^^^ b.setWidth (uintBits n)) 0

/-- bit_manipulation.hpp:146-169 `isBitSet`. -/
def isBitSet (v : BitVec w) (pos : Int) : Bool :=
  if pos < 0 ∨ pos ≥ w then false else (v &&& (1#w <<< pos.toNat)) != 0

end Verif.BitManip
