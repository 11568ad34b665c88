import Verif.Model.Loop
import Mathlib.Data.Rat.Floor
/-!
Model of `rad_ml::math::FixedPoint<IntBits, FracBits, T>` (/repo/include/rad_ml/math/fixed_point.hpp) for the signed
base types `std::int16_t`, `std::int32_t` and `std::int64_t` (`w` = 16, 32, 64; `int` has 32 bits).

The raw value is an `Int`.  Signed overflow in an expression of type `int`/`int64_t` is undefined behaviour;
conversion of an out-of-range value to a narrower signed type wraps (implementation-defined before C++20, modular
on every supported compiler).  Floating-point numbers are modelled as exact rationals: the factor `scale` is a power
of two, so `value * scale` is exact in IEEE arithmetic; NaN and infinities are not modelled, and the rounding of
`static_cast<float>(value_)` in `to_float` (32-bit raw values above 2^24) is not modelled either.
-/
namespace Verif.Fixed

/-- the value fits a signed type of `w` bits. -/
def inRange (w : Nat) (x : Int) : Prop := -2 ^ (w - 1) ≤ x ∧ x < 2 ^ (w - 1)

instance (w : Nat) (x : Int) : Decidable (inRange w x) := inferInstanceAs (Decidable (_ ∧ _))

/-- `static_cast<T>` from a wider signed integer (modular). -/
def narrow (w : Nat) (x : Int) : Int := Int.bmod x (2 ^ w)

/-- An arithmetic result of type `decltype(T op T)` (`int` for narrow `T`) stored into a `T`. -/
def store (w : Nat) (x : Int) : Outcome Int :=
  if inRange (max w 32) x then .ok (narrow w x) else .ub

/-- fixed_point.hpp:32 `scale = static_cast<T>(1) << FracBits` (converted back to `T`). -/
def scale (w f : Nat) : Int := narrow w (2 ^ f)

/-- fixed_point.hpp:43-44 constructor from `int`: `static_cast<T>(value * scale)`. -/
def ofInt (w f : Nat) (n : Int) : Outcome Int := store w (n * scale w f)

/-- conversion of a real number to an integer: truncation towards zero. -/
def truncate (x : ℚ) : Int := if 0 ≤ x then ⌊x⌋ else ⌈x⌉

/-- fixed_point.hpp:37-41 constructors from `float`/`double`: `static_cast<T>(value * scale)`; the conversion is
undefined when the truncated value does not fit. -/
def ofReal (w f : Nat) (x : ℚ) : Outcome Int :=
  let t := truncate (x * scale w f)
  if inRange w t then .ok t else .ub

/-- fixed_point.hpp:47-53 `to_float`/`to_double`. -/
def toReal (w f : Nat) (raw : Int) : ℚ := raw / scale w f

/-- fixed_point.hpp:56-60 `operator+` and :101-104 `operator+=`. -/
def add (w : Nat) (a b : Int) : Outcome Int := store w (a + b)

/-- fixed_point.hpp:62-66 `operator-` and :106-109 `operator-=`. -/
def sub (w : Nat) (a b : Int) : Outcome Int := store w (a - b)

/-- fixed_point.hpp:68-82 `operator*` and :111-114 `operator*=`: 64-bit product, arithmetic shift right, narrowing. -/
def mul (w f : Nat) (a b : Int) : Outcome Int :=
  if inRange 64 (a * b) then .ok (narrow w (a * b / 2 ^ f)) else .ub

/-- fixed_point.hpp:84-98 `operator/` and :116-119 `operator/=`.  In C++17 (the standard the build selects) shifting a
negative value left is undefined; `cxx20 = true` is the C++20 rule (modular), which compilers follow in practice. -/
def div (cxx20 : Bool) (w f : Nat) (a b : Int) : Outcome Int :=
  if b = 0 then .ub
  else if cxx20 = false ∧ (a < 0 ∨ 2 ^ 64 ≤ a * 2 ^ f) then .ub
  else
    let scaled := narrow 64 (a * 2 ^ f)
    if inRange 64 (scaled.tdiv b) then .ok (narrow w (scaled.tdiv b)) else .ub

/-- fixed_point.hpp:122-124 `operator==`. -/
def eq (a b : Int) : Bool := a == b
/-- fixed_point.hpp:126-128 `operator!=`. -/
def ne (a b : Int) : Bool := a != b
/-- fixed_point.hpp:130-132 `operator<`. -/
def lt (a b : Int) : Bool := decide (a < b)
/-- fixed_point.hpp:134-136 `operator<=`. -/
def le (a b : Int) : Bool := decide (a ≤ b)
/-- fixed_point.hpp:138-140 `operator>`. -/
def gt (a b : Int) : Bool := decide (a > b)
/-- fixed_point.hpp:142-144 `operator>=`. -/
def ge (a b : Int) : Bool := decide (a ≥ b)

end Verif.Fixed
