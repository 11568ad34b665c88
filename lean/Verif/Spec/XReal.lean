import Mathlib.Data.Real.Basic
/-!
Ideal double: a real number, one of the two infinities or "not a number".  It follows the IEEE 754 rules for infinities, NaN
and division by zero; rounding, overflow of finite results and the sign of zero (every zero counts as `+0`) are left out.
Used where the C++ code divides without checking its divisor.
-/
namespace Verif

/-- Ideal double. -/
inductive XD where
  | fin (r : ℝ)
  | pinf
  | ninf
  | nan

namespace XD
open Classical

/-- `x + y`. -/
noncomputable def add : XD → XD → XD
  | fin a, fin b => fin (a + b)
  | nan, _ => nan
  | _, nan => nan
  | pinf, ninf => nan
  | ninf, pinf => nan
  | pinf, _ => pinf
  | ninf, _ => ninf
  | fin _, pinf => pinf
  | fin _, ninf => ninf

/-- `x * y`. -/
noncomputable def mul : XD → XD → XD
  | fin a, fin b => fin (a * b)
  | nan, _ => nan
  | _, nan => nan
  | pinf, pinf => pinf
  | ninf, ninf => pinf
  | pinf, ninf => ninf
  | ninf, pinf => ninf
  | fin a, pinf => if 0 < a then pinf else if a < 0 then ninf else nan
  | fin a, ninf => if 0 < a then ninf else if a < 0 then pinf else nan
  | pinf, fin a => if 0 < a then pinf else if a < 0 then ninf else nan
  | ninf, fin a => if 0 < a then ninf else if a < 0 then pinf else nan

/-- `x / y`. -/
noncomputable def div : XD → XD → XD
  | fin a, fin b => if b ≠ 0 then fin (a / b) else if 0 < a then pinf else if a < 0 then ninf else nan
  | nan, _ => nan
  | _, nan => nan
  | fin _, pinf => fin 0
  | fin _, ninf => fin 0
  | pinf, fin b => if 0 ≤ b then pinf else ninf
  | ninf, fin b => if 0 ≤ b then ninf else pinf
  | _, _ => nan

/-- `-x`. -/
noncomputable def neg : XD → XD
  | fin a => fin (-a)
  | pinf => ninf
  | ninf => pinf
  | nan => nan

/-- `x - y`. -/
noncomputable def sub (x y : XD) : XD := add x (neg y)

/-- `std::abs(x)`. -/
noncomputable def abs : XD → XD
  | fin a => fin |a|
  | nan => nan
  | _ => pinf

/-- `x < y`; false whenever an operand is NaN. -/
def lt : XD → XD → Prop
  | fin a, fin b => a < b
  | ninf, fin _ => True
  | ninf, pinf => True
  | fin _, pinf => True
  | _, _ => False

/-- `x == y`; false whenever an operand is NaN. -/
def eq : XD → XD → Prop
  | fin a, fin b => a = b
  | pinf, pinf => True
  | ninf, ninf => True
  | _, _ => False

/-- `x <= y`; false whenever an operand is NaN. -/
def le (x y : XD) : Prop := lt x y ∨ eq x y

/-- `std::max(x, y)`: `x < y ? y : x`. -/
noncomputable def max (x y : XD) : XD := if lt x y then y else x

@[simp] theorem lt_fin (a b : ℝ) : lt (fin a) (fin b) ↔ a < b := Iff.rfl
@[simp] theorem le_fin (a b : ℝ) : le (fin a) (fin b) ↔ a ≤ b := by
  show a < b ∨ a = b ↔ _
  exact le_iff_lt_or_eq.symm
@[simp] theorem eq_fin (a b : ℝ) : eq (fin a) (fin b) ↔ a = b := Iff.rfl
@[simp] theorem not_lt_nan_left (x : XD) : ¬ lt nan x := by cases x <;> exact fun h => h
@[simp] theorem not_lt_nan_right (x : XD) : ¬ lt x nan := by cases x <;> exact fun h => h
@[simp] theorem not_le_nan_left (x : XD) : ¬ le nan x := by cases x <;> (rintro (h | h) <;> exact h)
@[simp] theorem not_le_nan_right (x : XD) : ¬ le x nan := by cases x <;> (rintro (h | h) <;> exact h)
@[simp] theorem not_le_pinf_fin (b : ℝ) : ¬ le pinf (fin b) := by rintro (h | h) <;> exact h
@[simp] theorem add_fin (a b : ℝ) : add (fin a) (fin b) = fin (a + b) := rfl
@[simp] theorem mul_fin (a b : ℝ) : mul (fin a) (fin b) = fin (a * b) := rfl
theorem div_fin (a b : ℝ) (h : b ≠ 0) : div (fin a) (fin b) = fin (a / b) := by
  show (if b ≠ 0 then fin (a / b) else _) = _
  rw [if_pos h]
theorem div_zero_pos (a : ℝ) (h : 0 < a) : div (fin a) (fin 0) = pinf := by
  show (if (0:ℝ) ≠ 0 then _ else if 0 < a then _ else _) = _
  rw [if_neg (by simp), if_pos h]
theorem div_zero_zero : div (fin 0) (fin 0) = nan := by
  show (if (0:ℝ) ≠ 0 then _ else if (0:ℝ) < 0 then _ else if (0:ℝ) < 0 then _ else _) = _
  simp
@[simp] theorem nan_div (x : XD) : div nan x = nan := by cases x <;> rfl
@[simp] theorem nan_add (x : XD) : add nan x = nan := by cases x <;> rfl
@[simp] theorem add_nan (x : XD) : add x nan = nan := by cases x <;> rfl
@[simp] theorem nan_mul (x : XD) : mul nan x = nan := by cases x <;> rfl
@[simp] theorem mul_nan (x : XD) : mul x nan = nan := by cases x <;> rfl

end XD
end Verif
