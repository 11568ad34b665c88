/-!
Small, code-independent vocabulary about bits, used in the statements of the properties.
-/
namespace Verif.Spec

/-- Majority of three bits: at least two of them are set. -/
def maj3 (a b c : Bool) : Bool := (a && b) || (a && c) || (b && c)

/-- `r` is the bitwise majority of `a`, `b`, `c`. -/
def IsBitMajority {w : Nat} (a b c r : BitVec w) : Prop :=
  ∀ i, i < w → r.getLsbD i = maj3 (a.getLsbD i) (b.getLsbD i) (c.getLsbD i)

/-- At least two of the three arguments equal `x`. -/
def TwoAgree {α : Type _} (x a b c : α) : Prop :=
  (a = x ∧ b = x) ∨ (a = x ∧ c = x) ∨ (b = x ∧ c = x)

/-- `r` is the value `x`, up to the equality the C++ type provides (`+0.0 == -0.0` for floats). -/
def SameValue {α : Type _} (eq : α → α → Bool) (r x : α) : Prop := r = x ∨ eq r x = true

/-- Number of bit positions below `n` at which `p` is true. -/
def countTrue (p : Nat → Bool) : Nat → Nat
  | 0 => 0
  | n + 1 => countTrue p n + (p n).toNat

/-- Number of set bits of a word. -/
def popcount {w : Nat} (x : BitVec w) : Nat := countTrue x.getLsbD w

end Verif.Spec
