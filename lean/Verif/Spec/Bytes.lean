/-!
Byte strings as bit strings, and what "an error burst" means.
-/
namespace Verif.Spec

/-- The eight bits of a byte, least significant first. -/
def bitsOfByte (b : BitVec 8) : List Bool :=
  [b.getLsbD 0, b.getLsbD 1, b.getLsbD 2, b.getLsbD 3, b.getLsbD 4, b.getLsbD 5, b.getLsbD 6, b.getLsbD 7]

/-- A byte string as a bit string (least significant bit of each byte first). -/
def bitsOf : List (BitVec 8) → List Bool
  | [] => []
  | b :: bs => bitsOfByte b ++ bitsOf bs

/-- `x` and `y` are different and differ only inside a window of at most `n` consecutive bits. -/
def BurstDiffer (n : Nat) (x y : List (BitVec 8)) : Prop :=
  ∃ p w₁ w₂ s, bitsOf x = p ++ w₁ ++ s ∧ bitsOf y = p ++ w₂ ++ s ∧
    w₁.length = w₂.length ∧ w₁.length ≤ n ∧ w₁ ≠ w₂

end Verif.Spec
