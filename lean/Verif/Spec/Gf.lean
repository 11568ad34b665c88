import Mathlib.Algebra.Polynomial.Basic
import Mathlib.Algebra.Field.ZMod
import Mathlib.RingTheory.AdjoinRoot
/-!
Specification side of GF(2^m) arithmetic: a machine word read as a polynomial over the two-element field.
-/
namespace Verif.Spec
open Polynomial

/-- Bit `i` of the word is the coefficient of `X ^ i`. -/
noncomputable def wordPoly (n : ℕ) : (ZMod 2)[X] :=
  ∑ i ∈ Finset.range n, if n.testBit i then X ^ i else 0

/-- `f` and `g` are the same element of GF(2)[X] / (word `p`). -/
def SameMod (p : ℕ) (f g : (ZMod 2)[X]) : Prop := wordPoly p ∣ f - g

/-- The field GF(2)[X] / (word `p`). -/
abbrev FieldOf (p : ℕ) := AdjoinRoot (wordPoly p)

/-- The field element a word stands for. -/
noncomputable def elt (p a : ℕ) : FieldOf p := AdjoinRoot.mk (wordPoly p) (wordPoly a)

/-- The generator `α` of the field, the class of `X`. -/
noncomputable def alpha (p : ℕ) : FieldOf p := AdjoinRoot.mk (wordPoly p) X

/-- A list of coefficients, highest degree first, as a polynomial. -/
noncomputable def listPoly {R : Type} [CommRing R] : List R → R[X]
  | [] => 0
  | c :: cs => C c * X ^ cs.length + listPoly cs

/-- The word `msg` is a Reed–Solomon codeword for the roots `α^first, …, α^(first + nsym - 1)`. -/
def IsCodeword (p first nsym : ℕ) (msg : List ℕ) : Prop :=
  ∀ i, first ≤ i → i < first + nsym → (listPoly (msg.map (elt p))).eval (alpha p ^ i) = 0

end Verif.Spec
