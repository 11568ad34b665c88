/-!
IEEE-754 comparison on bit patterns, used to instantiate "equality on `T`" for `float`.
-/
namespace Verif.Spec

/-- Exponent field (8 bits) of a binary32 pattern. -/
def f32exp (x : BitVec 32) : Nat := (x.toNat / 2 ^ 23) % 256
/-- Mantissa field (23 bits). -/
def f32man (x : BitVec 32) : Nat := x.toNat % 2 ^ 23
def f32isNaN (x : BitVec 32) : Bool := f32exp x == 255 && f32man x != 0
def f32isInf (x : BitVec 32) : Bool := f32exp x == 255 && f32man x == 0
def f32isFinite (x : BitVec 32) : Bool := f32exp x != 255
def f32isZero (x : BitVec 32) : Bool := f32exp x == 0 && f32man x == 0

/-- IEEE equality `a == b` of two binary32 values: NaN is unequal to everything, +0 == -0. -/
def f32eq (a b : BitVec 32) : Bool :=
  !f32isNaN a && !f32isNaN b && (a == b || (f32isZero a && f32isZero b))

end Verif.Spec
