/-!
The counting loop used throughout the C++ sources.
-/
namespace Verif

/-- Models `for (i = 0; i < n; ++i) s = body(i, s);` (iterations in increasing order of `i`). -/
def forN {α : Type _} : Nat → (Nat → α → α) → α → α
  | 0, _, s => s
  | n + 1, body, s => body n (forN n body s)

/-- Result of a computation that may have undefined behaviour in C++. -/
inductive Outcome (α : Type _) where
  | ok (a : α)
  | ub
  deriving DecidableEq, Repr

/-- Sequencing: undefined behaviour in the first computation makes the whole undefined. -/
def Outcome.bind {α β : Type _} (x : Outcome α) (f : α → Outcome β) : Outcome β :=
  match x with
  | .ok a => f a
  | .ub => .ub

end Verif
