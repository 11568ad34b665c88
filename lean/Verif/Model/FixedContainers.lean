import Verif.Model.Loop
/-!
Model of `rad_ml::core::memory::FixedVector` and `FixedMap`
(/repo/include/rad_ml/core/memory/fixed_containers.hpp).

`std::array<T, Capacity>` is a total function on indices whose cells at positions `≥ Capacity` do not exist:
reading or writing one of them is undefined behaviour (`Outcome.ub`).  Initial cell contents are arbitrary.
Element copy construction/assignment is assumed not to throw.
-/
namespace Verif.FixedC

/-- fixed_containers.hpp:24-30 `ContainerError`. -/
inductive Err | success | full | outOfBounds | notFound | invalidOperation
  deriving DecidableEq, Repr

/-- `std::array<T, cap>::operator[] const` : reading cell `i`. -/
def readCell {α : Type _} (cap : Nat) (a : Nat → α) (i : Nat) : Outcome α :=
  if i < cap then .ok (a i) else .ub

/-- `std::array<T, cap>::operator[]` used as an assignment target. -/
def writeCell {α : Type _} (cap : Nat) (a : Nat → α) (i : Nat) (v : α) : Outcome (Nat → α) :=
  if i < cap then .ok (fun j => if j = i then v else a j) else .ub

/-! ### FixedVector -/

/-- fixed_containers.hpp:135-136 data members. -/
structure Vec (α : Type _) where
  data : Nat → α
  size : Nat

/-- fixed_containers.hpp:47 constructor; `junk` are the indeterminate initial cells. -/
def Vec.new {α : Type _} (junk : Nat → α) : Vec α := ⟨junk, 0⟩

/-- fixed_containers.hpp:55-62 `push_back`. -/
def Vec.pushBack {α : Type _} (cap : Nat) (s : Vec α) (v : α) : Outcome (Err × Vec α) :=
  if s.size ≥ cap then .ok (.full, s)
  else Outcome.bind (writeCell cap s.data s.size v) fun d => .ok (.success, ⟨d, s.size + 1⟩)

/-- fixed_containers.hpp:71-78 `at`; the option is the value stored through the reference, `none` when the
reference is left alone. -/
def Vec.at' {α : Type _} (cap : Nat) (s : Vec α) (i : Nat) : Outcome (Err × Option α) :=
  if i ≥ s.size then .ok (.outOfBounds, none)
  else Outcome.bind (readCell cap s.data i) fun v => .ok (.success, some v)

/-- fixed_containers.hpp:96-98 `operator[] const` (read). -/
def Vec.index {α : Type _} (cap : Nat) (s : Vec α) (i : Nat) : Outcome α := readCell cap s.data i

/-- fixed_containers.hpp:86-88 `operator[]`, used to assign `v`. -/
def Vec.assign {α : Type _} (cap : Nat) (s : Vec α) (i : Nat) (v : α) : Outcome (Vec α) :=
  Outcome.bind (writeCell cap s.data i v) fun d => .ok { s with data := d }

/-- fixed_containers.hpp:121-123 `clear`. -/
def Vec.clear {α : Type _} (s : Vec α) : Vec α := { s with size := 0 }

/-- fixed_containers.hpp:130-132 `empty`. -/
def Vec.empty {α : Type _} (s : Vec α) : Bool := s.size == 0

/-! ### FixedMap -/

/-- fixed_containers.hpp:252-254 data members. -/
structure Map (κ ν : Type _) where
  keys : Nat → κ
  vals : Nat → ν
  size : Nat

/-- fixed_containers.hpp:155 constructor. -/
def Map.new {κ ν : Type _} (jk : Nat → κ) (jv : Nat → ν) : Map κ ν := ⟨jk, jv, 0⟩

variable {κ ν : Type _} [DecidableEq κ]

/-- The loop `for (i = …; i < size_; ++i) if (keys_[i] == key) …` shared by insert, find and erase
(fixed_containers.hpp:166-171, 193-198, 210-221): first index `≥ i` (and `< i + fuel`) whose key matches. -/
def search (cap : Nat) (keys : Nat → κ) (key : κ) : (fuel i : Nat) → Outcome (Option Nat)
  | 0, _ => .ok none
  | fuel + 1, i => Outcome.bind (readCell cap keys i) fun k =>
      if k = key then .ok (some i) else search cap keys key fuel (i + 1)

/-- fixed_containers.hpp:164-183 `insert`. -/
def Map.insert (cap : Nat) (s : Map κ ν) (key : κ) (v : ν) : Outcome (Err × Map κ ν) :=
  Outcome.bind (search cap s.keys key s.size 0) fun
    | some i => Outcome.bind (writeCell cap s.vals i v) fun vs => .ok (.success, { s with vals := vs })
    | none =>
      if s.size ≥ cap then .ok (.full, s)
      else Outcome.bind (writeCell cap s.keys s.size key) fun ks =>
        Outcome.bind (writeCell cap s.vals s.size v) fun vs => .ok (.success, ⟨ks, vs, s.size + 1⟩)

/-- fixed_containers.hpp:192-201 `find`. -/
def Map.find (cap : Nat) (s : Map κ ν) (key : κ) : Outcome (Err × Option ν) :=
  Outcome.bind (search cap s.keys key s.size 0) fun
    | some i => Outcome.bind (readCell cap s.vals i) fun v => .ok (.success, some v)
    | none => .ok (.notFound, none)

/-- fixed_containers.hpp:209-225 `erase`. -/
def Map.erase (cap : Nat) (s : Map κ ν) (key : κ) : Outcome (Err × Map κ ν) :=
  Outcome.bind (search cap s.keys key s.size 0) fun
    | some i =>
      Outcome.bind (if i < s.size - 1 then
          Outcome.bind (readCell cap s.keys (s.size - 1)) fun k =>
          Outcome.bind (writeCell cap s.keys i k) fun ks =>
          Outcome.bind (readCell cap s.vals (s.size - 1)) fun v =>
          Outcome.bind (writeCell cap s.vals i v) fun vs => .ok ⟨ks, vs, s.size⟩
        else .ok s) fun s' => .ok (.success, { s' with size := s'.size - 1 })
    | none => .ok (.notFound, s)

/-- fixed_containers.hpp:247-249 `clear`. -/
def Map.clear {κ ν : Type _} (s : Map κ ν) : Map κ ν := { s with size := 0 }

end Verif.FixedC
