/-!
Models of the plain TMR classes:
* `rad_ml::tmr::TMR` (/repo/include/rad_ml/tmr/tmr.hpp)
* `rad_ml::core::redundancy::TripleModularRedundancy` (/repo/include/rad_ml/core/redundancy/tmr.hpp)

`eq` is the C++ `==` of the element type (IEEE equality for floats).  Counters are natural numbers
(the 64-bit wrap of `size_t` after 2^64 events is not modelled).
-/
namespace Verif.Tmr

/-- tmr/tmr.hpp:84-88 `ErrorStats`. -/
structure Stats where
  detected : Nat := 0
  corrected : Nat := 0
  uncorrectable : Nat := 0
  deriving DecidableEq, Repr

/-- State of a `tmr::TMR<T>`: three copies, statistics, whether a callback is registered, and the log
of callback invocations `(majority, outlier)`, newest last (tmr/tmr.hpp:106-114). -/
structure State (α : Type _) where
  c0 : α
  c1 : α
  c2 : α
  stats : Stats := {}
  hasCallback : Bool
  log : List (α × α) := []

variable {α : Type _}

/-- tmr/tmr.hpp:26-33 constructor. -/
def mk (initial : α) (hasCallback : Bool) : State α :=
  { c0 := initial, c1 := initial, c2 := initial, hasCallback := hasCallback }

/-- `if (on_error_callback_) on_error_callback_(a, b)` (tmr/tmr.hpp:136-138 and twins). -/
def notify (s : State α) (a b : α) : State α :=
  if s.hasCallback then { s with log := s.log ++ [(a, b)] } else s

/-- `stats_.detected_errors++; stats_.corrected_errors++` (tmr/tmr.hpp:128,133). -/
def bumpCorrected (s : State α) : State α :=
  { s with stats := { s.stats with detected := s.stats.detected + 1,
                                   corrected := s.stats.corrected + 1 } }

/-- `stats_.detected_errors++; stats_.uncorrectable_errors++` (tmr/tmr.hpp:128,166). -/
def bumpUncorrectable (s : State α) : State α :=
  { s with stats := { s.stats with detected := s.stats.detected + 1,
                                   uncorrectable := s.stats.uncorrectable + 1 } }

/-- tmr/tmr.hpp:40-43 `get` = tmr/tmr.hpp:121-171 `performMajorityVote`. -/
def get (eq : α → α → Bool) (s : State α) : α × State α :=
  if eq s.c0 s.c1 && eq s.c1 s.c2 then (s.c0, s)
  else if eq s.c0 s.c1 then (s.c0, notify (bumpCorrected s) s.c0 s.c2)
  else if eq s.c0 s.c2 then (s.c0, notify (bumpCorrected s) s.c0 s.c1)
  else if eq s.c1 s.c2 then (s.c1, notify (bumpCorrected s) s.c1 s.c0)
  else (s.c0, bumpUncorrectable s)

/-- tmr/tmr.hpp:50-54 `set`. -/
def set (s : State α) (v : α) : State α := { s with c0 := v, c1 := v, c2 := v }

/-- tmr/tmr.hpp:62-67 `getRawCopy`. -/
def getRawCopy (s : State α) (index : Nat) : α :=
  if index < 3 then (if index = 0 then s.c0 else if index = 1 then s.c1 else s.c2) else s.c0

/-- tmr/tmr.hpp:75-79 `setRawCopy`. -/
def setRawCopy (s : State α) (index : Nat) (v : α) : State α :=
  if index < 3 then
    (if index = 0 then { s with c0 := v } else if index = 1 then { s with c1 := v }
     else { s with c2 := v })
  else s

/-- tmr/tmr.hpp:102-104 `resetErrorStats`. -/
def resetErrorStats (s : State α) : State α := { s with stats := {} }

/-- The public operations of `tmr::TMR`. -/
inductive Op (α : Type _) where
  | get
  | set (v : α)
  | setRaw (index : Nat) (v : α)
  | resetStats

/-- One API call. -/
def step (eq : α → α → Bool) (s : State α) : Op α → State α
  | .get => (get eq s).2
  | .set v => set s v
  | .setRaw i v => setRawCopy s i v
  | .resetStats => resetErrorStats s

/-- A history of API calls. -/
def run (eq : α → α → Bool) (s : State α) (ops : List (Op α)) : State α := ops.foldl (step eq) s

end Verif.Tmr

namespace Verif.CoreTmr
variable {α : Type _}

/-- core/redundancy/tmr.hpp:81 the three values. -/
structure State (α : Type _) where
  v0 : α
  v1 : α
  v2 : α

/-- core/redundancy/tmr.hpp:32-36, :55-59 constructor and `set`. -/
def set (v : α) : State α := ⟨v, v, v⟩

/-- core/redundancy/tmr.hpp:39-52 `get` (also the conversion operator, :70-72). -/
def get (eq : α → α → Bool) (s : State α) : α :=
  if eq s.v0 s.v1 then s.v0
  else if eq s.v0 s.v2 then s.v0
  else if eq s.v1 s.v2 then s.v1
  else s.v0

/-- core/redundancy/tmr.hpp:62-67 `repair`. -/
def repair (eq : α → α → Bool) (s : State α) : State α :=
  let correct_value := get eq s
  ⟨correct_value, correct_value, correct_value⟩

/-- A radiation upset: one stored copy is overwritten (environment, not code). -/
def corrupt (s : State α) (k : Fin 3) (x : α) : State α :=
  match k with
  | 0 => { s with v0 := x }
  | 1 => { s with v1 := x }
  | 2 => { s with v2 := x }

end Verif.CoreTmr
