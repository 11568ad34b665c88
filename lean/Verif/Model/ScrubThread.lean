import Verif.Model.ConvLayer
/-!
Models of the thread handling in
* `core::memory::MemoryScrubber` (/repo/include/rad_ml/core/memory/memory_scrubber.hpp): `start`, `stop`, the scrubbing thread;
* `inference::RadiationTolerantModel` (/repo/include/rad_ml/inference/model.hpp): automatic scrubbing of a model.

Interleaving semantics: every access to a shared variable is one step; a data race, undefined in C++, is thus given its most favourable meaning.
The callback is assumed to return and not to call the scrubber.  `mutex_` protects `regions_` only and is not needed here.
-/
namespace Verif.ScrubT
open Verif Verif.Conv

/-! ### MemoryScrubber -/

/-- Where the scrubbing thread is (memory_scrubber.hpp:136-141): about to test `running_`, inside `scrubOnce`, sleeping, or returned. -/
inductive Worker where
  | check | scrub | sleep | finished
  deriving DecidableEq, Repr

/-- Where a thread calling `start` or `stop` is (memory_scrubber.hpp:93-113). -/
inductive Pc where
  | idle
  /-- `start`: has read `running_ == false` (line 94) -/
  | start1
  /-- `start`: has stored `running_ = true` (line 98) -/
  | start2
  /-- `stop`: has read `running_ == true` (line 106) -/
  | stop1
  /-- `stop`: has stored `running_ = false` (line 110) -/
  | stop2
  /-- `stop`: has found the thread joinable (line 111) and waits in `join` -/
  | stop3
  deriving DecidableEq, Repr

/-- Shared state; `worker` is the thread attached to `scrub_thread_`, if joinable.  `passes` counts the calls of `scrubOnce`. `crashed`: `std::terminate` was
called, or `join` on a thread that is no longer joinable. -/
structure St where
  running : Bool := false
  worker : Option Worker := none
  pc : Nat → Pc := fun _ => .idle
  passes : Nat := 0
  crashed : Bool := false

/-- A step: a call begins, a calling thread continues, or the scrubbing thread continues. -/
inductive Act where
  | callStart (c : Nat)
  | callStop (c : Nat)
  | go (c : Nat)
  | work
  deriving DecidableEq, Repr

/-- Thread `c` moves to `p`. -/
def St.to (s : St) (c : Nat) (p : Pc) : St := { s with pc := fun d => if d = c then p else s.pc d }

/-- The scrubbing thread's step (memory_scrubber.hpp:136-141). -/
def Worker.step (w : Worker) (running : Bool) : Worker :=
  match w with
  | .check => if running then .scrub else .finished
  | .scrub => .sleep
  | .sleep => .check
  | .finished => .finished

/-- One step; `none` if it is not possible in this state. -/
def St.step (s : St) : Act → Option St
  | .callStart c => if s.pc c = .idle then some (if s.running then s else s.to c .start1) else none
  | .callStop c => if s.pc c = .idle then some (if s.running then s.to c .stop1 else s) else none
  | .go c =>
    match s.pc c with
    | .idle => none
    | .start1 => some ({ s with running := true }.to c .start2)
    | .start2 =>
      -- the move assignment of a thread to a joinable `scrub_thread_` calls `std::terminate`
      some (if s.worker.isSome then { s with crashed := true } else { s with worker := some .check }.to c .idle)
    | .stop1 => some ({ s with running := false }.to c .stop2)
    | .stop2 => some (if s.worker.isSome then s.to c .stop3 else s.to c .idle)
    | .stop3 =>
      match s.worker with
      | none => some { s with crashed := true }
      | some .finished => some ({ s with worker := none }.to c .idle)
      | some _ => none
  | .work =>
    match s.worker with
    | none => none
    | some .finished => none
    | some w => some { s with worker := some (w.step s.running), passes := if w = .check ∧ s.running then s.passes + 1 else s.passes }

/-- An execution. -/
def St.exec (s : St) : List Act → Option St
  | [] => some s
  | a :: l => (s.step a).bind fun t => t.exec l

/-! ### RadiationTolerantModel -/

/-- Life of the model object: complete; its derived part destroyed, so that a call of `repair()` is a pure virtual call; destroyed. -/
inductive Phase where
  | alive | derivedGone | gone
  deriving DecidableEq, Repr

/-- What the owner thread does after the join it is waiting in. -/
inductive Next where
  /-- `enableAutoScrubbing`: the new scrubber replaces the old one and is started (model.hpp:63-72) -/
  | enable
  /-- `disableAutoScrubbing` (model.hpp:78-83) -/
  | disable
  /-- destruction of `scrubber_` in the base class destructor (model.hpp:30, 88) -/
  | destroy
  deriving DecidableEq, Repr

/-- The model object, its scrubbing thread if there is a scrubber, and the owner thread (`some n`: it has stored `running_ = false` and waits in `join`).
`repairs` counts the calls of `repair()`; `crashed`: a pure virtual function was called. -/
structure MSt where
  phase : Phase := .alive
  worker : Option Worker := none
  wait : Option Next := none
  repairs : Nat := 0
  crashed : Bool := false

/-- Steps of the owner and of the scrubbing thread. -/
inductive MAct where
  | enable
  | disable
  /-- the derived class destructor has run -/
  | destroyDerived
  /-- the base class destructor begins -/
  | destroyBase
  /-- the owner's `join` returns -/
  | join
  | work
  deriving DecidableEq, Repr

/-- One step. -/
def MSt.step (s : MSt) : MAct → Option MSt
  | .enable =>
    if s.phase = .alive ∧ s.wait = none then
      some (if s.worker.isSome then { s with wait := some .enable } else { s with worker := some .check })
    else none
  | .disable =>
    if s.phase = .alive ∧ s.wait = none then some (if s.worker.isSome then { s with wait := some .disable } else s) else none
  | .destroyDerived => if s.phase = .alive ∧ s.wait = none then some { s with phase := .derivedGone } else none
  | .destroyBase =>
    if s.phase = .derivedGone ∧ s.wait = none then
      some (if s.worker.isSome then { s with wait := some .destroy } else { s with phase := .gone })
    else none
  | .join =>
    if s.worker = some .finished then
      match s.wait with
      | some .enable => some { s with wait := none, worker := some .check }
      | some .disable => some { s with wait := none, worker := none }
      | some .destroy => some { s with wait := none, worker := none, phase := .gone }
      | none => none
    else none
  | .work =>
    match s.worker with
    | none => none
    | some .finished => none
    | some w =>
      -- `running_` is false exactly while the owner waits
      let w' := w.step (s.wait.isNone)
      some (if w' = .scrub then { s with worker := some w', repairs := s.repairs + 1, crashed := s.crashed || s.phase != .alive } else { s with worker := some w' })

/-- An execution. -/
def MSt.exec (s : MSt) : List MAct → Option MSt
  | [] => some s
  | a :: l => (s.step a).bind fun t => t.exec l

/-! ### A repair concurrent with an update or a read of one parameter -/

variable {α : Type}

/-- Writing one copy (tmr.hpp:57-59, 65-67). -/
def put (t : Tri α) (k : Nat) (x : α) : Tri α := if k = 0 then { t with v0 := x } else if k = 1 then { t with v1 := x } else if k = 2 then { t with v2 := x } else t

/-- The memory, the repairing thread (0: about to vote; 1-3: about to write copy 0-2; 4: done) and the updating thread (0-2: about to write that copy; 3: done). -/
structure Race (α : Type) where
  mem : Tri α
  correct : Option α := none
  rpc : Nat := 0
  upc : Nat := 0

/-- One step of the repairing (`true`) or the updating (`false`) thread (tmr.hpp:56-68); `w` is the new value.  A thread that is done stays. -/
def Race.step (eq : α → α → Bool) (w : α) (r : Race α) (who : Bool) : Race α :=
  if who then
    if r.rpc = 0 then { r with correct := some (r.mem.get eq), rpc := 1 }
    else if r.rpc ≤ 3 then
      match r.correct with
      | some c => { r with mem := put r.mem (r.rpc - 1) c, rpc := r.rpc + 1 }
      | none => r
    else r
  else if r.upc ≤ 2 then { r with mem := put r.mem r.upc w, upc := r.upc + 1 } else r

/-- A schedule. -/
def Race.exec (eq : α → α → Bool) (w : α) (r : Race α) (l : List Bool) : Race α := l.foldl (Race.step eq w) r

/-- `get` (tmr.hpp:39-53) whose successive reads of the memory see the snapshots `m 0`, `m 1`, ... -/
def getReads (eq : α → α → Bool) (m : Nat → Tri α) : α :=
  if eq (m 0).v0 (m 1).v1 then (m 2).v0
  else if eq (m 2).v0 (m 3).v2 then (m 4).v0
  else if eq (m 4).v1 (m 5).v2 then (m 6).v1
  else (m 6).v0

end Verif.ScrubT
