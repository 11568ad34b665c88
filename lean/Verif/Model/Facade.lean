import Verif.Model.UnifiedMemory
import Verif.Model.ErrorResult
/-!
The high-level functions of /repo/include/rad_ml/api/rad_ml.hpp for memory and errors, composed of the models of the unified memory manager and
of the static error handler.

The header itself does not compile as committed (it includes neural/selective_hardening.hpp and error_handling.hpp, which do not); it is modelled as
its text defines it. As in those models the heap is an environment: an allocation carries the address `malloc` returns (0 is null). The factories of
`make_tmr` only call constructors (modelled with their classes); the helpers in `neural` and `simulation` call members that do not exist and are left out.
-/
namespace Verif.Facade

open Verif.Unified (Level Flags)
open Verif.ErrorHandling (Severity ErrorInfo Handler)

/-- The two singletons the functions work on. -/
structure Api where
  mgr : Unified.State := {}
  err : Handler := ⟨true, 1, []⟩

/-- The warning of `checkForLeaks` (core/memory/unified_memory.hpp:434-438) and the error of a rejected `deallocate` (:292-297); texts opaque. -/
def leakWarning : ErrorInfo := ⟨2, "Memory leaks detected"⟩
/-- See `leakWarning` (core/memory/unified_memory.hpp:292-297). -/
def freeError : ErrorInfo := ⟨3, "Attempted to free unallocated memory"⟩

/-- `initialize` (api/rad_ml.hpp:74-99): nothing it calls throws. -/
def Api.init (a : Api) (logging : Bool) (l : Level) : Bool × Api :=
  (true, { a with err := { a.err with level := if logging then 1 else 3 }, mgr := a.mgr.setLevel l })

/-- `checkForLeaks` (api/rad_ml.hpp:329-332; core/memory/unified_memory.hpp:408-443). -/
def Api.checkForLeaks (a : Api) (report : Bool) : Nat × Api :=
  (a.mgr.checkForLeaks.1, { mgr := a.mgr.checkForLeaks.2, err := if report && !a.mgr.allocs.isEmpty then a.err.logError leakWarning else a.err })

/-- `shutdown` (api/rad_ml.hpp:107-122). -/
def Api.shutdown (a : Api) (check : Bool) : Bool × Api := (true, if check then (a.checkForLeaks true).2 else a)

/-- `allocate<T>(count, level)` for a `T` of `sz` bytes (api/rad_ml.hpp:262-275; allocateObject and allocateArray, core/memory/unified_memory.hpp:220-273);
`m` is what the heap returns. The type name stored afterwards is not modelled. -/
def Api.allocate (a : Api) (sz count : Nat) (l : Level) (m : Nat) : Option (Option Nat × Api) :=
  match a.mgr.allocate (if count = 1 then sz else Unified.w64 (sz * count)) {} l 64 m with
  | .ok p s => some (some p, { a with mgr := s })
  | .throws s => some (none, { a with mgr := s })
  | .ub => none
  | .deadlock => none

/-- `deallocate` (api/rad_ml.hpp:283-286; core/memory/unified_memory.hpp:281-335). -/
def Api.deallocate (a : Api) (p : Nat) : Option (Bool × Api) :=
  match a.mgr.deallocate p with
  | .ok b s => some (b, { mgr := s, err := if !b && p != 0 then a.err.logError freeError else a.err })
  | _ => none

/-- `setReportingLevel` (api/rad_ml.hpp:354-357). -/
def Api.setReportingLevel (a : Api) (l : Severity) : Api := { a with err := { a.err with level := l } }

/-- `logError` (api/rad_ml.hpp:381-387). -/
def Api.logError (a : Api) (e : ErrorInfo) : Api := { a with err := a.err.logError e }

/-- The calls. -/
inductive Call where
  | init (logging : Bool) (l : Level)
  | shutdown (check : Bool)
  | allocate (sz count : Nat) (l : Level) (m : Nat)
  | deallocate (p : Nat)
  | checkForLeaks (report : Bool)
  | setReportingLevel (l : Severity)
  | logError (e : ErrorInfo)

/-- What a call gives its caller. -/
inductive Ret where
  | bool (b : Bool)
  | ptr (p : Nat)
  | exception
  | count (n : Nat)
  | unit
  deriving DecidableEq

/-- One call; `none`: it does not return. -/
def Api.step (a : Api) : Call → Option (Ret × Api)
  | .init g l => some (.bool (a.init g l).1, (a.init g l).2)
  | .shutdown c => some (.bool (a.shutdown c).1, (a.shutdown c).2)
  | .allocate sz n l m => match a.allocate sz n l m with
    | some (some p, a') => some (.ptr p, a')
    | some (none, a') => some (.exception, a')
    | none => none
  | .deallocate p => match a.deallocate p with
    | some (b, a') => some (.bool b, a')
    | none => none
  | .checkForLeaks r => some (.count (a.checkForLeaks r).1, (a.checkForLeaks r).2)
  | .setReportingLevel l => some (.unit, a.setReportingLevel l)
  | .logError e => some (.unit, a.logError e)

end Verif.Facade
