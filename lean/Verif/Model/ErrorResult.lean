/-!
Model of the two error-reporting schemes: /repo/include/rad_ml/core/error/status_code.hpp and
/repo/include/rad_ml/error/error_handling.hpp.

The second header defines `class ErrorHandler` twice (error_handling.hpp:635 and :746), so a translation unit including it
does not compile as it stands; `Result` and the two `ErrorHandler` classes are modelled separately, each as written.
C++ exceptions are values of `Except`.  Strings, source locations and messages are opaque.
-/
namespace Verif.Status

/-- `ErrorDomain` (status_code.hpp:23-33). -/
inductive Domain where
  | system | memory | radiation | redundancy | network | computation | io | validation | application
  deriving DecidableEq, Repr

/-- `StatusCode` (status_code.hpp:41-135); `code` is a `uint16_t`. -/
structure StatusCode where
  domain : Domain
  code : UInt16
  message : String

/-- `isSuccess` (status_code.hpp:71-73). -/
def StatusCode.isSuccess (s : StatusCode) : Bool := decide (s.domain = .system) && s.code == 0
/-- `isError` (status_code.hpp:80-82). -/
def StatusCode.isError (s : StatusCode) : Bool := !s.isSuccess
/-- `operator==` (status_code.hpp:117-119). -/
def StatusCode.eq (a b : StatusCode) : Bool := decide (a.domain = b.domain) && a.code == b.code
/-- `operator!=` (status_code.hpp:127-129). -/
def StatusCode.ne (a b : StatusCode) : Bool := !a.eq b

/-- `SUCCESS` (status_code.hpp:138). -/
def SUCCESS : StatusCode := ⟨.system, 0, "Success"⟩
/-- The ten predefined failures (status_code.hpp:139-148). -/
def failures : List StatusCode := [
  ⟨.memory, 1, "Memory allocation failure"⟩, ⟨.redundancy, 1, "Redundancy mechanism failure"⟩,
  ⟨.radiation, 1, "Radiation event detected"⟩, ⟨.system, 1, "Invalid argument"⟩, ⟨.computation, 1, "Computation error"⟩,
  ⟨.computation, 2, "Overflow error"⟩, ⟨.computation, 3, "Underflow error"⟩, ⟨.validation, 1, "Validation failure"⟩,
  ⟨.radiation, 2, "Calibration error"⟩, ⟨.system, 2, "System error"⟩]

/-- `core::error::Result<T>` (status_code.hpp:158-222); `value` is `none` while the member is default-constructed. -/
structure Result (T : Type) where
  value : Option T
  status : StatusCode
  hasValue : Bool

/-- Constructor from a value (status_code.hpp:166-167). -/
def Result.ofValue {T : Type} (v : T) : Result T := ⟨some v, SUCCESS, true⟩
/-- Constructor from a status (status_code.hpp:174-175). -/
def Result.ofStatus {T : Type} (s : StatusCode) : Result T := ⟨none, s, false⟩
/-- `isSuccess` (status_code.hpp:182-184). -/
def Result.isSuccess {T : Type} (r : Result T) : Bool := r.hasValue
/-- `isError` (status_code.hpp:191-193). -/
def Result.isError {T : Type} (r : Result T) : Bool := !r.hasValue
/-- `getStatus` (status_code.hpp:214-216). -/
def Result.getStatus {T : Type} (r : Result T) : StatusCode := r.status
/-- `getValue(T& value)` (status_code.hpp:201-207): the returned flag and the new content of the reference, which holds
`out` before; `none` would be a read of the default-constructed member. -/
def Result.getValue {T : Type} (r : Result T) (out : T) : Bool × Option T :=
  if r.hasValue then (true, r.value) else (false, some out)

/-- `core::error::Result<void>` (status_code.hpp:225-272). -/
structure VoidResult where
  status : StatusCode
  success : Bool

/-- Default constructor (status_code.hpp:231-232). -/
def VoidResult.ok : VoidResult := ⟨SUCCESS, true⟩
/-- Constructor from a status (status_code.hpp:239-240). -/
def VoidResult.ofStatus (s : StatusCode) : VoidResult := ⟨s, s.isSuccess⟩
/-- `isSuccess` (status_code.hpp:247-249). -/
def VoidResult.isSuccess (r : VoidResult) : Bool := r.success
/-- `isError` (status_code.hpp:256-258). -/
def VoidResult.isError (r : VoidResult) : Bool := !r.success

end Verif.Status

namespace Verif.ErrorHandling

/-- `ErrorSeverity` by its enumerator value, DEBUG = 0 … FATAL = 5 (error_handling.hpp:45-52). -/
abbrev Severity := Fin 6

/-- `ErrorInfo` (error_handling.hpp:98-128); everything except the severity is kept as one opaque payload. -/
structure ErrorInfo where
  severity : Severity
  payload : String
  deriving DecidableEq

/-- Exceptions: the framework's (error_handling.hpp:206-268) and the `std::logic_error` thrown by `error()`; `other` is an
exception of a callable supplied by the user. -/
inductive Exn where
  | framework (e : ErrorInfo)
  | logic
  | other (n : Nat)
  deriving DecidableEq

/-- `std::variant<T, ErrorInfo>`, the member of `Result<T>` (error_handling.hpp:464). -/
inductive Result (T : Type) where
  | val (v : T)
  | err (e : ErrorInfo)

variable {T U V : Type}

/-- `isSuccess` (error_handling.hpp:311-313). -/
def Result.isSuccess : Result T → Bool
  | .val _ => true
  | .err _ => false
/-- `isError` (error_handling.hpp:320-322). -/
def Result.isError : Result T → Bool
  | .val _ => false
  | .err _ => true
/-- `std::get<T>`: throws on the wrong alternative (represented by `logic`). -/
def Result.getVal : Result T → Except Exn T
  | .val v => .ok v
  | .err _ => .error .logic
/-- `std::get<ErrorInfo>`. -/
def Result.getErr : Result T → Except Exn ErrorInfo
  | .val _ => .error .logic
  | .err e => .ok e
/-- `error()` (error_handling.hpp:369-374). -/
def Result.error (r : Result T) : Except Exn ErrorInfo := if !r.isError then .error .logic else r.getErr
/-- `value()` (error_handling.hpp:330-348). -/
def Result.value (r : Result T) : Except Exn T :=
  if r.isError then (match r.error with
    | .ok e => .error (.framework e)
    | .error x => .error x)
  else r.getVal
/-- `valueOr` (error_handling.hpp:356-361). -/
def Result.valueOr (r : Result T) (d : T) : Except Exn T := if r.isError then .ok d else r.getVal
/-- `map` (error_handling.hpp:387-393); the callable may throw. -/
def Result.map (r : Result T) (f : T → Except Exn U) : Except Exn (Result U) :=
  if r.isSuccess then (match r.value with
    | .ok v => (match f v with
      | .ok u => .ok (.val u)
      | .error x => .error x)
    | .error x => .error x)
  else (match r.error with
    | .ok e => .ok (.err e)
    | .error x => .error x)
/-- `flatMap` (error_handling.hpp:406-412). -/
def Result.flatMap (r : Result T) (f : T → Except Exn (Result U)) : Except Exn (Result U) :=
  if r.isSuccess then (match r.value with
    | .ok v => f v
    | .error x => .error x)
  else (match r.error with
    | .ok e => .ok (.err e)
    | .error x => .error x)

/-- `Result<void>` (error_handling.hpp:473-567). -/
structure VoidResult where
  success : Bool
  err : Option ErrorInfo
/-- Default constructor (error_handling.hpp:480). -/
def VoidResult.ok : VoidResult := ⟨true, none⟩
/-- Constructor from an error (error_handling.hpp:489). -/
def VoidResult.ofError (e : ErrorInfo) : VoidResult := ⟨false, some e⟩
/-- `isSuccess` (error_handling.hpp:496-498). -/
def VoidResult.isSuccess (r : VoidResult) : Bool := r.success
/-- `isError` (error_handling.hpp:505-507). -/
def VoidResult.isError (r : VoidResult) : Bool := !r.success
/-- `error()` (error_handling.hpp:515-520); the inner `none` would be the dereference of an empty optional. -/
def VoidResult.error (r : VoidResult) : Except Exn (Option ErrorInfo) := if !r.isError then .error .logic else .ok r.err

/-! ### The static `ErrorHandler` (error_handling.hpp:635-717) -/

/-- Static members (error_handling.hpp:637-638); the logger is present or not, `out` collects what it was given. -/
structure Handler where
  logger : Bool
  level : Severity
  out : List ErrorInfo

/-- `logError` (error_handling.hpp:666-670). -/
def Handler.logError (h : Handler) (e : ErrorInfo) : Handler :=
  if decide (e.severity ≥ h.level) && h.logger then { h with out := h.out ++ [e] } else h
/-- `handleError` (error_handling.hpp:681-692): new state, and the exception thrown if any. -/
def Handler.handleError (h : Handler) (e : ErrorInfo) (throwOn : Severity) : Handler × Option Exn :=
  (h.logError e, if e.severity ≥ throwOn then some (.framework e) else none)
/-- `handleErrorResult` (error_handling.hpp:706-716). -/
def Handler.handleErrorResult (h : Handler) (r : Result T) (throwOn : Severity) : Handler × Except Exn Bool :=
  if r.isError then (match r.error with
    | .ok e => (match h.handleError e throwOn with
      | (h', some x) => (h', .error x)
      | (h', none) => (h', .ok false))
    | .error x => (h, .error x))
  else (h, .ok true)

/-! ### The callback registry (error_handling.hpp:746-899) -/

/-- `callbacks_` (error_handling.hpp:897): a slot is emptied by unregistering.  A callback is represented by a name; `log`
is the sequence of (callback, error) invocations. -/
structure Registry where
  callbacks : List (Option Nat)
  calls : List (Nat × ErrorInfo)

/-- The singleton after construction (error_handling.hpp:867-881): the console logger, named 0, is registered. -/
def Registry.init : Registry := ⟨[some 0], []⟩
/-- `registerCallback` (error_handling.hpp:773-777); `none` is an empty `std::function`. -/
def Registry.register (r : Registry) (c : Option Nat) : Registry × Int :=
  ({ r with callbacks := r.callbacks ++ [c] }, ((r.callbacks ++ [c]).length - 1 : Nat))
/-- `unregisterCallback` (error_handling.hpp:785-792). -/
def Registry.unregister (r : Registry) (id : Int) : Registry × Bool :=
  if decide (id ≥ 0) && decide (id < r.callbacks.length) then ({ r with callbacks := r.callbacks.set id.toNat none }, true)
  else (r, false)
/-- Body of the loop of `logErrorImpl` (error_handling.hpp:887-889). -/
def callOne (e : ErrorInfo) (l : List (Nat × ErrorInfo)) : Option Nat → List (Nat × ErrorInfo)
  | some c => l ++ [(c, e)]
  | none => l
/-- `logError` (error_handling.hpp:763-765, 884-891). -/
def Registry.logError (r : Registry) (e : ErrorInfo) : Registry :=
  { r with calls := r.callbacks.foldl (callOne e) r.calls }

/-- API calls. -/
inductive Op where
  | register (c : Nat)
  | unregister (id : Int)
  | log (e : ErrorInfo)

/-- One call. -/
def Registry.apply (r : Registry) : Op → Registry
  | .register c => (r.register (some c)).1
  | .unregister id => (r.unregister id).1
  | .log e => r.logError e

/-- A history. -/
def Registry.run (r : Registry) (ops : List Op) : Registry := ops.foldl Registry.apply r

end Verif.ErrorHandling
