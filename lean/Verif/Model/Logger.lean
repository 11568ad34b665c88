/-!
Model of `core::Logger` (/repo/include/rad_ml/core/logger.hpp), used from one thread at a time.

Simplifications: time stamps and level names are left out of the lines; whether a file can be opened is a parameter (`canOpen`), writes to an open file succeed.
The threshold is read without the lock (logger.hpp:115), so `init` concurrent with logging is a data race; that is not modelled.
-/
namespace Verif.Logger

/-- `LogLevel` (logger.hpp:25-31) in its order. -/
inductive Level where
  | debug | info | warning | error | critical
  deriving DecidableEq, Repr

/-- The number of a level. -/
def Level.num : Level → Nat
  | .debug => 0
  | .info => 1
  | .warning => 2
  | .error => 3
  | .critical => 4

/-- One line. -/
abbrev Line := Level × String

/-- The static members (logger.hpp:155-159), and what has been written. -/
structure St where
  level : Level := .info
  toFile : Bool := false
  path : String := "rad_ml.log"
  stream : Option String := none
  console : List Line := []
  files : String → List Line := fun _ => []

/-- `init` (logger.hpp:46-55). -/
def St.init (canOpen : String → Bool) (s : St) (level : Level) (toFile : Bool) (path : String) : St :=
  let s := { s with level := level, toFile := toFile, path := path }
  if s.toFile && s.stream.isNone then { s with stream := if canOpen s.path then some s.path else none } else s

/-- `log` (logger.hpp:114-133). -/
def St.log (s : St) (level : Level) (message : String) : St :=
  if level.num < s.level.num then s
  else
    let s := { s with console := s.console ++ [(level, message)] }
    match s.stream with
    | some p => if s.toFile then { s with files := fun q => if q = p then s.files p ++ [(level, message)] else s.files q } else s
    | none => s

/-- `close` (logger.hpp:100-105). -/
def St.close (s : St) : St := { s with stream := none }

/-- Calls; `debug`, `info`, … are `log` with their level (logger.hpp:62-97). -/
inductive Op where
  | init (level : Level) (toFile : Bool) (path : String)
  | log (level : Level) (message : String)
  | close
  deriving DecidableEq, Repr

/-- One call. -/
def St.step (canOpen : String → Bool) (s : St) : Op → St
  | .init l f p => s.init canOpen l f p
  | .log l m => s.log l m
  | .close => s.close

/-- A history. -/
def St.run (canOpen : String → Bool) (s : St) (ops : List Op) : St := ops.foldl (St.step canOpen) s

end Verif.Logger
