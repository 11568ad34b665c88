import Mathlib.Algebra.Order.Field.Rat
/-!
Model of `rad_ml::core::radiation::AdaptiveProtection` (/repo/include/rad_ml/core/radiation/adaptive_protection.hpp).

Times are integers in nanoseconds of the system clock (which may go backwards).  The flux is an exact rational instead of
a `double`.  Counts are `uint32_t`.  A listener is represented by its handle and does not call back into the object.
-/
namespace Verif.AdaptiveProt

/-- `ProtectionLevel` by enumerator value: MINIMAL 0, STANDARD 1, ENHANCED 2, MAXIMUM 3 (adaptive_protection.hpp:27-32). -/
abbrev Level := Fin 4

/-- `ProtectionConfig` (adaptive_protection.hpp:43-48). -/
structure Config where
  redundancy : UInt32
  scrubMs : UInt32
  temporal : Bool
  checkpoint : Bool

/-- `protection_configs_` (adaptive_protection.hpp:202-214). -/
def configs : Level → Config
  | 0 => ⟨1, 5000, false, false⟩
  | 1 => ⟨2, 1000, false, true⟩
  | 2 => ⟨3, 500, true, true⟩
  | 3 => ⟨3, 100, true, true⟩

/-- The members (adaptive_protection.hpp:222-230); `log` records notifications.  `unordered_map` iterates in an unspecified
order; the list order stands for it. -/
structure State where
  level : Level
  flux : ℚ
  flips : UInt32
  comps : UInt32
  last : Int
  listeners : List Nat
  next : Nat
  log : List (Nat × Level)

/-- Constructor (adaptive_protection.hpp:58-65). -/
def init (level : Level) (now : Int) : State := ⟨level, 0, 0, 0, now, [], 0, []⟩

/-- `notifyLevelChange` (adaptive_protection.hpp:260-267). -/
def notify (s : State) : State := { s with log := s.log ++ s.listeners.map (fun i => (i, s.level)) }

/-- `adjustProtectionLevel` (adaptive_protection.hpp:235-255). -/
def adjust (s : State) : State :=
  let rec_ : Level := if s.flux ≥ 1 then 3 else if s.flux ≥ 1 / 10 then 2 else if s.flux ≥ 1 / 100 then 1 else 0
  if rec_ ≠ s.level then notify { s with level := rec_ } else s

/-- `updateEnvironment` at system time `now` (adaptive_protection.hpp:73-98).  `duration_cast` to seconds truncates; the sum
of the two counts is computed in `uint32_t`. -/
def update (s : State) (flips comps : UInt32) (now : Int) : State :=
  let elapsed := (now - s.last).tdiv 1000000000
  if elapsed > 0 then
    let rate : ℚ := ((flips + comps).toNat : ℚ) / (elapsed : ℚ)
    adjust { s with flux := 3 / 10 * rate + (1 - 3 / 10) * s.flux, flips := flips, comps := comps, last := now }
  else s

/-- `temporarilyIncreaseLevel` (adaptive_protection.hpp:132-153): the duration is only printed. -/
def increase (s : State) (_durationMs : UInt32) : State :=
  if s.level ≠ 3 then notify { s with level := s.level + 1 } else s

/-- `setInitialLevel` (adaptive_protection.hpp:160-167). -/
def setInitial (s : State) (l : Level) : State := if s.level ≠ l then notify { s with level := l } else s

/-- `registerLevelChangeCallback` (adaptive_protection.hpp:175-181). -/
def register (s : State) : State × Nat := ({ s with next := s.next + 1, listeners := s.listeners ++ [s.next] }, s.next)

/-- `unregisterLevelChangeCallback` (adaptive_protection.hpp:189-198). -/
def unregister (s : State) (i : Nat) : State × Bool :=
  if i ∈ s.listeners then ({ s with listeners := s.listeners.filter (fun j => j ≠ i) }, true) else (s, false)

/-- `getConfiguration` (adaptive_protection.hpp:123-125). -/
def getConfiguration (s : State) : Config := configs s.level

/-- API calls. -/
inductive Op where
  | update (flips comps : UInt32) (now : Int)
  | increase (ms : UInt32)
  | setInitial (l : Level)
  | register
  | unregister (i : Nat)

/-- One call. -/
def apply (s : State) : Op → State
  | .update f c now => update s f c now
  | .increase ms => increase s ms
  | .setInitial l => setInitial s l
  | .register => (register s).1
  | .unregister i => (unregister s i).1

/-- A history. -/
def run (s : State) (ops : List Op) : State := ops.foldl apply s

end Verif.AdaptiveProt
