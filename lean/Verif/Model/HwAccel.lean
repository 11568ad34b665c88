import Verif.Model.Loop
import Mathlib.Analysis.SpecialFunctions.Exp
/-!
Model of `hw::HardwareAccelerator`, its factory and `hw::TMRAcceleratorIntegration` (/repo/include/rad_ml/hw/hardware_acceleration.hpp).

Simplifications: diagnostics strings and statistics are not modelled; the reliability figures are real numbers.  An accelerator is a function from the number of the call, the
input and the buffer to its result (`execute` is virtual), so the voting code is modelled for every accelerator; `baseExecute` is what the class in the repository does.
-/
namespace Verif.HwAccel

/-- `AcceleratorType` (hardware_acceleration.hpp:19-26). -/
inductive AType where
  | none | cpu | gpu | fpga | asic | hybrid
  deriving DecidableEq, Repr

/-- `ScrubbingStrategy` (hardware_acceleration.hpp:33-39). -/
inductive Scrub where
  | none | periodic | continuous | triggered | adaptive
  deriving DecidableEq, Repr

/-- `HardwareTMRApproach` (hardware_acceleration.hpp:44-49). -/
inductive HwTmr where
  | none | block | register | complete
  deriving DecidableEq, Repr

/-- `AcceleratorConfig` (hardware_acceleration.hpp:54-72), the fields that are read. -/
structure Config where
  type : AType := .none
  ecc : Bool := true
  tmr : HwTmr := .none
  scrub : Scrub := .periodic
  deriving DecidableEq, Repr

/-- `is_available` / `initialize` of the base class (hardware_acceleration.hpp:142-155). -/
def Config.available (c : Config) : Bool := c.type ≠ .none

/-- An accelerator: call number, input, buffer ↦ success, buffer. -/
abbrev Accel (F : Type) := Nat → List F → List F → Bool × List F

/-- `HardwareAccelerator::execute` (hardware_acceleration.hpp:164-168). -/
def baseExecute {F : Type} : Accel F := fun _ _ buf => (false, buf)

/-- `detect_available_accelerators` (hardware_acceleration.hpp:375-388). -/
def detected : AType → Bool
  | .none => true
  | _ => false

/-- `create_best_available` (hardware_acceleration.hpp:417-446): the configuration of the accelerator created. -/
def createBest (c : Config) : Config :=
  if detected .asic then { c with type := .asic }
  else if detected .gpu then { c with type := .gpu }
  else if detected .fpga then { c with type := .fpga }
  else if detected .cpu then { c with type := .cpu }
  else if detected .hybrid then { c with type := .hybrid }
  else { c with type := .none }

/-- `TMRAcceleratorIntegration` (hardware_acceleration.hpp:459-609): the accelerator's configuration and the flag. -/
structure Integ where
  config : Config
  sw : Bool
  deriving DecidableEq, Repr

/-- Constructor (hardware_acceleration.hpp:466-469). -/
def Integ.new (c : Config) : Integ := ⟨createBest c, true⟩

/-- `initialize` (hardware_acceleration.hpp:476-489). -/
def Integ.initialize (g : Integ) : Bool × Integ := (g.config.available, if g.config.tmr = .complete then { g with sw := false } else g)

/-- The vote on one element (hardware_acceleration.hpp:522-529). -/
def vote {F : Type} (eq : F → F → Bool) (avg : F → F → F → F) (a b c : F) : F :=
  if eq a b || eq a c then a else if eq b c then b else avg a b c

/-- The voting loop (hardware_acceleration.hpp:521-530) from element `j` on; an output shorter than the buffer is read out of bounds. -/
def voteAll {F : Type} (eq : F → F → Bool) (avg : F → F → F → F) (o0 o1 o2 : List F) (n : Nat) : Outcome (List F) :=
  forN n (fun j acc => acc.bind fun l => match o0[j]?, o1[j]?, o2[j]? with
    | some a, some b, some c => .ok (l ++ [vote eq avg a b c])
    | _, _, _ => .ub) (.ok [])

/-- `execute` (hardware_acceleration.hpp:498-533). -/
def Integ.execute {F : Type} (eq : F → F → Bool) (avg : F → F → F → F) (zero : F) (acc : Accel F) (g : Integ) (input buf : List F) : Outcome (Bool × List F) :=
  if !g.sw then .ok (acc 0 input buf)
  else
    let fresh := List.replicate buf.length zero
    let r0 := acc 0 input fresh
    let r1 := acc 1 input fresh
    let r2 := acc 2 input fresh
    if !(r0.1 && r1.1 && r2.1) then .ok (false, buf)
    else (voteAll eq avg r0.2 r1.2 r2.2 buf.length).bind fun out => .ok (true, out)

/-- Reliability of a type (hardware_acceleration.hpp:264-283). -/
noncomputable def AType.r : AType → ℝ
  | .cpu => 95 / 100
  | .gpu => 92 / 100
  | .fpga => 90 / 100
  | .asic => 98 / 100
  | .hybrid => 93 / 100
  | .none => 85 / 100

/-- Gain by hardware TMR (hardware_acceleration.hpp:291-303). -/
noncomputable def HwTmr.r : HwTmr → ℝ
  | .complete => 5 / 100
  | .register => 4 / 100
  | .block => 2 / 100
  | .none => 0

/-- Gain by scrubbing (hardware_acceleration.hpp:307-322). -/
noncomputable def Scrub.r : Scrub → ℝ
  | .continuous => 3 / 100
  | .periodic => 2 / 100
  | .triggered => 1 / 100
  | .adaptive => 4 / 100
  | .none => 0

/-- `base_reliability` before the environment (hardware_acceleration.hpp:262-323). -/
noncomputable def Config.base (c : Config) : ℝ :=
  c.type.r + (if c.ecc then 3 / 100 else 0) + c.tmr.r + (if c.type = .fpga then c.scrub.r else 0)

/-- `calculate_reliability` (hardware_acceleration.hpp:259-336). -/
noncomputable def Config.reliability (c : Config) (rate : ℝ) : ℝ := min (999 / 1000) (c.base * Real.exp (-10 * rate))

/-- `calculate_system_reliability` (hardware_acceleration.hpp:585-601). -/
noncomputable def Integ.reliability (g : Integ) (rate : ℝ) : ℝ :=
  let p := g.config.reliability rate
  if g.sw then 3 * p * p * (1 - p) + p * p * p else p

end Verif.HwAccel
