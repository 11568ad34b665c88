import Verif.Model.Loop
import Mathlib.Data.Rat.Defs
import Mathlib.Algebra.Order.Ring.Rat
import Mathlib.Analysis.SpecialFunctions.Exp
/-!
Model of `power::PowerAwareProtection` (/repo/include/rad_ml/power/power_aware_protection.hpp).

Simplifications: `double` arithmetic is exact (ℚ); a value that is infinite or not a number is `none`.  The identifier counter does not
overflow.  `std::sort` is a parameter: a function from the criticalities to an order of the positions (the comparator reads nothing else).
The report string is not modelled.
-/
namespace Verif.Power

/-- `PowerState` (power_aware_protection.hpp:22-28). -/
inductive PState where
  | emergency | low | nominal | science | peak
  deriving DecidableEq, Repr

/-- `ProtectedComponent` (power_aware_protection.hpp:33-50); the type only appears in the report. -/
structure Comp where
  name : String := ""
  lo : ℚ
  hi : ℚ
  cur : ℚ
  pLo : ℚ
  pHi : ℚ
  crit : ℚ
  deriving DecidableEq, Repr

/-- `get_current_power` (power_aware_protection.hpp:53-60). -/
def Comp.power (c : Comp) : Option ℚ :=
  if c.hi - c.lo = 0 then none
  else some (c.pLo + (c.cur - c.lo) / (c.hi - c.lo) * (c.pHi - c.pLo))

/-- A sum of powers in which one that is not a number makes the sum not a number (power_aware_protection.hpp:207-215, 374-379). -/
def total (l : List Comp) : Option ℚ :=
  l.foldl (fun s c => s.bind fun s => c.power.map fun p => s + p) (some 0)

/-- The first pass: all components at their minimum (power_aware_protection.hpp:377). -/
def Comp.toMin (c : Comp) : Comp := { c with cur := c.lo }

/-- Emergency levels (power_aware_protection.hpp:383-394). -/
def Comp.emergency (c : Comp) : Comp := if c.crit > 7 / 10 then { c with cur := c.lo } else { c with cur := c.lo * (1 / 2) }

/-- `protection_step` (power_aware_protection.hpp:417, 452). -/
def Comp.stepSize (c : Comp) : ℚ := (c.hi - c.lo) / 100

/-- The component after one more step (power_aware_protection.hpp:418, 454-456). -/
def Comp.next (c : Comp) : Comp := { c with cur := min (c.cur + c.stepSize) c.hi }

/-- `additional_power` (power_aware_protection.hpp:421-428, 459-465). -/
def Comp.extra (c : Comp) : Option ℚ := c.next.power.bind fun new => c.power.map fun old => new - old

/-- A benefit ratio: finite or +∞ (division by zero). -/
inductive Ratio where
  | fin (q : ℚ)
  | inf
  deriving DecidableEq, Repr

/-- `>` on ratios. -/
def Ratio.gt : Ratio → Ratio → Bool
  | .fin a, .fin b => decide (a > b)
  | .inf, .fin _ => true
  | _, .inf => false

/-- `benefit_ratio` (power_aware_protection.hpp:435-437); `none`: NaN or -∞, which is greater than nothing. -/
def benefit (num den : ℚ) : Option Ratio :=
  if den ≠ 0 then some (.fin (num / den)) else if num > 0 then some .inf else none

/-- One iteration of the search for the best component (power_aware_protection.hpp:408-443). -/
def consider (l : List Comp) (remaining : ℚ) (best : Option Nat × Ratio) (i : Nat) : Option Nat × Ratio :=
  match l[i]? with
  | none => best
  | some c =>
    if c.cur ≥ c.hi then best
    else match c.extra with
      | none => best
      | some a =>
        if a > remaining then best
        else match benefit (c.stepSize * c.crit) a with
          | none => best
          | some r => if r.gt best.2 then (some i, r) else best

/-- `best_component_idx` (power_aware_protection.hpp:404-443). -/
def pick (order : List Nat) (l : List Comp) (remaining : ℚ) : Option Nat :=
  (order.foldl (consider l remaining) (none, .fin 0)).1

/-- The loop of the second pass (power_aware_protection.hpp:403-466) with `n` steps left: the components and the remaining power. -/
def upgrade (order : List Nat) : Nat → List Comp → ℚ → List Comp × ℚ
  | 0, l, r => (l, r)
  | n + 1, l, r =>
    if r > 0 then
      match pick order l r with
      | none => (l, r)
      | some i =>
        match l[i]? with
        | none => (l, r)
        | some c => upgrade order n (l.set i c.next) (r - c.extra.getD 0)
    else (l, r)

/-- `rebalance_protection_levels` (power_aware_protection.hpp:359-467). -/
def rebalance (order : List Nat) (l : List Comp) (avail : ℚ) : List Comp :=
  let l := l.map Comp.toMin
  match total l with
  | none => l
  | some u => if u > avail then l.map Comp.emergency else (upgrade order 100 l (avail - u)).1

/-- The members (power_aware_protection.hpp:337-350); the map is a list in the order of the keys. -/
structure Mgr where
  watts : ℚ
  state : PState
  comps : List (Nat × Comp)
  next : Nat

/-- The share of the budget of a power state (power_aware_protection.hpp:97-101). -/
def fraction : PState → ℚ
  | .emergency => 2 / 10
  | .low => 4 / 10
  | .nominal => 7 / 10
  | .science => 9 / 10
  | .peak => 1

/-- Constructor (power_aware_protection.hpp:91-102). -/
def Mgr.new (watts : ℚ) (st : PState := .nominal) : Mgr := ⟨watts, st, [], 0⟩

/-- `get_current_power_budget` (power_aware_protection.hpp:222-224). -/
def Mgr.budget (m : Mgr) : ℚ := m.watts * fraction m.state

/-- The components without their identifiers. -/
def Mgr.list (m : Mgr) : List Comp := m.comps.map (·.2)

/-- Rebalancing within the manager. -/
def Mgr.balance (srt : List ℚ → List Nat) (m : Mgr) : Mgr :=
  { m with comps := (m.comps.map (·.1)).zip (rebalance (srt (m.list.map (·.crit))) m.list m.budget) }

/-- `register_component` (power_aware_protection.hpp:110-121); a new key is the largest. -/
def Mgr.register (srt : List ℚ → List Nat) (m : Mgr) (c : Comp) : Nat × Mgr :=
  (m.next, { m with next := m.next + 1, comps := m.comps ++ [(m.next, c.toMin)] }.balance srt)

/-- Does a component with this identifier exist? -/
def Mgr.has (m : Mgr) (id : Nat) : Bool := (m.comps.find? (·.1 = id)).isSome

/-- `update_component` (power_aware_protection.hpp:130-142). -/
def Mgr.update (srt : List ℚ → List Nat) (m : Mgr) (id : Nat) (c : Comp) : Bool × Mgr :=
  if m.has id then (true, { m with comps := m.comps.map fun (p : Nat × Comp) => if p.1 = id then (id, c) else p }.balance srt) else (false, m)

/-- `remove_component` (power_aware_protection.hpp:150-162). -/
def Mgr.remove (srt : List ℚ → List Nat) (m : Mgr) (id : Nat) : Bool × Mgr :=
  if m.has id then (true, { m with comps := m.comps.filter fun (p : Nat × Comp) => p.1 ≠ id }.balance srt) else (false, m)

/-- `set_power_state` (power_aware_protection.hpp:169-176). -/
def Mgr.setState (srt : List ℚ → List Nat) (m : Mgr) (s : PState) : Mgr :=
  if m.state ≠ s then { m with state := s }.balance srt else m

/-- `get_protection_level` (power_aware_protection.hpp:193-200). -/
def Mgr.level (m : Mgr) (id : Nat) : Option ℚ := (m.comps.find? (·.1 = id)).map (·.2.cur)

/-- `get_current_power_usage` (power_aware_protection.hpp:207-215). -/
def Mgr.usage (m : Mgr) : Option ℚ := total m.list

/-- `normalized_protection` (power_aware_protection.hpp:276-278). -/
def Comp.norm (c : Comp) : Option ℚ := if c.hi - c.lo = 0 then none else some ((c.cur - c.lo) / (c.hi - c.lo))

/-- `calculate_protection_effectiveness` (power_aware_protection.hpp:263-285). -/
def Mgr.effectiveness (m : Mgr) : Option ℚ :=
  if m.list = [] then some 0
  else
    let r := m.list.foldl (fun (s : Option ℚ × ℚ) c => (s.1.bind fun a => c.norm.map fun n => a + n * c.crit, s.2 + c.crit)) (some 0, 0)
    if r.2 > 0 then r.1.map fun a => a / r.2 else some 0

/-- `calculate_expected_error_rate` (power_aware_protection.hpp:294-334). -/
noncomputable def Mgr.errorRate (m : Mgr) : ℝ :=
  m.list.foldl (fun s c => s + (1 / 10 ^ 6 + 1 / 10 ^ 7 + 5 / 10 ^ 8) * (9 / 10 * Real.exp (-5 * (c.cur : ℝ))) * (8 * 1024 * 1024)) 0

/-- Calls that change the manager. -/
inductive Op where
  | register (c : Comp)
  | update (id : Nat) (c : Comp)
  | remove (id : Nat)
  | setState (s : PState)

/-- One call. -/
def Mgr.step (srt : List ℚ → List Nat) (m : Mgr) : Op → Mgr
  | .register c => (m.register srt c).2
  | .update id c => (m.update srt id c).2
  | .remove id => (m.remove srt id).2
  | .setState s => m.setState srt s

/-- A history. -/
def Mgr.run (srt : List ℚ → List Nat) (m : Mgr) (ops : List Op) : Mgr := ops.foldl (Mgr.step srt) m

end Verif.Power
