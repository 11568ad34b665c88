import Mathlib.Analysis.SpecialFunctions.Exp
import Mathlib.Data.List.Infix
/-!
Model of `testing::RadiationSimulator` (/repo/include/rad_ml/testing/radiation_simulator.hpp).

Doubles are real numbers.  What the random engine will deliver is given as two streams: the numbers of events drawn from the Poisson distribution, and for every event the numbers its distributions will deliver.
A distribution over the integers 0..n-1 delivers a number of the stream modulo n, so every value of the range occurs.
Descriptions of events and of the environment (texts) are left out.  Not modelled: src/testing/radiation_simulator.cpp, which no build target contains and which defines a different, unused class.
-/
namespace Verif.RadSimulator

/-- Result of a call: a value, undefined behaviour, or no return. -/
inductive R (α : Type) where
  | ok (a : α)
  | ub
  | diverge

/-- Sequencing. -/
def R.bind {α β : Type} : R α → (α → R β) → R β
  | .ok a, f => f a
  | .ub, _ => .ub
  | .diverge, _ => .diverge

/-- `EnvironmentParams` (radiation_simulator.hpp:27-34). -/
structure Params where
  altitude : ℝ
  inclination : ℝ
  solar : ℝ
  saa : Bool
  shield : ℝ
  name : String

/-- `getMissionEnvironment` (radiation_simulator.hpp:78-149). -/
noncomputable def missionEnv (m : String) : Params :=
  if m = "LEO" ∨ m = "LEO_EARTH_OBSERVATION" then ⟨500, 45, 3, false, 5, "Low Earth Orbit"⟩
  else if m = "ISS" then ⟨420, 258 / 5, 3, false, 10, "International Space Station"⟩
  else if m = "GEO" ∨ m = "GEOSTATIONARY" then ⟨35786, 0, 3, false, 5, "Geostationary Orbit"⟩
  else if m = "LUNAR" ∨ m = "MOON" then ⟨384400, 0, 3, false, 3, "Lunar Mission"⟩
  else if m = "MARS" then ⟨0, 0, 3, false, 3, "Mars Mission"⟩
  else if m = "JUPITER" then ⟨0, 0, 3, false, 20, "Jupiter Mission"⟩
  else ⟨500, 45, 3, false, 5, "Generic Space Mission"⟩

/-- `std::string::find(...) != npos` (radiation_simulator.hpp:268-281). -/
def has (name sub : String) : Bool := decide (sub.toList <:+: name.toList)

/-- The factor of the altitude (radiation_simulator.hpp:288-296). -/
noncomputable def altFactor (a : ℝ) : ℝ := if a ≤ 1000 then 1 + a / 1000 else if a ≤ 36000 then 2 + a / 10000 else 5

/-- The rate of the place (radiation_simulator.hpp:265-301). -/
noncomputable def place (p : Params) : ℝ :=
  if has p.name "Mars" then 2 / 1000
  else if has p.name "Lunar" || has p.name "Moon" then 3 / 1000
  else if has p.name "Jupiter" then 1 / 100
  else 1 / 1000 * altFactor p.altitude * (1 + p.inclination / 90)

/-- `calculateBaseRate` (radiation_simulator.hpp:263-317). -/
noncomputable def baseRate (p : Params) : ℝ := place p * (1 + p.solar / 5) * (if p.saa then 10 else 1) * Real.exp (-p.shield / 10)

/-- `EventRates` (radiation_simulator.hpp:53-59). -/
structure Rates where
  flip : ℝ
  multi : ℝ
  latch : ℝ
  transient : ℝ
  total : ℝ

/-- `updateRates` (radiation_simulator.hpp:242-256). -/
noncomputable def rates (p : Params) : Rates :=
  let b := baseRate p
  ⟨b * (4 / 5), b * (3 / 20), b * (3 / 100), b * (1 / 50), b * (4 / 5) + b * (3 / 20) + b * (3 / 100) + b * (1 / 50)⟩

/-- `RadiationEffectType` (radiation_simulator.hpp:37-42). -/
inductive Kind where
  | flip | multi | latch | transient
  deriving DecidableEq

/-- `RadiationEvent` without its text (radiation_simulator.hpp:45-50). -/
structure Event where
  kind : Kind
  offset : ℕ
  bits : ℕ
  deriving DecidableEq

/-- What the distributions deliver for one event: a number in [0,1), a place, and two more numbers. -/
structure Draw where
  u : ℝ
  loc : ℕ
  a : ℕ
  b : ℕ

/-- What the engine will deliver; a Poisson number depends on the mean asked for. -/
structure Src where
  counts : ℕ → ℝ → ℕ
  draws : ℕ → Draw

/-- After one Poisson number. -/
def Src.count (s : Src) : Src := { s with counts := fun i => s.counts (i + 1) }
/-- After one event. -/
def Src.draw (s : Src) : Src := { s with draws := fun i => s.draws (i + 1) }

/-- A byte. -/
abbrev Byte := BitVec 8

/-- The mask of adjacent bits (radiation_simulator.hpp:387-390). -/
def mask (start : ℕ) : ℕ → Byte
  | 0 => 0#8
  | n + 1 => mask start n ||| 1#8 <<< (start + n)

/-- The kind of an event (radiation_simulator.hpp:342-358). -/
noncomputable def kindOf (r : Rates) (u : ℝ) : Kind :=
  let v := u * r.total
  if v < r.flip then .flip else if v < r.flip + r.multi then .multi else if v < r.flip + r.multi + r.latch then .latch else .transient

/-- The effect on a byte and the number of bits reported (radiation_simulator.hpp:367-448). -/
def hit (k : Kind) (d : Draw) (x : Byte) : Byte × ℕ := match k with
  | .flip => (x ^^^ 1#8 <<< (d.a % 8), 1)
  | .multi =>
    let n := 2 + d.a % 2
    (x ^^^ mask (d.b % (8 - n + 1)) n, n)
  | .latch => (if d.b % 2 = 0 then x &&& ~~~(1#8 <<< (d.a % 8)) else x ||| 1#8 <<< (d.a % 8), 1)
  | .transient => (BitVec.ofNat 8 (d.a % 256), 8)

/-- `generateRandomEvent` (radiation_simulator.hpp:338-452): with an empty region the place is drawn from all of `size_t` and the byte written is outside it. -/
noncomputable def generate (r : Rates) (mem : List Byte) (d : Draw) : R (Event × List Byte) :=
  if r.total < 0 then .ub
  else match mem[d.loc % mem.length]? with
    | none => .ub
    | some x =>
      let h := hit (kindOf r d.u) d x
      .ok (⟨kindOf r d.u, d.loc % mem.length, h.2⟩, mem.set (d.loc % mem.length) h.1)

/-- The loop of `simulateEffects` (radiation_simulator.hpp:171-174). -/
noncomputable def generateAll (r : Rates) : ℕ → List Byte → Src → R (List Event × List Byte × Src)
  | 0, mem, s => .ok ([], mem, s)
  | n + 1, mem, s => (generate r mem (s.draws 0)).bind fun e => (generateAll r n e.2 s.draw).bind fun q => .ok (e.1 :: q.1, q.2.1, q.2.2)

/-- `simulateEffects` (radiation_simulator.hpp:159-177, 325-328): `std::poisson_distribution` requires a positive mean. -/
noncomputable def effects (p : Params) (mem : List Byte) (ms : ℤ) (s : Src) : R (List Event × List Byte × Src) :=
  if (rates p).total * (ms / 1000) ≤ 0 then .ub else generateAll (rates p) (s.counts 0 ((rates p).total * (ms / 1000))) mem s.count

end Verif.RadSimulator
