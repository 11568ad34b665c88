import Verif.Model.Loop
import Mathlib.Data.Real.Basic
import Mathlib.Data.List.Basic
import Mathlib.Tactic.Linarith
/-!
Model of `radiation::Environment` and `radiation::SpaceMission` (/repo/include/rad_ml/radiation/environment.hpp, /repo/include/rad_ml/radiation/space_mission.hpp).

Fluxes and other floating point numbers are reals.  A `shared_ptr<Environment>` is `none` (null) or an address in a list of environments; the environments made for a mission stay at their addresses.
Durations are seconds in 64 bits; overflow of their sum is undefined.
-/
namespace Verif.SpaceMission

/-- `EnvironmentType` (environment.hpp:15-26). -/
inductive EnvType where
  | groundLevel | avionic | leo | meo | geo | lunar | mars | jupiter | solarFlare | custom
  deriving DecidableEq

/-- `Environment` (environment.hpp:31, 204-209): type, name, flux, cross-section, custom properties (latest first). -/
structure Env where
  type : EnvType
  name : String
  flux : ℝ
  cross : ℝ
  props : List (String × ℝ)

/-- Constructor (environment.hpp:39-42, 205-209). -/
noncomputable def Env.new (type : EnvType := .groundLevel) (name : String := "Ground Level") : Env := ⟨type, name, 0, 1 / 10 ^ 14, []⟩

/-- `setSEUFlux` (environment.hpp:72-74). -/
def Env.setFlux (e : Env) (x : ℝ) : Env := { e with flux := x }
/-- `setSEUCrossSection` (environment.hpp:90-92). -/
def Env.setCross (e : Env) (x : ℝ) : Env := { e with cross := x }
/-- `setProperty` (environment.hpp:109-111). -/
def Env.setProp (e : Env) (k : String) (x : ℝ) : Env := { e with props := (k, x) :: e.props.filter fun p => p.1 ≠ k }
/-- `getProperty` (environment.hpp:120-126). -/
def Env.getProp (e : Env) (k : String) (d : ℝ := 0) : ℝ := match e.props.find? fun p => p.1 = k with
  | some p => p.2
  | none => d

/-- Names in `createEnvironment` (environment.hpp:138-199). -/
def stdName : EnvType → String
  | .groundLevel => "Ground Level"
  | .avionic => "Avionic (35,000 ft)"
  | .leo => "Low Earth Orbit"
  | .meo => "Medium Earth Orbit"
  | .geo => "Geostationary Orbit"
  | .lunar => "Lunar Surface"
  | .mars => "Mars Surface"
  | .jupiter => "Jupiter Orbit"
  | .solarFlare => "Solar Flare"
  | .custom => "Custom Environment"

/-- Fluxes in `createEnvironment` (environment.hpp:138-199). -/
noncomputable def stdFlux : EnvType → ℝ
  | .groundLevel => 1 / 10 ^ 14
  | .avionic => 1 / 10 ^ 10
  | .leo => 1 / 10 ^ 7
  | .meo => 5 / 10 ^ 7
  | .geo => 1 / 10 ^ 6
  | .lunar => 2 / 10 ^ 7
  | .mars => 1 / 10 ^ 7
  | .jupiter => 5 / 10 ^ 6
  | .solarFlare => 1 / 10 ^ 5
  | .custom => 0

/-- `createEnvironment` (environment.hpp:134-202). -/
noncomputable def create (t : EnvType) : Env := ⟨t, stdName t, stdFlux t, 1 / 10 ^ 14, []⟩

/-! ### Missions -/

/-- `MissionPhaseType` (space_mission.hpp:19-29). -/
inductive PhaseType where
  | launch | earthOrbit | transfer | planetaryOrbit | planetarySurface | solar | asteroid | return | reentry
  deriving DecidableEq

/-- `MissionTarget` (space_mission.hpp:34-48). -/
inductive Target where
  | leo | meo | geo | moon | mars | venus | mercury | jupiter | saturn | asteroidBelt | kuiperBelt | solarPolar | solarProbe
  deriving DecidableEq

/-- `MissionPhase` (space_mission.hpp:53-78). -/
structure Phase where
  name : String
  type : PhaseType
  env : Option ℕ
  duration : ℤ
  au : ℝ
  shield : ℝ

/-- `SpaceMission` (space_mission.hpp:83-96, 251-254) with the environments it points to. -/
structure Mission where
  name : String
  target : Target
  phases : List Phase
  heap : List Env

/-- `addPhase` (space_mission.hpp:122-125). -/
def Mission.addPhase (m : Mission) (p : Phase) : Mission := { m with phases := m.phases ++ [p] }

/-- Changing an environment through a pointer to it. -/
def Mission.write (m : Mission) (a : ℕ) (f : Env → Env) : Mission := { m with heap := m.heap.modify a f }

/-- A value in 64 bits. -/
def Fits (x : ℤ) : Prop := -2 ^ 63 ≤ x ∧ x < 2 ^ 63
instance (x : ℤ) : Decidable (Fits x) := inferInstanceAs (Decidable (_ ∧ _))

/-- The loop of `getEnvironmentAtTime` (space_mission.hpp:143-150): `some` as soon as the time is before the end of a phase. -/
def atLoop (t : ℤ) : List Phase → ℤ → Outcome (Option (Option ℕ))
  | [], _ => .ok none
  | p :: ps, elapsed =>
    if Fits (elapsed + p.duration) then (if t < elapsed + p.duration then .ok (some p.env) else atLoop t ps (elapsed + p.duration)) else .ub

/-- `getEnvironmentAtTime` (space_mission.hpp:142-154). -/
def Mission.atTime (m : Mission) (t : ℤ) : Outcome (Option ℕ) :=
  (atLoop t m.phases 0).bind fun r => .ok (match r with
    | some e => e
    | none => (m.phases.getLast?).bind Phase.env)

/-- Flux of the environment of a phase. -/
def Mission.flux (m : Mission) (p : Phase) : Option ℝ := p.env.bind fun a => (m.heap[a]?).map Env.flux

/-- The comparator of `getWorstCaseEnvironment` (space_mission.hpp:168-173) on two fluxes. -/
noncomputable def worse (a b : Option ℝ) : Bool := match a, b with
  | some x, some y => decide (x < y)
  | none, _ => true
  | some _, none => false

/-- `std::max_element` with that comparator, from the first phase on (space_mission.hpp:167-173). -/
noncomputable def Mission.maxPhase (m : Mission) : Phase → List Phase → Phase
  | best, [] => best
  | best, p :: ps => m.maxPhase (if worse (m.flux best) (m.flux p) then p else best) ps

/-- `getWorstCaseEnvironment` (space_mission.hpp:161-176). -/
noncomputable def Mission.worst (m : Mission) : Option ℕ := match m.phases with
  | [] => none
  | p :: ps => (m.maxPhase p ps).env

/-- One pass of the loop of `calculateTotalRadiationExposure` (space_mission.hpp:186-192). -/
noncomputable def Mission.addExposure (m : Mission) (x : ℝ) (p : Phase) : ℝ := match m.flux p with
  | some f => x + f * p.duration
  | none => x

/-- `calculateTotalRadiationExposure` (space_mission.hpp:183-195). -/
noncomputable def Mission.exposure (m : Mission) : ℝ := m.phases.foldl m.addExposure 0

/-! ### Standard missions -/

/-- `getDefaultMissionName` (space_mission.hpp:262-279). -/
def defaultName : Target → String
  | .leo => "Low Earth Orbit Mission"
  | .meo => "Medium Earth Orbit Mission"
  | .geo => "Geostationary Orbit Mission"
  | .moon => "Lunar Mission"
  | .mars => "Mars Mission"
  | .venus => "Venus Mission"
  | .mercury => "Mercury Mission"
  | .jupiter => "Jupiter Mission"
  | .saturn => "Saturn Mission"
  | .asteroidBelt => "Asteroid Belt Mission"
  | .kuiperBelt => "Kuiper Belt Mission"
  | .solarPolar => "Solar Polar Mission"
  | .solarProbe => "Solar Probe Mission"

/-- Seconds of an hour. -/
def hour : ℤ := 3600

/-- `configureLEOMission` (space_mission.hpp:286-306): environments and phases. -/
noncomputable def leoPlan : List Env × List Phase :=
  ([create .avionic, create .leo],
   [⟨"Launch", .launch, some 0, hour, 1, 10⟩, ⟨"LEO Operations", .earthOrbit, some 1, 8760 * hour, 1, 5⟩])

/-- `configureGEOMission` (space_mission.hpp:313-355). -/
noncomputable def geoPlan : List Env × List Phase :=
  ([create .avionic, create .leo, (create .meo).setFlux (3 / 10 ^ 7), create .geo],
   [⟨"Launch", .launch, some 0, hour, 1, 10⟩, ⟨"LEO Parking Orbit", .earthOrbit, some 1, 5 * hour, 1, 5⟩,
    ⟨"GTO Transfer", .transfer, some 2, 5 * hour, 1, 5⟩, ⟨"GEO Operations", .earthOrbit, some 3, 8760 * 15 * hour, 1, 5⟩])

/-- `configureLunarMission` (space_mission.hpp:362-428): one environment serves both transfers. -/
noncomputable def lunarPlan : List Env × List Phase :=
  ([create .avionic, (create .meo).setFlux (2 / 10 ^ 7), (create .lunar).setFlux (25 / 10 ^ 8), create .lunar, (create .avionic).setFlux (1 / 10 ^ 9)],
   [⟨"Launch", .launch, some 0, hour, 1, 10⟩, ⟨"Earth-Moon Transfer", .transfer, some 1, 72 * hour, 1, 5⟩,
    ⟨"Lunar Orbit", .planetaryOrbit, some 2, 120 * hour, 1, 5⟩, ⟨"Lunar Surface Operations", .planetarySurface, some 3, 48 * hour, 1, 2⟩,
    ⟨"Moon-Earth Transfer", .return, some 1, 72 * hour, 1, 5⟩, ⟨"Reentry", .reentry, some 4, 1800, 1, 15⟩])

/-- `configureMarsMission` (space_mission.hpp:435-501): one environment serves both transfers. -/
noncomputable def marsPlan : List Env × List Phase :=
  ([create .avionic, (Env.new .custom "Interplanetary Transfer").setFlux (5 / 10 ^ 7), (Env.new .custom "Mars Orbit").setFlux (2 / 10 ^ 7), create .mars, (create .avionic).setFlux (1 / 10 ^ 9)],
   [⟨"Launch", .launch, some 0, hour, 1, 10⟩, ⟨"Earth-Mars Transfer", .transfer, some 1, 24 * 180 * hour, 3 / 2, 10⟩,
    ⟨"Mars Orbit", .planetaryOrbit, some 2, 24 * 60 * hour, 3 / 2, 5⟩, ⟨"Mars Surface Operations", .planetarySurface, some 3, 24 * 500 * hour, 3 / 2, 2⟩,
    ⟨"Mars-Earth Transfer", .return, some 1, 24 * 180 * hour, 3 / 2, 10⟩, ⟨"Reentry", .reentry, some 4, 1800, 1, 15⟩])

/-- `configureJupiterMission` (space_mission.hpp:508-564). -/
noncomputable def jupiterPlan : List Env × List Phase :=
  ([create .avionic, (Env.new .custom "Deep Space Transfer").setFlux (3 / 10 ^ 7), (Env.new .custom "Jupiter Approach").setFlux (2 / 10 ^ 6), create .jupiter, (create .jupiter).setFlux (stdFlux .jupiter * (7 / 10))],
   [⟨"Launch", .launch, some 0, hour, 1, 10⟩, ⟨"Earth-Jupiter Transfer", .transfer, some 1, 24 * 365 * 2 * hour, 3, 15⟩,
    ⟨"Jupiter Approach", .transfer, some 2, 24 * 30 * hour, 52 / 10, 15⟩, ⟨"Jupiter Orbit", .planetaryOrbit, some 3, 24 * 60 * hour, 52 / 10, 20⟩,
    ⟨"Extended Mission", .planetaryOrbit, some 4, 24 * 365 * hour, 52 / 10, 20⟩])

/-- `configureSolarProbeMission` (space_mission.hpp:571-641). -/
noncomputable def solarPlan : List Env × List Phase :=
  ([create .avionic, create .meo, (Env.new .custom "Venus Flyby").setFlux (8 / 10 ^ 7), (create .solarFlare).setFlux (stdFlux .solarFlare * (1 / 2)), create .solarFlare, (create .solarFlare).setFlux (stdFlux .solarFlare * (1 / 2))],
   [⟨"Launch", .launch, some 0, hour, 1, 10⟩, ⟨"Initial Orbit", .earthOrbit, some 1, 48 * hour, 1, 10⟩,
    ⟨"Venus Gravity Assist", .planetaryOrbit, some 2, 24 * hour, 7 / 10, 15⟩, ⟨"Solar Approach", .solar, some 3, 24 * 7 * hour, 3 / 10, 30⟩,
    ⟨"Perihelion", .solar, some 4, 24 * hour, 1 / 10, 35⟩, ⟨"Return to Higher Orbit", .transfer, some 5, 24 * 7 * hour, 3 / 10, 30⟩])

/-- The switch of `createStandardMission` (space_mission.hpp:216-246). -/
noncomputable def plan : Target → List Env × List Phase
  | .leo => leoPlan
  | .geo => geoPlan
  | .moon => lunarPlan
  | .mars => marsPlan
  | .jupiter => jupiterPlan
  | .solarProbe => solarPlan
  | _ => leoPlan

/-- `createStandardMission` (space_mission.hpp:204-249). -/
noncomputable def standard (t : Target) (name : String := "") : Mission := ⟨if name = "" then defaultName t else name, t, (plan t).2, (plan t).1⟩

end Verif.SpaceMission
