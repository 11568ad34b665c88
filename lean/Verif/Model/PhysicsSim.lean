import Verif.Model.Loop
import Mathlib.Analysis.SpecialFunctions.Pow.Real
/-!
Model of /repo/include/rad_ml/sim/physics_radiation_simulator.hpp (class `PhysicsRadiationSimulator`) and of the tables of
/repo/src/rad_ml/sim/environment.cpp.

Doubles are real numbers and event counters natural numbers.  What the random engine will deliver is given as two streams: the
numbers drawn from the Poisson distributions, and raw numbers for the uniform distributions, of which a distribution over
`[a, b]` uses the remainder modulo `b - a + 1`.  `std::poisson_distribution` requires a positive mean (otherwise undefined).
Report texts are left out.
-/
namespace Verif.PhysicsSim

/-! ### Types and tables -/

/-- `RadiationEnvironment` (physics_radiation_simulator.hpp:20-33). -/
inductive Env where
  | leo | meo | geo | lunar | marsOrbit | marsSurface | jupiter | europa | interplanetary | solarMinimum | solarMaximum | solarStorm
  deriving DecidableEq, Repr

/-- `RadiationEffectType` (physics_radiation_simulator.hpp:38-46). -/
inductive Kind where
  | seu | mbu | sel | set | sefi | stuckBit | thresholdShift
  deriving DecidableEq, Repr

/-- The keys of `radiation_effects_` in map order (physics_radiation_simulator.hpp:460-484). -/
def kinds : List Kind := [.seu, .mbu, .sel, .set, .sefi, .stuckBit, .thresholdShift]

/-- `RadiationEffect(t).probability` (physics_radiation_simulator.hpp:68-126). -/
noncomputable def probability : Kind → ℝ
  | .seu => 1 / 10 ^ 7
  | .mbu => 2 / 10 ^ 8
  | .sel => 5 / 10 ^ 9
  | .set => 2 / 10 ^ 7
  | .sefi => 1 / 10 ^ 9
  | .stuckBit => 5 / 10 ^ 10
  | .thresholdShift => 1 / 10 ^ 9

/-- `RadiationEffect(t).min_bits` (physics_radiation_simulator.hpp:68-126). -/
def minBits : Kind → ℕ
  | .mbu => 2
  | _ => 1

/-- `RadiationEffect(t).max_bits` (physics_radiation_simulator.hpp:68-126). -/
def maxBits : Kind → ℕ
  | .seu => 1
  | .mbu => 8
  | .sel => 1024
  | .set => 1
  | .sefi => 1024 * 1024
  | .stuckBit => 1
  | .thresholdShift => 1024

/-- `environment_modifiers_` (physics_radiation_simulator.hpp:491-505). -/
noncomputable def modifier : Env → ℝ
  | .leo => 1
  | .meo => 10
  | .geo => 5
  | .lunar => 4
  | .marsOrbit => 3
  | .marsSurface => 1 / 2
  | .jupiter => 1000
  | .europa => 2000
  | .interplanetary => 3
  | .solarMinimum => 2
  | .solarMaximum => 8 / 10
  | .solarStorm => 100

/-- `SpacecraftTrajectory` (physics_radiation_simulator.hpp:132-134). -/
structure Trajectory where
  envs : List Env
  days : List ℝ

/-- `SpacecraftTrajectory::Earth_LEO` (physics_radiation_simulator.hpp:137-139). -/
noncomputable def earthLeo : Trajectory := ⟨[.leo], [365]⟩

/-- `SpacecraftTrajectory::Mars_Mission` (physics_radiation_simulator.hpp:141-151). -/
noncomputable def marsMission : Trajectory :=
  ⟨[.leo, .interplanetary, .marsOrbit, .marsSurface, .interplanetary, .leo], [10, 180, 30, 365, 180, 10]⟩

/-- `SpacecraftTrajectory::Europa_Mission` (physics_radiation_simulator.hpp:153-164). -/
noncomputable def europaMission : Trajectory :=
  ⟨[.leo, .interplanetary, .jupiter, .europa, .jupiter, .interplanetary, .leo], [10, 730, 60, 30, 60, 730, 10]⟩

/-- The simulator's state without the random engine and the unused word size (physics_radiation_simulator.hpp:444-457). -/
structure Sim where
  bits : ℕ
  shield : ℝ
  traj : Trajectory
  env : Env
  solar : ℝ

/-- What the random engine will deliver; a Poisson number depends on the mean asked for. -/
structure Src where
  counts : ℕ → ℝ → ℕ
  raws : ℕ → ℕ

/-- After one Poisson number (physics_radiation_simulator.hpp:266-267). -/
def Src.count (s : Src) : Src := { s with counts := fun i => s.counts (i + 1) }

/-- After one uniform number (physics_radiation_simulator.hpp:271-272). -/
def Src.raw (s : Src) : Src := { s with raws := fun i => s.raws (i + 1) }

/-! ### Configuration -/

/-- The constructor (physics_radiation_simulator.hpp:184-202): `environments[0]` of an empty trajectory is undefined. -/
noncomputable def new (bits : ℕ) (shield : ℝ) (t : Trajectory) : Outcome Sim := match t.envs with
  | [] => .ub
  | e :: _ => .ok ⟨bits, shield, t, e, 1 / 2⟩

/-- `set_environment` (physics_radiation_simulator.hpp:209-211). -/
def Sim.setEnvironment (s : Sim) (e : Env) : Sim := { s with env := e }

/-- `set_solar_activity` (physics_radiation_simulator.hpp:218-220). -/
noncomputable def Sim.setSolarActivity (s : Sim) (a : ℝ) : Sim := { s with solar := max 0 (min 1 a) }

/-- `set_shielding` (physics_radiation_simulator.hpp:227-231); the modifiers do not depend on it. -/
def Sim.setShielding (s : Sim) (t : ℝ) : Sim := { s with shield := t }

/-- `set_trajectory` (physics_radiation_simulator.hpp:238-241). -/
def Sim.setTrajectory (s : Sim) (t : Trajectory) : Outcome Sim := match t.envs with
  | [] => .ub
  | e :: _ => .ok { s with traj := t, env := e }

/-! ### Rates -/

/-- `calculate_solar_modifier` (physics_radiation_simulator.hpp:512-535). -/
noncomputable def solarModifier (e : Env) (a : ℝ) : ℝ :=
  if e = .solarStorm then 1
  else
    let gcr := 1 - 5 / 10 * a
    let spe := a * a * 5
    if e = .leo ∨ e = .meo ∨ e = .geo then 7 / 10 * gcr + 3 / 10 * spe else 5 / 10 * gcr + 5 / 10 * spe

/-- `calculate_shielding_factor` (physics_radiation_simulator.hpp:544-564). -/
noncomputable def shieldingFactor (t : ℝ) : ℝ :=
  if t ≤ 0 then 1
  else
    let base := Real.exp (-t / 2)
    let tid := base ^ (12 / 10 : ℝ)
    let see := base ^ (7 / 10 : ℝ)
    max (1 / 100) (min 1 (3 / 10 * tid + 7 / 10 * see))

/-- `rate_modifier` (physics_radiation_simulator.hpp:252-262). -/
noncomputable def Sim.rateModifier (s : Sim) : ℝ := modifier s.env * solarModifier s.env s.solar * shieldingFactor s.shield

/-- `get_error_rates` (physics_radiation_simulator.hpp:389-412). -/
noncomputable def Sim.errorRate (s : Sim) (k : Kind) : ℝ :=
  probability k * modifier s.env * solarModifier s.env s.solar * shieldingFactor s.shield * 1000000

/-! ### Simulation -/

/-- `n` events of one kind (physics_radiation_simulator.hpp:270-275). -/
def drawEvents (k : Kind) : ℕ → Src → List (Kind × ℕ) × Src
  | 0, r => ([], r)
  | n + 1, r =>
    let q := drawEvents k n r.raw
    ((k, minBits k + r.raws 0 % (maxBits k - minBits k + 1)) :: q.1, q.2)

/-- The loop over the kinds of `simulate_period` (physics_radiation_simulator.hpp:259-276). -/
noncomputable def Sim.periodLoop (s : Sim) (days : ℝ) : List Kind → Src → Outcome (List (Kind × ℕ) × Src)
  | [], r => .ok ([], r)
  | k :: ks, r =>
    if probability k * s.rateModifier * days * s.bits ≤ 0 then .ub
    else
      let q := drawEvents k (r.counts 0 (probability k * s.rateModifier * days * s.bits)) r.count
      (s.periodLoop days ks q.2).bind fun p => .ok (q.1 ++ p.1, p.2)

/-- `simulate_period` (physics_radiation_simulator.hpp:249-279). -/
noncomputable def Sim.simulatePeriod (s : Sim) (days : ℝ) (r : Src) : Outcome (List (Kind × ℕ) × Src) := s.periodLoop days kinds r

/-- The loop of `simulate_mission` (physics_radiation_simulator.hpp:356-381): one list of counts (in the order of `kinds`) per segment. -/
noncomputable def Sim.missionLoop : Sim → List Env → List ℝ → Src → Outcome (List (Kind → ℕ) × Sim × Src)
  | s, [], _, r => .ok ([], s, r)
  | _, _ :: _, [], _ => .ub
  | s, e :: es, d :: ds, r =>
    ((s.setEnvironment e).simulatePeriod d r).bind fun p =>
      (Sim.missionLoop (s.setEnvironment e) es ds p.2).bind fun q =>
        .ok ((fun k => (p.1.filter (fun x => x.1 = k)).length) :: q.1, q.2)

/-- `simulate_mission` (physics_radiation_simulator.hpp:353-382). -/
noncomputable def Sim.simulateMission (s : Sim) (r : Src) : Outcome (List (Kind → ℕ) × Sim × Src) :=
  s.missionLoop s.traj.envs s.traj.days r

/-- The expected number of dose effects of a kind in a segment (physics_radiation_simulator.hpp:329-333). -/
noncomputable def Sim.tidExpected (s : Sim) (k : Kind) (days : ℝ) : ℝ :=
  probability k * modifier s.env * shieldingFactor s.shield * days * s.bits

/-- The loop of `simulate_mission_tid` (physics_radiation_simulator.hpp:297-345): result, segment lengths simulated, state, engine. -/
noncomputable def Sim.tidLoop (total : ℝ) : Sim → List Env → List ℝ → ℝ → Src → ℕ × ℕ → Outcome ((ℕ × ℕ) × List (Env × ℝ) × Sim × Src)
  | s, [], _, _, r, acc => .ok (acc, [], s, r)
  | s, e :: es, ds, done, r, acc =>
    if done < total then
      match ds with
      | [] => .ub
      | d :: ds =>
        let seg := min d (total - done)
        let s' := s.setEnvironment e
        if s'.tidExpected .stuckBit seg ≤ 0 ∨ s'.tidExpected .thresholdShift seg ≤ 0 then .ub
        else (Sim.tidLoop total s' es ds (done + seg) r.count.count (acc.1 + r.counts 0 (s'.tidExpected .stuckBit seg), acc.2 + r.counts 1 (s'.tidExpected .thresholdShift seg))).bind fun q =>
          .ok (q.1, (e, seg) :: q.2.1, q.2.2)
    else .ok (acc, [], s, r)

/-- `simulate_mission_tid` (physics_radiation_simulator.hpp:287-348): stuck bits and threshold shifts.  The list of simulated segments is
added for the theorems. -/
noncomputable def Sim.simulateMissionTid (s : Sim) (days : ℝ) (r : Src) : Outcome ((ℕ × ℕ) × List (Env × ℝ) × Sim × Src) :=
  s.tidLoop days s.traj.envs s.traj.days 0 r (0, 0)

/-! ### environment.cpp -/

/-- `Environment` (sim/environment.hpp:20-32). -/
inductive Place where
  | earth | earthOrbit | iss | moon | mars | solarFlare | deepSpace | jupiter | saa | extreme | custom
  deriving DecidableEq, Repr

/-- `getRadiationLevel` (src/rad_ml/sim/environment.cpp:15-27, 77-83). -/
noncomputable def level : Place → ℝ
  | .earth => 1 / 100 | .earthOrbit => 20 / 100 | .iss => 25 / 100 | .moon => 40 / 100 | .mars => 30 / 100 | .solarFlare => 80 / 100
  | .deepSpace => 60 / 100 | .jupiter => 85 / 100 | .saa => 45 / 100 | .extreme => 1 | .custom => 50 / 100

/-- `getBitErrorRate` (src/rad_ml/sim/environment.cpp:30-42, 85-91). -/
noncomputable def bitErrorRate : Place → ℝ
  | .earth => 1 / 10 ^ 12 | .earthOrbit => 1 / 10 ^ 8 | .iss => 5 / 10 ^ 8 | .moon => 1 / 10 ^ 7 | .mars => 8 / 10 ^ 8
  | .solarFlare => 1 / 10 ^ 6 | .deepSpace => 5 / 10 ^ 7 | .jupiter => 1 / 10 ^ 5 | .saa => 2 / 10 ^ 7 | .extreme => 1 / 10 ^ 4
  | .custom => 1 / 10 ^ 6

/-- `getExpectedMCUSize` (src/rad_ml/sim/environment.cpp:45-57, 93-99). -/
def mcuSize : Place → ℕ
  | .earth => 1 | .earthOrbit => 2 | .iss => 2 | .moon => 3 | .mars => 2 | .solarFlare => 4
  | .deepSpace => 3 | .jupiter => 5 | .saa => 3 | .extreme => 8 | .custom => 3

/-- `RadiationEnvironment` (sim/mission_environment.hpp:34-53). -/
structure Conditions where
  altitude : ℝ
  sunDistance : ℝ
  gcr : ℝ
  solar : ℝ
  protons : ℝ
  electrons : ℝ
  saa : Bool
  atmosphere : ℝ
  field : ℝ
  tmin : ℝ
  tmax : ℝ
  period : ℝ

/-- `getRadiationEnvironment` (src/rad_ml/sim/environment.cpp:109-180). -/
noncomputable def conditions : Place → Conditions
  | .mars => ⟨0, 152 / 100, 4 / 10, 1 / 2, 0, 0, false, 20, 1 / 100, 150, 290, 247 / 10⟩
  | .moon => ⟨0, 1, 7 / 10, 1 / 2, 0, 0, false, 0, 0, 100, 390, 655⟩
  | .earthOrbit => ⟨400, 1, 2 / 10, 1 / 2, 1000, 100000, false, 0, 8 / 10, 173, 373, 15 / 10⟩
  | _ => ⟨0, 1, 1 / 100, 1 / 2, 0, 0, false, 1000, 1, 263, 293, 24⟩

end Verif.PhysicsSim
