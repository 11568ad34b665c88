import Verif.Model.RadSimulator
import Verif.Spec.XReal
import Mathlib.Analysis.SpecialFunctions.Trigonometric.DerivHyp
/-!
Model of `mission::MissionProfile` (/repo/include/rad_ml/mission/mission_profile.hpp) and of the activation functions of
/repo/include/rad_ml/neural/activation.hpp.

Doubles of the mission settings are real numbers; `getDescription` (a text) is left out.  The network given to `configureNetwork`
is a template parameter: it is modelled by the list of calls it receives.  Activations work on ideal doubles (a real number, an
infinity or NaN, without rounding).
-/
namespace Verif.MissionProfile
open Classical

/-- `MissionType` (mission_profile.hpp:22-32). -/
inductive Kind where
  | leo | meo | geo | lunarOrbit | lunarSurface | marsTransit | marsOrbit | marsSurface | deepSpace
  deriving DecidableEq

/-- `RadiationEnvironment` (mission_profile.hpp:35-41). -/
structure Radiation where
  dose : ℝ
  flux : ℝ
  saa : ℝ
  solar : ℝ
  gcr : ℝ

/-- `HardwareConfig` (mission_profile.hpp:44-52). -/
structure Hardware where
  processor : String
  node : ℝ
  ecc : Bool
  tmr : Bool
  memory : ℝ
  compute : ℝ
  power : ℝ

/-- `SoftwareConfig` (mission_profile.hpp:55-63). -/
structure Software where
  scrub : ℕ
  checkpoint : ℕ
  recovery : Bool
  redundancy : ℕ
  fallback : Bool
  quantized : Bool
  bits : ℕ

/-- `TelemetryConfig` (mission_profile.hpp:66-72). -/
structure Telemetry where
  logging : Bool
  file : String
  interval : ℕ
  details : Bool
  retention : ℕ

/-- The members (mission_profile.hpp:326-330). -/
structure Profile where
  kind : Kind
  rad : Radiation
  hw : Hardware
  sw : Software
  tel : Telemetry

/-- `initializeForLEO` (mission_profile.hpp:368-400), which sets every member. -/
noncomputable def leo (k : Kind) : Profile :=
  ⟨k, ⟨10, 1000, 2 / 10, 5 / 10, 3 / 10⟩, ⟨"RAD750", 180, true, false, 256, 5 / 10, 15⟩, ⟨1000, 300, true, 2, true, false, 8⟩,
    ⟨true, "leo_mission_log.txt", 60000, true, 30⟩⟩

/-- `initializeForMEO` (mission_profile.hpp:402-411). -/
noncomputable def meo (k : Kind) : Profile :=
  let p := leo k
  { p with rad := { p.rad with dose := 20, flux := 2000 }, sw := { p.sw with scrub := 500, redundancy := 3 } }

/-- `initializeForGEO` (mission_profile.hpp:413-428). -/
noncomputable def geo (k : Kind) : Profile :=
  let p := leo k
  { p with
    rad := { p.rad with dose := 30, flux := 5000, saa := 0 }
    hw := { p.hw with processor := "LEON4", memory := 512, compute := 1 }
    sw := { p.sw with scrub := 200, redundancy := 3, quantized := true } }

/-- `initializeForLunarOrbit` (mission_profile.hpp:430-439). -/
noncomputable def lunarOrbit (k : Kind) : Profile :=
  let p := geo k
  { p with rad := { p.rad with dose := 25, saa := 0, gcr := 6 / 10 }, tel := { p.tel with file := "lunar_orbit_log.txt" } }

/-- `initializeForLunarSurface` (mission_profile.hpp:441-452). -/
noncomputable def lunarSurface (k : Kind) : Profile :=
  let p := lunarOrbit k
  { p with
    rad := { p.rad with dose := 20 }
    hw := { p.hw with memory := 1024, compute := 2, power := 25 }
    tel := { p.tel with file := "lunar_surface_log.txt" } }

/-- `initializeForDeepSpace` (mission_profile.hpp:486-511). -/
noncomputable def deepSpace (k : Kind) : Profile :=
  let p := geo k
  { p with
    rad := ⟨100, 10000, 0, 1, 1⟩
    hw := { p.hw with processor := "LEON4", node := 65, tmr := true, memory := 4096, compute := 3, power := 35 }
    sw := { p.sw with scrub := 100, checkpoint := 60, redundancy := 3, quantized := true, bits := 4 }
    tel := { p.tel with file := "deep_space_log.txt", interval := 10000 } }

/-- `initializeForMarsTransit` (mission_profile.hpp:454-461). -/
noncomputable def marsTransit (k : Kind) : Profile :=
  let p := deepSpace k
  { p with rad := { p.rad with dose := 50 }, tel := { p.tel with file := "mars_transit_log.txt" } }

/-- `initializeForMarsOrbit` (mission_profile.hpp:463-470). -/
noncomputable def marsOrbit (k : Kind) : Profile :=
  let p := marsTransit k
  { p with rad := { p.rad with dose := 35 }, tel := { p.tel with file := "mars_orbit_log.txt" } }

/-- `initializeForMarsSurface` (mission_profile.hpp:472-484). -/
noncomputable def marsSurface (k : Kind) : Profile :=
  let p := marsOrbit k
  { p with
    rad := { p.rad with dose := 25 }
    hw := { p.hw with processor := "Versal AI Core", node := 20, memory := 2048, compute := 5 }
    tel := { p.tel with file := "mars_surface_log.txt" } }

/-- The constructor with a type and `initializeDefaults` (mission_profile.hpp:79-83, 335-365). -/
noncomputable def new (k : Kind) : Profile := match k with
  | .leo => leo k
  | .meo => meo k
  | .geo => geo k
  | .lunarOrbit => lunarOrbit k
  | .lunarSurface => lunarSurface k
  | .marsTransit => marsTransit k
  | .marsOrbit => marsOrbit k
  | .marsSurface => marsSurface k
  | .deepSpace => deepSpace k

/-- The type of a name (mission_profile.hpp:91-112). -/
def kindOf (s : String) : Kind :=
  if s = "LEO" ∨ s = "LEO_EARTH_OBSERVATION" then .leo
  else if s = "MEO" ∨ s = "MEDIUM_EARTH_ORBIT" then .meo
  else if s = "GEO" ∨ s = "GEOSTATIONARY" then .geo
  else if s = "LUNAR_ORBIT" then .lunarOrbit
  else if s = "LUNAR_SURFACE" ∨ s = "MOON" then .lunarSurface
  else if s = "MARS_TRANSIT" then .marsTransit
  else if s = "MARS_ORBIT" then .marsOrbit
  else if s = "MARS_SURFACE" ∨ s = "MARS" then .marsSurface
  else if s = "DEEP_SPACE" ∨ s = "JUPITER" then .deepSpace
  else .leo

/-- The constructor with a name (mission_profile.hpp:90-115). -/
noncomputable def named (s : String) : Profile := new (kindOf s)

/-- `getSimulationEnvironment` (mission_profile.hpp:158-188). -/
noncomputable def Profile.simulation (p : Profile) : RadSimulator.Params := match p.kind with
  | .leo => RadSimulator.missionEnv "LEO"
  | .meo => { RadSimulator.missionEnv "MEO" with altitude := 20000 }
  | .geo => RadSimulator.missionEnv "GEO"
  | .lunarOrbit | .lunarSurface => RadSimulator.missionEnv "LUNAR"
  | .marsTransit | .marsOrbit | .marsSurface => RadSimulator.missionEnv "MARS"
  | .deepSpace => RadSimulator.missionEnv "JUPITER"

/-- `AdaptiveProtection::ProtectionLevel` (core/radiation/adaptive_protection.hpp:27-32). -/
inductive Level where
  | minimal | standard | enhanced | maximum
  deriving DecidableEq

/-- `getInitialProtectionLevel` (mission_profile.hpp:194-229). -/
def Profile.level (p : Profile) : Level := match p.kind with
  | .leo | .meo => .standard
  | .geo | .lunarOrbit | .lunarSurface | .marsTransit | .marsOrbit | .marsSurface => .enhanced
  | .deepSpace => .maximum

/-- The calls a network may receive (mission_profile.hpp:242-259). -/
inductive Call where
  | protection (l : Level)
  | scrub (ms : ℕ)
  | redundancy (n : ℕ)
  | recovery (s : ℕ)
  | quantization (bits : ℕ)

/-- `configureNetwork` (mission_profile.hpp:237-260): the calls in order. -/
def Profile.configure (p : Profile) : List Call :=
  [.protection p.level, .scrub p.sw.scrub, .redundancy p.sw.redundancy] ++
  (if p.sw.recovery then [.recovery p.sw.checkpoint] else []) ++ (if p.sw.quantized then [.quantization p.sw.bits] else [])

/-! ### Activation functions -/

/-- `Activation` (activation.hpp:17-24). -/
inductive Act where
  | linear | relu | sigmoid | tanh | softmax | leaky
  deriving DecidableEq

/-- `std::exp` on ideal doubles (used in activation.hpp:39). -/
noncomputable def exp : XD → XD
  | .fin r => .fin (Real.exp r)
  | .pinf => .pinf
  | .ninf => .fin 0
  | .nan => .nan

/-- `std::tanh` on ideal doubles (used in activation.hpp:41). -/
noncomputable def tanh : XD → XD
  | .fin r => .fin (Real.tanh r)
  | .pinf => .fin 1
  | .ninf => .fin (-1)
  | .nan => .nan

/-- The constant `0.01f` (activation.hpp:43): the nearest single-precision number. -/
noncomputable def slope : ℝ := 10737418 / 2 ^ 30

/-- `getActivationFunction` (activation.hpp:34-48). -/
noncomputable def act (a : Act) (x : XD) : XD := match a with
  | .relu => if XD.lt (.fin 0) x then x else .fin 0
  | .sigmoid => XD.div (.fin 1) (XD.add (.fin 1) (exp (XD.neg x)))
  | .tanh => tanh x
  | .leaky => if XD.lt (.fin 0) x then x else XD.mul (.fin slope) x
  | .linear | .softmax => x

end Verif.MissionProfile
