import Verif.Model.PhysicsSim
import Mathlib.Analysis.SpecialFunctions.Pow.Real
/-!
SEU cross-sections: /repo/src/validation/cross_section_utils.hpp.

Doubles are real numbers, `std::pow` and `std::exp` the real functions; counters are natural numbers. The header uses the member `let` of `WeibullPoint`,
which is called `let_kev`; the model reads it as that member.
-/
namespace Verif.CrossSection

open Verif.PhysicsSim (Env)

/-- `WeibullPoint` (cross_section_utils.hpp:44-47). -/
structure Point where
  energy : ℝ
  sigma : ℝ

/-- `WeibullParams` (cross_section_utils.hpp:55-60). -/
structure Params where
  saturation : ℝ
  width : ℝ
  exponent : ℝ
  threshold : ℝ

/-- `calculateCrossSection` (cross_section_utils.hpp:80-93). -/
noncomputable def crossSection (upsets : ℕ) (flux : ℝ) (bits : ℕ) (time : ℝ) : ℝ :=
  if flux ≤ 0 ∨ bits = 0 ∨ time ≤ 0 then 0 else (upsets : ℝ) / (flux * bits * time)

/-- `calculateWeibullCrossSection` (cross_section_utils.hpp:133-142). -/
noncomputable def weibull (p : Params) (l : ℝ) : ℝ :=
  if l ≤ p.threshold then 0 else p.saturation * (1 - Real.exp (-(((l - p.threshold) / p.width) ^ p.exponent)))

/-- The threshold loop of `fitWeibullParameters` (cross_section_utils.hpp:166-171). -/
noncomputable def fitThreshold (data : List Point) : ℝ :=
  data.foldl (fun t p => if 0 < p.sigma ∧ p.energy < t then p.energy else t) 1000

/-- The saturation loop (cross_section_utils.hpp:174-179). -/
noncomputable def fitSaturation (data : List Point) : ℝ :=
  data.foldl (fun m p => if m < p.sigma then p.sigma else m) 0

/-- `fitWeibullParameters` (cross_section_utils.hpp:150-192). -/
noncomputable def fit (data : List Point) : Params :=
  if data = [] then ⟨2 / 10 ^ 14, 20, 25 / 10, 1 / 2⟩ else ⟨fitSaturation data, 15, 2, fitThreshold data * (9 / 10)⟩

/-- `environmentToStandardName` (cross_section_utils.hpp:200-229). -/
def standardName : Env → String
  | .leo => "Low Earth Orbit (400km)"
  | .meo => "Medium Earth Orbit (10,000km)"
  | .geo => "Geosynchronous Orbit (36,000km)"
  | .lunar => "Lunar Surface"
  | .marsOrbit => "Mars Orbit"
  | .marsSurface => "Mars Surface"
  | .jupiter => "Jupiter Radiation Belts"
  | .europa => "Europa (Jovian Moon)"
  | .interplanetary => "Interplanetary Space"
  | .solarMinimum => "Solar Minimum"
  | .solarMaximum => "Solar Maximum"
  | .solarStorm => "Solar Storm (SPE)"

/-- The parts of `ReferenceData` the functions use (cross_section_utils.hpp:31-39). -/
structure Reference where
  environment : String
  technology : String
  sigma : ℝ

/-- `loadReferenceData` (cross_section_utils.hpp:419-511). -/
noncomputable def reference : List Reference :=
  [⟨"Low Earth Orbit (400km)", "65nm CMOS", 12 / 10 ^ 15⟩,
   ⟨"Geosynchronous Orbit (36,000km)", "65nm CMOS", 25 / 10 ^ 15⟩,
   ⟨"Europa (Jovian Moon)", "65nm CMOS", 38 / 10 ^ 14⟩,
   ⟨"Mars Surface", "65nm CMOS", 56 / 10 ^ 16⟩,
   ⟨"Low Earth Orbit (400km)", "28nm CMOS", 84 / 10 ^ 16⟩,
   ⟨"Low Earth Orbit (400km)", "14nm CMOS", 65 / 10 ^ 16⟩,
   ⟨"Lunar Surface", "65nm CMOS", 18 / 10 ^ 15⟩,
   ⟨"Solar Storm (SPE)", "65nm CMOS", 14 / 10 ^ 14⟩]

/-- `getReferenceData` (cross_section_utils.hpp:101-112). -/
noncomputable def getReference (environment technology : String) : Option Reference :=
  reference.find? fun d => d.environment = environment && d.technology = technology

/-- `validateCrossSection` (cross_section_utils.hpp:239-252). -/
noncomputable def validate (measured ref tolerance : ℝ) : Bool :=
  if ref ≤ 0 then false else decide (|measured / ref - 1| * 100 ≤ tolerance)

/-- `default_rates` (cross_section_utils.hpp:270-283). -/
noncomputable def defaultRate : Env → ℝ
  | .leo => 52 / 10 ^ 11
  | .meo => 24 / 10 ^ 10
  | .geo => 13 / 10 ^ 9
  | .lunar => 76 / 10 ^ 10
  | .marsOrbit => 45 / 10 ^ 10
  | .marsSurface => 12 / 10 ^ 10
  | .jupiter => 87 / 10 ^ 8
  | .europa => 22 / 10 ^ 7
  | .interplanetary => 68 / 10 ^ 10
  | .solarMinimum => 85 / 10 ^ 10
  | .solarMaximum => 47 / 10 ^ 10
  | .solarStorm => 72 / 10 ^ 9

/-- `daily_fluxes` (cross_section_utils.hpp:297-310). -/
noncomputable def dailyFlux : Env → ℝ
  | .leo => 120000
  | .meo => 350000
  | .geo => 780000
  | .lunar => 520000
  | .marsOrbit => 380000
  | .marsSurface => 150000
  | .jupiter => 42000000
  | .europa => 85000000
  | .interplanetary => 450000
  | .solarMinimum => 620000
  | .solarMaximum => 350000
  | .solarStorm => 2800000

/-- `getReferenceRate` (cross_section_utils.hpp:261-317); both tables contain every environment. -/
noncomputable def rate (e : Env) (technology : String) : ℝ :=
  match getReference (standardName e) technology with
  | none => defaultRate e
  | some d => d.sigma * dailyFlux e

/-- The parameters by environment (cross_section_utils.hpp:365-389). -/
noncomputable def baseParams : Env → Params
  | .jupiter | .europa => ⟨35 / 10 ^ 14, 18, 28 / 10, 3 / 10⟩
  | .solarStorm => ⟨28 / 10 ^ 14, 22, 25 / 10, 4 / 10⟩
  | .leo | .meo | .geo => ⟨15 / 10 ^ 14, 15, 22 / 10, 6 / 10⟩
  | _ => ⟨20 / 10 ^ 14, 20, 24 / 10, 5 / 10⟩

/-- The adjustment for the technology (cross_section_utils.hpp:391-402). -/
noncomputable def adjust (p : Params) (technology : String) : Params :=
  if technology = "28nm CMOS" then { p with saturation := p.saturation * (7 / 10), threshold := p.threshold * (11 / 10) }
  else if technology = "14nm CMOS" then { p with saturation := p.saturation * (5 / 10), threshold := p.threshold * (13 / 10) }
  else if technology = "7nm CMOS" then { p with saturation := p.saturation * (4 / 10), threshold := p.threshold * (15 / 10) }
  else p

/-- `createWeibullCurve` (cross_section_utils.hpp:358-412). -/
noncomputable def curve (e : Env) (technology : String) (ls : List ℝ) : List Point :=
  ls.map fun l => ⟨l, weibull (adjust (baseParams e) technology) l⟩

end Verif.CrossSection
