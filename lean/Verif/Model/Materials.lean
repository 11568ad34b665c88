import Mathlib.Analysis.SpecialFunctions.Exp
/-!
Materials and mission environments: /repo/rad_ml/core/material_database.hpp and /repo/rad_ml/sim/mission_environment.hpp.

Doubles are real numbers, `std::exp` the real function (material_database.hpp does not include <cmath>, so it compiles only after another header
that does). The unordered map is an association list; names returned by `getAvailableMaterials` are a list in an unspecified order.
-/
namespace Verif.Materials

/-- `MaterialProperties` (rad_ml/core/material_database.hpp:11-19). -/
structure Material where
  name : String
  density : ℝ
  yieldStrength : ℝ
  thermalConductivity : ℝ
  tolerance : ℝ
  neutron : ℝ
  proton : ℝ
  electron : ℝ

/-- `getRadiationProtectionFactor` (rad_ml/core/material_database.hpp:22-31). -/
noncomputable def Material.factor (m : Material) (t : ℝ) : ℝ :=
  if m.density ≤ 0 then 1 else
  let mass := m.density * t / 10
  let attenuation := 1 - Real.exp (-mass / 10)
  1 + m.tolerance / 100 * attenuation * 5

/-- The entries of `initializeMaterials` (rad_ml/core/material_database.hpp:59-155). -/
noncomputable def table : List (String × Material) := [
  ("Aluminum", ⟨"Aluminum", 27 / 10, 270, 237, 50, 14 / 10, 21 / 10, 16 / 10⟩),
  ("Titanium", ⟨"Titanium", 45 / 10, 880, 219 / 10, 70, 4, 28 / 10, 19 / 10⟩),
  ("Polyethylene", ⟨"Polyethylene", 94 / 100, 25, 5 / 10, 30, 11 / 10, 22 / 10, 17 / 10⟩),
  ("Silicon", ⟨"Silicon", 233 / 100, 130, 149, 20, 22 / 10, 18 / 10, 15 / 10⟩),
  ("Tantalum", ⟨"Tantalum", 166 / 10, 170, 57, 85, 21, 45 / 10, 28 / 10⟩),
  ("Tungsten", ⟨"Tungsten", 193 / 10, 750, 173, 90, 184 / 10, 51 / 10, 32 / 10⟩),
  ("Carbon Fiber", ⟨"Carbon Fiber Composite", 16 / 10, 600, 10, 40, 7 / 10, 17 / 10, 13 / 10⟩),
  ("Rad-Hard Electronics", ⟨"Rad-Hard Electronics Package", 35 / 10, 200, 80, 95, 5, 3, 2⟩)]

/-- `default_material_` (rad_ml/core/material_database.hpp:157-165). -/
noncomputable def air : Material := ⟨"Default", 1 / 1000, 0, 26 / 1000, 0, 0, 0, 0⟩

/-- `getMaterial` (rad_ml/core/material_database.hpp:42-48). -/
noncomputable def getMaterial (n : String) : Material := (table.lookup n).getD air

/-- `getAvailableMaterials` (rad_ml/core/material_database.hpp:51-57), in some order. -/
noncomputable def available : List String := table.map (·.1)

/-- The members of `RadiationEnvironment` the functions read (rad_ml/sim/mission_environment.hpp:15-25, with `TemperatureRange` :9-12). -/
structure Environment where
  proton : ℝ := 0
  electron : ℝ := 0
  cosmic : ℝ := 0
  solarEvent : ℝ := 0
  tempMin : ℝ := 273
  tempMax : ℝ := 293
  solarActivity : ℝ := 0
  saa : Bool := false

/-- `getTotalFlux` (rad_ml/sim/mission_environment.hpp:33-38). -/
noncomputable def Environment.totalFlux (e : Environment) : ℝ := e.proton + e.electron + e.cosmic + e.solarEvent

/-- `getAverageTemperature` (rad_ml/sim/mission_environment.hpp:41-43). -/
noncomputable def Environment.averageTemperature (e : Environment) : ℝ := (e.tempMin + e.tempMax) / 2

/-- `isHighRadiation` (rad_ml/sim/mission_environment.hpp:46-48). -/
def Environment.isHigh (e : Environment) : Prop := 100000000 < e.totalFlux ∨ e.saa = true ∨ 7 / 10 < e.solarActivity

end Verif.Materials
