import Mathlib.Analysis.SpecialFunctions.Log.Base
/-!
Models of the formulas, the table of materials and the choice of materials in /repo/tests/material_physics_integration_test.cpp.  The file as committed does not compile (it declares enumerators twice and
calls functions that exist nowhere); what is modelled is the text of the functions it defines itself.  `double` is modelled by the real numbers, with the one division by zero that occurs treated as IEEE arithmetic does.
-/
namespace Verif.MatPhys
open Classical

/-- `calculateTemperatureCorrectedThreshold` (material_physics_integration_test.cpp:45-58). -/
noncomputable def threshold (base temp : ℝ) : ℝ :=
  base * (if temp < 150 then 1 / 10 + 9 / 10 * (temp / 150) else if temp > 400 then 1 + 1 / 2 * ((temp - 400) / 100) else 1)

/-- `calculateSynergyFactor` (material_physics_integration_test.cpp:61-71). -/
noncomputable def synergy (temp stress yield : ℝ) : ℝ := if temp > 350 ∧ stress > 3 / 10 * yield then 3 / 2 else 1

/-- `stressFactor` (material_physics_integration_test.cpp:76-79).  For a yield strength of zero the quotient is not a number or plus infinity, and `std::min(1.0, x)` is 1, unless the stress is negative, when it is minus infinity. -/
noncomputable def stressFactor (stress yield : ℝ) : ℝ :=
  if yield = 0 then (if stress < 0 then -1 else Real.exp (2 * 1) - 1) else Real.exp (2 * min 1 (stress / (7 / 10 * yield))) - 1

/-- `radiationEnhancement` (material_physics_integration_test.cpp:82). -/
noncomputable def enhancement (dose : ℝ) : ℝ := 1 + Real.logb 10 (max 1 dose) * (1 / 10)

/-- `calculateMechanicalLoadFactor` (material_physics_integration_test.cpp:74-85). -/
noncomputable def load (stress yield dose : ℝ) : ℝ := 1 + stressFactor stress yield * enhancement dose

/-- `MaterialProperties`, the members the formulas use (material_physics_integration_test.cpp:97-136). -/
structure Material where
  name : String
  density : ℝ
  displacement : ℝ
  yield : ℝ
  vacuum : ℝ
  ao : ℝ

/-- `calculateBaseDamage` (material_physics_integration_test.cpp:147-151). -/
noncomputable def baseDamage (m : Material) (dose : ℝ) : ℝ := 1 / m.displacement * dose

/-- `envFactor` (material_physics_integration_test.cpp:173-179). -/
noncomputable def envFactor (m : Material) (vacuum ao : Bool) : ℝ := (if vacuum then m.vacuum else 1) * (if ao then m.ao else 1)

/-- `calculateCombinedDamageEffect` (material_physics_integration_test.cpp:154-186). -/
noncomputable def damage (m : Material) (dose temp stress : ℝ) (vacuum ao : Bool) : ℝ :=
  baseDamage m dose * threshold 1 temp * load stress m.yield dose * envFactor m vacuum ao * synergy temp stress m.yield

/-- The entry of `loadMaterialDatabase` (material_physics_integration_test.cpp:192-216). -/
noncomputable def aluminum : Material := ⟨"Aluminum", 270 / 100, 16, 276, 12 / 10, 11 / 10⟩
/-- material_physics_integration_test.cpp:218-242. -/
noncomputable def polyethylene : Material := ⟨"Polyethylene", 95 / 100, 85 / 10, 25, 8 / 10, 7 / 10⟩
/-- material_physics_integration_test.cpp:244-268. -/
noncomputable def water : Material := ⟨"Water", 1, 72 / 10, 0, 2, 1⟩
/-- material_physics_integration_test.cpp:270-294. -/
noncomputable def lead : Material := ⟨"Lead", 1135 / 100, 25, 12, 11 / 10, 1⟩
/-- material_physics_integration_test.cpp:296-320. -/
noncomputable def boronCarbide : Material := ⟨"Boron Carbide", 252 / 100, 28, 350, 1, 1⟩

/-- `loadMaterialDatabase` in the order of the map, by name (material_physics_integration_test.cpp:188-323). -/
noncomputable def materials : List Material := [aluminum, boronCarbide, lead, polyethylene, water]

/-- `final_score` (material_physics_integration_test.cpp:790-799); a score divides by the density and by one plus the damage. -/
noncomputable def score (dose temp : ℝ) (ao : Bool) (m : Material) : ℝ :=
  1 / (1 + damage m dose temp (2 / 10 * m.yield) true ao) / (m.density / 10)

/-- The choice of the best material (material_physics_integration_test.cpp:785-809). -/
noncomputable def best (f : Material → ℝ) (ms : List Material) : String × ℝ :=
  ms.foldl (fun b m => if f m > b.2 then (m.name, f m) else b) ("", -1)

/-- The choice for a mission: the dose from the trapped fluxes, the temperature as the mean of the extremes, atomic oxygen in low orbit only (material_physics_integration_test.cpp:768-809). -/
noncomputable def optimal (mission : String) (protons electrons tmin tmax : ℝ) : String :=
  (best (score ((protons + electrons) * (1 / 100000)) ((tmin + tmax) / 2) (mission == "LEO")) materials).1

/-- The assertions about a mission (material_physics_integration_test.cpp:815-823). -/
def accepted (mission b : String) : Bool :=
  if mission = "LEO" then b == "Aluminum" || b == "Polyethylene"
  else if mission = "MARS" then b == "Polyethylene" || b == "Water"
  else if mission = "JUPITER" then b == "Polyethylene" || b == "Boron Carbide"
  else true

/-- The fluxes and temperatures of `setupRadiationEnvironment` (material_physics_integration_test.cpp:326-376): protons, electrons, lowest and highest temperature. -/
noncomputable def environment (mission : String) : Option (ℝ × ℝ × ℝ × ℝ) :=
  if mission = "LEO" then some (10 ^ 6, 2 * 10 ^ 7, 173, 393)
  else if mission = "GEO" then some (10 ^ 4, 10 ^ 6, 120, 373)
  else if mission = "MARS" then some (0, 0, 153, 293)
  else if mission = "JUPITER" then some (10 ^ 9, 10 ^ 10, 100, 300)
  else none

end Verif.MatPhys
