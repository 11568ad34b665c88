import Verif.Model.QuantumPhysics
import Verif.Model.Loop
import Mathlib.Analysis.SpecialFunctions.Pow.Real
/-!
Model of /repo/test/verification/realistic_leo_mission_test.cpp: the one-year mission in low Earth orbit and its validation.

`double` is ℝ without rounding.  Energies are the sampled ones; `rand()` returns `m` with `0 ≤ m ≤ RAND_MAX`; for `m = 0` (energy 0) and `m = RAND_MAX` (infinite energy) the real function diverges, the theorems exclude both.
Displacement energies, cascades and quantum corrections are those of the model of quantum physics.  The quantum fields (their energies are only printed), the measured time and the printed layout are left out.
-/
namespace Verif.LeoMission
open Verif.QuantumField Verif.QuantumPhysics

/-- The members of `LEOParameters` that are read (realistic_leo_mission_test.cpp:40-47). -/
structure Leo where
  shielding : ℝ := 5
  temperature : ℝ := 300
  volume : ℝ := 1000

/-- The particle types of the simulation (realistic_leo_mission_test.cpp:336-337). -/
def types : List Particle := [.proton, .electron, .heavyIon]

/-- Unshielded fluxes per cm² and second (realistic_leo_mission_test.cpp:52-54). -/
noncomputable def openFlux : Particle → ℝ
  | .proton => 400
  | .electron => 10000
  | .heavyIon => 10 / 86400
  | _ => 0

/-- Attenuation per g/cm² (realistic_leo_mission_test.cpp:66-79). -/
noncomputable def attenuation : Particle → ℝ
  | .proton => 0.3
  | .electron => 2
  | .heavyIon => 0.1
  | _ => 0

/-- `getShieldedProtonFlux` and its two siblings (realistic_leo_mission_test.cpp:66-79). -/
noncomputable def shielded (k : Particle) (s : ℝ) : ℝ := openFlux k * Real.exp (-attenuation k * s)

/-- `getEffectiveProtonFlux`, `getEffectiveElectronFlux` (realistic_leo_mission_test.cpp:82-92) and the flux of heavy ions (319). -/
noncomputable def effective (k : Particle) (s : ℝ) : ℝ := match k with
  | .heavyIon => shielded .heavyIon s
  | k => shielded k s * (1 - 0.1) + shielded k s * 10 * 0.1

/-- Mean energies in MeV (realistic_leo_mission_test.cpp:57-59). -/
noncomputable def meanEnergy : Particle → ℝ
  | .proton => 30
  | .electron => 2
  | .heavyIon => 500
  | _ => 0

/-- `initQFTParameters` (realistic_leo_mission_test.cpp:120-149); a member it does not set keeps its default. -/
noncomputable def params : QParams := { QParams.default with
  hbar := 6.582119569 * 10⁻¹ ^ 16
  lattice := 0.543
  dt := 10⁻¹ ^ 15
  omega := 10 ^ 15
  masses := fun k => match k with
    | .proton => some (1.67262192369 * 10⁻¹ ^ 27)
    | .electron => some (9.1093837015 * 10⁻¹ ^ 31)
    | .neutron => some (1.67492749804 * 10⁻¹ ^ 27)
    | .heavyIon => some (9.27 * 10⁻¹ ^ 26)
    | .photon => some 0
    | _ => none
  couplings := fun k => match k with
    | .proton => some 0.15
    | .electron => some 0.20
    | .neutron => some 0.10
    | .heavyIon => some 0.30
    | .photon => some 0.05
    | _ => none }

/-- `CrystalLattice(DIAMOND, 5.431)` with the default barrier (realistic_leo_mission_test.cpp:333, quantum_field_theory.hpp:103). -/
noncomputable def silicon : Crystal := ⟨.diamond, 5.431, 1⟩

/-- `sampleExponentialEnergy` (realistic_leo_mission_test.cpp:158-162) for the quotient `u` of the draw and `RAND_MAX`. -/
noncomputable def sampleEnergy (mean u : ℝ) : ℝ := -mean * Real.log (1 - u)

/-- `Z1` (realistic_leo_mission_test.cpp:168-170). -/
noncomputable def charge : Particle → ℝ
  | .proton => 1
  | .heavyIon => 26
  | _ => 0

/-- `M1` (realistic_leo_mission_test.cpp:171-173). -/
noncomputable def projectile : Particle → ℝ
  | .proton => 1.007
  | .heavyIon => 55.845
  | _ => 5.486e-4

/-- `epsilon` (realistic_leo_mission_test.cpp:177-181). -/
noncomputable def reduced (k : Particle) (e : ℝ) : ℝ :=
  32.5 * 28.09 * e / ((charge k + 14) * (projectile k + 28.09) * charge k * 14)

/-- `S_n` (realistic_leo_mission_test.cpp:184-194). -/
noncomputable def stopping (x : ℝ) : ℝ :=
  if x < 0.1 then 1
  else if x < 10 then 0.5 * Real.log (1 + 1.1383 * x) / (x + 0.01321 * x ^ (0.21226 : ℝ) + 0.19593 * Real.sqrt x)
  else Real.log x / (2 * x)

/-- `calculateLindhardNIEL` (realistic_leo_mission_test.cpp:165-198). -/
noncomputable def lindhard (e : ℝ) (k : Particle) : ℝ := if charge k = 0 then 0 else stopping (reduced k e) * 1e-2

/-- The empirical correction of the physics-based factor (realistic_leo_mission_test.cpp:216-227). -/
noncomputable def corrected (e : ℝ) (k : Particle) (n : ℝ) : ℝ := match k with
  | .proton => n * (1 + 0.5 * e ^ (-0.3 : ℝ))
  | .heavyIon => n * 2
  | _ => n

/-- The factors taken from the literature (realistic_leo_mission_test.cpp:232-268). -/
noncomputable def literature (e : ℝ) (k : Particle) : ℝ := match k with
  | .proton => if e < 1 then 20000 * e ^ (-0.8 : ℝ) else if e < 10 then 15000 * e ^ (-0.5 : ℝ) else 8000 * e ^ (-0.3 : ℝ)
  | .electron => if 0.1 < e then 500 * e * Real.exp (-e / 5) else 100 * e
  | .heavyIon => 50000 * e ^ (-0.2 : ℝ) * (1 + 100 / e)
  | _ => 1000 * e

/-- `niel_factor` (realistic_leo_mission_test.cpp:210-269). -/
noncomputable def niel (e : ℝ) (k : Particle) : ℝ :=
  if 0 < lindhard e k then corrected e k (lindhard e k) else literature e k

/-- `calculateDPA` (realistic_leo_mission_test.cpp:201-296). -/
noncomputable def dpa (flux e days : ℝ) (k : Particle) (T : ℝ) : R ℝ :=
  (displacement params silicon k).bind fun d => (params.coupling k).bind fun c =>
    .ok (flux * (days * 86400) * niel e k * 2.33 * 1e6 * (1 + 0.05 * (T - 300) / 300) * (1 + c * 0.1) / (5e22 * d))

/-- Days in a time step (realistic_leo_mission_test.cpp:379-380). -/
noncomputable def stepDays : ℝ := 365 / 36

/-- Surface of the cube (realistic_leo_mission_test.cpp:375-376). -/
noncomputable def surface (volume : ℝ) : ℝ := 6 * (volume ^ ((1 : ℝ) / 3)) * (volume ^ ((1 : ℝ) / 3))

/-- Factor of the flux in a step (realistic_leo_mission_test.cpp:392-393). -/
noncomputable def saaFactor (step : ℕ) : ℝ := if step % 10 = 0 then 10 else 1

/-- The threshold of the cascade (realistic_leo_mission_test.cpp:426-439). -/
noncomputable def threshold (k : Particle) : R ℝ :=
  if k = .photon then .ok (params.hbar * params.omega)
  else (displacement params silicon k).bind fun d => .ok (if k = .electron then d * 0.01 else d)

/-- Defects forced for electrons (realistic_leo_mission_test.cpp:446-455); looking up the vacancies creates an empty entry. -/
noncomputable def force (n : ℝ) (k : Particle) (d : Defects) : Defects :=
  if k = .electron ∧ (d.vac k).getD [] = [] then
    ⟨putAt d.inter k ((d.inter k).getD [] ++ [n * 0.001 * 0.25]), putAt d.vac k ((d.vac k).getD [] ++ [n * 0.001 * 0.7]),
      putAt d.clus k ((d.clus k).getD [] ++ [n * 0.001 * 0.05])⟩
  else d

/-- Interstitials and vacancies of a type (realistic_leo_mission_test.cpp:462-488). -/
noncomputable def counted (d : Defects) (k : Particle) : ℝ := total d.inter k + total d.vac k

/-- Classical and corrected number of defects of a step (realistic_leo_mission_test.cpp:441-492). -/
noncomputable def stepDefects (e n : ℝ) (k : Particle) (T : ℝ) : R (ℝ × ℝ) :=
  (threshold k).bind fun t =>
    let d := force n k (cascade (e * 1e6) t k)
    (correct params silicon T [k] d).bind fun q => .ok (counted d k * n, counted q k * n)

/-- `ParticleMetrics` (realistic_leo_mission_test.cpp:98-107) without the field energies. -/
structure Metrics where
  flux : ℝ := 0
  peak : ℝ := 0
  energy : ℝ := 0
  defects : ℝ := 0
  dpa : ℝ := 0
  enhancement : ℝ := 0

/-- `MissionResults` (realistic_leo_mission_test.cpp:96-117). -/
structure Results where
  metrics : Particle → Metrics
  energy : ℝ := 0
  classical : ℝ := 0
  quantum : ℝ := 0

/-- The results before the first step (realistic_leo_mission_test.cpp:303-308, 356-363). -/
noncomputable def start : Results := { metrics := fun k => { energy := meanEnergy k } }

/-- One particle type in one step (realistic_leo_mission_test.cpp:400-519). -/
noncomputable def stepType (l : Leo) (step : ℕ) (k : Particle) (e : ℝ) (r : Results) : R Results :=
  let flux := effective k l.shielding * saaFactor step
  let n := flux * surface l.volume * (stepDays * 86400)
  (dpa flux e stepDays k l.temperature).bind fun x => (stepDefects e n k l.temperature).bind fun c =>
    let m := r.metrics k
    let m' : Metrics := { m with
      peak := if m.peak < flux then flux else m.peak
      flux := m.flux + flux * (stepDays * 86400)
      dpa := m.dpa + x
      defects := m.defects + c.2
      enhancement := (if 0 < c.1 then c.2 / c.1 - 1 else 0) * 100 }
    .ok { metrics := fun j => if j = k then m' else r.metrics j, energy := r.energy + e * n,
          classical := r.classical + c.1, quantum := r.quantum + c.2 }

/-- One time step (realistic_leo_mission_test.cpp:387-520) with the energies sampled in it. -/
noncomputable def stepAll (l : Leo) (step : ℕ) (e : Particle → ℝ) (r : Results) : R Results :=
  (stepType l step .proton (e .proton) r).bind fun r => (stepType l step .electron (e .electron) r).bind fun r =>
    stepType l step .heavyIon (e .heavyIon) r

/-- `simulateLEOMission` (realistic_leo_mission_test.cpp:299-541). -/
noncomputable def simulate (l : Leo) (e : ℕ → Particle → ℝ) : R Results :=
  forN 36 (fun i (acc : R Results) => acc.bind (stepAll l i (e i))) (.ok start)

/-- Total displacement damage (realistic_leo_mission_test.cpp:530-533). -/
noncomputable def totalDpa (r : Results) : ℝ := (r.metrics .proton).dpa + (r.metrics .electron).dpa + (r.metrics .heavyIon).dpa

/-- The three checks and their conjunction (realistic_leo_mission_test.cpp:621-644). -/
def valid (r : Results) : Prop :=
  (1e-4 ≤ totalDpa r ∧ totalDpa r ≤ 1e-2) ∧ (r.metrics .proton).defects < (r.metrics .electron).defects ∧
    (r.metrics .heavyIon).defects < (r.metrics .proton).defects

/-- Overall enhancement in percent (realistic_leo_mission_test.cpp:604-607). -/
noncomputable def overallEnhancement (r : Results) : ℝ :=
  if 0 < r.classical then (r.quantum / r.classical - 1) * 100 else 0

end Verif.LeoMission
