import Mathlib.Analysis.SpecialFunctions.Sqrt
import Mathlib.Analysis.SpecialFunctions.Exp
/-!
Model of /repo/src/physics/quantum_integration.cpp and /repo/include/rad_ml/physics/quantum_integration.hpp.

The source defines functions that its own header and quantum_field_theory.cpp define as well, and is in no build target; it is modelled as its text defines it.  `double` is a real number.  Console output is left out.
-/
namespace Verif.QuantumIntegration

/-- `CrystalLattice::Type` (quantum_field_theory.hpp:98). -/
inductive Lattice where
  | fcc | bcc | diamond
  deriving DecidableEq

/-- `ParticleType` (quantum_field_theory.hpp:31-41). -/
inductive Particle where
  | proton | electron | neutron | photon | heavyIon | positron | muon | neutrino
  deriving DecidableEq

/-- `CrystalLattice` (quantum_field_theory.hpp:97-108). -/
structure Crystal where
  type : Lattice
  constant : ℝ
  barrier : ℝ

/-- `DefectDistribution` (quantum_field_theory.hpp:111-123). -/
structure Defects where
  inter : Particle → Option (List ℝ)
  vac : Particle → Option (List ℝ)
  clus : Particle → Option (List ℝ)

/-- `QuantumCorrectionConfig` (quantum_integration.hpp:22-28). -/
structure Config where
  enable : Bool
  temperature : ℝ
  size : ℝ
  intensity : ℝ
  force : Bool

/-- `getDefaultQuantumConfig` (quantum_integration.hpp:33-41). -/
noncomputable def Config.default : Config := ⟨true, 150, 20, 10 ^ 5, false⟩

/-- `shouldApplyQuantumCorrections` (quantum_integration.cpp:65-84). -/
noncomputable def should (T size intensity : ℝ) (c : Config) : Bool :=
  if !c.enable then false else if c.force then true
  else decide (T < c.temperature) || decide (size < c.size) || decide (c.intensity < intensity)

/-- Reduced Planck constant (quantum_integration.cpp:14). -/
noncomputable def hbar : ℝ := 6.582119569 * 10⁻¹ ^ 16

/-- The proton mass `createQFTParameters` sets (quantum_integration.cpp:18-31). -/
noncomputable def mass : Lattice → ℝ
  | .fcc => 1.0 * 10⁻¹ ^ 30
  | .bcc => 1.1 * 10⁻¹ ^ 30
  | .diamond => 0.9 * 10⁻¹ ^ 30

/-- The coupling constant of protons (quantum_integration.cpp:41-45). -/
noncomputable def coupling (c : Crystal) : ℝ := 0.1 * (c.constant / 5)

/-- `calculateQuantumTunnelingProbability` (quantum_integration.cpp:219-258). -/
noncomputable def tunnel (barrier mass hbar T : ℝ) : ℝ :=
  let temp := max T 1
  let thermal := 8.617333262 * 10⁻¹ ^ 5 * temp
  let b := max barrier 0.01
  let exponent := max (-30) (-2 * 1 * Real.sqrt (2 * mass * b) / hbar)
  let base := min 0.1 (Real.exp exponent)
  let ratio := min 10 (thermal / (2 * b))
  min 0.05 (max 0 (base * Real.exp (-ratio)))

/-- `solveKleinGordonEquation` (quantum_integration.cpp:260-289). -/
noncomputable def kleinGordon (hbar mass potential coupling spacing dt : ℝ) : ℝ :=
  let s := max spacing 0.001
  let m := max mass (10⁻¹ ^ 32)
  let dispersion := min 0.1 (hbar * hbar / (2 * m * s * s))
  let interaction := min 0.1 (coupling * potential)
  let stability := dispersion * dt / (s * s)
  min 0.05 (max 0.001 (stability * (1 + interaction)))

/-- `calculateZeroPointEnergyContribution` (quantum_integration.cpp:291-323). -/
noncomputable def zeroPoint (hbar mass constant T : ℝ) : ℝ :=
  let temp := max T 1
  let m := max mass (10⁻¹ ^ 32)
  let a := max constant 0.1
  let spring := 5 / (a * a)
  let omega := min (10 ^ 15) (max (10 ^ 12) (Real.sqrt (spring / m)))
  let zpe := 0.5 * hbar * omega
  let thermal := 8.617333262 * 10⁻¹ ^ 5 * temp
  min 0.05 (zpe * (1 / (1 + thermal / (hbar * omega))))

/-- The parameters of one correction: tunnelling, Klein-Gordon, zero-point energy (quantum_integration.cpp:146-161). -/
structure Terms where
  tunnel : ℝ
  kg : ℝ
  zpe : ℝ

/-- The terms for a crystal (quantum_integration.cpp:97-102, 146-161). -/
noncomputable def terms (c : Crystal) (size T : ℝ) : Terms :=
  ⟨tunnel c.barrier (mass c.type) hbar T,
   kleinGordon hbar (mass c.type) 0.5 (coupling c) (size / 100) (10⁻¹ ^ 18),
   zeroPoint hbar (mass c.type) c.constant T⟩

/-- `value *= 1 + a * tunnelling + b * kg; value += zpe * value * 0.008` (quantum_integration.cpp:181-183, 192-194, 203-205). -/
noncomputable def correct (t : Terms) (a b v : ℝ) : ℝ :=
  let w := v * (1 + a * t.tunnel + b * t.kg)
  w + t.zpe * w * 0.008

/-- The particle types corrected (quantum_integration.cpp:164-165). -/
def Particle.treated : Particle → Bool
  | .proton | .electron | .neutron | .photon => true
  | _ => false

/-- `applyQuantumFieldCorrections` (quantum_integration.cpp:139-217). -/
noncomputable def applyField (d : Defects) (t : Terms) : Defects where
  inter k := if k.treated then (d.inter k).map (List.map (correct t 1.2 0.8)) else d.inter k
  vac k := if k.treated then (d.vac k).map (List.map (correct t 0.4 0.6)) else d.vac k
  clus k := if k.treated then (d.clus k).map (List.map (correct t 0.8 0.8)) else d.clus k

/-- `applyQuantumCorrectionsToSimulation` (quantum_integration.cpp:86-105). -/
noncomputable def simulate (d : Defects) (c : Crystal) (T size intensity : ℝ) (cfg : Config) : Defects :=
  if should T size intensity cfg then applyField d (terms c size T) else d

/-- `calculateQuantumEnhancementFactor` (quantum_integration.cpp:107-134). -/
noncomputable def enhancement (T size : ℝ) : ℝ :=
  let e := if T < 150 then 1 * (1 + min 5 (150 / max T 10) * 0.04) else 1
  if size < 20 then e * (1 + min 4 (20 / max size 2) * 0.08) else e

/-- `calculateQuantumEnhancementFactor` as the header defines it (quantum_integration.hpp:171-188), for temperatures and sizes other than 0. -/
noncomputable def enhancementHeader (T size : ℝ) : ℝ :=
  let e := if T < 150 then 1 * (1 + Real.exp (300 / T - 1) * 0.05) else 1
  if size < 20 then e * (1 + Real.exp (20 / size - 1) * 0.1) else e

end Verif.QuantumIntegration
