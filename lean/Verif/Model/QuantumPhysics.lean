import Verif.Model.QuantumField
import Verif.Spec.Bytes
import Mathlib.Analysis.Real.Pi.Bounds
import Mathlib.Algebra.Order.Archimedean.Real.Basic
/-!
Model of the quantum corrections of /repo/src/rad_ml/physics/quantum_field_theory.cpp:519-706, of the scalar functions of /repo/src/rad_ml/physics/quantum_models.cpp and of `QuantumEnhancedRadiation` (/repo/src/rad_ml/physics/quantum_enhanced_radiation.cpp).

`double` is ℝ; divisions by 0 are only meaningful where a definition says so.  Particle types, parameters and results are those of the model of quantum fields.
Maps from particle types are functions to optional values.  The random engine is a stream of numbers in [0, 1).  Log output is left out.
-/
namespace Verif.QuantumPhysics
open Verif.QuantumField

/-- Boltzmann's constant in eV/K (quantum_field_theory.cpp:549, 650; quantum_models.cpp:58). -/
noncomputable def kB : ℝ := 8.617333262 * 10⁻¹ ^ 5

/-- The elementary charge (quantum_field_theory.cpp:553, 559, 589, 606; quantum_enhanced_radiation.hpp:58). -/
noncomputable def q0 : ℝ := 1.602176634 * 10⁻¹ ^ 19

/-- `std::clamp(x, 0.0, 1.0)` (quantum_field_theory.cpp:580). -/
noncomputable def unit (x : ℝ) : ℝ := if x < 0 then 0 else if 1 < x then 1 else x

/-- `P_thermal` (quantum_field_theory.cpp:574); at temperature 0 the exponent is minus infinity. -/
noncomputable def thermal (barrier T : ℝ) : ℝ := if T = 0 then 0 else Real.exp (-barrier / (kB * T))

/-- `P_tunnel` (quantum_field_theory.cpp:553-571). -/
noncomputable def wkb (barrier mass hbar : ℝ) : ℝ := Real.exp (-2 * (2 * 10⁻¹ ^ 10) * Real.sqrt (2 * mass * (barrier * q0)) / (hbar * q0))

/-- `calculateQuantumTunnelingProbability` (quantum_field_theory.cpp:545-581). -/
noncomputable def tunnel (barrier mass hbar T : ℝ) : ℝ :=
  if barrier ≤ 0 ∨ mass ≤ 0 ∨ hbar ≤ 0 then 0
  else unit (wkb barrier mass hbar + thermal barrier T - wkb barrier mass hbar * thermal barrier T)

/-- `calculateQuantumTunnelingProbability` for a particle type (quantum_field_theory.cpp:536-543). -/
noncomputable def tunnelFor (p : QParams) (k : Particle) (barrier T : ℝ) : R ℝ := (p.mass k).bind fun m => .ok (tunnel barrier m p.hbar T)

/-- `calculateZeroPointEnergyContribution` (quantum_field_theory.cpp:583-607). -/
noncomputable def zeroPoint (hbar mass lattice T : ℝ) : ℝ :=
  0.5 * (hbar * q0) * Real.sqrt (10 / ((lattice * 10⁻¹ ^ 10) * (lattice * 10⁻¹ ^ 10)) / mass) / q0 * (1 / (1 + T / 100))

/-- `calculateQuantumCorrectedDefectEnergy` (quantum_field_theory.cpp:520-534). -/
noncomputable def defectEnergy (p : QParams) (k : Particle) (T energy : ℝ) : R ℝ := (p.mass k).bind fun m => .ok (energy - zeroPoint p.hbar m p.lattice T)

/-- `CrystalLattice::Type` (quantum_field_theory.hpp:96). -/
inductive Lattice where
  | fcc | bcc | diamond
  deriving DecidableEq

/-- `CrystalLattice` (quantum_field_theory.hpp:95-106). -/
structure Crystal where
  type : Lattice
  constant : ℝ
  barrier : ℝ

/-- `DefectDistribution` (quantum_field_theory.hpp:109-123). -/
structure Defects where
  inter : Particle → Option (List ℝ)
  vac : Particle → Option (List ℝ)
  clus : Particle → Option (List ℝ)

/-- The default constructor (quantum_field_theory.hpp:115-122). -/
noncomputable def Defects.default : Defects := ⟨fun k => if k = .proton then some [1, 2, 3] else none, fun k => if k = .proton then some [1, 2, 3] else none, fun k => if k = .proton then some [1 / 2, 1, 3 / 2] else none⟩

/-- All particle types in the order of the enumeration, which is that of the set of types (quantum_field_theory.hpp:31-41, quantum_field_theory.cpp:618). -/
def allTypes : List Particle := [.proton, .electron, .neutron, .photon, .heavyIon, .positron, .muon, .neutrino]

/-- The types processed (quantum_field_theory.cpp:617-633). -/
def typesToProcess (d : Defects) (asked : List Particle) : List Particle :=
  allTypes.filter fun k => if asked = [] then (d.inter k).isSome || (d.vac k).isSome || (d.clus k).isSome else decide (k ∈ asked)

/-- `temp_scale` (quantum_field_theory.cpp:670-674). -/
noncomputable def tempScale (p : QParams) (T : ℝ) : ℝ := if T < p.threshold then 1 + (p.threshold - T) / p.scaling else 1

/-- The three enhancement factors (quantum_field_theory.cpp:640-662) for a mass. -/
noncomputable def enhancement (p : QParams) (c : Crystal) (T m : ℝ) : ℝ × ℝ × ℝ :=
  let t := tunnel c.barrier m p.hbar T
  let z := zeroPoint p.hbar m c.constant T
  let cap := 1 + kB * T / c.barrier
  (min (1 + 5 * t) cap, min (1 + 3 * t) cap, min (1 + 2 * z / c.barrier) cap)

/-- A map with the values of one type multiplied (quantum_field_theory.cpp:683-702). -/
noncomputable def scaleAt (m : Particle → Option (List ℝ)) (k : Particle) (x : ℝ) : Particle → Option (List ℝ) := fun j => if j = k then (m j).map (fun l => l.map (· * x)) else m j

/-- The loop over the types (quantum_field_theory.cpp:640-703). -/
noncomputable def correctLoop (p : QParams) (c : Crystal) (T : ℝ) : List Particle → Defects → R Defects
  | [], d => .ok d
  | k :: ks, d => (p.mass k).bind fun m =>
    let e := enhancement p c T m
    let s := tempScale p T
    correctLoop p c T ks ⟨scaleAt d.inter k (e.1 * s), scaleAt d.vac k (e.2.1 * s), scaleAt d.clus k (e.2.2 * s)⟩

/-- `applyQuantumFieldCorrections` (quantum_field_theory.cpp:609-706). -/
noncomputable def correct (p : QParams) (c : Crystal) (T : ℝ) (asked : List Particle) (d : Defects) : R Defects := correctLoop p c T (typesToProcess d asked) d

/-- Sum of the entry of a type (quantum_models.cpp:25-41). -/
noncomputable def total (m : Particle → Option (List ℝ)) (k : Particle) : ℝ := ((m k).getD []).sum

/-- `calculateQuantumDecoherence` (quantum_models.cpp:18-50) with the rates of quantum_models.hpp:47-58. -/
noncomputable def decoherence (rates diss : Particle → Option ℝ) (d : Defects) (T : ℝ) (k : Particle) : ℝ :=
  (rates k).getD (10⁻¹ ^ 12) * (1 + T / 300) * (1 + (total d.inter k + total d.vac k + total d.clus k) * (diss k).getD 0.01)

/-- The adjustment for the particle type (quantum_models.cpp:68-76). -/
noncomputable def adjust (t : ℝ) : Particle → ℝ
  | .photon => max 0 (t * 1.5)
  | .electron => min 1 (t * 1.2)
  | _ => t

/-- `calculateQuantumTransitionProbability` (quantum_models.cpp:52-80). -/
noncomputable def transition (p : QParams) (k : Particle) (energy T : ℝ) : R ℝ := (p.mass k).bind fun _ => .ok (unit (adjust (1 - Real.exp (-energy / (kB * T + p.hbar * 10 ^ 15))) k))

/-- The base of `calculateDisplacementEnergy` (quantum_models.cpp:86-112). -/
noncomputable def displacementBase (c : Crystal) (k : Particle) : ℝ :=
  let b : ℝ := match c.type with
    | .fcc => 15 + 2.5 * c.constant
    | .bcc => 10 + 3 * c.constant
    | .diamond => 20 + 4 * c.constant
  match k with
  | .electron => b * 0.5
  | .proton | .heavyIon => b * 1.5
  | _ => b

/-- `calculateDisplacementEnergy` (quantum_models.cpp:82-122). -/
noncomputable def displacement (p : QParams) (c : Crystal) (k : Particle) : R ℝ := (p.mass k).bind fun m => .ok (displacementBase c k + zeroPoint p.hbar m c.constant 300)

/-- The fractions of vacancies, interstitials and clusters (quantum_models.cpp:139-155). -/
noncomputable def fractions : Particle → ℝ × ℝ × ℝ
  | .electron => (0.7, 0.25, 0.05)
  | .heavyIon => (0.5, 0.2, 0.3)
  | _ => (0.6, 0.3, 0.1)

/-- A map with one entry replaced (quantum_models.cpp:157-175). -/
noncomputable def putAt (m : Particle → Option (List ℝ)) (k : Particle) (l : List ℝ) : Particle → Option (List ℝ) := fun j => if j = k then some l else m j

/-- `simulateDisplacementCascade` (quantum_models.cpp:124-179) for a displacement energy other than 0; crystal and parameters are not used. -/
noncomputable def cascade (pka threshold : ℝ) (k : Particle) : Defects :=
  if threshold < pka then
    let n : ℝ := ⌊0.8 * pka / threshold⌋
    let f := fractions k
    ⟨putAt Defects.default.inter k [n * f.2.1 * 0.4, n * f.2.1 * 0.4, n * f.2.1 * 0.2], putAt Defects.default.vac k [n * f.1 * 0.6, n * f.1 * 0.3, n * f.1 * 0.1],
      putAt Defects.default.clus k [n * f.2.2 * 0.7, n * f.2.2 * 0.2, n * f.2.2 * 0.1]⟩
  else Defects.default

/-- `MemoryDeviceType` (quantum_enhanced_radiation.hpp:24-32). -/
inductive Device where
  | sram6 | sram8 | dram | slc | mlc | mram | fram
  deriving DecidableEq

/-- The members of `SemiconductorProperties` that are read (quantum_enhanced_radiation.hpp:37-44). -/
structure Material where
  bandgap : ℝ
  massRatio : ℝ
  lattice : ℝ
  critical : ℝ
  temperature : ℝ

/-- The default material (quantum_enhanced_radiation.hpp:38-43). -/
noncomputable def Material.default : Material := ⟨1.12, 0.26, 0.543, 15, 300⟩

/-- `HBAR_EV_S` (quantum_enhanced_radiation.hpp:60). -/
noncomputable def hbarEv : ℝ := 6.582119569 * 10⁻¹ ^ 16

/-- The parameters set up by the constructor (quantum_enhanced_radiation.cpp:16-33). -/
noncomputable def Material.params (a : Material) : QParams := { QParams.default with
  hbar := hbarEv
  lattice := a.lattice * 10⁻¹ ^ 9
  threshold := a.temperature
  scaling := 100
  masses := fun k => if k = .heavyIon then some (12000 * (1.782662 * 10⁻¹ ^ 36)) else defaultMass k }

/-- `calculateQuantumCollectionEfficiency` (quantum_enhanced_radiation.cpp:322-355). -/
noncomputable def efficiency (a : Material) (charge : ℝ) (dev : Device) : R ℝ :=
  let base : ℝ := match dev with
    | .sram6 | .sram8 => 0.9
    | .dram => 0.7
    | .slc | .mlc => 0.6
    | .mram | .fram => 0.95
  (if charge < a.critical * 0.1 then (tunnelFor a.params .proton (a.bandgap * 0.5) a.temperature).bind fun t => .ok (base + t * 0.1) else R.ok base).bind fun e =>
    .ok (if e < 0.1 then 0.1 else if 1 < e then 1 else e)

/-- The crystal used for charge deposition (quantum_enhanced_radiation.cpp:44-46). -/
noncomputable def Material.crystal (a : Material) : Crystal := ⟨.diamond, a.lattice * 10⁻¹ ^ 10, a.bandgap⟩

/-- The defects of an impact (quantum_enhanced_radiation.cpp:49-53). -/
noncomputable def impactDefects (c : ℝ) (k : Particle) : Defects := ⟨putAt Defects.default.inter k [c * 0.3], putAt Defects.default.vac k [c * 0.5], putAt Defects.default.clus k [c * 0.2]⟩

/-- `calculateQuantumChargeDeposition` (quantum_enhanced_radiation.cpp:35-87); the particle energy is not used. -/
noncomputable def deposit (a : Material) (_energy let' : ℝ) (k : Particle) : R ℝ :=
  (correct a.params a.crystal a.temperature [k] (impactDefects (let' * 0.278) k)).bind fun d =>
    let q := total d.inter k + total d.vac k + total d.clus k
    (efficiency a q .sram6).bind fun e => .ok (q * e)

/-- `calculateTemperatureCriticalCharge` (quantum_enhanced_radiation.cpp:89-107). -/
noncomputable def criticalCharge (a : Material) (base T : ℝ) : R ℝ := (tunnelFor a.params .proton a.bandgap T).bind fun t =>
  .ok (max (base * (1 - 0.3 * t) * (1 + (T - 300) / 1000)) (base * 0.5))

/-- The base sensitivities (quantum_enhanced_radiation.cpp:113-136). -/
noncomputable def baseSensitivity : Device → ℝ
  | .sram6 => 1
  | .sram8 => 0.7
  | .dram => 1.5
  | .slc => 0.3
  | .mlc => 0.8
  | .mram => 0.1
  | .fram => 0.2

/-- `calculateDeviceSensitivity` (quantum_enhanced_radiation.cpp:109-155). -/
noncomputable def sensitivity (a : Material) (dev : Device) (size : ℝ) : ℝ :=
  baseSensitivity dev * (if size < 100 then 1 + (hbarEv * hbarEv * Real.pi * Real.pi) / (2 * a.massRatio * (9.109 * 10⁻¹ ^ 31) * (size * 10⁻¹ ^ 9) * (size * 10⁻¹ ^ 9)) / q0 / a.bandgap else 1)

/-- The factors of the critical charge (quantum_enhanced_radiation.cpp:165-187). -/
noncomputable def chargeFactor : Device → ℝ
  | .sram6 => 1
  | .sram8 => 1.4
  | .dram => 0.8
  | .slc => 5
  | .mlc => 2
  | .mram => 10
  | .fram => 8

/-- `calculateEnhancedBitFlipProbability` (quantum_enhanced_radiation.cpp:157-215). -/
noncomputable def flipProbability (a : Material) (charge : ℝ) (dev : Device) (T : ℝ) : R ℝ := (criticalCharge a (a.critical * chargeFactor dev) T).bind fun c =>
  if charge ≤ 0 ∨ c ≤ 0 then .ok 0
  else
    let w := 1 - Real.exp (-(charge / c / 1) ^ 2)
    if charge / c < 0.1 then (tunnelFor a.params .proton a.bandgap T).bind fun t => .ok (unit (w + t * 0.1)) else .ok (unit w)

/-- The clustering of a particle type (quantum_enhanced_radiation.cpp:286-300). -/
noncomputable def clustering : Particle → ℝ
  | .proton => 1
  | .neutron => 1.2
  | .heavyIon => 3
  | _ => 1.5

/-- `calculateQuantumMBUSize` (quantum_enhanced_radiation.cpp:270-307); converting a number outside 32 bits is undefined, as is a critical charge of 0. -/
noncomputable def mbuSize (a : Material) (charge : ℝ) (k : Particle) : R ℕ :=
  if charge < a.critical * 2 then .ok 1
  else if a.critical = 0 then .ub
  else
    let x := charge / (a.critical * 2) * clustering k
    if ⌈x⌉ < 0 ∨ 2 ^ 32 ≤ ⌈x⌉ then .ub else .ok (min (max ⌈x⌉.toNat 1) 8)

/-- A run of adjacent bits flipped in a byte (quantum_enhanced_radiation.cpp:256-260). -/
def flipRun (b : BitVec 8) (start : ℕ) : ℕ → BitVec 8
  | 0 => b
  | n + 1 => flipRun (b ^^^ BitVec.twoPow 8 start) (start + 1) n

/-- The loop over the impacts (quantum_enhanced_radiation.cpp:247-262): memory and number of flips; `u` is the stream of random numbers. -/
noncomputable def impacts (prob : ℝ) (mbu : ℕ) (u : ℕ → ℝ) : ℕ → ℕ → List (BitVec 8) → ℕ → List (BitVec 8) × ℕ
  | 0, _, mem, flips => (mem, flips)
  | n + 1, i, mem, flips =>
    if u i < prob then
      let byte := ⌊u (i + 1) * mem.length⌋₊
      let start := ⌊u (i + 2) * 8⌋₊
      let bits := min mbu (8 - start)
      impacts prob mbu u n (i + 3) (mem.modify byte fun b => flipRun b start bits) (flips + bits)
    else impacts prob mbu u n (i + 1) mem flips

/-- `applyQuantumEnhancedRadiation` (quantum_enhanced_radiation.cpp:217-268): `none` is the null pointer; the result is the memory and the number returned, which is not bounded.  A number of impacts that does not fit 32 bits is undefined. -/
noncomputable def applyRadiation (a : Material) (mem : Option (List (BitVec 8))) (energy let' : ℝ) (k : Particle) (dev : Device) (ms : ℕ) (u : ℕ → ℝ) : R (Option (List (BitVec 8)) × ℕ) := match mem with
  | none => .ok (none, 0)
  | some m =>
    if m.length = 0 then .ok (some m, 0)
    else (deposit a energy let' k).bind fun charge => (flipProbability a charge dev a.temperature).bind fun prob => (mbuSize a charge k).bind fun mbu =>
      let n := ⌊prob * m.length * ((ms : ℝ) / 1000) * 0.01⌋₊
      if 2 ^ 32 ≤ n then .ub
      else
        let r := impacts prob mbu u (max 1 n) 0 m 0
        .ok (some r.1, r.2)

end Verif.QuantumPhysics
