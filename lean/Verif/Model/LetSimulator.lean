import Verif.Model.PhysicsDriven
import Verif.Spec.XReal
import Mathlib.Analysis.SpecialFunctions.Pow.Real
import Mathlib.Analysis.SpecialFunctions.Trigonometric.DerivHyp
/-!
The simulator with linear energy transfer (LET): class `EnhancedRadiationSimulator` of /repo/src/testing/radiation_simulator.cpp.

No build target contains the file, and it does not compile as committed (a `case` label jumps over the initialisation of `effective_z`, const members draw from `rng_`);
modelled is its text.  Energies and parameters are real numbers, results that can leave them are ideal doubles (`XD`), `std::exp`, `std::log`, `std::sqrt`, `std::pow`,
`std::tanh` the real functions with the IEEE results at the edge of their domain; random draws are parameters.
-/
namespace Verif.LetSim
open Classical

/-- `ParticleType` (radiation_simulator.cpp:11). -/
inductive Particle where
  | proton | electron | heavyIon | photon
  deriving DecidableEq

/-- `MaterialType` (radiation_simulator.cpp:13). -/
inductive Material where
  | silicon | gaAs | siC
  deriving DecidableEq

/-- `ErrorType` (radiation_simulator.cpp:15). -/
inductive Err where
  | single | multi | block
  deriving DecidableEq

/-- `EnvironmentParams` with its defaults (radiation_simulator.cpp:29-36). -/
structure Params where
  altitude : ℝ := 400
  solar : ℝ := 1
  saa : Bool := false
  shielding : ℝ := 5
  temperature : ℝ := 300
  physics : Bool := true

/-- `MaterialProperties` (radiation_simulator.cpp:57-62). -/
structure Mat where
  z : ℝ
  a : ℝ
  density : ℝ
  i : ℝ

/-- `getMaterialProperties` (radiation_simulator.cpp:254-290) with the constants of silicon (:47-50). -/
noncomputable def mat : Material → Mat
  | .silicon => ⟨14, 2809 / 100, 233 / 100, 173 / 1000000⟩
  | .gaAs => ⟨(31 + 33) / 2, (697 / 10 + 749 / 10) / 2, 532 / 100, 384 / 1000000⟩
  | .siC => ⟨(14 + 6) / 2, (281 / 10 + 12) / 2, 321 / 100, 116 / 1000000⟩

/-- `ELECTRON_REST_MASS_MEV` (radiation_simulator.cpp:41). -/
noncomputable def me : ℝ := 511 / 1000

/-- `getParticleRestMass` (radiation_simulator.cpp:292-304) with the constants (:41-42). -/
noncomputable def restMass : Particle → ℝ
  | .proton => 9383 / 10
  | .electron => me
  | .heavyIon => 52 * (9383 / 10)
  | .photon => 9383 / 10

/-- `getParticleCharge` (radiation_simulator.cpp:306-318). -/
def charge : Particle → ℝ
  | .proton => 1
  | .electron => 1
  | .heavyIon => 26
  | .photon => 1

/-- `std::sqrt`, as used at radiation_simulator.cpp:179, 325, 326, 341. -/
noncomputable def xsqrt : XD → XD
  | .fin r => if 0 ≤ r then .fin (Real.sqrt r) else .nan
  | .pinf => .pinf
  | _ => .nan

/-- `std::log`, as used at radiation_simulator.cpp:200, 332. -/
noncomputable def xlog : XD → XD
  | .fin r => if 0 < r then .fin (Real.log r) else if r = 0 then .ninf else .nan
  | .pinf => .pinf
  | _ => .nan

/-- `std::exp`, as used at radiation_simulator.cpp:477, 526. -/
noncomputable def xexp : XD → XD
  | .fin r => .fin (Real.exp r)
  | .pinf => .pinf
  | .ninf => .fin 0
  | .nan => .nan

/-- `std::pow(x, -a)` for positive `a` that is no integer, as used at radiation_simulator.cpp:221, 224, 239. -/
noncomputable def powNeg (x a : ℝ) : XD := if 0 < x then .fin (x ^ (-a)) else if x = 0 then .pinf else .nan

/-- `calculateBaseFlux` (radiation_simulator.cpp:143-154). -/
noncomputable def baseFlux (p : Params) : ℝ :=
  10000 * Real.exp (-p.altitude / 1000) * (1 + (p.solar - 1) * (2 / 10)) * (if p.saa then 10 else 1)

/-- `calculateDensityCorrection` (radiation_simulator.cpp:320-334). -/
noncomputable def densityCorrection (beta : XD) (m : Mat) : XD :=
  let plasma := 288 / 10 / 1000000 * Real.sqrt (m.density * m.z / m.a)
  let gamma := XD.div (.fin 1) (xsqrt ((XD.fin 1).sub (beta.mul beta)))
  if beta.lt (.fin (1 / 10)) then .fin 0
  else
    let delta := ((xlog (.fin (plasma / m.i))).add (xlog (beta.mul gamma))).sub (.fin (1 / 2))
    XD.max (.fin 0) delta

/-- `calculateShellCorrection` (radiation_simulator.cpp:336-350). -/
noncomputable def shellCorrection (e : ℝ) (t : Particle) : XD :=
  let ratio := XD.div (xsqrt (.fin (2 * e / restMass t))) (.fin 137)
  if (XD.fin 1).lt ratio then .fin 0
  else ((XD.fin (charge t)).mul ratio).mul (.fin (1 / 10))

/-- The constant `K` (radiation_simulator.cpp:185-187) with the radius and Avogadro's number (:43-44). -/
noncomputable def kConst : ℝ := 4 * Real.pi * (2818 / 10 ^ 16) * (2818 / 10 ^ 16) * me * (6022 * 10 ^ 20)

/-- `calculateBetheBlochLET` (radiation_simulator.cpp:169-206). -/
noncomputable def betheBloch (t : Particle) (e : ℝ) (material : Material) : XD :=
  let m := mat material
  let rest := restMass t
  let gamma := 1 + e / rest
  let beta2 := (XD.fin 1).sub (XD.div (.fin 1) (.fin (gamma * gamma)))
  let beta := xsqrt beta2
  let z := charge t
  let dc := densityCorrection beta m
  let sc := shellCorrection e t
  let tmax := XD.div (((XD.fin (2 * me)).mul beta2).mul (.fin (gamma * gamma))) (.fin (1 + 2 * gamma * me / rest + me / rest * (me / rest)))
  let arg := XD.div ((((XD.fin (2 * me)).mul beta2).mul (.fin (gamma * gamma))).mul tmax) (.fin (m.i * m.i))
  let dedx := ((XD.fin (kConst * (z * z) * (m.z / m.a))).mul (XD.div (.fin m.density) beta2)).mul
    (((((XD.fin (1 / 2)).mul (xlog arg)).sub beta2).sub dc).sub sc)
  XD.div dedx (.fin 1000)

/-- `calculateEmpiricalLET` before the factor of the material (radiation_simulator.cpp:214-244). -/
noncomputable def empiricalBase (t : Particle) (e : ℝ) : XD :=
  match t with
  | .proton => if e < 10 then (XD.fin 15).mul (powNeg e (8 / 10)) else (XD.fin 3).mul (powNeg e (5 / 10))
  | .electron => if 1 / 2 < e then .fin (2 / 10 * Real.log (e + 1)) else .fin (1 / 10 * e)
  | .heavyIon => (XD.fin (1 / 2 * 26 * 26)).mul (powNeg e (3 / 10))
  | .photon => .fin (1 * e * (1 / 10))

/-- The factor of the material (radiation_simulator.cpp:247-249). -/
noncomputable def materialFactor (m : Material) : ℝ := Real.sqrt ((mat m).z / (mat m).a) * ((mat m).density / (233 / 100))

/-- `calculateEmpiricalLET` (radiation_simulator.cpp:208-252). -/
noncomputable def empirical (t : Particle) (e : ℝ) (m : Material) : XD := (empiricalBase t e).mul (.fin (materialFactor m))

/-- `calculateLET` (radiation_simulator.cpp:157-167). -/
noncomputable def calculateLET (p : Params) (t : Particle) (e : ℝ) (m : Material) : XD :=
  if p.physics then betheBloch t e m else empirical t e m

/-- `calculateMeanLET` (radiation_simulator.cpp:352-376). -/
noncomputable def meanLET (p : Params) : XD :=
  let base := if p.physics then
      (((calculateLET p .proton 30 .silicon).mul (.fin (7 / 10))).add ((calculateLET p .electron 2 .silicon).mul (.fin (25 / 100)))).add
        ((calculateLET p .heavyIon 500 .silicon).mul (.fin (5 / 100)))
    else .fin 10
  (base.mul (.fin (1 + p.altitude / 1000 * (1 / 10)))).mul (.fin (Real.exp (-p.shielding / 10)))

/-- The parameters of the four distributions (radiation_simulator.cpp:122-141, 378-406). -/
structure Dists where
  letLog : XD
  letSigma : ℝ
  fluxShape : ℝ
  fluxScale : ℝ
  energyShape : ℝ
  energyScale : ℝ

/-- `initializeDistributions` (radiation_simulator.cpp:122-141); a log-normal, gamma or Weibull distribution with a parameter out of its range is undefined. -/
noncomputable def initDists (p : Params) : Outcome Dists :=
  let l := xlog (meanLET p)
  let scale := baseFlux p / 2
  if 0 < scale then .ok ⟨l, 1 / 2, 2, scale, 3 / 2, 50⟩ else .ub

/-- `sampleParticleType` for a draw in [0, 1) (radiation_simulator.cpp:450-465). -/
noncomputable def sampleParticle (u : ℝ) : Particle := if u < 7 / 10 then .proton else if u < 95 / 100 then .electron else .heavyIon

/-- The upper end of the locations: `memory_size - 1` in `size_t` (radiation_simulator.cpp:470). -/
def lastLocation (size : ℕ) : ℕ := (size + 2 ^ 64 - 1) % 2 ^ 64

/-- `calculateErrorProbability` (radiation_simulator.cpp:474-490). -/
noncomputable def errorProbability (p : Params) (l : XD) (e : ℝ) : XD :=
  let lf := (XD.fin 1).sub (xexp (XD.div l.neg (.fin 20)))
  ((((XD.fin (5 / 100)).mul lf).mul (.fin (Real.tanh (e / 50)))).mul (.fin (Real.exp (-p.shielding / 15)))).mul
    (.fin (Real.exp (-(1 / 10) * (p.temperature - 300) / 300)))

/-- `determineErrorType` for a draw in [0, 1) (radiation_simulator.cpp:492-512). -/
noncomputable def errorType (l : XD) (u : ℝ) : Err :=
  if l.lt (.fin 10) then .single
  else if l.lt (.fin 30) then (if u < 7 / 10 then .single else .multi)
  else if l.lt (.fin 80) then .multi
  else (if u < 6 / 10 then .multi else .block)

/-- `calculateErrorMagnitude` (radiation_simulator.cpp:514-529). -/
noncomputable def errorMagnitude (l : XD) (e : ℝ) : XD :=
  let lf := XD.div (XD.div (xlog (l.add (.fin 1))) (.fin (Real.log 10))) (.fin 2)
  let ef := XD.div (xsqrt (.fin e)) (.fin 10)
  let ce := (XD.fin 1).sub (xexp (XD.div l.neg (.fin 50)))
  (lf.mul ef).mul ce

/-- `RadiationEvent` (radiation_simulator.cpp:18-26) and the particle that caused it. -/
structure Event where
  particle : Particle
  «let» : XD
  energy : ℝ
  angle : ℝ
  location : ℕ
  probability : XD
  type : Err
  magnitude : XD

/-- The draws for one particle; `location` chooses a number up to the given one (radiation_simulator.cpp:426-440). -/
structure Draw where
  energy : ℝ
  angle : ℝ
  kind : ℝ
  location : ℕ → ℕ
  hit : ℝ
  type : ℝ

/-- The event of one particle, if there is an error (radiation_simulator.cpp:422-444). -/
noncomputable def particleEvent (p : Params) (size : ℕ) (d : Draw) : Option Event :=
  let t := sampleParticle d.kind
  let l := calculateLET p t d.energy .silicon
  let pr := errorProbability p l d.energy
  if (XD.fin d.hit).lt pr then
    some ⟨t, l, d.energy, d.angle, d.location (lastLocation size), pr, errorType l d.type, errorMagnitude l d.energy⟩
  else none

/-- `simulateEffects` (radiation_simulator.cpp:408-448) for a flux drawn and a duration in milliseconds; the memory is read-only and not even read. -/
noncomputable def simulate (p : Params) (size : ℕ) (flux : ℝ) (ms : ℤ) (draws : ℕ → Draw) : Outcome (List Event) :=
  (Phys.castInt (flux * 1 * ((ms : ℝ) / 1000))).bind fun n => .ok ((List.range n.toNat).filterMap fun i => particleEvent p size (draws i))

end Verif.LetSim
