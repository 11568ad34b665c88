import Mathlib.Analysis.SpecialFunctions.Complex.Arg
/-!
Model of `physics::QuantumField`, `KleinGordonEquation`, `DiracEquation`, `MaxwellEquations` (/repo/include/rad_ml/physics/quantum_field_theory.hpp, /repo/src/rad_ml/physics/quantum_field_theory.cpp) and of `createParticleField` and `simulateMultiParticleInteraction` (/repo/src/rad_ml/physics/quantum_models.cpp).

`double` and `std::complex<double>` are real and complex numbers.  Dimensions are those of a field that was constructed; `int` loop counters and the additions of coordinates do not overflow.  Output to the console is left out, as are failures of allocation.
What the random generator delivers is a stream of standard normal numbers.
-/
namespace Verif.QuantumField

/-- Exceptions thrown. -/
inductive Exc where
  | argument | range | overflow | length | runtime
  deriving DecidableEq

/-- Result of a call: a value, an exception, or undefined behaviour. -/
inductive R (α : Type) where
  | ok (a : α)
  | throw (e : Exc)
  | ub

/-- Sequencing. -/
def R.bind {α β : Type} : R α → (α → R β) → R β
  | .ok a, f => f a
  | .throw e, _ => .throw e
  | .ub, _ => .ub

/-- `ParticleType` (quantum_field_theory.hpp:31-41). -/
inductive Particle where
  | proton | electron | neutron | photon | heavyIon | positron | muon | neutrino
  deriving DecidableEq

/-- The members of `QFTParameters` that are read (quantum_field_theory.hpp:126-142). -/
structure QParams where
  hbar : ℝ
  lattice : ℝ
  dt : ℝ
  omega : ℝ
  rate : ℝ
  damping : ℝ
  threshold : ℝ
  scaling : ℝ
  amp : ℝ
  masses : Particle → Option ℝ
  couplings : Particle → Option ℝ

/-- The masses of the default constructor (quantum_field_theory.hpp:153-156). -/
noncomputable def defaultMass : Particle → Option ℝ
  | .proton => some (1.6726219 * 10⁻¹ ^ 27)
  | .electron => some (9.1093837 * 10⁻¹ ^ 31)
  | .neutron => some (1.6749275 * 10⁻¹ ^ 27)
  | .photon => some (10⁻¹ ^ 30)
  | _ => none

/-- The coupling constants of the default constructor (quantum_field_theory.hpp:158-161). -/
noncomputable def defaultCoupling : Particle → Option ℝ
  | .proton | .electron | .neutron | .photon => some (1 / 10)
  | _ => none

/-- `QFTParameters()` (quantum_field_theory.hpp:138-162). -/
noncomputable def QParams.default : QParams := ⟨6.582119569 * 10⁻¹ ^ 16, 1, 10⁻¹ ^ 18, 10 ^ 15, 10 ^ 15, 1 / 1000, 150, 100, 1 / 100, defaultMass, defaultCoupling⟩

/-- `getMass` (quantum_field_theory.hpp:165-173). -/
def QParams.mass (p : QParams) (k : Particle) : R ℝ := match p.masses k with
  | some m => .ok m
  | none => .throw .runtime

/-- `getCouplingConstant` (quantum_field_theory.hpp:176-184). -/
def QParams.coupling (p : QParams) (k : Particle) : R ℝ := match p.couplings k with
  | some m => .ok m
  | none => .throw .runtime

/-- `QuantumField` (quantum_field_theory.hpp:281-284) without its generator. -/
structure Field where
  kind : Particle
  spacing : ℝ
  dims : List ℕ
  data : List ℂ

/-- The greatest number of elements of a vector of complex numbers. -/
def maxSize : ℕ := 2 ^ 59 - 1

/-- The loop over the dimensions of the constructor (quantum_field_theory.cpp:52-59): a negative dimension becomes a large unsigned number, division by 0 is undefined. -/
def sizeOf : List ℤ → ℕ → R ℕ
  | [], t => .ok t
  | d :: ds, t =>
    let u := (d % 2 ^ 64).toNat
    if u = 0 then .ub else if (2 ^ 64 - 1) / u < t then .throw .overflow else sizeOf ds (t * u)

/-- Constructor (quantum_field_theory.cpp:38-70) for a number of dimensions. -/
def Field.new (n : ℕ) (dims : List ℤ) (spacing : ℝ) (k : Particle) : R Field :=
  if dims.length ≠ n then .throw .argument
  else (sizeOf dims 1).bind fun t => if maxSize < t then .throw .length else .ok ⟨k, spacing, dims.map Int.toNat, List.replicate t 0⟩

/-- The loop of `calculateIndex` (quantum_field_theory.cpp:307-325), from the last coordinate to the first: index and stride. -/
def index : List ℕ → List ℤ → R (ℕ × ℕ)
  | d :: ds, p :: ps => (index ds ps).bind fun r =>
    if p < 0 ∨ d ≤ p then .throw .range else if (2 ^ 64 - 1) / d < r.2 then .throw .overflow else .ok (r.1 + p.toNat * r.2, r.2 * d)
  | _, _ => .ok (0, 1)

/-- `calculateIndex` (quantum_field_theory.cpp:297-328): the result is converted to `int` and used as an unsigned index. -/
def Field.index (f : Field) (pos : List ℤ) : R ℕ :=
  if pos.length ≠ f.dims.length then .throw .argument
  else (QuantumField.index f.dims pos).bind fun r => .ok (if r.1 % 2 ^ 32 < 2 ^ 31 then r.1 % 2 ^ 32 else 2 ^ 64 - 2 ^ 32 + r.1 % 2 ^ 32)

/-- `getFieldAt` (quantum_field_theory.cpp:331-336). -/
def Field.get (f : Field) (pos : List ℤ) : R ℂ := (f.index pos).bind fun i => match f.data[i]? with
  | some v => .ok v
  | none => .ub

/-- `setFieldAt` (quantum_field_theory.cpp:339-345). -/
def Field.set (f : Field) (pos : List ℤ) (v : ℂ) : R Field := (f.index pos).bind fun i => if i < f.data.length then .ok { f with data := f.data.set i v } else .ub

/-- The positions in the order in which the nested loops visit them (quantum_field_theory.cpp:94-124, 196-217, 243-276, 368-406). -/
def positions : List ℕ → List (List ℤ)
  | [] => [[]]
  | d :: ds => (List.range d).flatMap fun i : ℕ => (positions ds).map fun ps => Int.ofNat i :: ps

/-- A loop that replaces the value at every position by a function of position and value (the common shape of quantum_field_theory.cpp:94-124, 243-276, 368-406). -/
def Field.each (f : Field) (g : List ℤ → ℂ → ℂ) : List (List ℤ) → R Field
  | [] => .ok f
  | p :: ps => (f.get p).bind fun v => (f.set p (g p v)).bind fun f' => f'.each g ps

/-- A loop that adds up (the common shape of quantum_field_theory.cpp:162-191, 196-217). -/
def sumR {α : Type} (g : α → R ℝ) : List α → R ℝ
  | [] => .ok 0
  | p :: ps => (g p).bind fun x => (sumR g ps).bind fun s => .ok (x + s)

/-- `initializeGaussian` (quantum_field_theory.cpp:72-86) with the numbers the generator delivers; the distribution requires a positive deviation. -/
noncomputable def Field.gaussian (f : Field) (mean dev : ℝ) (src : ℕ → ℝ) : R Field :=
  if dev ≤ 0 then .ub else .ok { f with data := (List.range f.data.length).map fun i => ⟨mean + dev * src (2 * i), dev * src (2 * i + 1)⟩ }

/-- The squared distance from the centre, in units of half the dimensions (quantum_field_theory.cpp:101-106). -/
noncomputable def distance : List ℕ → List ℤ → ℝ
  | d :: ds, p :: ps => ((p - d / 2) / (d / 2)) ^ 2 + distance ds ps
  | _, _ => 0

/-- The value of amplitude and phase (quantum_field_theory.cpp:91, 257-258, 390-391). -/
noncomputable def polar (amplitude phase : ℝ) : ℂ := amplitude * (Real.cos phase + Real.sin phase * Complex.I)

/-- `initializeCoherentState` (quantum_field_theory.cpp:88-128). -/
noncomputable def Field.coherent (f : Field) (amplitude phase : ℝ) : R Field := f.each (fun p _ => polar amplitude phase * (Real.exp (-distance f.dims p) : ℝ)) (positions f.dims)

/-- The Laplacian at a position (quantum_field_theory.cpp:165-185). -/
noncomputable def Field.laplacian (f : Field) (i j k : ℤ) : R ℂ :=
  (f.get [i, j, k]).bind fun c => (f.get [i + 1, j, k]).bind fun x1 => (f.get [i - 1, j, k]).bind fun x2 => (f.get [i, j + 1, k]).bind fun y1 => (f.get [i, j - 1, k]).bind fun y2 =>
    (f.get [i, j, k + 1]).bind fun z1 => (f.get [i, j, k - 1]).bind fun z2 => .ok ((x1 + x2 + y1 + y2 + z1 + z2 - 6 * c) / (f.spacing * f.spacing : ℝ))

/-- The kinetic part of the energy (quantum_field_theory.cpp:156-192). -/
noncomputable def Field.kinetic (f : Field) (hbar m : ℝ) : R ℝ := match f.dims with
  | [a, b, c] => if 2 < a ∧ 2 < b ∧ 2 < c then
      sumR (fun i => sumR (fun j => sumR (fun k => (f.laplacian (i + 1) (j + 1) (k + 1)).bind fun l => .ok (‖l‖ ^ 2 * 0.5 * hbar * hbar / m)) ((List.range (c - 2)).map Int.ofNat)) ((List.range (b - 2)).map Int.ofNat)) ((List.range (a - 2)).map Int.ofNat)
    else .ok 0
  | _ => .ok 0

/-- `calculateTotalEnergy` (quantum_field_theory.cpp:148-228) for a particle type or none; a mass of 0 is not modelled faithfully (division by 0). -/
noncomputable def Field.energy (f : Field) (p : QParams) (k : Option Particle) : R ℝ :=
  (p.mass (k.getD f.kind)).bind fun m => (f.kinetic p.hbar m).bind fun t => (sumR (fun pos => (f.get pos).bind fun v => .ok (0.5 * m * ‖v‖ * ‖v‖)) (positions f.dims)).bind fun u => .ok (t + u)

/-- The new value in `evolve` (quantum_field_theory.cpp:249-261). -/
noncomputable def turn (p : QParams) (v : ℂ) : ℂ := polar ‖v‖ (Complex.arg v + p.omega * p.dt) * ((1 - 0.001 * p.dt : ℝ) : ℂ)

/-- `evolve` (quantum_field_theory.cpp:230-282) for a number of steps (a negative number is none); the particle type is not used. -/
noncomputable def Field.evolve (f : Field) (p : QParams) : ℕ → R Field
  | 0 => .ok f
  | n + 1 => (f.each (fun _ v => turn p v) (positions f.dims)).bind fun f' => f'.evolve p n

/-- `calculateCorrelationFunction` (quantum_field_theory.cpp:284-294): the column; a matrix with a negative number of rows is undefined. -/
noncomputable def Field.correlation (_ : Field) (maxDistance : ℤ) : R (List ℝ) := if maxDistance + 1 < 0 then .ub else .ok ((List.range (maxDistance + 1).toNat).map fun i : ℕ => 1 / ((i : ℝ) + 1))

/-- The new value in `KleinGordonEquation::evolveField` (quantum_field_theory.cpp:374-391). -/
noncomputable def kgValue (p : QParams) (pos : List ℤ) (v : ℂ) : ℂ := polar (‖v‖ * (1 + p.amp * Real.sin (pos.sum : ℤ)) * (1 - p.damping * p.dt)) (Complex.arg v + p.dt * p.rate)

/-- `KleinGordonEquation::evolveField` (quantum_field_theory.cpp:354-409) of an equation for particles of type `k`. -/
noncomputable def kleinGordon (p : QParams) (k : Particle) (f : Field) : R Field := if f.kind ≠ k then .throw .argument else f.each (kgValue p) (positions f.dims)

/-- `DiracEquation::evolveField` (quantum_field_theory.cpp:433-442). -/
def dirac (_ : QParams) (_ : Particle) (f : Field) : R Field := .ok f

/-- `calculatePropagator` of both equations (quantum_field_theory.cpp:411-424, 444-457): the only entry of the matrix; the momentum is not used. -/
def propagator (p : QParams) (k : Particle) (override : Option Particle) : R ℂ := (p.mass (override.getD k)).bind fun _ => .ok 1

/-- The factor of a place (quantum_field_theory.cpp:499-507). -/
noncomputable def space (p : QParams) : List ℤ → ℝ
  | [i, j, k] => (1 + p.amp * (Real.sin (0.1 * i) + Real.cos (0.1 * j) + Real.sin (0.1 * k))) * (1 - p.damping * p.dt)
  | _ => 1

/-- The loop of `MaxwellEquations::evolveField` (quantum_field_theory.cpp:486-514): what the two fields are at the end or when an exception leaves the loop, and that exception. -/
noncomputable def maxwellLoop (p : QParams) (c : ℝ) : Field → Field → List (List ℤ) → R (Field × Field × Option Exc)
  | e, b, [] => .ok (e, b, none)
  | e, b, q :: qs => match e.get q, b.get q with
    | .ok ev, .ok bv => match e.set q ((ev * (1 - c) + bv * c) * space p q), b.set q ((bv * (1 - c) + ev * c) * space p q) with
      | .ok e', .ok b' => maxwellLoop p c e' b' qs
      | _, _ => .ub
    | .throw x, _ => .ok (e, b, some x)
    | .ok _, .throw x => .ok (e, b, some x)
    | _, _ => .ub

/-- `MaxwellEquations::evolveField` (quantum_field_theory.cpp:465-517): both fields and the exception thrown, if any. -/
noncomputable def maxwell (p : QParams) (e b : Field) : R (Field × Field × Option Exc) :=
  if e.kind ≠ .photon ∨ b.kind ≠ .photon then .ok (e, b, some .argument)
  else match p.couplings .photon with
    | none => .ok (e, b, some .runtime)
    | some c => maxwellLoop p (min (max c 0) 1) e b (positions e.dims)

/-- `createParticleField` (quantum_models.cpp:181-207). -/
noncomputable def createField (dims : List ℤ) (spacing : ℝ) (k : Particle) (src : ℕ → ℝ) : R Field := (Field.new 3 dims spacing k).bind fun f => match k with
  | .photon => f.coherent 1 0
  | .electron | .proton => f.gaussian 0 (1 / 2) src
  | _ => f.gaussian 0 1 src

/-- The loop over the fields (quantum_models.cpp:222-261); `steps` is not used. -/
noncomputable def interactLoop (p : QParams) : List Field → R (List Field)
  | [] => .ok []
  | f :: fs => match f.kind with
    | .photon => match fs with
      | [] => .ok [f]
      | g :: gs => if g.kind = .photon then
          (maxwell p f g).bind fun r => match r.2.2 with
            | some x => .throw x
            | none => (interactLoop p gs).bind fun l => .ok (r.1 :: r.2.1 :: l)
        else (interactLoop p (g :: gs)).bind fun l => .ok (f :: l)
    | .electron | .proton | .positron | .muon => (dirac p f.kind f).bind fun f' => (interactLoop p fs).bind fun l => .ok (f' :: l)
    | _ => (kleinGordon p f.kind f).bind fun f' => (interactLoop p fs).bind fun l => .ok (f' :: l)
  termination_by fs => fs.length

/-- The energies of fields (quantum_models.cpp:215-220, 263-268). -/
noncomputable def energies (p : QParams) : List Field → R (List ℝ)
  | [] => .ok []
  | f :: fs => (f.energy p none).bind fun e => (energies p fs).bind fun l => .ok (e :: l)

/-- `simulateMultiParticleInteraction` (quantum_models.cpp:209-271) on distinct fields: the fields and the changes of energy. -/
noncomputable def interact (p : QParams) (fs : List Field) (_steps : ℤ) : R (List Field × List ℝ) :=
  (energies p fs).bind fun a => (interactLoop p fs).bind fun gs => (energies p gs).bind fun b => .ok (gs, List.zipWith (fun y x => y - x) b a)

end Verif.QuantumField
