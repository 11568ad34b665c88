import Verif.Model.Loop
import Mathlib.Analysis.SpecialFunctions.Log.Basic
import Mathlib.Analysis.SpecialFunctions.Pow.Real
import Mathlib.Analysis.SpecialFunctions.Sqrt
import Mathlib.Algebra.Order.Archimedean.Real.Basic
import Mathlib.Data.Int.Log
/-!
Model of `research::ArchitectureTester` (/repo/include/rad_ml/research/architecture_tester.hpp, /repo/src/rad_ml/research/architecture_tester.cpp).

Numbers are real; sizes and error counts are 64-bit.  The random engine is a function from its seed to its draws, which lie between 0 and 2.
The results file is a list of lines; console output is left out.  Enumeration values outside their enumerators are not modelled.
-/
namespace Verif.ArchTester

/-- `sim::Environment` (sim/environment.hpp:20-32). -/
inductive Env where
  | earth | earthOrbit | iss | moon | mars | solarFlare | deepSpace | jupiter | saa | extreme | custom
  deriving DecidableEq, Repr

/-- Position in the enumeration (sim/environment.hpp:20-32). -/
def Env.toNat : Env → ℕ
  | .earth => 0 | .earthOrbit => 1 | .iss => 2 | .moon => 3 | .mars => 4 | .solarFlare => 5 | .deepSpace => 6 | .jupiter => 7 | .saa => 8 | .extreme => 9 | .custom => 10

/-- `neural::ProtectionLevel` (neural/protected_neural_network.hpp:77-84). -/
inductive Prot where
  | none | checksum | selective | full | adaptive | space
  deriving DecidableEq, Repr

/-- Position in the enumeration (neural/protected_neural_network.hpp:77-84). -/
def Prot.toNat : Prot → ℕ
  | .none => 0 | .checksum => 1 | .selective => 2 | .full => 3 | .adaptive => 4 | .space => 5

/-- `ArchitectureTestResult` (architecture_tester.hpp:20-47). -/
structure Result where
  layers : List ℕ
  dropout : ℝ
  residual : Bool
  prot : Prot
  env : Env
  base : ℝ
  rad : ℝ
  pres : ℝ
  time : ℝ
  det : ℕ
  corr : ℕ
  unc : ℕ
  baseDev : ℝ := 0
  radDev : ℝ := 0
  presDev : ℝ := 0
  trials : ℕ := 1

/-- One step of the seed computation (architecture_tester.cpp:127-137). -/
def mix (seed v : BitVec 64) : BitVec 64 := seed ^^^ (v + 0x9e3779b9#64 + (seed <<< 6) + (seed >>> 2))

/-- The seed before the trial number is added (architecture_tester.cpp:127-134). -/
noncomputable def seed0 (arch : List ℕ) (dropout : ℝ) (residual : Bool) (p : Prot) (e : Env) : BitVec 64 :=
  let s := arch.foldl (fun s x => mix s (BitVec.ofNat 64 x)) 0
  let s := mix s (BitVec.ofNat 64 ⌊dropout * 1000⌋₊)
  let s := mix s (BitVec.ofNat 64 residual.toNat)
  let s := mix s (BitVec.ofNat 64 p.toNat)
  mix s (BitVec.ofNat 64 e.toNat)

/-- Seed given to the engine, which keeps 32 bits (architecture_tester.cpp:137-139). -/
noncomputable def seed (arch : List ℕ) (dropout : ℝ) (residual : Bool) (p : Prot) (e : Env) (trial : BitVec 32) : BitVec 32 :=
  (mix (seed0 arch dropout residual p e) (trial.setWidth 64)).setWidth 32

/-- Sum of the products of adjacent layers, each product 64-bit (architecture_tester.cpp:146-149). -/
def weights : List ℕ → ℕ
  | a :: b :: t => a * b % 2 ^ 64 + weights (b :: t)
  | _ => 0

/-- `complexity` of a network with that many weights (architecture_tester.cpp:150). -/
noncomputable def complexity (w : ℕ) : ℝ := Real.log w / 10

/-- `radiation_impact` (architecture_tester.cpp:172-199). -/
noncomputable def impact : Env → ℝ
  | .earth => 5 / 100
  | .earthOrbit => 10 / 100
  | .moon => 15 / 100
  | .mars => 20 / 100
  | .jupiter => 35 / 100
  | .deepSpace => 40 / 100
  | .extreme => 60 / 100
  | _ => 25 / 100

/-- `protection_factor` (architecture_tester.cpp:202-222). -/
noncomputable def factor : Prot → ℝ
  | .none => 0
  | .checksum => 2 / 10
  | .selective => 6 / 10
  | .full => 8 / 10
  | .adaptive => 85 / 100
  | .space => 9 / 10

/-- Execution time overhead (architecture_tester.cpp:247-266). -/
noncomputable def overhead : Prot → ℝ
  | .none => 1
  | .checksum => 11 / 10
  | .selective => 15 / 10
  | .full => 3
  | .adaptive => 22 / 10
  | .space => 18 / 10

/-- A 64-bit count. -/
def wrap (n : ℕ) : ℕ := n % 2 ^ 64

/-- `testArchitecture` (architecture_tester.cpp:97-278).  Converting a negative or oversized number, or minus infinity (a network without weights), to `size_t` is undefined. -/
noncomputable def test (draw : BitVec 32 → ℕ → ℝ) (arch : List ℕ) (dropout : ℝ) (residual : Bool) (p : Prot) (e : Env) (trial : BitVec 32) : Outcome Result :=
  if dropout * 1000 ≤ -1 ∨ 2 ^ 64 ≤ dropout * 1000 then .ub
  else
    let g := draw (seed arch dropout residual p e trial)
    if weights arch = 0 then .ub
    else
      let c := complexity (weights arch)
      let b0 := 85 + 5 * (1 - Real.exp (-c)) - 10 * dropout
      let b1 := if residual && arch.length > 3 then b0 + 2 else b0
      let base := min 99 (max 50 (b1 + (g 0 - 1)))
      let rad := min base (max 10 (base * (1 - impact e * (1 - factor p)) + (g 1 - 1)))
      let total := ⌊c * 100 * impact e⌋₊
      let det := ⌊(total : ℝ) * (2 / 10 + 8 / 10 * factor p)⌋₊
      let corr := ⌊(det : ℝ) * factor p⌋₊
      .ok { layers := arch, dropout := dropout, residual := residual, prot := p, env := e, base := base, rad := rad, pres := rad / base * 100,
            time := (50 + c * 100) * overhead p, det := det, corr := corr, unc := det - corr }

/-- A line of the results file: the header, or a result's columns (architecture_tester.cpp:37-39, 319-330); deviations and trial counts are not written. -/
inductive Line where
  | header
  | row (layers : List ℕ) (dropout : ℝ) (residual : Bool) (prot : Prot) (env : Env) (base rad pres time : ℝ) (det corr unc : ℕ)

/-- A number as written by the stream: six significant digits (architecture_tester.cpp:319-330 set no precision). -/
noncomputable def sig6 (x : ℝ) : ℝ := if x = 0 then 0 else round (x * (10 : ℝ) ^ (5 - Int.log 10 |x|)) / (10 : ℝ) ^ (5 - Int.log 10 |x|)

/-- One line of `saveResultsToFile` (architecture_tester.cpp:283-331). -/
noncomputable def Result.line (r : Result) : Line :=
  .row r.layers (sig6 r.dropout) r.residual r.prot r.env (sig6 r.base) (sig6 r.rad) (sig6 r.pres) (sig6 r.time) r.det r.corr r.unc

/-- `ArchitectureTester` (architecture_tester.hpp:165-176); the results file is part of the state. -/
structure Tester where
  trainData : List ℝ
  trainLabels : List ℝ
  testData : List ℝ
  testLabels : List ℝ
  input : ℕ
  output : ℕ
  results : List Result
  file : List Line

/-- Constructor (architecture_tester.cpp:17-41); `old` is the file found. -/
def Tester.new (trainData trainLabels testData testLabels : List ℝ) (input output : ℕ) (old : Option (List Line)) : Tester :=
  ⟨trainData, trainLabels, testData, testLabels, input, output, [], match old with
    | none => [.header]
    | some [] => [.header]
    | some l => l⟩

/-- `saveResultsToFile` (architecture_tester.cpp:280-332). -/
noncomputable def Tester.save (t : Tester) : Tester := { t with file := t.results.foldl (fun f r => f ++ [r.line]) t.file }

/-- `testArchitecture` as a member: the data and the epochs are not used (architecture_tester.cpp:97-278). -/
noncomputable def Tester.test (_t : Tester) (draw : BitVec 32 → ℕ → ℝ) (arch : List ℕ) (dropout : ℝ) (residual : Bool) (p : Prot) (_epochs : Int) (e : Env) (trial : BitVec 32 := 0) : Outcome Result :=
  ArchTester.test draw arch dropout residual p e trial

/-- `int` to `size_t`. -/
def toSize (x : Int) : ℕ := (x % 2 ^ 64).toNat

/-- Append a result and save (architecture_tester.cpp:60-63, 91-94). -/
noncomputable def Tester.add (t : Tester) (r : Result) : Tester := Tester.save { t with results := t.results ++ [r] }

/-- `testWidthRange` (architecture_tester.cpp:44-64). -/
noncomputable def Tester.widthRange (t : Tester) (draw : BitVec 32 → ℕ → ℝ) (minW _maxW _step : Int) (dropout : ℝ := 1 / 2) (epochs : Int := 100) (e : Env := .mars) : Outcome Tester :=
  (t.test draw [t.input, toSize minW, t.output] dropout false .none epochs e).bind fun r => .ok (t.add r)

/-- `testDropoutRange` (architecture_tester.cpp:66-95). -/
noncomputable def Tester.dropoutRange (t : Tester) (draw : BitVec 32 → ℕ → ℝ) (arch : List Int) (minD _maxD _step : ℝ) (epochs : Int := 100) (e : Env := .mars) : Outcome Tester :=
  (t.test draw (t.input :: arch.map toSize ++ [t.output]) minD false .none epochs e).bind fun r => .ok (t.add r)

/-- The comparison used by the two searches (architecture_tester.cpp:343-347, 367-371). -/
def less (e : Env) (a b : Result) : Prop := if a.env = e ∧ b.env = e then a.pres < b.pres else a.env ≠ e

open Classical in
/-- `std::max_element` on a non-empty range (architecture_tester.cpp:341, 365). -/
noncomputable def maxEl (e : Env) (x : Result) (l : List Result) : Result := l.foldl (fun best y => if less e best y then y else best) x

/-- `getBestArchitecture` (architecture_tester.cpp:334-356). -/
noncomputable def Tester.best (t : Tester) (e : Env) : List ℕ :=
  match t.results with
  | [] => [t.input, 128, 64, t.output]
  | x :: l => if (maxEl e x l).env = e then (maxEl e x l).layers else [t.input, 128, 64, t.output]

/-- `getOptimalDropout` (architecture_tester.cpp:358-380). -/
noncomputable def Tester.bestDropout (t : Tester) (e : Env) : ℝ :=
  match t.results with
  | [] => 1 / 2
  | x :: l => if (maxEl e x l).env = e then (maxEl e x l).dropout else 1 / 2

/-- `ArchitectureTestResult()`: value-initialised (architecture_tester.hpp:50, architecture_tester.cpp:439-441). -/
noncomputable def Result.zero : Result := ⟨[], 0, false, .none, .earth, 0, 0, 0, 0, 0, 0, 0, 0, 0, 0, 1⟩

/-- A sum accumulated over the trials (architecture_tester.cpp:449-466). -/
noncomputable def sumR (f : Result → ℝ) (l : List Result) : ℝ := l.foldl (fun a r => a + f r) 0

/-- A 64-bit count accumulated over the trials (architecture_tester.cpp:453-466). -/
def sumN (f : Result → ℕ) (l : List Result) : ℕ := l.foldl (fun a r => wrap (a + f r)) 0

/-- Standard deviation around the mean (architecture_tester.cpp:479-491). -/
noncomputable def dev (f : Result → ℝ) (l : List Result) : ℝ := Real.sqrt (sumR (fun r => (f r - sumR f l / l.length) ^ 2) l / l.length)

/-- `calculateMonteCarloStatistics` (architecture_tester.cpp:437-512). -/
noncomputable def stats (l : List Result) : Result :=
  match l with
  | [] => .zero
  | x :: _ =>
    { layers := x.layers, dropout := x.dropout, residual := x.residual, prot := x.prot, env := x.env
      base := sumR Result.base l / l.length, baseDev := dev Result.base l
      rad := sumR Result.rad l / l.length, radDev := dev Result.rad l
      pres := sumR Result.pres l / l.length, presDev := dev Result.pres l
      time := sumR Result.time l / l.length
      det := sumN Result.det l / l.length, corr := sumN Result.corr l / l.length, unc := sumN Result.unc l / l.length
      trials := l.length }

/-- The results of the trials in order; undefined if one of them is. -/
def collect : List (Outcome Result) → Outcome (List Result)
  | [] => .ok []
  | o :: t => o.bind fun r => (collect t).bind fun l => .ok (r :: l)

/-- The trials of a Monte Carlo test (architecture_tester.cpp:534-552); the offset seeds `rand`, which nothing uses. -/
noncomputable def Tester.trials (t : Tester) (draw : BitVec 32 → ℕ → ℝ) (arch : List ℕ) (dropout : ℝ) (residual : Bool) (p : Prot) (epochs : Int) (e : Env) (n : ℕ) (_seedOffset : BitVec 32) : Outcome (List Result) :=
  collect ((List.range n).map fun i => t.test draw arch dropout residual p epochs e (BitVec.ofNat 32 i))

/-- `testArchitectureMonteCarlo` (architecture_tester.cpp:514-572). -/
noncomputable def Tester.monteCarlo (t : Tester) (draw : BitVec 32 → ℕ → ℝ) (arch : List ℕ) (dropout : ℝ) (residual : Bool) (p : Prot) (epochs : Int) (e : Env) (n : ℕ := 50) (seedOffset : BitVec 32 := 0) : Outcome (Result × Tester) :=
  (t.trials draw arch dropout residual p epochs e n seedOffset).bind fun l => .ok (stats l, t.add (stats l))

end Verif.ArchTester
