import Verif.Model.Loop
import Verif.Model.Topology
/-!
The industry standard validation suite (/repo/src/industry_standard_test.cpp).  Doubles are ideal doubles (no rounding); the draw of
`std::normal_distribution` is `mean + deviation * z` for a real `z`.  Printing, files and timing are not modelled: the results, the figures of the summary, the rating
and the suitability verdicts are.
-/
namespace Verif.Industry
open Verif.Topology (xmin xsqrt xlog10)

/-- `RadiationEnvironment` (src/industry_standard_test.cpp:45-51). -/
structure Env where
  name : String
  base : ℚ
  flare : ℚ
  altitude : ℚ
  shielding : ℚ
  dose : ℚ
  deriving DecidableEq

/-- `RadiationEnvironment::getAllEnvironments` (src/industry_standard_test.cpp:53-81). -/
def environments : List Env :=
  [⟨"ISS (Low Earth Orbit)", 13 / 10 ^ 9, 5, 408, 10, 25⟩, ⟨"Van Allen Belt Transit", 87 / 10 ^ 8, 3, 5000, 15, 100⟩,
   ⟨"Lunar Orbit", 21 / 10 ^ 8, 7, 384400, 12, 50⟩, ⟨"Interplanetary Space", 35 / 10 ^ 8, 12, 0, 20, 150⟩,
   ⟨"Jupiter/Europa Environment", 24 / 10 ^ 7, 3 / 2, 0, 25, 1000⟩]

/-- `ProtectionMechanism` (src/industry_standard_test.cpp:87-91). -/
structure Mech where
  name : String
  weight : ℚ
  power : ℚ
  efficiency : ℚ
  deriving DecidableEq

/-- `ProtectionMechanism::getAllMechanisms` (src/industry_standard_test.cpp:93-126). -/
def mechanisms : List Mech :=
  [⟨"No Protection", 0, 0, 0⟩, ⟨"Basic TMR", 3, 28 / 10, 7 / 10⟩, ⟨"Enhanced TMR", 32 / 10, 3, 85 / 100⟩, ⟨"Stuck-Bit TMR", 33 / 10, 31 / 10, 88 / 100⟩,
   ⟨"Hybrid Redundancy", 25 / 10, 23 / 10, 75 / 100⟩, ⟨"ECC Memory", 12 / 10, 13 / 10, 65 / 100⟩]

/-- `ReferenceData` (src/industry_standard_test.cpp:132-135): the two maps. -/
structure Reference where
  seu : List (String × List ℚ)
  recovery : List (String × List ℚ)

/-- `ReferenceData::getNASAData` (src/industry_standard_test.cpp:137-157). -/
def nasa : Reference where
  seu := [("ISS (Low Earth Orbit)", [12 / 10 ^ 9, 14 / 10 ^ 9, 13 / 10 ^ 9]), ("Van Allen Belt Transit", [85 / 10 ^ 8, 91 / 10 ^ 8, 87 / 10 ^ 8]),
    ("Lunar Orbit", [20 / 10 ^ 8, 23 / 10 ^ 8, 21 / 10 ^ 8]), ("Interplanetary Space", [33 / 10 ^ 8, 38 / 10 ^ 8, 35 / 10 ^ 8]),
    ("Jupiter/Europa Environment", [22 / 10 ^ 7, 27 / 10 ^ 7, 24 / 10 ^ 7])]
  recovery := [("No Protection", [0, 0, 0]), ("Basic TMR", [65, 75, 70]), ("Enhanced TMR", [80, 90, 85]), ("Stuck-Bit TMR", [83, 92, 88]),
    ("Hybrid Redundancy", [70, 80, 75]), ("ECC Memory", [60, 70, 65])]

/-- `ReferenceData::getESAData` (src/industry_standard_test.cpp:159-179). -/
def esa : Reference where
  seu := [("ISS (Low Earth Orbit)", [11 / 10 ^ 9, 15 / 10 ^ 9, 13 / 10 ^ 9]), ("Van Allen Belt Transit", [82 / 10 ^ 8, 94 / 10 ^ 8, 88 / 10 ^ 8]),
    ("Lunar Orbit", [19 / 10 ^ 8, 24 / 10 ^ 8, 22 / 10 ^ 8]), ("Interplanetary Space", [32 / 10 ^ 8, 39 / 10 ^ 8, 36 / 10 ^ 8]),
    ("Jupiter/Europa Environment", [21 / 10 ^ 7, 28 / 10 ^ 7, 25 / 10 ^ 7])]
  recovery := [("No Protection", [0, 0, 0]), ("Basic TMR", [64, 76, 71]), ("Enhanced TMR", [79, 91, 86]), ("Stuck-Bit TMR", [82, 94, 89]),
    ("Hybrid Redundancy", [69, 81, 76]), ("ECC Memory", [59, 71, 66])]

/-- `data[name][2]` (src/industry_standard_test.cpp:338-341): an unknown name creates an empty vector, whose element 2 does not exist. -/
def average (t : List (String × List ℚ)) (n : String) : Outcome ℚ :=
  match (t.lookup n).getD [] with
  | _ :: _ :: c :: _ => .ok c
  | _ => .ub

/-- `calculateRadiationImpact` (src/industry_standard_test.cpp:399-411). -/
noncomputable def impact (e : Env) (seu : ℝ) (days : ℤ) : XD :=
  let base := XD.fin (seu * 10 ^ 9)
  let orbit := if 0 < e.altitude then XD.div (xlog10 (.fin (e.altitude : ℝ))) (.fin 3) else .fin 1
  let shield := XD.fin (Real.exp (-(e.shielding : ℝ) / 50))
  let time := xsqrt (.fin ((days : ℝ) / 30))
  ((base.mul orbit).mul shield).mul time

/-- `calculateProtectionBenefit` (src/industry_standard_test.cpp:413-417). -/
noncomputable def benefit (p : Mech) (i : XD) : XD := i.mul (.fin (p.efficiency : ℝ))

/-- `ValidationResult` (src/industry_standard_test.cpp:185-194). -/
structure Result where
  environment : String
  mechanism : String
  seu : ℝ
  accuracy : XD
  efficiency : XD
  power : ℝ
  nasaMatch : XD
  esaMatch : XD
  within : Prop

/-- The match with a reference model (src/industry_standard_test.cpp:372-386). -/
noncomputable def matchOf (eff : XD) (expected : ℝ) : XD :=
  open Classical in
  if 0 < expected then (XD.fin 100).sub (xmin (.fin 100) ((XD.div ((eff.sub (.fin expected)).abs) (.fin expected)).mul (.fin 100)))
  else if XD.lt (.fin 0) eff then .fin 0 else .fin 100

/-- `simulateTest` with the four reference values read (src/industry_standard_test.cpp:343-396); `z` is the standard normal draw. -/
noncomputable def simulate (e : Env) (p : Mech) (nasaSeu esaSeu nasaRec esaRec : ℝ) (days : ℤ) (z : ℝ) : Result :=
  let seu := max 0 ((nasaSeu + esaSeu) / 2 + (nasaSeu + esaSeu) / 20 * z)
  let i := impact e seu days
  let b := benefit p i
  let accuracy := xmin (.fin 100) (XD.max (.fin 0) (((XD.fin (999 / 10)).sub i).add b))
  open Classical in
  let eff := if XD.lt (.fin 0) i then (XD.div b i).mul (.fin 100) else .fin 100
  let n := matchOf eff nasaRec
  let s := matchOf eff esaRec
  ⟨e.name, p.name, seu, accuracy, eff, 5 * (1 + (p.power : ℝ) / 10), n, s, XD.le (.fin 80) n ∧ XD.le (.fin 80) s⟩

/-- `simulateTest` (src/industry_standard_test.cpp:330-397). -/
noncomputable def simulateTest (e : Env) (p : Mech) (days : ℤ) (z : ℝ) : Outcome Result :=
  (average nasa.seu e.name).bind fun a => (average esa.seu e.name).bind fun b => (average nasa.recovery p.name).bind fun c =>
    (average esa.recovery p.name).bind fun d => .ok (simulate e p a b c d days z)

/-- Runs a list of tests one after the other (the loops at src/industry_standard_test.cpp:248-294). -/
noncomputable def runList (days : ℤ) (z : Env → Mech → ℝ) : List (Env × Mech) → Outcome (List Result)
  | [] => .ok []
  | x :: xs => (simulateTest x.1 x.2 days (z x.1 x.2)).bind fun r => (runList days z xs).bind fun rs => .ok (r :: rs)

/-- The tests in the order they are run (src/industry_standard_test.cpp:248, 265). -/
def tests : List (Env × Mech) := environments.flatMap fun e => mechanisms.map fun p => (e, p)

/-- `runProtocolTests` (src/industry_standard_test.cpp:232-308), up to the summary.  The maps are iterated in the order of the names; the results are kept here in the
order in which the tests run. -/
noncomputable def runTests (days : ℤ) (z : Env → Mech → ℝ) : Outcome (List Result) := runList days z tests

/-- The sum of one column, accumulated from 0 (src/industry_standard_test.cpp:557-569). -/
noncomputable def total (f : Result → XD) (rs : List Result) : XD := rs.foldl (fun a r => a.add (f r)) (.fin 0)

/-- The figures of the summary (src/industry_standard_test.cpp:547-579). -/
structure Summary where
  tests : ℕ
  passed : ℕ
  accuracy : XD
  efficiency : XD
  nasaMatch : XD
  esaMatch : XD
  percentage : ℝ

/-- `printSummary`, the statistics (src/industry_standard_test.cpp:549-579; the same at 503-525). -/
noncomputable def summary (rs : List Result) : Summary :=
  open Classical in
  let n := rs.length
  let k := rs.countP fun r => decide r.within
  let avg := fun f => if 0 < n then XD.div (total f rs) (.fin (n : ℝ)) else total f rs
  ⟨n, k, avg Result.accuracy, avg Result.efficiency, avg Result.nasaMatch, avg Result.esaMatch, if 0 < n then (k : ℝ) * 100 / n else 0⟩

/-- The overall rating (src/industry_standard_test.cpp:607-619). -/
noncomputable def rating (percentage : ℝ) : String :=
  open Classical in
  if 90 ≤ percentage then "EXCELLENT" else if 75 ≤ percentage then "GOOD" else if 60 ≤ percentage then "ADEQUATE" else "NEEDS IMPROVEMENT"

/-- `printMissionSuitability` (src/industry_standard_test.cpp:631-656). -/
def suitability (acc eff : XD) : List (String × Prop) :=
  [("Low Earth Orbit", XD.le (.fin 85) acc),
   ("Geostationary Orbit", XD.le (.fin 90) acc ∧ XD.le (.fin 75) eff),
   ("Lunar Mission", XD.le (.fin 88) acc ∧ XD.le (.fin 70) eff),
   ("Mars Mission", XD.le (.fin 92) acc ∧ XD.le (.fin 80) eff),
   ("Jupiter Mission", XD.le (.fin 95) acc ∧ XD.le (.fin 90) eff)]

end Verif.Industry
