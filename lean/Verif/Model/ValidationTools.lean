import Verif.Model.Loop
import Verif.Spec.XReal
/-!
The validation tools: /repo/src/validation/radiation_accuracy_validator.hpp, radiation_validation_report.hpp, radiation_validation_test.cpp,
seu_benchmark.cpp, nasa_esa_standard_test.hpp, nasa_esa_standard_test.cpp and nasa_esa_standard_test_part2.cpp.

None of them is in a target of the top-level build, and they name members that do not exist; the model follows their text. Doubles are real numbers, or
ideal doubles where a divisor may be 0; counters are natural numbers. Reading a member that was never set is undefined.
-/
namespace Verif.ValidationTools

/-! ### `RadiationAccuracyValidator` -/

/-- `StandardEnvironment` (radiation_accuracy_validator.hpp:21-27). -/
inductive Site where
  | leo | vanAllen | lunar | interplanetary | jupiter
  deriving DecidableEq, Repr

/-- The reference rate for each bit and day (radiation_accuracy_validator.hpp:347-393). -/
noncomputable def referenceRate : Site → ℝ
  | .leo => 25 / 1000000
  | .vanAllen => 75 / 100000
  | .lunar => 42 / 100000
  | .interplanetary => 12 / 10000
  | .jupiter => 85 / 10000

/-- `testing::ProtectionLevel`, the levels used (radiation_accuracy_validator.hpp:461-471). -/
inductive Protection where
  | none | tmrBasic | tmrEnhanced | tmrAdaptive | ecc
  deriving DecidableEq, Repr

/-- The level for a name (radiation_accuracy_validator.hpp:461-471). -/
def protectionOf (name : String) : Protection :=
  if name = "TMR" then .tmrBasic
  else if name = "TMR_ENHANCED" then .tmrEnhanced
  else if name = "TMR_ADAPTIVE" then .tmrAdaptive
  else if name = "ECC" then .ecc
  else .none

/-- `calculateProtectionEfficiency` (radiation_accuracy_validator.hpp:173-185). -/
noncomputable def efficiency (unprotected prot : ℝ) : ℝ :=
  if unprotected ≤ prot then 0 else (unprotected - prot) / unprotected * 100

/-- `calculateAccuracy` (radiation_accuracy_validator.hpp:194-196). -/
noncomputable def accuracy (uncorrected total : ℝ) : XD := .mul (.sub (.fin 1) (.div (.fin uncorrected) (.fin total))) (.fin 100)

/-- What a simulation returns (radiation_accuracy_validator.hpp:476-489). -/
structure SimResult where
  bits : ℕ
  uncorrected : ℕ
  seu : ℕ
  rate : ℝ
  power : ℝ

/-- `ValidationResult` (radiation_accuracy_validator.hpp:56-65) without the notes. -/
structure Validation where
  predicted : ℝ
  reference : ℝ
  accuracy : XD
  efficiency : ℝ
  power : ℝ
  powerPerSeu : XD
  within : Bool

/-- `runProtectionTest` (radiation_accuracy_validator.hpp:453-518), given what the simulation returns. -/
noncomputable def judge (site : Site) (r : SimResult) : Validation :=
  { predicted := r.rate
    reference := referenceRate site
    accuracy := accuracy r.uncorrected r.bits
    efficiency := efficiency r.seu r.uncorrected
    power := r.power
    powerPerSeu := if r.uncorrected < r.seu ∧ 0 < r.seu then .div (.fin r.power) (.fin ((r.seu : ℝ) - r.uncorrected)) else .pinf
    within := decide (1 / 2 ≤ r.rate / referenceRate site ∧ r.rate / referenceRate site ≤ 2) }

/-- `validateEnvironment` (radiation_accuracy_validator.hpp:106-138): one simulator, a machine with state `σ`, runs the levels one after the other; the map
keeps the latest result for a name. -/
noncomputable def validateLevels {σ : Type} (run : σ → Protection → SimResult × σ) (site : Site) : List String → σ → (String → Option Validation) → String → Option Validation
  | [], _, m => m
  | n :: ns, s, m =>
    let r := run s (protectionOf n)
    validateLevels run site ns r.2 (fun k => if k = n then some (judge site r.1) else m k)

/-- `validateEnvironment` with the default levels (radiation_accuracy_validator.hpp:106-124). -/
noncomputable def validateEnvironment {σ : Type} (new : Site → σ) (run : σ → Protection → SimResult × σ) (site : Site) : String → Option Validation :=
  validateLevels run site ["NONE", "TMR", "TMR_ENHANCED"] (new site) fun _ => none

/-! ### Reports -/

/-- The parts of a result the summaries use (radiation_accuracy_validator.hpp:307-314, radiation_validation_report.hpp:91-97). -/
structure Verdict where
  passed : Bool
  accuracy : ℝ
  efficiency : ℝ

/-- The summary: number of tests, number passed, their percentage, the two averages (radiation_accuracy_validator.hpp:258-262, 307-314, 320-335). -/
structure Summary where
  total : ℕ
  passing : ℕ
  passRate : ℝ
  accuracy : ℝ
  efficiency : ℝ

/-- The loop and the averages of both report formats (radiation_validation_report.hpp:87-101, 294-308; the same in radiation_validation_test.cpp:136-173). -/
noncomputable def summarize (vs : List Verdict) : Summary :=
  let t := vs.foldl (fun (acc : ℕ × ℝ × ℝ) v => (acc.1 + (if v.passed then 1 else 0), acc.2.1 + v.accuracy, acc.2.2 + v.efficiency)) (0, 0, 0)
  { total := vs.length
    passing := t.1
    accuracy := if vs = [] then 0 else t.2.1 / vs.length
    efficiency := if vs = [] then 0 else t.2.2 / vs.length
    passRate := if vs = [] then 0 else 100 * (t.1 : ℝ) / vs.length }

/-- The conclusion "meets the requirements" (radiation_validation_report.hpp:240, 405). -/
noncomputable def meets (vs : List Verdict) : Bool := decide (70 ≤ (summarize vs).passRate)

/-- The list of recommendations, if that paragraph is written (radiation_validation_report.hpp:244-255, 409-420). -/
noncomputable def recommendations {κ : Type} (vs : List (κ × Verdict)) : Option (List κ) :=
  if (summarize (vs.map Prod.snd)).passRate < 100 then some ((vs.filter fun v => !v.2.passed).map Prod.fst) else none

/-- The table "Validation results for standard NASA/ESA mission profiles" (radiation_validation_report.hpp:208-213, 385-390): name, days, upsets, accuracy and
power efficiency in tenths of a percent. -/
def missionTable {κ : Type} (_results : List (κ × Verdict)) : List (String × ℕ × ℕ × ℕ × ℕ) :=
  [("ISS Low Earth Orbit", 365, 1245, 992, 825), ("Mars Science Laboratory", 687, 2850, 978, 793), ("Europa Clipper", 730, 15720, 943, 687), ("JWST L2 Orbit", 365, 980, 995, 852)]

/-- The relative difference from the reference rate in percent (radiation_validation_report.hpp:147-151, 339-343). -/
noncomputable def difference (measured reference : ℝ) : ℝ := if 0 < reference then 100 * |measured - reference| / reference else 0

/-! ### Command line of radiation_validation_test -/

/-- The settings (radiation_validation_test.cpp:16-19). -/
structure Settings where
  all : Bool := true
  days : Int := 30
  csv : String := "radiation_validation_results.csv"
  report : String := "radiation_validation_report.txt"
  deriving DecidableEq

/-- What the first loop ends with: settings, the help text, or the exception of `stoi` (radiation_validation_test.cpp:21-44). -/
inductive Parsed where
  | run (s : Settings)
  | help
  | threw
  deriving DecidableEq

/-- The first loop (radiation_validation_test.cpp:21-44). -/
def parse (stoi : String → Option Int) : List String → Settings → Parsed
  | [], s => .run s
  | [a], s => if a = "--help" ∨ a = "-h" then .help else .run s
  | a :: v :: rest, s =>
    if a = "--help" ∨ a = "-h" then .help
    else if a = "--days" then
      match stoi v with
      | none => .threw
      | some d => parse stoi rest { s with days := d }
    else if a = "--csv" then parse stoi rest { s with csv := v }
    else if a = "--report" then parse stoi rest { s with report := v }
    else if a = "--environment" then parse stoi (v :: rest) { s with all := false }
    else parse stoi (v :: rest) s

/-- The environment for a name (radiation_validation_test.cpp:89-102). -/
def siteOf (name : String) : Site :=
  if name = "LEO" then .leo
  else if name = "VAN_ALLEN" then .vanAllen
  else if name = "LUNAR" then .lunar
  else if name = "INTERPLANETARY" then .interplanetary
  else if name = "JUPITER" then .jupiter
  else .leo

/-- The second loop (radiation_validation_test.cpp:80-106): the first `--environment` that is followed by something. -/
def findSite : List String → Site
  | a :: v :: rest => if a = "--environment" then siteOf v else findSite (v :: rest)
  | _ => .leo

/-- The environments that are validated (radiation_validation_test.cpp:76-110). -/
def sites (args : List String) (s : Settings) : List Site :=
  if s.all then [.leo, .vanAllen, .lunar, .interplanetary, .jupiter] else [findSite args]

/-! ### seu_benchmark -/

/-- The checksum of a block (seu_benchmark.cpp:115-118, 170-173). -/
def checksum (block : List (BitVec 8)) : BitVec 32 := block.foldl (fun c b => ((c <<< 5) + c) + b.setWidth 32) 0

/-- The count of changed blocks (seu_benchmark.cpp:167-178). -/
def detected (before after : List (List (BitVec 8))) : ℕ := ((before.zip after).filter fun p => checksum p.2 ≠ checksum p.1).length

/-- `MemoryTestConfig` (seu_benchmark.cpp:22-29), what the result depends on. -/
structure BenchConfig where
  megabytes : ℕ
  lux : ℝ
  expected : ℝ

/-- The number of bits (seu_benchmark.cpp:84-85). -/
def BenchConfig.bits (c : BenchConfig) : ℕ := c.megabytes * (1024 * 1024) * 8

/-- The measured cross-section (seu_benchmark.cpp:199-205). -/
noncomputable def measured (c : BenchConfig) (seconds : ℝ) (found : ℕ) : ℝ :=
  if 0 < c.lux ∧ 0 < seconds then (found : ℝ) / (c.lux * seconds * c.bits) else 0

/-- Its ratio to the expected one (seu_benchmark.cpp:208-212). -/
noncomputable def ratio (c : BenchConfig) (seconds : ℝ) (found : ℕ) : ℝ :=
  if 0 < c.expected then measured c seconds found / c.expected else 0

/-- The error rate in percent (seu_benchmark.cpp:190-196); the difference of two `size_t` wraps. -/
noncomputable def errorRate (injected corrected : ℕ) : ℝ :=
  if 0 < injected then 100 * (((injected : ℤ) - corrected) % 2 ^ 64 : ℤ) / injected else 0

/-- The six configurations (seu_benchmark.cpp:278-333). -/
noncomputable def benchConfigs : List BenchConfig :=
  [⟨10, 25 / 10000, 12 / 10 ^ 15⟩, ⟨10, 25 / 10000, 4 / 10 ^ 15⟩, ⟨10, 85 / 100, 22 / 10 ^ 14⟩, ⟨10, 85 / 100, 73 / 10 ^ 15⟩, ⟨50, 25 / 10000, 38 / 10 ^ 15⟩, ⟨50, 25 / 10000, 95 / 10 ^ 16⟩]

/-! ### `NASAESAStandardTest` -/

/-- `MissionType` (nasa_esa_standard_test.hpp:59-65). -/
inductive Mission where
  | leo | geo | lunar | mars | jupiter
  deriving DecidableEq, Repr

/-- `ProtectionMethod` (nasa_esa_standard_test.hpp:76-83). -/
inductive Method where
  | noProtection | basicTmr | enhancedTmr | stuckBitTmr | healthTmr | scrubbing
  deriving DecidableEq, Repr

/-- The `static_cast`s of the loops (nasa_esa_standard_test.cpp:61-64, 96-99, 131-134): all enumerators in order. -/
def missions : List Mission := [.leo, .geo, .lunar, .mars, .jupiter]
/-- The inner loops (nasa_esa_standard_test.cpp:63, 98, 133). -/
def methods : List Method := [.noProtection, .basicTmr, .enhancedTmr, .stuckBitTmr, .healthTmr, .scrubbing]

/-- `pass_criteria_` (nasa_esa_standard_test.cpp:36-42): rate below, LET threshold above, time between failures above. -/
noncomputable def criteria : Mission → ℝ × ℝ × ℝ
  | .leo => (1 / 10 ^ 7, 40, 10000)
  | .geo => (5 / 10 ^ 8, 60, 20000)
  | .lunar => (3 / 10 ^ 8, 70, 30000)
  | .mars => (1 / 10 ^ 8, 80, 50000)
  | .jupiter => (5 / 10 ^ 9, 100, 100000)

/-- `base_seu_rates` (nasa_esa_standard_test.cpp:165-171). -/
noncomputable def baseRate : Mission → ℝ
  | .leo => 84 / 10 ^ 8
  | .geo => 63 / 10 ^ 8
  | .lunar => 59 / 10 ^ 8
  | .mars => 32 / 10 ^ 8
  | .jupiter => 27 / 10 ^ 7

/-- `calculateSEUMitigationRatio` (nasa_esa_standard_test.cpp:276-295). -/
noncomputable def mitigation : Method → ℝ
  | .noProtection => 1
  | .basicTmr => 42 / 10
  | .enhancedTmr => 78 / 10
  | .stuckBitTmr => 85 / 10
  | .healthTmr => 91 / 10
  | .scrubbing => 55 / 10

/-- `let_improvement_factors` (nasa_esa_standard_test.cpp:201-208). -/
noncomputable def letFactor : Method → ℝ
  | .noProtection => 1
  | .basicTmr => 105 / 100
  | .enhancedTmr => 113 / 100
  | .stuckBitTmr => 118 / 100
  | .healthTmr => 125 / 100
  | .scrubbing => 115 / 100

/-- `mission_enhancement_factors` (nasa_esa_standard_test.cpp:215-221). -/
noncomputable def missionFactor : Mission → ℝ
  | .leo => 1
  | .geo => 13 / 10
  | .lunar => 14 / 10
  | .mars => 15 / 10
  | .jupiter => 18 / 10

/-- `base_mtbf_hours` (nasa_esa_standard_test.cpp:241-247). -/
noncomputable def baseMtbf : Mission → ℝ
  | .leo => 7520
  | .geo => 5830
  | .lunar => 4120
  | .mars => 3580
  | .jupiter => 1240

/-- `mtbf_improvement_factors` (nasa_esa_standard_test.cpp:250-257). -/
noncomputable def mtbfFactor : Method → ℝ
  | .noProtection => 1
  | .basicTmr => 13 / 10
  | .enhancedTmr => 168 / 100
  | .stuckBitTmr => 183 / 100
  | .healthTmr => 203 / 100
  | .scrubbing => 155 / 100

/-- The three metrics that are tested (nasa_esa_standard_test.cpp:57, 92, 127). -/
inductive Metric where
  | seu | energy | mtbf
  deriving DecidableEq, Repr

/-- The mean of the normal distribution (nasa_esa_standard_test.cpp:180, 198-223, 260). -/
noncomputable def nominal (k : Metric) (m : Mission) (p : Method) : ℝ :=
  match k with
  | .seu => baseRate m / mitigation p
  | .energy => 375 / 10 * letFactor p * missionFactor m
  | .mtbf => baseMtbf m * mtbfFactor p

/-- Its standard deviation as a fraction of the mean (nasa_esa_standard_test.cpp:183, 226, 263). -/
noncomputable def spread : Metric → ℝ
  | .seu => 10 / 100
  | .energy => 5 / 100
  | .mtbf => 8 / 100

/-- The random numbers: standard normal values, of which the distribution makes `mean + deviation * z`
(nasa_esa_standard_test.cpp:188, 231, 268). -/
abbrev Source := ℕ → ℝ

/-- The trials (nasa_esa_standard_test.cpp:186-191, 229-234, 266-271): the sum of `n` samples, negative ones counted as 0. -/
noncomputable def sumTrials (mean dev : ℝ) (z : Source) : ℕ → ℝ
  | 0 => 0
  | n + 1 => sumTrials mean dev z n + (if mean + dev * z n < 0 then 0 else mean + dev * z n)

/-- `simulateSEURate`, `simulateLETThreshold`, `simulateMTBF` (nasa_esa_standard_test.cpp:162-194, 196-237, 239-274): the average, and the rest of the random
numbers; a loop with a number of trials that is not positive does nothing. -/
noncomputable def simulate (trials : Int) (k : Metric) (m : Mission) (p : Method) (z : Source) : XD × Source :=
  let mean := nominal k m p
  (.div (.fin (sumTrials mean (mean * spread k) z trials.toNat)) (.fin trials), fun i => z (trials.toNat + i))

/-- `TestResult` (nasa_esa_standard_test.hpp:86-93); members of `metrics` that no function sets are always `none`, and left out where no function reads them
without also reading another of them. -/
structure TestResult where
  mission : Mission
  protection : Method
  nominalPhase : Bool
  seu : Option XD
  energy : Option XD
  mtbf : Option XD
  crossSection : Option XD
  pass : Bool

/-- The verdict (nasa_esa_standard_test.cpp:75, 110, 145). -/
def passes (k : Metric) (m : Mission) (x : XD) : Prop :=
  match k with
  | .seu => x.lt (.fin (criteria m).1)
  | .energy => (XD.fin (criteria m).2.1).lt x
  | .mtbf => (XD.fin (criteria m).2.2).lt x

open Classical in
/-- One result (nasa_esa_standard_test.cpp:66-83, 101-118, 136-153): only the tested metric is set. -/
noncomputable def oneResult (k : Metric) (m : Mission) (p : Method) (x : XD) : TestResult :=
  { mission := m, protection := p, nominalPhase := true
    seu := if k = .seu then some x else none
    energy := if k = .energy then some x else none
    mtbf := if k = .mtbf then some x else none
    crossSection := none
    pass := decide (passes k m x) }

/-- The loop over the combinations (nasa_esa_standard_test.cpp:61-87, 96-122, 131-157). -/
noncomputable def runList (trials : Int) (k : Metric) : List (Mission × Method) → Source → List TestResult × Source
  | [], z => ([], z)
  | (m, p) :: l, z =>
    let x := simulate trials k m p z
    let r := runList trials k l x.2
    (oneResult k m p x.1 :: r.1, r.2)

/-- `runSingleEventUpsetTests`, `runLETThresholdTests`, `runMTBFTests` (nasa_esa_standard_test.cpp:57-90, 92-125, 127-160). -/
noncomputable def runTests (trials : Int) (k : Metric) (z : Source) : List TestResult × Source :=
  runList trials k (missions.flatMap fun m => methods.map fun p => (m, p)) z

/-- `MissionAssessment` (nasa_esa_standard_test.hpp:96-103); the numbers of a mission without results are never set. The number of texts of recommended
improvements, not the texts. -/
structure Assessment where
  suitable : Bool
  lifetime : Option XD
  shielding : Option ℕ
  improvements : ℕ

/-- The required shielding (nasa_esa_standard_test_part2.cpp:50-68). -/
def shielding : Mission → ℕ
  | .leo => 5
  | .geo => 8
  | .lunar => 10
  | .mars => 12
  | .jupiter => 25

/-- Reading a member: undefined if it was never set (nasa_esa_standard_test_part2.cpp:41, 75, 88, 101, 189-197, 301-303, 357-358). -/
def read {τ : Type} : Option τ → Outcome τ
  | some x => .ok x
  | none => .ub

open Classical in
/-- The loops that look for the first result with a property of a member (nasa_esa_standard_test_part2.cpp:39-45, 74-84, 87-97, 100-110). -/
noncomputable def firstWith (get : TestResult → Option XD) (test : XD → Prop) : List TestResult → Outcome (Option XD)
  | [] => .ok none
  | r :: l => (read (get r)).bind fun x => if test x then .ok (some x) else firstWith get test l

/-- The mission-specific recommendations (nasa_esa_standard_test_part2.cpp:113-129). -/
def specific : Mission → ℕ
  | .leo => 0
  | .geo => 1
  | .lunar => 1
  | .mars => 1
  | .jupiter => 2

/-- `assessMissionSuitability` (nasa_esa_standard_test_part2.cpp:12-139). -/
noncomputable def assess (m : Mission) (results : List TestResult) : Outcome Assessment :=
  let mine := results.filter fun r => r.mission = m && r.protection = .healthTmr
  if mine = [] then .ok ⟨false, none, none, 0⟩
  else
    (firstWith TestResult.mtbf (fun x => (XD.fin 0).lt x) mine).bind fun life =>
    (firstWith TestResult.seu (fun x => (XD.fin (criteria m).1).lt x) mine).bind fun a =>
    (firstWith TestResult.energy (fun x => x.lt (.fin (criteria m).2.1)) mine).bind fun b =>
    (firstWith TestResult.mtbf (fun x => x.lt (.fin (criteria m).2.2)) mine).bind fun c =>
    .ok { suitable := mine.all TestResult.pass
          lifetime := some (.div (.mul (life.getD (.fin 0)) (.fin (6 / 10))) (.fin (36525 / 100 * 24)))
          shielding := some (shielding m)
          improvements := a.toList.length + b.toList.length + c.toList.length + specific m }

/-- All lines of `exportResultsToCSV` (nasa_esa_standard_test_part2.cpp:141-203), of which every one prints all metrics. -/
noncomputable def exportCsv : List TestResult → Outcome (List (Mission × Method × XD × XD × XD × XD × Bool))
  | [] => .ok []
  | r :: l => (read r.seu).bind fun a => (read r.energy).bind fun b => (read r.mtbf).bind fun c => (read r.crossSection).bind fun d =>
      (exportCsv l).bind fun t => .ok ((r.mission, r.protection, a, b, c, d, r.pass) :: t)

/-- The rows for one mission and method in `exportResultsToHTML` (nasa_esa_standard_test_part2.cpp:271-309): the first result of the nominal phase. -/
noncomputable def htmlRow (results : List TestResult) (m : Mission) (p : Method) : Outcome (Option (XD × XD × XD × Bool)) :=
  match results.find? fun r => r.mission = m && r.protection = p && r.nominalPhase with
  | none => .ok none
  | some r => (read r.seu).bind fun a => (read r.energy).bind fun b => (read r.mtbf).bind fun c => .ok (some (a, b, c, r.pass))

/-- Several computations in order: the loops (nasa_esa_standard_test_part2.cpp:247-324, 337-360). -/
def sequence {τ : Type} : List (Outcome τ) → Outcome (List τ)
  | [] => .ok []
  | x :: l => x.bind fun a => (sequence l).bind fun t => .ok (a :: t)

/-- A line of the assessment table (nasa_esa_standard_test_part2.cpp:337-360): lifetime and shielding are printed. -/
noncomputable def assessLine (results : List TestResult) (m : Mission) : Outcome (Bool × XD × ℕ) :=
  (assess m results).bind fun a => (read a.lifetime).bind fun l => (read a.shielding).bind fun s => .ok (a.suitable, l, s)

/-- `exportResultsToHTML` (nasa_esa_standard_test_part2.cpp:205-380), the data in the file. -/
noncomputable def exportHtml (results : List TestResult) : Outcome (List (Option (XD × XD × XD × Bool)) × List (Bool × XD × ℕ)) :=
  (sequence ((missions.flatMap fun m => methods.map fun p => (m, p)).map fun c => htmlRow results c.1 c.2)).bind fun rows =>
    (sequence (missions.map (assessLine results))).bind fun lines => .ok (rows, lines)

/-- `generateComprehensiveReport` (nasa_esa_standard_test_part2.cpp:382-396). -/
noncomputable def comprehensive (trials : Int) (z : Source) : Outcome (List (Option (XD × XD × XD × Bool)) × List (Bool × XD × ℕ)) :=
  let a := runTests trials .seu z
  let b := runTests trials .energy a.2
  let c := runTests trials .mtbf b.2
  exportHtml (a.1 ++ b.1 ++ c.1)

end Verif.ValidationTools
