import Verif.Spec.XReal
import Verif.Model.ProtectionTechniques
import Mathlib.Data.Rat.Cast.CharZero
/-!
Model of /repo/src/validation/nasa_esa_validation_protocol.hpp and .cpp (class `NASAESAVerificationProtocol`), together with
`calculateMetrics` and `applyProtectionTechnique` of /repo/src/testing/protection_techniques.cpp.

A double is an ideal double (`XD`: real number, infinity or NaN; no rounding).  `int` counters are natural numbers.  What the
radiation simulator does in one trial (the bytes it leaves in the test memory and the events it reports) and the random draws of
the protection techniques are arguments.  Console output, dates, the texts of the report, the empty export functions and the
private statistical functions and requirement lists that no function calls (.cpp:343-545) are not modelled.
-/
namespace Verif.NasaModel
open Classical Verif.Techniques

/-- `TestEnvironment` (nasa_esa_validation_protocol.hpp:70-78). -/
inductive Env where
  | leo | saa | geo | vanAllen | lunar | mars | jupiter
  deriving DecidableEq

/-- `ProtectionTechnique` (nasa_esa_validation_protocol.hpp:95-100). -/
inductive Tech where
  | tmr | edac | scrubbing | hybrid
  deriving DecidableEq

/-- `VerificationStatus` as far as it is used (nasa_esa_validation_protocol.hpp:62-67). -/
inductive Status where
  | pass | fail
  deriving DecidableEq

/-- `getNASASEUThresholds()[env]` (nasa_esa_validation_protocol.hpp:230-238): `operator[]` gives 0 for a missing key. -/
noncomputable def seuThreshold : Env → ℝ
  | .leo => 1 / 10 ^ 7 | .geo => 5 / 10 ^ 8 | .lunar => 3 / 10 ^ 8 | .mars => 1 / 10 ^ 8 | .jupiter => 5 / 10 ^ 9
  | .saa => 0 | .vanAllen => 0

/-- `getNASALETThresholds()[env]` (nasa_esa_validation_protocol.hpp:241-249). -/
noncomputable def letRequired : Env → ℝ
  | .leo => 40 | .geo => 60 | .lunar => 70 | .mars => 80 | .jupiter => 100 | .saa => 0 | .vanAllen => 0

/-- `getNASAMTBFRequirements()[env]` (nasa_esa_validation_protocol.hpp:252-260). -/
noncomputable def mtbfRequired : Env → ℝ
  | .leo => 10000 | .geo => 20000 | .lunar => 30000 | .mars => 50000 | .jupiter => 100000 | .saa => 0 | .vanAllen => 0

/-- `getReferenceModelData(env).seu_rates` (nasa_esa_validation_protocol.cpp:648-700): SAA and VAN_ALLEN take the values of LEO. -/
noncomputable def referenceRates : Env → List ℝ
  | .geo => [45 / 10 ^ 9, 48 / 10 ^ 9, 42 / 10 ^ 9]
  | .lunar => [25 / 10 ^ 9, 27 / 10 ^ 9, 23 / 10 ^ 9]
  | .mars => [85 / 10 ^ 10, 90 / 10 ^ 10, 80 / 10 ^ 10]
  | .jupiter => [45 / 10 ^ 10, 48 / 10 ^ 10, 42 / 10 ^ 10]
  | _ => [12 / 10 ^ 8, 13 / 10 ^ 8, 11 / 10 ^ 8]

/-- `std::accumulate(v.begin(), v.end(), 0.0)` (nasa_esa_validation_protocol.cpp:198-202). -/
noncomputable def accumulate (v : List XD) : XD := v.foldl XD.add (.fin 0)

/-- `std::accumulate(…) / v.size()` (nasa_esa_validation_protocol.cpp:198-202, 228-230). -/
noncomputable def average (v : List XD) : XD := (accumulate v).div (.fin v.length)

/-- `calculateCorrelation` (nasa_esa_validation_protocol.cpp:31-36). -/
noncomputable def calculateCorrelation (measured reference : XD) : XD :=
  if measured.eq (.fin 0) ∧ reference.eq (.fin 0) then .fin 1
  else if measured.eq (.fin 0) ∨ reference.eq (.fin 0) then .fin 0
  else (XD.fin 1).sub (((measured.sub reference).abs).div (measured.max reference))

/-- `calculatePercentDifference` (nasa_esa_validation_protocol.cpp:38-41). -/
noncomputable def calculatePercentDifference (measured reference : XD) : XD :=
  if reference.eq (.fin 0) then (if measured.eq (.fin 0) then .fin 0 else .fin 100)
  else (((measured.sub reference).abs).div reference).mul (.fin 100)

/-! ### One application of a technique -/

/-- `testing::ProtectionResult` (protection_techniques.hpp:16-24). -/
structure PResult where
  corrections : Nat
  total : Nat
  seuRate : XD
  letThreshold : XD
  crossSection : XD
  mtbf : XD
  ber : XD

/-- `calculateMetrics` (protection_techniques.cpp:435-457) for `events` events. -/
noncomputable def calculateMetrics (r : Result) (events : Nat) : PResult :=
  let bits : XD := .fin (events * 8)
  let seu := (XD.fin r.total).div (bits.mul (.fin 1))
  { corrections := r.corrections
    total := r.total
    seuRate := seu
    letThreshold := .fin 0
    crossSection := (XD.fin r.total).div (bits.mul (.fin events))
    mtbf := (XD.fin 1).div (seu.mul (.fin 3600))
    ber := (XD.fin (((r.total : ℤ) - (r.corrections : ℤ) : ℤ) : ℝ)).div bits }

/-- What one trial brings from outside: the 1024 bytes the simulator leaves, its events (nasa_esa_validation_protocol.cpp:165-175), and the
draws of the techniques, indexed by the position of the technique and of the event. -/
structure Trial where
  mem : List (BitVec 8)
  events : List Event
  tmr : Nat → Nat → TmrDraw
  edac : Nat → Nat → Nat → Bool × Nat

/-- Events with their draws (protection_techniques.cpp:242-272, 359-382). -/
def withDraws {α : Type} (evs : List Event) (d : Nat → α) : List (Event × α) := evs.zipIdx.map (fun e => (e.1, d e.2))

/-- `applyProtectionTechnique(toTestingProtectionTechnique(tech), …)` (protection_techniques.cpp:181-220 and
nasa_esa_validation_protocol.hpp:263-274): HYBRID becomes NONE. -/
noncomputable def applyTechnique (tech : Tech) (k : Nat) (t : Trial) (mem : List (BitVec 8)) :
    Outcome (List (BitVec 8) × PResult) :=
  let r : Outcome (List (BitVec 8) × Result) := match tech with
    | .tmr => applyTMR mem (withDraws t.events (t.tmr k))
    | .edac => applyEDAC mem (withDraws t.events (t.edac k))
    | .scrubbing => applyScrubbing mem t.events
    | .hybrid => .ok (applyNone mem t.events)
  r.bind (fun mr => .ok (mr.1, calculateMetrics mr.2 t.events.length))

/-- The loop over the techniques of one trial (nasa_esa_validation_protocol.cpp:178-194): all work on the same memory. -/
noncomputable def applyAll (t : Trial) : Nat → List Tech → List (BitVec 8) → Outcome (List PResult)
  | _, [], _ => .ok []
  | k, tech :: ts, mem =>
    (applyTechnique tech k t mem).bind (fun mr => (applyAll t (k + 1) ts mr.1).bind (fun rs => .ok (mr.2 :: rs)))

/-- The Monte Carlo trials of one environment (nasa_esa_validation_protocol.cpp:160-195): all results in order. -/
noncomputable def runTrials (techniques : List Tech) : List Trial → Outcome (List PResult)
  | [] => .ok []
  | t :: ts => (applyAll t 0 techniques t.mem).bind (fun rs => (runTrials techniques ts).bind (fun rss => .ok (rs ++ rss)))

/-! ### The report -/

/-- `RadiationHardeningResult` (nasa_esa_validation_protocol.hpp:145-154). -/
structure Assessment where
  env : Env
  seuRate : XD
  letThreshold : XD
  crossSection : XD
  mtbf : XD
  ber : XD
  threshold : ℝ
  status : Status

/-- `EnvironmentValidation` (nasa_esa_validation_protocol.hpp:136-142). -/
structure Validation where
  env : Env
  correlation : XD
  percent : XD
  status : Status

/-- `ProtectionEvaluation` (nasa_esa_validation_protocol.hpp:157-165). -/
structure Evaluation where
  tech : Tech
  effectiveness : ℝ
  reference : ℝ
  resource : ℝ
  power : ℝ
  performance : ℝ
  status : Status

/-- Entries of `required_modifications` (nasa_esa_validation_protocol.cpp:849-876). -/
inductive Modification where
  | seuMitigation | letProtection | reliability | errorCorrection
  deriving DecidableEq

/-- `MissionSuitability` without the rationale (nasa_esa_validation_protocol.hpp:168-174). -/
structure Suitability where
  env : Env
  suitable : Bool
  modifications : List Modification
  shielding : XD

/-- `statuses` as written with `? PASS : FAIL` (nasa_esa_validation_protocol.cpp:212-215, 233-236). -/
noncomputable def passIf (p : Prop) : Status := if p then .pass else .fail

/-- The assessment of one environment (nasa_esa_validation_protocol.cpp:197-217). -/
noncomputable def assess (env : Env) (rs : List PResult) : Assessment :=
  let seu := average (rs.map (·.seuRate))
  let rate := (XD.fin ((rs.map (·.corrections)).sum : ℕ)).div (.fin ((rs.map (·.total)).sum : ℕ))
  { env := env
    seuRate := seu
    letThreshold := average (rs.map (·.letThreshold))
    crossSection := average (rs.map (·.crossSection))
    mtbf := average (rs.map (·.mtbf))
    ber := average (rs.map (·.ber))
    threshold := seuThreshold env
    status := passIf (seu.lt (.fin (seuThreshold env)) ∧ (XD.fin (95 / 100)).le rate) }

/-- The validation of one environment (nasa_esa_validation_protocol.cpp:219-238). -/
noncomputable def validate (env : Env) (a : Assessment) : Validation :=
  let ref := average ((referenceRates env).map XD.fin)
  let c := calculateCorrelation a.seuRate ref
  let p := calculatePercentDifference a.seuRate ref
  { env := env, correlation := c, percent := p, status := passIf ((XD.fin (95 / 100)).le c ∧ p.le (.fin 10)) }

/-- `evaluateProtectionTechnique` (nasa_esa_validation_protocol.cpp:760-796) and its use (lines 241-260). -/
noncomputable def evaluate (tech : Tech) : Evaluation :=
  let v : ℝ × ℝ × ℝ × ℝ × ℝ := match tech with
    | .tmr => (99 / 100, 99 / 100, 200, 150, 20)
    | .edac => (98 / 100, 98 / 100, 50, 30, 10)
    | .scrubbing => (95 / 100, 95 / 100, 20, 15, 5)
    | .hybrid => (0, 0, 0, 0, 0)
  { tech := tech, effectiveness := v.1, reference := v.2.1, resource := v.2.2.1, power := v.2.2.2.1, performance := v.2.2.2.2
    status := passIf (95 / 100 ≤ v.1 ∧ v.2.2.1 ≤ 50 ∧ v.2.2.2.1 ≤ 100 ∧ v.2.2.2.2 ≤ 30) }

/-- `calculateRequiredModifications` (nasa_esa_validation_protocol.cpp:848-876). -/
noncomputable def requiredModifications (a : Assessment) : List Modification :=
  (if (XD.fin a.threshold).lt a.seuRate then [.seuMitigation] else []) ++
  (if a.letThreshold.lt (.fin (letRequired a.env)) then [.letProtection] else []) ++
  (if a.mtbf.lt (.fin (mtbfRequired a.env)) then [.reliability] else []) ++
  (if (XD.fin (1 / 10 ^ 9)).lt a.ber then [.errorCorrection] else [])

/-- `calculateRequiredShielding` (nasa_esa_validation_protocol.cpp:703-721). -/
noncomputable def requiredShielding (a : Assessment) : XD :=
  let base : XD := .fin 5
  let base := if (XD.fin a.threshold).lt a.seuRate then base.mul (a.seuRate.div (.fin a.threshold)) else base
  if a.letThreshold.lt (.fin (letRequired a.env)) then base.mul ((XD.fin (letRequired a.env)).div a.letThreshold) else base

/-- The suitability of one environment (nasa_esa_validation_protocol.cpp:262-281). -/
noncomputable def suitability (env : Env) (a : Assessment) (v : Validation) : Suitability :=
  let m := requiredModifications a
  let s := requiredShielding a
  { env := env, modifications := m, shielding := s
    suitable := decide (v.status = .pass ∧ s.le (.fin 10) ∧ m.length ≤ 3) }

/-- `VerificationReport` without texts; `compliance_matrix` is never filled (nasa_esa_validation_protocol.hpp:177-187). -/
structure Report where
  matrix : List Status := []
  validations : List Validation := []
  assessments : List Assessment := []
  evaluations : List Evaluation := []
  suitabilities : List Suitability := []
  compliant : Bool := false

/-- One pass of the environment loop (nasa_esa_validation_protocol.cpp:144-283), given the results of the trials. -/
noncomputable def addEnvironment (techniques : List Tech) (env : Env) (rs : List PResult) (r : Report) : Report :=
  let a := assess env rs
  let v := validate env a
  { r with
    assessments := r.assessments ++ [a]
    validations := r.validations ++ [v]
    evaluations := r.evaluations ++ techniques.map evaluate
    suitabilities := r.suitabilities ++ [suitability env a v] }

/-- `determineOverallCompliance` (nasa_esa_validation_protocol.cpp:724-757): the loops return at the first failure. -/
def determineOverallCompliance (r : Report) : Bool :=
  r.validations.all (fun v => v.status = .pass) && r.assessments.all (fun a => a.status = .pass) &&
    r.evaluations.all (fun e => e.status = .pass) && r.suitabilities.all (fun s => s.suitable)

/-- The environment loop (nasa_esa_validation_protocol.cpp:144-283): `trials i` are the trials of the `i`-th environment. -/
noncomputable def environmentLoop (techniques : List Tech) (trials : Nat → List Trial) : Nat → List Env → Report → Outcome Report
  | _, [], r => .ok r
  | i, env :: es, r =>
    (runTrials techniques (trials i)).bind (fun rs =>
      environmentLoop techniques trials (i + 1) es (addEnvironment techniques env rs r))

/-- `runComprehensiveVerification` (nasa_esa_validation_protocol.cpp:129-294). -/
noncomputable def runComprehensiveVerification (environments : List Env) (techniques : List Tech) (trials : Nat → List Trial) :
    Outcome Report :=
  (environmentLoop techniques trials 0 environments {}).bind (fun r => .ok { r with compliant := determineOverallCompliance r })

/-- The facts stated by `generateVerificationStatement` (nasa_esa_validation_protocol.cpp:548-606). -/
structure Statement where
  meets : Bool
  assessmentsPassed : Nat
  assessments : Nat
  requirementsPassed : Nat
  requirements : Nat
  missionsSuitable : Nat
  missions : Nat
  deriving DecidableEq

/-- `generateVerificationStatement` (nasa_esa_validation_protocol.cpp:548-606), as facts. -/
def statement (r : Report) : Statement :=
  { meets := r.compliant
    assessmentsPassed := (r.assessments.filter (fun a => a.status = .pass)).length
    assessments := r.assessments.length
    requirementsPassed := (r.matrix.filter (fun s => s = .pass)).length
    requirements := r.matrix.length
    missionsSuitable := (r.suitabilities.filter (fun s => s.suitable)).length
    missions := r.suitabilities.length }

/-- The default environments of the constructor (nasa_esa_validation_protocol.hpp:191-199). -/
def defaultEnvironments : List Env := [.leo, .saa, .geo, .vanAllen, .lunar, .mars, .jupiter]

/-- The default techniques of the constructor (nasa_esa_validation_protocol.hpp:200-204). -/
def defaultTechniques : List Tech := [.tmr, .edac, .scrubbing]

end Verif.NasaModel
