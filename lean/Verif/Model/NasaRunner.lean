import Verif.Model.NasaProtocol
/-!
Model of the program /repo/src/nasa_esa_standard_runner.cpp: its settings, the rows of its CSV file and the cells of its HTML tables as data (layout, numbers of
decimals and fixed texts left out).  Doubles are ideal doubles as in `NasaProtocol`.
-/
namespace Verif.NasaRunner
open Classical Verif.NasaModel

/-- `Category` and `Item` of a CSV row (nasa_esa_standard_runner.cpp:277-302). -/
inductive Item where
  | seuRate (e : Env)
  | letThreshold (e : Env)
  | mtbf (e : Env)
  | effectiveness (t : Tech)
  | suitable (e : Env)
  deriving DecidableEq

/-- A CSV row: item, value, threshold and whether the last column says PASS (nasa_esa_standard_runner.cpp:275). -/
structure Row where
  item : Item
  value : XD
  threshold : XD
  pass : Bool

/-- The three rows of an assessment (nasa_esa_standard_runner.cpp:278-288). -/
noncomputable def assessmentRows (a : Assessment) : List Row :=
  [⟨.seuRate a.env, a.seuRate, .fin a.threshold, decide (a.status = .pass)⟩,
   ⟨.letThreshold a.env, a.letThreshold, .fin 40, decide ((XD.fin 40).le a.letThreshold)⟩,
   ⟨.mtbf a.env, a.mtbf, .fin 10000, decide ((XD.fin 10000).le a.mtbf)⟩]

/-- The row of an evaluation (nasa_esa_standard_runner.cpp:291-295). -/
def evaluationRow (e : Evaluation) : Row := ⟨.effectiveness e.tech, .fin e.effectiveness, .fin e.reference, decide (e.status = .pass)⟩

/-- The row of a suitability; its value and threshold are words (nasa_esa_standard_runner.cpp:298-302), 1 for `Suitable`, 0 for `Not Suitable`. -/
noncomputable def suitabilityRow (s : Suitability) : Row := ⟨.suitable s.env, .fin (if s.suitable then 1 else 0), .fin 1, s.suitable⟩

/-- All rows of the CSV file (nasa_esa_standard_runner.cpp:271-304). -/
noncomputable def csvRows (r : Report) : List Row :=
  r.assessments.flatMap assessmentRows ++ r.evaluations.map evaluationRow ++ r.suitabilities.map suitabilityRow

/-- The settings read from the environment variables (nasa_esa_standard_runner.cpp:312-330), as numbers already converted. -/
structure Settings where
  trials : ℤ := 10000
  confidence : ℝ := 95 / 100
  model : String := "CREME96"

/-- The number of trials run: `for (int i = 0; i < monte_carlo_trials_; …)` (nasa_esa_validation_protocol.cpp:160) with the setting of the runner (:363). -/
def trialCount (s : Settings) : ℕ := s.trials.toNat

/-- What the program leaves: exit code (nasa_esa_standard_runner.cpp:388), the overall status it prints (:373) and the two files. -/
structure Done where
  exit : ℕ
  status : Bool
  report : Report
  rows : List Row

/-- `main` after the settings (nasa_esa_standard_runner.cpp:341-388): all environments and three techniques; `trials i` supplies what the simulator and the
distributions do, of which the number set is used. -/
noncomputable def run (s : Settings) (trials : Nat → Nat → Trial) : Outcome Done :=
  (runComprehensiveVerification defaultEnvironments defaultTechniques fun i => (List.range (trialCount s)).map (trials i)).bind fun r =>
    .ok ⟨0, r.compliant, r, csvRows r⟩

end Verif.NasaRunner
