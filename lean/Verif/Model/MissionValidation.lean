import Verif.Model.Topology
import Verif.Model.SpaceMission
import Verif.Model.Loop
/-!
The space mission validation program (/repo/src/space_mission_validation_test.cpp).  Doubles are reals, or ideal doubles where a NaN or an infinity can arise; no rounding.
The draws are functions of the sample and the layer (each draw of the generator is used once).  A `std::map` is a list of pairs without repeated keys: the order of iteration
does not matter for what is computed.  Printing, files and timing are not modelled.
-/
namespace Verif.MissionValidation
open Verif.Topology (xmin xlog10)

/-- `ProtectionLevel` (src/space_mission_validation_test.cpp:32-40). -/
inductive Level where
  | none | checksum | recovery | approximate | selective | health | full
  deriving DecidableEq, Repr

/-- `TestLayer` (src/space_mission_validation_test.cpp:43-49). -/
structure Layer where
  name : String
  type : String
  critical : Bool
  params : ℕ
  score : ℝ

/-- The flux factor (src/space_mission_validation_test.cpp:93-98, 136-141, 170-176): `none` is a null environment. -/
noncomputable def factor : Option ℝ → XD
  | none => .fin (1 / 2)
  | some flux => xmin (.fin 1) (XD.div (XD.max (.fin 0) (XD.add (xlog10 (.fin (flux + 1 / 10 ^ 15))) (.fin 15))) (.fin 10))

/-- The factor of a layer's type (src/space_mission_validation_test.cpp:104-112). -/
noncomputable def typeFactor (t : String) : ℝ :=
  if t = "dense" then 12 / 10 else if t = "conv" then 1 else if t = "pool" then 7 / 10 else 1

/-- `final_score` before clamping (src/space_mission_validation_test.cpp:101-120). -/
noncomputable def finalScore (f : XD) (l : Layer) : XD :=
  let base := l.score * typeFactor l.type
  let base := if l.critical then base * (13 / 10) else base
  XD.mul (.fin base) (XD.add (.fin (1 / 2)) (XD.mul (.fin (1 / 2)) f))

/-- `m[k] = v` on a map. -/
def put {β : Type} (m : List (String × β)) (k : String) (v : β) : List (String × β) := (m.filter fun p => p.1 ≠ k) ++ [(k, v)]

/-- `analyzeVulnerability` (src/space_mission_validation_test.cpp:89-127). -/
noncomputable def analyze (flux : Option ℝ) (ls : List Layer) : List (String × XD) :=
  ls.foldl (fun m l => put m l.name (xmin (.fin 1) (XD.max (.fin 0) (finalScore (factor flux) l)))) []

/-- The level for a score (src/space_mission_validation_test.cpp:145-162). -/
noncomputable def levelOf (v f : XD) : Level :=
  open Classical in
  let c := XD.add (XD.mul (.fin (7 / 10)) v) (XD.mul (.fin (3 / 10)) f)
  if XD.lt (.fin (8 / 10)) c then .full
  else if XD.lt (.fin (6 / 10)) c then .health
  else if XD.lt (.fin (4 / 10)) c then .selective
  else if XD.lt (.fin (2 / 10)) c then .recovery
  else .checksum

/-- `getRecommendedProtectionLevels` (src/space_mission_validation_test.cpp:130-166). -/
noncomputable def recommend (flux : Option ℝ) (vs : List (String × XD)) : List (String × Level) := vs.map fun p => (p.1, levelOf p.2 (factor flux))

/-- The four counters (src/space_mission_validation_test.cpp:368-392): full, weighted, selective, checksum. -/
structure Counts where
  full : ℕ
  health : ℕ
  selective : ℕ
  checksum : ℕ
  deriving DecidableEq

/-- One pass of the counting loop (src/space_mission_validation_test.cpp:374-391). -/
def Counts.add (c : Counts) : Level → Counts
  | .full => { c with full := c.full + 1 }
  | .health => { c with health := c.health + 1 }
  | .selective => { c with selective := c.selective + 1 }
  | .approximate => { c with selective := c.selective + 1 }
  | .recovery => { c with checksum := c.checksum + 1 }
  | .checksum => { c with checksum := c.checksum + 1 }
  | .none => c

/-- The counting loop (src/space_mission_validation_test.cpp:373-392). -/
def count (ls : List Level) : Counts := ls.foldl Counts.add ⟨0, 0, 0, 0⟩

/-- The predominant protection type (src/space_mission_validation_test.cpp:395-406). -/
def predominant (c : Counts) : String :=
  if c.health ≤ c.full ∧ c.selective ≤ c.full ∧ c.checksum ≤ c.full then "Full TMR"
  else if c.selective ≤ c.health ∧ c.checksum ≤ c.health then "Health-Weighted TMR"
  else if c.checksum ≤ c.selective then "Selective TMR"
  else "Checksum"

/-- The cost of a level (src/space_mission_validation_test.cpp:417-437). -/
def cost : Level → ℚ
  | .full => 3
  | .health => 25 / 10
  | .selective => 2
  | .approximate => 2
  | .recovery => 12 / 10
  | .checksum => 1
  | .none => 1

/-- `resource_usage` (src/space_mission_validation_test.cpp:415-445). -/
def resource (ls : List Level) : ℚ :=
  let sum := ls.foldl (fun a l => a + cost l) 0
  if ls = [] then sum else sum / ls.length / 3

/-- `protection_factor` (src/space_mission_validation_test.cpp:452-464). -/
def reduction (t : String) : ℚ :=
  if t = "Full TMR" then 9 / 10 else if t = "Health-Weighted TMR" then 85 / 100 else if t = "Selective TMR" then 7 / 10 else 5 / 10

/-- The nested conditional of lines 486-488 and its copies. -/
def pick (t : String) (a b c d : ℚ) : ℚ := if t = "Full TMR" then a else if t = "Health-Weighted TMR" then b else if t = "Selective TMR" then c else d

/-- `nasa_reference_efficiency` (src/space_mission_validation_test.cpp:482-515). -/
def reference (target : SpaceMission.Target) (t : String) : ℚ := match target with
  | .leo => pick t (88 / 100) (84 / 100) (72 / 100) (52 / 100)
  | .meo => pick t (88 / 100) (84 / 100) (72 / 100) (52 / 100)
  | .geo => pick t (88 / 100) (84 / 100) (72 / 100) (52 / 100)
  | .moon => pick t (87 / 100) (83 / 100) (71 / 100) (51 / 100)
  | .mars => pick t (86 / 100) (82 / 100) (70 / 100) (49 / 100)
  | .jupiter => pick t (85 / 100) (80 / 100) (68 / 100) (47 / 100)
  | .solarProbe => pick t (84 / 100) (79 / 100) (66 / 100) (45 / 100)
  | _ => pick t (86 / 100) (82 / 100) (70 / 100) (49 / 100)

/-- `layer_error_prob` (src/space_mission_validation_test.cpp:540-546). -/
noncomputable def layerProb (p : XD) (l : Layer) : XD := XD.mul (if l.critical then XD.mul p (.fin (3 / 2)) else p) (.fin l.score)

/-- The loop over the layers for one sample (src/space_mission_validation_test.cpp:536-553): `u j` is the draw for layer `j`. -/
noncomputable def hasError (p : XD) (u : ℕ → ℝ) : List Layer → ℕ → Bool
  | [], _ => false
  | l :: ls, j => open Classical in if XD.lt (.fin (u j)) (layerProb p l) then true else hasError p u ls (j + 1)

/-- `simulateErrorRate` (src/space_mission_validation_test.cpp:529-561). -/
noncomputable def errorRate (net : List Layer) (p : XD) (n : ℤ) (u : ℕ → ℕ → ℝ) : XD :=
  let errors := forN n.toNat (fun i c => if hasError p (u i) net 0 then c + 1 else c) (0 : ℕ)
  XD.div (.fin (errors : ℝ)) (.fin (n : ℝ))

/-- `SpaceMissionTestResult` (src/space_mission_validation_test.cpp:54-63), without the names. -/
structure Result where
  type : String
  error : XD
  efficiency : XD
  resource : ℚ
  nasaMatch : XD
  power : ℚ
  passed : Prop

/-- The comparison and the verdict (src/space_mission_validation_test.cpp:472-524), from the two rates measured. -/
noncomputable def judge (target : SpaceMission.Target) (type : String) (ls : List Level) (unprot prot : XD) : Result :=
  open Classical in
  let eff := if XD.lt (.fin 0) unprot then (XD.fin 1).sub (XD.div prot unprot) else .fin 0
  let m := XD.mul ((XD.fin 1).sub ((eff.sub (.fin (reference target type : ℝ))).abs)) (.fin 100)
  ⟨type, prot, eff, resource ls, m, resource ls * (12 / 10), XD.lt prot (.fin (5 / 100)) ∧ XD.lt (.fin 85) m⟩

/-- `testMissionPhase` (src/space_mission_validation_test.cpp:348-527): `u` are the draws without protection, `w` those with. -/
noncomputable def testPhase (net : List Layer) (target : SpaceMission.Target) (flux : Option ℝ) (n : ℤ) (u w : ℕ → ℕ → ℝ) : Result :=
  let ls := (recommend flux (analyze flux net)).map Prod.snd
  let type := predominant (count ls)
  let p := XD.mul (factor flux) (.fin (1 / 10))
  judge target type ls (errorRate net p n u) (errorRate net (XD.mul p (.fin (1 - (reduction type : ℝ)))) n w)

/-- `setupNetwork` (src/space_mission_validation_test.cpp:265-275). -/
noncomputable def network : List Layer :=
  [⟨"input", "input", false, 0, 1 / 10⟩, ⟨"hidden1", "dense", false, 60, 5 / 10⟩, ⟨"hidden2", "dense", true, 80, 7 / 10⟩, ⟨"conv1", "conv", false, 128, 6 / 10⟩,
   ⟨"pool1", "pool", false, 0, 3 / 10⟩, ⟨"output", "dense", true, 40, 8 / 10⟩]

/-- The loop over the phases (src/space_mission_validation_test.cpp:225-227), from phase `i` on. -/
def sampleFrom (n step : ℕ) (h : 0 < step) (i : ℕ) : List ℕ := if i < n then i :: sampleFrom n step h (i + step) else []
termination_by n - i

/-- The phases tested (src/space_mission_validation_test.cpp:225-242). -/
def sampled (n : ℕ) : List ℕ := sampleFrom n (max 1 (n / 3)) (by omega) 0

/-- `initializeMissions` (src/space_mission_validation_test.cpp:277-285). -/
def targets : List SpaceMission.Target := [.leo, .geo, .moon, .mars, .jupiter, .solarProbe]

/-- The phases tested over all missions: target and flux of the phase (src/space_mission_validation_test.cpp:218-245).  The results are kept under the names of mission and
phase; these are distinct. -/
noncomputable def cases : List (SpaceMission.Target × Option ℝ) :=
  targets.flatMap fun t => (sampled (SpaceMission.standard t).phases.length).map fun i =>
    (t, ((SpaceMission.standard t).phases[i]?).bind (SpaceMission.standard t).flux)

/-- `runAllMissionTests` (src/space_mission_validation_test.cpp:205-245): the results, `u k` and `w k` being the draws of the `k`-th test. -/
noncomputable def runAll (n : ℤ) (u w : ℕ → ℕ → ℕ → ℝ) : List Result :=
  cases.mapIdx fun k c => testPhase network c.1 c.2 n (u k) (w k)

/-- `pass_percentage` (src/space_mission_validation_test.cpp:611-621, 687-697). -/
noncomputable def percentage (rs : List Result) : ℝ :=
  open Classical in if 0 < rs.length then ((rs.countP fun r => decide r.passed : ℕ) : ℝ) * 100 / rs.length else 0

/-- The overall assessment (src/space_mission_validation_test.cpp:705-713). -/
noncomputable def assessment (x : ℝ) : String :=
  open Classical in if 80 ≤ x then "EXCELLENT" else if 60 ≤ x then "GOOD" else if 40 ≤ x then "FAIR" else "NEEDS IMPROVEMENT"

end Verif.MissionValidation
