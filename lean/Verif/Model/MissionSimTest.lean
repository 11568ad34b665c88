import Verif.Model.Checkpoint
import Verif.Model.Diversity
import Mathlib.Data.Rat.Defs
import Mathlib.Algebra.Order.Ring.Rat
import Mathlib.Algebra.Field.Rat
import Mathlib.Data.List.Lex
import Mathlib.Analysis.SpecialFunctions.Log.Base
/-!
Model of the mission simulation test (/repo/src/test/mission_simulation_test.cpp): the triple network with its three ways of voting, its reliabilities, checkpoints and cache, the mission data and the summary.

Simplifications: `float` and `double` are exact numbers (no rounding, no NaN, and `0.1f` is 1/10); what the three networks compute in a call is an argument, so nothing is assumed of their weights or damage;
the clock is an argument; `inference_count_` is unbounded.  The file is in no build target.  Not modelled: the text of the report, the physics simulator, the allocator and the power manager (modelled elsewhere).
-/
namespace Verif.MissionSim

/-- `networkN_reliability_` (mission_simulation_test.cpp:962-965). -/
structure Health where
  h1 : ℚ := 1
  h2 : ℚ := 1
  h3 : ℚ := 1
  deriving DecidableEq, Repr

/-- One output element: what the three networks give (mission_simulation_test.cpp:733-735). -/
structure Elem where
  o1 : ℚ
  o2 : ℚ
  o3 : ℚ
  deriving DecidableEq, Repr

/-- Raising a reliability (mission_simulation_test.cpp:764). -/
def up (h : ℚ) : ℚ := min 1 (h * (101 / 100))

/-- Lowering a reliability (mission_simulation_test.cpp:773). -/
def down (h : ℚ) : ℚ := max (1 / 10) (h * (99 / 100))

/-- Agreement within the tolerance (mission_simulation_test.cpp:756-758). -/
def agree (a b : ℚ) : Bool := decide (|a - b| < 1 / 10)

/-- The plain average (mission_simulation_test.cpp:748). -/
def mean (e : Elem) : ℚ := (e.o1 + e.o2 + e.o3) / 3

/-- The vote on one element and the reliabilities afterwards (mission_simulation_test.cpp:750-800). -/
def voteElem (h : Health) (e : Elem) : ℚ × Health :=
  if agree e.o1 e.o2 && agree e.o1 e.o3 then (e.o1, ⟨up h.h1, up h.h2, up h.h3⟩)
  else if agree e.o1 e.o2 then (e.o1, ⟨up h.h1, up h.h2, down h.h3⟩)
  else if agree e.o1 e.o3 then (e.o1, ⟨up h.h1, down h.h2, up h.h3⟩)
  else if agree e.o2 e.o3 then (e.o2, ⟨down h.h1, up h.h2, up h.h3⟩)
  else
    let total := h.h1 + h.h2 + h.h3
    if 0 < total then ((e.o1 * h.h1 + e.o2 * h.h2 + e.o3 * h.h3) / total, h)
    else (mean e, ⟨1 / 2, 1 / 2, 1 / 2⟩)

/-- Blending with the checkpoint (mission_simulation_test.cpp:801-812). -/
def blend (level : ℚ) (ck : Option ℚ) (r : ℚ) : ℚ :=
  match ck with
  | none => r
  | some c =>
    if 1 / 10 ^ 7 < level then
      let w := min (1 / 2) (level * 10 ^ 7)
      r * (1 - w) + c * w
    else r

/-- One element of `standardTMRInference` (mission_simulation_test.cpp:740-814). -/
def standardElem (level : ℚ) (ck : Option ℚ) (h : Health) (e : Elem) : ℚ × Health :=
  if level < 1 / 10 ^ 8 then (mean e, h)
  else
    let r := voteElem h e
    (blend level ck r.1, r.2)

/-- A loop over the elements that hands the reliabilities on; the checkpoint of element `i` is `cks[i]` (mission_simulation_test.cpp:740, 851). -/
def overElems (f : Option ℚ → Health → Elem → ℚ × Health) : List (Option ℚ) → Health → List Elem → List ℚ × Health
  | _, h, [] => ([], h)
  | cks, h, e :: es =>
    let r := f (cks.head?.getD none) h e
    let rest := overElems f cks.tail r.2 es
    (r.1 :: rest.1, rest.2)

/-- `standardTMRInference` (mission_simulation_test.cpp:732-817). -/
def standard (level : ℚ) (cks : List (Option ℚ)) (h : Health) (es : List Elem) : List ℚ × Health := overElems (standardElem level) cks h es

/-- `weightedAverageInference` (mission_simulation_test.cpp:820-841). -/
def weighted (h : Health) (es : List Elem) : List ℚ × Health :=
  let total := h.h1 + h.h2 + h.h3
  let h' : Health := if total = 0 then ⟨1, 1, 1⟩ else h
  let t := if total = 0 then 3 else total
  (es.map fun e => (e.o1 * h'.h1 + e.o2 * h'.h2 + e.o3 * h'.h3) / t, h')

/-- A value far from the mean (mission_simulation_test.cpp:853-858). -/
def outlier (m o : ℚ) : Bool := decide (|o - m| > 1 / 5)

/-- Capping (mission_simulation_test.cpp:904-907). -/
def cap (h : Health) : Health := ⟨min 1 h.h1, min 1 h.h2, min 1 h.h3⟩

/-- The value nearest to the checkpoint (mission_simulation_test.cpp:879-893). -/
def nearest (c : ℚ) (h : Health) (e : Elem) : ℚ × Health :=
  let d1 := |e.o1 - c|
  let d2 := |e.o2 - c|
  let d3 := |e.o3 - c|
  if d1 ≤ d2 ∧ d1 ≤ d3 then (e.o1, { h with h1 := h.h1 * (105 / 100) })
  else if d2 ≤ d1 ∧ d2 ≤ d3 then (e.o2, { h with h2 := h.h2 * (105 / 100) })
  else (e.o3, { h with h3 := h.h3 * (105 / 100) })

/-- The choice of the selective vote, before capping (mission_simulation_test.cpp:860-902). -/
def selectiveRaw (ck : Option ℚ) (h : Health) (e : Elem) : ℚ × Health :=
  let m := mean e
  let x1 := outlier m e.o1
  let x2 := outlier m e.o2
  let x3 := outlier m e.o3
  if x1 && !x2 && !x3 then ((e.o2 + e.o3) / 2, { h with h1 := h.h1 * (9 / 10) })
  else if !x1 && x2 && !x3 then ((e.o1 + e.o3) / 2, { h with h2 := h.h2 * (9 / 10) })
  else if !x1 && !x2 && x3 then ((e.o1 + e.o2) / 2, { h with h3 := h.h3 * (9 / 10) })
  else match ck with
    | some c => nearest c h e
    | none => (m, h)

/-- One element of `selectiveVotingInference` (mission_simulation_test.cpp:851-908). -/
def selectiveElem (ck : Option ℚ) (h : Health) (e : Elem) : ℚ × Health :=
  let r := selectiveRaw ck h e
  (r.1, cap r.2)

/-- `selectiveVotingInference` (mission_simulation_test.cpp:844-911). -/
def selective (cks : List (Option ℚ)) (h : Health) (es : List Elem) : List ℚ × Health := overElems selectiveElem cks h es

/-- The members of `TMRProtectedNeuralNetwork` (mission_simulation_test.cpp:950-984); `trained`: whether the error predictor was trained. -/
structure State where
  level : ℚ := 1 / 10 ^ 8
  health : Health := {}
  trained : Bool := false
  div : Diversity.State := ((({} : Diversity.State).add "standard_tmr" 1).add "weighted_average" (9 / 10)).add "selective_voting" (8 / 10)
  managers : List (Ckpt.State ℚ)
  lastInput : List ℚ := []
  lastOutput : List ℚ := []
  interval : ℕ := 5
  count : ℕ := 0

/-- The constructor at time `now`, in seconds (mission_simulation_test.cpp:630-673). -/
def new (outputs : ℕ) (now : ℤ) : State := { managers := List.replicate outputs (Ckpt.new 3 30 now) }

/-- Whether `calculateSimilarity` is above 0.95 for inputs of one length (mission_simulation_test.cpp:681-688, 935-948): `1 / (1 + √d) > 0.95` exactly if `d < 1 / 361`, where `d` is the sum of the squares. -/
def similar (a b : List ℚ) : Bool := a.length = b.length && !a.isEmpty && decide (((a.zip b).map fun p => (p.1 - p.2) * (p.1 - p.2)).sum < 1 / 361)

/-- The last checkpoint of each element (mission_simulation_test.cpp:802-804, 874-876). -/
def State.checkpoints (s : State) : List (Option ℚ) := s.managers.map Ckpt.getLatestCheckpoint

/-- The result of one way of voting and the reliabilities afterwards (mission_simulation_test.cpp:647-660, 699-706). -/
def State.impl (s : State) (h : Health) (es : List Elem) (name : String) : List ℚ × Health :=
  if name = "standard_tmr" then standard s.level s.checkpoints h es
  else if name = "weighted_average" then weighted h es
  else selective s.checkpoints h es

/-- Result and reliabilities of a call without the cache (mission_simulation_test.cpp:690-710).  Above 1e-6 the three ways run one after the other, in the order of their names, as the map of the implementations has them. -/
def State.infer (s : State) (es : List Elem) : Outcome (List ℚ × Health × Diversity.State) :=
  if 1 / 10 ^ 6 < s.level then
    let a := selective s.checkpoints s.health es
    let b := standard s.level s.checkpoints a.2 es
    let c := weighted b.2 es
    let run : String → Option (List ℚ) := fun n => if n = "standard_tmr" then some b.1 else if n = "weighted_average" then some c.1 else some a.1
    (s.div.execute run run).bind fun x =>
      match x.1 with
      | .value r => .ok (r, c.2, x.2)
      | _ => .ub
  else if 1 / 10 ^ 7 < s.level then
    let r := s.impl s.health es (Diversity.mostReliable s.div.entries)
    .ok (r.1, r.2, s.div)
  else
    let r := standard s.level s.checkpoints s.health es
    .ok (r.1, r.2, s.div)

/-- `forward` (mission_simulation_test.cpp:676-729); each network gives `output_size_` elements; `nets` is what the three networks compute from the input. -/
def State.forward (s : State) (nets : List ℚ → List Elem) (now : ℤ) (input : List ℚ) : Outcome (List ℚ × State) :=
  let s := { s with count := s.count + 1 }
  if s.trained && similar input s.lastInput then .ok (s.lastOutput, s)
  else (s.infer (nets input)).bind fun x =>
    let s' : State := { s with health := x.2.1, div := x.2.2 }
    let s' : State := if s.count % s.interval = 0 then { s' with managers := List.zipWith (fun m r => Ckpt.createCheckpoint m r s.count now) s'.managers x.1 } else s'
    .ok (x.1, { s' with lastInput := input, lastOutput := x.1 })

/-- `corruptModel`, as far as the vote is concerned (mission_simulation_test.cpp:914-932). -/
def State.corrupt (s : State) (p : ℚ) : State := { s with level := p / 86400 }

/-- Calls on the network. -/
inductive Op where
  | corrupt (p : ℚ)
  | forward (nets : List ℚ → List Elem) (now : ℤ) (input : List ℚ)

/-- One call. -/
def State.step (s : State) : Op → Outcome State
  | .corrupt p => .ok (s.corrupt p)
  | .forward nets now input => (s.forward nets now input).bind fun x => .ok x.2

/-- A history. -/
def State.run (s : State) : List Op → Outcome State
  | [] => .ok s
  | o :: t => (s.step o).bind fun s' => s'.run t

/-! ### Mission data -/

/-- `MissionType` (mission_simulation_test.cpp:107-114). -/
inductive Mission where
  | vanAllen | europa | artemis | iss | mars | lro
  deriving DecidableEq, Repr

/-- `MissionRadiationData` without the solar activity (mission_simulation_test.cpp:94-102); the time points are 0, 1, ... -/
structure Data where
  name : String
  days : ℕ
  seu : List ℚ
  mbu : List ℚ
  tid : List ℚ
  labels : List String

/-- mission_simulation_test.cpp:122-168. -/
def vanAllenData : Data :=
  let seu := [52, 73, 98, 240, 450, 780, 990, 850, 420, 310, 560, 870, 750, 430, 320, 280, 250, 230, 280, 350, 530, 720, 460, 310, 260, 230, 210, 240, 380, 520, 480].map (fun x : ℚ => x / 10 ^ 9)
  { name := "Van Allen Probes", days := 31, seu := seu, mbu := seu.map (· * (15 / 100)), tid := (List.range 31).map fun i : ℕ => 21 / 10 ^ 10 * (1 + (i : ℚ) * (1 / 100)),
    labels := ["Launch", "Outer Belt Transit", "Outer Belt Study", "Slot Region", "Inner Belt Transit", "Inner Belt Study", "Perigee Drop", "Outer Belt Revisit", "Storm Response", "Recovery Phase",
      "Extended Mission Start", "Recovery Phase", "Outer Belt Study", "Inner Belt Study", "Slot Region", "Extended Mission 2", "Storm Response", "Recovery Phase", "Outer Belt Study", "Inner Belt Study",
      "Solar Event Response", "Radiation Belt Reconfiguration", "Outer Belt Transit", "Recovery Phase", "Standard Operations", "End of Extended Mission", "Decommissioning Phase", "Final Observations",
      "Re-entry Preparation", "Re-entry", "Mission End"] }

/-- mission_simulation_test.cpp:170-217. -/
def artemisData : Data :=
  let seu := [12, 58, 83, 270, 32, 18, 15, 14, 13, 18, 21, 19, 17, 15, 14, 16, 18, 23, 31, 280, 350, 62, 21, 15, 13, 25].map (fun x : ℚ => x / 10 ^ 9)
  { name := "Artemis I", days := 26, seu := seu, mbu := seu.map (· * (12 / 100)),
    tid := (List.range 26).map fun i : ℕ => (if i = 1 ∨ i = 20 ∨ i = 21 then 15 / 10 ^ 10 * 15 else 15 / 10 ^ 10) * (1 + (i : ℚ) * (5 / 1000)),
    labels := ["Launch", "Van Allen Belt Transit", "High Earth Orbit", "Lunar Transit", "Lunar Orbit Insertion", "Lunar Orbit 1", "Lunar Orbit 2", "Lunar Orbit 3", "Lunar Orbit 4", "Lunar Orbit 5", "Lunar Orbit 6",
      "Lunar Orbit 7", "Lunar Orbit 8", "Lunar Orbit 9", "Lunar Orbit 10", "Return Transit 1", "Return Transit 2", "Return Transit 3", "Return Transit 4", "Van Allen Outer Belt Transit",
      "Van Allen Inner Belt Transit", "Low Earth Orbit", "Re-entry Preparation", "Re-entry", "Splashdown", "Mission End"] }

/-- mission_simulation_test.cpp:219-267. -/
def europaData : Data :=
  let seu := [1000, 1200, 5800, 23000, 87000, 250000, 3200000, 14000000, 28000000, 35000000, 21000000, 5800000, 1200000, 560000, 87000, 23000, 18000, 22000, 75000, 210000, 850000, 3200000, 7800000, 12000000, 8500000,
      2100000, 870000, 320000, 120000, 87000].map (fun x : ℚ => x / 10 ^ 10)
  { name := "Europa Clipper", days := 30, seu := seu, mbu := seu.map (· * (25 / 100)),
    tid := (List.range 30).map fun i : ℕ => if 7 ≤ i ∧ i ≤ 12 then 5 / 10 ^ 8 * (50 + (10 - |(i : ℚ) - 10|) * 30) else 5 / 10 ^ 8,
    labels := ["Jupiter Approach", "Jupiter Orbit Insertion", "Jupiter Orbit 1", "Ganymede Flyby", "Radiation Belt Transit", "Europa Approach", "Europa Flyby 1 (1000 km)", "Europa Flyby 2 (400 km)",
      "Europa Flyby 3 (200 km)", "Europa Closest Approach (25 km)", "Europa Departure", "Radiation Belt Transit", "Callisto Flyby", "Jupiter Orbit Adjustment", "Outer Orbit 1", "Outer Orbit 2", "Ganymede Approach",
      "Ganymede Flyby", "Radiation Belt Transit", "Europa Approach 2", "Europa Flyby 4", "Europa Flyby 5", "Europa Flyby 6", "Europa Closest Approach 2", "Europa Departure", "Radiation Belt Transit", "Jupiter Orbit",
      "Orbit Adjustment", "Outer Radiation Belt", "Mission Phase End"] }

/-- mission_simulation_test.cpp:269-302. -/
def marsData : Data :=
  let seu := [85, 87, 92, 110, 130, 120, 110, 100, 98, 120, 150, 170, 140, 120, 100, 95, 93, 91, 89, 88, 87, 86, 85, 78, 72, 68, 65, 63, 62, 60].map (fun x : ℚ => x / 10 ^ 10)
  { name := "Mars Science Laboratory", days := 30, seu := seu, mbu := seu.map (· * (10 / 100)), tid := (List.range 30).map fun i : ℕ => 8 / 10 ^ 10 * (1 + (i : ℚ) * (2 / 1000)),
    labels := "Earth Departure" :: (List.replicate 28 "Deep Space Transit" ++ ["Mars Approach"]) }

/-- mission_simulation_test.cpp:304-365. -/
def issData : Data :=
  let seu := (List.range 30).map fun i : ℕ => (if i % 3 = 0 then 85 / 10 ^ 9 else if i % 3 = 1 then 22 / 10 ^ 9 else 5 / 10 ^ 9) * (if 6 ≤ i % 8 then (25 / 10 : ℚ) else 1)
  { name := "ISS", days := 30, seu := seu, mbu := seu.map (· * (8 / 100)), tid := (List.range 30).map fun i : ℕ => if i % 3 = 0 then 35 / 10 ^ 11 * 5 else 35 / 10 ^ 11,
    labels := (List.range 30).map fun i : ℕ => if i % 3 = 0 then "South Atlantic Anomaly" else if 6 ≤ i % 8 then "High Latitude Pass" else "Standard Orbit" }

/-- `mission_data_.at` (mission_simulation_test.cpp:369-371): `none` where it throws. -/
def data : Mission → Option Data
  | .vanAllen => some vanAllenData
  | .europa => some europaData
  | .artemis => some artemisData
  | .iss => some issData
  | .mars => some marsData
  | .lro => none

/-- `find(...) != npos`. -/
def has (s sub : String) : Bool := decide (sub.toList <:+: s.toList)

/-- `RadiationEnvironment`, the values used (mission_simulation_test.cpp:384-446). -/
inductive Env where
  | leo | meo | geo | lunar | marsSurface | jupiter | europa | interplanetary | solarStorm
  deriving DecidableEq, Repr

/-- The environment of a mission day (mission_simulation_test.cpp:387-446). -/
def env (m : Mission) (day : ℕ) (label : String) : Env :=
  match m with
  | .vanAllen => if has label "Inner Belt" then .meo else if has label "Outer Belt" then .geo else .leo
  | .europa => if has label "Europa" then .europa else if has label "Radiation Belt" then .jupiter else .interplanetary
  | .artemis => if has label "Van Allen" then .meo else if has label "Lunar" then .lunar else .interplanetary
  | .iss => if has label "South Atlantic" then .meo else .leo
  | .mars => if day < 25 then .interplanetary else .marsSurface
  | .lro => .leo

/-- `configureMissionSimulation` (mission_simulation_test.cpp:374-455): the environment set, `none` where it throws. -/
def configure (m : Mission) (day : ℤ) : Option Env :=
  match data m with
  | none => none
  | some d => if day < 0 ∨ (d.days : ℤ) ≤ day then none else some (env m day.toNat (d.labels.getD day.toNat ""))

/-- The probability of a flip handed to `corruptModel` (mission_simulation_test.cpp:1130-1135). -/
def flipProbability (seu protection : ℚ) : ℚ := seu * 86400 * (1 - protection)

/-! ### Summary -/

/-- The ten test inputs (mission_simulation_test.cpp:1052-1059). -/
def testInputs : List (List ℚ) := (List.range 10).map fun _ : ℕ => (List.range 10).map fun j : ℕ => (j : ℚ) / 10

/-- `expected_classes` (mission_simulation_test.cpp:1154). -/
def expectedClasses : List ℕ := [0, 1, 2, 3, 0, 1, 2, 3, 0, 1]

/-- The accuracy of a day, from the predicted classes (mission_simulation_test.cpp:1150-1171). -/
noncomputable def dayAccuracy (predicted : List ℕ) : ℝ := ((((predicted.zip expectedClasses).countP fun p => p.1 = p.2) : ℕ) : ℝ) / 10

/-- `calculateBaselineAccuracy` (mission_simulation_test.cpp:31-38). -/
noncomputable def baseline (errorRate : ℝ) : ℝ := max 10 (90 * Real.exp (-5 * errorRate) + 10)

/-- `computeAccuracy` with the noise drawn and the predictor's answer as arguments (mission_simulation_test.cpp:41-89). -/
noncomputable def computeAccuracy (errorRate : ℝ) (protection : ℤ) (mission phase : String) (vulnerability predicted noise : ℝ) : ℝ :=
  let impact := if 0 < errorRate then 45 * Real.logb 10 (1 + errorRate * 10 ^ 7) else 0
  let factor : ℝ := if has mission "Europa" then (if has phase "Flyby" then 9 / 10 else 1)
    else if has mission "Van Allen" then (if has phase "Belt" then 85 / 100 else 1) else 1
  let accuracy := 90 - impact * (1 - (protection : ℝ) / 100) * factor - vulnerability * 20
  max 10 (min 99 (accuracy + (predicted * 5 + noise)))

/-- What the summary uses of a day (mission_simulation_test.cpp:1062-1075). -/
structure Day where
  errorRate : ℝ
  accuracy : ℝ
  deriving Inhabited

/-- Minimum accuracy and worst day (mission_simulation_test.cpp:1218-1239); days are numbered from `k`. -/
noncomputable def worst : ℕ → ℝ × ℕ → List Day → ℝ × ℕ
  | _, acc, [] => acc
  | k, acc, d :: t => worst (k + 1) (if d.accuracy < acc.1 then (d.accuracy, k) else acc) t

/-- The verdicts (mission_simulation_test.cpp:1307-1331). -/
structure Summary where
  average : ℝ
  efficiency : ℝ
  worstDay : ℕ
  worstAccuracy : ℝ
  effectiveness : String
  suitability : String

/-- The summary of a mission (mission_simulation_test.cpp:1218-1331); without days `results[worst_day]` is undefined. -/
noncomputable def summary (ds : List Day) : Outcome Summary :=
  if ds = [] then .ub
  else
    let avg := (ds.map Day.accuracy).sum / ds.length
    let avgError := (ds.map Day.errorRate).sum / ds.length
    let eff := avg / baseline avgError * 100
    let w := worst 0 (100, 0) ds
    .ok { average := avg, efficiency := eff, worstDay := w.2, worstAccuracy := w.1,
          effectiveness := if 120 < eff then "HIGH" else if 80 < eff then "MEDIUM" else "LOW",
          suitability := if 75 < avg then "EXCELLENT" else if 60 < avg then "GOOD" else if 40 < avg then "FAIR" else "POOR" }

end Verif.MissionSim
