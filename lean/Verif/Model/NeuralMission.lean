import Verif.Model.SpaceMission
import Verif.Model.LayerPolicy
/-!
Model of the space mission test for neural networks (/repo/src/test/space_mission_neural_test.cpp): the phases sampled, the mock network, the errors counted in a phase, the summary over the phases and the profile used for a mission.

Simplifications: doubles are reals, draws are arguments; a `std::map` is a list of entries in the order of their keys.  The analyses of the framework that the test calls and prints are modelled elsewhere (SpaceMission, LayerPolicy).
-/
namespace Verif.NeuralMission
open Classical

/-- `phase_step` (space_mission_neural_test.cpp:193); `num_phases_to_sample` is 3. -/
def step (n : ℕ) : ℕ := max 1 (n / 3)

/-- The loop over the phases from index `i` on (space_mission_neural_test.cpp:203); `fuel` bounds the passes left. -/
def visit (n : ℕ) : ℕ → ℕ → List ℕ
  | 0, _ => []
  | fuel + 1, i => if i < n then i :: visit n fuel (i + step n) else []

/-- The indices of the phases that are simulated (space_mission_neural_test.cpp:193-203): at most `n` passes, as the step is at least 1. -/
def sampled (n : ℕ) : List ℕ := visit n n 0

/-- `SpaceMissionNN::forward` (space_mission_neural_test.cpp:32-57): four outputs, each half the sum of the inputs, negated if its draw is below the probability. -/
noncomputable def forward (input : List ℝ) (p : ℝ) (draw : ℕ → ℝ) : List ℝ :=
  (List.range 4).map fun i : ℕ =>
    let r := input.foldl (fun a x => a + x * (1 / 2)) 0
    if draw i < p then -r else r

/-- `sample_input` (space_mission_neural_test.cpp:235). -/
noncomputable def sampleInput : List ℝ := [1 / 2, 1 / 5, 7 / 10, -1 / 10, 3 / 10, 3 / 5]

/-- `has_error` (space_mission_neural_test.cpp:242-248). -/
def hasError (result : List ℝ) : Prop := ∃ r ∈ result, r < 0

/-- The names of the layers, by index (space_mission_neural_test.cpp:61-105). -/
def layers : List String := ["input", "hidden1", "hidden2", "output"]

/-- The errors counted in a phase: in total and for each layer, by index (space_mission_neural_test.cpp:225-230). -/
structure Tally where
  errors : ℕ := 0
  byLayer : ℕ → ℕ := fun _ => 0

/-- One inference: its draws and the layer drawn for an error (space_mission_neural_test.cpp:237-261). -/
noncomputable def infer (input : List ℝ) (p : ℝ) (t : Tally) (s : (ℕ → ℝ) × ℕ) : Tally :=
  if hasError (forward input p s.1) then ⟨t.errors + 1, fun l => if l = s.2 then t.byLayer l + 1 else t.byLayer l⟩ else t

/-- All inferences of a phase (space_mission_neural_test.cpp:237-261). -/
noncomputable def inferences (input : List ℝ) (p : ℝ) (ss : List ((ℕ → ℝ) × ℕ)) : Tally := ss.foldl (infer input p) {}

/-- `phase_error_rate` and the rates of the layers (space_mission_neural_test.cpp:264, 271-273); `samples_per_phase` is 10. -/
noncomputable def phaseRate (t : Tally) : ℝ := (t.errors : ℝ) / 10
/-- The rate of a layer (space_mission_neural_test.cpp:272). -/
noncomputable def layerRate (t : Tally) (l : ℕ) : ℝ := (t.byLayer l : ℝ) / 10

/-- `map[key] = value` on a map in the order of its keys (space_mission_neural_test.cpp:265, 273). -/
def put (k : String) (v : ℝ) : List (String × ℝ) → List (String × ℝ)
  | [] => [(k, v)]
  | e :: m => if e.1 = k then (k, v) :: m else if k < e.1 then (k, v) :: e :: m else e :: put k v m

/-- `phase_error_rates` after the phases with these names and rates (space_mission_neural_test.cpp:203, 265). -/
def rates (ps : List (String × ℝ)) : List (String × ℝ) := ps.foldl (fun m p => put p.1 p.2 m) []

/-- The most vulnerable phase and its rate (space_mission_neural_test.cpp:354-361), as also the most vulnerable layer over the entries of all phases (space_mission_neural_test.cpp:368-378). -/
noncomputable def mostVulnerable (m : List (String × ℝ)) : String × ℝ := m.foldl (fun b e => if b.2 < e.2 then e else b) ("", 0)

/-- The profile for a target (space_mission_neural_test.cpp:286-313). -/
def profile : SpaceMission.Target → LayerPolicy.Mission
  | .leo | .meo | .geo => .earthOrbit
  | .moon => .lunar
  | .mars => .mars
  | .jupiter => .jupiter
  | .solarProbe => .solar
  | _ => .deepSpace

end Verif.NeuralMission
