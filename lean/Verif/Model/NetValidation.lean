import Verif.Model.RadEnvironment
import Verif.Model.MissionCritical
/-!
Model of test/verification/neural_network_validation.cpp.

Numbers are real, so the comparisons never meet NaN and nothing is rounded.  The network enters as a value of `Net`: an unknown forward pass, which may change the state of the network, and an unknown effect of radiation; every forward pass gives a vector of the size of the output layer.  The random numbers of the data set and of the training loop are streams of arbitrary values; times and texts are left out.
-/
namespace Verif.NetVal
open Verif.RadEnvironment (Pos Mission orbit trunc)
open Verif.MissionCrit (best)

/-- The output of one sample (neural_network_validation.cpp:92-112): `outs` values, written by the sum of the inputs; with no outputs the single-output branch writes outside the vector. -/
noncomputable def target (outs : ℕ) (sum : ℝ) : Outcome (List ℝ) :=
  open Classical in
  if 2 ≤ outs then
    if 1 / 2 < sum then .ok ((List.replicate outs 0).set 0 1)
    else if sum < -(1 / 2) then .ok ((List.replicate outs 0).set 1 1)
    else if 2 < outs then .ok ((List.replicate outs 0).set 2 1)
    else .ok (((List.replicate outs 0).set 0 (1 / 2)).set 1 (1 / 2))
  else if outs = 0 then .ub
  else .ok ((List.replicate outs 0).set 0 (Real.tanh sum))

/-- The inputs of sample `i` (neural_network_validation.cpp:86-89). -/
def inputsOf (ins : ℕ) (draws : ℕ → ℝ) (i : ℕ) : List ℝ := (List.range ins).map fun j => draws (i * ins + j)

/-- `generateSyntheticDataset` (neural_network_validation.cpp:74-118); the stream `draws` stands for the engine with its distribution. -/
noncomputable def dataset (ins outs : ℕ) (draws : ℕ → ℝ) : ℕ → Outcome (List (List ℝ × List ℝ))
  | 0 => .ok []
  | i + 1 => (dataset ins outs draws i).bind fun d => (target outs (inputsOf ins draws i).sum).bind fun t => .ok (d ++ [(inputsOf ins draws i, t)])

/-- One step of the loop of `calculateAccuracy` (neural_network_validation.cpp:139-167): is the sample counted? -/
noncomputable def counts (threshold : ℝ) (pred act : List ℝ) : Bool :=
  open Classical in
  if pred.length ≠ act.length then false
  else if 1 < pred.length then decide (best pred = best act)
  else if pred.length = 1 then decide (threshold ≤ pred.headD 0) == decide (threshold ≤ act.headD 0)
  else false

/-- The loop of `calculateAccuracy` (neural_network_validation.cpp:136-167). -/
noncomputable def correct (threshold : ℝ) : List (List ℝ) → List (List ℝ) → ℕ → ℕ
  | p :: ps, a :: as, c => correct threshold ps as (if counts threshold p a then c + 1 else c)
  | _, _, c => c

/-- `calculateAccuracy` (neural_network_validation.cpp:128-171). -/
noncomputable def accuracy (threshold : ℝ) (pred act : List (List ℝ)) : ℝ :=
  if pred.length ≠ act.length ∨ pred = [] then 0
  else 100 * (correct threshold pred act 0 : ℝ) / (pred.length : ℝ)

/-- The network as the test uses it (neural_network_validation.cpp:194-203, 217, 227, 279, 284): `forward` at a level of radiation and `radiate` with level and seed, both of which may change its state. -/
structure Net (σ : Type) (m : ℕ) where
  forward : σ → List ℝ → ℝ → (Fin m → ℝ) × σ
  radiate : σ → ℝ → ℕ → σ

variable {σ : Type} {m : ℕ}

/-- Predictions of several inputs in a row (neural_network_validation.cpp:226-229, 282-284, 298-300). -/
def forwards (n : Net σ m) (lvl : ℝ) : σ → List (List ℝ) → List (Fin m → ℝ) × σ
  | s, [] => ([], s)
  | s, x :: xs => let r := n.forward s x lvl; let q := forwards n lvl r.2 xs; (r.1 :: q.1, q.2)

/-- Inclination of the trajectory (neural_network_validation.cpp:249-250). -/
noncomputable def inclination : Mission → ℝ
  | .leoEquatorial => 10 | .leoPolar => 85 | _ => 45

/-- Altitude of the trajectory (neural_network_validation.cpp:252-255). -/
noncomputable def altitude : Mission → ℝ
  | .leoEquatorial => 400 | .leoPolar => 400 | .meo => 20000 | .geo => 35786 | _ => 1000

/-- The trajectory (neural_network_validation.cpp:245-265). -/
noncomputable def trajectory (k : Mission) : List Pos :=
  ((List.range 36).map fun i : ℕ => orbit (inclination k) (altitude k) ((i : ℝ) * (1 / 4))) ++
    (if k = .leoEquatorial ∨ k = .leoPolar then [⟨-30, -30, altitude k⟩] else [])

/-- `static_cast<uint64_t>(position.latitude * 1000)` (neural_network_validation.cpp:279): the truncated number must be representable. -/
noncomputable def seed (p : Pos) : Outcome ℕ :=
  open Classical in
  if 0 ≤ trunc (p.lat * 1000) ∧ trunc (p.lat * 1000) < 2 ^ 64 then .ok (trunc (p.lat * 1000)).toNat else .ub

/-- The loop that stores or averages the predictions of one position (neural_network_validation.cpp:286-293). -/
noncomputable def merge : List (Fin m → ℝ) → List (Fin m → ℝ) → List (Fin m → ℝ)
  | [], ps => ps
  | a :: as, [] => a :: as
  | a :: as, p :: ps => (fun j => (a j + p j) / 2) :: merge as ps

/-- What the walk along the trajectory has gathered: the state of the network, the averaged predictions, and (for the specification only) the predictions of every position, in order. -/
structure Walk (σ : Type) (m : ℕ) where
  net : σ
  acc : List (Fin m → ℝ)
  log : List (List (Fin m → ℝ))

/-- One position (neural_network_validation.cpp:270-294); `xs` are the first inputs, at most five; `level` is the upset probability of a position. -/
noncomputable def visit (n : Net σ m) (level : Pos → ℝ) (xs : List (List ℝ)) (w : Walk σ m) (p : Pos) : Outcome (Walk σ m) :=
  (seed p).bind fun k =>
    let r := forwards n (level p * 10 ^ 7) (n.radiate w.net (level p * 10 ^ 7) k) xs
    .ok ⟨r.2, merge w.acc r.1, w.log ++ [r.1]⟩

/-- The loop over the trajectory (neural_network_validation.cpp:269-295). -/
noncomputable def walk (n : Net σ m) (level : Pos → ℝ) (xs : List (List ℝ)) : Walk σ m → List Pos → Outcome (Walk σ m)
  | w, [] => .ok w
  | w, p :: ps => (visit n level xs w p).bind fun w => walk n level xs w ps

/-- `TestResult` (neural_network_validation.cpp:35-43) without name, counters and time; with the predictions the accuracies are made of. -/
structure Res (m : ℕ) where
  base : List (Fin m → ℝ)
  rad : List (Fin m → ℝ)
  log : List (List (Fin m → ℝ))
  accBase : ℝ
  accRad : ℝ
  effect : ℝ

/-- Effectiveness (neural_network_validation.cpp:309-314). -/
noncomputable def effectiveness (b r : ℝ) : ℝ :=
  open Classical in
  if 0 < b then r / b * 100 else 0

/-- `testInSpaceEnvironment` (neural_network_validation.cpp:181-351) for a fresh network `s` and the samples `picks` of the training loop; an empty data set is read outside its bounds. -/
noncomputable def testIn (n : Net σ m) (s : σ) (picks : List ℕ) (level : Pos → ℝ) (k : Mission) (d : List (List ℝ × List ℝ)) : Outcome (Res m) :=
  if d = [] then .ub
  else
    let xs := d.map Prod.fst
    let t := forwards n 0 s (picks.map fun i => xs.getD i [])
    let b := forwards n 0 t.2 xs
    (walk n level (xs.take 5) ⟨b.2, [], []⟩ (trajectory k)).bind fun w =>
      let rest := forwards n 0 w.net (xs.drop w.acc.length)
      let rad := w.acc ++ rest.1
      let ab := accuracy (1 / 2) (b.1.map List.ofFn) (d.map Prod.snd)
      let ar := accuracy (1 / 2) (rad.map List.ofFn) (d.map Prod.snd)
      .ok ⟨b.1, rad, w.log, ab, ar, effectiveness ab ar⟩

/-- The eight missions of `main` (neural_network_validation.cpp:493-502). -/
def missions : List Mission := [.leoEquatorial, .leoPolar, .meo, .geo, .lunar, .mars, .jupiter, .solarProbe]

/-- The pairs tested by `main` (neural_network_validation.cpp:366-373, 506-509): six protection levels, here their numbers, for each mission. -/
def plan : List (Mission × ℕ) := missions.flatMap fun k => (List.range 6).map fun l => (k, l)

/-- The results of `main` (neural_network_validation.cpp:489-509): each pair of the plan has its own network; an undefined one makes the program undefined. -/
noncomputable def run (n : ℕ → Net σ m) (s : σ) (picks : ℕ → List ℕ) (level : Mission → Pos → ℝ) (d : List (List ℝ × List ℝ)) : List (Mission × ℕ) → Outcome (List (Res m))
  | [] => .ok []
  | q :: qs => (testIn (n q.2) s (picks q.2) (level q.1) q.1 d).bind fun r => (run n s picks level d qs).bind fun rs => .ok (r :: rs)

end Verif.NetVal
