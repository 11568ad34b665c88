import Verif.Model.MonitoredTmr
import Verif.Model.MissionSim
import Verif.Model.Crc
/-!
Model of the mission simulator example (/repo/examples/mission_simulator/mission_simulator.cpp): a network of weights held in the mutex-protected voter (Verif.MTmr), copies of the weights in static memory, and a mission (Verif.MissionSim) that strikes the copies.

Simplifications: weights are bit patterns of `float`; one multiply-accumulate is a function `mac sum weight`; the clock and the random numbers of the `i`-th read are `now i` and `rnd i`; the number of weights is that of the list given (ten in the program).
`getErrorStats` parses its numbers from the text of the first weight's statistics; here they are taken from its counters.  Not modelled: texts, locking (C71), exceptions (none can occur: the weights exist).
-/
namespace Verif.MissionDemo
open Verif.RadSimulator Verif.MissionSim

/-- A `float` (mission_simulator.cpp:20). -/
abbrev V := BitVec 32

/-- `SimpleNeuralNetwork` (mission_simulator.cpp:17-23). -/
structure Net where
  weights : List (MTmr.State V)
  scrub : ℤ := 1000
  recovery : Bool := false
  checkpoint : ℕ := 0

/-- The constructor (mission_simulator.cpp:26-36) with the weights drawn. -/
def Net.new (crc : V → BitVec 32) (vs : List V) (now : ℤ) : Net := { weights := vs.map fun v => MTmr.new crc v now }

/-- `setScrubInterval` (mission_simulator.cpp:39-48). -/
def Net.setScrub (n : Net) (ms : ℤ) : Net := { n with scrub := ms, weights := n.weights.map fun w => { w with intervalMs := ms } }

/-- `enableRecovery` (mission_simulator.cpp:50-55). -/
def Net.enableRecovery (n : Net) (s : ℕ) : Net := { n with recovery := true, checkpoint := s }

/-- The reads of all weights, one after the other, from read `i` on: the values and the weights afterwards (mission_simulator.cpp:61-75, 254-257). -/
def readAll (eq : V → V → Bool) (crc : V → BitVec 32) (now : ℕ → ℤ) (rnd : ℕ → ℚ) : ℕ → List (MTmr.State V) → List V × List (MTmr.State V)
  | _, [] => ([], [])
  | i, w :: ws =>
    let r := MTmr.get eq crc w (now i) (rnd i)
    let q := readAll eq crc now rnd (i + 1) ws
    (r.1 :: q.1, r.2 :: q.2)

/-- `runInference` (mission_simulator.cpp:58-79). -/
def Net.infer (eq : V → V → Bool) (crc : V → BitVec 32) (mac : V → V → V) (now : ℕ → ℤ) (rnd : ℕ → ℚ) (i : ℕ) (n : Net) : V × Net :=
  let r := readAll eq crc now rnd i n.weights
  (r.1.foldl mac 0#32, { n with weights := r.2 })

/-- `getErrorStats` (mission_simulator.cpp:94-128): checksum failures and disagreements of the first weight. -/
def Net.stats (n : Net) : ℕ × ℕ :=
  match n.weights with
  | [] => (0, 0)
  | w :: _ => (w.crcFailures, w.disagreements)

/-- `boostRadiationRates` (mission_simulator.cpp:172-191). -/
noncomputable def boost (p : Params) (k : ℝ) : Params := { p with solar := p.solar * k, shield := max (1 / 2) (p.shield / k), saa := true }

/-- The protection level announced (mission_simulator.cpp:230-231). -/
def label (c : Config) : String := if c.medium.tmr then "MEDIUM" else if c.high.tmr then "HIGH" else "LOW"

open Classical in
/-- The callback (mission_simulator.cpp:277-296). -/
noncomputable def adapt (n : Net) (env : Params) : Net :=
  if env.saa = true ∨ 5 < env.solar then (n.setScrub 500).enableRecovery 60 else n.setScrub 5000

/-- The set-up of the network for the mission (mission_simulator.cpp:226-240). -/
def setUp (c : Config) (n : Net) : Net :=
  let n := n.setScrub 5000
  if label c = "MEDIUM" ∨ label c = "HIGH" then n.enableRecovery 300 else n

/-- The part before the mission (mission_simulator.cpp:203-274): the simulator with the boosted environment and the registered copies, and the network.  `vs` are the weights drawn, `t0` the time of construction. -/
noncomputable def start (eq : V → V → Bool) (crc : V → BitVec 32) (mission : String) (vs : List V) (t0 : ℤ) (now : ℕ → ℤ) (rnd : ℕ → ℚ) (rng : ℕ → ℝ) (src : Src) : Sim × Net :=
  let sim := Sim.new (Profile.standard mission) (Config.standard mission) rng src
  let sim := sim.update (boost sim.env 50)
  let net := setUp sim.cfg (Net.new crc vs t0)
  let copies := readAll eq crc now rnd 0 net.weights
  (copies.1.foldl (fun (s : Sim) (v : V) => s.register (Crc.bytesOf 4 v) true) sim, { net with weights := copies.2 })

/-- The part after the mission, with the callbacks of the mission (mission_simulator.cpp:277-313): the network has adapted to `envs`; result of the inference and statistics printed, and the network.  `k` reads came before. -/
noncomputable def finish (eq : V → V → Bool) (crc : V → BitVec 32) (mac : V → V → V) (now : ℕ → ℤ) (rnd : ℕ → ℚ) (k : ℕ) (net : Net) (envs : List Params) : (V × (ℕ × ℕ)) × Net :=
  let out := (envs.foldl adapt net).infer eq crc mac now rnd k
  ((out.1, out.2.stats), out.2)

/-- The program (mission_simulator.cpp:193-313): result of the inference and statistics printed, the network, and the environments announced.  `mission` is the argument. -/
noncomputable def main (eq : V → V → Bool) (crc : V → BitVec 32) (mac : V → V → V) (mission : String) (vs : List V) (t0 : ℤ) (now : ℕ → ℤ) (rnd : ℕ → ℚ) (rng : ℕ → ℝ) (src : Src) : R (((V × (ℕ × ℕ)) × Net) × List Params) :=
  let s := start eq crc mission vs t0 now rnd rng src
  (s.1.run 30 3000).bind fun r => .ok (finish eq crc mac now rnd vs.length s.2 r.1, r.1)

end Verif.MissionDemo
