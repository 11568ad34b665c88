import Verif.Model.RadSimulator
import Mathlib.Algebra.Order.Floor.Defs
import Mathlib.Algebra.Order.Archimedean.Real.Basic
/-!
Model of `testing::MissionSimulator`, `MissionProfile`, `MissionStatistics` and `AdaptiveProtectionConfig` (/repo/include/rad_ml/testing/mission_simulator.hpp).

Doubles are real numbers, counters and times unbounded integers, registered regions disjoint.  `std::uniform_real_distribution(0,1)` over the engine of the simulator is a stream of numbers.
`MemoryScrubber::scrubMemory` writes no registered byte (C37), so only the counting of cycles appears here.  Texts (`getReport`) are left out.
-/
namespace Verif.MissionSim
open Verif.RadSimulator

/-- `MissionProfile` (mission_simulator.hpp:26-30). -/
structure Profile where
  name : String
  envs : List Params
  durations : List ℝ
  probs : List ℝ

/-- The environment in a solar flare (mission_simulator.hpp:52-54, 71-73, 84-86, 98-100, 112-114). -/
noncomputable def flare (p : Params) (n : String) : Params := { p with solar := 9, name := n }
/-- The environment in the anomaly (mission_simulator.hpp:47-49, 66-68). -/
def anomaly (p : Params) (n : String) : Params := { p with saa := true, name := n }

/-- `MissionProfile::createStandard` (mission_simulator.hpp:38-151). -/
noncomputable def Profile.standard (m : String) : Profile :=
  if m = "LEO" ∨ m = "LEO_EARTH_OBSERVATION" then ⟨m, [missionEnv "LEO", anomaly (missionEnv "LEO") "LEO (SAA)", flare (missionEnv "LEO") "LEO (Solar Flare)"], [5400, 600, 300], [4 / 5, 3 / 20, 1 / 20]⟩
  else if m = "ISS" then ⟨m, [missionEnv "ISS", anomaly (missionEnv "ISS") "ISS (SAA)", flare (missionEnv "ISS") "ISS (Solar Flare)"], [5400, 600, 300], [4 / 5, 3 / 20, 1 / 20]⟩
  else if m = "GEO" ∨ m = "GEOSTATIONARY" then ⟨m, [missionEnv "GEO", flare (missionEnv "GEO") "GEO (Solar Flare)"], [86400, 3600], [19 / 20, 1 / 20]⟩
  else if m = "LUNAR" ∨ m = "MOON" then ⟨m, [missionEnv "LUNAR", flare (missionEnv "LUNAR") "Lunar (Solar Flare)"], [86400, 3600], [19 / 20, 1 / 20]⟩
  else if m = "MARS" then ⟨m, [missionEnv "MARS", flare (missionEnv "MARS") "Mars (Solar Flare)", { missionEnv "MARS" with shield := (missionEnv "MARS").shield * (4 / 5), name := "Mars (Dust Storm)" }], [86400, 3600, 43200], [9 / 10, 1 / 20, 1 / 20]⟩
  else if m = "JUPITER" then ⟨m, [missionEnv "JUPITER", { missionEnv "JUPITER" with shield := (missionEnv "JUPITER").shield * (7 / 10), name := "Jupiter (Intense Radiation)" }], [43200, 3600], [9 / 10, 1 / 10]⟩
  else ⟨m, [{ missionEnv "LEO" with name := "Generic Mission (Normal)" }], [3600], [1]⟩

/-- Settings of one level (mission_simulator.hpp:260-276). -/
structure Settings where
  tmr : Bool
  ecc : Bool
  scrub : Bool
  interval : ℤ
  deriving DecidableEq

/-- `AdaptiveProtectionConfig` (mission_simulator.hpp:252-282). -/
structure Config where
  adaptive : Bool
  thLow : ℝ
  thMedium : ℝ
  thHigh : ℝ
  low : Settings
  medium : Settings
  high : Settings
  budget : ℝ
  tmrCost : ℝ
  eccCost : ℝ
  scrubCost : ℝ

/-- Default values (mission_simulator.hpp:253-282). -/
noncomputable def Config.default : Config := ⟨true, 1 / 1000, 1 / 100, 1 / 10, ⟨false, true, false, 60000⟩, ⟨true, true, true, 10000⟩, ⟨true, true, true, 1000⟩, 100, 10, 5, 1 / 2⟩

/-- `AdaptiveProtectionConfig::createStandard` (mission_simulator.hpp:290-339). -/
noncomputable def Config.standard (m : String) : Config :=
  if m = "LEO" ∨ m = "LEO_EARTH_OBSERVATION" ∨ m = "ISS" then { Config.default with medium := ⟨true, true, true, 15000⟩, budget := 120 }
  else if m = "GEO" ∨ m = "GEOSTATIONARY" then { Config.default with low := ⟨true, true, true, 30000⟩, budget := 150 }
  else if m = "LUNAR" ∨ m = "MOON" then { Config.default with budget := 100 }
  else if m = "MARS" then { Config.default with budget := 80 }
  else if m = "JUPITER" then { Config.default with low := ⟨true, true, true, 10000⟩, thLow := 1 / 100, thMedium := 1 / 10, thHigh := 1, budget := 200 }
  else Config.default

/-- A map from names to numbers. -/
abbrev Table (α : Type) := List (String × α)
/-- The value of a name, 0 if there is none. -/
def Table.get {α : Type} [Zero α] (t : Table α) (k : String) : α := ((t.find? (·.1 == k)).map (·.2)).getD 0
/-- `map[k] += x`: an absent entry begins with 0. -/
def Table.bump {α : Type} [Zero α] [Add α] : Table α → String → α → Table α
  | [], k, x => [(k, 0 + x)]
  | (n, y) :: t, k, x => if n = k then (n, y + x) :: t else (n, y) :: Table.bump t k x
/-- `map[k] = 0`. -/
def Table.clear {α : Type} [Zero α] : Table α → String → Table α
  | [], k => [(k, 0)]
  | (n, y) :: t, k => if n = k then (n, 0) :: t else (n, y) :: Table.clear t k

/-- `MissionStatistics` (mission_simulator.hpp:160-182). -/
structure Stats where
  total : ℕ
  flips : ℕ
  multis : ℕ
  latches : ℕ
  transients : ℕ
  detected : ℕ
  corrected : ℕ
  undetected : ℕ
  time : Table ℝ
  events : Table ℕ
  tmr : ℕ
  scrubs : ℕ
  uptime : ℝ
  used : ℕ
  prot : ℕ
  unprot : ℕ

/-- `MissionStatistics{}` (mission_simulator.hpp:160-182). -/
noncomputable def Stats.new : Stats := ⟨0, 0, 0, 0, 0, 0, 0, 0, [], [], 0, 0, 1, 0, 0, 0⟩

/-- `MemoryRegion` (mission_simulator.hpp:633-637) with the bytes it points to. -/
structure Region where
  mem : List Byte
  prot : Bool

/-- The members (mission_simulator.hpp:639-645); `env` is the environment of `simulator_`, `rng` what `random_engine_` and `src` what the engine of `simulator_` will deliver. -/
structure Sim where
  profile : Profile
  cfg : Config
  env : Params
  idx : ℕ
  rng : ℕ → ℝ
  src : Src
  stats : Stats
  regions : List Region

/-- Constructor (mission_simulator.hpp:355-379). -/
noncomputable def Sim.new (p : Profile) (c : Config) (rng : ℕ → ℝ) (src : Src) : Sim :=
  ⟨p, c, p.envs.head?.getD (missionEnv "LEO"), 0, rng, src, { Stats.new with time := p.envs.foldl (fun t e => t.clear e.name) [], events := p.envs.foldl (fun t e => t.clear e.name) [] }, []⟩

/-- `registerMemoryRegion` (mission_simulator.hpp:388-402) for a region of `mem.length` bytes. -/
def Sim.register (s : Sim) (mem : List Byte) (prot : Bool) : Sim :=
  { s with regions := s.regions ++ [⟨mem, prot⟩],
           stats := { s.stats with used := s.stats.used + mem.length, prot := s.stats.prot + if prot then mem.length else 0, unprot := s.stats.unprot + if prot then 0 else mem.length } }

/-- `getRadiationSimulator().updateEnvironment(p)` (mission_simulator.hpp:601-603, radiation_simulator.hpp:184-187). -/
def Sim.update (s : Sim) (p : Params) : Sim := { s with env := p }

/-- The engine after one number. -/
def Sim.next (s : Sim) : Sim := { s with rng := fun i => s.rng (i + 1) }

/-- The loop over the probabilities (mission_simulator.hpp:664-671): `old` is kept if no sum exceeds `val`. -/
noncomputable def pick (val : ℝ) (old : ℕ) : List ℝ → ℝ → ℕ → ℕ
  | [], _, _ => old
  | q :: qs, cum, i => if val < cum + q then i else pick val old qs (cum + q) (i + 1)

/-- `selectNextEnvironment` (mission_simulator.hpp:652-678). -/
noncomputable def Sim.select (s : Sim) : R (Bool × Sim) :=
  if s.profile.envs.length ≤ 1 then .ok (false, s)
  else
    let i := pick (s.rng 0) s.idx s.profile.probs 0 0
    match s.profile.envs[i]? with
    | none => .ub
    | some e => .ok (decide (s.idx ≠ i), { s.next with idx := i, env := e })

/-- Protection levels (mission_simulator.hpp:626-630). -/
inductive Level where
  | low | medium | high
  deriving DecidableEq

/-- `determineProtectionLevel` (mission_simulator.hpp:685-699). -/
noncomputable def level (c : Config) (rate : ℝ) : Level := if !c.adaptive then .medium else if c.thHigh ≤ rate then .high else if c.thMedium ≤ rate then .medium else .low

/-- The settings of a level (mission_simulator.hpp:461-480). -/
def Config.at (c : Config) : Level → Settings
  | .low => c.low
  | .medium => c.medium
  | .high => c.high

/-- `static_cast<long long>` of a real. -/
noncomputable def toLL (x : ℝ) : R ℤ := if 2 ^ 63 ≤ x ∨ x ≤ -2 ^ 63 - 1 then .ub else .ok (if 0 ≤ x then ⌊x⌋ else ⌈x⌉)

/-- The times of a run (mission_simulator.hpp:417-419), in milliseconds. -/
structure Clock where
  elapsed : ℤ
  scrubbed : ℤ
  inEnv : ℤ

/-- The check for a change of environment (mission_simulator.hpp:431-447). -/
noncomputable def Sim.change (s : Sim) (c : Clock) : R (Bool × Clock × Sim) := match s.profile.durations[s.idx]? with
  | none => .ub
  | some d => (toLL (d * 1000)).bind fun lim =>
    if lim ≤ c.inEnv then s.select.bind fun r => .ok (r.1, { c with inEnv := 0 }, r.2)
    else if s.rng 0 < 1 / 100 then s.next.select.bind fun r => .ok (r.1, { c with inEnv := 0 }, r.2)
    else .ok (false, c, s.next)

/-- The probability of detection by ECC (mission_simulator.hpp:536-543). -/
noncomputable def eccProb : Kind → ℝ
  | .flip => 49 / 50
  | .multi => 3 / 4
  | _ => 1 / 2

/-- What becomes of an error. -/
structure Verdict where
  detected : Bool
  corrected : Bool
  tmr : Bool
  deriving DecidableEq

/-- The decision about one event (mission_simulator.hpp:511-559) and how many numbers it drew. -/
noncomputable def judge (set : Settings) (prot : Bool) (k : Kind) (g : ℕ → ℝ) : Verdict × ℕ :=
  if !prot then (⟨false, false, false⟩, 0)
  else if set.tmr ∧ g 0 < 99 / 100 then (⟨true, decide (g 1 < 19 / 20), true⟩, 2)
  else
    let n := if set.tmr then 1 else 0
    if !set.ecc then (⟨false, false, false⟩, n)
    else if g n < eccProb k then if k = .flip then (⟨true, decide (g (n + 1) < 19 / 20), false⟩, n + 2) else (⟨true, false, false⟩, n + 1)
    else (⟨false, false, false⟩, n + 1)

/-- The statistics of one event (mission_simulator.hpp:492-509, 522, 561-569). -/
def Stats.event (t : Stats) (name : String) (k : Kind) (v : Verdict) : Stats :=
  { t with
    total := t.total + 1
    events := t.events.bump name 1
    flips := t.flips + if k = .flip then 1 else 0
    multis := t.multis + if k = .multi then 1 else 0
    latches := t.latches + if k = .latch then 1 else 0
    transients := t.transients + if k = .transient then 1 else 0
    tmr := t.tmr + if v.tmr then 1 else 0
    detected := t.detected + if v.detected then 1 else 0
    corrected := t.corrected + if v.detected && v.corrected then 1 else 0
    undetected := t.undetected + if v.detected then 0 else 1 }

/-- The events of one region (mission_simulator.hpp:491-570): statistics and engine. -/
noncomputable def process (set : Settings) (prot : Bool) (name : String) : List Event → (ℕ → ℝ) → Stats → Stats × (ℕ → ℝ)
  | [], g, t => (t, g)
  | e :: es, g, t => process set prot name es (fun i => g (i + (judge set prot e.kind g).2)) (t.event name e.kind (judge set prot e.kind g).1)

/-- The loop over the regions (mission_simulator.hpp:484-571): the regions, with the bytes hit, and the rest of the state. -/
noncomputable def strike (p : Params) (set : Settings) (ms : ℤ) : List Region → Src → (ℕ → ℝ) → Stats → R (List Region × Src × (ℕ → ℝ) × Stats)
  | [], s, g, t => .ok ([], s, g, t)
  | r :: rs, s, g, t => (effects p r.mem ms s).bind fun q =>
    (strike p set ms rs q.2.2 (process set r.prot p.name q.1 g t).2 (process set r.prot p.name q.1 g t).1).bind fun w => .ok (⟨q.2.1, r.prot⟩ :: w.1, w.2)

/-- Whether the memory is scrubbed in this step (mission_simulator.hpp:574). -/
def scrubs (set : Settings) (c : Clock) : Bool := set.scrub && decide (set.interval ≤ c.elapsed - c.scrubbed)

/-- One step (mission_simulator.hpp:427-583): the environment the callback was called with, if it was, the times and the simulator. -/
noncomputable def Sim.step (s : Sim) (ms : ℤ) (c : Clock) : R (List Params × Clock × Sim) :=
  (s.change c).bind fun r =>
    let set := r.2.2.cfg.at (level r.2.2.cfg (rates r.2.2.env).total)
    (strike r.2.2.env set ms r.2.2.regions r.2.2.src r.2.2.rng { r.2.2.stats with time := r.2.2.stats.time.bump r.2.2.env.name (ms / 1000) }).bind fun w =>
      .ok (if r.1 then [r.2.2.env] else [],
        ⟨r.2.1.elapsed + ms, if scrubs set r.2.1 then r.2.1.elapsed else r.2.1.scrubbed, r.2.1.inEnv + ms⟩,
        { r.2.2 with regions := w.1, src := w.2.1, rng := w.2.2.1, stats := { w.2.2.2 with scrubs := w.2.2.2.scrubs + if scrubs set r.2.1 then 1 else 0 } })

/-- The main loop (mission_simulator.hpp:427-584), at most `fuel` steps. -/
noncomputable def Sim.loop (total ms : ℤ) : ℕ → Clock → Sim → R (List Params × Clock × Sim)
  | 0, c, s => if c.elapsed < total * 1000 then .diverge else .ok ([], c, s)
  | n + 1, c, s => if c.elapsed < total * 1000 then (s.step ms c).bind fun r => (Sim.loop total ms n r.2.1 r.2.2).bind fun q => .ok (r.1 ++ q.1, q.2) else .ok ([], c, s)

/-- The uptime (mission_simulator.hpp:587-588). -/
noncomputable def uptime (corrected detected : ℕ) : ℝ := corrected / (if 0 < detected then detected else 1 : ℕ)

/-- `runSimulation` (mission_simulator.hpp:412-591): the environments the callback was called with, and the simulator, whose statistics are returned.  With a positive step the loop ends within as many steps as there are milliseconds; with the step 0 never. -/
noncomputable def Sim.run (s : Sim) (total ms : ℤ) : R (List Params × Sim) :=
  (s.loop total ms (total * 1000).toNat ⟨0, 0, 0⟩).bind fun r => .ok (r.1, { r.2.2 with stats := { r.2.2.stats with uptime := uptime r.2.2.stats.corrected r.2.2.stats.detected } })

end Verif.MissionSim
