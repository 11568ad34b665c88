import Verif.Model.Loop
import Verif.Model.PhysicsDriven
import Verif.Model.MonitoredTmr
import Verif.Model.HealthTmr
import Verif.Model.ApproximateTmr
import Verif.Spec.XReal
/-!
Model of the benchmark framework (/repo/include/rad_ml/testing/benchmark_framework.hpp).

The header includes testing/physics_radiation_simulator.hpp, which does not exist, stores objects with a mutex in `std::any` and calls the ill-typed
`applyProtection`; it is modelled as its text.  The radiation simulator is an arbitrary machine that changes the bytes it is given and reports a number of
events; what `applyProtection` stores is an argument.  Clock values and random numbers drawn by `get` of `EnhancedTMR` are arguments, as are the measured times.
Doubles are real numbers, ideal doubles where the code divides unchecked; counters are unbounded.  The three redundant types are the models of
`MonitoredTmr`, `HealthTmr` and `ApproximateTmr`.
-/
namespace Verif.Bench

variable {α σ : Type}

/-- An element of `protected_data` (benchmark_framework.hpp:411-433): one of the three types the benchmark knows (:526, :545, :564), or anything else. -/
inductive Cell (α : Type) where
  | enhanced (s : MTmr.State α)
  | health (s : HTmr.State α)
  | approx (s : ATmr.State α)
  | other

/-- The checksum and the approximations of the element type. -/
structure Kit (α : Type) where
  crc : α → BitVec 32
  ap : ATmr.Approx α

/-- The approximations the benchmark asks for (benchmark_framework.hpp:421-425). -/
def benchTypes : Fin 3 → ATmr.ApproxType
  | 0 => .exact
  | 1 => .reducedPrecision
  | 2 => .reducedPrecision

/-- `uint8_t` as a number below 256 with the unsigned approximations (approximate_tmr.hpp:199-285). -/
def byteKit (crc : Fin 256 → BitVec 32) : Kit (Fin 256) :=
  { crc := crc
    ap := { reduce := fun v => (ATmr.reduceUnsigned (BitVec.ofFin (w := 8) v)).toFin
            limit := fun v => (ATmr.limitUnsigned (BitVec.ofFin (w := 8) v)).toFin
            custom := none } }

/-- Comparison of elements. -/
def same [DecidableEq α] (a b : α) : Bool := decide (a = b)

/-- The body of the loop over the elements (benchmark_framework.hpp:523-584) for one element with original `o` and current value `cur`: detections,
corrections, current value and element afterwards.  `t₁` and `t₂` are time and random number of the two calls of `get`. -/
def examine [LinearOrder α] (k : Kit α) (t₁ t₂ : Int × ℚ) (o cur : α) (c : Cell α) : ℕ × ℕ × α × Cell α :=
  if cur = o then (0, 0, cur, c)
  else match c with
  | .enhanced s =>
    let r := MTmr.get same k.crc s t₁.1 t₁.2
    if r.1 = o then (0, 0, cur, .enhanced r.2)
    else
      let g := MTmr.get same k.crc (MTmr.set k.crc r.2 o) t₂.1 t₂.2
      if g.1 = o then (1, 1, o, .enhanced g.2) else (1, 0, cur, .enhanced g.2)
  | .health s =>
    let r := HTmr.get k.crc s
    if r.1 = o then (0, 0, cur, .health r.2)
    else
      let g := HTmr.get k.crc (HTmr.repair k.crc r.2)
      if g.1 = o then (1, 1, o, .health g.2) else (1, 0, cur, .health g.2)
  | .approx s =>
    if ATmr.get same benchTypes s = o then (0, 0, cur, .approx s)
    else
      let s' := ATmr.repair same k.ap benchTypes k.crc s
      if ATmr.get same benchTypes s' = o then (1, 1, o, .approx s') else (1, 0, cur, .approx s')
  | .other => (0, 0, cur, .other)

/-- The loop over the elements (benchmark_framework.hpp:522-585) from element `i` on.  It reads the two byte arrays without checking their sizes. -/
def scan [LinearOrder α] (k : Kit α) (clock : ℕ → (Int × ℚ) × (Int × ℚ)) :
    ℕ → List α → List α → List (Cell α) → Outcome (ℕ × ℕ × List α × List (Cell α))
  | _, _, cur, [] => .ok (0, 0, cur, [])
  | i, o :: os, c :: cs, p :: ps =>
    let e := examine k (clock i).1 (clock i).2 o c p
    (scan k clock (i + 1) os cs ps).bind fun r => .ok (e.1 + r.1, e.2.1 + r.2.1, e.2.2.1 :: r.2.2.1, e.2.2.2 :: r.2.2.2)
  | _, [], _, _ :: _ => .ub
  | _, _ :: _, [], _ :: _ => .ub

/-- The radiation simulator: events, changed data and next state for a state, data and milliseconds (`simulateEffects`, benchmark_framework.hpp:509-512).
It works in place, so the number of bytes stays. -/
structure Sim (σ α : Type) where
  hit : σ → List α → ℤ → ℕ × List α × σ
  keeps : ∀ s d ms, (hit s d ms).2.1.length = d.length

/-- The counters of a benchmark, the elements and the simulator (benchmark_framework.hpp:480-502). `iv j` are the errors, detections and corrections of
interval `j`. -/
structure Acc (σ α : Type) where
  total : ℕ := 0
  detected : ℕ := 0
  corrected : ℕ := 0
  iv : ℕ → ℕ × ℕ × ℕ := fun _ => (0, 0, 0)
  cells : List (Cell α)
  sim : σ

/-- A loop whose body can be undefined. -/
def foldO {β ι : Type} (f : β → ι → Outcome β) : β → List ι → Outcome β
  | b, [] => .ok b
  | b, x :: xs => (f b x).bind fun b' => foldO f b' xs

/-- One interval (benchmark_framework.hpp:507-597): exposure, counting, examination of the elements. -/
def interval [LinearOrder α] (k : Kit α) (S : Sim σ α) (ms : ℤ) (clock : ℕ → ℕ → (Int × ℚ) × (Int × ℚ)) (orig : List α)
    (x : Acc σ α × List α) (j : ℕ) : Outcome (Acc σ α × List α) :=
  let h := S.hit x.1.sim x.2 ms
  (scan k (clock j) 0 orig h.2.1 x.1.cells).bind fun r =>
    .ok ({ total := x.1.total + h.1
           detected := x.1.detected + r.1
           corrected := x.1.corrected + r.2.1
           iv := Function.update x.1.iv j ((x.1.iv j).1 + h.1, (x.1.iv j).2.1 + r.1, (x.1.iv j).2.2 + r.2.1)
           cells := r.2.2.2
           sim := h.2.2 }, r.2.2.1)

/-- One iteration (benchmark_framework.hpp:500-603): the data begin as the original, the elements as the iteration before left them; ten intervals. -/
def iteration [LinearOrder α] (k : Kit α) (S : Sim σ α) (ms : ℤ) (clock : ℕ → ℕ → ℕ → (Int × ℚ) × (Int × ℚ)) (orig : List α)
    (a : Acc σ α) (n : ℕ) : Outcome (Acc σ α) :=
  (foldO (interval k S ms (clock n) orig) (a, orig) (List.range 10)).bind fun x => .ok x.1

/-- The part of a scenario the benchmark reads (benchmark_framework.hpp:60-70); name, profile, intensity and size are used by the suite, the three
`simulate_` flags by nobody. -/
structure Scenario where
  profile : String
  intensity : ℝ
  duration : ℝ
  iterations : ℕ
  size : ℕ
  glitches : Bool := false
  memoryErrors : Bool := false
  cpuErrors : Bool := false

/-- The milliseconds of an interval (benchmark_framework.hpp:491-492, 512): a double converted to `int`. -/
noncomputable def intervalMs (sc : Scenario) : Outcome ℤ := Phys.castInt (sc.duration / 10 * 1000)

/-- The loop of `runBenchmark` (benchmark_framework.hpp:500-603). The conversion is evaluated only inside the loop. -/
noncomputable def loop [LinearOrder α] (k : Kit α) (S : Sim σ α) (clock : ℕ → ℕ → ℕ → (Int × ℚ) × (Int × ℚ)) (sc : Scenario) (orig : List α)
    (cells : List (Cell α)) (st : σ) : Outcome (Acc σ α) :=
  if sc.iterations = 0 then .ok { cells := cells, sim := st }
  else (intervalMs sc).bind fun ms =>
    foldO (iteration k S ms clock orig) { cells := cells, sim := st } (List.range sc.iterations)

/-- `ReliabilityMetrics` and the two series (benchmark_framework.hpp:46-55, 484-485). -/
structure Reliability where
  total : ℕ
  detected : ℕ
  corrected : ℕ
  detectionRate : ℝ
  correctionRate : ℝ
  sdcRate : ℝ
  mttf : ℝ
  errorSeries : List ℝ
  correctionSeries : List ℝ

/-- The reliability metrics (benchmark_framework.hpp:622-658), without `recovery_time`. -/
noncomputable def reliability (sc : Scenario) (a : Acc σ α) : Reliability :=
  let det : ℝ := if a.total > 0 then (a.detected : ℝ) / a.total else 1
  { total := a.total
    detected := a.detected
    corrected := a.corrected
    detectionRate := det
    correctionRate := if a.total > 0 then (a.corrected : ℝ) / a.total else 1
    sdcRate := if a.total > 0 then 1 - det else 0
    mttf := if a.total > 0 then sc.duration / a.total else sc.duration * 10
    errorSeries := (List.range 10).map fun i => if (a.iv i).1 > 0 then ((a.iv i).2.1 : ℝ) / (a.iv i).1 else 1
    correctionSeries := (List.range 10).map fun i => if (a.iv i).2.1 > 0 then ((a.iv i).2.2 : ℝ) / (a.iv i).2.1 else 1 }

/-- `PerformanceMetrics` and `recovery_time` (benchmark_framework.hpp:35-41). -/
structure Performance where
  time : XD
  memory : ℕ
  energy : XD
  throughput : XD
  resources : ℕ
  recovery : XD

/-- The performance metrics (benchmark_framework.hpp:599-620, 644-646) from the measured milliseconds of each iteration. -/
noncomputable def performance (sc : Scenario) (times : ℕ → ℕ) (size cells detected : ℕ) : Performance :=
  let time := XD.div (.fin (((List.range sc.iterations).map times).sum : ℕ)) (.fin sc.iterations)
  { time := time
    memory := size + cells * 2 + cells * 4
    energy := XD.mul time (.fin (1 / 10))
    throughput := XD.div (.fin (1000 * cells)) time
    resources := cells * 10
    recovery := if detected > 0 then XD.div time (.fin detected) else .fin 0 }

/-- `ProtectionConfig` (benchmark_framework.hpp:75-81). -/
structure Config where
  tmr : Bool
  enhanced : Bool
  health : Bool
  approx : Bool
  hardening : Bool
  budget : ℝ

/-- `defaultConfig` (benchmark_framework.hpp:86-95). -/
noncomputable def defaultConfig : Config := ⟨true, true, false, false, false, 3 / 10⟩
/-- `allFeaturesConfig` (benchmark_framework.hpp:100-109). -/
noncomputable def allFeaturesConfig : Config := ⟨true, true, true, true, true, 1 / 2⟩
/-- `resourceConstrainedConfig` (benchmark_framework.hpp:114-123). -/
noncomputable def resourceConstrainedConfig : Config := ⟨true, false, false, true, true, 1 / 5⟩

/-- The element for one byte (benchmark_framework.hpp:378-434); `hard` is what selective hardening stores for an index, the size, a budget and a byte. -/
def protectOne (k : Kit α) (now : Int) (hard : ℕ → ℕ → ℝ → α → Cell α) (size : ℕ) (c : Config) (i : ℕ) (v : α) : Cell α :=
  if c.hardening then hard i size c.budget v
  else if c.enhanced then .enhanced (MTmr.new k.crc v now)
  else if c.health then .health (HTmr.new k.crc v)
  else if c.approx then .approx (ATmr.set k.ap benchTypes k.crc v)
  else if c.tmr then .enhanced (MTmr.new k.crc v now)
  else .other

/-- All elements (benchmark_framework.hpp:374-434). -/
def protectAll (k : Kit α) (now : Int) (hard : ℕ → ℕ → ℝ → α → Cell α) (c : Config) (data : List α) : List (Cell α) :=
  data.zipIdx.map fun x => protectOne k now hard data.length c x.2 x.1

/-- The results of one configuration (benchmark_framework.hpp:440-454). -/
structure Entry where
  rel : Reliability
  perf : Performance

/-- The comparative metrics of a configuration in the order of their names (benchmark_framework.hpp:446-454). -/
noncomputable def Entry.compared (e : Entry) : List (String × XD) :=
  [("circuit_resources", .fin e.perf.resources), ("energy_consumption", e.perf.energy), ("error_correction_rate", .fin e.rel.correctionRate),
   ("error_detection_rate", .fin e.rel.detectionRate), ("execution_time_ms", e.perf.time), ("memory_usage_bytes", .fin e.perf.memory),
   ("silent_data_corruption_rate", .fin e.rel.sdcRate), ("throughput", e.perf.throughput)]

/-- What a suite is run with besides its scenario: the simulator with its construction from profile and intensity, clocks, measured times. -/
structure Env (σ α : Type) where
  kit : Kit α
  sim : Sim σ α
  start : String → ℝ → σ
  now : String → Int
  clock : String → ℕ → ℕ → ℕ → (Int × ℚ) × (Int × ℚ)
  times : String → ℕ → ℕ
  hard : ℕ → ℕ → ℝ → α → Cell α

/-- The body of the loop of `runBenchmarkSuite` (benchmark_framework.hpp:367-455) for one configuration. -/
noncomputable def suiteStep [LinearOrder α] (E : Env σ α) (sc : Scenario) (data : List α) (x : List (String × Entry) × σ) (c : String × Config) :
    Outcome (List (String × Entry) × σ) :=
  let cells := protectAll E.kit (E.now c.1) E.hard c.2 data
  (loop E.kit E.sim (E.clock c.1) sc data cells x.2).bind fun a =>
    .ok (x.1 ++ [(c.1, ⟨reliability sc a, performance sc (E.times c.1) data.length cells.length a.detected⟩)], a.sim)

/-- `runBenchmarkSuite` (benchmark_framework.hpp:346-458); `configs` is the map in the order of its names. -/
noncomputable def suite [LinearOrder α] (E : Env σ α) (sc : Scenario) (gen : ℕ → List α) (configs : List (String × Config)) :
    Outcome (List (String × Entry)) :=
  (foldO (suiteStep E sc (gen sc.size)) ([], E.start sc.profile sc.intensity) configs).bind fun x => .ok x.1

/-- `generatePatternedTestData` (benchmark_framework.hpp:688-697). -/
def patterned (size : ℕ) : List (Fin 256) := (List.range size).map fun i => Fin.ofNat 256 i

/-! ### Summary and export -/

/-- `metric.find("error") != npos` (benchmark_framework.hpp:285-286). -/
def mentionsError (m : String) : Bool := m.toList.tails.any fun t => "error".toList.isPrefixOf t

open Classical in
/-- One step of the search for the best configurations (benchmark_framework.hpp:284-288). -/
noncomputable def bestStep (config : String) (b : String → Option (String × XD)) (m : String × XD) : String → Option (String × XD) :=
  match b m.1 with
  | none => Function.update b m.1 (some (config, m.2))
  | some old =>
    if (mentionsError m.1 = true ∧ XD.lt m.2 old.2) ∨ (mentionsError m.1 = false ∧ XD.lt old.2 m.2)
    then Function.update b m.1 (some (config, m.2)) else b

/-- `best_configs` (benchmark_framework.hpp:279-290). -/
noncomputable def bestConfigs (cmp : List (String × List (String × XD))) : String → Option (String × XD) :=
  cmp.foldl (fun b c => c.2.foldl (bestStep c.1) b) fun _ => none

/-- The recommendation of `getSummary` (benchmark_framework.hpp:274-315): nothing without comparative metrics, `some none` for insufficient data. -/
noncomputable def recommendation (cmp : List (String × List (String × XD))) : Option (Option String) :=
  if cmp.isEmpty then none else some ((bestConfigs cmp "error_correction_rate").map (·.1))

/-- The three lines "Best ..." of `getSummary` (benchmark_framework.hpp:292-305). -/
noncomputable def bestLines (cmp : List (String × List (String × XD))) : List (String × String × XD) :=
  ["error_correction_rate", "execution_time_ms", "memory_usage_bytes"].filterMap fun m => (bestConfigs cmp m).map fun b => (m, b)

/-- The table of the rates over time of `exportToCSV` (benchmark_framework.hpp:181-200): the number of rows is that of the first component, and every row
reads every component without a check. -/
def timeTable (series : List (String × List ℝ)) : Outcome (List (List ℝ)) :=
  match series with
  | [] => .ok []
  | first :: _ =>
    foldO (fun rows i => (foldO (fun row (s : String × List ℝ) => match s.2[i]? with
        | some v => .ok (row ++ [v])
        | none => .ub) [] series).bind fun row => .ok (rows ++ [row])) [] (List.range first.2.length)

/-- Insertion into a `std::set` of names, a sorted list. -/
def insertName (n : String) : List String → List String
  | [] => [n]
  | m :: ms => if n < m then n :: m :: ms else if n = m then m :: ms else m :: insertName n ms

/-- `metric_names` (benchmark_framework.hpp:206-212). -/
def metricNames (cmp : List (String × List (String × XD))) : List String :=
  cmp.foldl (fun ns c => c.2.foldl (fun ns m => insertName m.1 ns) ns) []

/-- The comparative rows (benchmark_framework.hpp:214-232): a value or an empty field for each name. -/
def compareRows (cmp : List (String × List (String × XD))) : List (String × List (Option XD)) :=
  cmp.map fun c => (c.1, (metricNames cmp).map fun n => (c.2.find? fun m => m.1 = n).map (·.2))

end Verif.Bench
