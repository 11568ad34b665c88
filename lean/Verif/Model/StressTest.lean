import Verif.Model.Loop
import Verif.Model.EnhancedTmr
import Verif.Model.AdaptiveProtection
import Verif.Model.Scrubber
import Mathlib.Algebra.Order.Field.Rat

/-!
# stress_test.cpp and verify_framework.cpp

The two programs in the root of the repository that exercise the adaptive protection, the simulator,
the protected values and the scrubber together.  What the clocks show, how many errors a scrub
reports, what the memory holds when it is looked at and which events a simulation delivers are
given, so that the properties hold for all of them.  Counters are `size_t` (64 bits), clock readings
nanoseconds, doubles exact rational numbers.  Printing is not modelled beyond the choice of texts.
-/
namespace Verif.Stress

/-- The four kinds of events, radiation_simulator.hpp:37-42. -/
inductive Kind | flip | multi | latch | transient
  deriving DecidableEq

/-- The running totals, stress_test.cpp:94-101. -/
structure Totals where
  events : BitVec 64 := 0
  flips : BitVec 64 := 0
  multis : BitVec 64 := 0
  latches : BitVec 64 := 0
  transients : BitVec 64 := 0
  detected : BitVec 64 := 0
  corrected : BitVec 64 := 0
  uncorrectable : BitVec 64 := 0
  deriving DecidableEq

/-- `StressTestRecord`, stress_test.cpp:20-31. -/
structure Record where
  time : Int
  totals : Totals
  level : AdaptiveProt.Level

/-- What one turn of the loop meets: the reading tested by the loop (stress_test.cpp:113), the reading
kept (:115), the system clock read by the protection, the result of the scrub (:148), the protected
values as they are then, and the events the simulation delivers (:180). -/
structure Turn (α : Type) where
  now : Int
  cur : Int
  sys : Int
  errors : BitVec 64
  vals : List (ETmr.State α)
  events : List Kind

/-- What the loop carries along. -/
structure State where
  t : Totals := {}
  last : Int
  records : List Record := []
  prot : AdaptiveProt.State

/-- One second in nanoseconds. -/
def ns : Int := 1000000000

variable {α : Type} (eq : α → α → Bool) (crc : α → BitVec 32)

/-- stress_test.cpp:152-163: the values that fail the check, are repaired and then pass it. -/
def correctedIn : List (ETmr.State α) → Nat
  | [] => 0
  | v :: vs =>
    (if !ETmr.verify eq crc v && ETmr.verify eq crc (ETmr.repair eq crc v).2 then 1 else 0)
      + correctedIn vs

/-- The report, stress_test.cpp:118-170: the record is taken before the scrub; the number of errors is
narrowed to 32 bits for the protection. -/
def report (s : State) (x : Turn α) : State :=
  let c := BitVec.ofNat 64 (correctedIn eq crc x.vals)
  { s with
    last := x.cur
    records := s.records ++ [⟨x.cur, s.t, s.prot.level⟩]
    t := { s.t with detected := s.t.detected + x.errors, corrected := s.t.corrected + c,
                    uncorrectable := s.t.uncorrectable + (x.errors - c) }
    prot := AdaptiveProt.update s.prot (UInt32.ofNat x.errors.toNat) 0 x.sys }

/-- The switch, stress_test.cpp:188-203. -/
def countKind (t : Totals) : Kind → Totals
  | .flip => { t with flips := t.flips + 1 }
  | .multi => { t with multis := t.multis + 1 }
  | .latch => { t with latches := t.latches + 1 }
  | .transient => { t with transients := t.transients + 1 }

/-- stress_test.cpp:185-203. -/
def countEvents (t : Totals) (es : List Kind) : Totals :=
  es.foldl countKind { t with events := t.events + BitVec.ofNat 64 es.length }

/-- The interval to simulate, stress_test.cpp:173-177, in seconds. -/
def interval (D R start cur : Int) : Int := min R ((D * ns - (cur - start)).tdiv ns)

/-- stress_test.cpp:115-170. -/
def maybeReport (R : Int) (s : State) (x : Turn α) : State :=
  if x.cur - s.last ≥ R * ns then report eq crc s x else s

/-- The loop, stress_test.cpp:113-205, on the turns to come; the flag says whether it has ended. -/
def loop (D R start : Int) : State → List (Turn α) → Bool × State
  | s, [] => (false, s)
  | s, x :: xs =>
    if x.now - start < D * ns then
      let s := maybeReport eq crc R s x
      if interval D R start x.cur ≤ 0 then (true, s)
      else loop D R start { s with t := countEvents s.t x.events } xs
    else (true, s)

/-- The state before the loop, stress_test.cpp:74-110; the protection starts at its highest level. -/
def begin_ (start sys : Int) : State := { last := start, prot := AdaptiveProt.init 3 sys }

/-- stress_test.cpp:214 with the result of the last scrub. -/
def finalDetected (s : State) (errors : BitVec 64) : BitVec 64 := s.t.detected + errors

/-- stress_test.cpp:217-222; `off` says of a value read whether it is away from 1. -/
def incorrect (off : α → Bool) (vs : List (ETmr.State α)) : Nat :=
  vs.countP fun v => off (ETmr.get eq crc v).1

/-- stress_test.cpp:227-231: `total_detected_errors - incorrect_values` is computed in `size_t`. -/
def recoveryRate (detected : BitVec 64) (wrong : Nat) : ℚ :=
  if detected.toNat > 0 then
    100 * (((detected - BitVec.ofNat 64 wrong).toNat : ℚ) / detected.toNat)
  else 100

/-- The texts, stress_test.cpp:273-299. -/
inductive Verdict | excellent | veryGood | good | moderate | insufficient
  deriving DecidableEq

/-- stress_test.cpp:273-299. -/
def verdict (rate : ℚ) : Verdict :=
  if rate > 99 then .excellent else if rate > 95 then .veryGood else if rate > 90 then .good
  else if rate > 80 then .moderate else .insufficient

/-- The shares printed, stress_test.cpp:241-248, 261-266: `100.0 * part / std::max(1UL, whole)`. -/
def share (part whole : BitVec 64) : ℚ := 100 * (part.toNat : ℚ) / (max 1 whole.toNat : Nat)

/-- stress_test.cpp:265: `100.0 * (memory_size - incorrect_values) / memory_size`. -/
def integrity (size : Nat) (wrong : Nat) : ℚ :=
  100 * ((BitVec.ofNat 64 size - BitVec.ofNat 64 wrong).toNat : ℚ) / size

/-- One row of the file: seconds, totals, level. -/
structure Row where
  seconds : Int
  totals : Totals
  level : AdaptiveProt.Level

/-- The file, stress_test.cpp:303-333: no file if it cannot be opened; `records.front()` of an empty
vector is undefined. -/
def csv (opened : Bool) (records : List Record) : Outcome (Option (List Row)) :=
  if !opened then .ok none
  else match records with
    | [] => .ub
    | r :: rs => .ok (some (⟨0, {}, r.level⟩ ::
        (r :: rs).map fun q => ⟨(q.time - r.time).tdiv ns, q.totals, q.level⟩))

/-- `main`, stress_test.cpp:338-352: the duration from the argument; `none` is no argument or one that
`std::stoi` rejects. -/
def duration (arg : Option Int) : Int := match arg with
  | some n => if n > 0 then n else 300
  | none => 300

/-! ### verify_framework.cpp -/

/-- `verifyAdaptiveProtection`, verify_framework.cpp:17-61: what the system clock shows at construction,
at the first update and at the ten others; the results are the two lines printed. -/
def verifyAdaptive (t0 t1 : Int) (ts : List Int) : Bool × Bool :=
  let p := AdaptiveProt.init 1 t0
  let initial := p.level
  let p := AdaptiveProt.update p 10 5 t1
  let (p, h) := AdaptiveProt.register p
  let p := ts.foldl (fun p t => AdaptiveProt.update p 100 50 t) p
  (decide (p.level > initial), decide ((p.log.filter fun e => e.1 = h).length > 0))

/-- `verifyRadiationSimulator`, verify_framework.cpp:64-121, as far as the rates go.  The memory holds
doubles by address; `getEventRates` returns a reference to the simulator's member
(radiation_simulator.hpp:199-201), so `rates` (:80) is the address of the total rate and not a copy;
`updateEnvironment` (:113) overwrites the member with the rate of the new environment; the line printed
compares what the member holds with what is read through `rates` (:118). -/
def environmentUpdateWorks (mem : Nat → ℚ) (member : Nat) (newRate : ℚ) : Bool :=
  let rates := member
  let mem := fun a => if a = member then newRate else mem a
  decide (mem member > mem rates)

/-- `runIntegratedTest`, verify_framework.cpp:299-330: one check and repair of every value; the number
of values that failed, and the values afterwards. -/
def repairAll : List (ETmr.State α) → Nat × List (ETmr.State α)
  | [] => (0, [])
  | v :: vs =>
    let r := repairAll vs
    if !ETmr.verify eq crc v then (r.1 + 1, (ETmr.repair eq crc v).2 :: r.2) else (r.1, v :: r.2)

/-- verify_framework.cpp:322-330: the values that are wrong afterwards, and the recovery rate. -/
def integrated (off : α → Bool) (vs : List (ETmr.State α)) : Nat × Nat × ℚ :=
  let r := repairAll eq crc vs
  let wrong := incorrect eq crc off r.2
  (r.1, wrong, if r.1 > 0 then (1 - (wrong : ℚ) / r.1) * 100 else 100)

end Verif.Stress
