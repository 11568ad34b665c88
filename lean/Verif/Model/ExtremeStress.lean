import Verif.Model.Loop
import Mathlib.Data.Rat.Defs
import Mathlib.Data.Real.Basic
/-!
Model of /repo/examples/enhanced_features_test/extreme_stress_test.cpp: three voters, the simulated space environment and the stress test comparing them.

The element type is `int`, the one `main` uses, as 32 bits in two's complement with little-endian bytes; the probabilities, rolls and rates are real, the health scores rational, both without rounding.
Random numbers are arguments.  The language is C++17 (CMakeLists.txt:4), where shifting a negative `int` to the left is undefined.
The number and order of events, printed texts and pauses are left out: the test is modelled for an arbitrary list of events.
-/
namespace Verif.Extreme

/-- `int`. -/
abbrev V := BitVec 32

/-- The three copies (extreme_stress_test.cpp:81, 160, 249). -/
abbrev Copies := Fin 3 → V

/-- `corruptCopy`, the same in the three classes (extreme_stress_test.cpp:74-78, 153-157, 242-246). -/
def corrupt (c : Copies) (i : Nat) (v : V) : Copies := fun j => if j.val = i then v else c j

/-- `BasicTMR::get` (extreme_stress_test.cpp:215-223). -/
def basicGet (c : Copies) : V :=
  if c 0 = c 1 then c 0
  else if c 0 = c 2 then c 0
  else if c 1 = c 2 then c 1
  else c 0

/-- `BasicTMR::repair` (extreme_stress_test.cpp:231-236). -/
def basicRepair (c : Copies) : Copies := fun _ => basicGet c

/-! ### Health-weighted voter -/

/-- `HealthWeightedTMR` (extreme_stress_test.cpp:18, 80-82). -/
structure HW where
  copies : Copies
  health : Fin 3 → ℚ

/-- The constructor (extreme_stress_test.cpp:20-23). -/
def HW.new (v : V) : HW := ⟨fun _ => v, fun _ => 1⟩

/-- `updateHealthScores` (extreme_stress_test.cpp:84-93). -/
def HW.update (s : HW) (i : Fin 3) (correct : Bool) : HW :=
  { s with health := fun j => if j = i then (if correct then min 1 (s.health i + 1 / 20) else max (1 / 10) (s.health i - 1 / 5)) else s.health j }

/-- The search for the best health (extreme_stress_test.cpp:45-50). -/
def HW.best (s : HW) : Fin 3 :=
  let b := if s.health 1 > s.health 0 then 1 else 0
  if s.health 2 > s.health b then 2 else b

/-- `HealthWeightedTMR::get` with its effect on the mutable scores (extreme_stress_test.cpp:25-52). -/
def HW.get (s : HW) : V × HW :=
  let c := s.copies
  if c 0 = c 1 ∨ c 0 = c 2 then
    let s := s.update 0 true
    let s := if c 0 = c 1 then (s.update 1 true).update 2 (decide (c 2 = c 0)) else (s.update 1 (decide (c 1 = c 0))).update 2 true
    (c 0, s)
  else if c 1 = c 2 then
    (c 1, ((s.update 0 false).update 1 true).update 2 true)
  else (c s.best, s)

/-- `HealthWeightedTMR::set` (extreme_stress_test.cpp:54-61). -/
def HW.set (_ : HW) (v : V) : HW := ⟨fun _ => v, fun _ => 1⟩

/-- `HealthWeightedTMR::repair` (extreme_stress_test.cpp:63-68). -/
def HW.repair (s : HW) : HW := { s.get.2 with copies := fun _ => s.get.1 }

/-! ### Approximate voter -/

/-- `ApproximationType` (extreme_stress_test.cpp:97-102). -/
inductive Approx | exact | reduced | limited | custom
  deriving DecidableEq

/-- `reducePrecision` for `int` (extreme_stress_test.cpp:183-186): arithmetic shift right, then left by 3; the latter is undefined for a negative value. -/
def reduce (v : V) : Outcome V :=
  if v.toInt < 0 then .ub else .ok ((v.sshiftRight 3) <<< 3)

/-- `limitRange` for `int` (extreme_stress_test.cpp:197-200). -/
def limit (v : V) : V :=
  let l : Int := 2147483647 / 2
  BitVec.ofInt 32 (max (min v.toInt l) (-l))

/-- `applyApproximation` (extreme_stress_test.cpp:163-174). -/
def approximate (v : V) : Approx → Outcome V
  | .exact => .ok v
  | .reduced => reduce v
  | .limited => .ok (limit v)
  | .custom => .ok v

/-- `ApproximateTMR` (extreme_stress_test.cpp:106, 160-161). -/
structure AT where
  copies : Copies
  types : Fin 3 → Approx

/-- The default types (extreme_stress_test.cpp:110-114). -/
def defaultTypes : Fin 3 → Approx
  | 0 => .exact
  | 1 => .reduced
  | 2 => .limited

/-- `ApproximateTMR::get` (extreme_stress_test.cpp:118-136). -/
def AT.get (s : AT) : V :=
  let c := s.copies
  if c 0 = c 1 then c 0
  else if c 0 = c 2 then c 0
  else if c 1 = c 2 then c 1
  else if s.types 0 = .exact then c 0
  else if s.types 1 = .exact then c 1
  else if s.types 2 = .exact then c 2
  else c 0

/-- `ApproximateTMR::set` (extreme_stress_test.cpp:138-142). -/
def AT.set (s : AT) (v : V) : Outcome AT :=
  (approximate v (s.types 0)).bind fun a => (approximate v (s.types 1)).bind fun b => (approximate v (s.types 2)).bind fun c =>
    .ok { s with copies := fun | 0 => a | 1 => b | 2 => c }

/-- The constructor (extreme_stress_test.cpp:108-116). -/
def AT.new (v : V) (t : Fin 3 → Approx) : Outcome AT := AT.set ⟨fun _ => 0, t⟩ v

/-- `ApproximateTMR::repair` (extreme_stress_test.cpp:144-147). -/
def AT.repair (s : AT) : Outcome AT := s.set s.get

/-! ### Environment -/

/-- `Location` (extreme_stress_test.cpp:255-263). -/
inductive Location | leo | geo | moon | mars | jupiter | flare | extreme
  deriving DecidableEq

/-- `ErrorType` (extreme_stress_test.cpp:265-270). -/
inductive Err | single | multi | stuck | severe
  deriving DecidableEq

/-- The order in which a `std::map` keyed by `ErrorType` is traversed. -/
def errs : List Err := [.single, .multi, .stuck, .severe]

/-- `configureEnvironment`: events per second and element (extreme_stress_test.cpp:465-523). -/
noncomputable def rate : Location → ℝ
  | .leo => 0.01
  | .geo => 0.05
  | .moon => 0.1
  | .mars => 0.15
  | .jupiter => 0.5
  | .flare => 1
  | .extreme => 2

/-- `configureEnvironment`: probabilities of the error types (extreme_stress_test.cpp:465-523). -/
noncomputable def prob : Location → Err → ℝ
  | .leo, .single => 0.80 | .leo, .multi => 0.15 | .leo, .stuck => 0.04 | .leo, .severe => 0.01
  | .geo, .single => 0.70 | .geo, .multi => 0.20 | .geo, .stuck => 0.07 | .geo, .severe => 0.03
  | .moon, .single => 0.65 | .moon, .multi => 0.25 | .moon, .stuck => 0.07 | .moon, .severe => 0.03
  | .mars, .single => 0.60 | .mars, .multi => 0.25 | .mars, .stuck => 0.10 | .mars, .severe => 0.05
  | .jupiter, .single => 0.50 | .jupiter, .multi => 0.30 | .jupiter, .stuck => 0.10 | .jupiter, .severe => 0.10
  | .flare, .single => 0.45 | .flare, .multi => 0.35 | .flare, .stuck => 0.10 | .flare, .severe => 0.10
  | .extreme, .single => 0.40 | .extreme, .multi => 0.30 | .extreme, .stuck => 0.15 | .extreme, .severe => 0.15

open Classical in
/-- The loop of `generateErrorType` (extreme_stress_test.cpp:529-536) and its default (538). -/
noncomputable def pick (l : Location) (roll : ℝ) : List Err → ℝ → Err
  | [], _ => .single
  | t :: ts, cum => if roll ≤ cum + prob l t then t else pick l roll ts (cum + prob l t)

/-- `generateErrorType` (extreme_stress_test.cpp:526-539). -/
noncomputable def errorType (l : Location) (roll : ℝ) : Err := pick l roll errs 0

/-- The mean of the number of events (extreme_stress_test.cpp:295-296). -/
noncomputable def expectedEvents (l : Location) (factor : ℝ) (elements ms : Nat) : ℝ :=
  rate l * ((ms : ℝ) / 1000) * elements * factor

/-- `RadiationEvent`: the members read by the test (extreme_stress_test.cpp:272-279). -/
structure Event where
  type : Err
  target : Nat
  bit : Nat
  num : Nat

/-- `bytes[byte_pos] ^= (1 << bit_in_byte)` when `byte_pos < sizeof(T)` (extreme_stress_test.cpp:369-373). -/
def flipAt (v : V) (byte bit : Nat) : V := if byte < 4 then v ^^^ BitVec.twoPow 32 (8 * byte + bit) else v

/-- `applyRadiationEvent`; `one` is the draw deciding the value of a stuck bit, `pos` the positions drawn for severe corruption (extreme_stress_test.cpp:362-417). -/
def applyEvent (v : V) (e : Event) (one : Bool) (pos : Nat → Nat) : V :=
  match e.type with
  | .single => flipAt v (e.bit / 8) (e.bit % 8)
  | .multi => forN e.num (fun i c => if e.bit % 8 + i < 8 then flipAt c (e.bit / 8) (e.bit % 8 + i) else c) v
  | .stuck =>
    if e.bit / 8 < 4 then
      if one then v ||| BitVec.twoPow 32 (8 * (e.bit / 8) + e.bit % 8) else v &&& ~~~ BitVec.twoPow 32 (8 * (e.bit / 8) + e.bit % 8)
    else v
  | .severe => forN e.num (fun i c => flipAt c (pos i / 8) (pos i % 8)) v

/-! ### Stress test -/

/-- What `runStressTest` uses of a voter (extreme_stress_test.cpp:601-608). -/
structure Voter (σ : Type) where
  new : V → Outcome σ
  copies : σ → Copies
  corrupt : σ → Nat → V → σ
  get : σ → V × σ
  repair : σ → Outcome σ

/-- `BasicTMR` (extreme_stress_test.cpp:208-250). -/
def basic : Voter Copies where
  new v := .ok fun _ => v
  copies := id
  corrupt := Extreme.corrupt
  get c := (basicGet c, c)
  repair c := .ok (basicRepair c)

/-- `HealthWeightedTMR` (extreme_stress_test.cpp:17-94). -/
def hw : Voter HW where
  new v := .ok (HW.new v)
  copies := HW.copies
  corrupt s i v := { s with copies := Extreme.corrupt s.copies i v }
  get := HW.get
  repair s := .ok s.repair

/-- `ApproximateTMR` with the default types (extreme_stress_test.cpp:105-205). -/
def approx : Voter AT where
  new v := AT.new v defaultTypes
  copies := AT.copies
  corrupt s i v := { s with copies := Extreme.corrupt s.copies i v }
  get s := (s.get, s)
  repair := AT.repair

/-- `TestResults` without `total_events` (extreme_stress_test.cpp:543-549). -/
structure Results where
  detected : Nat
  corrected : Nat
  counts : Err → Nat
  success : Err → Nat

/-- The variables of the test loop (extreme_stress_test.cpp:611-612, 624). -/
structure St (σ : Type) where
  els : Nat → σ
  expected : Nat → V
  r : Results

/-- One event with the numbers drawn while it is processed: the copy hit (extreme_stress_test.cpp:667) and those of `applyRadiationEvent`. -/
structure Hit where
  event : Event
  copy : Fin 3
  one : Bool
  pos : Nat → Nat

/-- Increment of one entry of a map. -/
def bump (f : Err → Nat) (t : Err) : Err → Nat := fun u => if u = t then f u + 1 else f u

/-- Assignment to one element of a vector. -/
def put {α : Type} (f : Nat → α) (i : Nat) (a : α) : Nat → α := fun j => if j = i then a else f j

/-- One turn of the loop (extreme_stress_test.cpp:648-709). -/
def turn {σ : Type} (w : Voter σ) (s : St σ) (h : Hit) : Outcome (St σ) :=
  let i := h.event.target
  let t := h.event.type
  let expected := s.expected i
  let r := { s.r with counts := bump s.r.counts t }
  let original := w.copies (s.els i) h.copy
  let corrupted := applyEvent original h.event h.one h.pos
  if corrupted = original then .ok { s with r := r }
  else
    let g := w.get (w.corrupt (s.els i) h.copy corrupted)
    if g.1 ≠ expected then
      (w.repair g.2).bind fun e =>
        let a := w.get e
        if a.1 = expected then
          .ok { els := put s.els i a.2, expected := s.expected, r := { r with detected := r.detected + 1, corrected := r.corrected + 1, success := bump r.success t } }
        else
          .ok { els := put s.els i a.2, expected := put s.expected i a.1, r := { r with detected := r.detected + 1 } }
    else
      .ok { els := put s.els i g.2, expected := s.expected, r := { r with corrected := r.corrected + 1, success := bump r.success t } }

/-- The loop over the events (extreme_stress_test.cpp:648-709). -/
def loop {σ : Type} (w : Voter σ) : St σ → List Hit → Outcome (St σ)
  | s, [] => .ok s
  | s, h :: hs => (turn w s h).bind fun s => loop w s hs

/-- `runStressTest` without the generation of the events (extreme_stress_test.cpp:601-713). -/
def run {σ : Type} (w : Voter σ) (v : V) (hs : List Hit) : Outcome (St σ) :=
  (w.new v).bind fun e => loop w ⟨fun _ => e, fun _ => v, ⟨0, 0, fun _ => 0, fun _ => 0⟩⟩ hs

/-- `getCorrectionRate`; `getDetectionRate` is the same with the other counter (extreme_stress_test.cpp:551-557). -/
noncomputable def overall (n total : Nat) : ℝ := if total > 0 then (n : ℝ) / total else 1

/-- `getCorrectionRateByType` (extreme_stress_test.cpp:559-564). -/
noncomputable def byType (r : Results) (t : Err) : ℝ := if r.counts t > 0 then (r.success t : ℝ) / r.counts t else 1

open Classical in
/-- The conclusion (extreme_stress_test.cpp:792-807). -/
noncomputable def conclusion (b h a : ℝ) : String × ℝ :=
  if h ≥ b ∧ h ≥ a then ("Health-Weighted TMR", h)
  else if a ≥ b ∧ a ≥ h then ("Approximate TMR", a)
  else ("Basic TMR", b)

end Verif.Extreme
