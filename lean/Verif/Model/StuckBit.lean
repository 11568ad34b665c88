import Mathlib.Algebra.Order.Field.Rat
import Verif.Model.Loop
import Verif.Model.TemporalRedundancy
import Verif.Model.Checkpoint
/-!
Model of `rad_ml::tmr::EnhancedStuckBitTMR<T>` for integral `T`
(/repo/include/rad_ml/tmr/enhanced_stuck_bit_tmr.hpp) and of `HybridRedundancy<T>`
(/repo/include/rad_ml/tmr/hybrid_redundancy.hpp).

`T` is `BitVec w`; `(x >> bit) & 1` is `x.getLsbD bit`.  `std::bitset` and the counter array are functions of
the bit index.  Health scores are exact rationals.
-/
namespace Verif.Stuck

/-- enhanced_stuck_bit_tmr.hpp:170-186. -/
structure State (w : Nat) where
  copies : Fin 3 → BitVec w
  health : Fin 3 → ℚ
  stuck : Nat → Bool
  masks : Fin 3 → Nat → Bool
  counters : Nat → Nat

variable {w : Nat}

/-- Assignment to one array element. -/
def upd {β : Type _} (f : Fin 3 → β) (i : Fin 3) (x : β) : Fin 3 → β := fun j => if j = i then x else f j

/-- Assignment to one array element (index by bit). -/
def updN {β : Type _} (f : Nat → β) (i : Nat) (x : β) : Nat → β := fun j => if j = i then x else f j

/-- enhanced_stuck_bit_tmr.hpp:33-38 constructor. -/
def new (v : BitVec w) : State w :=
  ⟨fun _ => v, fun _ => 1, fun _ => false, fun _ _ => false, fun _ => 0⟩

/-- enhanced_stuck_bit_tmr.hpp:60-70 `set` with `reset_stuck_bit_tracking` (:370-378). -/
def set (v : BitVec w) (_s : State w) : State w :=
  ⟨fun _ => v, fun _ => 1, fun _ => false, fun _ _ => false, fun _ => 0⟩

/-- enhanced_stuck_bit_tmr.hpp:236-245 `updateHealthScores`. -/
def updateHealth (s : State w) (i : Fin 3) (correct : Bool) : State w :=
  let h := if correct then min 1 (s.health i + 1 / 20) else max (1 / 10) (s.health i - 3 / 20)
  { s with health := upd s.health i h }

/-- enhanced_stuck_bit_tmr.hpp:197-228 `get_standard`. -/
def getStandard (s : State w) : BitVec w × State w :=
  if s.copies 0 = s.copies 1 ∨ s.copies 0 = s.copies 2 then
    let t := updateHealth s 0 true
    if s.copies 0 = s.copies 1 then
      let t := updateHealth t 1 true
      (s.copies 0, updateHealth t 2 (decide (s.copies 2 = s.copies 0)))
    else
      let t := updateHealth t 1 (decide (s.copies 1 = s.copies 0))
      (s.copies 0, updateHealth t 2 true)
  else if s.copies 1 = s.copies 2 then
    (s.copies 1, updateHealth (updateHealth (updateHealth s 0 false) 1 true) 2 true)
  else
    let b : Fin 3 := if s.health 1 > s.health 0 then 1 else 0
    let b : Fin 3 := if s.health 2 > s.health b then 2 else b
    (s.copies b, s)

/-- Health-weighted majority of one bit, enhanced_stuck_bit_tmr.hpp:290-308. -/
def weightedBit (s : State w) (bit : Nat) : Bool :=
  let b (i : Fin 3) : Nat := ((s.copies i).getLsbD bit).toNat
  let ws : ℚ := b 0 * s.health 0 + b 1 * s.health 1 + b 2 * s.health 2
  let tw : ℚ := s.health 0 + s.health 1 + s.health 2
  decide (tw > 0 ∧ ws / tw > 1 / 2)

/-- The decision for one bit of `get_with_stuck_bit_awareness`, enhanced_stuck_bit_tmr.hpp:261-321. -/
def awareBit (s : State w) (bit : Nat) : Bool :=
  let b (i : Fin 3) : Nat := ((s.copies i).getLsbD bit).toNat
  if s.stuck bit then
    let v (i : Fin 3) : Nat := if s.masks i bit then 0 else 1
    let votes := v 0 + v 1 + v 2
    let sum := v 0 * b 0 + v 1 * b 1 + v 2 * b 2
    if votes > 0 then decide (sum > votes / 2)
    else weightedBit s bit
  else decide (b 0 + b 1 + b 2 > 3 / 2)

/-- enhanced_stuck_bit_tmr.hpp:252-325 `get_with_stuck_bit_awareness`. -/
def getAware (s : State w) : BitVec w :=
  if s.copies 0 = s.copies 1 ∧ s.copies 1 = s.copies 2 then s.copies 0
  else forN w (fun bit r => if awareBit s bit then r ||| (1#w <<< bit) else r) 0#w

/-- `potential_stuck_bits.any()` (enhanced_stuck_bit_tmr.hpp:47). -/
def anyStuck (s : State w) : Bool := forN w (fun bit r => r || s.stuck bit) false

/-- enhanced_stuck_bit_tmr.hpp:45-53 `get`. -/
def get (s : State w) : BitVec w × State w :=
  if anyStuck s then (getAware s, s) else getStandard s

/-- The body of the bit loop of `update_stuck_bit_tracking` for copy `i`, enhanced_stuck_bit_tmr.hpp:345-363. -/
def trackBit (i : Fin 3) (diff : BitVec w) (bit : Nat) (s : State w) : State w :=
  if diff.getLsbD bit then
    let c := if s.counters bit < 255 then s.counters bit + 1 else s.counters bit
    { s with
      counters := updN s.counters bit c
      masks := upd s.masks i (updN (s.masks i) bit ((s.copies i).getLsbD bit))
      stuck := if c ≥ 3 then updN s.stuck bit true else s.stuck }
  else s

/-- The copy loop body of `update_stuck_bit_tracking`, enhanced_stuck_bit_tmr.hpp:335-364. -/
def trackCopy (voted : BitVec w) (i : Fin 3) (s : State w) : State w :=
  if s.copies i = voted then s
  else forN w (trackBit i (s.copies i ^^^ voted)) s

/-- enhanced_stuck_bit_tmr.hpp:330-365 `update_stuck_bit_tracking`. -/
def updateTracking (s : State w) : State w :=
  let r := getStandard s
  trackCopy r.1 2 (trackCopy r.1 1 (trackCopy r.1 0 r.2))

/-- enhanced_stuck_bit_tmr.hpp:387-412 `repair_non_stuck_bits`: new contents of the copy. -/
def repairBits (mask : Nat → Bool) (copy correct : BitVec w) : BitVec w :=
  if copy = correct then copy
  else forN w (fun bit c =>
    if (copy ^^^ correct).getLsbD bit && !mask bit then
      let c := c &&& ~~~ (1#w <<< bit)
      if correct.getLsbD bit then c ||| (1#w <<< bit) else c
    else c) copy

/-- enhanced_stuck_bit_tmr.hpp:423-446 `check_only_stuck_bits_differ`. -/
def onlyStuckDiffer (mask : Nat → Bool) (value correct : BitVec w) : Bool :=
  forN w (fun bit r => r && (!(value ^^^ correct).getLsbD bit || mask bit)) true

/-- Health update of `repair`, enhanced_stuck_bit_tmr.hpp:92-106. -/
def repairHealth (s : State w) (correct : BitVec w) (i : Fin 3) : ℚ :=
  if s.copies i = correct then min 1 (s.health i + 1 / 10)
  else if onlyStuckDiffer (s.masks i) (s.copies i) correct then min (9 / 10) (s.health i + 1 / 20)
  else max (1 / 10) (s.health i - 1 / 5)

/-- enhanced_stuck_bit_tmr.hpp:79-107 `repair`. -/
def repair (s : State w) : State w :=
  let s := updateTracking s
  let r := get s
  let t := r.2
  let t := { t with copies := fun i => repairBits (t.masks i) (t.copies i) r.1 }
  { t with health := repairHealth t r.1 }

/-- enhanced_stuck_bit_tmr.hpp:142-146 `corruptCopy`; also a radiation upset. -/
def corruptCopy (s : State w) (index : Nat) (x : BitVec w) : State w :=
  if h : index < 3 then { s with copies := upd s.copies ⟨index, h⟩ x } else s

/-- Events. -/
inductive Op (w : Nat) where
  | get
  | set (v : BitVec w)
  | repair
  | corrupt (i : Nat) (x : BitVec w)

/-- One event. -/
def step (s : State w) : Op w → State w
  | .get => (get s).2
  | .set v => set v s
  | .repair => repair s
  | .corrupt i x => corruptCopy s i x

/-- A history. -/
def run (s : State w) (ops : List (Op w)) : State w := ops.foldl step s

end Verif.Stuck

namespace Verif.Hybrid
open Verif

/-- hybrid_redundancy.hpp:169-176.  `n` is `num_executions_` of the temporal redundancy; `ckpt` the checkpoint
manager (never null: hybrid_redundancy.hpp:28,145); `thr` is `voting_confidence_threshold_`. -/
structure State (w : Nat) where
  tmr : Stuck.State w
  n : Nat
  delay : Nat
  ckpt : Ckpt.State (BitVec w)
  version : Nat
  thr : ℚ

variable {w : Nat}

/-- hybrid_redundancy.hpp:25-30 constructor at time `now` (seconds as ticks). -/
def new (v : BitVec w) (now : Int) : State w :=
  ⟨Stuck.new v, 3, 10, Ckpt.new 5 30 now, 0, 3 / 5⟩

/-- hybrid_redundancy.hpp:40-47 `get`: `n` successive reads of the TMR (each read may update health scores,
temporal_redundancy.hpp:41-57), voted by value.  Values are compared as unsigned numbers. -/
def reads : Nat → Stuck.State w → List (BitVec w) × Stuck.State w
  | 0, s => ([], s)
  | n + 1, s =>
    let r := Stuck.get s
    let rs := reads n r.2
    (r.1 :: rs.1, rs.2)

/-- The vote over the reads, on the numeric values. -/
def vote (l : List (BitVec w)) : Outcome (BitVec w) :=
  match Temporal.findMostCommonResult (l.map BitVec.toNat) with
  | .ok n => .ok (BitVec.ofNat w n)
  | .ub => .ub

/-- hybrid_redundancy.hpp:40-47. -/
def get (s : State w) : Outcome (BitVec w) × State w :=
  let r := reads s.n s.tmr
  (vote r.1, { s with tmr := r.2 })

/-- hybrid_redundancy.hpp:115-119 `checkpoint` at time `now`. -/
def checkpoint (s : State w) (now : Int) : State w :=
  let r := Stuck.get s.tmr
  { s with tmr := r.2, version := s.version + 1, ckpt := Ckpt.createCheckpoint s.ckpt r.1 (s.version + 1) now }

/-- hybrid_redundancy.hpp:54-59 `set`. -/
def set (v : BitVec w) (s : State w) (now : Int) : State w :=
  checkpoint { s with tmr := Stuck.set v s.tmr } now

/-- hybrid_redundancy.hpp:126-138 `rollback`. -/
def rollback (s : State w) : Bool × State w :=
  match Ckpt.getLatestCheckpoint s.ckpt with
  | some v => (true, { s with tmr := Stuck.set v s.tmr })
  | none => (false, s)

/-- hybrid_redundancy.hpp:66-87 `repair`. -/
def repair (s : State w) : Outcome (Bool × State w) :=
  let tmr := Stuck.repair s.tmr
  let b := Stuck.get tmr
  let r := reads s.n b.2
  let s := { s with tmr := r.2 }
  match vote r.1 with
  | .ub => .ub
  | .ok after => if b.1 = after then .ok (true, s) else .ok (rollback s)

/-- hybrid_redundancy.hpp:94-110 `updateRadiationEnvironment` with `adjustVotingThresholds` (:181-192). -/
def updateEnvironment (s : State w) (level : ℚ) : State w :=
  if level > 5 then { s with n := 5, delay := 20, thr := 9 / 10 }
  else if level > 2 then { s with n := 4, delay := 15, thr := 4 / 5 }
  else { s with n := 3, delay := 10, thr := 3 / 5 }

/-- hybrid_redundancy.hpp:146-150 `enableCheckpointing` at time `now`. -/
def enableCheckpointing (s : State w) (max : Nat) (interval now : Int) : State w :=
  { s with ckpt := Ckpt.new max interval now }

end Verif.Hybrid
