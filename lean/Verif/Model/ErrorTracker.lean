import Mathlib.Algebra.Order.Field.Rat
import Verif.Model.Loop
/-!
Model of `rad_ml::core::runtime::RadiationErrorTracker` (/repo/include/rad_ml/core/runtime/error_tracker.hpp).

Two views of the same code:
* a small-step semantics in which every atomic operation (or critical section of `history_mutex`) of `recordError` and
  `reset` is one step, so that arbitrary interleavings of threads can be studied;
* the sequential effect of whole calls.

Atomics are sequentially consistent in the model (the code uses weaker orders; the read-modify-write operations it
uses are atomic under every order).  64-bit counters are natural numbers, except in the difference of two counters,
which wraps.  Clock values are integers in ticks (nanoseconds for the usual `steady_clock`).  Rates are exact rationals
instead of `float`.
-/
namespace Verif.Tracker

/-- An entry of the error history (error_tracker.hpp:183-187). -/
structure Rec (δ : Type) where
  time : Int
  pattern : Nat
  data : δ

/-- The data members (error_tracker.hpp:206-219), and the function-local statics of `updateErrorRate` (:223-224), which
exist once per program.  `log` is a ghost: all entries ever pushed since the last clear. -/
structure Shared (δ : Type) where
  count : Nat := 0
  patterns : Nat → Nat := fun _ => 0
  lastTime : Int := 0
  rate : ℚ := 0
  history : List (Rec δ) := []
  calcTime : Int := 0
  calcCount : Nat := 0
  log : List (Rec δ) := []

variable {δ : Type}

/-- Arguments of `recordError`: enumerator value, and the data string (`none` if empty). -/
structure Call (δ : Type) where
  pattern : Nat
  data : Option δ

/-- Program counter of a thread inside `recordError` with its local variables. -/
inductive PC where
  | start | pattern | stamp | hist | rate
  | cas (now last : Int)
  | loadCount (now last : Int)
  | xchg (now last : Int) (cur : Nat)
  | loadRate (new : ℚ)
  | storeRate (new old : ℚ)
  | done
  deriving DecidableEq

/-- Update of one counter. -/
def bump (f : Nat → Nat) (p : Nat) : Nat → Nat := fun q => if q = p then f q + 1 else f q

/-- error_tracker.hpp:64-74: the critical section: append, drop the oldest entry above 1000. -/
def pushHistory (s : Shared δ) (r : Rec δ) : Shared δ :=
  let h := s.history ++ [r]
  { s with history := if h.length > 1000 then h.drop 1 else h, log := s.log ++ [r] }

/-- The wrapping difference `current_count - last_count` of two `uint64_t` (error_tracker.hpp:240). -/
def diff64 (a b : Nat) : Nat := (a % 2 ^ 64 + 2 ^ 64 - b % 2 ^ 64) % 2 ^ 64

/-- error_tracker.hpp:243-244: `static_cast<float>(count_diff) * std::chrono::seconds(1).count() / time_diff`, where
`seconds(1).count()` is 1. -/
def newRate (cur lastCount : Nat) (now last : Int) : ℚ := (diff64 cur lastCount : ℚ) * 1 / ((now - last : Int) : ℚ)

/-- One atomic step of `recordError` (error_tracker.hpp:48-79 and `updateErrorRate` :222-253) at clock value `t`. -/
def stepRec (t : Int) (c : Call δ) : PC → Shared δ → PC × Shared δ
  | .start, s => (.pattern, { s with count := s.count + 1 })
  | .pattern, s => (.stamp, if c.pattern < 6 then { s with patterns := bump s.patterns c.pattern } else s)
  | .stamp, s => (.hist, { s with lastTime := t })
  | .hist, s => (.rate, match c.data with
      | some d => pushHistory s ⟨t, c.pattern, d⟩
      | none => s)
  | .rate, s => (if t - s.calcTime > 1 then .cas t s.calcTime else .done, s)
  | .cas now last, s => if s.calcTime = last then (.loadCount now last, { s with calcTime := now }) else (.done, s)
  | .loadCount now last, s => (.xchg now last s.count, s)
  | .xchg now last cur, s => (.loadRate (newRate cur s.calcCount now last), { s with calcCount := cur })
  | .loadRate new, s => (.storeRate new s.rate, s)
  | .storeRate new old, s => (.done, { s with rate := 7 / 10 * new + 3 / 10 * old })
  | .done, s => (.done, s)

/-- One atomic step of `reset` (error_tracker.hpp:164-175); `k` counts the steps, 10 is the end. -/
def stepReset (k : Nat) (s : Shared δ) : Nat × Shared δ :=
  (if k < 10 then k + 1 else k,
   if k = 0 then { s with count := 0 }
   else if k = 1 then { s with rate := 0 }
   else if k = 2 then { s with lastTime := 0 }
   else if k < 9 then { s with patterns := fun q => if q = k - 3 then 0 else s.patterns q }
   else if k = 9 then { s with history := [], log := [] }
   else s)

/-- A thread inside a call. -/
inductive Thread (δ : Type) where
  | record (c : Call δ) (pc : PC)
  | reset (k : Nat)

/-- One step of a thread. -/
def Thread.step (t : Int) : Thread δ → Shared δ → Thread δ × Shared δ
  | .record c pc, s => let r := stepRec t c pc s; (.record c r.1, r.2)
  | .reset k, s => let r := stepReset k s; (.reset r.1, r.2)

/-- The whole program state. -/
structure Sys (δ : Type) where
  sh : Shared δ
  threads : List (Thread δ)

/-- The scheduler lets thread `i` do one step at clock value `t`. -/
def Sys.step (s : Sys δ) (i : Nat) (t : Int) : Sys δ :=
  match s.threads[i]? with
  | some th => let r := th.step t s.sh; ⟨r.2, s.threads.set i r.1⟩
  | none => s

/-- A schedule. -/
def Sys.run (s : Sys δ) (sched : List (Nat × Int)) : Sys δ := sched.foldl (fun s e => s.step e.1 e.2) s

/-- Threads about to start the given `recordError` calls. -/
def Sys.calls (sh : Shared δ) (cs : List (Call δ)) : Sys δ := ⟨sh, cs.map fun c => .record c .start⟩

/-! ### Sequential view -/

/-- `updateErrorRate` called alone at clock value `t` (error_tracker.hpp:222-253). -/
def updateErrorRate (s : Shared δ) (t : Int) : Shared δ :=
  if t - s.calcTime > 1 then
    { s with calcTime := t, calcCount := s.count,
             rate := 7 / 10 * newRate s.count s.calcCount t s.calcTime + 3 / 10 * s.rate }
  else s

/-- `recordError` called alone (error_tracker.hpp:48-79); `t1`, `t2`, `t3` are its three clock readings. -/
def recordError (s : Shared δ) (c : Call δ) (t1 t2 t3 : Int) : Shared δ :=
  let s := { s with count := s.count + 1 }
  let s := if c.pattern < 6 then { s with patterns := bump s.patterns c.pattern } else s
  let s := { s with lastTime := t1 }
  let s := match c.data with
    | some d => pushHistory s ⟨t2, c.pattern, d⟩
    | none => s
  updateErrorRate s t3

/-- `reset` called alone (error_tracker.hpp:164-175): the statics of `updateErrorRate` are not touched. -/
def reset (s : Shared δ) : Shared δ :=
  { s with count := 0, rate := 0, lastTime := 0, patterns := fun q => if q < 6 then 0 else s.patterns q,
           history := [], log := [] }

/-- `getTotalErrorCount` (error_tracker.hpp:95-97). -/
def getTotalErrorCount (s : Shared δ) : Nat := s.count

/-- `getPatternCount` (error_tracker.hpp:126-132). -/
def getPatternCount (s : Shared δ) (p : Nat) : Nat := if p < 6 then s.patterns p else 0

/-- `getPatternDistribution` (error_tracker.hpp:104-118). -/
def getPatternDistribution (s : Shared δ) (i : Nat) : ℚ :=
  if s.count = 0 then 0 else (s.patterns i : ℚ) / (s.count : ℚ)

/-- `getRecentErrors` (error_tracker.hpp:189-203). -/
def getRecentErrors (s : Shared δ) (maxEntries : Nat) : List (Rec δ) :=
  s.history.drop (s.history.length - min maxEntries s.history.length)

/-- `isErrorRateExceeded` (error_tracker.hpp:140-142). -/
def isErrorRateExceeded (s : Shared δ) (threshold : ℚ) : Bool := decide (s.rate > threshold)

/-- `getTimeSinceLastError` at clock value `now` (error_tracker.hpp:149-159) for a clock with `den` ticks per second;
`none` is `milliseconds::max()`. -/
def getTimeSinceLastError (den : Nat) (s : Shared δ) (now : Int) : Option Int :=
  if s.lastTime = 0 then none else some ((now - s.lastTime).tdiv ((den / 1000 : Nat) : Int))

/-- API calls of a single-threaded history. -/
inductive Op (δ : Type) where
  | record (c : Call δ) (t1 t2 t3 : Int)
  | reset

/-- One call. -/
def apply (s : Shared δ) : Op δ → Shared δ
  | .record c t1 t2 t3 => recordError s c t1 t2 t3
  | .reset => reset s

/-- A single-threaded history. -/
def run (s : Shared δ) (ops : List (Op δ)) : Shared δ := ops.foldl apply s

end Verif.Tracker
