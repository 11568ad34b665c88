import Mathlib.Algebra.Order.Field.Rat
/-!
Model of `rad_ml::tmr::EnhancedTMR<T>` (/repo/include/rad_ml/tmr/enhanced_tmr.hpp), the mutex-protected variant with
health scores.

`eq` is `==` on `T`, `crc` the checksum of the object representation (`CRC32::calculate`, :51-61, is `Crc.crc32Table
Crc.generatedTable`).  Health scores (`double`) are exact rationals, counters natural numbers, clock values integers in
nanoseconds.  The random number drawn when all copies disagree is an argument of `get`.  Every public member function
holds `mutex_` from beginning to end, so that concurrent calls execute one after the other in some order: a history is
the list of calls in that order.  A call of a locking member function by a thread that holds the mutex never returns
(formally undefined).
-/
namespace Verif.MTmr

/-- One copy with its checksum and health score (enhanced_tmr.hpp:398-399, 412). -/
structure Copy (α : Type) where
  val : α
  crc : BitVec 32
  health : ℚ

/-- The data members (enhanced_tmr.hpp:397-422).  `calls` records the invocations of `on_error_callback_`. -/
structure State (α : Type) where
  c0 : Copy α
  c1 : Copy α
  c2 : Copy α
  weighted : Bool := true
  sets : Nat := 0
  gets : Nat := 0
  crcFailures : Nat := 0
  disagreements : Nat := 0
  last : Int
  intervalMs : Int := 5000
  calls : List (α × α) := []

variable {α : Type}

/-- Array access. -/
def State.at (s : State α) : Fin 3 → Copy α
  | 0 => s.c0
  | 1 => s.c1
  | 2 => s.c2

/-- Array element update. -/
def State.modify (s : State α) (i : Fin 3) (f : Copy α → Copy α) : State α :=
  match i with
  | 0 => { s with c0 := f s.c0 }
  | 1 => { s with c1 := f s.c1 }
  | 2 => { s with c2 := f s.c2 }

/-- Loop over the copies. -/
def State.mapAll (s : State α) (f : Copy α → Copy α) : State α := { s with c0 := f s.c0, c1 := f s.c1, c2 := f s.c2 }

/-- Constructor at time `now` (enhanced_tmr.hpp:131-152). -/
def new (crc : α → BitVec 32) (v : α) (now : Int) : State α :=
  { c0 := ⟨v, crc v, 1⟩, c1 := ⟨v, crc v, 1⟩, c2 := ⟨v, crc v, 1⟩, last := now }

/-- `recalculateCRCs` (enhanced_tmr.hpp:429-433). -/
def recalculateCRCs (crc : α → BitVec 32) (s : State α) : State α := s.mapAll fun c => { c with crc := crc c.val }

/-- `set` (enhanced_tmr.hpp:195-205). -/
def set (crc : α → BitVec 32) (s : State α) (v : α) : State α :=
  let s := recalculateCRCs crc (s.mapAll fun c => { c with val := v, health := 1 })
  { s with sets := s.sets + 1 }

/-- Body of the loop of `verifyCRCs` (enhanced_tmr.hpp:446-461) for copy `i`, with the flag `all_valid`. -/
def verifyOne (crc : α → BitVec 32) (i : Fin 3) (r : Bool × State α) : Bool × State α :=
  let s := r.2
  if crc (s.at i).val ≠ (s.at i).crc then
    let s := { s with crcFailures := s.crcFailures + 1 }
    let s := s.modify i fun c => { c with health := max (1 / 10) (c.health - 3 / 10) }
    (false, { s with calls := s.calls ++ [(if i = 0 then s.c1.val else s.c0.val, (s.at i).val)] })
  else r

/-- `verifyCRCs` (enhanced_tmr.hpp:442-465). -/
def verifyCRCs (crc : α → BitVec 32) (s : State α) : Bool × State α :=
  verifyOne crc 2 (verifyOne crc 1 (verifyOne crc 0 (true, s)))

/-- `std::min(1.0, h + d)`. -/
def raise (d : ℚ) (c : Copy α) : Copy α := { c with health := min 1 (c.health + d) }
/-- `std::max(0.1, h - 0.2)`. -/
def lower (c : Copy α) : Copy α := { c with health := max (1 / 10) (c.health - 1 / 5) }

/-- The health-weighted selection among three different copies (enhanced_tmr.hpp:520-545); `r` is the random number. -/
def select (s : State α) (r : ℚ) : α × State α :=
  if s.c0.health + s.c1.health + s.c2.health ≤ 0 then (s.c0.val, s)
  else if r ≤ s.c0.health then (s.c0.val, { s with c0 := raise (1 / 50) s.c0 })
  else if r ≤ s.c0.health + s.c1.health then (s.c1.val, { s with c1 := raise (1 / 50) s.c1 })
  else if r ≤ s.c0.health + s.c1.health + s.c2.health then (s.c2.val, { s with c2 := raise (1 / 50) s.c2 })
  else (s.c0.val, s)

/-- `performWeightedVoting` (enhanced_tmr.hpp:474-560). -/
def vote (eq : α → α → Bool) (s : State α) (r : ℚ) : α × State α :=
  if eq s.c0.val s.c1.val && eq s.c1.val s.c2.val then (s.c0.val, s.mapAll (raise (1 / 20)))
  else
    let s := { s with disagreements := s.disagreements + 1 }
    if s.weighted then
      if eq s.c0.val s.c1.val then
        (s.c0.val, { s with c0 := raise (1 / 20) s.c0, c1 := raise (1 / 20) s.c1, c2 := lower s.c2 })
      else if eq s.c0.val s.c2.val then
        (s.c0.val, { s with c0 := raise (1 / 20) s.c0, c2 := raise (1 / 20) s.c2, c1 := lower s.c1 })
      else if eq s.c1.val s.c2.val then
        (s.c1.val, { s with c1 := raise (1 / 20) s.c1, c2 := raise (1 / 20) s.c2, c0 := lower s.c0 })
      else select s r
    else
      if eq s.c0.val s.c1.val then (s.c0.val, s)
      else if eq s.c0.val s.c2.val then (s.c0.val, s)
      else if eq s.c1.val s.c2.val then (s.c1.val, s)
      else (s.c0.val, s)

/-- `get` at time `now` (enhanced_tmr.hpp:159-175). -/
def get (eq : α → α → Bool) (crc : α → BitVec 32) (s : State α) (now : Int) (r : ℚ) : α × State α :=
  let s := if now - s.last ≥ s.intervalMs * 1000000 then { (verifyCRCs crc s).2 with last := now } else s
  let res := vote eq s r
  (res.1, { res.2 with gets := res.2.gets + 1 })

/-- The copy with the best health score, the first one among equals (enhanced_tmr.hpp:220-227, 342-350). -/
def bestIndex (s : State α) : Fin 3 :=
  let b : Fin 3 := if s.c1.health > s.c0.health then 1 else 0
  if s.c2.health > (s.at b).health then 2 else b

/-- `getRawCopy` (enhanced_tmr.hpp:213-229). -/
def getRawCopy (s : State α) (i : Nat) : α :=
  if i = 0 then s.c0.val else if i = 1 then s.c1.val else if i = 2 then s.c2.val else (s.at (bestIndex s)).val

/-- `setRawCopy` (enhanced_tmr.hpp:237-247). -/
def setRawCopy (crc : α → BitVec 32) (s : State α) (i : Nat) (v : α) : State α :=
  let f : Copy α → Copy α := fun c => { val := v, crc := crc v, health := c.health * (9 / 10) }
  if i = 0 then s.modify 0 f else if i = 1 then s.modify 1 f else if i = 2 then s.modify 2 f else s

/-- `verify` (enhanced_tmr.hpp:254-257). -/
def verify (crc : α → BitVec 32) (s : State α) : Bool × State α := verifyCRCs crc s

/-- `resetErrorStats` (enhanced_tmr.hpp:308-319). -/
def resetErrorStats (s : State α) : State α :=
  { s.mapAll (fun c => { c with health := 1 }) with sets := 0, gets := 0, crcFailures := 0, disagreements := 0 }

/-- `regenerateCopies` (enhanced_tmr.hpp:338-371). -/
def regenerateCopies (crc : α → BitVec 32) (s : State α) : Bool × State α :=
  let b := bestIndex s
  if (s.at b).health < 3 / 5 then (false, s)
  else
    let t := (s.at b).val
    let f : Copy α → Copy α := fun c => { c with val := t, health := 9 / 10 }
    let s' := match b with
      | 0 => { s with c1 := f s.c1, c2 := f s.c2 }
      | 1 => { s with c0 := f s.c0, c2 := f s.c2 }
      | 2 => { s with c0 := f s.c0, c1 := f s.c1 }
    (true, recalculateCRCs crc s')

/-- Calls, and the two kinds of radiation fault: a copy or a stored checksum is overwritten. -/
inductive Op (α : Type) where
  | get (now : Int) (r : ℚ)
  | verify
  | set (v : α)
  | setRaw (i : Nat) (v : α)
  | regenerate
  | resetStats
  | enable (b : Bool)
  | setInterval (ms : Int)
  | fault (i : Fin 3) (v : α)
  | faultCrc (i : Fin 3) (c : BitVec 32)

/-- One event. -/
def step (eq : α → α → Bool) (crc : α → BitVec 32) (s : State α) : Op α → State α
  | .get now r => (get eq crc s now r).2
  | .verify => (verify crc s).2
  | .set v => set crc s v
  | .setRaw i v => setRawCopy crc s i v
  | .regenerate => (regenerateCopies crc s).2
  | .resetStats => resetErrorStats s
  | .enable b => { s with weighted := b }
  | .setInterval ms => { s with intervalMs := ms }
  | .fault i v => s.modify i fun c => { c with val := v }
  | .faultCrc i c => s.modify i fun x => { x with crc := c }

/-- A history. -/
def run (eq : α → α → Bool) (crc : α → BitVec 32) (s : State α) (ops : List (Op α)) : State α :=
  ops.foldl (step eq crc) s

/-! ### Locking (enhanced_tmr.hpp:161, 196, 214, 238, 255, 265, 291, 301, 309, 327, 339, 379) -/

/-- What a thread can do next in the body of a member function. -/
inductive Instr where
  | lock
  | work
  | unlock
  deriving DecidableEq, Repr

/-- Threads working on one object: who holds `mutex_`, and what each thread still has to execute. -/
structure Locks where
  holder : Option Nat := none
  prog : Nat → List Instr

/-- The scheduler lets thread `i` try one step: `lock` succeeds only if nobody (not even the thread itself) holds the
mutex; otherwise the thread stays where it is. -/
def Locks.step (s : Locks) (i : Nat) : Locks :=
  match s.prog i with
  | [] => s
  | .lock :: l => if s.holder = none then ⟨some i, fun j => if j = i then l else s.prog j⟩ else s
  | .unlock :: l => ⟨none, fun j => if j = i then l else s.prog j⟩
  | .work :: l => { s with prog := fun j => if j = i then l else s.prog j }

/-- A schedule. -/
def Locks.run (s : Locks) (sched : List Nat) : Locks := sched.foldl Locks.step s

/-- Every member function except `clone`: a lock guard around a body that does not call a locking function (the callback
passed by the user must not either). -/
def plainBody : List Instr := [.lock, .work, .unlock]
/-- `clone` (enhanced_tmr.hpp:378-394): the lock guard, the call of `get` in line 382, the rest. -/
def cloneBody : List Instr := [.lock] ++ plainBody ++ [.work, .unlock]

end Verif.MTmr
