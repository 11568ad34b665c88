import Mathlib.Order.Defs.LinearOrder
import Mathlib.Algebra.Order.Field.Rat
/-!
Model of `rad_ml::tmr::HealthWeightedTMR<T>` (/repo/include/rad_ml/tmr/health_weighted_tmr.hpp).

Health scores (C++ `double`) are exact rationals.  `crc` is the checksum of the object representation
(`calculateChecksum`, :200-214, is `Crc.crc32` of the bytes).  `T` is ordered (`std::map<T,double>` requires
it) with `==` the identity.  `error_counters_` are natural numbers.
-/
namespace Verif.HTmr

/-- Everything stored for one copy: health_weighted_tmr.hpp:158-172. -/
structure Copy (α : Type _) where
  val : α
  crc : BitVec 32
  health : ℚ
  errors : Nat
  hist : List Bool
  deriving DecidableEq, Repr

/-- The three copies. -/
structure State (α : Type _) where
  c0 : Copy α
  c1 : Copy α
  c2 : Copy α
  deriving DecidableEq, Repr

variable {α : Type _}

/-- Array access `x_[i]`. -/
def State.at (s : State α) : Fin 3 → Copy α
  | 0 => s.c0
  | 1 => s.c1
  | 2 => s.c2

/-- Update of the entries of one copy. -/
def State.modify (s : State α) (i : Fin 3) (f : Copy α → Copy α) : State α :=
  match i with
  | 0 => { s with c0 := f s.c0 }
  | 1 => { s with c1 := f s.c1 }
  | 2 => { s with c2 := f s.c2 }

/-- Loop over the three copies. -/
def State.mapAll (s : State α) (f : Copy α → Copy α) : State α := ⟨f s.c0, f s.c1, f s.c2⟩

/-- health_weighted_tmr.hpp:32-38 constructor. -/
def new (crc : α → BitVec 32) (v : α) : State α :=
  let c : Copy α := ⟨v, crc v, 1, 0, []⟩
  ⟨c, c, c⟩

/-- health_weighted_tmr.hpp:189-192 `verifyChecksum`. -/
def verifyChecksum (crc : α → BitVec 32) (s : State α) (i : Fin 3) : Bool :=
  (s.at i).crc == crc (s.at i).val

/-- health_weighted_tmr.hpp:222-256 `updateHealthScore` on one copy; `history_length_ = 10` (:25). -/
def updateHealthScore (correct : Bool) (c : Copy α) : Copy α :=
  let hist := (if c.hist.length ≥ 10 then c.hist.drop 1 else c.hist) ++ [correct]
  let c := { c with hist := hist }
  let c := if correct then { c with health := min 1 (c.health + 1 / 20) }
    else { c with health := max (1 / 10) (c.health - 1 / 5), errors := c.errors + 1 }
  if c.hist.length ≥ 3 then
    let recent := ((c.hist.drop (c.hist.length - 3)).filter (fun b => !b)).length
    if recent ≥ 2 then { c with health := max (1 / 20) (c.health - 1 / 10) } else c
  else c

/-- `map[k] += w` on a `std::map` held as a list sorted by key. -/
def bump [LinearOrder α] (k : α) (w : ℚ) : List (α × ℚ) → List (α × ℚ)
  | [] => [(k, w)]
  | (k', w') :: r =>
    if k < k' then (k, w) :: (k', w') :: r
    else if k = k' then (k', w' + w) :: r
    else (k', w') :: bump k w r

/-- health_weighted_tmr.hpp:273-278: total weight of the copies with a valid checksum. -/
def totalWeight (valid : Fin 3 → Bool) (s : State α) : ℚ :=
  (if valid 0 then s.c0.health else 0) + (if valid 1 then s.c1.health else 0)
    + (if valid 2 then s.c2.health else 0)

/-- One iteration of the vote-counting loop: health_weighted_tmr.hpp:264-312. -/
def vote [LinearOrder α] (valid : Fin 3 → Bool) (s : State α) (i : Fin 3) (m : List (α × ℚ)) : List (α × ℚ) :=
  if valid i then bump (s.at i).val ((s.at i).health / totalWeight valid s) m else m

/-- The weighted vote table: health_weighted_tmr.hpp:264-312. -/
def votes [LinearOrder α] (valid : Fin 3 → Bool) (s : State α) : List (α × ℚ) :=
  vote valid s 2 (vote valid s 1 (vote valid s 0 []))

/-- The value with the highest weight, starting from `copies_[0]` with weight 0: health_weighted_tmr.hpp:264-312. -/
def bestOf (d : α) (m : List (α × ℚ)) : α × ℚ := m.foldl (fun b e => if e.2 > b.2 then e else b) (d, 0)

/-- One iteration of the loop crediting or blaming the valid copies: health_weighted_tmr.hpp:264-312. -/
def credit [DecidableEq α] (valid : Fin 3 → Bool) (s : State α) (best : α) (i : Fin 3) (t : State α) : State α :=
  if valid i then t.modify i (updateHealthScore (decide ((s.at i).val = best))) else t

/-- health_weighted_tmr.hpp:264-312 `performWeightedVoting`. -/
def performWeightedVoting [LinearOrder α] (valid : Fin 3 → Bool) (s : State α) : α × State α :=
  if s.c0.val = s.c1.val ∧ s.c1.val = s.c2.val then (s.c0.val, s.mapAll (updateHealthScore true))
  else
    let best := (bestOf s.c0.val (votes valid s)).1
    (best, credit valid s best 2 (credit valid s best 1 (credit valid s best 0 s)))

/-- Index of the highest health score, lowest index on ties (health_weighted_tmr.hpp:77-82, :142-147). -/
def bestIndex (s : State α) : Fin 3 :=
  let b : Fin 3 := if s.c1.health > s.c0.health then 1 else 0
  if s.c2.health > (s.at b).health then 2 else b

/-- health_weighted_tmr.hpp:45-60: a copy whose checksum is wrong loses health. -/
def penalise (valid : Fin 3 → Bool) (i : Fin 3) (t : State α) : State α :=
  if valid i then t else t.modify i (updateHealthScore false)

/-- The state after the checksum loop of `get`: health_weighted_tmr.hpp:45-60. -/
def penalised (crc : α → BitVec 32) (s : State α) : State α :=
  let valid := verifyChecksum crc s
  penalise valid 2 (penalise valid 1 (penalise valid 0 s))

/-- Number of copies whose checksum is right: health_weighted_tmr.hpp:45-60. -/
def validCount (crc : α → BitVec 32) (s : State α) : Nat :=
  (verifyChecksum crc s 0).toNat + (verifyChecksum crc s 1).toNat + (verifyChecksum crc s 2).toNat

/-- health_weighted_tmr.hpp:45-88 `get` (mutates health, history and counters through `mutable`). -/
def get [LinearOrder α] (crc : α → BitVec 32) (s : State α) : α × State α :=
  let valid := verifyChecksum crc s
  let t := penalised crc s
  if validCount crc s ≥ 2 then performWeightedVoting valid t
  else if valid 0 then (s.c0.val, t)
  else if valid 1 then (s.c1.val, t)
  else if valid 2 then (s.c2.val, t)
  else
    let b := bestIndex t
    ((t.at b).val, t.modify b fun c => { c with errors := c.errors + 1 })

/-- health_weighted_tmr.hpp:95-103 `set`: health is reset, counters and history are kept. -/
def set (crc : α → BitVec 32) (v : α) (s : State α) : State α :=
  s.mapAll fun c => { c with val := v, crc := crc v, health := 1 }

/-- health_weighted_tmr.hpp:126-135 `repair`. -/
def repair [LinearOrder α] (crc : α → BitVec 32) (s : State α) : State α :=
  let r := get crc s
  r.2.mapAll fun c => { c with val := r.1, crc := crc r.1 }

/-- health_weighted_tmr.hpp:140-156 `regenerateCopies`. -/
def regenerateCopies (crc : α → BitVec 32) (s : State α) : State α :=
  let v := (s.at (bestIndex s)).val
  s.mapAll fun c => { c with val := v, crc := crc v }

/-- A radiation upset of the value and checksum of copy `i` (environment). -/
def upset (i : Fin 3) (x : α) (c : BitVec 32) (s : State α) : State α :=
  s.modify i fun r => { r with val := x, crc := c }

/-- Events: API calls and upsets. -/
inductive Op (α : Type _) where
  | get
  | set (v : α)
  | repair
  | regenerate
  | upset (i : Fin 3) (x : α) (c : BitVec 32)

/-- One event. -/
def step [LinearOrder α] (crc : α → BitVec 32) (s : State α) : Op α → State α
  | .get => (get crc s).2
  | .set v => set crc v s
  | .repair => repair crc s
  | .regenerate => regenerateCopies crc s
  | .upset i x c => upset i x c s

/-- A history of events. -/
def run [LinearOrder α] (crc : α → BitVec 32) (s : State α) (ops : List (Op α)) : State α :=
  ops.foldl (step crc) s

end Verif.HTmr
