import Verif.Model.Multibit
import Verif.Model.Tmr
import Verif.Model.SpaceTmr
import Mathlib.Algebra.Order.Archimedean.Real.Basic
/-!
Model of `MultibitProtection::applyMultiBitErrors` and of the three TMR-based weights of
/repo/include/rad_ml/neural/multibit_protection.hpp (multi_bit_protection.hpp is an identical copy), of the float and double
specialisations of /repo/include/rad_ml/tmr/enhanced_stuck_bit_tmr.hpp and of `SimpleTMR` of /repo/python/rad_ml_minimal.cpp.

A value of `n` bytes is a bit vector of `8 n` bits; error rate, radiation levels and health scores are real numbers (no
rounding).  The random engine is given as two streams: numbers for the distribution over [0, 1), and raw numbers, of which an
integer distribution over `[a, b]` uses the remainder modulo `b - a + 1`.  `hasError` and `correctErrors` of
`TripleModularRedundancy` and of an enabled `AdaptiveTMRProtection` call `verify()` and compare the result of a `void repair()`:
they cannot be instantiated and are left out.
-/
namespace Verif.UpsetTmr
open Verif.Multibit (Word Obj)

/-! ### applyMultiBitErrors -/

/-- `MultibitUpsetType` (multibit_protection.hpp:30-36). -/
inductive Upset where
  | singleBit | adjacentBits | rowUpset | columnUpset | randomMulti
  deriving DecidableEq, Repr

/-- `data.bits ^= (1u << p)` (multibit_protection.hpp:275, 291): a shift of a 32-bit number by 32 or more is undefined. -/
def flipWord {n : ℕ} (v : BitVec (8 * n)) (p : ℕ) : Outcome (BitVec (8 * n)) :=
  if 32 ≤ p then .ub else .ok (v ^^^ BitVec.twoPow (8 * n) p)

/-- `data.bytes[b] ^= (1u << p)` with `p < 8` (multibit_protection.hpp:311, 330, 351). -/
def flipByte {n : ℕ} (v : BitVec (8 * n)) (b p : ℕ) : BitVec (8 * n) := v ^^^ BitVec.twoPow (8 * n) (8 * b + p)

/-- The loop of ADJACENT_BITS (multibit_protection.hpp:290-292): `k` flips from `s` on. -/
def flipRun {n : ℕ} (v : BitVec (8 * n)) (s : ℕ) : ℕ → Outcome (BitVec (8 * n))
  | 0 => .ok v
  | k + 1 => (flipRun v s k).bind fun w => flipWord w (s + k)

/-- `static_cast<unsigned>(x)` of a double (multibit_protection.hpp:306, 324, 339): undefined unless the integral part fits. -/
noncomputable def toUnsigned (x : ℝ) : Outcome ℕ := if x ≤ -1 ∨ 2 ^ 32 ≤ x then .ub else .ok ⌊x⌋₊

/-- The loop of RANDOM_MULTI (multibit_protection.hpp:341-353): `k` chances, the state being the value and the integers used. -/
noncomputable def randomLoop {n : ℕ} (rate : ℝ) (u : ℕ → ℝ) (d : ℕ → ℕ) (k : ℕ) (v : BitVec (8 * n)) : BitVec (8 * n) × ℕ :=
  open Classical in forN k (fun i (s : BitVec (8 * n) × ℕ) =>
    if u i < rate then (flipByte s.1 (d s.2 % (8 * n) / 8) (d s.2 % (8 * n) % 8), s.2 + 1) else s) (v, 0)

/-- `applyMultiBitErrors` for an `n`-byte type (multibit_protection.hpp:248-359). -/
noncomputable def applyErrors {n : ℕ} (v : BitVec (8 * n)) (rate : ℝ) (t : Upset) (u : ℕ → ℝ) (d : ℕ → ℕ) : Outcome (BitVec (8 * n)) :=
  open Classical in
  if rate ≤ 0 then .ok v
  else match t with
    | .singleBit => if u 0 < rate then flipWord v (d 0 % (8 * n)) else .ok v
    | .adjacentBits => if u 0 < rate then flipRun v (d 0 % (8 * n - 2)) (2 + d 1 % 2) else .ok v
    | .rowUpset =>
      if u 0 < rate then
        (toUnsigned (rate * 4)).bind fun k =>
          .ok (forN ((1 + k) % 2 ^ 32) (fun i w => flipByte w (d 0 % n) (d (i + 1) % 8)) v)
      else .ok v
    | .columnUpset =>
      if u 0 < rate then
        (toUnsigned (rate * ((n : ℝ) - 1))).bind fun k =>
          .ok (forN ((1 + k) % 2 ^ 32) (fun i w => flipByte w (d (i + 1) % n) (d 0 % 8)) v)
      else .ok v
    | .randomMulti => (toUnsigned (rate * 8)).bind fun k => .ok (randomLoop rate u d k v).1

/-! ### TMR-based weights -/

/-- `TripleModularRedundancy<T>` of 4-byte values (multibit_protection.hpp:886-930): the base object and the three copies. -/
structure Weight where
  base : Obj
  tmr : CoreTmr.State Word

/-- The constructor with a value (multibit_protection.hpp:899-902): the base uses the Hamming code. -/
def Weight.new (junk : ℕ → BitVec 8) (v : Word) : Weight := ⟨Obj.mk' junk v .hamming, CoreTmr.set v⟩

/-- The default constructor (multibit_protection.hpp:891-894): the base has no code. -/
def Weight.default (junk : ℕ → BitVec 8) : Weight := ⟨Obj.mk' junk 0#32 .none, CoreTmr.set 0#32⟩

/-- `getValue` (multibit_protection.hpp:907). -/
def Weight.getValue (eq : Word → Word → Bool) (w : Weight) : Word := CoreTmr.get eq w.tmr

/-- `setValue` (multibit_protection.hpp:912-916). -/
def Weight.setValue (w : Weight) (v : Word) : Weight := ⟨w.base.setValue v, CoreTmr.set v⟩

/-- The inherited conversion `operator T()` (multibit_protection.hpp:378): not virtual, so it reads the base object. -/
def Weight.convert (w : Weight) : Word := w.base.getValue.1

/-- `AdaptiveTMRProtection<T>` (multibit_protection.hpp:939-1027). -/
structure Adaptive where
  w : Weight
  enabled : Bool
  threshold : ℝ

/-- The constructor with a value and a threshold (multibit_protection.hpp:953-959). -/
def Adaptive.new (junk : ℕ → BitVec 8) (v : Word) (t : ℝ) : Adaptive := ⟨Weight.new junk v, false, t⟩

/-- The default constructor (multibit_protection.hpp:944-948). -/
noncomputable def Adaptive.default (junk : ℕ → BitVec 8) : Adaptive := ⟨Weight.default junk, false, 3 / 10⟩

/-- `getValue` (multibit_protection.hpp:964-972): value and new state. -/
def Adaptive.getValue (eq : Word → Word → Bool) (a : Adaptive) : Word × Adaptive :=
  if a.enabled then (CoreTmr.get eq a.w.tmr, a)
  else (a.w.base.getValue.1, { a with w := { a.w with base := a.w.base.getValue.2 } })

/-- `setValue` (multibit_protection.hpp:977-981). -/
def Adaptive.setValue (a : Adaptive) (v : Word) : Adaptive := { a with w := a.w.setValue v }

/-- `setRadiationThreshold` (multibit_protection.hpp:986). -/
def Adaptive.setThreshold (a : Adaptive) (t : ℝ) : Adaptive := { a with threshold := t }

/-- `updateProtectionStatus` (multibit_protection.hpp:991-994). -/
noncomputable def Adaptive.update (a : Adaptive) (level : ℝ) : Adaptive :=
  open Classical in { a with enabled := decide (a.threshold ≤ level) }

/-- `SpaceOptimizedProtection<T>` (multibit_protection.hpp:1036-1093). -/
structure Space where
  base : Obj
  tmr : ETmr.State Word

/-- `getValue` (multibit_protection.hpp:1056-1061): the status of the read is dropped. -/
def Space.getValue (eq : Word → Word → Bool) (fb : Word → Word → Word → Outcome Word) (crc : Word → BitVec 32) (s : Space) : Outcome Word :=
  (STmr.get eq fb crc s.tmr).1.bind fun r => .ok r.2

/-- `setValue` (multibit_protection.hpp:1066-1070). -/
def Space.setValue (crc : Word → BitVec 32) (s : Space) (v : Word) : Space := ⟨s.base.setValue v, STmr.set crc v s.tmr⟩

/-- `hasError` (multibit_protection.hpp:1075-1079). -/
def Space.hasError (eq : Word → Word → Bool) (crc : Word → BitVec 32) (s : Space) : Bool := decide (STmr.verify eq crc s.tmr ≠ .success)

/-- `correctErrors` (multibit_protection.hpp:1084-1088). -/
def Space.correctErrors (eq : Word → Word → Bool) (fb : Word → Word → Word → Outcome Word) (crc : Word → BitVec 32) (s : Space) :
    Outcome (Bool × Space) :=
  (STmr.repair eq fb crc s.tmr).bind fun r => .ok (decide (r.1 = .success), { s with tmr := r.2 })

/-! ### Float specialisation of the stuck-bit TMR -/

/-- `EnhancedStuckBitTMR<float>` and `<double>` (enhanced_stuck_bit_tmr.hpp:446-533, 536-623). -/
structure FloatTmr (α : Type) where
  copy : Fin 3 → α
  health : Fin 3 → ℝ

/-- Constructor and `set` (enhanced_stuck_bit_tmr.hpp:449-452, 472-479). -/
def FloatTmr.set {α : Type} (v : α) : FloatTmr α := ⟨fun _ => v, fun _ => 1⟩

/-- The copy with the best health, the first of several (enhanced_stuck_bit_tmr.hpp:463-469). -/
noncomputable def best (h : Fin 3 → ℝ) : Fin 3 :=
  open Classical in
  let b : Fin 3 := if h 0 < h 1 then 1 else 0
  if h b < h 2 then 2 else b

/-- `get` (enhanced_stuck_bit_tmr.hpp:454-470). -/
noncomputable def FloatTmr.get {α : Type} (eq : α → α → Bool) (s : FloatTmr α) : α :=
  if eq (s.copy 0) (s.copy 1) || eq (s.copy 0) (s.copy 2) then s.copy 0
  else if eq (s.copy 1) (s.copy 2) then s.copy 1
  else s.copy (best s.health)

/-- `repair` (enhanced_stuck_bit_tmr.hpp:481-494). -/
noncomputable def FloatTmr.repair {α : Type} (eq : α → α → Bool) (s : FloatTmr α) : FloatTmr α :=
  let c := s.get eq
  ⟨fun i => if eq (s.copy i) c then s.copy i else c,
   fun i => if eq (s.copy i) c then min 1 (s.health i + 1 / 10) else max (1 / 10) (s.health i - 2 / 10)⟩

/-- `corruptCopy` (enhanced_stuck_bit_tmr.hpp:509-513). -/
def FloatTmr.corrupt {α : Type} (s : FloatTmr α) (i : ℕ) (x : α) : FloatTmr α :=
  { s with copy := fun j => if j.val = i then x else s.copy j }

/-! ### SimpleTMR of the Python bindings -/

/-- `SimpleTMR::correct` (rad_ml_minimal.cpp:47-63); the copies and the vote are those of `CoreTmr` (lines 24-45). -/
def simpleCorrect {α : Type} (eq : α → α → Bool) (s : CoreTmr.State α) : Bool × CoreTmr.State α :=
  if eq s.v0 s.v1 && !eq s.v0 s.v2 then (true, { s with v2 := s.v0 })
  else if eq s.v0 s.v2 && !eq s.v0 s.v1 then (true, { s with v1 := s.v0 })
  else if eq s.v1 s.v2 && !eq s.v0 s.v1 then (true, { s with v0 := s.v1 })
  else (false, s)

/-- `SimpleTMR::checkIntegrity` (rad_ml_minimal.cpp:65). -/
def simpleIntegrity {α : Type} (eq : α → α → Bool) (s : CoreTmr.State α) : Bool := eq s.v0 s.v1 && eq s.v1 s.v2

end Verif.UpsetTmr
