import Verif.Spec.Float
import Mathlib.Data.Nat.Bitwise
import Mathlib.Data.Nat.Size
/-!
Model of the two demonstrations of majority voting in Python (/repo/advanced_tmr_demo.py, /repo/validate_tmr.py): the protected value, the bit flip and the runs with their counters.

Simplifications: a Python float is either the value of a binary32 pattern (`single`) or a number that binary32 cannot represent (`other`, told apart by an index); rounding to binary32 keeps the former and takes the latter to
any pattern.  Integers are not negative, as in both scripts.  A failing `struct.pack` of a number too large for binary32 is not modelled (the scripts draw at most 1000000).
Not modelled: the printed text, the framework's start and stop, the replaced attributes of the objects in validate_tmr.py (the run uses only the local functions).
-/
namespace Verif.TmrDemo
open Verif.Spec

/-- A Python value (advanced_tmr_demo.py:119-124, validate_tmr.py:55-60). -/
inductive Val where
  | int (n : ℕ)
  | single (b : BitVec 32)
  | other (k : ℕ)
  deriving DecidableEq

/-- `a == b` in Python (advanced_tmr_demo.py:31-36). -/
def Val.eq : Val → Val → Bool
  | .int a, .int b => a == b
  | .single a, .single b => f32eq a b
  | .other a, .other b => a == b
  | _, _ => false

/-- The three copies (advanced_tmr_demo.py:19-25, validate_tmr.py:72-74). -/
structure Demo where
  v1 : Val
  v2 : Val
  v3 : Val
  deriving DecidableEq

/-- The constructor and the setter (advanced_tmr_demo.py:19-25, 40-47); the type check of the setter is not modelled. -/
def Demo.new (v : Val) : Demo := ⟨v, v, v⟩

/-- `value` (advanced_tmr_demo.py:27-38, validate_tmr.py:77-85). -/
def Demo.value (d : Demo) : Val :=
  if d.v1.eq d.v2 then d.v1 else if d.v1.eq d.v3 then d.v1 else if d.v2.eq d.v3 then d.v2 else d.v1

/-- `check_integrity`, a chained comparison (advanced_tmr_demo.py:49-51, validate_tmr.py:87-88). -/
def Demo.intact (d : Demo) : Bool := d.v1.eq d.v2 && d.v2.eq d.v3

/-- `correct` (advanced_tmr_demo.py:53-68, validate_tmr.py:90-100). -/
def Demo.correct (d : Demo) : Bool × Demo :=
  if d.v1.eq d.v2 && !d.v1.eq d.v3 then (true, { d with v3 := d.v1 })
  else if d.v1.eq d.v3 && !d.v1.eq d.v2 then (true, { d with v2 := d.v1 })
  else if d.v2.eq d.v3 && !d.v1.eq d.v2 then (true, { d with v1 := d.v2 })
  else (false, d)

/-! ### The bit flip -/

/-- `list(bin(value)[2:].zfill(32))`: the binary digits, the most significant first (advanced_tmr_demo.py:78, validate_tmr.py:21). -/
def digits (n : ℕ) : List Bool := (List.range (max 32 n.size)).map fun i => n.testBit (max 32 n.size - 1 - i)

/-- `int(''.join(binary), 2)` (advanced_tmr_demo.py:84, validate_tmr.py:25). -/
def ofDigits (l : List Bool) : ℕ := l.foldl (fun a b => 2 * a + b.toNat) 0

/-- `simulate_bit_flip` for integers in the demonstration: positions outside the digits leave the value alone (advanced_tmr_demo.py:77-85). -/
def flipInt (n p : ℕ) : ℕ :=
  if p < (digits n).length then ofDigits ((digits n).modify p not) else n

/-- `simulate_bit_flip` for integers in the validation: a position outside the digits raises IndexError (validate_tmr.py:20-25). -/
def flipIntV (n p : ℕ) : Option ℕ :=
  if p < (digits n).length then some (ofDigits ((digits n).modify p not)) else none

/-- `struct.pack('>f', value)`: `round` is what becomes of a number that is not a binary32 value (advanced_tmr_demo.py:90-92). -/
def Val.pattern (round : ℕ → BitVec 32) : Val → BitVec 32
  | .single b => b
  | .other k => round k
  | .int _ => 0

/-- `simulate_bit_flip` (advanced_tmr_demo.py:74-96, validate_tmr.py:17-38). -/
def flipVal (round : ℕ → BitVec 32) (v : Val) (p : ℕ) : Val :=
  match v with
  | .int n => .int (flipInt n p)
  | v => .single (v.pattern round ^^^ (1#32 <<< p))

/-! ### The runs -/

/-- How a test is counted (advanced_tmr_demo.py:109-111, validate_tmr.py:44-46). -/
inductive Verdict where
  | corrected
  | failed
  | unneeded
  deriving DecidableEq

/-- What is drawn for a test: the value and, if it is to be corrupted, the copy (1 to 3) and the bit (advanced_tmr_demo.py:119-138). -/
structure Draw where
  value : Val
  strike : Option (ℕ × ℕ)

/-- Corrupting one copy (advanced_tmr_demo.py:141-152, validate_tmr.py:124-130). -/
def Demo.corrupt (d : Demo) (copy : ℕ) (x : Val) : Demo :=
  if copy = 1 then { d with v1 := x } else if copy = 2 then { d with v2 := x } else { d with v3 := x }

/-- One test of the demonstration (advanced_tmr_demo.py:127-194). -/
def demoTest (round : ℕ → BitVec 32) (t : Draw) : Verdict :=
  match t.strike with
  | some (copy, bit) =>
    let d := (Demo.new t.value).corrupt copy (flipVal round t.value bit)
    if !d.intact then
      let c := d.correct
      if c.1 then (if c.2.value.eq t.value then .corrected else .failed) else .failed
    else if d.value.eq t.value then .unneeded else .failed
  | none => if (Demo.new t.value).intact then .unneeded else .failed

/-- One test of the validation (validate_tmr.py:72-166): undetected corruption is a failure. -/
def validateTest (round : ℕ → BitVec 32) (t : Draw) : Verdict :=
  match t.strike with
  | some (copy, bit) =>
    let d := (Demo.new t.value).corrupt copy (flipVal round t.value bit)
    if !d.intact then
      let c := d.correct
      if c.1 then (if c.2.value.eq t.value then .corrected else .failed) else .failed
    else .failed
  | none => if (Demo.new t.value).intact then .unneeded else .failed

/-- The three counters (advanced_tmr_demo.py:109-111, 208; validate_tmr.py:44-46, 184). -/
structure Counts where
  corrected : ℕ := 0
  failed : ℕ := 0
  unneeded : ℕ := 0
  deriving DecidableEq

/-- Counting one verdict (advanced_tmr_demo.py:168-194). -/
def Counts.add (c : Counts) : Verdict → Counts
  | .corrected => { c with corrected := c.corrected + 1 }
  | .failed => { c with failed := c.failed + 1 }
  | .unneeded => { c with unneeded := c.unneeded + 1 }

/-- A run: the counters after all tests (advanced_tmr_demo.py:101-208, validate_tmr.py:40-184). -/
def run (test : Draw → Verdict) (ts : List Draw) : Counts := ts.foldl (fun c t => c.add (test t)) {}

end Verif.TmrDemo
