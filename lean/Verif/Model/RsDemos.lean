import Verif.Model.ReedSolomon
import Verif.Model.Loop
import Mathlib.Data.Real.Basic
/-!
Model of the Reed–Solomon demonstrations rs_test.cpp, rs_simple_test.cpp and rs_failure_test.cpp, of galois_field_test.cpp, of the first part of rs_debug.cpp (the rest is rs_simple_test.cpp), and of `apply_bit_errors` (advanced_reed_solomon.hpp:273-294), which they use.

Bytes are numbers below 256, words of 32 bits are `BitVec 32`; the draws are a stream of arbitrary reals.  The comparison of the corrected weight with the original one is a parameter.  Not modelled: texts other than the digits.
-/
namespace Verif.RsDemos
open Verif.GF Verif.RS

/-- The inner loop for byte `i` (advanced_reed_solomon.hpp:286-290). -/
noncomputable def strikeByte (u : ℕ → ℝ) (rate : ℝ) (i b : ℕ) : ℕ :=
  open Classical in
  forN 8 (fun bit b => if u (8 * i + bit) < rate then b ^^^ (1 <<< bit) else b) b

/-- `apply_bit_errors` (advanced_reed_solomon.hpp:273-294). -/
noncomputable def applyErrors (u : ℕ → ℝ) (rate : ℝ) (data : List ℕ) : List ℕ :=
  open Classical in
  if data = [] ∨ rate ≤ 0 then data else data.mapIdx (strikeByte u rate)

/-- `bitset<8>(x).count()`. -/
def ones (x : ℕ) : ℕ := (List.range 8).countP x.testBit

/-- Number of bit errors (rs_simple_test.cpp:37-41). -/
def bitErrors : List ℕ → List ℕ → ℕ
  | x :: a, y :: b => ones (x ^^^ y) + bitErrors a b
  | _, _ => 0

/-- Number of corrupted bytes (rs_failure_test.cpp:41-46, 86-91). -/
def byteErrors : List ℕ → List ℕ → ℕ
  | x :: a, y :: b => (if x ≠ y then 1 else 0) + byteErrors a b
  | _, _ => 0

/-- Characters printed by `print_binary` (rs_test.cpp:9-23, rs_failure_test.cpp:10-24). -/
def digits (v : BitVec 32) : List Char :=
  (List.range 32).flatMap fun k => (if v.getLsbD (31 - k) then '1' else '0') :: (if (31 - k) % 8 = 0 then [' '] else [])

/-- `test_rs_at_error_rate` (rs_failure_test.cpp:27-58) for the bytes `v` of the weight; `close` compares the corrected bytes. -/
noncomputable def trial (c : Cfg) (u : ℕ → ℝ) (rate : ℝ) (v : List ℕ) (close : List ℕ → Bool) : Eff Bool :=
  c.construct.bind fun k => (c.encode k v).bind fun e => (c.decode k (applyErrors u rate e)).bind fun r => .ok (match r with | some x => close x | none => false)

/-- Successes among the trials at one rate (rs_failure_test.cpp:122-130); trial `t` uses the stream `u t`. -/
noncomputable def successes (c : Cfg) (u : ℕ → ℕ → ℝ) (rate : ℝ) (v : List ℕ) (close : List ℕ → Bool) (trials : ℕ) : Eff ℕ :=
  forE trials (fun t n => (trial c (u t) rate v close).bind fun b => .ok (if b then n + 1 else n)) 0

/-- `RS8Bit8Sym<float>` (advanced_reed_solomon.hpp:472), the codec of the three demonstrations. -/
def demo : Cfg := ⟨4, 8, 8⟩

/-- galois_field_test.cpp:5-19: the field constructed, then a sum printed. -/
def galoisTest : Eff ℕ := gf256.construct.bind fun _ => .ok (add 5 10)

/-- `test_galois_field` of rs_debug.cpp:21-41: the field constructed, then a sum, a product and a quotient. -/
def galoisDebug : Eff (ℕ × ℕ × ℕ) :=
  gf256.construct.bind fun t => (multiply gf256 t 5 10).bind fun b => (divide gf256 t 10 5).bind fun c => .ok (add 5 10, b, c)

end Verif.RsDemos
