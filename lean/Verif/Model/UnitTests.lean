import Verif.Model.Tmr
import Verif.Model.FaultTools
import Verif.Model.ConvLayer
import Verif.Model.FixedPoint
/-!
Models of the unit tests in /repo/test/unit on top of the models of the classes they test.  The values the tests store are parameters, as are the random draws.
`reinterpret_cast<int*>(&tmr)` is modelled by the three copies, the only members of the class (core/redundancy/tmr.hpp:81).
-/
namespace Verif.UnitTests
open Verif.FaultTools (Trial testResilience FaultType injectByte)

/-! ### test/unit/core/redundancy/tmr_test.cpp -/

/-- The assertions of `test_majority_voting` for the stored value `v` and the corrupting value `x`, 10 and 99 in the program: the vote, then the three copies after the repair (tmr_test.cpp:25-49). -/
def votingChecks {α : Type} [DecidableEq α] (v x : α) : List Bool :=
  let eq := fun a b : α => decide (a = b)
  let t := CoreTmr.corrupt (CoreTmr.set v) 0 x
  let r := CoreTmr.repair eq t
  [decide (CoreTmr.get eq t = v), decide (r.v0 = v), decide (r.v1 = v), decide (r.v2 = v)]

/-! ### test/unit/core/memory/memory_scrubber_test.cpp -/

/-- The callback of `test_memory_scrubbing` on a region of `size` bytes: `size / sizeof(TMR<int>)` objects are repaired (memory_scrubber_test.cpp:28-33). -/
def callback {α : Type} [DecidableEq α] (ptr : ℕ → CoreTmr.State α) (size : ℕ) : ℕ → CoreTmr.State α :=
  forN (size / 12) (fun i (m : ℕ → CoreTmr.State α) j => if j = i then CoreTmr.repair (fun a b : α => decide (a = b)) (m i) else m j) ptr

/-! ### test/unit/testing/fault_injector_test.cpp -/

/-- The loop `while (diff) { flipped_bits += diff & 1; diff >>= 1; }` (fault_injector_test.cpp:37-40); eight steps suffice for a byte. -/
def countDiff (diff : BitVec 8) (flipped : ℕ) : ℕ :=
  (forN 8 (fun _ (s : BitVec 8 × ℕ) => if s.1 = 0#8 then s else (s.1 >>> 1, s.2 + (s.1 &&& 1#8).toNat)) (diff, flipped)).2

/-- `flipped_bits` (fault_injector_test.cpp:32-41) for a buffer of `n` bytes. -/
def flippedBits (n : ℕ) (a b : List (BitVec 8)) : ℕ := forN n (fun i c => countDiff (b.getD i 0 ^^^ a.getD i 0) c) 0

/-- A flip of bit `b` of copy `k` (fault_injector_test.cpp:67-72 with fault_injector.hpp:73-80 on the twelve bytes of the object). -/
def flipBit (s : CoreTmr.State (BitVec 32)) (f : Fin 3 × Fin 32) : CoreTmr.State (BitVec 32) :=
  let m := 1#32 <<< f.2.val
  CoreTmr.corrupt s f.1 ((match f.1 with | 0 => s.v0 | 1 => s.v1 | 2 => s.v2) ^^^ m)

/-- Equality of `int`. -/
def eqv (a b : BitVec 32) : Bool := decide (a = b)

/-- `test_tmr_resilience`: the loop over the trials for the stored value `v`, 42 in the program; `f i` is the flip drawn in trial `i` (fault_injector_test.cpp:47-85). -/
def resilience (v : BitVec 32) (f : ℕ → Fin 3 × Fin 32) (trials : ℤ) : Trial (CoreTmr.State (BitVec 32)) :=
  testResilience (fun i s => flipBit s (f i)) (fun s => (eqv (CoreTmr.get eqv s) v, s)) (CoreTmr.repair eqv) trials (CoreTmr.set v)

/-- The final assertion of `test_tmr_resilience` (fault_injector_test.cpp:91-97). -/
def finalCheck (v : BitVec 32) (f : ℕ → Fin 3 × Fin 32) (trials : ℤ) : Bool :=
  let _ := (resilience v f trials).comp
  eqv (CoreTmr.get eqv (CoreTmr.set v)) v

/-! ### test/unit/inference/layers/conv_layer_test.cpp -/

/-- Setting the nine weights of a filter, then the bias 0 (conv_layer_test.cpp:42-54, 100-113). -/
def program {α : Type} (zero : α) (filter : ℕ → ℕ → α) : List (Conv.Op α) :=
  ((List.range 3).flatMap fun kh => (List.range 3).map fun kw => Conv.Op.set (.w 0 0 kh kw) (filter kh kw)) ++ [.set (.b 0) zero]

/-- The template arguments of `test_identity_convolution` (conv_layer_test.cpp:31). -/
def identityDims : Conv.Dims := ⟨1, 1, 4, 4, 3, 2, 0⟩

/-- The template arguments of the other tests (conv_layer_test.cpp:83, 158). -/
def edgeDims : Conv.Dims := ⟨1, 1, 3, 3, 3, 1, 0⟩

/-- The identity filter, raw values of `Fixed8_8` (conv_layer_test.cpp:42-50). -/
def identityFilter (kh kw : ℕ) : ℤ := if kh = 1 ∧ kw = 1 then 256 else 0

/-- The filter for horizontal edges (conv_layer_test.cpp:96-108). -/
def horizontal (kh _kw : ℕ) : ℤ := if kh = 0 then -256 else if kh = 1 then 0 else 256

/-- The filter for vertical edges (conv_layer_test.cpp:121-135). -/
def vertical (_kh kw : ℕ) : ℤ := if kw = 0 then -256 else if kw = 1 then 0 else 256

/-- Addition and multiplication of `Fixed8_8` on raw values: `int` arithmetic, which cannot overflow, and conversion to 16 bits (fixed_point.hpp:56-81). -/
def fixed : Conv.Num ℤ := ⟨fun a b => Fixed.narrow 16 (a + b), fun a b => Fixed.narrow 16 (a * b / 256), 0⟩

/-- Equality of `Fixed8_8` (fixed_point.hpp:122-124). -/
def eqz (a b : ℤ) : Bool := decide (a = b)

/-- The layer after the constructor and a program, then `forward` on an image of one channel; `raw` and `out` are the memory contents before (conv_layer_test.cpp:38-57, 93-116). -/
def convolve (d : Conv.Dims) (raw : Conv.Layer ℤ) (h : List (Conv.Op ℤ)) (x out : ℕ → ℕ → ℕ → ℤ) : Outcome (ℕ → ℕ → ℕ → ℤ) :=
  ((Conv.Layer.new d fixed raw).run d eqz h).bind fun L => Conv.forward d fixed eqz L x out

end Verif.UnitTests
