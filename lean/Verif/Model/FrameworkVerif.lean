import Verif.Model.Tmr
import Verif.Model.MonitoredTmr
import Verif.Spec.XReal
/-!
Model of the framework verification test (/repo/test/verification/framework_verification_test.cpp): a network whose weights are held in a plain triple (Verif.Tmr) and whose bias is held in the mutex-protected one (Verif.MTmr).

Simplifications: `F` is `float` with `==` as equality (no NaN, one zero); `eval weights bias` is the result of the arithmetic of a forward pass on the test's inputs, ideal (Verif.XD); `scale` is the multiplication by 1.5.  Time and random number of the `i`-th read of the bias are `now i` and `rnd i`.  The mission environment constructed in test 4 is not used by the program.  Not modelled: texts, locking (C71).
-/
namespace Verif.FwVerif
open Classical

variable {F : Type} [DecidableEq F]

/-- Equality as a test. -/
def same {α : Type} [DecidableEq α] (a b : α) : Bool := decide (a = b)

/-- `SimpleNetwork` (framework_verification_test.cpp:26-32), with the number of reads of the bias so far. -/
structure Net (F : Type) where
  weights : Tmr.State (List F)
  bias : MTmr.State F
  reads : ℕ := 0

/-- The constructor (framework_verification_test.cpp:35-42); the default constructor of the triple holds an empty vector, and `set` follows. -/
def Net.new (crc : F → BitVec 32) (w : List F) (b : F) (t0 : ℤ) : Net F := { weights := Tmr.set (Tmr.mk [] false) w, bias := MTmr.new crc b t0 }

/-- What the program is given: checksum, clock and random numbers of the bias, number of inputs, arithmetic. -/
structure World (F : Type) where
  crc : F → BitVec 32
  now : ℕ → ℤ
  rnd : ℕ → ℚ
  inputs : ℕ
  eval : List F → F → XD

/-- `forward` (framework_verification_test.cpp:47-67). -/
def Net.forward (w : World F) (n : Net F) : XD × Net F :=
  let a := Tmr.get same n.weights
  let b := MTmr.get same w.crc n.bias (w.now n.reads) (w.rnd n.reads)
  (if w.inputs ≠ a.1.length then .fin 0 else w.eval a.1 b.1, { weights := a.2, bias := b.2, reads := n.reads + 1 })

/-- `corruptWeight` (framework_verification_test.cpp:72-78). -/
def Net.corruptWeight (n : Net F) (i : ℕ) (v : F) : Net F :=
  let a := Tmr.get same n.weights
  { n with weights := if i < a.1.length then Tmr.setRawCopy a.2 0 (a.1.set i v) else a.2 }

/-- `corruptBias` (framework_verification_test.cpp:83-85). -/
def Net.corruptBias (w : World F) (n : Net F) (v : F) : Net F := { n with bias := MTmr.setRawCopy w.crc n.bias 1 v }

/-- The strikes before the `i`-th forward pass of test 4 (framework_verification_test.cpp:193-210); `hit` is the value 0.9 written to the bias.  `i % weights.size()` is undefined for an empty vector; the model then changes nothing. -/
def Net.strike (w : World F) (scale : F → F) (hit : F) (i : ℕ) (n : Net F) : Net F :=
  let a := Tmr.get same n.weights
  let t := Tmr.setRawCopy a.2 0 a.1
  let t := if i % 3 = 0 then Tmr.setRawCopy t 0 (a.1.modify (i % a.1.length) scale) else t
  { n with weights := t, bias := if i % 7 = 0 then MTmr.setRawCopy w.crc n.bias 1 hit else n.bias }

/-- `|x - y| < d`. -/
def close (x y : XD) (d : ℝ) : Prop := XD.lt (XD.sub x y).abs (.fin d)

/-- The loop of test 4 (framework_verification_test.cpp:192-219): `success_count` after `k` passes, and the network. -/
noncomputable def loop (w : World F) (scale : F → F) (hit : F) (normal : XD) (n : Net F) : ℕ → ℕ × Net F
  | 0 => (0, n)
  | k + 1 =>
    let r := loop w scale hit normal n k
    let f := (r.2.strike w scale hit k).forward w
    (r.1 + (if close f.1 normal (1 / 10) then 1 else 0), f.2)

/-- `resetErrorStats` of both (framework_verification_test.cpp:183-184). -/
def Net.reset (n : Net F) : Net F := { n with weights := Tmr.resetErrorStats n.weights, bias := MTmr.resetErrorStats n.bias }

/-- What the test reports: the verdict of test 2 on the statistics, its verdict on the output, `verify()` of test 3, the successes of test 4. -/
structure Report where
  detected : Bool
  output : Bool
  verified : Bool
  successes : ℕ

/-- The tests (framework_verification_test.cpp:117-219), with the network at the end. -/
noncomputable def tests (w : World F) (weights : List F) (bias bad badBias hit : F) (scale : F → F) (t0 : ℤ) : Report × Net F :=
  let r0 := (Net.new w.crc weights bias t0).forward w
  let r1 := (r0.2.corruptWeight 1 bad).forward w
  let st := r1.2.weights.stats
  let r2 := (r1.2.corruptBias w badBias).forward w
  let v := MTmr.verify w.crc r2.2.bias
  let n := Net.reset { r2.2 with bias := v.2 }
  let l := loop w scale hit r0.1 n 100
  (⟨decide (0 < st.detected ∧ 0 < st.corrected), decide (close r0.1 r1.1 (1 / 100000)), v.1, l.1⟩, l.2)

/-- The verdict (framework_verification_test.cpp:143-153, 222-231). -/
def Report.passed (r : Report) : Bool := r.detected && r.output && decide (70 < r.successes * 100 / 100)

end Verif.FwVerif
