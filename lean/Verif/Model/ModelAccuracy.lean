import Verif.Model.Loop
import Verif.Spec.XReal
import Mathlib.Algebra.Order.Floor.Defs
import Mathlib.Algebra.Order.Archimedean.Basic
import Mathlib.Algebra.Order.Archimedean.Real.Basic
import Mathlib.Data.List.Sort
/-!
Model of the two accuracy tests (/repo/test/model_accuracy_test.cpp and /repo/test/simple_model_accuracy_test.cpp).

Simplifications: `float` values are ideal (Verif.XD, no rounding); parameters of the network are bit patterns, `val` gives their value, `sig` is the activation function.  A draw is a function of the place where it is drawn (sample, run, parameter).  `std::sort` is a sort by `<=`; on numbers two sorted arrangements are the same list, and a NaN among at least two values breaks its precondition (undefined behaviour).  Not modelled: texts, file output, the weights and samples drawn (arbitrary).
-/
namespace Verif.ModelAcc
open Classical

/-- A `float` in memory (model_accuracy_test.cpp:20). -/
abbrev V := BitVec 32

/-- `SimpleNeuralNetwork` (model_accuracy_test.cpp:18-21). -/
structure Net where
  weights : List V
  bias : V
  deriving DecidableEq

/-- `getParameters` (model_accuracy_test.cpp:57-61). -/
def Net.params (n : Net) : List V := n.weights ++ [n.bias]

/-- `setParameters` (model_accuracy_test.cpp:64-70): reads as many parameters as there are weights, and one more. -/
def Net.setParams (n : Net) (p : List V) : Outcome Net :=
  if h : n.weights.length < p.length then .ok ⟨p.take n.weights.length, p[n.weights.length]⟩ else .ub

/-- `forward` (model_accuracy_test.cpp:48-54): every input is multiplied by the weight at its place, which must exist. -/
noncomputable def Net.forward (val : V → XD) (sig : XD → XD) (n : Net) (x : List XD) : Outcome XD :=
  if x.length ≤ n.weights.length then .ok (sig ((List.zip x n.weights).foldl (fun s q => s.add (q.1.mul (val q.2))) (val n.bias))) else .ub

/-- The sort of both programs (model_accuracy_test.cpp:88, simple_model_accuracy_test.cpp:100). -/
noncomputable def sort (rs : List XD) : List XD := rs.mergeSort fun a b => decide (XD.le a b)

/-- `applyTMR` (model_accuracy_test.cpp:74-90) on the runs of the operation `op 0`, `op 1`, ... -/
noncomputable def applyTMR (op : ℕ → XD) (red : ℤ) : Outcome XD :=
  let rs := (List.range red.toNat).map op
  if red = 1 then .ok (op 0)
  else if XD.nan ∈ rs ∧ 2 ≤ rs.length then .ub
  else match (sort rs)[(red / 2).toNat]? with
    | some v => .ok v
    | none => .ub

/-- The injection (model_accuracy_test.cpp:180-188): parameter `k` loses bit `b k` if its draw `u k` is below the rate. -/
noncomputable def inject (rate : ℝ) (u : ℕ → ℝ) (b : ℕ → Fin 32) (p : List V) : List V :=
  p.mapIdx fun k v => if u k < rate then v ^^^ (1#32 <<< (b k).val) else v

/-- The operation (model_accuracy_test.cpp:176-196): a temporary network `tmp` with the damaged parameters. -/
noncomputable def operation (val : V → XD) (sig : XD → XD) (model tmp : Net) (rate : ℝ) (u : ℕ → ℝ) (b : ℕ → Fin 32) (x : List XD) : Outcome XD :=
  (tmp.setParams (inject rate u b model.params)).bind fun n => n.forward val sig x

/-- The test of one sample (model_accuracy_test.cpp:198-206) with the results of the operation: whether the prediction is the label. -/
noncomputable def judge (op : ℕ → XD) (red : ℤ) (label : ℤ) : Outcome Bool :=
  (applyTMR op red).bind fun r => .ok (decide ((if XD.le (.fin (1 / 2)) r then (1 : ℤ) else 0) = label))

/-- `correct` (model_accuracy_test.cpp:170-207): the samples predicted correctly; `res i j` is the result of run `j` on sample `i`. -/
noncomputable def correct (res : ℕ → ℕ → XD) (red : ℤ) : ℕ → List ℤ → Outcome ℕ
  | _, [] => .ok 0
  | i, l :: ls => (judge (res i) red l).bind fun b => (correct res red (i + 1) ls).bind fun n => .ok (n + if b then 1 else 0)

/-- `accuracy` (model_accuracy_test.cpp:210-211). -/
noncomputable def accuracy (n size : ℕ) : XD := XD.div (.fin n) (.fin size)

/-- The table of improvements (model_accuracy_test.cpp:234-268) for `rows` error rates and `cols` levels, and the accuracies measured: entry at row `i`, level `j`; `none` where "baseline" or "N/A" is printed. -/
noncomputable def improvement (_measured : ℕ → ℕ → XD) (rows cols i j : ℕ) : Option XD :=
  let acc := fun j : ℕ => XD.div (.fin ((i * cols + j : ℕ) : ℝ)) (.fin ((rows * cols : ℕ) : ℝ))
  if j = 0 then none
  else if XD.lt (.fin 0) (acc 0) then some (XD.mul (XD.div (XD.sub (acc j) (acc 0)) (acc 0)) (.fin 100))
  else none

/-! ### The simple test -/

/-- The draws of one call (simple_model_accuracy_test.cpp:38-66): whether, which error, and its parameter. -/
structure Draws where
  hit : ℝ
  kind : ℝ
  arg : ℝ

/-- A float that is neither NaN nor infinite (simple_model_accuracy_test.cpp:89). -/
def Finite : XD → Prop
  | .fin _ => True
  | _ => False

/-- `computeWithErrors` (simple_model_accuracy_test.cpp:31-73); `flip x k` is `x` with bit `k` flipped.  A shift by 32 or more is undefined. -/
noncomputable def compute (flip : XD → ℕ → XD) (x : XD) (rate : ℝ) (d : Draws) : Outcome XD :=
  if rate ≤ 0 then .ok x
  else if d.hit < rate then
    let kind := ⌊d.kind * 4⌋
    if kind = 0 then (if 0 ≤ ⌊d.arg * 32⌋ ∧ ⌊d.arg * 32⌋ < 32 then .ok (flip x ⌊d.arg * 32⌋.toNat) else .ub)
    else if kind = 1 then .ok (x.add ((XD.fin (d.arg * 2 - 1)).mul x))
    else if kind = 2 then .ok x.neg
    else if kind = 3 then .ok (if d.arg < 1 / 2 then .nan else .pinf)
    else .ok x
  else .ok x

/-- The vote of `applyTMR` (simple_model_accuracy_test.cpp:86-101) on the results of the runs. -/
noncomputable def vote (x : XD) (rs : List XD) : XD :=
  let valid := rs.filter fun r => decide (Finite r)
  match (sort valid)[valid.length / 2]? with
  | some v => v
  | none => x

/-- The runs of `applyTMR` (simple_model_accuracy_test.cpp:81-84). -/
noncomputable def runs (flip : XD → ℕ → XD) (x : XD) (rate : ℝ) (d : ℕ → Draws) : ℕ → Outcome (List XD)
  | 0 => .ok []
  | n + 1 => (runs flip x rate d n).bind fun l => (compute flip x rate (d n)).bind fun v => .ok (l ++ [v])

/-- `applyTMR` (simple_model_accuracy_test.cpp:76-102). -/
noncomputable def apply (flip : XD → ℕ → XD) (x : XD) (rate : ℝ) (d : ℕ → Draws) (red : ℤ) : Outcome XD :=
  if red ≤ 1 then compute flip x rate (d 0) else (runs flip x rate d red.toNat).bind fun l => .ok (vote x l)

/-- `isAcceptable` (simple_model_accuracy_test.cpp:105-113). -/
def acceptable (orig r : XD) (tol : ℝ) : Prop := Finite r ∧ XD.le (((orig.sub r).abs).div orig.abs) (.fin tol)

/-- The trials of one configuration (simple_model_accuracy_test.cpp:155-166): how many results are acceptable; `d t` are the draws of trial `t`. -/
noncomputable def trials (flip : XD → ℕ → XD) (x : XD) (tol rate : ℝ) (d : ℕ → ℕ → Draws) (red : ℤ) : ℕ → Outcome ℕ
  | 0 => .ok 0
  | n + 1 => (trials flip x tol rate d red n).bind fun c => (apply flip x rate (d n) red).bind fun r => .ok (c + if acceptable x r tol then 1 else 0)

end Verif.ModelAcc
