import Verif.Model.RadStress
import Mathlib.Data.Real.Basic
/-!
Model of the systematic fault injection test (/repo/test/verification/systematic_fault_test.cpp).  Its network
has the members, the vote and the forward pass of the network of the stress test
(systematic_fault_test.cpp:30-147, 267-313 are radiation_stress_test.cpp:58-168, 263-311 without the
radiation), so `RadStress.Net` and its functions are reused.  Draws of the random generators are arguments,
`SystematicFaultInjector::injectFault` is a function argument; counters are natural numbers, doubles reals.
-/
namespace Verif.SysFault
open Verif.RadStress (F Arith Addr Net outputs credit)

/-- systematic_fault_test.cpp:155-159 `total_params`. -/
def totalParams (n : Net) : ℕ := (n.inp * n.hid + n.hid * n.out) + (n.hid + n.out)

/-- systematic_fault_test.cpp:161 `num_to_affect`. -/
def numToAffect (n : Net) (coverage : ℕ) : ℕ := totalParams n * coverage / 100

/-- systematic_fault_test.cpp:181-261 which parameter an index means. -/
def addrOf (n : Net) (p : ℕ) : Addr :=
  if p < n.inp * n.hid then .w1 (p / n.hid) (p % n.hid)
  else if p < n.inp * n.hid + n.hid then .b1 (p - n.inp * n.hid)
  else if p < n.inp * n.hid + n.hid + n.hid * n.out then
    .w2 ((p - (n.inp * n.hid + n.hid)) / n.out) ((p - (n.inp * n.hid + n.hid)) % n.out)
  else .b2 (p - (n.inp * n.hid + n.hid + n.hid * n.out))

/-- An assignment to one element, e.g. `weights1[row][col] = injector.injectFault(weights1[row][col], pattern)`
(systematic_fault_test.cpp:191-197). -/
def upd (c : Addr → F) (a : Addr) (f : F → F) : Addr → F := fun b => if b = a then f (c a) else c b

/-- systematic_fault_test.cpp:187-198 (and :205-216, :227-238, :247-258) the copy drawn is corrupted. -/
def injectAt (n : Net) (a : Addr) (copy : ℕ) (f : F → F) : Net :=
  let n := if copy = 0 then { n with c1 := upd n.c1 a f }
    else if copy = 1 then { n with c2 := upd n.c2 a f }
    else { n with c3 := upd n.c3 a f }
  { n with total := n.total + 1 }

/-- systematic_fault_test.cpp:173-177 the do-while loop: the first index drawn that is not affected, and the
remaining draws; `none` if the loop goes on after the given draws. -/
def pick (affected : List ℕ) : List ℕ → Option (ℕ × List ℕ)
  | [] => none
  | d :: ds => if d ∈ affected then pick affected ds else some (d, ds)

/-- systematic_fault_test.cpp:171-262 one round: select, mark, corrupt. -/
def round (copy : ℕ) (f : F → F) (st : List ℕ × List ℕ × Net) : Option (List ℕ × List ℕ × Net) :=
  match pick st.1 st.2.1 with
  | none => none
  | some (p, ds) => some (p :: st.1, ds, injectAt st.2.2 (addrOf st.2.2 p) copy f)

/-- systematic_fault_test.cpp:171-262 `k` rounds. -/
def rounds (copy : ℕ → ℕ) (fault : ℕ → F → F) (k : ℕ) (st : List ℕ × List ℕ × Net) :
    Option (List ℕ × List ℕ × Net) :=
  forN k (fun i (acc : Option (List ℕ × List ℕ × Net)) => acc.bind (round (copy i) (fault i))) (some st)

/-- systematic_fault_test.cpp:149-265 `applyFaultInjection`: the network and the number of faults. -/
def applyFaultInjection (n : Net) (coverage : ℕ) (draws : List ℕ) (copy : ℕ → ℕ) (fault : ℕ → F → F) :
    Option (Net × ℕ) :=
  (rounds copy fault (numToAffect n coverage) ([], draws, { n with total := 0, corrected := 0 })).map
    (fun st => (st.2.2, numToAffect n coverage))

/-- systematic_fault_test.cpp:353-357 the copies of a parameter are not all equal. -/
def differs (n : Net) (a : Addr) : Bool :=
  !Spec.f32eq (n.c1 a) (n.c2 a) || !Spec.f32eq (n.c1 a) (n.c3 a) || !Spec.f32eq (n.c2 a) (n.c3 a)

/-- systematic_fault_test.cpp:345-392 `getAffectedCounts`: weights and biases together. -/
def affectedCount (n : Net) : ℕ := n.addrs.countP (differs n)

/-- systematic_fault_test.cpp:440-482 what a test reports, as far as it depends on the network. -/
structure Result where
  rows : List (List F × List F)
  injected : ℕ
  affected : ℕ
  detected : ℕ
  corrected : ℕ

/-- systematic_fault_test.cpp:395-486 `runSystematicFaultTest` for given inputs (each of `inputSize` values):
reference outputs, injection, outputs; `detected_faults` is `totalErrors`. -/
def runTest (A : Arith) (n : Net) (coverage : ℕ) (prot : Bool) (inputs : List (List F)) (draws : List ℕ)
    (copy : ℕ → ℕ) (fault : ℕ → F → F) : Option (Result × Net) :=
  let n0 := { n with prot := true }
  let refs := inputs.map (outputs A n0)
  (applyFaultInjection n0 coverage draws copy fault).map (fun q =>
    let n1 := { q.1 with prot := prot }
    let corrected := n1.corrected + (inputs.map (fun x => credit n1 x.length)).sum
    ({ rows := (inputs.map (outputs A n1)).zip refs, injected := q.2, affected := affectedCount n1,
       detected := n1.total, corrected := corrected }, { n1 with corrected := corrected }))

/-- systematic_fault_test.cpp:477-482 `correction_rate`. -/
noncomputable def correctionRate (r : Result) : ℝ :=
  if 0 < r.detected then 100 * (r.corrected : ℝ) / (r.detected : ℝ) else 100

end Verif.SysFault
