import Verif.Model.EnhancedVoting
import Verif.Spec.Float
import Mathlib.Data.Real.Basic
/-!
# test/verification/radiation_stress_test.cpp

The network with three copies of its parameters, the flips, the vote and the tests of that program. A `float` is its binary32 pattern; sums, products and the
activation of the forward pass are functions `Arith`; random draws are arguments, probabilities real numbers, counters (`int`) natural numbers. `simulateBitFlip` reads and
writes a `float` through a `std::bitset<32>`, which is larger than a `float` on the usual 64-bit libraries: the model takes it to have the effect intended on the 32 bits. Files and
printing are not modelled.
-/
namespace Verif.RadStress
open Classical

/-- A `float`. -/
abbrev F := BitVec 32

/-- The arithmetic of the forward pass (radiation_stress_test.cpp:83-85, 146, 163). -/
structure Arith where
  add : F → F → F
  mul : F → F → F
  relu : F → F

/-- A parameter: `weights1[i][j]`, `biases1[j]`, `weights2[j][k]`, `biases2[k]` (radiation_stress_test.cpp:61-64). -/
inductive Addr where
  | w1 (i j : ℕ)
  | b1 (j : ℕ)
  | w2 (j k : ℕ)
  | b2 (k : ℕ)
  deriving DecidableEq

/-- `RadiationTestNetwork` (radiation_stress_test.cpp:58-80): the sizes, the three copies, the switch and the counters. -/
structure Net where
  inp : ℕ
  hid : ℕ
  out : ℕ
  c1 : Addr → F
  c2 : Addr → F
  c3 : Addr → F
  prot : Bool := true
  total : ℕ := 0
  corrected : ℕ := 0

/-- The constructor (radiation_stress_test.cpp:88-130) for given initial values. -/
def create (i h o : ℕ) (v : Addr → F) : Net := { inp := i, hid := h, out := o, c1 := v, c2 := v, c3 := v }

/-- The parameters in the order of the loops (radiation_stress_test.cpp:184-259). -/
def Net.addrs (n : Net) : List Addr :=
  ((List.range n.inp).flatMap fun i => (List.range n.hid).map fun j => .w1 i j) ++ (List.range n.hid).map .b1 ++
  ((List.range n.hid).flatMap fun j => (List.range n.out).map fun k => .w2 j k) ++ (List.range n.out).map .b2

/-- `bits.flip` for each bit of a list (radiation_stress_test.cpp:38-49). -/
def flipAll (v : F) (bits : List ℕ) : F := bits.foldl (fun v b => v ^^^ (1#32 <<< b)) v

/-- What one possible strike draws: the draw compared with the probability, the number of flips (1 to 3) and the positions (radiation_stress_test.cpp:29-30, 174-175). -/
structure Strike where
  u : ℝ
  n : ℕ
  bit : ℕ → ℕ

/-- `simulateBitFlip` (radiation_stress_test.cpp:26-54). -/
def simulateBitFlip (v : F) (s : Strike) (adjacent : Bool) : F :=
  if adjacent = true ∧ 1 < s.n then flipAll v ((List.range s.n).map fun i => (s.bit 0 + i) % 32)
  else flipAll v ((List.range s.n).map s.bit)

/-- One copy of one parameter (radiation_stress_test.cpp:186-200). -/
noncomputable def strike (p : ℝ) (adjacent : Bool) (s : Strike) (v : F) : F := if s.u < p then simulateBitFlip v s adjacent else v

/-- The strikes of one pass, by parameter: one for each copy. -/
structure Draws where
  d1 : Addr → Strike
  d2 : Addr → Strike
  d3 : Addr → Strike

/-- `flipProb` (radiation_stress_test.cpp:178). -/
noncomputable def flipProb (r : ℝ) : ℝ := r * (1 / 100)

/-- How many copies of a parameter are struck (radiation_stress_test.cpp:186-200). -/
noncomputable def hits (r : ℝ) (d : Draws) (a : Addr) : ℕ :=
  (if (d.d1 a).u < flipProb r then 1 else 0) + (if (d.d2 a).u < flipProb r then 1 else 0) + (if (d.d3 a).u < flipProb r * (1 / 2) then 1 else 0)

/-- `applyRadiationEffects` (radiation_stress_test.cpp:171-260): every copy of every parameter is visited once, and nothing else is read. -/
noncomputable def radiate (r : ℝ) (d : Draws) (n : Net) : Net :=
  { n with
    c1 := fun a => strike (flipProb r) false (d.d1 a) (n.c1 a)
    c2 := fun a => strike (flipProb r) true (d.d2 a) (n.c2 a)
    c3 := fun a => strike (flipProb r * (1 / 2)) false (d.d3 a) (n.c3 a)
    total := n.total + (n.addrs.map (hits r d)).sum }

/-- The number of bits on which the three words are not unanimous (radiation_stress_test.cpp:295-308). -/
def splitBits (a b c : F) : ℕ :=
  forN 32 (fun i k =>
    let m := (Voting.bit a i &&& Voting.bit b i) ||| (Voting.bit a i &&& Voting.bit c i) ||| (Voting.bit b i &&& Voting.bit c i)
    if Voting.bit a i ≠ m ∨ Voting.bit b i ≠ m ∨ Voting.bit c i ≠ m then k + 1 else k) 0

/-- `voteMajority` (radiation_stress_test.cpp:263-311): the value and what is added to `correctedErrors`. -/
def vote (prot : Bool) (a b c : F) : F × ℕ :=
  if prot = false then (a, 0)
  else if Spec.f32eq a b = true ∨ Spec.f32eq a c = true ∨ Spec.f32eq b c = true then
    if Spec.f32eq a b = true then (a, 1)
    else if Spec.f32eq a c = true then (a, 1)
    else (b, 1)
  else (Voting.bitLevelVote a b c, splitBits a b c)

/-- The vote on a parameter. -/
def Net.read (n : Net) (a : Addr) : F × ℕ := vote n.prot (n.c1 a) (n.c2 a) (n.c3 a)

/-- A neuron (radiation_stress_test.cpp:138-150, 155-167) with given inputs, bias and weights. -/
def neuron (A : Arith) (bias : F) (weight : ℕ → F) (xs : List F) : F :=
  (xs.zipIdx).foldl (fun acc x => A.add acc (A.mul x.1 (weight x.2))) bias

/-- The values of the hidden layer (radiation_stress_test.cpp:137-150). -/
def hiddenLayer (A : Arith) (n : Net) (xs : List F) : List F :=
  (List.range n.hid).map fun i => A.relu (neuron A (n.read (.b1 i)).1 (fun j => (n.read (.w1 j i)).1) xs)

/-- The values of the output layer (radiation_stress_test.cpp:153-167). -/
def outputs (A : Arith) (n : Net) (xs : List F) : List F :=
  (List.range n.out).map fun i => neuron A (n.read (.b2 i)).1 (fun j => (n.read (.w2 j i)).1) (hiddenLayer A n xs)

/-- What the votes of one forward pass on `m` inputs add to `correctedErrors` (radiation_stress_test.cpp:138-167). -/
def credit (n : Net) (m : ℕ) : ℕ :=
  ((List.range n.hid).map fun i => (n.read (.b1 i)).2 + ((List.range m).map fun j => (n.read (.w1 j i)).2).sum).sum +
  ((List.range n.out).map fun i => (n.read (.b2 i)).2 + ((List.range n.hid).map fun j => (n.read (.w2 j i)).2).sum).sum

/-- `forward` (radiation_stress_test.cpp:132-168); more inputs than rows of `weights1` are read out of bounds. -/
noncomputable def forward (A : Arith) (r : ℝ) (d : Draws) (n : Net) (xs : List F) : Outcome (List F × Net) :=
  let n := radiate r d n
  if n.inp < xs.length ∧ 0 < n.hid then .ub
  else .ok (outputs A n xs, { n with corrected := n.corrected + credit n xs.length })

/-- Forward passes one after the other: the outputs, the counters after each pass, and the network (radiation_stress_test.cpp:368-370, 380-418). -/
noncomputable def passes (A : Arith) (r : ℝ) : Net → List (List F × Draws) → Outcome (List (List F × ℕ × ℕ) × Net)
  | n, [] => .ok ([], n)
  | n, x :: xs => (forward A r x.2 n x.1).bind fun p => (passes A r p.2 xs).bind fun q => .ok ((p.1, p.2.total, p.2.corrected) :: q.1, q.2)

/-- One row of the result (radiation_stress_test.cpp:397-407) as far as it depends on the network: the output, its reference, and the counters. -/
structure Row where
  output : List F
  reference : List F
  total : ℕ
  corrected : ℕ

/-- `runRadiationTest` (radiation_stress_test.cpp:338-423) for given inputs, the draws of the reference passes and of the passes of the test. -/
noncomputable def runTest (A : Arith) (r : ℝ) (prot : Bool) (n : Net) (xs : List (List F × Draws × Draws)) : Outcome (List Row × Net) :=
  (passes A 0 { n with prot := true, total := 0, corrected := 0 } (xs.map fun x => (x.1, x.2.1))).bind fun p =>
  (passes A r { p.2 with prot := prot, total := 0, corrected := 0 } (xs.map fun x => (x.1, x.2.2))).bind fun q =>
  .ok (List.zipWith (fun ref o => ⟨o.1, ref.1, o.2.1, o.2.2⟩) p.1 q.1, q.2)

/-- The tests of `main` (radiation_stress_test.cpp:521-562): a list of intensities and switches, on one network. -/
noncomputable def runTests (A : Arith) : Net → List (ℝ × Bool × List (List F × Draws × Draws)) → Outcome (List (List Row) × Net)
  | n, [] => .ok ([], n)
  | n, t :: ts => (runTest A t.1 t.2.1 n t.2.2).bind fun p => (runTests A p.2 ts).bind fun q => .ok (p.1 :: q.1, q.2)

end Verif.RadStress
