import Verif.Model.RadStress
import Verif.Spec.Bits
import Verif.Lemmas.Bits
import Mathlib.Tactic.Linarith
import Mathlib.Tactic.NormNum
import Mathlib.Tactic.Ring
/-!
C298–C300: the radiation stress test of test/verification.
-/
namespace Verif.Props.RadStress
open Verif.RadStress Verif.Spec

/-! ### Floats -/

theorem sum_const {β : Type} (l : List β) (f : β → ℕ) (c : ℕ) (h : ∀ x ∈ l, f x = c) : (l.map f).sum = l.length * c := by
  induction l with
  | nil => simp
  | cons x l ih =>
    simp only [List.map_cons, List.sum_cons, List.length_cons, ih (fun y hy => h y (by simp [hy])), h x (by simp)]
    ring

theorem zero_iff (x : F) : f32isZero x = true ↔ ∀ i < 31, x.getLsbD i = false := by
  have e : f32isZero x = true ↔ x.toNat % 2 ^ 31 = 0 := by
    simp only [f32isZero, f32exp, f32man, Bool.and_eq_true, beq_iff_eq]
    have := x.isLt
    omega
  rw [e]
  constructor
  · intro h i hi
    have : (x.toNat % 2 ^ 31).testBit i = false := by rw [h]; exact Nat.zero_testBit i
    rw [Nat.testBit_mod_two_pow] at this
    simpa [hi, BitVec.getLsbD] using this
  · intro h
    apply Nat.eq_of_testBit_eq
    intro i
    rw [Nat.testBit_mod_two_pow, Nat.zero_testBit]
    by_cases hi : i < 31
    · simpa [BitVec.getLsbD] using fun _ => h i hi
    · simp [hi]

theorem eq_cases {a b : F} (h : f32eq a b = true) : a = b ∨ f32isZero a = true ∧ f32isZero b = true := by
  simp only [f32eq, Bool.and_eq_true, Bool.or_eq_true, beq_iff_eq] at h
  exact h.2

theorem eq_comm' (a b : F) : f32eq a b = f32eq b a := by
  unfold f32eq
  have : (a == b) = (b == a) := by
    by_cases h : a = b
    · rw [h]
    · simp [h, Ne.symm h]
  rw [this, Bool.and_comm (!f32isNaN a), Bool.and_comm (f32isZero a)]

theorem eq_self {a : F} (h : f32isNaN a = false) : f32eq a a = true := by simp [f32eq, h]

theorem eq_nan {a b : F} (h : f32eq a a = false) : f32eq a b = false ∧ f32eq b a = false := by
  have : f32isNaN a = true := by
    cases hn : f32isNaN a
    · rw [eq_self hn] at h; exact absurd h (by decide)
    · rfl
  simp [f32eq, this]

theorem nan_nonzero {a : F} (h : f32isZero a = true) : f32isNaN a = false := by
  simp only [f32isZero, Bool.and_eq_true, beq_iff_eq] at h
  simp [f32isNaN, h.1]

/-! ### C298: the vote -/

theorem vote_two {x a b c : F} (h : TwoAgree x a b c) : SameValue f32eq (vote true a b c).1 x := by
  have hb := bitLevelVote_twoAgree h
  unfold vote
  rw [if_neg (by decide)]
  cases hab : f32eq a b <;> cases hac : f32eq a c <;> cases hbc : f32eq b c <;> simp only [Bool.false_eq_true, or_false, false_or, or_true, true_or, or_self, if_true, if_false]
  · exact Or.inl hb
  all_goals
    rcases h with ⟨h1, h2⟩ | ⟨h1, h2⟩ | ⟨h1, h2⟩
    all_goals subst h1; subst h2
    all_goals first
      | exact Or.inl rfl
      | exact Or.inr hab
      | exact Or.inr hac
      | exact Or.inr hbc
      | (rw [eq_comm'] at hbc; exact Or.inr hbc)

theorem same_exact {r x : F} (h : SameValue f32eq r x) (hz : f32isZero x = false) : r = x := by
  rcases h with h | h
  · exact h
  · rcases eq_cases h with h | h
    · exact h
    · rw [h.2] at hz; exact absurd hz (by decide)

theorem vote_exact {x a b c : F} (h : TwoAgree x a b c) (hz : f32isZero x = false) : (vote true a b c).1 = x := same_exact (vote_two h) hz

theorem disjoint_zero {v d e : F} (hd : d &&& e = 0#32) (h1 : f32isZero (v ^^^ d) = true) (h2 : f32isZero (v ^^^ e) = true) : f32isZero v = true := by
  rw [zero_iff] at *
  intro i hi
  have a := h1 i hi
  have b := h2 i hi
  have c : (d &&& e).getLsbD i = false := by rw [hd]; simp
  rw [BitVec.getLsbD_xor] at a b
  rw [BitVec.getLsbD_and] at c
  revert a b c
  cases v.getLsbD i <;> cases d.getLsbD i <;> cases e.getLsbD i <;> simp

theorem disjoint_eq {v d e : F} (hd : d &&& e = 0#32) (h : v ^^^ d = v ^^^ e) : v ^^^ d = v := by
  have : d = e := by
    apply BitVec.eq_of_getLsbD_eq
    intro i _
    have := congrArg (·.getLsbD i) h
    simp only [BitVec.getLsbD_xor] at this
    revert this
    cases v.getLsbD i <;> cases d.getLsbD i <;> cases e.getLsbD i <;> simp
  subst this
  have : d = 0#32 := by rw [← hd]; simp
  simp [this]

/-- **C298 (the vote).** With protection on, the value voted for is the value two of the three copies hold, whatever the third holds; it is also the original value if every copy
is damaged, as long as no bit is damaged in two copies. Both up to the sign of a zero. With protection off it is the first copy. -/
theorem C298_vote (v a b c d1 d2 d3 : F) :
    (TwoAgree v a b c → SameValue f32eq (vote true a b c).1 v) ∧
    (d1 &&& d2 = 0#32 → d1 &&& d3 = 0#32 → d2 &&& d3 = 0#32 → SameValue f32eq (vote true (v ^^^ d1) (v ^^^ d2) (v ^^^ d3)).1 v) ∧
    (vote false a b c).1 = a := by
  refine ⟨vote_two, ?_, rfl⟩
  intro h12 h13 h23
  have key : ∀ {d e : F}, d &&& e = 0#32 → f32eq (v ^^^ d) (v ^^^ e) = true → SameValue f32eq (v ^^^ d) v := by
    intro d e hd h
    rcases eq_cases h with h | ⟨h1, h2⟩
    · exact Or.inl (disjoint_eq hd h)
    · have hv := disjoint_zero hd h1 h2
      refine Or.inr ?_
      simp [f32eq, nan_nonzero h1, nan_nonzero hv, h1, hv]
  unfold vote
  rw [if_neg (by decide)]
  split
  · split
    · exact key h12 ‹_›
    · split
      · exact key h13 ‹_›
      · rename_i h hab hac
        rcases h with h | h | h
        · exact absurd h hab
        · exact absurd h hac
        · exact key h23 h
  · refine Or.inl ?_
    apply BitVec.eq_of_getLsbD_eq
    intro i _
    have c12 : (d1 &&& d2).getLsbD i = false := by rw [h12]; simp
    have c13 : (d1 &&& d3).getLsbD i = false := by rw [h13]; simp
    have c23 : (d2 &&& d3).getLsbD i = false := by rw [h23]; simp
    rw [BitVec.getLsbD_and] at c12 c13 c23
    rw [getLsbD_bitLevelVote]
    simp only [BitVec.getLsbD_xor]
    revert c12 c13 c23
    cases v.getLsbD i <;> cases d1.getLsbD i <;> cases d2.getLsbD i <;> cases d3.getLsbD i <;> simp [maj3]

example : (0x100#32 &&& 0x200#32 = 0#32) ∧ vote true (0x3F800000#32 ^^^ 0x100#32) (0x3F800000#32 ^^^ 0x200#32) (0x3F800000#32 ^^^ 0x400#32) = (0x3F800000#32, 3) := by decide +kernel

/-! ### The network -/

/-- The outputs of a network without redundancy. -/
def plain (A : Arith) (h o : ℕ) (v : Addr → F) (xs : List F) : List F :=
  (List.range o).map fun k => neuron A (v (.b2 k)) (fun j => v (.w2 j k))
    ((List.range h).map fun j => A.relu (neuron A (v (.b1 j)) (fun i => v (.w1 i j)) xs))

theorem mem_addrs (n : Net) (a : Addr) : a ∈ n.addrs ↔ match a with
    | .w1 i j => i < n.inp ∧ j < n.hid
    | .b1 j => j < n.hid
    | .w2 j k => j < n.hid ∧ k < n.out
    | .b2 k => k < n.out := by
  cases a <;> simp [Net.addrs]

theorem neuron_congr (A : Arith) (b : F) {w w' : ℕ → F} (xs : List F) (h : ∀ j < xs.length, w j = w' j) : neuron A b w xs = neuron A b w' xs := by
  unfold neuron
  have : ∀ (l : List (F × ℕ)), (∀ x ∈ l, x.2 < xs.length) → ∀ acc, l.foldl (fun acc x => A.add acc (A.mul x.1 (w x.2))) acc = l.foldl (fun acc x => A.add acc (A.mul x.1 (w' x.2))) acc := by
    intro l
    induction l with
    | nil => intro _ _; rfl
    | cons x l ih =>
      intro hl acc
      simp only [List.foldl_cons]
      rw [h x.2 (hl x (by simp)), ih (fun y hy => hl y (by simp [hy]))]
  apply this
  intro x hx
  have := List.mem_zipIdx hx
  simp at this
  exact this.1

theorem hidden_length (A : Arith) (n : Net) (xs : List F) : (hiddenLayer A n xs).length = n.hid := by simp [hiddenLayer]

theorem outputs_eq (A : Arith) (n : Net) (v : Addr → F) (xs : List F) (hx : xs.length ≤ n.inp) (h : ∀ a ∈ n.addrs, (n.read a).1 = v a) :
    outputs A n xs = plain A n.hid n.out v xs := by
  have hh : hiddenLayer A n xs = (List.range n.hid).map fun j => A.relu (neuron A (v (.b1 j)) (fun i => v (.w1 i j)) xs) := by
    unfold hiddenLayer
    apply List.map_congr_left
    intro j hj
    rw [List.mem_range] at hj
    rw [h (.b1 j) ((mem_addrs n _).2 hj)]
    congr 1
    apply neuron_congr
    intro i hi
    exact h (.w1 i j) ((mem_addrs n _).2 ⟨by omega, hj⟩)
  unfold outputs plain
  apply List.map_congr_left
  intro k hk
  rw [List.mem_range] at hk
  rw [h (.b2 k) ((mem_addrs n _).2 hk), ← hh]
  apply neuron_congr
  intro j hj
  rw [hidden_length] at hj
  exact h (.w2 j k) ((mem_addrs n _).2 ⟨hj, hk⟩)

theorem radiate_addrs (r : ℝ) (d : Draws) (n : Net) : (radiate r d n).addrs = n.addrs := rfl

/-- The draws are numbers of the distribution: not negative, less than one. -/
def Valid (d : Draws) : Prop := ∀ a, (0 ≤ (d.d1 a).u ∧ (d.d1 a).u < 1) ∧ (0 ≤ (d.d2 a).u ∧ (d.d2 a).u < 1) ∧ (0 ≤ (d.d3 a).u ∧ (d.d3 a).u < 1)

theorem strike_none {p : ℝ} {s : Strike} {b : Bool} (v : F) (h : ¬ s.u < p) : strike p b s v = v := by rw [strike, if_neg h]

theorem radiate_zero {d : Draws} (hd : Valid d) (n : Net) : radiate 0 d n = n := by
  have h1 : ∀ a, ¬ (d.d1 a).u < flipProb 0 := fun a => by have := (hd a).1.1; unfold flipProb; linarith
  have h2 : ∀ a, ¬ (d.d2 a).u < flipProb 0 := fun a => by have := (hd a).2.1.1; unfold flipProb; linarith
  have h3 : ∀ a, ¬ (d.d3 a).u < flipProb 0 * (1 / 2) := fun a => by have := (hd a).2.2.1; unfold flipProb; linarith
  have hh : ∀ a, hits 0 d a = 0 := fun a => by simp only [hits, h1, h2, h3, if_false]
  have hs : (n.addrs.map (hits 0 d)).sum = 0 := by
    rw [sum_const _ _ 0 (fun a _ => hh a)]; rfl
  cases n
  simp only [radiate, hs, Nat.add_zero, strike_none _ (h1 _), strike_none _ (h2 _), strike_none _ (h3 _)]

/-- What an upset of at most one copy of a parameter leaves. -/
theorem radiate_two {r : ℝ} {d : Draws} {n : Net} {v : F} {a : Addr} (hv : n.c1 a = v ∧ n.c2 a = v ∧ n.c3 a = v) (h : hits r d a ≤ 1) :
    TwoAgree v ((radiate r d n).c1 a) ((radiate r d n).c2 a) ((radiate r d n).c3 a) := by
  obtain ⟨h1, h2, h3⟩ := hv
  unfold hits at h
  by_cases q1 : (d.d1 a).u < flipProb r <;> by_cases q2 : (d.d2 a).u < flipProb r <;> by_cases q3 : (d.d3 a).u < flipProb r * (1 / 2) <;>
    simp only [q1, q2, q3, if_true, if_false] at h <;> (try omega) <;> simp only [radiate, strike, q1, q2, q3, if_true, if_false, h1, h2, h3, TwoAgree] <;> simp

/-- **C298 (one copy of each parameter).** If all parameters hold non-zero values in all copies, and the radiation of a pass strikes at most one copy of each, then the pass with protection
computes what the undamaged network computes, for every intensity, arithmetic, size and input. -/
theorem C298_forward (A : Arith) (r : ℝ) (d : Draws) (n : Net) (v : Addr → F) (xs : List F) (hx : xs.length ≤ n.inp) (hp : n.prot = true)
    (hv : ∀ a ∈ n.addrs, n.c1 a = v a ∧ n.c2 a = v a ∧ n.c3 a = v a) (hz : ∀ a ∈ n.addrs, f32isZero (v a) = false) (h : ∀ a ∈ n.addrs, hits r d a ≤ 1) :
    ∃ n', forward A r d n xs = .ok (plain A n.hid n.out v xs, n') ∧ n'.prot = true ∧ n'.total = n.total + (n.addrs.map (hits r d)).sum := by
  have hc : ¬ ((radiate r d n).inp < xs.length ∧ 0 < (radiate r d n).hid) := by
    rintro ⟨h, _⟩
    exact absurd h (by show ¬ n.inp < xs.length; omega)
  have ho := outputs_eq A (radiate r d n) v xs hx (by
    intro a ha
    unfold Net.read
    rw [show (radiate r d n).prot = true from hp]
    exact vote_exact (radiate_two (hv a ha) (h a ha)) (hz a ha))
  refine ⟨{ radiate r d n with corrected := (radiate r d n).corrected + credit (radiate r d n) xs.length }, ?_, hp, rfl⟩
  unfold forward
  dsimp only
  rw [if_neg hc, ho]
  rfl

/-- A strike that misses, and one that flips bit `k`. -/
def miss : Strike := ⟨1, 1, fun _ => 0⟩
/-- See `miss`. -/
def flip (k : ℕ) : Strike := ⟨0, 1, fun _ => k⟩

theorem flip_hit {p : ℝ} (hp : 0 < p) (b : Bool) (k : ℕ) (v : F) : strike p b (flip k) v = v ^^^ (1#32 <<< k) := by
  rw [strike, if_pos (show (flip k).u < p from hp)]
  simp [simulateBitFlip, flip, flipAll]

theorem miss_hit {p : ℝ} (hp : p ≤ 1) (b : Bool) (v : F) : strike p b miss v = v := by
  rw [strike, if_neg (show ¬ miss.u < p from not_lt.2 hp)]

example : (create 1 1 1 fun _ => 0x3F800000#32).addrs.length = 4 ∧ (∀ a, hits 10 ⟨fun _ => flip 3, fun _ => miss, fun _ => miss⟩ a ≤ 1) := by
  refine ⟨rfl, fun a => ?_⟩
  unfold hits flipProb flip miss
  norm_num

/-- **C298, violated (no repair).** A pass never writes back what it voted for: the copies it leaves are the copies as they were struck. So an upset of one copy in one pass and of another
copy of the same bit in a later pass give the wrong value, although each pass met at most one damaged copy more than the one before. -/
theorem C298_repair_violated :
    (∀ (A : Arith) (r : ℝ) (d : Draws) (n : Net) (xs out : List F) (n' : Net), forward A r d n xs = .ok (out, n') →
      n'.c1 = (radiate r d n).c1 ∧ n'.c2 = (radiate r d n).c2 ∧ n'.c3 = (radiate r d n).c3) ∧
    (∀ (n : Net) (v : Addr → F) (a : Addr) (k : ℕ) (r : ℝ), n.prot = true → n.c1 = v → n.c2 = v → n.c3 = v → k < 32 → f32isZero (v a ^^^ (1#32 <<< k)) = false → 0 < r → r ≤ 100 →
      ∃ d d' : Draws, (∀ b, hits r d b ≤ 1) ∧ (∀ b, hits r d' b ≤ 1) ∧ ((radiate r d' (radiate r d n)).read a).1 = v a ^^^ (1#32 <<< k) ∧ v a ^^^ (1#32 <<< k) ≠ v a) := by
  constructor
  · intro A r d n xs out n' h
    unfold forward at h
    dsimp only at h
    split at h
    · cases h
    · obtain ⟨_, rfl⟩ := Prod.mk.inj (Outcome.ok.inj h)
      exact ⟨rfl, rfl, rfl⟩
  · intro n v a k r hp h1 h2 h3 hk hz hr hr'
    have p0 : 0 < flipProb r := by unfold flipProb; linarith
    have p1 : flipProb r ≤ 1 := by unfold flipProb; linarith
    have q1 : flipProb r * (1 / 2) ≤ 1 := by linarith
    have n1 : ¬ (1 : ℝ) < flipProb r := by linarith
    have n2 : ¬ (1 : ℝ) < flipProb r * (1 / 2) := by linarith
    refine ⟨⟨fun _ => flip k, fun _ => miss, fun _ => miss⟩, ⟨fun _ => miss, fun _ => flip k, fun _ => miss⟩, ?_, ?_, ?_, ?_⟩
    · intro b; simp only [hits, flip, miss, n1, n2, p0, if_true, if_false]; omega
    · intro b; simp only [hits, flip, miss, n1, n2, p0, if_true, if_false]; omega
    · unfold Net.read
      rw [show (radiate r ⟨fun _ => miss, fun _ => flip k, fun _ => miss⟩ (radiate r ⟨fun _ => flip k, fun _ => miss, fun _ => miss⟩ n)).prot = true from hp]
      apply vote_exact _ hz
      refine Or.inl ⟨?_, ?_⟩
      · simp only [radiate, flip_hit p0, miss_hit p1, h1]
      · simp only [radiate, flip_hit p0, miss_hit p1, h2]
    · intro h
      have := congrArg (·.getLsbD k) h
      simp only [BitVec.getLsbD_xor, getLsbD_one_shiftLeft hk, decide_true] at this
      revert this
      cases (v a).getLsbD k <;> simp

example : (15 : ℕ) < 32 ∧ f32isZero (0x3F800000#32 ^^^ (1#32 <<< 15)) = false ∧ (0 : ℝ) < 50 ∧ (50 : ℝ) ≤ 100 := by
  refine ⟨by decide, by decide, by norm_num, by norm_num⟩

/-! ### C299: the counters -/

theorem bit_ne (a b c : F) (i : ℕ) (hi : i < 32) :
    (Voting.bit a i ≠ (Voting.bit a i &&& Voting.bit b i) ||| (Voting.bit a i &&& Voting.bit c i) ||| (Voting.bit b i &&& Voting.bit c i) ∨
     Voting.bit b i ≠ (Voting.bit a i &&& Voting.bit b i) ||| (Voting.bit a i &&& Voting.bit c i) ||| (Voting.bit b i &&& Voting.bit c i) ∨
     Voting.bit c i ≠ (Voting.bit a i &&& Voting.bit b i) ||| (Voting.bit a i &&& Voting.bit c i) ||| (Voting.bit b i &&& Voting.bit c i)) ↔
    ((a.getLsbD i == b.getLsbD i && b.getLsbD i == c.getLsbD i) = false) := by
  have e : ∀ x : F, Voting.bit x i = if x.getLsbD i then 1#32 else 0#32 := by
    intro x
    apply BitVec.eq_of_getLsbD_eq
    intro j hj
    rw [getLsbD_bit]
    cases x.getLsbD i <;> simp [BitVec.getLsbD_one]
  rw [e a, e b, e c]
  cases a.getLsbD i <;> cases b.getLsbD i <;> cases c.getLsbD i <;> simp

theorem splitBits_eq (a b c : F) : splitBits a b c = countTrue (fun i => !(a.getLsbD i == b.getLsbD i && b.getLsbD i == c.getLsbD i)) 32 := by
  have : ∀ n ≤ 32, forN n (fun i k => if Voting.bit a i ≠ (Voting.bit a i &&& Voting.bit b i) ||| (Voting.bit a i &&& Voting.bit c i) ||| (Voting.bit b i &&& Voting.bit c i) ∨
     Voting.bit b i ≠ (Voting.bit a i &&& Voting.bit b i) ||| (Voting.bit a i &&& Voting.bit c i) ||| (Voting.bit b i &&& Voting.bit c i) ∨
     Voting.bit c i ≠ (Voting.bit a i &&& Voting.bit b i) ||| (Voting.bit a i &&& Voting.bit c i) ||| (Voting.bit b i &&& Voting.bit c i) then k + 1 else k) 0 =
     countTrue (fun i => !(a.getLsbD i == b.getLsbD i && b.getLsbD i == c.getLsbD i)) n := by
    intro n
    induction n with
    | zero => intro _; rfl
    | succ n ih =>
      intro hn
      rw [forN, ih (by omega), countTrue]
      have := bit_ne a b c n (by omega)
      split
      · rename_i h; simp [this.1 h]
      · rename_i h
        have h' : (a.getLsbD n == b.getLsbD n && b.getLsbD n == c.getLsbD n) = true := by
          by_contra hc
          exact h (this.2 (by simpa using hc))
        rw [h']; rfl
  exact this 32 le_rfl

/-- **C299 (what a vote counts).** Nothing without protection; one if two copies are equal; otherwise the bits on which the copies are not unanimous. -/
theorem C299_vote_counter (a b c : F) :
    (vote false a b c).2 = 0 ∧
    (f32eq a b = true ∨ f32eq a c = true ∨ f32eq b c = true → (vote true a b c).2 = 1) ∧
    (f32eq a b = false → f32eq a c = false → f32eq b c = false → (vote true a b c).2 = countTrue (fun i => !(a.getLsbD i == b.getLsbD i && b.getLsbD i == c.getLsbD i)) 32) := by
  refine ⟨rfl, ?_, ?_⟩
  · intro h
    unfold vote
    rw [if_neg (by decide), if_pos h]
    split
    · rfl
    · split <;> rfl
  · intro h1 h2 h3
    unfold vote
    rw [if_neg (by decide), h1, h2, h3]
    simp [splitBits_eq]

/-- **C299 (totals).** `totalErrors` grows by the number of copies struck, `correctedErrors` by the credits of the votes; without protection the latter does not change. -/
theorem C299_totals (A : Arith) (r : ℝ) (d : Draws) (n : Net) (xs out : List F) (n' : Net) (h : forward A r d n xs = .ok (out, n')) :
    n'.total = n.total + (n.addrs.map (hits r d)).sum ∧ n'.corrected = n.corrected + credit (radiate r d n) xs.length ∧ (n.prot = false → n'.corrected = n.corrected) := by
  unfold forward at h
  dsimp only at h
  split at h
  · cases h
  · obtain ⟨_, rfl⟩ := Prod.mk.inj (Outcome.ok.inj h)
    refine ⟨rfl, rfl, ?_⟩
    intro hp
    have : ∀ a, ((radiate r d n).read a).2 = 0 := by
      intro a
      unfold Net.read
      rw [show (radiate r d n).prot = false from hp]
      rfl
    show n.corrected + credit (radiate r d n) xs.length = n.corrected
    have hz : ∀ (l : List ℕ) (f : ℕ → ℕ), (∀ x ∈ l, f x = 0) → (l.map f).sum = 0 := by
      intro l f hf
      rw [sum_const _ _ 0 hf]; rfl
    have : credit (radiate r d n) xs.length = 0 := by
      unfold credit
      rw [hz _ _ (fun i _ => by rw [this, hz _ _ (fun j _ => this _)]), hz _ _ (fun i _ => by rw [this, hz _ _ (fun j _ => this _)])]
    omega

/-- **C299, violated.** A pass on an undamaged network without any radiation counts one corrected error for every value it reads, although there was no error: for the network of
the program (8, 16, 4) 212 in each pass. And a strike that flips the same bit twice is counted although it changes nothing. -/
theorem C299_clean_violated :
    (∀ (A : Arith) (d : Draws) (n : Net) (v : Addr → F) (xs : List F), Valid d → n.prot = true → n.c1 = v → n.c2 = v → n.c3 = v → (∀ a, f32isNaN (v a) = false) → xs.length ≤ n.inp →
      ∃ out n', forward A 0 d n xs = .ok (out, n') ∧ n'.total = n.total ∧ n'.corrected = n.corrected + (n.hid * (1 + xs.length) + n.out * (1 + n.hid))) ∧
    (16 * (1 + 8) + 4 * (1 + 16) = 212) ∧
    (∀ (p : ℝ) (k : ℕ) (v : F), 0 < p → strike p false ⟨0, 2, fun _ => k⟩ v = v) := by
  refine ⟨?_, by norm_num, ?_⟩
  · intro A d n v xs hd hp h1 h2 h3 hv hx
    have hr := radiate_zero hd n
    refine ⟨outputs A n xs, { n with corrected := n.corrected + credit n xs.length }, ?_, rfl, ?_⟩
    · unfold forward
      dsimp only
      rw [hr, if_neg (by omega)]
    · show n.corrected + credit n xs.length = _
      have one : ∀ a, (n.read a).2 = 1 := by
        intro a
        unfold Net.read
        rw [hp, h1, h2, h3]
        exact (C299_vote_counter _ _ _).2.1 (Or.inl (eq_self (hv a)))
      unfold credit
      rw [sum_const _ _ (1 + xs.length) (fun i _ => by rw [one, sum_const _ _ 1 (fun j _ => one _)]; simp),
        sum_const _ _ (1 + n.hid) (fun i _ => by rw [one, sum_const _ _ 1 (fun j _ => one _)]; simp)]
      simp
  · intro p k v hp
    rw [strike, if_pos hp]
    show (v ^^^ (1#32 <<< k)) ^^^ (1#32 <<< k) = v
    rw [BitVec.xor_assoc, BitVec.xor_self, BitVec.xor_zero]

example : Valid ⟨fun _ => ⟨1 / 2, 1, fun _ => 0⟩, fun _ => ⟨1 / 2, 1, fun _ => 0⟩, fun _ => ⟨1 / 2, 1, fun _ => 0⟩⟩ := by
  intro a; norm_num

/-! ### C300: the tests -/

theorem addrs_length (n : Net) : n.addrs.length = n.inp * n.hid + n.hid + n.hid * n.out + n.out := by
  simp only [Net.addrs, List.length_append, List.length_flatMap, List.length_map, List.length_range]
  rw [sum_const _ _ n.hid (fun _ _ => rfl), sum_const _ _ n.out (fun _ _ => rfl), List.length_range, List.length_range]

/-- **C300 (intensity 100).** From intensity 100 on every pass strikes copies 1 and 2 of every parameter, whatever is drawn: the counter grows by at least two for each of the parameters. -/
theorem C300_saturated (A : Arith) (r : ℝ) (hr : 100 ≤ r) (d : Draws) (hd : Valid d) (n : Net) (xs out : List F) (n' : Net) (h : forward A r d n xs = .ok (out, n')) :
    (∀ a, n'.c1 a = simulateBitFlip (n.c1 a) (d.d1 a) false ∧ n'.c2 a = simulateBitFlip (n.c2 a) (d.d2 a) true) ∧
    n.total + 2 * (n.inp * n.hid + n.hid + n.hid * n.out + n.out) ≤ n'.total := by
  have p1 : 1 ≤ flipProb r := by unfold flipProb; linarith
  have u1 : ∀ a, (d.d1 a).u < flipProb r := fun a => lt_of_lt_of_le (hd a).1.2 p1
  have u2 : ∀ a, (d.d2 a).u < flipProb r := fun a => lt_of_lt_of_le (hd a).2.1.2 p1
  have ht := (C299_totals A r d n xs out n' h).1
  have hc := C298_repair_violated.1 A r d n xs out n' h
  constructor
  · intro a
    rw [hc.1, hc.2.1]
    exact ⟨by simp only [radiate, strike, u1, if_true], by simp only [radiate, strike, u2, if_true]⟩
  · rw [ht, ← addrs_length]
    have : ∀ l : List Addr, 2 * l.length ≤ (l.map (hits r d)).sum := by
      intro l
      induction l with
      | nil => simp
      | cons a l ih =>
        have : 2 ≤ hits r d a := by simp only [hits, u1, u2, if_true]; omega
        simp only [List.map_cons, List.sum_cons, List.length_cons]
        omega
    exact Nat.add_le_add_left (this _) _

/-- Passes without radiation do not change the copies, and compute one after the other what the first would compute. -/
theorem passes_zero (A : Arith) : ∀ (xs : List (List F × Draws)) (n : Net), (∀ x ∈ xs, Valid x.2 ∧ x.1.length ≤ n.inp) →
    ∃ l n', passes A 0 n xs = .ok (l, n') ∧ l.map (·.1) = xs.map (fun x => outputs A n x.1) ∧ n'.c1 = n.c1 ∧ n'.c2 = n.c2 ∧ n'.c3 = n.c3 ∧ n'.inp = n.inp ∧ n'.hid = n.hid ∧ n'.out = n.out ∧
      n'.total = n.total ∧ n'.prot = n.prot := by
  intro xs
  induction xs with
  | nil => intro n _; exact ⟨[], n, rfl, rfl, rfl, rfl, rfl, rfl, rfl, rfl, rfl, rfl⟩
  | cons x xs ih =>
    intro n h
    have hx := h x (by simp)
    obtain ⟨l, n', e, e1, e2, e3, e4, e5, e6, e7, e8, e9⟩ := ih { n with corrected := n.corrected + credit n x.1.length } (fun y hy => h y (by simp [hy]))
    have hf : forward A 0 x.2 n x.1 = .ok (outputs A n x.1, { n with corrected := n.corrected + credit n x.1.length }) := by
      unfold forward
      dsimp only
      rw [radiate_zero hx.1, if_neg (by omega)]
    refine ⟨(outputs A n x.1, n.total, n.corrected + credit n x.1.length) :: l, n', ?_, ?_, e2, e3, e4, e5, e6, e7, e8, e9⟩
    · rw [passes, hf]
      show (passes A 0 { n with corrected := n.corrected + credit n x.1.length } xs).bind _ = _
      rw [e]
      rfl
    · rw [List.map_cons, List.map_cons, e1]
      rfl

theorem passes_sizes (A : Arith) (r : ℝ) : ∀ (xs : List (List F × Draws)) (n : Net), (∀ x ∈ xs, x.1.length ≤ n.inp) →
    ∃ l n', passes A r n xs = .ok (l, n') ∧ l.length = xs.length ∧ n'.inp = n.inp ∧ n'.hid = n.hid ∧ n'.out = n.out ∧ n'.prot = n.prot := by
  intro xs
  induction xs with
  | nil => intro n _; exact ⟨[], n, rfl, rfl, rfl, rfl, rfl, rfl⟩
  | cons x xs ih =>
    intro n h
    have hx := h x (by simp)
    have hf : forward A r x.2 n x.1 = .ok (outputs A (radiate r x.2 n) x.1, { radiate r x.2 n with corrected := (radiate r x.2 n).corrected + credit (radiate r x.2 n) x.1.length }) := by
      unfold forward
      dsimp only
      rw [if_neg (by rintro ⟨q, _⟩; exact absurd q (by show ¬ n.inp < _; omega))]
    obtain ⟨l, n', e, e1, e2, e3, e4, e5⟩ := ih { radiate r x.2 n with corrected := (radiate r x.2 n).corrected + credit (radiate r x.2 n) x.1.length } (fun y hy => h y (by simp [hy]))
    refine ⟨(outputs A (radiate r x.2 n) x.1, (radiate r x.2 n).total, (radiate r x.2 n).corrected + credit (radiate r x.2 n) x.1.length) :: l, n', ?_, by rw [List.length_cons, List.length_cons, e1], e2, e3, e4, e5⟩
    · rw [passes, hf]
      show (passes A r _ xs).bind _ = _
      rw [e]
      rfl

/-- **C300 (a test).** If the inputs fit, a test ends with one row for each input; the references are what the network computes as it is when the test begins, with the vote; and
at intensity 0 with protection every output is its reference. -/
theorem C300_test (A : Arith) (r : ℝ) (prot : Bool) (n : Net) (xs : List (List F × Draws × Draws)) (h : ∀ x ∈ xs, x.1.length ≤ n.inp ∧ Valid x.2.1 ∧ Valid x.2.2) :
    ∃ rows n', runTest A r prot n xs = .ok (rows, n') ∧ rows.length = xs.length ∧ rows.map (·.reference) = xs.map (fun x => outputs A { n with prot := true } x.1) ∧
      (r = 0 → rows.map (·.output) = xs.map (fun x => outputs A { n with prot := prot } x.1) ∧ n'.c1 = n.c1 ∧ n'.c2 = n.c2 ∧ n'.c3 = n.c3) ∧
      (r = 0 → prot = true → ∀ row ∈ rows, row.output = row.reference ∧ row.total = 0) := by
  have outs : ∀ (m m' : Net) (ys : List F), m.c1 = m'.c1 → m.c2 = m'.c2 → m.c3 = m'.c3 → m.hid = m'.hid → m.out = m'.out → m.prot = m'.prot → outputs A m ys = outputs A m' ys := by
    intro m m' ys q1 q2 q3 q4 q5 q6
    simp only [outputs, hiddenLayer, Net.read, q1, q2, q3, q4, q5, q6]
  obtain ⟨l, n1, e, e1, e2, e3, e4, e5, e6, e7, e8, e9⟩ := passes_zero A (xs.map fun x => (x.1, x.2.1)) { n with prot := true, total := 0, corrected := 0 } (by
    intro x hx
    obtain ⟨y, hy, rfl⟩ := List.mem_map.1 hx
    exact ⟨(h y hy).2.1, (h y hy).1⟩)
  have e1' : l.map (·.1) = xs.map (fun x => outputs A { n with prot := true } x.1) := by
    rw [e1, List.map_map]
    exact List.map_congr_left fun x _ => outs _ _ _ rfl rfl rfl rfl rfl rfl
  have hl : l.length = xs.length := by
    have := congrArg List.length e1
    simpa using this
  have hin : n1.inp = n.inp := e5
  obtain ⟨q, n2, f, f1, f2, f3, f4, f5⟩ := passes_sizes A r (xs.map fun x => (x.1, x.2.2)) { n1 with prot := prot, total := 0, corrected := 0 } (by
    intro x hx
    obtain ⟨y, hy, rfl⟩ := List.mem_map.1 hx
    show y.1.length ≤ n1.inp
    rw [hin]
    exact (h y hy).1)
  have hq : q.length = xs.length := by simpa using f1
  have hrun : runTest A r prot n xs = .ok (List.zipWith (fun ref o => (⟨o.1, ref.1, o.2.1, o.2.2⟩ : Row)) l q, n2) := by
    unfold runTest
    rw [e]
    show (passes A r { n1 with prot := prot, total := 0, corrected := 0 } _).bind _ = _
    rw [f]
    rfl
  have zr : ∀ (l : List (List F × ℕ × ℕ)) (q : List (List F × ℕ × ℕ)), l.length = q.length →
      (List.zipWith (fun ref o => (⟨o.1, ref.1, o.2.1, o.2.2⟩ : Row)) l q).map (·.reference) = l.map (·.1) ∧
      (List.zipWith (fun ref o => (⟨o.1, ref.1, o.2.1, o.2.2⟩ : Row)) l q).map (·.output) = q.map (·.1) ∧
      (List.zipWith (fun ref o => (⟨o.1, ref.1, o.2.1, o.2.2⟩ : Row)) l q).map (·.total) = q.map (·.2.1) := by
    intro l
    induction l with
    | nil => intro q hq; cases q <;> simp_all
    | cons a l ih =>
      intro q hq
      cases q with
      | nil => simp at hq
      | cons b q =>
        have := ih q (by simpa using hq)
        simp [this.1, this.2.1, this.2.2]
  have z := zr l q (by rw [hl, hq])
  have r0 : r = 0 → q.map (·.1) = xs.map (fun x => outputs A { n with prot := prot } x.1) ∧ n2.c1 = n.c1 ∧ n2.c2 = n.c2 ∧ n2.c3 = n.c3 := by
    rintro rfl
    obtain ⟨q', n2', g, g1, g2, g3, g4, g5, g6, g7, g8, g9⟩ := passes_zero A (xs.map fun x => (x.1, x.2.2)) { n1 with prot := prot, total := 0, corrected := 0 } (by
      intro x hx
      obtain ⟨y, hy, rfl⟩ := List.mem_map.1 hx
      refine ⟨(h y hy).2.2, ?_⟩
      show y.1.length ≤ n1.inp
      rw [hin]
      exact (h y hy).1)
    rw [f] at g
    obtain ⟨rfl, rfl⟩ := Prod.mk.inj (Outcome.ok.inj g)
    refine ⟨?_, g2.trans e2, g3.trans e3, g4.trans e4⟩
    rw [g1, List.map_map]
    exact List.map_congr_left fun x _ => outs _ _ _ e2 e3 e4 e6 e7 rfl
  have t0 : ∀ (xs : List (List F × Draws)) (m : Net), (∀ x ∈ xs, Valid x.2) → m.total = 0 → ∀ l m', passes A 0 m xs = .ok (l, m') → ∀ o ∈ l, o.2.1 = 0 := by
    intro xs
    induction xs with
    | nil =>
      intro m _ _ l m' hp
      obtain ⟨rfl, _⟩ := Prod.mk.inj (Outcome.ok.inj hp)
      simp
    | cons x xs ih =>
      intro m hv hm l m' hp
      rw [passes] at hp
      cases hf : forward A 0 x.2 m x.1 with
      | ub => rw [hf] at hp; cases hp
      | ok p =>
        rw [hf] at hp
        change (passes A 0 p.2 xs).bind _ = _ at hp
        have ht := (C299_totals A 0 x.2 m x.1 p.1 p.2 hf).1
        have h0 : (radiate 0 x.2 m).total = m.total := by rw [radiate_zero (hv x (by simp))]
        have hp0 : p.2.total = 0 := by rw [ht]; exact h0.trans hm
        cases hpp : passes A 0 p.2 xs with
        | ub => rw [hpp] at hp; cases hp
        | ok w =>
          rw [hpp] at hp
          obtain ⟨rfl, _⟩ := Prod.mk.inj (Outcome.ok.inj hp)
          intro o ho
          rcases List.mem_cons.1 ho with rfl | ho
          · exact hp0
          · exact ih p.2 (fun y hy => hv y (by simp [hy])) hp0 w.1 w.2 hpp o ho
  refine ⟨_, n2, hrun, by rw [List.length_zipWith, hl, hq, min_self], z.1.trans e1', fun hr => ⟨z.2.1.trans (r0 hr).1, (r0 hr).2⟩, ?_⟩
  intro hr hp row hrow
  subst hp
  have hm : (List.zipWith (fun ref o => (⟨o.1, ref.1, o.2.1, o.2.2⟩ : Row)) l q).map (·.reference) = (List.zipWith (fun ref o => (⟨o.1, ref.1, o.2.1, o.2.2⟩ : Row)) l q).map (·.output) := by
    rw [z.1, e1', z.2.1, (r0 hr).1]
  constructor
  · exact (List.map_inj_left.1 hm row hrow).symm
  · subst hr
    have ht := t0 _ _ (by
      intro x hx
      obtain ⟨y, hy, rfl⟩ := List.mem_map.1 hx
      exact (h y hy).2.2) rfl q n2 f
    have : row.total ∈ (List.zipWith (fun ref o => (⟨o.1, ref.1, o.2.1, o.2.2⟩ : Row)) l q).map (·.total) := List.mem_map_of_mem hrow
    rw [z.2.2] at this
    obtain ⟨o, ho, e⟩ := List.mem_map.1 this
    rw [← e]
    exact ht o ho

example : ∃ xs : List (List F × Draws × Draws), xs.length = 3 ∧ ∀ x ∈ xs, x.1.length ≤ (create 8 16 4 fun _ => 0x3F800000#32).inp ∧ Valid x.2.1 ∧ Valid x.2.2 := by
  refine ⟨List.replicate 3 ([0#32, 1#32], ⟨fun _ => ⟨1 / 2, 1, fun _ => 0⟩, fun _ => ⟨1 / 2, 1, fun _ => 0⟩, fun _ => ⟨1 / 2, 1, fun _ => 0⟩⟩,
    ⟨fun _ => ⟨1 / 2, 1, fun _ => 0⟩, fun _ => ⟨1 / 2, 1, fun _ => 0⟩, fun _ => ⟨1 / 2, 1, fun _ => 0⟩⟩), by simp, ?_⟩
  intro x hx
  obtain rfl := List.eq_of_mem_replicate hx
  refine ⟨by decide, ?_, ?_⟩ <;> intro a <;> norm_num

/-- **C300, violated (references).** "Reference outputs without radiation" are computed by the network as earlier tests left it, and nothing repairs it. After a test of one sample at intensity 100 that flips
the same bit in copies 1 and 2, the references of all later tests are those of a network with that bit flipped in every parameter. -/
theorem C300_reference_violated (A : Arith) (i h o : ℕ) (v : Addr → F) (k : ℕ) (hz : ∀ a, f32isZero (v a ^^^ (1#32 <<< k)) = false) (x : List F) (hx : x.length ≤ i)
    (r : ℝ) (prot : Bool) (xs : List (List F × Draws × Draws)) (hxs : ∀ y ∈ xs, y.1.length ≤ i ∧ Valid y.2.1 ∧ Valid y.2.2) :
    ∃ d d' : Draws, Valid d ∧ Valid d' ∧ ∃ rows₁ rows₂ n', runTests A (create i h o v) [(100, true, [(x, d, d')]), (r, prot, xs)] = .ok ([rows₁, rows₂], n') ∧
      rows₂.map (·.reference) = xs.map fun y => plain A h o (fun a => v a ^^^ (1#32 <<< k)) y.1 := by
  let s : Strike := ⟨1 / 2, 1, fun _ => k⟩
  have hs : ∀ (b : Bool) (w : F), simulateBitFlip w s b = w ^^^ (1#32 <<< k) := by intro b w; simp [simulateBitFlip, s, flipAll]
  have hv : Valid ⟨fun _ => s, fun _ => s, fun _ => s⟩ := by intro a; norm_num [s]
  refine ⟨⟨fun _ => s, fun _ => s, fun _ => s⟩, ⟨fun _ => s, fun _ => s, fun _ => s⟩, hv, hv, ?_⟩
  have z := radiate_zero hv { create i h o v with prot := true, total := 0, corrected := 0 }
  -- the first test
  have t1 : ∃ rows n1, runTest A 100 true (create i h o v) [(x, ⟨fun _ => s, fun _ => s, fun _ => s⟩, ⟨fun _ => s, fun _ => s, fun _ => s⟩)] = .ok (rows, n1) ∧
      (∀ a, n1.c1 a = v a ^^^ (1#32 <<< k)) ∧ (∀ a, n1.c2 a = v a ^^^ (1#32 <<< k)) ∧ n1.inp = i ∧ n1.hid = h ∧ n1.out = o := by
    obtain ⟨l, m, e, e1, e2, e3, e4, e5, e6, e7, e8, e9⟩ := passes_zero A [(x, ⟨fun _ => s, fun _ => s, fun _ => s⟩)] { create i h o v with prot := true, total := 0, corrected := 0 } (by
      intro y hy
      obtain rfl := List.mem_singleton.1 hy
      exact ⟨hv, hx⟩)
    obtain ⟨q, m2, f, f1, f2, f3, f4, f5⟩ := passes_sizes A 100 [(x, ⟨fun _ => s, fun _ => s, fun _ => s⟩)] { m with prot := true, total := 0, corrected := 0 } (by
      intro y hy
      obtain rfl := List.mem_singleton.1 hy
      show x.length ≤ m.inp
      rw [e5]
      exact hx)
    refine ⟨List.zipWith (fun ref o => (⟨o.1, ref.1, o.2.1, o.2.2⟩ : Row)) l q, m2, ?_, ?_⟩
    · unfold runTest
      show (passes A 0 { create i h o v with prot := true, total := 0, corrected := 0 } [(x, ⟨fun _ => s, fun _ => s, fun _ => s⟩)]).bind _ = _
      rw [e]
      show (passes A 100 { m with prot := true, total := 0, corrected := 0 } [(x, ⟨fun _ => s, fun _ => s, fun _ => s⟩)]).bind _ = _
      rw [f]
      rfl
    · rw [passes] at f
      cases hf : forward A 100 ⟨fun _ => s, fun _ => s, fun _ => s⟩ { m with prot := true, total := 0, corrected := 0 } x with
      | ub => rw [hf] at f; cases f
      | ok p =>
        rw [hf] at f
        obtain ⟨-, rfl⟩ := Prod.mk.inj (Outcome.ok.inj f)
        have sat := (C300_saturated A 100 le_rfl _ hv _ x p.1 p.2 hf).1
        refine ⟨fun a => ?_, fun a => ?_, f2.trans e5, f3.trans e6, f4.trans e7⟩
        · rw [(sat a).1, hs]
          show m.c1 a ^^^ _ = _
          rw [e2]
          rfl
        · rw [(sat a).2, hs]
          show m.c2 a ^^^ _ = _
          rw [e3]
          rfl
  obtain ⟨rows₁, n1, ht, c1, c2, hi, hh, ho⟩ := t1
  obtain ⟨rows₂, n2, ht2, -, href, -, -⟩ := C300_test A r prot n1 xs (by rw [hi]; exact hxs)
  refine ⟨rows₁, rows₂, n2, ?_, ?_⟩
  · rw [runTests, ht]
    show (runTests A n1 [(r, prot, xs)]).bind _ = _
    rw [runTests, ht2]
    rfl
  · rw [href]
    apply List.map_congr_left
    intro y hy
    have := outputs_eq A { n1 with prot := true } (fun a => v a ^^^ (1#32 <<< k)) y.1 (by show _ ≤ n1.inp; rw [hi]; exact (hxs y hy).1) (by
      intro a _
      exact vote_exact (Or.inl ⟨c1 a, c2 a⟩) (hz a))
    rw [this]
    show plain A n1.hid n1.out _ _ = _
    rw [hh, ho]

example : ∀ a : Addr, f32isZero ((fun _ : Addr => 0x3F800000#32) a ^^^ (1#32 <<< 30)) = false := fun _ => (by decide : f32isZero (0x3F800000#32 ^^^ (1#32 <<< 30)) = false)

/-- **C300, violated (inputs).** A sample with more values than the network has inputs is read past the end of the weights; a shorter one is accepted without a word. -/
theorem C300_inputs_violated (A : Arith) (r : ℝ) (d : Draws) (n : Net) (xs : List F) (hn : 0 < n.hid) :
    (forward A r d n xs = .ub ↔ n.inp < xs.length) := by
  unfold forward
  dsimp only
  constructor
  · intro h
    by_contra hc
    rw [if_neg (show ¬ ((radiate r d n).inp < xs.length ∧ 0 < (radiate r d n).hid) from fun q => hc q.1)] at h
    cases h
  · intro h
    rw [if_pos (show (radiate r d n).inp < xs.length ∧ 0 < (radiate r d n).hid from ⟨h, hn⟩)]

example : 0 < (create 8 16 4 fun _ => 0#32).hid := by decide

theorem flipAll_bit (bits : List ℕ) (hb : ∀ b ∈ bits, b < 32) (v : F) (j : ℕ) (hj : j < 32) : (flipAll v bits).getLsbD j = (v.getLsbD j ^^ decide (bits.count j % 2 = 1)) := by
  unfold flipAll
  induction bits generalizing v with
  | nil => simp
  | cons b l ih =>
    rw [List.foldl_cons, ih (fun c hc => hb c (by simp [hc])), List.count_cons]
    have hb' := hb b (by simp)
    have e : (v ^^^ 1#32 <<< b).getLsbD j = (v.getLsbD j ^^ decide (b = j)) := by
      rw [BitVec.getLsbD_xor]
      congr 1
      rw [BitVec.getLsbD_shiftLeft]
      by_cases h : b = j
      · subst h; simp [hj]
      · rcases Nat.lt_or_gt_of_ne h with g | g
        · have : ¬ j - b = 0 := by omega
          simp [h, BitVec.getLsbD_one, this]
        · simp [h, g]
    rw [e, Bool.xor_assoc]
    congr 1
    by_cases h : b = j
    · subst h
      rcases Nat.mod_two_eq_zero_or_one (l.count b) with g | g
      · have : (l.count b + 1) % 2 = 1 := by omega
        simp [g, this]
      · have : (l.count b + 1) % 2 = 0 := by omega
        simp [g, this]
    · simp [h]

/-- **C298 (flips).** A strike at several adjacent bits, at most 32, flips exactly the bits from the first drawn on, the bit after the highest being the lowest; any other strike flips the bits drawn an odd number of times. -/
theorem C298_flips (v : F) (s : Strike) (hb : ∀ i, s.bit i < 32) (j : ℕ) (hj : j < 32) :
    (2 ≤ s.n → s.n ≤ 32 → (simulateBitFlip v s true).getLsbD j = (v.getLsbD j ^^ decide ((j + 32 - s.bit 0) % 32 < s.n))) ∧
    (simulateBitFlip v s false).getLsbD j = (v.getLsbD j ^^ decide (((List.range s.n).map s.bit).count j % 2 = 1)) := by
  constructor
  · intro h2 h32
    unfold simulateBitFlip
    rw [if_pos ⟨rfl, by omega⟩, flipAll_bit _ (fun b h => by
      obtain ⟨i, _, rfl⟩ := List.mem_map.1 h
      exact Nat.mod_lt _ (by decide)) v j hj]
    have key : ∀ n, n ≤ 32 → ((List.range n).map fun i => (s.bit 0 + i) % 32).count j = if (j + 32 - s.bit 0) % 32 < n then 1 else 0 := by
      intro n
      induction n with
      | zero => intro _; simp
      | succ n ih =>
        intro hn
        have := hb 0
        rw [List.range_succ, List.map_append, List.count_append, ih (by omega)]
        simp only [List.map_cons, List.map_nil, List.count_singleton, beq_iff_eq]
        split_ifs <;> omega
    rw [key s.n h32]
    congr 1
    split_ifs with h <;> simp [h]
  · unfold simulateBitFlip
    rw [if_neg (by simp), flipAll_bit _ (fun b h => by
      obtain ⟨i, _, rfl⟩ := List.mem_map.1 h
      exact hb i) v j hj]

example : simulateBitFlip 0#32 ⟨0, 3, fun _ => 31⟩ true = 0x80000003#32 := by
  apply BitVec.eq_of_getLsbD_eq
  intro j hj
  rw [(C298_flips 0#32 ⟨0, 3, fun _ => 31⟩ (fun _ => (by decide : (31 : ℕ) < 32)) j hj).1 (by decide) (by decide)]
  revert j
  decide +kernel

end Verif.Props.RadStress
