import Verif.Model.Ieee754Test
import Verif.Props.SpaceTmr
import Mathlib.Tactic.Linarith
import Mathlib.Tactic.SplitIfs
import Mathlib.Data.Nat.Bitwise
/-! Properties C365–C369: the program that tests the voter on floating-point values. -/
namespace Verif.Props.Ieee
open Verif.Ieee
open Verif.STmr (Status)

/-! ### C365: bit flips -/

theorem tdiv8 (p : ℤ) (h : 0 ≤ p) : Int.tdiv p 8 = p / 8 := Int.tdiv_eq_ediv_of_nonneg h
theorem tmod8 (p : ℤ) (h : 0 ≤ p) : Int.tmod p 8 = p % 8 := Int.tmod_eq_emod_of_nonneg h

theorem flip_in {n : ℕ} (x : BitVec (8 * n)) (k : ℕ) (hk : k < 8 * n) : flipBit x (k : ℤ) = .ok (x ^^^ BitVec.twoPow (8 * n) k) := by
  unfold flipBit
  dsimp only
  rw [tdiv8 _ (by omega), tmod8 _ (by omega)]
  have h1 : 0 ≤ (k : ℤ) / 8 ∧ (k : ℤ) / 8 < n := by omega
  rw [if_pos h1, if_neg (by omega)]
  have e1 : ((k : ℤ) % 8).toNat = k % 8 := by omega
  have e2 : ((k : ℤ) / 8).toNat = k / 8 := by omega
  rw [e1, e2, ← BitVec.shiftLeft_add, Nat.mod_add_div, BitVec.twoPow]

/-- **C365 (one bit).** For a value of any size: a position inside the value flips exactly that bit; a position beyond it, or below -7, changes nothing; the positions from -7 to -1 are undefined behaviour (a shift by a negative amount). -/
theorem C365_flip {n : ℕ} (x : BitVec (8 * n)) (p : ℤ) :
    (0 ≤ p → p < 8 * n → ∃ y, flipBit x p = .ok y ∧ ∀ i : ℕ, i < 8 * n → y.getLsbD i = if (i : ℤ) = p then !x.getLsbD i else x.getLsbD i) ∧
    (8 * n ≤ p → flipBit x p = .ok x) ∧ (p ≤ -8 → flipBit x p = .ok x) ∧ (0 < n → -8 < p → p < 0 → flipBit x p = .ub) := by
  refine ⟨fun h0 h1 => ?_, fun h => ?_, fun h => ?_, fun hn h0 h1 => ?_⟩
  · obtain ⟨k, rfl⟩ := Int.eq_ofNat_of_zero_le h0
    have hk : k < 8 * n := by omega
    refine ⟨_, flip_in x k hk, fun i hi => ?_⟩
    rw [BitVec.getLsbD_xor, BitVec.getLsbD_twoPow]
    by_cases g : i = k
    · subst g; simp [hi]
    · have g' : ¬ ((i : ℤ) = (k : ℤ)) := by omega
      have g2 : ¬ k = i := fun h => g h.symm
      rw [if_neg g']
      simp [g2]
  · unfold flipBit
    dsimp only
    rw [tdiv8 _ (by omega), if_neg (by omega)]
  · unfold flipBit
    dsimp only
    rw [if_neg]
    intro ⟨g, _⟩
    have : p = 8 * Int.tdiv p 8 + Int.tmod p 8 := (Int.mul_tdiv_add_tmod p 8).symm
    have l : Int.tmod p 8 = -((-p) % 8) := by
      rw [← tmod8 _ (by omega), Int.neg_tmod, neg_neg]
    omega
  · unfold flipBit
    dsimp only
    have t : Int.tdiv p 8 = 0 := by
      have : Int.tdiv p 8 = -((-p) / 8) := by rw [← tdiv8 _ (by omega), Int.neg_tdiv, neg_neg]
      omega
    have l : Int.tmod p 8 = -((-p) % 8) := by
      rw [← tmod8 _ (by omega), Int.neg_tmod, neg_neg]
    rw [t, if_pos (by omega), if_pos (by omega)]

example : flipBit (n := 4) 0x3F800000#32 31 = .ok 0xBF800000#32 ∧ flipBit (n := 4) 0x3F800000#32 32 = .ok 0x3F800000#32 ∧ flipBit (n := 4) 0x3F800000#32 (-1) = .ub := by decide +kernel

/-- **C365 (two bits).** Two flips at the same position inside the value restore it; at different positions exactly those two bits change. -/
theorem C365_two_bits {n : ℕ} (x : BitVec (8 * n)) (p q : ℕ) (hp : p < 8 * n) (hq : q < 8 * n) :
    (p = q → injectTwoBitError x p q = .ok x) ∧
    (p ≠ q → ∃ y, injectTwoBitError x p q = .ok y ∧ ∀ i : ℕ, i < 8 * n → y.getLsbD i = if i = p ∨ i = q then !x.getLsbD i else x.getLsbD i) := by
  unfold injectTwoBitError
  rw [flip_in x p hp, Outcome.bind, flip_in _ q hq]
  refine ⟨fun h => ?_, fun h => ⟨_, rfl, fun i hi => ?_⟩⟩
  · subst h
    rw [BitVec.xor_assoc, BitVec.xor_self, BitVec.xor_zero]
  · rw [BitVec.getLsbD_xor, BitVec.getLsbD_xor, BitVec.getLsbD_twoPow, BitVec.getLsbD_twoPow]
    by_cases g1 : i = p
    · subst g1
      have : ¬ q = i := fun e => h e.symm
      simp [hi, this]
    · by_cases g2 : i = q
      · subst g2
        have : ¬ p = i := fun e => g1 e.symm
        simp [hi, this]
      · have a1 : ¬ p = i := fun e => g1 e.symm
        have a2 : ¬ q = i := fun e => g2 e.symm
        simp [g1, g2, a1, a2]

example : injectTwoBitError (n := 4) 0#32 5 10 = .ok 0x420#32 := by decide +kernel

/-! ### C366: the answer of the voter under test -/

variable (f : Fmt)

/-- `v` is one of the three and in the middle in numeric order: what is left of the sum of the keys without the least and the greatest. -/
def Median (a b c v : f.V) : Prop :=
  (v = a ∨ v = b ∨ v = c) ∧
  key f v = key f a + key f b + key f c - min (key f a) (min (key f b) (key f c)) - max (key f a) (max (key f b) (key f c))

theorem middle_median (a b c : f.V) : Median f a b c (middle f a b c) := by
  unfold middle Median
  by_cases h1 : key f b < key f a
  · by_cases h2 : key f c < key f a
    · by_cases h3 : key f c < key f b
      · simp only [h1, h2, h3, if_true]; exact ⟨by simp, by omega⟩
      · simp only [h1, h2, h3, if_true, if_false]; exact ⟨by simp, by omega⟩
    · have h1' : ¬ key f a < key f b := by omega
      simp only [h1, h2, h1', if_true, if_false]; exact ⟨by simp, by omega⟩
  · by_cases h3 : key f c < key f b
    · by_cases h2 : key f c < key f a
      · simp only [h1, h2, h3, if_true, if_false]; exact ⟨by simp, by omega⟩
      · simp only [h1, h2, h3, if_true, if_false]; exact ⟨by simp, by omega⟩
    · simp only [h1, h3, if_false]; exact ⟨by simp, by omega⟩

theorem create_vals (crc : f.V → BitVec 32) (a b c : f.V) :
    (create f crc a b c).vals 0 = a ∧ (create f crc a b c).vals 1 = b ∧ (create f crc a b c).vals 2 = c ∧ ∀ i, ETmr.verifyChecksum crc (create f crc a b c) i = true := by
  refine ⟨rfl, rfl, rfl, fun i => ?_⟩
  simp [create, ETmr.verifyChecksum, ETmr.recalculateChecksums]

/-- What the voter returns. -/
theorem ask_eq (special : f.V → f.V → f.V → Outcome f.V) (crc : f.V → BitVec 32) (a b c : f.V) :
    ask f special crc a b c =
      (if eq f a b then .ok a else if eq f a c then .ok a else if eq f b c then .ok b else fallback f special a b c : Outcome f.V).bind fun v => .ok (Status.success, v) := by
  obtain ⟨h0, h1, h2, hv⟩ := create_vals f crc a b c
  unfold ask STmr.get
  have hn : ETmr.validCount crc (create f crc a b c) = 3 := by simp [ETmr.validCount, hv]
  dsimp only
  rw [hn, if_pos rfl]
  dsimp only [STmr.performMajorityVoting]
  rw [h0, h1, h2]
  by_cases e1 : eq f a b = true
  · simp only [if_pos e1, Outcome.bind]
  · by_cases e2 : eq f a c = true
    · simp only [if_neg e1, if_pos e2, Outcome.bind]
    · by_cases e3 : eq f b c = true
      · simp only [if_neg e1, if_neg e2, if_pos e3, Outcome.bind]
      · simp only [if_neg e1, if_neg e2, if_neg e3]
        cases fallback f special a b c <;> rfl

/-- **C366 (answer).** For every format, triple of values and checksum function: the voter never reports anything but success to the test; if two of the values are equal it returns one of the two; if all are finite and different it returns the one in the middle. -/
theorem C366_answer (special : f.V → f.V → f.V → Outcome f.V) (crc : f.V → BitVec 32) (a b c : f.V) :
    (∀ st v, ask f special crc a b c = .ok (st, v) → st = .success) ∧
    (∀ x y, eq f x y = true → (x = a ∧ y = b) ∨ (x = a ∧ y = c) ∨ (x = b ∧ y = c) → ∃ v, ask f special crc a b c = .ok (.success, v) ∧ eq f v x = true) ∧
    (finite f a = true → finite f b = true → finite f c = true → eq f a b = false → eq f a c = false → eq f b c = false →
      ∃ v, ask f special crc a b c = .ok (.success, v) ∧ Median f a b c v) := by
  have refl : ∀ {x y : f.V}, eq f x y = true → eq f x x = true := by
    intro x y h
    unfold eq at h ⊢
    simp only [Bool.and_eq_true, decide_eq_true_eq] at h ⊢
    exact ⟨⟨h.1.1, h.1.1⟩, trivial⟩
  have symm : ∀ {x y : f.V}, eq f x y = true → eq f y x = true := by
    intro x y h
    unfold eq at h ⊢
    simp only [Bool.and_eq_true, decide_eq_true_eq] at h ⊢
    exact ⟨⟨h.1.2, h.1.1⟩, h.2.symm⟩
  have trans : ∀ {x y z : f.V}, eq f x y = true → eq f y z = true → eq f x z = true := by
    intro x y z h g
    unfold eq at h g ⊢
    simp only [Bool.and_eq_true, decide_eq_true_eq] at h g ⊢
    exact ⟨⟨h.1.1, g.1.2⟩, h.2.trans g.2⟩
  rw [ask_eq]
  refine ⟨fun st v h => ?_, fun x y h hx => ?_, fun ha hb hc n1 n2 n3 => ?_⟩
  · cases g : (if eq f a b then .ok a else if eq f a c then .ok a else if eq f b c then .ok b else fallback f special a b c : Outcome f.V) with
    | ub => rw [g] at h; cases h
    | ok w => rw [g] at h; simp only [Outcome.bind, Outcome.ok.injEq, Prod.mk.injEq] at h; exact h.1.symm
  · by_cases e1 : eq f a b = true
    · rw [if_pos e1]
      refine ⟨a, rfl, ?_⟩
      rcases hx with ⟨rfl, rfl⟩ | ⟨rfl, rfl⟩ | ⟨rfl, rfl⟩
      · exact refl h
      · exact refl h
      · exact e1
    · rw [if_neg e1]
      by_cases e2 : eq f a c = true
      · rw [if_pos e2]
        refine ⟨a, rfl, ?_⟩
        rcases hx with ⟨rfl, rfl⟩ | ⟨rfl, rfl⟩ | ⟨rfl, rfl⟩
        · exact refl h
        · exact refl h
        · exact trans e2 (symm h)
      · rw [if_neg e2]
        rcases hx with ⟨rfl, rfl⟩ | ⟨rfl, rfl⟩ | ⟨rfl, rfl⟩
        · exact absurd h e1
        · exact absurd h e2
        · rw [if_pos h]; exact ⟨_, rfl, refl h⟩
  · rw [n1, n2, n3]
    simp only [Bool.false_eq_true, if_false]
    unfold fallback
    rw [ha, hb, hc]
    exact ⟨_, rfl, middle_median f a b c⟩

example : ask f32 (special32 (fun _ _ => false) 2) (fun _ => 0#32) 0x3F800000#32 0x40400000#32 0x40000000#32 = .ok (.success, 0x40000000#32) := by decide +kernel

/-! ### C367: verdicts -/

/-- A name without a rule of its own. -/
def Ordinary (name : String) : Prop :=
  name ≠ "All NaN Values" ∧ name ≠ "All Values Different" ∧ name ≠ "One NaN Value" ∧ name ≠ "One Infinity Value" ∧ name ≠ "Double with Exponent Bit Flips"

theorem finite_not_nan {x : f.V} (h : finite f x = true) : nan f x = false := by
  unfold finite at h
  unfold nan
  have : (expo f x == 2 ^ f.e - 1) = false := by simpa using h
  rw [this]
  rfl

theorem eq_finite {a b : f.V} (ha : finite f a = true) (hb : finite f b = true) : eq f a b = decide (key f a = key f b) := by
  unfold eq
  rw [finite_not_nan f ha, finite_not_nan f hb]
  rfl

theorem neg_finite {a : f.V} (ha : finite f a = true) : neg f a = decide (key f a < 0) := by
  unfold neg
  rw [finite_not_nan f ha]
  rfl

/-- The voter's answer on finite values is the value expected. -/
theorem ask_expected (special : f.V → f.V → f.V → Outcome f.V) (crc : f.V → BitVec 32) (a b c : f.V)
    (ha : finite f a = true) (hb : finite f b = true) (hc : finite f c = true) :
    ∃ v, ask f special crc a b c = .ok (.success, v) ∧ expected f a b c = .ok v ∧ (v = a ∨ v = b ∨ v = c) ∧ Median f a b c v := by
  rw [ask_eq]
  unfold expected
  rw [eq_finite f ha hb, eq_finite f ha hc, eq_finite f hb hc]
  by_cases e1 : key f a = key f b
  · simp only [e1, decide_true, if_true]
    refine ⟨a, rfl, rfl, by simp, ?_⟩
    unfold Median
    exact ⟨by simp, by omega⟩
  · simp only [e1, decide_false, Bool.false_eq_true, if_false]
    by_cases e2 : key f a = key f c
    · simp only [e2, decide_true, if_true]
      refine ⟨a, rfl, rfl, by simp, ?_⟩
      unfold Median
      exact ⟨by simp, by omega⟩
    · simp only [e2, decide_false, Bool.false_eq_true, if_false]
      by_cases e3 : key f b = key f c
      · simp only [e3, decide_true, if_true]
        refine ⟨b, rfl, rfl, by simp, ?_⟩
        unfold Median
        exact ⟨by simp, by omega⟩
      · simp only [e3, decide_false, Bool.false_eq_true, if_false]
        have hm := middle_median f a b c
        refine ⟨middle f a b c, ?_, ?_, hm.1, hm⟩
        · unfold fallback
          rw [ha, hb, hc]
          rfl
        · unfold sorted
          rw [finite_not_nan f ha, finite_not_nan f hb, finite_not_nan f hc]
          rfl

/-- **C367 (finite values).** Whatever three finite values are given, of any format, and whatever the checksum function: an ordinary test passes, so does the one on exponent bits and those for one NaN or one infinity; "All Values Different" passes exactly if the second value is the median; "All NaN Values" fails. All that is assumed of the tolerance is that a finite value is within it of itself. -/
theorem C367_finite (special : f.V → f.V → f.V → Outcome f.V) (crc : f.V → BitVec 32) (near : f.V → f.V → Bool)
    (hnear : ∀ x, finite f x = true → near x x = true) (a b c : f.V) (ha : finite f a = true) (hb : finite f b = true) (hc : finite f c = true) :
    (∀ name, Ordinary name → testFloatTMR f special crc near name a b c = .ok true) ∧
    testFloatTMR f special crc near "Double with Exponent Bit Flips" a b c = .ok true ∧
    testFloatTMR f special crc near "One NaN Value" a b c = .ok true ∧ testFloatTMR f special crc near "One Infinity Value" a b c = .ok true ∧
    testFloatTMR f special crc near "All NaN Values" a b c = .ok false ∧
    (testFloatTMR f special crc near "All Values Different" a b c = .ok true ↔
      key f a ≤ key f b ∧ key f b ≤ key f c ∨ key f c ≤ key f b ∧ key f b ≤ key f a) := by
  obtain ⟨v, h1, h2, hv, hm⟩ := ask_expected f special crc a b c ha hb hc
  have hfv : finite f v = true := by rcases hv with rfl | rfl | rfl <;> assumption
  have start : ∀ name, testFloatTMR f special crc near name a b c = judge f near name a b c v := by
    intro name
    unfold testFloatTMR
    rw [h1]
    rfl
  have d1 : ("One NaN Value" : String) ≠ "All NaN Values" ∧ ("One NaN Value" : String) ≠ "All Values Different" ∧ ("One Infinity Value" : String) ≠ "All NaN Values" ∧ ("One Infinity Value" : String) ≠ "All Values Different" ∧
      ("Double with Exponent Bit Flips" : String) ≠ "All NaN Values" ∧ ("Double with Exponent Bit Flips" : String) ≠ "All Values Different" ∧ ("Double with Exponent Bit Flips" : String) ≠ "One NaN Value" ∧
      ("Double with Exponent Bit Flips" : String) ≠ "One Infinity Value" ∧ ("All Values Different" : String) ≠ "All NaN Values" := by decide +kernel
  obtain ⟨d1, d2, d3, d4, d5, d6, d7, d8, d9⟩ := d1
  have key3 : key f v = key f (middle f a b c) := by
    have m2 := middle_median f a b c
    obtain ⟨-, s1⟩ := hm
    obtain ⟨-, s2⟩ := m2
    omega
  refine ⟨fun name hn => ?_, ?_, ?_, ?_, ?_, ?_⟩
  · rw [start]
    unfold judge
    obtain ⟨n1, n2, n3, n4, n5⟩ := hn
    rw [if_neg n1, if_neg n2, if_neg (by rintro (h | h); exacts [n3 h, n4 h]), if_neg n5, h2]
    simp only [Outcome.bind]
    by_cases hs : signTest f a b c = true
    · rw [if_pos hs]
      congr 1
      unfold signPassed
      rw [neg_finite f ha, neg_finite f hb, neg_finite f hc, neg_finite f hfv, beq_iff_eq]
      obtain ⟨-, s1⟩ := hm
      by_cases ga : key f a < 0 <;> by_cases gb : key f b < 0 <;> by_cases gc : key f c < 0 <;> simp only [ga, gb, gc, decide_true, decide_false, Bool.toNat_true, Bool.toNat_false] <;>
        · apply Bool.eq_iff_iff.2
          simp only [decide_eq_true_eq]
          omega
    · rw [if_neg hs, hnear v hfv]
  · rw [start]
    unfold judge
    rw [if_neg d5, if_neg d6, if_neg (by rintro (h | h); exacts [d7 h, d8 h]), if_pos rfl]
    have : sorted f a b c = .ok (middle f a b c) := by
      unfold sorted
      rw [finite_not_nan f ha, finite_not_nan f hb, finite_not_nan f hc]
      rfl
    rw [this]
    simp only [Outcome.bind]
    have hmf : finite f (middle f a b c) = true := by
      rcases (middle_median f a b c).1 with h | h | h <;> rw [h] <;> assumption
    rw [eq_finite f hfv hmf, decide_eq_true key3]
  · rw [start]
    unfold judge
    rw [if_neg d1, if_neg d2, if_pos (Or.inl rfl), hfv]
  · rw [start]
    unfold judge
    rw [if_neg d3, if_neg d4, if_pos (Or.inr rfl), hfv]
  · rw [start]
    unfold judge
    rw [if_pos rfl, finite_not_nan f hfv]
  · rw [start]
    unfold judge
    rw [if_neg d9, if_pos rfl, eq_finite f hfv hb]
    simp only [Outcome.ok.injEq, decide_eq_true_eq]
    obtain ⟨-, s1⟩ := hm
    omega

example : finite f32 0x3F800000#32 = true ∧ Ordinary "Large Values" ∧ key f32 0x3F800000#32 < key f32 0x40000000#32 := by
  refine ⟨by decide +kernel, ?_, by decide +kernel⟩
  unfold Ordinary
  decide +kernel

/-- **C367 (limit).** Two equal infinities and a third value of the same sign: the voter rightly returns the infinity, and the ordinary test fails, because the difference of two infinities is not a number (so no tolerance admits it). -/
theorem C367_infinite_limit (special : f.V → f.V → f.V → Outcome f.V) (crc : f.V → BitVec 32) (near : f.V → f.V → Bool) (a c : f.V)
    (hnear : ∀ x, finite f x = false → near x x = false) (hi : finite f a = false) (hn : nan f a = false) (hs : 0 < key f a ∧ 0 < key f c ∨ key f a < 0 ∧ key f c < 0) (name : String) (ho : Ordinary name) :
    ask f special crc a a c = .ok (.success, a) ∧ testFloatTMR f special crc near name a a c = .ok false := by
  have e : eq f a a = true := by unfold eq; rw [hn]; simp
  have h1 : ask f special crc a a c = .ok (.success, a) := by rw [ask_eq, if_pos e]; rfl
  refine ⟨h1, ?_⟩
  unfold testFloatTMR
  rw [h1]
  show judge f near name a a c a = _
  unfold judge
  obtain ⟨n1, n2, n3, n4, n5⟩ := ho
  rw [if_neg n1, if_neg n2, if_neg (by rintro (h | h); exacts [n3 h, n4 h]), if_neg n5]
  unfold expected
  rw [if_pos e]
  simp only [Outcome.bind]
  have : signTest f a a c = false := by
    unfold signTest neg pos
    rcases hs with h | h
    · have g1 : ¬ key f a < 0 := by omega
      have g2 : ¬ key f c < 0 := by omega
      simp [g1, g2]
    · have g1 : ¬ 0 < key f a := by omega
      have g2 : ¬ 0 < key f c := by omega
      simp [g1, g2]
  rw [this, hnear a hi]
  rfl

example : finite f32 0x7F800000#32 = false ∧ nan f32 0x7F800000#32 = false ∧ 0 < key f32 0x7F800000#32 ∧ 0 < key f32 0x3F800000#32 := by decide +kernel

/-! ### C368: flipped doubles -/

/-- The magnitude of a value. -/
def mag (x : f.V) : ℕ := x.toNat % 2 ^ (f.e + f.m)

theorem key_mag (x : f.V) : key f x = if x.getLsbD (f.e + f.m) then -(mag f x : ℤ) else (mag f x : ℤ) := rfl

theorem mag_bit (x : f.V) (j : ℕ) : (mag f x).testBit j = (decide (j < f.e + f.m) && x.getLsbD j) := by
  unfold mag
  rw [Nat.testBit_mod_two_pow]
  rfl

theorem flip_bit (x : f.V) (k j : ℕ) (hj : j < f.e + f.m + 1) : (x ^^^ BitVec.twoPow _ k).getLsbD j = if j = k then !x.getLsbD j else x.getLsbD j := by
  rw [BitVec.getLsbD_xor, BitVec.getLsbD_twoPow]
  by_cases g : j = k
  · subst g; simp [hj]
  · have g2 : ¬ k = j := fun h => g h.symm
    simp [g, g2]

theorem mag_flip (x : f.V) (k : ℕ) (hk : k < f.e + f.m) :
    (x.getLsbD k = false → mag f x < mag f (x ^^^ BitVec.twoPow _ k)) ∧ (x.getLsbD k = true → mag f (x ^^^ BitVec.twoPow _ k) < mag f x) := by
  have other : ∀ j, k < j → (mag f x).testBit j = (mag f (x ^^^ BitVec.twoPow _ k)).testBit j := by
    intro j hj
    rw [mag_bit, mag_bit]
    by_cases g : j < f.e + f.m
    · rw [flip_bit f x k j (by omega), if_neg (by omega)]
    · simp [g]
  refine ⟨fun h => Nat.lt_of_testBit k ?_ ?_ other, fun h => Nat.lt_of_testBit k ?_ ?_ fun j hj => (other j hj).symm⟩
  · rw [mag_bit, h, Bool.and_false]
  · rw [mag_bit, flip_bit f x k k (by omega), if_pos rfl, h]; simp [hk]
  · rw [mag_bit, flip_bit f x k k (by omega), if_pos rfl, h]; simp
  · rw [mag_bit, h]; simp [hk]

theorem key_flip (x : f.V) (k : ℕ) (hk : k < f.e + f.m) :
    (x.getLsbD (f.e + f.m) = x.getLsbD k → key f x < key f (x ^^^ BitVec.twoPow _ k)) ∧
    (x.getLsbD (f.e + f.m) ≠ x.getLsbD k → key f (x ^^^ BitVec.twoPow _ k) < key f x) := by
  obtain ⟨h0, h1⟩ := mag_flip f x k hk
  have hs : (x ^^^ BitVec.twoPow _ k).getLsbD (f.e + f.m) = x.getLsbD (f.e + f.m) := by rw [flip_bit f x k _ (by omega), if_neg (by omega)]
  rw [key_mag, key_mag, hs]
  cases hb : x.getLsbD k <;> cases hg : x.getLsbD (f.e + f.m)
  · have := h0 hb; simp; omega
  · have := h0 hb; simp; omega
  · have := h1 hb; simp; omega
  · have := h1 hb; simp; omega

theorem key_flip_ne (x : f.V) (k l : ℕ) (hk : k < f.e + f.m) (hl : l < f.e + f.m) (hkl : k ≠ l) : key f (x ^^^ BitVec.twoPow _ k) ≠ key f (x ^^^ BitVec.twoPow _ l) := by
  have hs : ∀ k, k < f.e + f.m → (x ^^^ BitVec.twoPow _ k).getLsbD (f.e + f.m) = x.getLsbD (f.e + f.m) := by
    intro k hk
    rw [flip_bit f x k _ (by omega), if_neg (by omega)]
  have hm : mag f (x ^^^ BitVec.twoPow _ k) ≠ mag f (x ^^^ BitVec.twoPow _ l) := by
    intro h
    have a := mag_bit f (x ^^^ BitVec.twoPow _ k) k
    have b := mag_bit f (x ^^^ BitVec.twoPow _ l) k
    rw [h, b, flip_bit f x k k (by omega), flip_bit f x l k (by omega), if_pos rfl, if_neg hkl] at a
    cases x.getLsbD k <;> simp [hk] at a
  rw [key_mag, key_mag, hs k hk, hs l hl]
  cases x.getLsbD (f.e + f.m)
  · simp; omega
  · simp; omega

/-- **C368 (two different bits).** For every double and any two different bits below the sign, if the damaged values are finite: the voter returns the undamaged value exactly if one of the two bits was set and the other was not. -/
theorem C368_two_bits (special : f64.V → f64.V → f64.V → Outcome f64.V) (crc : f64.V → BitVec 32) (x : f64.V) (p q : ℕ) (hp : p < 63) (hq : q < 63) (hpq : p ≠ q)
    (hx : finite f64 x = true) (b c : f64.V) (hb : flipBit (n := 8) x p = .ok b) (hc : flipBit (n := 8) x q = .ok c) (fb : finite f64 b = true) (fc : finite f64 c = true) :
    ask f64 special crc x b c = .ok (.success, x) ↔ x.getLsbD p ≠ x.getLsbD q := by
  have eb : b = x ^^^ BitVec.twoPow _ p := by
    have := flip_in (n := 8) x p (by omega)
    exact Outcome.ok.inj (hb.symm.trans this)
  have ec : c = x ^^^ BitVec.twoPow _ q := by
    have := flip_in (n := 8) x q (by omega)
    exact Outcome.ok.inj (hc.symm.trans this)
  obtain ⟨v, h1, -, hv, hm⟩ := ask_expected f64 special crc x b c hx fb fc
  have k1 := key_flip f64 x p hp
  have k2 := key_flip f64 x q hq
  have k3 := key_flip_ne f64 x p q hp hq hpq
  rw [← eb] at k1 k3
  rw [← ec] at k2 k3
  obtain ⟨-, hs⟩ := hm
  rw [h1]
  have key_v : v = x ↔ key f64 v = key f64 x := by
    refine ⟨fun h => by rw [h], fun h => ?_⟩
    rcases hv with rfl | rfl | rfl
    · rfl
    · exfalso
      by_cases g : x.getLsbD (f64.e + f64.m) = x.getLsbD p
      · have := k1.1 g; omega
      · have := k1.2 g; omega
    · exfalso
      by_cases g : x.getLsbD (f64.e + f64.m) = x.getLsbD q
      · have := k2.1 g; omega
      · have := k2.2 g; omega
  have e0 : (Outcome.ok (Status.success, v) = Outcome.ok (Status.success, x)) ↔ v = x := by simp
  rw [e0, key_v]
  by_cases g : x.getLsbD (f64.e + f64.m) = x.getLsbD p
  · have a := k1.1 g
    by_cases g' : x.getLsbD (f64.e + f64.m) = x.getLsbD q
    · have b' := k2.1 g'
      refine ⟨fun h => by omega, fun h => absurd (g.symm.trans g') h⟩
    · have b' := k2.2 g'
      refine ⟨fun _ h => g' (g.trans h), fun _ => by omega⟩
  · have a := k1.2 g
    by_cases g' : x.getLsbD (f64.e + f64.m) = x.getLsbD q
    · have b' := k2.1 g'
      refine ⟨fun _ h => g (g'.trans h.symm), fun _ => by omega⟩
    · have b' := k2.2 g'
      refine ⟨fun h => by omega, fun h => absurd ?_ h⟩
      cases h1 : x.getLsbD p <;> cases h2 : x.getLsbD q <;> cases h3 : x.getLsbD (f64.e + f64.m) <;> simp_all

/-- The value of tests 8 to 10 (3.14159265359). -/
example : finite f64 0x400921FB54442EEA#64 = true ∧ flipBit (n := 8) 0x400921FB54442EEA#64 52 = .ok 0x401921FB54442EEA#64 ∧ flipBit (n := 8) 0x400921FB54442EEA#64 53 = .ok 0x402921FB54442EEA#64 ∧
    ((0x400921FB54442EEA#64).getLsbD 52 = (0x400921FB54442EEA#64).getLsbD 53) ∧ finite f64 0x402921FB54442EEA#64 = true := by decide +kernel

/-- **C368 (limit: the tests do not notice).** For every finite double and any two positions whose flips leave it finite the test passes, whether or not the voter returned the undamaged value; with twice the same bit (as in "Double with Sign Bit Flips") the voter returns the damaged value, and the test passes. -/
theorem C368_unnoticed_limit (special : f64.V → f64.V → f64.V → Outcome f64.V) (crc : f64.V → BitVec 32) (near : f64.V → f64.V → Bool)
    (hnear : ∀ x, finite f64 x = true → near x x = true) (x : f64.V) (hx : finite f64 x = true) (name : String) (ho : Ordinary name ∨ name = "Double with Exponent Bit Flips")
    (p q : ℤ) (b c : f64.V) (hb : flipBit (n := 8) x p = .ok b) (hc : flipBit (n := 8) x q = .ok c) (fb : finite f64 b = true) (fc : finite f64 c = true) :
    testDouble special crc near name x p q = .ok true ∧
    (p = q → ∃ v, ask f64 special crc x b c = .ok (.success, v) ∧ key f64 v = key f64 b) := by
  constructor
  · unfold testDouble
    rw [hb]
    show Outcome.bind (flipBit (n := 8) x q) _ = _
    rw [hc]
    show testFloatTMR f64 special crc near name x b c = _
    have := C367_finite f64 special crc near hnear x b c hx fb fc
    rcases ho with ho | rfl
    · exact this.1 name ho
    · exact this.2.1
  · rintro rfl
    have : b = c := Outcome.ok.inj (hb.symm.trans hc)
    subst this
    have e : eq f64 b b = true := by rw [eq_finite f64 fb fb]; simp
    obtain ⟨v, h1, h2⟩ := (C366_answer f64 special crc x b b).2.1 b b e (Or.inr (Or.inr ⟨rfl, rfl⟩))
    refine ⟨v, h1, ?_⟩
    unfold eq at h2
    simp only [Bool.and_eq_true, decide_eq_true_eq] at h2
    exact h2.2

example : flipBit (n := 8) 0x400921FB54442EEA#64 63 = .ok 0xC00921FB54442EEA#64 ∧ finite f64 0xC00921FB54442EEA#64 = true ∧ Ordinary "Double with Sign Bit Flips" ∧
    ask f64 (fun _ _ _ => .ub) (fun _ => 0#32) 0x400921FB54442EEA#64 0xC00921FB54442EEA#64 0xC00921FB54442EEA#64 = .ok (.success, 0xC00921FB54442EEA#64) := by
  refine ⟨by decide +kernel, by decide +kernel, ?_, by decide +kernel⟩
  unfold Ordinary
  decide +kernel

/-! ### C369: values that are not finite, and the summary -/

theorem eq_nan_left {a b : f.V} (h : nan f a = true) : eq f a b = false := by unfold eq; rw [h]; rfl
theorem eq_nan_right {a b : f.V} (h : nan f b = true) : eq f a b = false := by unfold eq; rw [h]; simp

/-- **C369 is violated.** If exactly one of the three values is not a number and the other two are not equal, an ordinary test (such as the sixth, "Mix of Special Values") has no defined outcome: either the voter does not return, or the test hands the three to `std::sort`, whose comparison they do not order. -/
theorem C369_sort_violated (special : f.V → f.V → f.V → Outcome f.V) (crc : f.V → BitVec 32) (near : f.V → f.V → Bool) (name : String) (ho : Ordinary name) (a b c : f.V)
    (h : (nan f a = true ∧ nan f b = false ∧ nan f c = false ∧ key f b ≠ key f c) ∨ (nan f a = false ∧ nan f b = true ∧ nan f c = false ∧ key f a ≠ key f c) ∨
      (nan f a = false ∧ nan f b = false ∧ nan f c = true ∧ key f a ≠ key f b)) :
    testFloatTMR f special crc near name a b c = .ub := by
  have hne : eq f a b = false ∧ eq f a c = false ∧ eq f b c = false ∧ sorted f a b c = .ub := by
    unfold sorted
    rcases h with ⟨h1, h2, h3, h4⟩ | ⟨h1, h2, h3, h4⟩ | ⟨h1, h2, h3, h4⟩
    · rw [h1, h2, h3]
      exact ⟨eq_nan_left f h1, eq_nan_left f h1, by unfold eq; simp [h4], rfl⟩
    · rw [h1, h2, h3]
      exact ⟨eq_nan_right f h2, by unfold eq; simp [h4], eq_nan_left f h2, rfl⟩
    · rw [h1, h2, h3]
      exact ⟨by unfold eq; simp [h4], eq_nan_right f h3, eq_nan_right f h3, rfl⟩
  obtain ⟨e1, e2, e3, e4⟩ := hne
  have he : expected f a b c = .ub := by
    unfold expected
    rw [e1, e2, e3, e4]
    rfl
  unfold testFloatTMR
  cases g : ask f special crc a b c with
  | ub => rfl
  | ok r =>
    obtain ⟨st, v⟩ := r
    have hst := (C366_answer f special crc a b c).1 st v g
    subst hst
    show judge f near name a b c v = .ub
    unfold judge
    obtain ⟨n1, n2, n3, n4, n5⟩ := ho
    rw [if_neg n1, if_neg n2, if_neg (by rintro (h | h); exacts [n3 h, n4 h]), if_neg n5, he]
    rfl

/-- The sixth test: infinity, a NaN, minus infinity. -/
example : Ordinary "Mix of Special Values" ∧ (nan f32 0x7F800000#32 = false ∧ nan f32 0x7FC00000#32 = true ∧ nan f32 0xFF800000#32 = false ∧ key f32 0x7F800000#32 ≠ key f32 0xFF800000#32) := by
  constructor
  · unfold Ordinary; decide +kernel
  · decide +kernel

theorem expo_mag (x : f.V) : expo f x = mag f x / 2 ^ f.m := by
  unfold expo mag
  generalize BitVec.toNat x = y
  rw [Nat.add_comm f.e, Nat.pow_add, Nat.mod_mul_right_div_self]

theorem eq_expo {a b : f.V} (h : eq f a b = true) : expo f a = expo f b := by
  unfold eq at h
  simp only [Bool.and_eq_true, decide_eq_true_eq] at h
  have hk := h.2
  rw [key_mag, key_mag] at hk
  rw [expo_mag, expo_mag]
  have : mag f a = mag f b := by split_ifs at hk <;> omega
  rw [this]

theorem eq_finite_same {a b : f.V} (h : eq f a b = true) : finite f a = finite f b := by
  unfold finite
  rw [eq_expo f h]

theorem finite32 (x : f32.V) : finite f32 x = Spec.f32isFinite x := rfl

theorem finite_values (a b c : BitVec 32) :
    STmr.finiteValues a b c = (if Spec.f32isFinite a then [a] else []) ++ ((if Spec.f32isFinite b then [b] else []) ++ (if Spec.f32isFinite c then [c] else [])) := by
  unfold STmr.finiteValues
  cases ha : Spec.f32isFinite a <;> cases hb : Spec.f32isFinite b <;> cases hc : Spec.f32isFinite c <;> simp [ha, hb, hc]

theorem vote_nan (close : BitVec 32 → BitVec 32 → Bool) (fuel : ℕ) (a b c : BitVec 32) (ha : Spec.f32isNaN a = true) (hb : Spec.f32isNaN b = true) (hc : Spec.f32isNaN c = true)
    (fa : Spec.f32isFinite a = false) (fb : Spec.f32isFinite b = false) (fc : Spec.f32isFinite c = false) :
    STmr.bitLevelVoteFloat close (fuel + 1) a b c = some 0x7FC00000#32 := by
  have h2 : STmr.finiteValues a b c = [] := by rw [finite_values, fa, fb, fc]; rfl
  have h1 : (STmr.isSpecialFloat a || STmr.isSpecialFloat b || STmr.isSpecialFloat c) = true := by unfold STmr.isSpecialFloat; rw [ha]; rfl
  have e : ∀ z w : BitVec 32, Spec.f32isNaN z = true → Spec.f32eq z w = false := by
    intro z w hz
    unfold Spec.f32eq
    rw [hz]
    rfl
  unfold STmr.bitLevelVoteFloat
  rw [if_pos h1, h2]
  simp only [e a b ha, e a c ha, e b c hb, ha, hb, hc, Bool.false_eq_true, if_false, Bool.and_self, if_true]

theorem fallback32 (close : BitVec 32 → BitVec 32 → Bool) (fuel : ℕ) (a b c : f32.V) (h : (Spec.f32isFinite a && Spec.f32isFinite b && Spec.f32isFinite c) = false) :
    fallback f32 (special32 close fuel) a b c = match STmr.floatFallback close fuel a b c with | some r => .ok r | none => .ub := by
  unfold fallback STmr.floatFallback
  have h' : (finite f32 a && finite f32 b && finite f32 c) = false := h
  rw [h', h]
  rfl

/-- **C369 (one value not finite).** For `float`: with one value that is not finite and two finite ones that are not zero, in any order, the tests for one NaN and one infinity pass (after at most two nested calls of the voter). -/
theorem C369_one_special (close : BitVec 32 → BitVec 32 → Bool) (crc : f32.V → BitVec 32) (near : f32.V → f32.V → Bool) (name : String) (hname : name = "One NaN Value" ∨ name = "One Infinity Value")
    (n x y : f32.V) (hn : finite f32 n = false) (hx : finite f32 x = true) (hy : finite f32 y = true) (zx : Spec.f32isZero x = false) (zy : Spec.f32isZero y = false)
    (a b c : f32.V) (h : (a, b, c) = (n, x, y) ∨ (a, b, c) = (x, n, y) ∨ (a, b, c) = (x, y, n)) :
    testFloatTMR f32 (special32 close 2) crc near name a b c = .ok true := by
  have d : ("One NaN Value" : String) ≠ "All NaN Values" ∧ ("One NaN Value" : String) ≠ "All Values Different" ∧ ("One Infinity Value" : String) ≠ "All NaN Values" ∧ ("One Infinity Value" : String) ≠ "All Values Different" := by decide +kernel
  obtain ⟨d1, d2, d3, d4⟩ := d
  suffices hs : ∃ v, ask f32 (special32 close 2) crc a b c = .ok (.success, v) ∧ finite f32 v = true by
    obtain ⟨v, h1, h2⟩ := hs
    unfold testFloatTMR
    rw [h1]
    show judge f32 near name a b c v = _
    unfold judge
    rw [if_neg (by rcases hname with rfl | rfl <;> assumption), if_neg (by rcases hname with rfl | rfl <;> assumption), if_pos hname, h2]
  have cross : ∀ z : f32.V, finite f32 z = true → eq f32 n z = false ∧ eq f32 z n = false := by
    intro z hz
    constructor
    · by_contra g
      have := eq_finite_same f32 (by simpa using g : eq f32 n z = true)
      rw [hn, hz] at this
      cases this
    · by_contra g
      have := eq_finite_same f32 (by simpa using g : eq f32 z n = true)
      rw [hn, hz] at this
      cases this
  have fb : ∀ a b c : f32.V, (Spec.f32isFinite a && Spec.f32isFinite b && Spec.f32isFinite c) = false → STmr.finiteValues a b c = [x, y] → fallback f32 (special32 close 2) a b c = .ok x := by
    intro a b c h hv
    rw [fallback32 close 2 a b c h]
    have := (C15_float_vote_terminates_partial close a b c).2 h
    rw [hv] at this
    rw [this (Or.inr ⟨zx, zy⟩)]
  have hx' : Spec.f32isFinite x = true := hx
  have hy' : Spec.f32isFinite y = true := hy
  have hn' : Spec.f32isFinite n = false := hn
  rw [ask_eq]
  rcases h with h | h | h <;> simp only [Prod.mk.injEq] at h <;> obtain ⟨rfl, rfl, rfl⟩ := h
  · rw [(cross b hx).1, (cross c hy).1]
    simp only [Bool.false_eq_true, if_false]
    by_cases g : eq f32 b c = true
    · rw [if_pos g]; exact ⟨b, rfl, hx⟩
    · rw [if_neg g, fb a b c (by rw [hn']; simp) ((finite_values a b c).trans (by rw [hn', hx', hy']; rfl))]
      exact ⟨_, rfl, hx⟩
  · rw [(cross a hx).2, (cross c hy).1]
    simp only [Bool.false_eq_true, if_false]
    by_cases g : eq f32 a c = true
    · rw [if_pos g]; exact ⟨a, rfl, hx⟩
    · rw [if_neg g, fb a b c (by rw [hn']; simp) ((finite_values a b c).trans (by rw [hn', hx', hy']; rfl))]
      exact ⟨_, rfl, hx⟩
  · rw [(cross a hx).2, (cross b hy).2]
    simp only [Bool.false_eq_true, if_false]
    by_cases g : eq f32 a b = true
    · rw [if_pos g]; exact ⟨a, rfl, hx⟩
    · rw [if_neg g, fb a b c (by rw [hn']; simp) ((finite_values a b c).trans (by rw [hn', hx', hy']; rfl))]
      exact ⟨_, rfl, hx⟩

example : finite f32 0x7FC00000#32 = false ∧ finite f32 0x3F800000#32 = true ∧ finite f32 0x40400000#32 = true ∧ Spec.f32isZero 0x3F800000#32 = false ∧ Spec.f32isZero 0x40400000#32 = false := by decide +kernel

/-- **C369 is violated (zeros).** With a zero among the finite ones, not close to the other, the same tests do not return, however deep the stack. -/
theorem C369_zero_violated (close : BitVec 32 → BitVec 32 → Bool) (crc : f32.V → BitVec 32) (near : f32.V → f32.V → Bool) (name : String) (fuel : ℕ)
    (n x y : f32.V) (hn : finite f32 n = false) (hx : finite f32 x = true) (hy : finite f32 y = true) (hz : Spec.f32isZero x = true ∨ Spec.f32isZero y = true) (hc : close x y = false) (hxy : key f32 x ≠ key f32 y) :
    testFloatTMR f32 (special32 close fuel) crc near name x n y = .ub := by
  have e1 : eq f32 x n = false := by
    by_contra g
    have := eq_finite_same f32 (by simpa using g : eq f32 x n = true)
    rw [hn, hx] at this
    cases this
  have e2 : eq f32 n y = false := by
    by_contra g
    have := eq_finite_same f32 (by simpa using g : eq f32 n y = true)
    rw [hn, hy] at this
    cases this
  have e3 : eq f32 x y = false := by rw [eq_finite f32 hx hy, decide_eq_false hxy]
  have hn' : Spec.f32isFinite n = false := hn
  unfold testFloatTMR
  rw [ask_eq, e1, e2, e3]
  simp only [Bool.false_eq_true, if_false]
  rw [fallback32 close fuel x n y (by rw [hn']; simp), (C15_float_vote_diverges_violated close n x y hn hx hy hz hc fuel).2.1]
  rfl

example : finite f32 0x7FC00000#32 = false ∧ Spec.f32isZero 0#32 = true ∧ key f32 0#32 ≠ key f32 0x3F800000#32 := by decide +kernel

/-- **C369 (NaN).** Three NaNs: the test "All NaN Values" passes for `float`, whatever their payloads. -/
theorem C369_all_nan (close : BitVec 32 → BitVec 32 → Bool) (crc : f32.V → BitVec 32) (near : f32.V → f32.V → Bool) (fuel : ℕ) (a b c : f32.V) (ha : nan f32 a = true) (hb : nan f32 b = true) (hc : nan f32 c = true) :
    testFloatTMR f32 (special32 close (fuel + 1)) crc near "All NaN Values" a b c = .ok true := by
  have nf : ∀ z : f32.V, nan f32 z = true → Spec.f32isFinite z = false ∧ Spec.f32isNaN z = true := by
    intro z hz
    refine ⟨?_, hz⟩
    by_contra g
    have : finite f32 z = true := by rw [finite32]; simpa using g
    rw [finite_not_nan f32 this] at hz
    cases hz
  unfold testFloatTMR
  rw [ask_eq, eq_nan_left f32 ha, eq_nan_left f32 ha, eq_nan_left f32 hb]
  simp only [Bool.false_eq_true, if_false]
  have hs : special32 close (fuel + 1) a b c = .ok 0x7FC00000#32 := by
    have h3 := vote_nan close fuel a b c (nf a ha).2 (nf b hb).2 (nf c hc).2 (nf a ha).1 (nf b hb).1 (nf c hc).1
    unfold special32
    rw [h3]
  unfold fallback
  have : finite f32 a = false := (nf a ha).1
  rw [this]
  simp only [Bool.false_and, Bool.false_eq_true, if_false]
  rw [hs]
  have hj : judge f32 near "All NaN Values" a b c 0x7FC00000#32 = .ok true := by
    unfold judge
    rw [if_pos rfl]
    decide +kernel
  exact hj

example : nan f32 0x7FC00000#32 = true ∧ nan f32 0xFFFFFFFF#32 = true := by decide +kernel

/-- **C369 (summary).** The program returns 0 exactly if every test passed; the percentage printed is rounded down, and 100 exactly then. -/
theorem C369_summary (rs : List Bool) (hne : rs ≠ []) :
    (((summary rs).2.2.2 = 0 ↔ ∀ r ∈ rs, r = true) ∧ ((summary rs).2.2.1 = 100 ↔ ∀ r ∈ rs, r = true)) ∧ (summary rs).2.2.1 ≤ 100 := by
  have hl : 0 < rs.length := List.length_pos_iff.2 hne
  have hle : rs.countP id ≤ rs.length := List.countP_le_length
  have hall : rs.countP id = rs.length ↔ ∀ r ∈ rs, r = true := by
    rw [List.countP_eq_length]
    rfl
  unfold summary
  dsimp only
  refine ⟨⟨?_, ?_⟩, ?_⟩
  · rw [← hall]
    by_cases h : rs.countP id = rs.length <;> simp [h]
  · rw [← hall]
    constructor
    · intro h
      have := Nat.div_mul_le_self (rs.countP id * 100) rs.length
      rw [h] at this
      omega
    · intro h
      rw [h, Nat.mul_comm, Nat.mul_div_cancel _ hl]
  · exact (Nat.div_le_div_right (Nat.mul_le_mul_right 100 hle)).trans (by rw [Nat.mul_comm, Nat.mul_div_cancel _ hl])

example : summary [true, false, true] = (2, 3, 66, 1) := rfl

end Verif.Props.Ieee
