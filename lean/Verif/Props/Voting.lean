import Verif.Spec.Faults
import Verif.Spec.Float
import Verif.Lemmas.Classify
/-!
Properties C01–C05: voting strategies of `EnhancedVoting`.
-/
namespace Verif.Props
open Verif Verif.Spec Verif.Voting

/-- **C01.** If two of the three copies are `x`, every strategy returns `x`, whatever the third copy
is, for every type of 1, 2, 4 or 8 bytes (`w = 8*n` bits held in a `W`-bit local), whatever C++
equality `eq` is, whatever the pattern argument and whatever the indeterminate padding bits are.
The bit-based strategies return exactly `x`. -/
theorem C01_two_agreeing_copies_win {w W : Nat} (h8 : 8 ∣ w) (hW : w ≤ W) (hW64 : W ≤ 64)
    (eq : BitVec w → BitVec w → Bool) (x a b c : BitVec w) (h : TwoAgree x a b c) (g : Garbage W) :
    bitLevelVote a b c = x ∧
    burstErrorVote g.ha g.hb g.hc a b c = x ∧
    fastBitCorrection g.ha g.hb g.hc a b c = x ∧
    SameValue eq (standardVote eq a b c) x ∧
    SameValue eq (wordErrorVote eq g.ga g.gb g.gc g.ga' g.gb' g.gc' a b c) x ∧
    (∀ p, SameValue eq (adaptiveVote eq g a b c p) x) := by
  have hmaj := bitLevelVote_twoAgree h
  have hword := wordErrorVote_cases hW eq g.ga g.gb g.gc g.ga' g.gb' g.gc' a b c
  have hab : eq a b = true → SameValue eq a x := by
    intro he; rcases h with ⟨h1, h2⟩ | ⟨h1, h2⟩ | ⟨h1, h2⟩
    · exact Or.inl h1
    · exact Or.inl h1
    · right; rw [← h1]; exact he
  have hac : eq a c = true → SameValue eq a x := by
    intro he; rcases h with ⟨h1, h2⟩ | ⟨h1, h2⟩ | ⟨h1, h2⟩
    · exact Or.inl h1
    · exact Or.inl h1
    · right; rw [← h2]; exact he
  have hbc : eq b c = true → SameValue eq b x := by
    intro he; rcases h with ⟨h1, h2⟩ | ⟨h1, h2⟩ | ⟨h1, h2⟩
    · exact Or.inl h2
    · right; rw [← h2]; exact he
    · exact Or.inl h1
  have hw : SameValue eq (wordErrorVote eq g.ga g.gb g.gc g.ga' g.gb' g.gc' a b c) x := by
    rcases hword with h1 | ⟨h1, h2⟩ | ⟨h1, h2⟩ | ⟨h1, h2⟩
    · left; rw [h1, hmaj]
    · rw [h2]; exact hab h1
    · rw [h2]; exact hac h1
    · rw [h2]; exact hbc h1
  refine ⟨hmaj, ?_, ?_, ?_, hw, ?_⟩
  · rw [burstErrorVote_eq h8 hW hW64, hmaj]
  · rw [fastBitCorrection_eq h8 hW hW64, hmaj]
  · unfold standardVote
    split
    · exact hab ‹_›
    · split
      · exact hac ‹_›
      · split
        · exact hbc ‹_›
        · exact Or.inl hmaj
  · intro p
    unfold adaptiveVote
    split
    · exact hab ‹_›
    · split
      · exact hac ‹_›
      · split
        · exact hbc ‹_›
        · have hb : SameValue eq (burstErrorVote g.ha g.hb g.hc a b c) x := by
            left; rw [burstErrorVote_eq h8 hW hW64, hmaj]
          have hm : SameValue eq (bitLevelVote a b c) x := Or.inl hmaj
          cases p <;> simp only [hm, hw, hb]
          unfold selectMostConfidentResult
          split
          · exact hm
          · split
            · exact hw
            · split
              · exact hb
              · exact hm

/-- C01 for integer types: plain equality, hence exactly the stored value from every strategy. -/
theorem C01_integers {w W : Nat} (h8 : 8 ∣ w) (hW : w ≤ W) (hW64 : W ≤ 64)
    (x a b c : BitVec w) (h : TwoAgree x a b c) (g : Garbage W) (p : FaultPattern) :
    standardVote (· == ·) a b c = x ∧
    wordErrorVote (· == ·) g.ga g.gb g.gc g.ga' g.gb' g.gc' a b c = x ∧
    adaptiveVote (· == ·) g a b c p = x := by
  obtain ⟨_, _, _, h1, h2, h3⟩ := C01_two_agreeing_copies_win h8 hW hW64 (· == ·) x a b c h g
  refine ⟨?_, ?_, ?_⟩
  · rcases h1 with h1 | h1
    · exact h1
    · simpa using h1
  · rcases h2 with h2 | h2
    · exact h2
    · simpa using h2
  · rcases h3 p with h3 | h3
    · exact h3
    · simpa using h3

/-- C01 for `weightedVote` on integers: whatever the weights are, two agreeing copies win. -/
theorem C01_weighted {w W : Nat} (x a b c : BitVec w) (h : TwoAgree x a b c)
    (ga gb gc : BitVec W) (wa wb wc : ℚ) :
    weightedVote (· == ·) ga gb gc a b c wa wb wc = x := by
  unfold weightedVote
  rcases h with ⟨h1, h2⟩ | ⟨h1, h2⟩ | ⟨h1, h2⟩
  · subst h1; subst h2; simp
  · subst h1; subst h2; simp only [beq_self_eq_true, if_true]
    split
    · rfl
    · split <;> rfl
  · subst h1; subst h2
    simp only [beq_self_eq_true, if_true, Bool.and_true, beq_iff_eq]
    split
    · assumption
    · rfl

/-- Non-vacuity of C01: a `float` copy destroyed by an upset (NaN pattern), and a 16-bit value. -/
example : TwoAgree (0x3F800000#32) 0x3F800000#32 0x7FC00001#32 0x3F800000#32 := by
  unfold TwoAgree; decide
example : TwoAgree (0x1234#16) 0xFFFF#16 0x1234#16 0x1234#16 ∧ 8 ∣ 16 ∧ 16 ≤ 32 := by
  unfold TwoAgree; decide

/-- **C02.** Every bit of `bitLevelVote` is the majority of the three input bits. -/
theorem C02_bitLevelVote_is_majority {w : Nat} (a b c : BitVec w) :
    IsBitMajority a b c (bitLevelVote a b c) := isBitMajority_bitLevelVote a b c

/-- **C02 (masking).** If the three copies of `x` are hit by error masks that never hit the same bit
position in two copies, the vote restores `x`. -/
theorem C02_disjoint_upsets_are_masked {w : Nat} (x e₁ e₂ e₃ : BitVec w)
    (h : ∀ i, i < w → (e₁.getLsbD i && e₂.getLsbD i) = false ∧ (e₁.getLsbD i && e₃.getLsbD i) = false
      ∧ (e₂.getLsbD i && e₃.getLsbD i) = false) :
    bitLevelVote (x ^^^ e₁) (x ^^^ e₂) (x ^^^ e₃) = x := by
  apply BitVec.eq_of_getLsbD_eq
  intro i hi
  rw [getLsbD_bitLevelVote]
  simp only [BitVec.getLsbD_xor]
  have := h i hi
  revert this
  unfold maj3
  cases x.getLsbD i <;> cases e₁.getLsbD i <;> cases e₂.getLsbD i <;> cases e₃.getLsbD i <;> simp

example : (∀ i, i < 8 → ((0xF0#8).getLsbD i && (0x0A#8).getLsbD i) = false ∧
    ((0xF0#8).getLsbD i && (0x05#8).getLsbD i) = false ∧
    ((0x0A#8).getLsbD i && (0x05#8).getLsbD i) = false) := by decide

/-- **C03.** On integers of 1, 2, 4 or 8 bytes all strategies are the bitwise majority, for every
input (not only when two copies agree) and every pattern argument. -/
theorem C03_all_strategies_agree {w W : Nat} (h8 : 8 ∣ w) (hW : w ≤ W) (hW64 : W ≤ 64)
    (a b c : BitVec w) (g : Garbage W) (p : FaultPattern) :
    IsBitMajority a b c (standardVote (· == ·) a b c) ∧
    IsBitMajority a b c (wordErrorVote (· == ·) g.ga g.gb g.gc g.ga' g.gb' g.gc' a b c) ∧
    IsBitMajority a b c (burstErrorVote g.ha g.hb g.hc a b c) ∧
    IsBitMajority a b c (fastBitCorrection g.ha g.hb g.hc a b c) ∧
    IsBitMajority a b c (adaptiveVote (· == ·) g a b c p) := by
  by_cases hag : ∃ x, TwoAgree x a b c
  · obtain ⟨x, hx⟩ := hag
    obtain ⟨h1, h2, h3⟩ := C01_integers h8 hW hW64 x a b c hx g p
    rw [h1, h2, h3, burstErrorVote_eq h8 hW hW64, fastBitCorrection_eq h8 hW hW64]
    have := isBitMajority_bitLevelVote a b c
    rw [bitLevelVote_twoAgree hx] at *
    exact ⟨this, this, this, this, this⟩
  · have hab : a ≠ b := fun h => hag ⟨a, Or.inl ⟨rfl, h.symm⟩⟩
    have hac : a ≠ c := fun h => hag ⟨a, Or.inr (Or.inl ⟨rfl, h.symm⟩)⟩
    have hbc : b ≠ c := fun h => hag ⟨b, Or.inr (Or.inr ⟨rfl, h.symm⟩)⟩
    have hm := isBitMajority_bitLevelVote a b c
    have hw : wordErrorVote (· == ·) g.ga g.gb g.gc g.ga' g.gb' g.gc' a b c = bitLevelVote a b c := by
      rcases wordErrorVote_cases hW (· == ·) g.ga g.gb g.gc g.ga' g.gb' g.gc' a b c with
        h | ⟨h, _⟩ | ⟨h, _⟩ | ⟨h, _⟩
      · exact h
      · exact absurd (by simpa using h) hab
      · exact absurd (by simpa using h) hac
      · exact absurd (by simpa using h) hbc
    have hb := burstErrorVote_eq h8 hW hW64 g.ha g.hb g.hc a b c
    have hf := fastBitCorrection_eq h8 hW hW64 g.ha g.hb g.hc a b c
    refine ⟨?_, ?_, ?_, ?_, ?_⟩
    · unfold standardVote; simp [hab, hac, hbc]; exact hm
    · rw [hw]; exact hm
    · rw [hb]; exact hm
    · rw [hf]; exact hm
    · unfold adaptiveVote
      simp only [beq_iff_eq, hab, hac, hbc, if_false]
      cases p <;> simp only [hw, hb, hm]
      unfold selectMostConfidentResult
      simp [hm]

/-- C03 for any C++ equality (floating types included): whenever no two copies compare equal, all
strategies still return the same bit pattern. -/
theorem C03_all_strategies_agree_any_eq {w W : Nat} (h8 : 8 ∣ w) (hW : w ≤ W) (hW64 : W ≤ 64)
    (eq : BitVec w → BitVec w → Bool) (a b c : BitVec w)
    (hab : eq a b = false) (hac : eq a c = false) (hbc : eq b c = false)
    (g : Garbage W) (p : FaultPattern) :
    standardVote eq a b c = bitLevelVote a b c ∧
    wordErrorVote eq g.ga g.gb g.gc g.ga' g.gb' g.gc' a b c = bitLevelVote a b c ∧
    burstErrorVote g.ha g.hb g.hc a b c = bitLevelVote a b c ∧
    adaptiveVote eq g a b c p = bitLevelVote a b c := by
  have hw : wordErrorVote eq g.ga g.gb g.gc g.ga' g.gb' g.gc' a b c = bitLevelVote a b c := by
    rcases wordErrorVote_cases hW eq g.ga g.gb g.gc g.ga' g.gb' g.gc' a b c with
      h | ⟨h, _⟩ | ⟨h, _⟩ | ⟨h, _⟩
    · exact h
    · rw [hab] at h; cases h
    · rw [hac] at h; cases h
    · rw [hbc] at h; cases h
  have hb := burstErrorVote_eq h8 hW hW64 g.ha g.hb g.hc a b c
  refine ⟨by unfold standardVote; simp [hab, hac, hbc], hw, hb, ?_⟩
  unfold adaptiveVote
  simp only [hab, hac, hbc, Bool.false_eq_true, if_false]
  cases p <;> simp only [hw, hb]
  unfold selectMostConfidentResult
  simp

/-- Non-vacuity: three NaN patterns never compare equal as `float`. -/
example : f32eq 0x7FC00001#32 0x7FC00001#32 = false ∧ f32eq 0x7FC00001#32 0x3F800000#32 = false ∧
    f32eq 0x3F800000#32 0x40000000#32 = false := by decide

/-! ### C04: classification -/

/-- **C04 (no fault).** When all copies agree the answer is UNKNOWN (any width). -/
theorem C04_no_fault {W : Nat} (x : BitVec W) : detectFaultPattern x x x = .ok .unknown := by
  unfold detectFaultPattern
  have : countBits (x ^^^ x) = 0 := by
    rw [countBits_eq_popcount, popcount_eq_zero_iff, xor_eq_zero_iff']
  simp [countBits_zero]

/-- **C04 (32-bit, one corrupted copy).** Whichever copy is the corrupted one, the answer is
determined by the difference word according to `Class32`: SINGLE_BIT exactly for one flipped bit,
BYTE_ERROR exactly for several flips inside one byte, and so on; the call is never undefined.
Missing with respect to the full C04: ADJACENT_BITS is never reported (see
`C04_adjacent_never_reported`) and 64-bit values can be undefined (`C04_detect64_violated`). -/
theorem C04_classification_32_partial (x y : BitVec 32) (hne : x ≠ y) (p : FaultPattern) :
    (detectFaultPattern x x y = .ok p ↔ Class32 (x ^^^ y) p) ∧
    (detectFaultPattern x y x = .ok p ↔ Class32 (x ^^^ y) p) ∧
    (detectFaultPattern y x x = .ok p ↔ Class32 (x ^^^ y) p) := by
  have h0 : countBits (x ^^^ x) = 0 := by
    rw [countBits_eq_popcount, popcount_eq_zero_iff, xor_eq_zero_iff']
  have h1 : countBits (x ^^^ y) ≠ 0 := by
    rw [countBits_eq_popcount, ne_eq, popcount_eq_zero_iff, xor_eq_zero_iff']; exact hne
  have hs : y ^^^ x = x ^^^ y := BitVec.xor_comm _ _
  refine ⟨?_, ?_, ?_⟩
  · rw [← classify32]
    unfold detectFaultPattern
    have hd : diffPattern x x y = x ^^^ y := by unfold diffPattern; simp [countBits_zero]
    rw [if_neg (by rintro ⟨_, h⟩; exact h1 h), hd]
    exact Iff.rfl
  · rw [← classify32]
    unfold detectFaultPattern
    have hd : diffPattern x y x = x ^^^ y := by unfold diffPattern; simp [countBits_zero, h1]
    rw [if_neg (by rintro ⟨h, _⟩; exact h1 h), hd]
    exact Iff.rfl
  · rw [← classify32]
    unfold detectFaultPattern
    have hd : diffPattern y x x = x ^^^ y := by unfold diffPattern; simp [countBits_zero, h1, hs]
    rw [if_neg (by rintro ⟨h, _⟩; rw [hs] at h; exact h1 h), hd]
    exact Iff.rfl

/-- **C04 (32-bit, three different copies).** The classified word is a pairwise difference with the
fewest differing bits. -/
theorem C04_classification_32_distinct (a b c : BitVec 32) (hab : a ≠ b) (hac : a ≠ c) (hbc : b ≠ c)
    (p : FaultPattern) :
    ∃ d ∈ [a ^^^ b, a ^^^ c, b ^^^ c],
      popcount d ≤ popcount (a ^^^ b) ∧ popcount d ≤ popcount (a ^^^ c) ∧
      popcount d ≤ popcount (b ^^^ c) ∧ (detectFaultPattern a b c = .ok p ↔ Class32 d p) := by
  have n1 : countBits (a ^^^ b) ≠ 0 := by
    rw [countBits_eq_popcount, ne_eq, popcount_eq_zero_iff, xor_eq_zero_iff']; exact hab
  have n2 : countBits (a ^^^ c) ≠ 0 := by
    rw [countBits_eq_popcount, ne_eq, popcount_eq_zero_iff, xor_eq_zero_iff']; exact hac
  have n3 : countBits (b ^^^ c) ≠ 0 := by
    rw [countBits_eq_popcount, ne_eq, popcount_eq_zero_iff, xor_eq_zero_iff']; exact hbc
  refine ⟨diffPattern a b c, ?_, ?_⟩
  · unfold diffPattern; simp only [n1, n2, n3, if_false]
    split
    · simp
    · split <;> simp
  · have : detectFaultPattern a b c = .ok p ↔ Class32 (diffPattern a b c) p := by
      rw [← classify32]; unfold detectFaultPattern
      rw [if_neg (by rintro ⟨h, _⟩; exact n1 h)]
      exact Iff.rfl
    rw [this]
    simp only [← countBits_eq_popcount]
    unfold diffPattern; simp only [n1, n2, n3, if_false]
    split
    · rename_i h; exact ⟨Nat.le_refl _, h.1, h.2, by trivial⟩
    · split
      · rename_i h; exact ⟨h.1, Nat.le_refl _, h.2, by trivial⟩
      · exact ⟨by omega, by omega, Nat.le_refl _, by trivial⟩

/-- Each difference word has exactly one category, so the two theorems above determine the answer. -/
theorem C04_class32_total_unique (d : BitVec 32) : ∃ p, Class32 d p ∧ ∀ q, Class32 d q → q = p := by
  by_cases h1 : popcount d = 1
  · have hb := inOneByte_of_popcount_one d h1
    refine ⟨.singleBit, h1, ?_⟩
    intro q hq; cases q <;> simp_all [Class32]
  · by_cases hb : InOneByte d
    · refine ⟨.byteError, ⟨h1, hb⟩, ?_⟩
      intro q hq; cases q <;> simp_all [Class32]
    · by_cases h16 : 16 < popcount d
      · refine ⟨.wordError, ⟨hb, h16⟩, ?_⟩
        intro q hq; cases q <;> simp_all [Class32] <;> omega
      · by_cases hbu : IsBurst d
        · refine ⟨.burstError, ⟨hb, by omega, hbu⟩, ?_⟩
          intro q hq; cases q <;> simp_all [Class32]; omega
        · refine ⟨.unknown, ⟨hb, by omega, hbu⟩, ?_⟩
          intro q hq; cases q <;> simp_all [Class32]; omega

/-- **C04 violated: ADJACENT_BITS is dead.** For no inputs of any width does `detectFaultPattern`
report ADJACENT_BITS. -/
theorem C04_adjacent_never_reported {W : Nat} (a b c : BitVec W) :
    detectFaultPattern a b c ≠ .ok .adjacentBits := by
  unfold detectFaultPattern
  simp only [areAdjacentBits_false, Bool.false_eq_true, if_false]
  split
  · simp
  · split
    · simp
    · split
      · simp
      · simp
      · split
        · simp
        · split <;> simp

/-- Concrete multiple-cell upset (bits 0 and 1 of one copy) that the library does not report as
ADJACENT_BITS. -/
theorem C04_adjacent_violated : ∃ x y : BitVec 32, IsAdjacentBlock (x ^^^ y) ∧
    detectFaultPattern x x y ≠ .ok .adjacentBits := by
  refine ⟨0#32, 3#32, ⟨0, 2, by omega, by omega, ?_⟩, C04_adjacent_never_reported _ _ _⟩
  intro i
  rcases Nat.lt_or_ge i 32 with h | h
  · revert i; decide
  · rw [BitVec.getLsbD_of_ge _ _ h]; simp; omega

/-- **C04 violated on 64-bit types.** (1) A difference spread over five bytes is reported as
BYTE_ERROR (the mask `0xFF << 24` is sign-extended); (2) a difference touching byte 0 and byte 4 makes
the classification undefined (shift of an `int` by 32). -/
theorem C04_detect64_violated :
    (detectFaultPattern 0#64 0#64 0xFFFFFFFFFF000000#64 = .ok .byteError ∧
      ¬ InOneByte (0#64 ^^^ 0xFFFFFFFFFF000000#64)) ∧
    detectFaultPattern 0#64 0#64 0x0000000100000001#64 = .ub := by
  have h0 : ∀ d : BitVec 64, d ≠ 0#64 → countBits d ≠ 1 →
      detectFaultPattern 0#64 0#64 d = match areByteBoundary d with
        | .ub => .ub
        | .ok true => .ok .byteError
        | .ok false => if areWordBoundary d then .ok .wordError
          else if areBurstPattern d then .ok .burstError else .ok .unknown := by
    intro d hd h1
    have hz : countBits (0#64 ^^^ 0#64) = 0 := by
      rw [countBits_eq_popcount, popcount_eq_zero_iff, xor_eq_zero_iff']
    have hx : (0#64 ^^^ d) = d := by simp
    have hn : countBits d ≠ 0 := by rw [countBits_eq_popcount, ne_eq, popcount_eq_zero_iff]; exact hd
    unfold detectFaultPattern
    rw [if_neg (by rintro ⟨_, h⟩; rw [hx] at h; exact hn h)]
    have hdp : diffPattern 0#64 0#64 d = d := by unfold diffPattern; rw [hx]; simp [countBits_zero]
    rw [hdp, if_neg h1, areAdjacentBits_false, if_neg (by decide)]
    cases areByteBoundary d with
    | ub => rfl
    | ok b => cases b <;> rfl
  refine ⟨⟨?_, ?_⟩, ?_⟩
  · rw [h0 _ (by decide) (by rw [countBits_eq_popcount]; decide)]
    have : areByteBoundary (0xFFFFFFFFFF000000#64) = .ok true := by decide
    rw [this]
  · rintro ⟨k, hk, h⟩
    have h1 := (h 24 (by decide)); have h2 := h 63 (by decide)
    omega
  · rw [h0 _ (by decide) (by rw [countBits_eq_popcount]; decide)]
    have : areByteBoundary (0x0000000100000001#64) = .ub := by decide
    rw [this]

/-- Non-vacuity of the C04 theorems: one corrupted byte. -/
example : (0x12345678#32) ≠ 0x1234A978#32 ∧ Class32 (0x12345678#32 ^^^ 0x1234A978#32) .byteError := by
  refine ⟨by decide, by decide, 1, by decide, ?_⟩
  intro i
  rcases Nat.lt_or_ge i 32 with h | h
  · revert i; decide
  · rw [BitVec.getLsbD_of_ge _ _ h]; simp

/-! ### C05: weighted voting -/

/-- **C05.** When no two copies are equal, bit `i` of the weighted vote is set iff the total weight of
the copies that have the bit set reaches half of the total weight (all weights, all bits, any
padding). -/
theorem C05_weighted_bits {w W : Nat} (hW : w ≤ W) (eq : BitVec w → BitVec w → Bool)
    (a b c : BitVec w) (hab : eq a b = false) (hac : eq a c = false) (hbc : eq b c = false)
    (ga gb gc : BitVec W) (wa wb wc : ℚ) (i : Nat) (hi : i < w) :
    (weightedVote eq ga gb gc a b c wa wb wc).getLsbD i = true ↔
      (wa + wb + wc) / 2 ≤ (if a.getLsbD i then wa else 0) + (if b.getLsbD i then wb else 0)
        + (if c.getLsbD i then wc else 0) := by
  unfold weightedVote
  simp only [hab, hac, hbc, Bool.false_and, Bool.false_eq_true, if_false]
  have key := weighted_loop (w := w) (W := W) hW (fun i =>
    decide (((bit (loadInto ga a) i).toNat : ℚ) * wa + ((bit (loadInto gb b) i).toNat : ℚ) * wb
      + ((bit (loadInto gc c) i).toNat : ℚ) * wc ≥ (wa + wb + wc) / 2)) i hi
  simp only [decide_eq_true_iff] at key
  rw [key, decide_eq_true_iff]
  have hbit : ∀ (g : BitVec W) (x : BitVec w), ((bit (loadInto g x) i).toNat : ℚ)
      = if x.getLsbD i then 1 else 0 := by
    intro g x
    have h1 : bit (loadInto g x) i = bit (loadInto g x >>> i) 0 := by unfold bit; simp
    have h2 := toNat_and_one (loadInto g x >>> i)
    have h3 : loadInto g x >>> i &&& 1#W = bit (loadInto g x) i := rfl
    rw [h3] at h2
    rw [h2, BitVec.getLsbD_ushiftRight, Nat.add_zero, getLsbD_loadInto hW]
    simp only [hi, if_true]
    cases x.getLsbD i <;> simp
  rw [hbit, hbit, hbit, ge_iff_le]
  cases a.getLsbD i <;> cases b.getLsbD i <;> cases c.getLsbD i <;> simp

/-- **C05 (dictator).** A copy holding strictly more than half of the total (non-negative) weight decides
the whole result, in any position. -/
theorem C05_majority_weight_decides {w W : Nat} (hW : w ≤ W) (eq : BitVec w → BitVec w → Bool)
    (a b c : BitVec w) (hab : eq a b = false) (hac : eq a c = false) (hbc : eq b c = false)
    (ga gb gc : BitVec W) (wa wb wc : ℚ) (h0a : 0 ≤ wa) (h0b : 0 ≤ wb) (h0c : 0 ≤ wc) :
    ((wa + wb + wc) / 2 < wa → weightedVote eq ga gb gc a b c wa wb wc = a) ∧
    ((wa + wb + wc) / 2 < wb → weightedVote eq ga gb gc a b c wa wb wc = b) ∧
    ((wa + wb + wc) / 2 < wc → weightedVote eq ga gb gc a b c wa wb wc = c) := by
  have key := fun i hi => C05_weighted_bits hW eq a b c hab hac hbc ga gb gc wa wb wc i hi
  refine ⟨?_, ?_, ?_⟩ <;> intro h <;> apply BitVec.eq_of_getLsbD_eq <;> intro i hi <;>
    rw [Bool.eq_iff_iff, key i hi] <;>
    cases a.getLsbD i <;> cases b.getLsbD i <;> cases c.getLsbD i <;> simp <;> linarith

/-- **C04 (confidence variant).** `detectFaultPatternWithConfidence` reports the same pattern as
`detectFaultPattern` (undefined exactly when that is undefined), on every input of every width. -/
theorem C04_confidence_same_pattern {W : Nat} (a b c : BitVec W) :
    (match detectFaultPatternWithConfidence a b c with
      | .ub => Outcome.ub | .ok r => .ok r.1) = detectFaultPattern a b c := by
  have hz : ∀ x y : BitVec W, countBits (x ^^^ y) = 0 ↔ x = y := by
    intro x y; rw [countBits_eq_popcount, popcount_eq_zero_iff, xor_eq_zero_iff']
  have hdp : diffPatternC a b c = diffPattern a b c := by
    unfold diffPatternC diffPattern
    simp only [hz]
    by_cases hbc : b = c
    · subst hbc; rfl
    · simp only [hbc, if_false]
  unfold detectFaultPatternWithConfidence detectFaultPattern
  rw [hdp]
  simp only [hz]
  by_cases h : a = b ∧ a = c
  · have h2 : a = b ∧ a = c ∧ b = c := ⟨h.1, h.2, h.1 ▸ h.2⟩
    rw [if_pos h, if_pos h2]
  · have h2 : ¬ (a = b ∧ a = c ∧ b = c) := fun h3 => h ⟨h3.1, h3.2.1⟩
    rw [if_neg h, if_neg h2]
    by_cases h3 : countBits (diffPattern a b c) = 1
    · simp [h3]
    · simp only [h3, if_false]
      by_cases h4 : areAdjacentBits (diffPattern a b c) = true
      · simp [h4]
      · simp only [h4, if_false]
        cases areByteBoundary (diffPattern a b c) with
        | ub => rfl
        | ok x =>
          cases x with
          | true => rfl
          | false =>
            simp only
            by_cases h5 : areWordBoundary (diffPattern a b c) = true
            · simp [h5]
            · simp only [h5, if_false]
              by_cases h6 : areBurstPattern (diffPattern a b c) = true <;> simp [h6]

/-- **C45.** The confidence reported is always between 0 and 1 (exact arithmetic), and is 1 only when
all copies agree. -/
theorem C45_confidence_in_range {W : Nat} (hW : 0 < W) (a b c : BitVec W) (p : FaultPattern) (q : ℚ)
    (h : detectFaultPatternWithConfidence a b c = .ok (p, q)) :
    0 ≤ q ∧ q ≤ 1 ∧ (q = 1 ↔ a = b ∧ b = c) := by
  have hz : ∀ x y : BitVec W, countBits (x ^^^ y) = 0 ↔ x = y := by
    intro x y; rw [countBits_eq_popcount, popcount_eq_zero_iff, xor_eq_zero_iff']
  have hbase : 1/2 ≤ baseConfidence W a b c ∧ baseConfidence W a b c ≤ 9/10 := by
    have hsc : ∀ n : Nat, n ≤ W → (1/2 : ℚ) ≤ 1/2 + 4/10 * (1 - (n : ℚ) / (W : ℚ)) ∧
        1/2 + 4/10 * (1 - (n : ℚ) / (W : ℚ)) ≤ 9/10 := by
      intro n hn
      have hWq : (0 : ℚ) < (W : ℚ) := by exact_mod_cast hW
      have hnq : (n : ℚ) ≤ (W : ℚ) := by exact_mod_cast hn
      have h0 : (0 : ℚ) ≤ (n : ℚ) / (W : ℚ) := div_nonneg (by exact_mod_cast Nat.zero_le n) hWq.le
      have h1 : (n : ℚ) / (W : ℚ) ≤ 1 := (div_le_one hWq).mpr hnq
      constructor <;> linarith
    have hle : ∀ x : BitVec W, countBits x ≤ W := by
      intro x; rw [countBits_eq_popcount]; exact popcount_le x
    unfold baseConfidence
    simp only
    repeat' split
    all_goals first
      | exact hsc _ (hle _)
      | norm_num
  have hburst : ∀ d : BitVec W, 0 ≤ burstPatternConfidence d ∧ burstPatternConfidence d ≤ 1 := by
    intro d
    unfold burstPatternConfidence
    simp only
    split
    · rename_i h0
      have h0q : (0 : ℚ) < (countBits d : ℚ) := by exact_mod_cast h0
      have hr := runScan_le_popcount d
      rw [← countBits_eq_popcount] at hr
      exact ⟨div_nonneg (by exact_mod_cast Nat.zero_le _) h0q.le,
        (div_le_one h0q).mpr (by exact_mod_cast hr)⟩
    · norm_num
  unfold detectFaultPatternWithConfidence at h
  simp only [hz] at h
  by_cases heq : a = b ∧ a = c ∧ b = c
  · rw [if_pos heq] at h
    injection h with h; injection h with h1 h2
    subst h2
    refine ⟨by norm_num, by norm_num, ?_⟩
    exact ⟨fun _ => ⟨heq.1, heq.2.2⟩, fun _ => rfl⟩
  · rw [if_neg heq] at h
    have hne : ¬ (a = b ∧ b = c) := fun h3 => heq ⟨h3.1, h3.1.trans h3.2, h3.2⟩
    have fin : ∀ q' : ℚ, 0 ≤ q' → q' < 1 → (0 ≤ q' ∧ q' ≤ 1 ∧ (q' = 1 ↔ a = b ∧ b = c)) := by
      intro q' h0 h1
      refine ⟨h0, h1.le, ?_⟩
      constructor
      · intro h2; linarith
      · intro h2; exact absurd h2 hne
    obtain ⟨hb1, hb2⟩ := hbase
    generalize baseConfidence W a b c = bc at *
    revert h
    split
    · intro h; injection h with h; injection h with h1 h2; subst h2
      apply fin
      · apply le_min <;> linarith
      · exact lt_of_le_of_lt (min_le_right _ _) (by norm_num)
    · split
      · intro h; injection h with h; injection h with h1 h2; subst h2
        exact fin _ (by linarith) (by linarith)
      · split
        · intro h; cases h
        · intro h; injection h with h; injection h with h1 h2; subst h2
          exact fin _ (by linarith) (by linarith)
        · split
          · intro h; injection h with h; injection h with h1 h2; subst h2
            exact fin _ (by linarith) (by linarith)
          · split
            · intro h; injection h with h; injection h with h1 h2; subst h2
              obtain ⟨g1, g2⟩ := hburst (diffPatternC a b c)
              refine fin _ (mul_nonneg (by linarith) g1) ?_
              nlinarith
            · intro h; injection h with h; injection h with h1 h2; subst h2
              exact fin _ (by linarith) (by linarith)

/-- Non-vacuity of C45: a corrupted copy for which the call is defined (byte error, score 0.9). -/
example : detectFaultPatternWithConfidence 0#32 0#32 3#32 = .ok (.byteError, 9/10) := by
  have h1 : countBits (3#32 : BitVec 32) = 2 := by rw [countBits_eq_popcount]; decide
  unfold detectFaultPatternWithConfidence
  have hx : (0#32 ^^^ 3#32) = 3#32 := by decide
  have hd : diffPatternC 0#32 0#32 3#32 = 3#32 := by
    unfold diffPatternC; simp [countBits_zero]
  have hb : baseConfidence 32 0#32 0#32 3#32 = 9/10 := by
    unfold baseConfidence; simp [countBits_zero]
  have hbb : areByteBoundary 3#32 = .ok true := by decide
  simp [hd, hb, h1, areAdjacentBits_false, hbb]

/-- **C46.** `batchProcess` never has undefined behaviour, preserves length and order, and every output
for a triple with two bit-identical copies is that copy (up to float equality). -/
theorem C46_batch (eq : BitVec 32 → BitVec 32 → Bool) (g : Garbage 32)
    (ts : List (BitVec 32 × BitVec 32 × BitVec 32)) :
    ∃ rs, batchProcess eq g ts = .ok rs ∧ rs.length = ts.length ∧
      ∀ i (hi : i < ts.length) (hr : i < rs.length) x,
        TwoAgree x (ts[i]).1 (ts[i]).2.1 (ts[i]).2.2 → SameValue eq rs[i] x := by
  induction ts with
  | nil => exact ⟨[], rfl, rfl, fun i hi => absurd hi (by simp)⟩
  | cons t ts ih =>
    obtain ⟨a, b, c⟩ := t
    obtain ⟨rs, h1, h2, h3⟩ := ih
    have hdef : ∃ p, detectFaultPattern a b c = .ok p := by
      unfold detectFaultPattern
      simp only [areByteBoundary32]
      split
      · exact ⟨_, rfl⟩
      · split
        · exact ⟨_, rfl⟩
        · split
          · exact ⟨_, rfl⟩
          · split
            · rename_i h; cases h
            · exact ⟨_, rfl⟩
            · split
              · exact ⟨_, rfl⟩
              · split <;> exact ⟨_, rfl⟩
    obtain ⟨p, hp⟩ := hdef
    refine ⟨adaptiveVote eq g a b c p :: rs, ?_, by simp [h2], ?_⟩
    · unfold batchProcess; rw [hp]; simp only; rw [h1]
    · intro i hi hr x hx
      cases i with
      | zero =>
        exact (C01_two_agreeing_copies_win (by decide : 8 ∣ 32) (Nat.le_refl 32) (by decide)
          eq x a b c hx g).2.2.2.2.2 p
      | succ i => exact h3 i (by simpa using hi) (by simpa using hr) x hx

example : TwoAgree (0x3F800000#32) 0x3F800000#32 0x3F800000#32 0x40000000#32 := by
  unfold TwoAgree; decide

/-- Non-vacuity of C05: three distinct bytes, weights 0.9 / 0.3 / 0.2. -/
example : ((1#8 == 2#8) = false ∧ (1#8 == 4#8) = false ∧ (2#8 == 4#8) = false) ∧
    ((9/10 : ℚ) + 3/10 + 2/10) / 2 < 9/10 := by
  refine ⟨by decide, by norm_num⟩

end Verif.Props
