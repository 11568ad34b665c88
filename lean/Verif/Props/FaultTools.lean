import Verif.Model.FaultTools
import Verif.Lemmas.Bits
import Mathlib.Data.List.Nodup
/-!
Properties C80–C83: bit manipulation utilities, fault injectors, SEU simulator.
-/
namespace Verif.Props.FaultP
open Verif Verif.Spec Verif.FaultTools

/-! ### C80: bit manipulation -/

theorem bit_xor {w : Nat} (x : BitVec w) (i j : Nat) (hi : i < w) :
    (x ^^^ (1#w <<< i)).getLsbD j = (x.getLsbD j ^^ decide (j = i)) := by
  rw [BitVec.getLsbD_xor, getLsbD_one_shiftLeft hi]

/-- **C80 (flipping one bit).** For a valid position exactly that bit changes; flipping twice restores the value; for an invalid
position nothing changes.  (All widths; the value is the object representation of an integer or floating-point number.) -/
theorem C80_flip {w : Nat} (x : BitVec w) (p : Int) :
    (∀ i : Nat, p = i → i < w → ∀ j, (flipBit x p).getLsbD j = (x.getLsbD j ^^ decide (j = i))) ∧
    ((p < 0 ∨ p ≥ w) → flipBit x p = x) ∧ flipBit (flipBit x p) p = x := by
  refine ⟨?_, fun h => if_pos h, ?_⟩
  · rintro i rfl hi j
    unfold flipBit
    rw [if_neg (by omega)]
    exact bit_xor x i j hi
  · unfold flipBit
    split
    · rfl
    · rw [BitVec.xor_assoc, BitVec.xor_self, BitVec.xor_zero]

theorem popLoop_spec (n : Nat) : ∀ d, d < 2 ^ n → popLoop d = countTrue d.testBit n := by
  induction n with
  | zero => intro d hd; have : d = 0 := by omega
            subst this; unfold popLoop; simp [countTrue]
  | succ n ih =>
    intro d hd
    rw [countTrue_shift]
    unfold popLoop
    split
    · rename_i h; subst h
      simp only [Nat.zero_testBit]
      have : countTrue (fun _ => false) n = 0 := countTrue_eq_zero_iff.mpr (fun _ _ => rfl)
      simp [this]
    · rw [ih (d / 2) (by rw [Nat.pow_succ] at hd; omega)]
      have e0 : d % 2 = (d.testBit 0).toNat := by
        rw [Nat.testBit_zero]
        rcases Nat.mod_two_eq_zero_or_one d with h | h <;> simp [h]
      rw [e0]
      congr 1
      apply countTrue_congr
      intro i _
      rw [Nat.testBit_succ]

/-- Number of positions at which two words differ. -/
def distance {w : Nat} (a b : BitVec w) : Nat := countTrue (fun i => a.getLsbD i ^^ b.getLsbD i) w

/-- **C80 (counting).** For types of 1, 2, 4 and 8 bytes `countBitDifferences` is the number of differing bits. -/
theorem C80_count_partial (n : Nat) (hn : n = 1 ∨ n = 2 ∨ n = 4 ∨ n = 8) (a b : BitVec (8 * n)) :
    countBitDifferences n a b = distance a b := by
  have hu : uintBits n = 8 * n := by rcases hn with h | h | h | h <;> subst h <;> rfl
  unfold countBitDifferences distance
  rw [popLoop_spec (uintBits n) _ (BitVec.isLt _), hu]
  apply countTrue_congr
  intro i hi
  rw [BitVec.testBit_toNat, BitVec.getLsbD_xor, BitVec.getLsbD_setWidth, BitVec.getLsbD_setWidth]
  simp [hi]

/-- **C80 (a flip counts one).** Flipping one valid bit is counted as one difference, and the distance of equal values is 0. -/
theorem C80_flip_counts_one (n : Nat) (hn : n = 1 ∨ n = 2 ∨ n = 4 ∨ n = 8) (a : BitVec (8 * n)) (i : Nat) (hi : i < 8 * n) :
    countBitDifferences n a (flipBit a i) = 1 ∧ countBitDifferences n a a = 0 := by
  rw [C80_count_partial n hn, C80_count_partial n hn]
  unfold distance
  constructor
  · rw [countTrue_eq_one_iff]
    refine ⟨i, hi, fun j _ => ?_⟩
    rw [(C80_flip a i).1 i rfl hi]
    by_cases hne : j = i <;> simp [hne]
  · rw [countTrue_eq_zero_iff]
    intros; simp

/-- **C80 (counting, violated for larger types).** For a 16-byte type such as `long double` only the first byte is compared: values
that differ only above bit 7 are reported equal, for every number of differing bits. -/
theorem C80_count_large_violated (a b : BitVec (8 * 16)) (h : ∀ i, i < 8 → a.getLsbD i = b.getLsbD i) :
    countBitDifferences 16 a b = 0 := by
  unfold countBitDifferences
  have : a.setWidth (uintBits 16) = b.setWidth (uintBits 16) := by
    apply BitVec.eq_of_getLsbD_eq
    intro i hi
    have hi' : i < 8 := hi
    rw [BitVec.getLsbD_setWidth, BitVec.getLsbD_setWidth, h i hi']
  rw [this, BitVec.xor_self]
  unfold popLoop; simp

/-- **C80 (testing a bit).** `isBitSet` reads exactly the addressed bit (false for invalid positions), and flipping toggles it. -/
theorem C80_is_bit_set {w : Nat} (x : BitVec w) (i : Nat) :
    isBitSet x i = x.getLsbD i ∧ (i < w → isBitSet (flipBit x i) i = !isBitSet x i) ∧ isBitSet x (-1 - i) = false := by
  have h : ∀ y : BitVec w, isBitSet y i = y.getLsbD i := by
    intro y
    unfold isBitSet
    by_cases hi : i < w
    · rw [if_neg (by omega)]
      have e : (y &&& (1#w <<< i) ≠ 0#w) ↔ y.getLsbD i = true := by
        constructor
        · intro hne
          by_contra hb
          apply hne
          apply BitVec.eq_of_getLsbD_eq
          intro j hj
          rw [BitVec.getLsbD_and, getLsbD_one_shiftLeft hi]
          by_cases hji : j = i
          · subst hji; simp at hb; simp [hb]
          · simp [hji]
        · intro hb h0
          have := congrArg (fun z => z.getLsbD i) h0
          simp only [BitVec.getLsbD_and, getLsbD_one_shiftLeft hi, hb] at this
          simp at this
      show decide (y &&& (1#w <<< i) ≠ 0#w) = _
      rw [Bool.eq_iff_iff, decide_eq_true_eq]; exact e
    · rw [if_pos (by omega), BitVec.getLsbD_of_ge y i (by omega)]
  refine ⟨h x, fun hi => ?_, ?_⟩
  · rw [h, h, (C80_flip x i).1 i rfl hi]; simp
  · unfold isBitSet; rw [if_pos (by omega)]

/-- **C80 (`bool`, violated).** Flipping bit `p` (1 ≤ p ≤ 7) of a `bool` twice does not restore `false`, and once does not change
`true`. -/
theorem C80_bool_violated (p : Nat) (h1 : 1 ≤ p) (h2 : p ≤ 7) :
    flipBool (flipBool false p) p = true ∧ flipBool true p = true := by
  have : p = 1 ∨ p = 2 ∨ p = 3 ∨ p = 4 ∨ p = 5 ∨ p = 6 ∨ p = 7 := by omega
  rcases this with h | h | h | h | h | h | h <;> subst h <;> decide

example : flipBit 0x80000001#32 31 = 1#32 ∧ countBitDifferences 4 0x80000001#32 (flipBit 0x80000001#32 31) = 1 :=
  ⟨by decide, (C80_flip_counts_one 4 (by simp) _ 31 (by omega)).1⟩

/-! ### C81: systematic fault injection -/

theorem start_lt {total : Nat} (ht : 0 < total) (s : Int) (d : Draws) : startBit total s d < total := by
  unfold startBit; simp only; omega

theorem start_eq {total : Nat} (i : Nat) (hi : i < total) (d : Draws) : startBit total i d = i := by
  unfold startBit; simp only; rw [if_neg (by omega)]; omega

theorem mem_block {k total s j : Nat} (hk : 0 < k) : j ∈ block k total s ↔ j / k = s / k ∧ j < total := by
  unfold block
  rw [List.mem_filter, List.mem_map]
  constructor
  · rintro ⟨⟨i, hi, rfl⟩, h⟩
    rw [List.mem_range] at hi
    refine ⟨?_, by simpa using h⟩
    rw [Nat.mul_comm, Nat.mul_add_div hk, Nat.div_eq_of_lt hi, Nat.add_zero]
  · rintro ⟨h1, h2⟩
    refine ⟨⟨j % k, List.mem_range.mpr (Nat.mod_lt _ hk), ?_⟩, by simpa using h2⟩
    rw [← h1, Nat.mul_comm]; exact Nat.div_add_mod j k

theorem nodup_block (k total s : Nat) : (block k total s).Nodup := by
  unfold block
  apply List.Nodup.filter
  apply List.Nodup.map
  · intro a b h; simpa using h
  · exact List.nodup_range

theorem mem_column {total s j : Nat} (hs : s < total) : j ∈ column total s ↔ j % 8 = s % 8 ∧ j / 8 ≠ s / 8 ∧ j < total := by
  unfold column
  rw [List.mem_map]
  constructor
  · rintro ⟨i, hi, rfl⟩
    rw [List.mem_filter, List.mem_map] at hi
    obtain ⟨⟨q, hq, rfl⟩, h⟩ := hi
    rw [decide_eq_true_eq] at h
    have hm : s % 8 < 8 := Nat.mod_lt _ (by omega)
    refine ⟨by omega, ?_, h.2⟩
    intro he
    apply h.1
    omega
  · rintro ⟨h1, h2, h3⟩
    refine ⟨8 * (j / 8), ?_, by omega⟩
    rw [List.mem_filter, List.mem_map]
    refine ⟨⟨j / 8, by rw [List.mem_range]; omega, rfl⟩, ?_⟩
    rw [decide_eq_true_eq]
    exact ⟨by omega, by omega⟩

theorem nodup_column (total s : Nat) : (column total s).Nodup := by
  unfold column
  apply List.Nodup.map
  · intro a b h; simpa using h
  apply List.Nodup.filter
  apply List.Nodup.map
  · intro a b h; simp only at h; omega
  · exact List.nodup_range

theorem wrap_lt {total : Nat} (ht : 0 < total) (x : Int) : wrapBit total x < total := by
  unfold wrapBit
  simp only
  have h1 := Int.tmod_lt_of_pos x (by omega : (0 : Int) < total)
  have h2 : -(total : Int) < x.tmod total := Int.lt_tmod_of_pos x (by omega)
  split <;> omega

/-- **C81 (positions).** Whatever the pattern, the requested position (also negative or too large) and the draws, every position
returned lies inside the value. -/
theorem C81_in_range (p : Pattern) (total : Nat) (ht : 0 < total) (start : Int) (d : Draws) :
    ∀ i ∈ getBitsToFlip p total start d, i < total := by
  intro i hi
  have hs := start_lt ht start d
  cases p with
  | singleBit => simp only [getBitsToFlip, List.mem_singleton] at hi; rw [hi]; exact hs
  | adjacentBits =>
    simp only [getBitsToFlip, List.mem_map] at hi
    obtain ⟨_, _, rfl⟩ := hi; exact Nat.mod_lt _ ht
  | byteError => exact ((mem_block (by omega)).mp hi).2
  | wordError => exact ((mem_block (by omega)).mp hi).2
  | stuckAtZero => simp only [getBitsToFlip, List.mem_singleton] at hi; rw [hi]; exact hs
  | stuckAtOne => simp only [getBitsToFlip, List.mem_singleton] at hi; rw [hi]; exact hs
  | rowColumn =>
    rcases List.mem_append.mp hi with h | h
    · exact ((mem_block (by omega)).mp h).2
    · exact ((mem_column hs).mp h).2.2
  | burstError =>
    simp only [getBitsToFlip, List.mem_map] at hi
    obtain ⟨_, _, rfl⟩ := hi; exact wrap_lt ht _

/-- Patterns that flip bits. -/
def Flips (p : Pattern) : Prop := p ≠ .stuckAtZero ∧ p ≠ .stuckAtOne

theorem flips_fold {w : Nat} {p : Pattern} (hp : Flips p) (l : List Nat) : ∀ (x : BitVec w) (j : Nat), j < w →
    (l.foldl (applyBit p) x).getLsbD j = (x.getLsbD j ^^ decide (l.count j % 2 = 1)) := by
  induction l with
  | nil => intro x j _; simp
  | cons i l ih =>
    intro x j hj
    rw [List.foldl_cons, ih _ j hj]
    have e : applyBit p x i = if i < w then x ^^^ (1#w <<< i) else x := by
      unfold applyBit
      split
      · cases p with
        | stuckAtZero => exact absurd rfl hp.1
        | stuckAtOne => exact absurd rfl hp.2
        | _ => rfl
      · rfl
    rw [e, List.count_cons]
    by_cases hi : i < w
    · rw [if_pos hi, bit_xor x i j hi]
      by_cases hji : j = i
      · subst hji
        simp only [decide_true, beq_self_eq_true, if_true]
        rcases Nat.mod_two_eq_zero_or_one (List.count j l) with h | h
        · have h' : (List.count j l + 1) % 2 = 1 := by omega
          simp [h, h']
        · have h' : (List.count j l + 1) % 2 = 0 := by omega
          simp [h, h']
      · have hij : (i == j) = false := by simp; exact fun h => hji h.symm
        simp [hji, hij]
    · rw [if_neg hi]
      have hij : (i == j) = false := by simp; omega
      simp [hij]

theorem flips_nodup {w : Nat} {p : Pattern} (hp : Flips p) (l : List Nat) (hl : l.Nodup) (x : BitVec w) (j : Nat) (hj : j < w) :
    (l.foldl (applyBit p) x).getLsbD j = (x.getLsbD j ^^ decide (j ∈ l)) := by
  rw [flips_fold hp l x j hj]
  congr 1
  by_cases h : j ∈ l
  · rw [List.count_eq_one_of_mem hl h]; simp [h]
  · rw [List.count_eq_zero_of_not_mem h]; simp [h]

/-- **C81 (single bit).** SINGLE_BIT at position `i` flips exactly bit `i`. -/
theorem C81_single {w : Nat} (x : BitVec w) (i : Nat) (hi : i < w) (d1 d2 : Draws) (j : Nat) (hj : j < w) :
    (injectFault x .singleBit i d1 d2).getLsbD j = (x.getLsbD j ^^ decide (j = i)) := by
  unfold injectFault
  simp only
  rw [if_neg (by omega)]
  simp only [getBitsToFlip, start_eq i hi]
  rw [flips_nodup ⟨by simp, by simp⟩ _ (by simp) x j hj]
  simp

/-- **C81 (stuck bits).** STUCK_AT_ZERO/ONE at position `i` make bit `i` 0/1 and change nothing else; doing it again changes
nothing. -/
theorem C81_stuck {w : Nat} (x : BitVec w) (i : Nat) (hi : i < w) (d1 d2 : Draws) (j : Nat) (hj : j < w) :
    (injectFault x .stuckAtZero i d1 d2).getLsbD j = (if j = i then false else x.getLsbD j) ∧
    (injectFault x .stuckAtOne i d1 d2).getLsbD j = (if j = i then true else x.getLsbD j) := by
  unfold injectFault
  simp only
  rw [if_neg (by omega)]
  simp only [getBitsToFlip, start_eq i hi, List.foldl_cons, List.foldl_nil, applyBit, if_pos hi]
  constructor
  · rw [BitVec.getLsbD_and, BitVec.getLsbD_not, getLsbD_one_shiftLeft hi]
    by_cases h : j = i <;> simp [h, hj]
  · rw [BitVec.getLsbD_or, getLsbD_one_shiftLeft hi]
    by_cases h : j = i <;> simp [h]

/-- **C81 (bytes and words).** BYTE_ERROR (WORD_ERROR) at position `i` flips exactly the bits of the aligned byte (32-bit word)
containing `i`. -/
theorem C81_block {w : Nat} (x : BitVec w) (i : Nat) (hi : i < w) (d1 d2 : Draws) (j : Nat) (hj : j < w) :
    (injectFault x .byteError i d1 d2).getLsbD j = (x.getLsbD j ^^ decide (j / 8 = i / 8)) ∧
    (injectFault x .wordError i d1 d2).getLsbD j = (x.getLsbD j ^^ decide (j / 32 = i / 32)) := by
  unfold injectFault
  simp only
  rw [if_neg (by omega)]
  simp only [getBitsToFlip, start_eq i hi]
  constructor
  · rw [flips_nodup ⟨by simp, by simp⟩ _ (nodup_block _ _ _) x j hj]
    simp [mem_block, hj]
  · rw [flips_nodup ⟨by simp, by simp⟩ _ (nodup_block _ _ _) x j hj]
    simp [mem_block, hj]

/-- **C81 (row and column).** ROW_COLUMN at position `i` flips exactly the bits in the same byte and the bits at the same place of
the other bytes, each once. -/
theorem C81_row_column {w : Nat} (x : BitVec w) (i : Nat) (hi : i < w) (d1 d2 : Draws) (j : Nat) (hj : j < w) :
    (injectFault x .rowColumn i d1 d2).getLsbD j = (x.getLsbD j ^^ decide (j / 8 = i / 8 ∨ j % 8 = i % 8)) := by
  unfold injectFault
  simp only
  rw [if_neg (by omega)]
  simp only [getBitsToFlip, start_eq i hi]
  rw [flips_nodup ⟨by simp, by simp⟩]
  · congr 1
    rw [decide_eq_decide, List.mem_append, mem_block (by omega), mem_column hi]
    constructor
    · rintro (h | h)
      · exact Or.inl h.1
      · exact Or.inr h.1
    · intro h
      by_cases hb : j / 8 = i / 8
      · exact Or.inl ⟨hb, hj⟩
      · exact Or.inr ⟨h.resolve_left hb, hb, hj⟩
  · rw [List.nodup_append]
    refine ⟨nodup_block _ _ _, nodup_column _ _, ?_⟩
    intro a ha b hb hab
    subst hab
    exact ((mem_column hi).mp hb).2.1 ((mem_block (by omega)).mp ha).1
  · exact hj

/-- **C81 (adjacent bits, partial).** ADJACENT_BITS at position `i` flips exactly two or three adjacent bits starting at `i`, provided
they all fit.  Missing: positions near the end, see `C81_adjacent_violated`. -/
theorem C81_adjacent_partial {w : Nat} (x : BitVec w) (i : Nat) (d1 d2 : Draws) (hv : d2.Valid w) (hi : i + 3 ≤ w) (j : Nat)
    (hj : j < w) :
    (injectFault x .adjacentBits i d1 d2).getLsbD j = (x.getLsbD j ^^ decide (i ≤ j ∧ j < i + d2.num)) ∧
    (d2.num = 2 ∨ d2.num = 3) := by
  refine ⟨?_, hv.2.2.1⟩
  have hn := hv.2.2.1
  unfold injectFault
  simp only
  rw [if_neg (by omega)]
  simp only [getBitsToFlip, start_eq i (by omega : i < w)]
  have e : ((List.range d2.num).map fun k => (i + k) % w) = (List.range d2.num).map fun k => i + k := by
    apply List.map_congr_left
    intro k hk
    rw [List.mem_range] at hk
    exact Nat.mod_eq_of_lt (by omega)
  rw [e, flips_nodup ⟨by simp, by simp⟩ _ _ x j hj]
  · congr 1
    rw [decide_eq_decide, List.mem_map]
    constructor
    · rintro ⟨k, hk, rfl⟩
      rw [List.mem_range] at hk
      omega
    · intro h
      exact ⟨j - i, by rw [List.mem_range]; omega, by omega⟩
  · apply List.Nodup.map
    · intro a b h; simpa using h
    · exact List.nodup_range

/-- **C81 (adjacent bits, violated).** At the last position of any value of at least four bits, the two "adjacent" bits flipped are
the most and the least significant one. -/
theorem C81_adjacent_violated {w : Nat} (hw : 4 ≤ w) (x : BitVec w) (d1 d2 : Draws) (hn : d2.num = 2) (j : Nat) (hj : j < w) :
    (injectFault x .adjacentBits ((w - 1 : Nat) : Int) d1 d2).getLsbD j = (x.getLsbD j ^^ decide (j = w - 1 ∨ j = 0)) := by
  unfold injectFault
  simp only
  rw [if_neg (by omega)]
  simp only [getBitsToFlip, start_eq (w - 1) (by omega : w - 1 < w), hn]
  have e : ((List.range 2).map fun k => (w - 1 + k) % w) = [w - 1, 0] := by
    have h1 : (w - 1 + 1) % w = 0 := by rw [Nat.sub_add_cancel (by omega)]; exact Nat.mod_self w
    have h0 : (w - 1 + 0) % w = w - 1 := Nat.mod_eq_of_lt (by omega)
    show [(w - 1 + 0) % w, (w - 1 + 1) % w] = _
    rw [h0, h1]
  rw [e, flips_nodup ⟨by simp, by simp⟩ _ (by simp; omega) x j hj]
  simp

/-- **C81 (reversible).** For every flipping pattern, injecting the same fault again (same position, same draws) restores the value. -/
theorem C81_reversible {w : Nat} (p : Pattern) (hp : Flips p) (x : BitVec w) (pos : Int) (d1 d2 : Draws) :
    injectFault (injectFault x p pos d1 d2) p pos d1 d2 = x := by
  apply BitVec.eq_of_getLsbD_eq
  intro j hj
  unfold injectFault
  simp only
  rw [flips_fold hp _ _ j hj, flips_fold hp _ _ j hj, Bool.xor_assoc, Bool.xor_self, Bool.xor_false]

/-- **C81 (position too large).** Positions beyond the end behave as the last bit. -/
theorem C81_clamped {w : Nat} (hw : 0 < w) (x : BitVec w) (p : Pattern) (pos : Int) (h : (w : Int) ≤ pos) (d1 d2 : Draws) :
    injectFault x p pos d1 d2 = injectFault x p ((w - 1 : Nat) : Int) d1 d2 := by
  have e : startBit w pos d2 = startBit w ((w - 1 : Nat) : Int) d2 := by
    unfold startBit; simp only; rw [if_neg (by omega), if_neg (by omega)]; congr 1; omega
  unfold injectFault
  simp only
  rw [if_neg (by omega : ¬ pos < 0), if_neg (by omega : ¬ (((w - 1 : Nat) : Int) < 0))]
  unfold getBitsToFlip
  rw [e]

/-- **C81 (bursts without effect, violated).** BURST_ERROR draws positions with repetition: there are draws for which the injected
burst leaves every value unchanged. -/
theorem C81_burst_violated (w : Nat) (hw : 2 ≤ w) : ∃ d2 : Draws, d2.Valid w ∧ ∀ (x : BitVec w) (pos : Int) (d1 : Draws),
    injectFault x .burstError pos d1 d2 = x := by
  refine ⟨⟨0, 2, 1, fun _ => 0⟩, ⟨by simp, by simp; omega, Or.inl rfl, by simp; omega⟩, ?_⟩
  intro x pos d1
  apply BitVec.eq_of_getLsbD_eq
  intro j hj
  unfold injectFault
  simp only
  rw [flips_fold ⟨by simp, by simp⟩ _ _ j hj]
  have h0 : wrapBit w 0 = 0 := by unfold wrapBit; simp
  have : getBitsToFlip .burstError w (if pos < 0 then d1.start else pos) ⟨0, 2, 1, fun _ => 0⟩ = List.replicate 6 0 := by
    simp only [getBitsToFlip, h0]
    rfl
  rw [this, List.count_replicate]
  split <;> simp

/-- **C81 (small types, violated).** For every value of a type of fewer than eight bytes — `float`, `int32_t`, … — the injection reads
a whole `std::bitset` word from the value: undefined behaviour (64-bit libraries).  For `double` and 64-bit integers it is
defined. -/
theorem C81_small_types_violated (n : Nat) (x : BitVec (8 * n)) (p : Pattern) (pos : Int) (d1 d2 : Draws) :
    (0 < n ∧ n < 8 → injectFaultMem n x p pos d1 d2 = .ub) ∧
    (n = 8 → injectFaultMem n x p pos d1 d2 = .ok (injectFault x p pos d1 d2)) := by
  unfold injectFaultMem bitsetBytes
  constructor
  · intro h; rw [if_neg (by omega)]
  · intro h; rw [if_pos (by omega)]

/-- The draws used in the hypotheses exist. -/
example : Draws.Valid ⟨3, 2, 7, fun _ => -5⟩ 32 ∧ getBitsToFlip .rowColumn 32 13 ⟨3, 2, 7, fun _ => -5⟩ =
    [8, 9, 10, 11, 12, 13, 14, 15, 5, 21, 29] := by
  refine ⟨⟨by decide, by decide, Or.inl rfl, by decide⟩, by decide⟩

/-! ### C82: FaultInjector and testResilience -/

theorem xor_fold (l : List Nat) (hl : ∀ i ∈ l, i < 8) : ∀ (b : BitVec 8) (j : Nat), j < 8 →
    (l.foldl (fun b i => b ^^^ (1#8 <<< i)) b).getLsbD j = (b.getLsbD j ^^ decide (l.count j % 2 = 1)) := by
  induction l with
  | nil => intro b j _; simp
  | cons i l ih =>
    intro b j hj
    rw [List.foldl_cons, ih (fun k hk => hl k (List.mem_cons_of_mem _ hk)) _ j hj, bit_xor b i j (hl i (by simp)), List.count_cons]
    by_cases hji : j = i
    · subst hji
      simp only [decide_true, beq_self_eq_true, if_true]
      rcases Nat.mod_two_eq_zero_or_one (List.count j l) with h | h
      · have h' : (List.count j l + 1) % 2 = 1 := by omega
        simp [h, h']
      · have h' : (List.count j l + 1) % 2 = 0 := by omega
        simp [h, h']
    · have hij : (i == j) = false := by simp; exact fun h => hji h.symm
      simp [hji, hij]

/-- **C82 (locality).** A fault injected into a non-empty region changes only the drawn byte; a single bit flip changes exactly one
bit of it; the stuck-at faults set it to 0x00 and 0xFF. -/
theorem C82_fault_local (mem : List (BitVec 8)) (t : FaultType) (k : Nat) (hk : k < mem.length) (bits : List Nat) (byte : BitVec 8) :
    ∃ m, injectByte mem t k bits byte = .ok m ∧ m.length = mem.length ∧ (∀ i, i ≠ k → m[i]? = mem[i]?) ∧
      (t = .stuckAtZero → m[k]? = some 0x00#8) ∧ (t = .stuckAtOne → m[k]? = some 0xFF#8) ∧
      (∀ bit, bit < 8 → t = .singleBitFlip → bits.head? = some bit →
        ∃ b, m[k]? = some b ∧ ∀ j, j < 8 → b.getLsbD j = (mem[k].getLsbD j ^^ decide (j = bit))) := by
  unfold injectByte
  rw [List.getElem?_eq_getElem hk]
  simp only
  refine ⟨_, rfl, by simp, fun i hi => ?_, ?_, ?_, ?_⟩
  · rw [List.getElem?_set_ne (by omega)]
  · rintro rfl; rw [List.getElem?_set_self hk]; rfl
  · rintro rfl; rw [List.getElem?_set_self hk]; rfl
  · rintro bit hb rfl hbits
    refine ⟨_, List.getElem?_set_self hk, fun j hj => ?_⟩
    have hone : bits.take 1 = [bit] := by
      cases bits with
      | nil => simp at hbits
      | cons x l => simp only [List.head?_cons, Option.some.injEq] at hbits; subst hbits; simp
    show ((List.foldl _ _ _) : BitVec 8).getLsbD j = _
    rw [hone, xor_fold _ (by simp [hb]) _ j hj]
    by_cases h : j = bit
    · subst h; simp
    · have : (bit == j) = false := by simp; exact fun g => h g.symm
      simp [h, List.count_cons, this]

/-- **C82 (multi-bit flips, violated).** MultiBitFlip draws its bits with repetition: two (or four) flips of the same bit leave the
memory unchanged, for every memory and bit. -/
theorem C82_multi_bit_violated (mem : List (BitVec 8)) (k : Nat) (hk : k < mem.length) (bit : Nat) (hb : bit < 8) (byte : BitVec 8) :
    injectByte mem .multiBitFlip k [bit, bit] byte = .ok mem := by
  unfold injectByte
  rw [List.getElem?_eq_getElem hk]
  have e : faultByte .multiBitFlip mem[k] [bit, bit] byte = mem[k] := by
    show (mem[k] ^^^ (1#8 <<< bit)) ^^^ (1#8 <<< bit) = mem[k]
    rw [BitVec.xor_assoc, BitVec.xor_self, BitVec.xor_zero]
  simp only [e, List.set_getElem_self]

/-- **C82 (empty region, violated).** Injecting into an empty region is undefined for every draw. -/
theorem C82_empty_violated (t : FaultType) (k : Nat) (bits : List Nat) (byte : BitVec 8) :
    injectByte [] t k bits byte = .ub ∧ injectRandomBitFlip [] k (bits.headD 0) = .ub := ⟨rfl, rfl⟩

/-- **C82 (random bit flip).** `injectRandomBitFlip` flips exactly the drawn bit of the drawn byte. -/
theorem C82_random_flip (mem : List (BitVec 8)) (k bit : Nat) (hk : k < mem.length) (hb : bit < 8) :
    ∃ m, injectRandomBitFlip mem k bit = .ok m ∧ (∀ i, i ≠ k → m[i]? = mem[i]?) ∧
      ∃ b, m[k]? = some b ∧ ∀ j, b.getLsbD j = (mem[k].getLsbD j ^^ decide (j = bit)) := by
  unfold injectRandomBitFlip
  rw [List.getElem?_eq_getElem hk]
  simp only
  exact ⟨_, rfl, fun i hi => List.getElem?_set_ne (by omega), _, List.getElem?_set_self hk, fun j => bit_xor _ _ _ hb⟩

/-- **C82 (counts).** For every component, every callables and every number of trials: at most one detection per trial and at most one
correction per detection. -/
theorem C82_counts {σ : Type} (inject : Nat → σ → σ) (verify : σ → Bool × σ) (repair : σ → σ) (trials : Int) (c : σ) :
    (testResilience inject verify repair trials c).corrected ≤ (testResilience inject verify repair trials c).detected ∧
    (testResilience inject verify repair trials c).detected ≤ trials.toNat := by
  unfold testResilience
  refine forN_inv (fun n (t : Trial σ) => t.corrected ≤ t.detected ∧ t.detected ≤ n) trials.toNat _ _ ⟨Nat.le_refl _, Nat.le_refl _⟩ ?_
  intro i t _ h
  unfold trial
  simp only
  split
  · simp only
    split <;> constructor <;> omega
  · exact ⟨h.1, by simp only; omega⟩

/-- **C82 (perfect component).** If verification is exact (`good`), leaves the component alone, every injected fault spoils a good
component and the repair restores it, then every trial is counted as detected and corrected. -/
theorem C82_perfect {σ : Type} (good : σ → Prop) [DecidablePred good] (inject : Nat → σ → σ) (repair : σ → σ) (trials : Int) (c : σ)
    (hc : good c) (hi : ∀ i x, good x → ¬ good (inject i x)) (hr : ∀ x, good (repair x)) :
    let t := testResilience inject (fun x => (decide (good x), x)) repair trials c
    t.detected = trials.toNat ∧ t.corrected = trials.toNat ∧ good t.comp := by
  intro t
  show (testResilience _ _ _ _ _).detected = _ ∧ (testResilience _ _ _ _ _).corrected = _ ∧ good (testResilience _ _ _ _ _).comp
  unfold testResilience
  refine forN_inv (fun n (t : Trial σ) => t.detected = n ∧ t.corrected = n ∧ good t.comp) trials.toNat _ _ ⟨rfl, rfl, hc⟩ ?_
  intro i t _ h
  unfold trial
  simp only [hi i t.comp h.2.2, decide_false, Bool.not_false, if_true, hr, decide_true]
  exact ⟨by rw [h.1], by rw [h.2.1], trivial⟩

/-- **C82 (flags, violated).** "corrected" is reported although the last fault was not corrected and the component is left broken: a
component that can be repaired once only, with two trials. -/
theorem C82_flags_violated :
    let t := testResilience (σ := Bool × Nat) (fun _ c => (false, c.2)) (fun c => (c.1, c))
      (fun c => if c.2 = 0 then (true, 1) else c) 2 (true, 0)
    resultFlags t = (true, true) ∧ t.comp.1 = false ∧ t.corrected < t.detected := by decide

example : ∃ (inject : Nat → Nat → Nat) (repair : Nat → Nat), (∀ i x, x = 7 → ¬ inject i x = 7) ∧ (∀ x, repair x = 7) :=
  ⟨fun i _ => 8 + i, fun _ => 7, fun i x _ => by show ¬ 8 + i = 7; omega, fun _ => rfl⟩

/-! ### C83: SEU simulator -/

/-- Bit `k` of the region at `base` (bit `k % 8` of byte `k / 8`). -/
def bitAt (m : Mem) (base k : Nat) : Bool := (m (base + k / 8)).getLsbD (k % 8)

/-- Number of bits in which the region of `size` bytes differs. -/
def changed (m m' : Mem) (base size : Nat) : Nat := countTrue (fun k => bitAt m base k ^^ bitAt m' base k) (8 * size)

theorem flipAt_bit (m : Mem) (base : Nat) (f : Nat × Nat) (hf : f.2 < 8) (k : Nat) :
    bitAt (flipAt m base f) base k = (bitAt m base k ^^ decide (k = 8 * f.1 + f.2)) := by
  unfold bitAt flipAt
  by_cases h : k / 8 = f.1
  · rw [if_pos (by omega), bit_xor _ _ _ hf]
    congr 1
    rw [decide_eq_decide]; omega
  · rw [if_neg (by omega)]
    have : ¬ k = 8 * f.1 + f.2 := by omega
    simp [this]

theorem countTrue_toggle (p : Nat → Bool) (i n : Nat) (hi : i < n) :
    countTrue (fun k => p k ^^ decide (k = i)) n + (p i).toNat = countTrue p n + (!p i).toNat := by
  induction n with
  | zero => omega
  | succ n ih =>
    simp only [countTrue]
    by_cases h : i = n
    · subst h
      have : countTrue (fun k => p k ^^ decide (k = i)) i = countTrue p i :=
        countTrue_congr (fun k hk => by have : ¬ k = i := by omega
                                        simp [this])
      rw [this]
      cases p i <;> simp
    · have := ih (by omega)
      have e : ¬ n = i := fun g => h g.symm
      simp only [e, decide_false, Bool.xor_false]
      omega

theorem changed_flip (m0 m : Mem) (base size : Nat) (f : Nat × Nat) (h1 : f.1 < size) (h2 : f.2 < 8) :
    changed m0 (flipAt m base f) base size = changed m0 m base size + 1 ∨
    changed m0 (flipAt m base f) base size + 1 = changed m0 m base size := by
  have e : changed m0 (flipAt m base f) base size =
      countTrue (fun k => (bitAt m0 base k ^^ bitAt m base k) ^^ decide (k = 8 * f.1 + f.2)) (8 * size) := by
    unfold changed
    apply countTrue_congr
    intro k _
    rw [flipAt_bit m base f h2, Bool.xor_assoc]
  have t := countTrue_toggle (fun k => bitAt m0 base k ^^ bitAt m base k) (8 * f.1 + f.2) (8 * size) (by omega)
  rw [e]
  unfold changed
  cases h : (bitAt m0 base (8 * f.1 + f.2) ^^ bitAt m base (8 * f.1 + f.2))
  · left; simp only [h] at t; simpa using t
  · right; simp only [h] at t; simpa using t

/-- **C83 (injection).** With an environment, a non-null region and draws inside it: the number returned is the number of flips; the
region differs from before in at most that many bits, and in an even or odd number of bits accordingly; memory outside the
region is untouched. -/
theorem C83_inject (m : Mem) (base size : Nat) (flips : List (Nat × Nat)) (hb : base ≠ 0) (hs : size ≠ 0)
    (hf : ∀ f ∈ flips, f.1 < size ∧ f.2 < 8) :
    let r := injectBitFlips true m base size flips
    r.1 = flips.length ∧ changed m r.2 base size ≤ r.1 ∧ changed m r.2 base size % 2 = r.1 % 2 ∧
    ∀ a, ¬ (base ≤ a ∧ a < base + size) → r.2 a = m a := by
  intro r
  have hr : r = (flips.length, flips.foldl (fun m f => flipAt m base f) m) := by
    show injectBitFlips _ _ _ _ _ = _
    unfold injectBitFlips; rw [if_neg (by simp [hb, hs])]
  rw [hr]
  simp only
  have key : ∀ (l : List (Nat × Nat)) (m' : Mem), (∀ f ∈ l, f.1 < size ∧ f.2 < 8) →
      changed m (l.foldl (fun m f => flipAt m base f) m') base size ≤ changed m m' base size + l.length ∧
      changed m (l.foldl (fun m f => flipAt m base f) m') base size % 2 = (changed m m' base size + l.length) % 2 ∧
      ∀ a, ¬ (base ≤ a ∧ a < base + size) → (l.foldl (fun m f => flipAt m base f) m') a = m' a := by
    intro l
    induction l with
    | nil => intro m' _; exact ⟨Nat.le_refl _, rfl, fun _ _ => rfl⟩
    | cons f l ih =>
      intro m' hl
      obtain ⟨h1, h2⟩ := hl f (by simp)
      obtain ⟨i1, i2, i3⟩ := ih (flipAt m' base f) (fun g hg => hl g (List.mem_cons_of_mem _ hg))
      have c := changed_flip m m' base size f h1 h2
      rw [List.foldl_cons, List.length_cons]
      refine ⟨by omega, by omega, fun a ha => ?_⟩
      rw [i3 a ha]
      unfold flipAt
      rw [if_neg (by omega)]
  obtain ⟨k1, k2, k3⟩ := key flips m hf
  have c0 : changed m m base size = 0 := by
    unfold changed
    rw [countTrue_eq_zero_iff]
    intros; simp
  rw [c0] at k1 k2
  exact ⟨trivial, by omega, by rw [k2]; simp, k3⟩

/-- **C83 (nothing to do).** Without an environment, with a null pointer or an empty region, nothing happens and 0 is returned. -/
theorem C83_nothing (env : Bool) (m : Mem) (base size : Nat) (flips : List (Nat × Nat))
    (h : env = false ∨ base = 0 ∨ size = 0) : injectBitFlips env m base size flips = (0, m) := by
  unfold injectBitFlips
  rw [if_pos]
  rcases h with h | h | h
  · left; simp [h]
  · right; left; exact h
  · right; right; exact h

/-- The number of flips reported for each region. -/
def reported (env : Bool) (r : (Nat × Nat) × List (Nat × Nat)) : Nat :=
  if env = true ∧ r.1.1 ≠ 0 ∧ r.1.2 ≠ 0 then r.2.length else 0

theorem inject_count (env : Bool) (m : Mem) (r : (Nat × Nat) × List (Nat × Nat)) :
    (injectBitFlips env m r.1.1 r.1.2 r.2).1 = reported env r := by
  unfold injectBitFlips reported
  by_cases h : env = true ∧ r.1.1 ≠ 0 ∧ r.1.2 ≠ 0
  · rw [if_pos h, if_neg (by simp [h.1, h.2.1, h.2.2])]
  · rw [if_neg h, if_pos]
    by_contra g
    apply h
    simp only [not_or] at g
    exact ⟨by simpa using g.1, g.2.1, g.2.2⟩

/-- **C83 (campaign).** Over any list of regions, the total returned is the sum of the flips (modulo 2^32) and the callback is called
exactly once, in order, for each region with at least one flip, with that region and its number of flips. -/
theorem C83_campaign (env : Bool) (m : Mem) (regions : List ((Nat × Nat) × List (Nat × Nat))) :
    let r := simulateSEUs env m regions
    r.1 = BitVec.ofNat 32 (regions.map (reported env)).sum ∧
    r.2.2 = (regions.filter fun x => reported env x > 0).map fun x => (x.1.1, x.1.2, reported env x) := by
  intro r
  show (simulateSEUs env m regions).1 = _ ∧ (simulateSEUs env m regions).2.2 = _
  unfold simulateSEUs
  have key : ∀ (l : List ((Nat × Nat) × List (Nat × Nat))) (s : BitVec 32 × Mem × List (Nat × Nat × Nat)),
      (l.foldl (fun s r =>
        let q := injectBitFlips env s.2.1 r.1.1 r.1.2 r.2
        (s.1 + BitVec.ofNat 32 q.1, q.2, if q.1 > 0 then s.2.2 ++ [(r.1.1, r.1.2, q.1)] else s.2.2)) s).1 =
        s.1 + BitVec.ofNat 32 (l.map (reported env)).sum ∧
      (l.foldl (fun s r =>
        let q := injectBitFlips env s.2.1 r.1.1 r.1.2 r.2
        (s.1 + BitVec.ofNat 32 q.1, q.2, if q.1 > 0 then s.2.2 ++ [(r.1.1, r.1.2, q.1)] else s.2.2)) s).2.2 =
        s.2.2 ++ (l.filter fun x => reported env x > 0).map fun x => (x.1.1, x.1.2, reported env x) := by
    intro l
    induction l with
    | nil => intro s; simp
    | cons x l ih =>
      intro s
      rw [List.foldl_cons]
      obtain ⟨i1, i2⟩ := ih (s.1 + BitVec.ofNat 32 (injectBitFlips env s.2.1 x.1.1 x.1.2 x.2).1,
        (injectBitFlips env s.2.1 x.1.1 x.1.2 x.2).2,
        if (injectBitFlips env s.2.1 x.1.1 x.1.2 x.2).1 > 0 then
          s.2.2 ++ [(x.1.1, x.1.2, (injectBitFlips env s.2.1 x.1.1 x.1.2 x.2).1)] else s.2.2)
      refine ⟨?_, ?_⟩
      · refine i1.trans ?_
        simp only [inject_count, List.map_cons, List.sum_cons]
        rw [BitVec.add_assoc, ← BitVec.ofNat_add]
      · refine i2.trans ?_
        simp only [inject_count]
        by_cases h : reported env x > 0
        · rw [if_pos h, List.filter_cons_of_pos (by simpa using h), List.map_cons, List.append_assoc]; rfl
        · rw [if_neg h, List.filter_cons_of_neg (by simpa using h)]
  obtain ⟨k1, k2⟩ := key regions (0#32, m, [])
  exact ⟨by rw [k1]; simp, by rw [k2]; simp⟩

example : (simulateSEUs true (fun _ => 0#8) [((100, 4), [(0, 3), (2, 7)]), ((0, 8), [(1, 1)]), ((200, 1), [])]).1 = 2#32 ∧
    (simulateSEUs true (fun _ => 0#8) [((100, 4), [(0, 3), (2, 7)]), ((0, 8), [(1, 1)]), ((200, 1), [])]).2.2 = [(100, 4, 2)] :=
  ⟨rfl, rfl⟩

end Verif.Props.FaultP
