import Verif.Model.MathOps
import Verif.Lemmas.Bits
import Mathlib.Tactic.Basic
import Mathlib.Algebra.Order.Group.Unbundled.Int
/-!
Properties C33 (branchless operations) and C34 (bit manipulation).
-/
namespace Verif.Props.MathOps
open Verif Verif.Spec

/-! ### C33 -/

section branchless
open Verif.Branchless
variable {w : Nat}

/-- The mathematical integer a bit pattern of a signed/unsigned type stands for. -/
def ival (sg : Bool) (x : BitVec w) : Int := if sg then x.toInt else x.toNat

theorem blend (c : Bool) (a b : BitVec w) : (mask c &&& a) ||| (~~~ mask c &&& b) = if c then a else b := by
  cases c <;> simp [mask]

theorem leB_iff (sg : Bool) (a b : BitVec w) : leB sg a b = true ↔ ival sg a ≤ ival sg b := by
  cases sg
  · simp [leB, ival, BitVec.ule]
  · simp [leB, ival, BitVec.sle]

/-- **C33.** For every integer width, signed or unsigned, and all operands, `min` and `max` return the operand with
the smaller/larger value. -/
theorem C33_min_max (sg : Bool) (a b : BitVec w) :
    ival sg (Branchless.min sg a b) = Min.min (ival sg a) (ival sg b) ∧
    (Branchless.min sg a b = a ∨ Branchless.min sg a b = b) ∧
    ival sg (Branchless.max sg a b) = Max.max (ival sg a) (ival sg b) ∧
    (Branchless.max sg a b = a ∨ Branchless.max sg a b = b) := by
  unfold Branchless.min Branchless.max
  rw [blend, blend]
  refine ⟨?_, ?_, ?_, ?_⟩
  · split
    next h => rw [leB_iff] at h; omega
    next h => rw [leB_iff] at h; omega
  · split <;> simp
  · split
    next h => rw [leB_iff] at h; omega
    next h => rw [leB_iff] at h; omega
  · split <;> simp

example : Branchless.min true (-3#32) 5#32 = -3#32 ∧ Branchless.max false (-3#32) 5#32 = -3#32 := by decide

/-- **C33.** `select` returns the chosen operand; `clamp` returns `max (min x high) low`, i.e. for `low ≤ high` the
value in `[low, high]` nearest to `x`. -/
theorem C33_select_clamp (sg : Bool) (c : Bool) (x lo hi : BitVec w) :
    select c x lo = (if c then x else lo) ∧
    ival sg (clamp sg x lo hi) = Max.max (Min.min (ival sg x) (ival sg hi)) (ival sg lo) ∧
    (ival sg lo ≤ ival sg hi → ival sg lo ≤ ival sg (clamp sg x lo hi) ∧
      ival sg (clamp sg x lo hi) ≤ ival sg hi ∧
      (ival sg lo ≤ ival sg x → ival sg x ≤ ival sg hi → clamp sg x lo hi = x)) := by
  have h0 : ival sg (clamp sg x lo hi) = Max.max (Min.min (ival sg x) (ival sg hi)) (ival sg lo) := by
    unfold clamp
    simp only
    rw [blend, blend]
    by_cases h1 : leB sg x hi = true
    · rw [if_pos h1]
      by_cases h2 : leB sg lo x = true
      · rw [if_pos h2]; rw [leB_iff] at h1 h2; omega
      · rw [if_neg h2]; rw [leB_iff] at h1 h2; omega
    · rw [if_neg h1]
      by_cases h2 : leB sg lo hi = true
      · rw [if_pos h2]; rw [leB_iff] at h1 h2; omega
      · rw [if_neg h2]; rw [leB_iff] at h1 h2; omega
  refine ⟨blend c x lo, h0, fun h => ⟨by omega, by omega, fun hl hh => ?_⟩⟩
  unfold clamp
  simp only
  rw [blend, blend]
  have h1 := (leB_iff sg x hi).2 hh
  have h2 := (leB_iff sg lo x).2 hl
  rw [if_pos h1, if_pos h2]

example : clamp true (-9#32) (-4#32) 7#32 = -4#32 ∧ clamp true (9#32) (-4#32) 7#32 = 7#32 ∧
    ival true (-4#32) ≤ ival true 7#32 := by decide

theorem sign_mask (x : BitVec w) (hw : 0 < w) :
    x.sshiftRight (w - 1) = if x.toInt < 0 then BitVec.allOnes w else 0 := by
  apply BitVec.eq_of_getLsbD_eq
  intro i hi
  rw [BitVec.getLsbD_sshiftRight]
  have hm : x.msb = decide (x.toInt < 0) := by rw [BitVec.msb_eq_toInt]
  have hlast : x.getLsbD (w - 1) = x.msb := by
    rw [BitVec.msb_eq_getLsbD_last]
  by_cases h : x.toInt < 0
  · rw [if_pos h]
    by_cases hi0 : w - 1 + i < w
    · have : w - 1 + i = w - 1 := by omega
      simp [hi, this, hlast, hm, h]
    · simp [hi, hi0, hm, h]
  · rw [if_neg h]
    by_cases hi0 : w - 1 + i < w
    · have : w - 1 + i = w - 1 := by omega
      simp [this, hlast, hm, h]
    · simp [hi0, hm, h]

theorem toInt_bounds (x : BitVec w) (_hw : 0 < w) : -2 ^ (w - 1) ≤ x.toInt ∧ x.toInt < 2 ^ (w - 1) := by
  exact ⟨BitVec.le_toInt x, BitVec.toInt_lt⟩

theorem not_toInt (x : BitVec w) (hw : 0 < w) : (~~~ x).toInt = -1 - x.toInt := by
  rw [BitVec.toInt_not]
  have hb := toInt_bounds x hw
  have hlt := x.isLt
  have hbm : x.toInt = Int.bmod x.toNat (2 ^ w) := BitVec.toInt_eq_toNat_bmod x
  have hp : ((2 ^ w : Nat) : Int) = 2 * 2 ^ (w - 1) := by
    obtain ⟨k, rfl⟩ : ∃ k, w = k + 1 := ⟨w - 1, by omega⟩
    simp only [Nat.add_sub_cancel]; push_cast; omega
  have h1 : (2 ^ w - 1 - (x.toNat : Int)) = (-1 - (x.toNat : Int)) + ((2 ^ w : Nat) : Int) := by push_cast; omega
  rw [h1, Int.add_bmod_right]
  have h2 : (-1 - (x.toNat : Int)).bmod (2 ^ w) = (-1 - x.toInt).bmod (2 ^ w) := by
    rw [hbm, Int.sub_bmod_bmod]
  rw [h2]
  apply Int.bmod_eq_of_le
  · rw [hp]; omega
  · rw [hp]; omega

/-- **C33.** For every signed type, `abs` returns the absolute value whenever that is representable; for the most
negative value it is undefined (types of `int`'s width or more) or returns the argument (narrower types).  `sign`
returns -1, 0 or 1 according to the sign of its argument. -/
theorem C33_abs_sign (hw : 8 ≤ w) (x : BitVec w) :
    (x.toInt ≠ -2 ^ (w - 1) → ∃ r, Branchless.abs x = .ok r ∧ r.toInt = |x.toInt|) ∧
    (x.toInt = -2 ^ (w - 1) → Branchless.abs x = if 32 ≤ w then .ub else .ok x) ∧
    (sign x).toInt = (if 0 < x.toInt then 1 else if x.toInt < 0 then -1 else 0) := by
  have hw0 : 0 < w := by omega
  have hb := toInt_bounds x hw0
  have hp31 : (2 : Int) ^ 7 ≤ 2 ^ (w - 1) := by
    have := Nat.pow_le_pow_right (n := 2) (by omega) (show 7 ≤ w - 1 by omega)
    exact_mod_cast this
  have hp : ((2 ^ w : Nat) : Int) = 2 * 2 ^ (w - 1) := by
    obtain ⟨k, rfl⟩ : ∃ k, w = k + 1 := ⟨w - 1, by omega⟩
    simp only [Nat.add_sub_cancel]; push_cast; omega
  have hofint : ∀ z : Int, -2 ^ (w - 1) ≤ z → z < 2 ^ (w - 1) → (BitVec.ofInt w z).toInt = z := by
    intro z h1 h2
    rw [BitVec.toInt_ofInt]
    apply Int.bmod_eq_of_le
    · rw [hp]; omega
    · rw [hp]; omega
  have habs : |x.toInt| = Max.max x.toInt (-x.toInt) := rfl
  have hdiff : (x ^^^ x.sshiftRight (w - 1)).toInt - (x.sshiftRight (w - 1)).toInt = |x.toInt| := by
    rw [sign_mask x hw0]
    by_cases h : x.toInt < 0
    · rw [if_pos h]
      have e1 : x ^^^ BitVec.allOnes w = ~~~ x := by simp
      have e2 : (BitVec.allOnes w).toInt = -1 := by
        have := not_toInt (0 : BitVec w) hw0
        simpa using this
      rw [e1, e2, not_toInt x hw0]
      omega
    · rw [if_neg h]; simp; omega
  refine ⟨fun hne => ?_, fun he => ?_, ?_⟩
  · refine ⟨BitVec.ofInt w |x.toInt|, ?_, hofint _ (by omega) (by omega)⟩
    unfold Branchless.abs
    simp only [hdiff]
    rw [if_neg (by omega)]
  · unfold Branchless.abs
    simp only [hdiff]
    by_cases h32 : 32 ≤ w
    · rw [if_pos (by omega), if_pos h32]
    · rw [if_neg (by omega), if_neg h32]
      congr 1
      have e : |x.toInt| = x.toInt + ((2 ^ w : Nat) : Int) := by rw [hp]; omega
      apply BitVec.eq_of_toInt_eq
      rw [e, BitVec.toInt_ofInt, Int.add_bmod_right]
      apply Int.bmod_eq_of_le
      · rw [hp]; omega
      · rw [hp]; omega
  · unfold sign
    have h1 : ((0 : BitVec w).slt x) = decide (0 < x.toInt) := by simp [BitVec.slt]
    have h2 : (x.slt 0) = decide (x.toInt < 0) := by simp [BitVec.slt]
    rw [h1, h2]
    by_cases ha : 0 < x.toInt
    · have hb2 : ¬ x.toInt < 0 := by omega
      rw [if_pos ha]
      simp only [ha, hb2, decide_true, decide_false, Bool.toNat_true, Bool.toNat_false]
      rw [hofint] <;> omega
    · by_cases hb2 : x.toInt < 0
      · rw [if_neg ha, if_pos hb2]
        simp only [ha, hb2, decide_true, decide_false, Bool.toNat_true, Bool.toNat_false]
        rw [hofint] <;> omega
      · rw [if_neg ha, if_neg hb2]
        simp only [ha, hb2, decide_false, Bool.toNat_false]
        rw [hofint] <;> omega

example : (-5#32).toInt ≠ -2 ^ 31 ∧ Branchless.abs (-5#32) = .ok 5#32 ∧
    Branchless.abs (BitVec.intMin 32) = .ub ∧ Branchless.abs (BitVec.intMin 8) = .ok (BitVec.intMin 8) ∧ sign (-5#32) = -1#32 := by
  decide

end branchless

/-! ### C34 -/

section bits
open Verif.BitManip
variable {w : Nat}

/-- `pos` names a bit of a `w`-bit value. -/
def Valid (w : Nat) (pos : Int) : Prop := 0 ≤ pos ∧ pos < w

instance (w : Nat) (pos : Int) : Decidable (Valid w pos) := inferInstanceAs (Decidable (_ ∧ _))

theorem getLsbD_flipBit (v : BitVec w) (pos : Int) (i : Nat) :
    (flipBit v pos).getLsbD i = if Valid w pos ∧ (i : Int) = pos then !v.getLsbD i else v.getLsbD i := by
  unfold flipBit
  by_cases h : pos < 0 ∨ pos ≥ w
  · rw [if_pos h, if_neg]
    rintro ⟨⟨h1, h2⟩, _⟩; omega
  · rw [if_neg h, BitVec.getLsbD_xor, getLsbD_one_shiftLeft (by omega)]
    by_cases hi : (i : Int) = pos
    · rw [if_pos ⟨⟨by omega, by omega⟩, hi⟩]
      have : i = pos.toNat := by omega
      simp [this]
    · rw [if_neg (fun h => hi h.2)]
      have : ¬ i = pos.toNat := by omega
      simp [this]

/-- **C34.** For every width (all integer types, `float`, `double`), value and position: `flipBit` inverts exactly the
named bit, leaves all other bits alone, and does nothing for an out-of-range position. -/
theorem C34_flip_exact (v : BitVec w) (pos : Int) :
    (∀ i, i < w → (i : Int) ≠ pos → (flipBit v pos).getLsbD i = v.getLsbD i) ∧
    (∀ i, i < w → (i : Int) = pos → (flipBit v pos).getLsbD i = !v.getLsbD i) ∧
    (¬ Valid w pos → flipBit v pos = v) := by
  refine ⟨fun i _ h => ?_, fun i hi h => ?_, fun h => ?_⟩
  · rw [getLsbD_flipBit, if_neg (fun h' => h h'.2)]
  · rw [getLsbD_flipBit, if_pos ⟨⟨by omega, by omega⟩, h⟩]
  · unfold flipBit; rw [if_pos]; unfold Valid at h; omega

example : flipBit 0x40490FDB#32 31 = 0xC0490FDB#32 ∧ flipBit 5#8 8 = 5#8 ∧ flipBit 5#8 (-1) = 5#8 := by decide

/-- **C34.** Flipping the same position twice restores the value. -/
theorem C34_flip_involutive (v : BitVec w) (pos : Int) : flipBit (flipBit v pos) pos = v := by
  apply BitVec.eq_of_getLsbD_eq
  intro i _
  rw [getLsbD_flipBit, getLsbD_flipBit]
  split <;> simp

/-- **C34.** `isBitSet` reports exactly the named bit, `false` for positions out of range. -/
theorem C34_isBitSet (v : BitVec w) (pos : Int) :
    (Valid w pos → isBitSet v pos = v.getLsbD pos.toNat) ∧ (¬ Valid w pos → isBitSet v pos = false) := by
  refine ⟨fun h => ?_, fun h => ?_⟩
  · unfold isBitSet
    obtain ⟨h1, h2⟩ := h
    rw [if_neg (by omega)]
    have e : v &&& (1#w <<< pos.toNat) = if v.getLsbD pos.toNat then 1#w <<< pos.toNat else 0#w := by
      apply BitVec.eq_of_getLsbD_eq
      intro i _
      rw [BitVec.getLsbD_and, getLsbD_one_shiftLeft (by omega)]
      by_cases hi : i = pos.toNat
      · subst hi
        by_cases hv : v.getLsbD pos.toNat = true
        · simp [hv, getLsbD_one_shiftLeft (show pos.toNat < w by omega)]
        · simp [hv]
      · by_cases hv : v.getLsbD pos.toNat = true
        · simp [hv, hi, getLsbD_one_shiftLeft (show pos.toNat < w by omega)]
        · simp [hv, hi]
    rw [e]
    by_cases hv : v.getLsbD pos.toNat = true
    · rw [if_pos hv, hv]
      have : (1#w <<< pos.toNat) ≠ 0#w := by
        intro e
        have := congrArg (fun x => x.getLsbD pos.toNat) e
        simp [getLsbD_one_shiftLeft (show pos.toNat < w by omega)] at this
      simp [this]
    · rw [if_neg hv]; simp [hv]
  · unfold isBitSet; rw [if_pos]; unfold Valid at h; omega

example : Valid 32 31 ∧ isBitSet (BitVec.intMin 32) 31 = true ∧ isBitSet (BitVec.intMin 32) 32 = false := by
  refine ⟨⟨by omega, by omega⟩, by decide, by decide⟩

theorem countLoop_eq {w : Nat} (d : BitVec w) : ∀ c, countLoop d c = c + popcount d := by
  induction h : d.toNat using Nat.strongRecOn generalizing d with
  | _ n ih =>
    intro c
    rw [countLoop]
    by_cases h0 : d = 0
    · rw [dif_pos h0, h0]; simp [show (0 : BitVec w) = 0#w from rfl, popcount_zero]
    · rw [dif_neg h0]
      have hne : d.toNat ≠ 0 := fun e => h0 (BitVec.eq_of_toNat_eq (by simpa using e))
      have hlt : (d >>> 1).toNat < n := by
        rw [BitVec.toNat_ushiftRight, Nat.shiftRight_eq_div_pow]; omega
      rw [ih _ hlt (d >>> 1) rfl, popcount_ushiftRight_one d]
      have : (d &&& 1#w).toNat = (d.getLsbD 0).toNat := by
        rw [BitVec.toNat_and]
        by_cases hw : w = 0
        · subst hw; simp [BitVec.of_length_zero]
        · have : (1#w).toNat = 1 := by
            rw [BitVec.toNat_ofNat]; apply Nat.mod_eq_of_lt; exact Nat.one_lt_two_pow hw
          rw [this, Nat.and_one_is_mod]
          simp only [BitVec.getLsbD, Nat.testBit_zero]
          rcases Nat.mod_two_eq_zero_or_one d.toNat with h | h <;> simp [h]
      omega

theorem countTrue_tri (p q r : Nat → Bool) (h : ∀ i, p i = true → q i = true ∨ r i = true) (n : Nat) :
    countTrue p n ≤ countTrue q n + countTrue r n := by
  induction n with
  | zero => simp [countTrue]
  | succ n ih =>
    have hn := h n
    simp only [countTrue]
    cases hp : p n <;> cases hq : q n <;> cases hr : r n <;> simp [hp, hq, hr] at hn ⊢ <;> omega

/-- Number of positions at which two words differ. -/
def distance (a b : BitVec w) : Nat := countTrue (fun i => a.getLsbD i != b.getLsbD i) w

/-- **C34.** For types of 1, 2, 4 and 8 bytes `countBitDifferences` is the number of differing bit positions; it is a
metric, and a single in-range flip has distance one. -/
theorem C34_count_is_metric {n : Nat} (hn : n = 1 ∨ n = 2 ∨ n = 4 ∨ n = 8) (a b c : BitVec (8 * n)) :
    countBitDifferences a b = distance a b ∧
    (countBitDifferences a b = 0 ↔ a = b) ∧
    countBitDifferences a b = countBitDifferences b a ∧
    countBitDifferences a c ≤ countBitDifferences a b + countBitDifferences b c ∧
    (∀ pos, Valid (8 * n) pos → countBitDifferences a (flipBit a pos) = 1) := by
  have hu : uintBits n = 8 * n := by rcases hn with rfl | rfl | rfl | rfl <;> decide
  have key : ∀ a b : BitVec (8 * n), countBitDifferences a b = distance a b := by
    intro a b
    unfold countBitDifferences distance
    rw [countLoop_eq, Nat.zero_add]
    unfold popcount
    rw [hu]
    apply countTrue_congr
    intro i hi
    simp
  refine ⟨key a b, ?_, ?_, ?_, ?_⟩
  · rw [key]; unfold distance; rw [countTrue_eq_zero_iff]
    constructor
    · intro h
      apply BitVec.eq_of_getLsbD_eq
      intro i hi
      simpa using h i hi
    · rintro rfl; simp
  · rw [key, key]; unfold distance
    apply countTrue_congr
    intro i _
    cases a.getLsbD i <;> cases b.getLsbD i <;> rfl
  · rw [key, key, key]
    apply countTrue_tri
    intro i
    cases a.getLsbD i <;> cases b.getLsbD i <;> cases c.getLsbD i <;> simp
  · intro pos hpos
    rw [key]; unfold distance
    rw [countTrue_eq_one_iff]
    refine ⟨pos.toNat, by have := hpos.1; have := hpos.2; omega, fun i hi => ?_⟩
    rw [getLsbD_flipBit]
    have h1 := hpos.1
    by_cases h : (i : Int) = pos
    · rw [if_pos ⟨hpos, h⟩]; simp; omega
    · rw [if_neg (fun h' => h h'.2)]; simp; omega

example : (4 : Nat) = 1 ∨ 4 = 2 ∨ 4 = 4 ∨ 4 = 8 := by decide

/-- **C34 (violated).** For any other size only one byte takes part: two 16-byte values (`long double`) that differ
have distance zero. -/
theorem C34_count_long_double_violated :
    ∃ a b : BitVec (8 * 16), a ≠ b ∧ countBitDifferences a b = 0 := by
  refine ⟨0, 256, by decide, ?_⟩
  unfold countBitDifferences
  rw [countLoop_eq]
  decide

end bits

end Verif.Props.MathOps
