import Verif.Spec.Faults
import Verif.Lemmas.Voting
/-! Auxiliary lemmas: the classification step of `detectFaultPattern` and the weighted loop. -/
namespace Verif
open Verif.Spec Verif.Voting

theorem countBits_zero {W : Nat} : countBits (0#W) = 0 := by
  rw [countBits_eq_popcount, popcount_zero]

theorem inOneByte_mask32 (d : BitVec 32) (k : Nat) (hk : k < 4) :
    (d &&& (0xFF#32 <<< (k * 8)).signExtend 32 = d) ↔
      ∀ i, d.getLsbD i = true → 8 * k ≤ i ∧ i < 8 * k + 8 := by
  have hm : ∀ i, i < 32 →
      (((0xFF#32 <<< (k * 8)).signExtend 32).getLsbD i = true ↔ (8 * k ≤ i ∧ i < 8 * k + 8)) := by
    have : k = 0 ∨ k = 1 ∨ k = 2 ∨ k = 3 := by omega
    rcases this with h | h | h | h <;> subst h <;> decide
  rw [and_eq_self_iff]
  constructor
  · intro h i hd
    have hi : i < 32 := by
      rcases Nat.lt_or_ge i 32 with h1 | h1
      · exact h1
      · rw [BitVec.getLsbD_of_ge _ _ h1] at hd; cases hd
    exact (hm i hi).mp (h i hi hd)
  · intro h i hi hd; exact (hm i hi).mpr (h i hd)

open Classical in
theorem areByteBoundary32 (d : BitVec 32) : areByteBoundary d = .ok (decide (InOneByte d)) := by
  have hmask : ∀ i, i < 4 → byteBoundaryMask 32 i = .ok ((0xFF#32 <<< (i * 8)).signExtend 32) := by
    intro i hi; unfold byteBoundaryMask; rw [if_pos (by omega)]
  have gen : ∀ n i, n + i = 4 → areByteBoundaryFrom d n i =
      .ok (decide (∃ k, i ≤ k ∧ k < 4 ∧ ∀ j, d.getLsbD j = true → 8 * k ≤ j ∧ j < 8 * k + 8)) := by
    intro n
    induction n with
    | zero =>
      intro i hi
      unfold areByteBoundaryFrom
      congr 1; symm
      rw [decide_eq_false_iff_not]
      rintro ⟨k, h1, h2, _⟩; omega
    | succ n ih =>
      intro i hi
      unfold areByteBoundaryFrom
      rw [hmask i (by omega)]
      simp only
      split
      · rename_i h
        rw [inOneByte_mask32 d i (by omega)] at h
        congr 1; symm
        rw [decide_eq_true_iff]
        exact ⟨i, Nat.le_refl _, by omega, h⟩
      · rename_i h
        rw [inOneByte_mask32 d i (by omega)] at h
        rw [ih (i + 1) (by omega)]
        congr 1
        rw [decide_eq_decide]
        constructor
        · rintro ⟨k, h1, h2, h3⟩; exact ⟨k, by omega, h2, h3⟩
        · rintro ⟨k, h1, h2, h3⟩
          refine ⟨k, ?_, h2, h3⟩
          rcases Nat.lt_or_ge i k with h4 | h4
          · omega
          · have : k = i := by omega
            subst this; exact absurd h3 h
  unfold areByteBoundary
  rw [gen 4 0 rfl]
  congr 1
  rw [decide_eq_decide]
  unfold InOneByte
  constructor
  · rintro ⟨k, _, h2, h3⟩; exact ⟨k, h2, h3⟩
  · rintro ⟨k, h2, h3⟩; exact ⟨k, by omega, h2, h3⟩

theorem areBurstPattern_iff {W : Nat} (d : BitVec W) : areBurstPattern d = true ↔ IsBurst d := by
  unfold areBurstPattern IsBurst
  rw [countBits_eq_popcount]
  simp only [Bool.and_eq_true, decide_eq_true_iff]
  constructor
  · rintro ⟨h1, h2⟩
    exact ⟨(runScan d).1, h1, (runScan_iff d _).mp (Nat.le_refl _), h2⟩
  · rintro ⟨k, h1, h2, h3⟩
    have : k ≤ (runScan d).1 := (runScan_iff d k).mpr h2
    constructor <;> omega

theorem inOneByte_of_popcount_one (d : BitVec 32) (h : popcount d = 1) : InOneByte d := by
  obtain ⟨k, hk, hk'⟩ := countTrue_eq_one_iff.mp h
  refine ⟨k / 8, by omega, ?_⟩
  intro i hi
  have : i < 32 := by
    rcases Nat.lt_or_ge i 32 with h1 | h1
    · exact h1
    · rw [BitVec.getLsbD_of_ge _ _ h1] at hi; cases hi
  have := (hk' i this).mp hi
  omega

/-- The classification step of `detectFaultPattern` on a difference word. -/
theorem classify32 (d : BitVec 32) (p : FaultPattern) :
    (if countBits d = 1 then (.ok .singleBit : Outcome FaultPattern)
     else if areAdjacentBits d then .ok .adjacentBits
     else match areByteBoundary d with
      | .ub => .ub
      | .ok true => .ok .byteError
      | .ok false =>
        if areWordBoundary d then .ok .wordError
        else if areBurstPattern d then .ok .burstError
        else .ok .unknown) = .ok p ↔ Class32 d p := by
  classical
  rw [countBits_eq_popcount, areAdjacentBits_false, areByteBoundary32]
  have hw : areWordBoundary d = decide (16 < popcount d) := by
    unfold areWordBoundary; rw [countBits_eq_popcount]; simp
  rw [hw]
  by_cases h1 : popcount d = 1
  · have hb := inOneByte_of_popcount_one d h1
    rw [if_pos h1]
    cases p <;> simp [Class32, h1, hb]
  · rw [if_neg h1]
    by_cases hb : InOneByte d
    · simp only [Bool.false_eq_true, if_false, hb, decide_true]
      cases p <;> simp [Class32, h1, hb]
    · simp only [Bool.false_eq_true, if_false, hb, decide_false]
      by_cases h16 : 16 < popcount d
      · simp only [h16, decide_true, if_true]
        cases p <;> simp [Class32, h1, hb, h16]
      · simp only [h16, decide_false, Bool.false_eq_true, if_false]
        by_cases hbu : IsBurst d
        · rw [if_pos ((areBurstPattern_iff d).mpr hbu)]
          cases p <;> simp [Class32, h1, hb, h16, hbu] <;> omega
        · rw [if_neg (fun h => hbu ((areBurstPattern_iff d).mp h))]
          cases p <;> simp [Class32, h1, hb, h16, hbu] <;> omega

theorem weighted_loop {w W : Nat} (hW : w ≤ W) (f : Nat → Bool) (i : Nat) (hi : i < w) :
    ((forN w (fun i (result : BitVec W) =>
      result ||| ((if f i = true then 1#W else 0#W) <<< i)) 0#W).setWidth w).getLsbD i = f i := by
  rw [BitVec.getLsbD_setWidth]
  have hW0 : 0 < W := by omega
  have := getLsbD_forN_groups 1 (by omega) (w := W) (fun i => if f i = true then 1#W else 0#W) w
    (by intro i j _ hj
        have : j ≠ 0 := by omega
        cases f i <;> simp [BitVec.getLsbD_one, this]) i
  simp only [Nat.mul_one, Nat.div_one, Nat.mod_one] at this
  rw [this]
  have hiW : i < W := by omega
  cases h : f i <;> simp [hi, hiW, hW0]

end Verif
