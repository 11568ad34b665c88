import Verif.Lemmas.Bits
import Verif.Model.WeightedVoting
import Mathlib.Tactic.Linarith
import Mathlib.Tactic.Ring
import Mathlib.Tactic.FieldSimp
import Mathlib.Tactic.NormNum
import Mathlib.Algebra.Order.Field.Rat
import Mathlib.Algebra.Order.Field.Basic
/-! Auxiliary lemmas for the voting properties. -/
namespace Verif
open Verif.Spec

theorem reconstruct_eq' {w W : Nat} (hW : w ≤ W) (ga gb go : BitVec W) (a b o : BitVec w)
    (eq : BitVec w → BitVec w → Bool) (hne : eq a b = false) :
    Voting.reconstructFromClosestPair eq ga gb go a b o = Voting.bitLevelVote a b o := by
  by_cases hab : a = b
  · subst hab
    have h1 : Voting.bitLevelVote a a o = a := bitLevelVote_twoAgree (Or.inl ⟨rfl, rfl⟩)
    unfold Voting.reconstructFromClosestPair
    rw [hne, h1]
    simp
  · exact reconstruct_eq hW ga gb go a b o eq hne hab

theorem wordErrorVote_cases {w W : Nat} (hW : w ≤ W) (eq : BitVec w → BitVec w → Bool)
    (ga gb gc ga' gb' gc' : BitVec W) (a b c : BitVec w) :
    let r := Voting.wordErrorVote eq ga gb gc ga' gb' gc' a b c
    r = Voting.bitLevelVote a b c ∨ (eq a b = true ∧ r = a) ∨ (eq a c = true ∧ r = a)
      ∨ (eq b c = true ∧ r = b) := by
  intro r
  have hr : r = Voting.wordErrorVote eq ga gb gc ga' gb' gc' a b c := rfl
  unfold Voting.wordErrorVote at hr
  simp only at hr
  split at hr
  · cases h : eq a b with
    | false => left; rw [hr, reconstruct_eq' hW _ _ _ _ _ _ _ h]
    | true =>
      right; left; refine ⟨rfl, ?_⟩
      rw [hr]; unfold Voting.reconstructFromClosestPair; simp [h]
  · split at hr
    · cases h : eq a c with
      | false => left; rw [hr, reconstruct_eq' hW _ _ _ _ _ _ _ h, bitLevelVote_swap23]
      | true =>
        right; right; left; refine ⟨rfl, ?_⟩
        rw [hr]; unfold Voting.reconstructFromClosestPair; simp [h]
    · cases h : eq b c with
      | false => left; rw [hr, reconstruct_eq' hW _ _ _ _ _ _ _ h, bitLevelVote_rot]
      | true =>
        right; right; right; refine ⟨rfl, ?_⟩
        rw [hr]; unfold Voting.reconstructFromClosestPair; simp [h]

theorem burstErrorVote_eq {w W : Nat} (h8 : 8 ∣ w) (hW : w ≤ W) (hW64 : W ≤ 64)
    (ga gb gc : BitVec W) (a b c : BitVec w) :
    Voting.burstErrorVote ga gb gc a b c = Voting.bitLevelVote a b c := by
  apply BitVec.eq_of_getLsbD_eq
  intro i hi
  unfold Voting.burstErrorVote
  rw [getLsbD_bitLevelVote, BitVec.getLsbD_setWidth]
  have key := getLsbD_forN_groups 8 (by omega) (w := W)
    (fun s => Voting.segmentVote ((Voting.loadInto ga a &&& Voting.byteMask W (s * 8)) >>> (s * 8))
      ((Voting.loadInto gb b &&& Voting.byteMask W (s * 8)) >>> (s * 8))
      ((Voting.loadInto gc c &&& Voting.byteMask W (s * 8)) >>> (s * 8))) (w / 8)
    (by
      intro s j _ hj
      have hnj : ¬ j < 8 := by omega
      rw [getLsbD_segmentVote] <;> intros <;> (try rw [getLsbD_segment hW64]) <;>
        (try simp [getLsbD_segment hW64, hnj, maj3]) <;> omega) i
  simp only [key, hi, decide_true, Bool.true_and]
  have hmod : i % 8 < 8 := Nat.mod_lt _ (by omega)
  have hdm := Nat.div_add_mod i 8
  have hmul : w / 8 * 8 = w := Nat.div_mul_cancel h8
  rw [getLsbD_segmentVote]
  · simp only [getLsbD_segment hW64, hmod, decide_true, Bool.true_and]
    have e : i / 8 * 8 + i % 8 = i := by omega
    rw [e, hmul]
    simp only [getLsbD_loadInto hW, hi, if_true]
    have : i < W := by omega
    simp [this]
  · intro j hj; rw [getLsbD_segment hW64]; simp; omega
  · intro j hj; rw [getLsbD_segment hW64]; simp; omega

theorem fastBitCorrection_eq {w W : Nat} (h8 : 8 ∣ w) (hW : w ≤ W) (hW64 : W ≤ 64)
    (ga gb gc : BitVec W) (a b c : BitVec w) :
    Voting.fastBitCorrection ga gb gc a b c = Voting.bitLevelVote a b c := by
  apply BitVec.eq_of_getLsbD_eq
  intro i hi
  unfold Voting.fastBitCorrection
  rw [getLsbD_bitLevelVote, BitVec.getLsbD_setWidth]
  have key := getLsbD_forN_groups 8 (by omega) (w := W)
    (fun s =>
      (((Voting.loadInto ga a &&& Voting.byteMask W (s * 8)) >>> (s * 8)) &&&
       ((Voting.loadInto gb b &&& Voting.byteMask W (s * 8)) >>> (s * 8))) |||
      (((Voting.loadInto ga a &&& Voting.byteMask W (s * 8)) >>> (s * 8)) &&&
       ((Voting.loadInto gc c &&& Voting.byteMask W (s * 8)) >>> (s * 8))) |||
      (((Voting.loadInto gb b &&& Voting.byteMask W (s * 8)) >>> (s * 8)) &&&
       ((Voting.loadInto gc c &&& Voting.byteMask W (s * 8)) >>> (s * 8)))) (w / 8)
    (by
      intro s j _ hj
      have hnj : ¬ j < 8 := by omega
      simp only [BitVec.getLsbD_or, BitVec.getLsbD_and (x := _ >>> _), getLsbD_segment hW64, hnj,
        decide_false, Bool.false_and, Bool.or_false]) i
  simp only [key, hi, decide_true, Bool.true_and]
  have hmod : i % 8 < 8 := Nat.mod_lt _ (by omega)
  have hmul : w / 8 * 8 = w := Nat.div_mul_cancel h8
  have e : i / 8 * 8 + i % 8 = i := by omega
  have hiW : i < W := by omega
  simp only [BitVec.getLsbD_or, BitVec.getLsbD_and (x := _ >>> _), getLsbD_segment hW64, hmod,
    decide_true, Bool.true_and, e, hmul, hi, hiW, getLsbD_loadInto hW, if_true, maj3]

/-! ### Classification -/

theorem fillLoop_spec {W : Nat} (t : BitVec W) :
    (∀ j, t.getLsbD j = true → (Voting.fillLoop t).getLsbD j = true) ∧
    Voting.fillLoop t &&& (Voting.fillLoop t + 1#W) = 0#W := by
  induction hm : 2 ^ W - t.toNat using Nat.strongRecOn generalizing t with
  | _ n ih =>
    rw [Voting.fillLoop]
    split
    · rename_i h; exact ⟨fun _ h => h, h⟩
    · rename_i h
      have hle : t.toNat ≤ (t ||| (t + 1#W)).toNat := by
        rw [BitVec.toNat_or]; exact Nat.left_le_or
      have hne : t.toNat ≠ (t ||| (t + 1#W)).toNat := by
        intro h1
        have h2 : t ||| (t + 1#W) = t := (BitVec.eq_of_toNat_eq h1).symm
        have h3 : (t + 1#W).toNat ≤ t.toNat := by
          have : (t + 1#W).toNat ≤ (t ||| (t + 1#W)).toNat := by
            rw [BitVec.toNat_or]; exact Nat.right_le_or
          rwa [h2] at this
        have hW : 0 < W := by
          rcases Nat.eq_zero_or_pos W with h0 | h0
          · subst h0
            exact absurd (BitVec.eq_nil _ |>.trans (BitVec.eq_nil _).symm) h
          · exact h0
        have h1W : (1#W).toNat = 1 := by
          simp [BitVec.toNat_ofNat, Nat.mod_eq_of_lt (Nat.one_lt_two_pow (by omega : W ≠ 0))]
        have h4 : (t + 1#W).toNat = 0 := by
          rw [BitVec.toNat_add, h1W] at h3 ⊢
          have hlt := t.isLt
          rcases Nat.lt_or_ge (t.toNat + 1) (2 ^ W) with h5 | h5
          · rw [Nat.mod_eq_of_lt h5] at h3; omega
          · have : t.toNat + 1 = 2 ^ W := by omega
            rw [this, Nat.mod_self]
        have h5 : t + 1#W = 0#W := BitVec.eq_of_toNat_eq (by simpa using h4)
        apply h; rw [h5]; simp
      have hlt := (t ||| (t + 1#W)).isLt
      have := ih (2 ^ W - (t ||| (t + 1#W)).toNat) (by omega) (t ||| (t + 1#W)) rfl
      refine ⟨fun j hj => this.1 j ?_, this.2⟩
      rw [BitVec.getLsbD_or, hj]; rfl

/-- The adjacency test of the library is constantly false. -/
theorem areAdjacentBits_false {W : Nat} (d : BitVec W) : Voting.areAdjacentBits d = false := by
  unfold Voting.areAdjacentBits
  obtain ⟨h1, h2⟩ := fillLoop_spec d
  simp only [ne_eq, decide_eq_false_iff_not, not_not]
  apply BitVec.eq_of_getLsbD_eq
  intro i _
  rw [BitVec.getLsbD_and]
  cases hd : d.getLsbD i with
  | false => simp
  | true =>
    have h3 := h1 i hd
    have h4 := congrArg (fun z => z.getLsbD i) h2
    simp only [BitVec.getLsbD_and, h3, Bool.true_and] at h4
    rw [h4]; simp

/-- A block of `k` consecutive set bits below position `n`. -/
def HasRunBelow {W : Nat} (d : BitVec W) (k n : Nat) : Prop :=
  ∃ s, s + k ≤ n ∧ ∀ i, i < k → d.getLsbD (s + i) = true

theorem runScan_spec {W : Nat} (d : BitVec W) :
    ∀ n, let s := forN n (fun i s =>
        if (d >>> i) &&& 1#W ≠ 0#W then (max s.1 (s.2 + 1), s.2 + 1) else (s.1, 0)) (0, 0)
      s.2 ≤ s.1 ∧ s.2 ≤ n ∧ (∀ i, i < s.2 → d.getLsbD (n - s.2 + i) = true) ∧
      (s.2 = n ∨ d.getLsbD (n - s.2 - 1) = false) ∧
      (∀ k, HasRunBelow d k n ↔ k ≤ s.1) := by
  intro n
  induction n with
  | zero =>
    simp only [forN]
    refine ⟨Nat.le_refl _, Nat.le_refl _, ?_, Or.inl (by trivial), ?_⟩
    · intro i hi; omega
    · intro k; constructor
      · rintro ⟨s, h, _⟩; omega
      · intro h; exact ⟨0, by omega, fun i hi => by omega⟩
  | succ n ih =>
    simp only [forN]
    revert ih
    generalize forN n (fun i s =>
        if (d >>> i) &&& 1#W ≠ 0#W then (max s.1 (s.2 + 1), s.2 + 1) else (s.1, 0)) (0, 0) = s
    obtain ⟨L, C⟩ := s
    simp only
    rintro ⟨h1, h2, h3, h4, h5⟩
    have hcond : (¬ (d >>> n &&& 1#W = 0#W)) ↔ d.getLsbD n = true := by
      rw [shiftRight_and_one_eq_zero]; simp
    by_cases hb : d.getLsbD n = true
    · rw [if_pos (hcond.mpr hb)]
      simp only
      have e1 : n + 1 - (C + 1) = n - C := by omega
      rw [e1]
      refine ⟨by omega, by omega, ?_, ?_, ?_⟩
      · intro i hi
        rcases Nat.lt_or_ge i C with h | h
        · exact h3 i h
        · have : n - C + i = n := by omega
          rw [this]; exact hb
      · rcases h4 with h4 | h4
        · left; omega
        · right; exact h4
      · intro k
        constructor
        · rintro ⟨s, hs, hs'⟩
          rcases Nat.lt_or_ge n (s + k) with h | h
          · -- run ends at n: must be within current run
            rcases h4 with h4 | h4
            · have : k ≤ C + 1 := by omega
              omega
            · rcases Nat.lt_or_ge (C + 1) k with h6 | h6
              · have := hs' (n - C - 1 - s) (by omega)
                have e : s + (n - C - 1 - s) = n - C - 1 := by omega
                rw [e, h4] at this; cases this
              · omega
          · have := (h5 k).mp ⟨s, h, hs'⟩
            omega
        · intro hk
          rcases Nat.lt_or_ge L k with h | h
          · have hkC : k ≤ C + 1 := by omega
            refine ⟨n + 1 - k, by omega, ?_⟩
            intro i hi
            rcases Nat.lt_or_ge (n + 1 - k + i) n with h6 | h6
            · have := h3 (n + 1 - k + i - (n - C)) (by omega)
              have e : n - C + (n + 1 - k + i - (n - C)) = n + 1 - k + i := by omega
              rwa [e] at this
            · have e : n + 1 - k + i = n := by omega
              rw [e]; exact hb
          · obtain ⟨s, hs, hs'⟩ := (h5 k).mpr h
            exact ⟨s, by omega, hs'⟩
    · rw [if_neg (fun h => hb (hcond.mp h))]
      simp only
      have hbf : d.getLsbD n = false := by simpa using hb
      refine ⟨by omega, by omega, fun i hi => by omega, ?_, ?_⟩
      · right; simpa using hbf
      · intro k
        rw [← h5 k]
        constructor
        · rintro ⟨s, hs, hs'⟩
          rcases Nat.lt_or_ge n (s + k) with h | h
          · rcases Nat.eq_zero_or_pos k with h0 | h0
            · subst h0; exact ⟨0, by omega, fun i hi => by omega⟩
            · have := hs' (n - s) (by omega)
              have e : s + (n - s) = n := by omega
              rw [e, hbf] at this; cases this
          · exact ⟨s, h, hs'⟩
        · rintro ⟨s, hs, hs'⟩; exact ⟨s, by omega, hs'⟩

theorem hasRun_le_popcount_aux (p : Nat → Bool) (k s : Nat) (h : ∀ i, i < k → p (s + i) = true) :
    ∀ n, s + k ≤ n → k ≤ countTrue p n := by
  induction k with
  | zero => intro n _; omega
  | succ k ih =>
    intro n
    induction n with
    | zero => intro h; omega
    | succ n ihn =>
      intro hn
      simp only [countTrue]
      rcases Nat.lt_or_ge (s + (k + 1)) (n + 1) with h1 | h1
      · have := ihn (by omega); omega
      · have e : n = s + k := by omega
        have h2 := ih (fun i hi => h i (by omega)) n (by omega)
        have h3 : p n = true := by rw [e]; exact h k (by omega)
        rw [h3]; simp; omega

theorem runScan_iff {W : Nat} (d : BitVec W) (k : Nat) :
    k ≤ (Voting.runScan d).1 ↔ HasRunBelow d k W := ((runScan_spec d W).2.2.2.2 k).symm

theorem runScan_le_popcount {W : Nat} (d : BitVec W) : (Voting.runScan d).1 ≤ popcount d := by
  obtain ⟨s, hs, hs'⟩ := (runScan_iff d _).mp (Nat.le_refl _)
  exact hasRun_le_popcount_aux _ _ _ hs' _ hs

theorem popcount_le {W : Nat} (d : BitVec W) : popcount d ≤ W := by
  unfold popcount
  have : ∀ n, countTrue d.getLsbD n ≤ n := by
    intro n
    induction n with
    | zero => exact Nat.le_refl _
    | succ n ih => simp only [countTrue]; have := Bool.toNat_le (d.getLsbD n); omega
  exact this W

theorem and_eq_self_iff {W : Nat} (d m : BitVec W) :
    d &&& m = d ↔ ∀ i, i < W → d.getLsbD i = true → m.getLsbD i = true := by
  constructor
  · intro h i _ hd
    have := congrArg (fun z => z.getLsbD i) h
    simp only [BitVec.getLsbD_and, hd, Bool.true_and] at this
    exact this
  · intro h
    apply BitVec.eq_of_getLsbD_eq
    intro i hi
    rw [BitVec.getLsbD_and]
    cases hd : d.getLsbD i with
    | false => rfl
    | true => rw [h i hi hd]; rfl

end Verif
