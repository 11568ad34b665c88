import Verif.Spec.Bits
import Verif.Model.EnhancedVoting
/-!
Auxiliary lemmas about bits and loops (no property statements here).
-/
namespace Verif

open Verif.Spec

theorem forN_inv {α : Type _} (P : Nat → α → Prop) (n : Nat) (body : Nat → α → α) (s : α)
    (h0 : P 0 s) (hs : ∀ i t, i < n → P i t → P (i + 1) (body i t)) : P n (forN n body s) := by
  have key : ∀ m, m ≤ n → P m (forN m body s) := by
    intro m
    induction m with
    | zero => intro _; exact h0
    | succ m ih => intro hm; exact hs m _ (by omega) (ih (by omega))
  exact key n (Nat.le_refl n)

theorem forN_congr {α : Type _} (n : Nat) (f g : Nat → α → α) (s : α)
    (h : ∀ i t, i < n → f i t = g i t) : forN n f s = forN n g s := by
  induction n with
  | zero => rfl
  | succ n ih =>
    simp only [forN]
    rw [ih (fun i t hi => h i t (by omega)), h n _ (by omega)]

/-- A loop OR-ing `k`-bit groups into place sets exactly the bits of the groups. -/
theorem getLsbD_forN_groups {w : Nat} (k : Nat) (hk : 0 < k) (f : Nat → BitVec w) (n : Nat)
    (hf : ∀ i j, i < n → k ≤ j → (f i).getLsbD j = false) (j : Nat) :
    (forN n (fun i r => r ||| (f i <<< (i * k))) 0#w).getLsbD j
      = (decide (j < n * k) && decide (j < w) && (f (j / k)).getLsbD (j % k)) := by
  induction n with
  | zero => simp [forN]
  | succ n ih =>
    simp only [forN, BitVec.getLsbD_or, BitVec.getLsbD_shiftLeft]
    rw [ih (fun i j hi hj => hf i j (by omega) hj)]
    have hsm : (n + 1) * k = n * k + k := Nat.succ_mul n k
    by_cases hjw : j < w
    · by_cases h1 : j < n * k
      · have h2 : j < (n + 1) * k := by omega
        simp [h1, h2, hjw]
      · by_cases h2 : j < (n + 1) * k
        · have hd : j / k = n := by
            apply Nat.div_eq_of_lt_le
            · omega
            · omega
          have hm : j % k = j - n * k := by
            have := Nat.div_add_mod j k
            rw [hd, Nat.mul_comm] at this; omega
          simp [h1, h2, hjw, hd, hm]
        · have h3 : (f n).getLsbD (j - n * k) = false := hf n _ (by omega) (by omega)
          simp [h1, h2, h3]
    · simp [hjw]

theorem getLsbD_bit {w : Nat} (x : BitVec w) (i j : Nat) :
    (Voting.bit x i).getLsbD j = (decide (j = 0) && x.getLsbD i) := by
  unfold Voting.bit
  rw [BitVec.getLsbD_and, BitVec.getLsbD_ushiftRight, BitVec.getLsbD_one]
  by_cases hj : j = 0
  · subst hj
    by_cases hw : 0 < w
    · simp [hw]
    · have hw0 : w = 0 := by omega
      subst hw0; simp
  · simp [hj]

/-- The majority-loop body written with explicit bits. -/
theorem getLsbD_segmentBitVote {w : Nat} (a b c : BitVec w) (n j : Nat) :
    (Voting.segmentBitVote a b c n).getLsbD j
      = (decide (j < n) && maj3 (a.getLsbD j) (b.getLsbD j) (c.getLsbD j)) := by
  unfold Voting.segmentBitVote
  have := getLsbD_forN_groups 1 (by omega) (w := w)
    (fun i => (Voting.bit a i &&& Voting.bit b i) ||| (Voting.bit a i &&& Voting.bit c i)
      ||| (Voting.bit b i &&& Voting.bit c i)) n
    (by intro i j _ hj
        have : j ≠ 0 := by omega
        simp [getLsbD_bit, this]) j
  simp only [Nat.mul_one, Nat.div_one, Nat.mod_one, BitVec.getLsbD_or, BitVec.getLsbD_and,
    getLsbD_bit, decide_true, Bool.true_and] at this
  rw [this]
  by_cases hj : j < w
  · simp [hj, maj3]
  · have h1 : a.getLsbD j = false := BitVec.getLsbD_of_ge _ _ (by omega)
    have h2 : b.getLsbD j = false := BitVec.getLsbD_of_ge _ _ (by omega)
    simp [hj, maj3, h1, h2]

theorem getLsbD_bitLevelVote {w : Nat} (a b c : BitVec w) (j : Nat) :
    (Voting.bitLevelVote a b c).getLsbD j
      = maj3 (a.getLsbD j) (b.getLsbD j) (c.getLsbD j) := by
  have h : Voting.bitLevelVote a b c = Voting.segmentBitVote a b c w := rfl
  rw [h, getLsbD_segmentBitVote]
  by_cases hj : j < w
  · simp [hj]
  · have h1 : a.getLsbD j = false := BitVec.getLsbD_of_ge _ _ (by omega)
    have h2 : b.getLsbD j = false := BitVec.getLsbD_of_ge _ _ (by omega)
    simp [hj, maj3, h1, h2]

theorem bitMajority_unique {w : Nat} {a b c r : BitVec w} (h : IsBitMajority a b c r) :
    r = Voting.bitLevelVote a b c := by
  apply BitVec.eq_of_getLsbD_eq
  intro i hi
  rw [getLsbD_bitLevelVote, h i hi]

theorem isBitMajority_bitLevelVote {w : Nat} (a b c : BitVec w) :
    IsBitMajority a b c (Voting.bitLevelVote a b c) := fun i _ => getLsbD_bitLevelVote a b c i

theorem bitLevelVote_twoAgree {w : Nat} {x a b c : BitVec w} (h : TwoAgree x a b c) :
    Voting.bitLevelVote a b c = x := by
  apply BitVec.eq_of_getLsbD_eq
  intro i _
  rw [getLsbD_bitLevelVote]
  unfold maj3
  rcases h with ⟨h1, h2⟩ | ⟨h1, h2⟩ | ⟨h1, h2⟩ <;> rw [h1, h2] <;>
    cases x.getLsbD i <;> cases a.getLsbD i <;> cases b.getLsbD i <;> cases c.getLsbD i <;> rfl

theorem getLsbD_loadInto {w W : Nat} (hW : w ≤ W) (g : BitVec W) (x : BitVec w) (j : Nat) :
    (Voting.loadInto g x).getLsbD j = if j < w then x.getLsbD j else g.getLsbD j := by
  unfold Voting.loadInto
  simp only [BitVec.getLsbD_or, BitVec.getLsbD_and, BitVec.getLsbD_not, BitVec.getLsbD_setWidth,
    BitVec.getLsbD_allOnes]
  by_cases h1 : j < w
  · have h2 : j < W := by omega
    simp [h1, h2]
  · have h3 : x.getLsbD j = false := BitVec.getLsbD_of_ge _ _ (by omega)
    by_cases h2 : j < W
    · simp [h1, h2, h3]
    · have h4 : g.getLsbD j = false := BitVec.getLsbD_of_ge _ _ (by omega)
      simp [h1, h2, h3, h4]

theorem setWidth_loadInto {w W : Nat} (hW : w ≤ W) (g : BitVec W) (x : BitVec w) :
    (Voting.loadInto g x).setWidth w = x := by
  apply BitVec.eq_of_getLsbD_eq
  intro i hi
  rw [BitVec.getLsbD_setWidth, getLsbD_loadInto hW]
  simp [hi]

/-! ### Counting bits -/

theorem countTrue_congr {p q : Nat → Bool} {n : Nat} (h : ∀ i, i < n → p i = q i) :
    countTrue p n = countTrue q n := by
  induction n with
  | zero => rfl
  | succ n ih => simp only [countTrue]; rw [ih (fun i hi => h i (by omega)), h n (by omega)]

theorem countTrue_shift (p : Nat → Bool) (n : Nat) :
    countTrue p (n + 1) = (p 0).toNat + countTrue (fun i => p (i + 1)) n := by
  induction n with
  | zero => simp [countTrue]
  | succ n ih => rw [countTrue, ih, countTrue]; omega

theorem countTrue_eq_zero_iff {p : Nat → Bool} {n : Nat} :
    countTrue p n = 0 ↔ ∀ i, i < n → p i = false := by
  induction n with
  | zero => simp [countTrue]
  | succ n ih =>
    simp only [countTrue]
    constructor
    · intro h i hi
      have h1 : countTrue p n = 0 := by omega
      have h2 : (p n).toNat = 0 := by omega
      rcases Nat.lt_or_ge i n with h3 | h3
      · exact ih.mp h1 i h3
      · have : i = n := by omega
        subst this
        cases hp : p i with
        | false => rfl
        | true => rw [hp] at h2; simp at h2
    · intro h
      rw [ih.mpr (fun i hi => h i (by omega)), h n (by omega)]; rfl

theorem countTrue_eq_one_iff {p : Nat → Bool} {n : Nat} :
    countTrue p n = 1 ↔ ∃ k, k < n ∧ ∀ i, i < n → (p i = true ↔ i = k) := by
  induction n with
  | zero => simp [countTrue]
  | succ n ih =>
    simp only [countTrue]
    constructor
    · intro h
      cases hp : p n with
      | false =>
        rw [hp] at h
        obtain ⟨k, hk, hk'⟩ := ih.mp (by simpa using h)
        refine ⟨k, by omega, ?_⟩
        intro i hi
        rcases Nat.lt_or_ge i n with h3 | h3
        · exact hk' i h3
        · have : i = n := by omega
          subst this
          simp [hp]; omega
      | true =>
        rw [hp] at h
        have h1 : countTrue p n = 0 := by simpa using h
        refine ⟨n, by omega, ?_⟩
        intro i hi
        rcases Nat.lt_or_ge i n with h3 | h3
        · have := countTrue_eq_zero_iff.mp h1 i h3
          simp [this]; omega
        · have : i = n := by omega
          subst this
          simp [hp]
    · rintro ⟨k, hk, hk'⟩
      rcases Nat.lt_or_ge k n with h3 | h3
      · have h1 := ih.mpr ⟨k, h3, fun i hi => hk' i (by omega)⟩
        have h2 : p n = false := by
          cases hp : p n with
          | false => rfl
          | true => have := (hk' n (by omega)).mp hp; omega
        rw [h1, h2]; rfl
      · have : k = n := by omega
        subst this
        have h1 : countTrue p k = 0 := countTrue_eq_zero_iff.mpr (by
          intro i hi
          cases hp : p i with
          | false => rfl
          | true => have := (hk' i (by omega)).mp hp; omega)
        have h2 : p k = true := (hk' k (by omega)).mpr rfl
        rw [h1, h2]; rfl

theorem toNat_and_one {W : Nat} (v : BitVec W) : (v &&& 1#W).toNat = (v.getLsbD 0).toNat := by
  have : v &&& 1#W = Voting.bit v 0 := by simp [Voting.bit]
  rw [this]
  by_cases hW : 0 < W
  · cases h : v.getLsbD 0 with
    | false =>
      have : Voting.bit v 0 = 0#W := by
        apply BitVec.eq_of_getLsbD_eq; intro i _; rw [getLsbD_bit, h]; simp
      rw [this]; simp
    | true =>
      have : Voting.bit v 0 = 1#W := by
        apply BitVec.eq_of_getLsbD_eq; intro i _; rw [getLsbD_bit, h, BitVec.getLsbD_one]
        simp [hW]
      rw [this]
      simp [BitVec.toNat_ofNat, Nat.mod_eq_of_lt (Nat.one_lt_two_pow (by omega : W ≠ 0))]
  · have : W = 0 := by omega
    subst this
    rw [BitVec.eq_nil (Voting.bit v 0), BitVec.eq_nil v]; rfl

theorem popcount_zero {W : Nat} : popcount (0#W) = 0 := by
  unfold popcount; rw [countTrue_eq_zero_iff]; intros; simp

theorem popcount_ushiftRight_one {W : Nat} (v : BitVec W) :
    popcount v = (v.getLsbD 0).toNat + popcount (v >>> 1) := by
  unfold popcount
  have h1 : countTrue v.getLsbD (W + 1) = countTrue v.getLsbD W := by
    rw [countTrue, BitVec.getLsbD_of_ge v W (Nat.le_refl W)]; rfl
  rw [← h1, countTrue_shift]
  congr 1
  apply countTrue_congr
  intro i _
  rw [BitVec.getLsbD_ushiftRight, Nat.add_comm]

theorem countBits_eq_popcount {W : Nat} (v : BitVec W) : Voting.countBits v = popcount v := by
  induction h : v.toNat using Nat.strongRecOn generalizing v with
  | _ n ih =>
    rw [Voting.countBits]
    split
    · rename_i h0
      have : v = 0#W := BitVec.eq_of_toNat_eq (by simpa using h0)
      rw [this, popcount_zero]
    · rename_i h0
      rw [popcount_ushiftRight_one, toNat_and_one]
      congr 1
      apply ih (v >>> 1).toNat _ _ rfl
      simp only [BitVec.toNat_ushiftRight, Nat.shiftRight_eq_div_pow]
      omega

theorem popcount_eq_zero_iff {W : Nat} {v : BitVec W} : popcount v = 0 ↔ v = 0#W := by
  unfold popcount
  rw [countTrue_eq_zero_iff]
  constructor
  · intro h; apply BitVec.eq_of_getLsbD_eq; intro i hi; simp [h i hi]
  · intro h; subst h; simp

theorem xor_eq_zero_iff' {W : Nat} {a b : BitVec W} : a ^^^ b = 0#W ↔ a = b := by
  constructor
  · intro h
    apply BitVec.eq_of_getLsbD_eq
    intro i hi
    have := congrArg (fun z => z.getLsbD i) h
    simp at this
    exact this
  · intro h; subst h; simp

/-! ### The single-bit branch of `reconstructFromClosestPair` -/

theorem shiftRight_and_one_eq_zero {W : Nat} (d : BitVec W) (pos : Nat) :
    ((d >>> pos) &&& 1#W = 0#W) ↔ d.getLsbD pos = false := by
  have e : (d >>> pos) &&& 1#W = Voting.bit d pos := rfl
  rw [e]
  constructor
  · intro h
    have := congrArg (fun z => z.getLsbD 0) h
    simpa [getLsbD_bit] using this
  · intro h
    apply BitVec.eq_of_getLsbD_eq; intro i _; rw [getLsbD_bit, h]; simp

theorem lowestSet_spec {W : Nat} (d : BitVec W) (k : Nat) (hk : d.getLsbD k = true)
    (hlow : ∀ i, i < k → d.getLsbD i = false) :
    ∀ fuel pos, pos ≤ k → k - pos < fuel → Voting.lowestSet d fuel pos = k := by
  intro fuel
  induction fuel with
  | zero => intro pos _ h; omega
  | succ fuel ih =>
    intro pos h1 h2
    unfold Voting.lowestSet
    split
    · rename_i h3
      rw [shiftRight_and_one_eq_zero] at h3
      have : pos ≠ k := by intro h; subst h; rw [hk] at h3; cases h3
      exact ih (pos + 1) (by omega) (by omega)
    · rename_i h3
      rw [shiftRight_and_one_eq_zero] at h3
      rcases Nat.lt_or_ge pos k with h4 | h4
      · exact absurd (hlow pos h4) h3
      · omega

theorem getLsbD_one_shiftLeft {W k : Nat} (hk : k < W) (j : Nat) :
    (1#W <<< k).getLsbD j = decide (j = k) := by
  rw [BitVec.getLsbD_shiftLeft, BitVec.getLsbD_one]
  by_cases h : j = k
  · subst h; simp [hk]; omega
  · by_cases h2 : j < k
    · simp [h2, h]
    · have : j - k ≠ 0 := by omega
      simp [h, this]

theorem and_mask_eq_iff {W k : Nat} (hk : k < W) (x y : BitVec W) :
    (x &&& (1#W <<< k) = y &&& (1#W <<< k)) ↔ x.getLsbD k = y.getLsbD k := by
  constructor
  · intro h
    have := congrArg (fun z => z.getLsbD k) h
    simpa only [BitVec.getLsbD_and, getLsbD_one_shiftLeft hk, decide_true, Bool.and_true] using this
  · intro h
    apply BitVec.eq_of_getLsbD_eq
    intro i _
    rw [BitVec.getLsbD_and, BitVec.getLsbD_and, getLsbD_one_shiftLeft hk]
    by_cases hik : i = k
    · subst hik; simp [h]
    · simp [hik]

/-- Whatever the indeterminate upper bits are, `reconstructFromClosestPair` yields the bitwise
majority up to the C++ notion of equality on `T`. -/
theorem reconstruct_eq {w W : Nat} (hW : w ≤ W) (ga gb go : BitVec W) (a b o : BitVec w)
    (eq : BitVec w → BitVec w → Bool) (hne : eq a b = false) (hab : a ≠ b) :
    Voting.reconstructFromClosestPair eq ga gb go a b o = Voting.bitLevelVote a b o := by
  unfold Voting.reconstructFromClosestPair
  rw [hne]
  simp only [Bool.false_eq_true, ↓reduceIte]
  split
  · rename_i h1
    rw [countBits_eq_popcount] at h1
    obtain ⟨k, hkW, hk⟩ := countTrue_eq_one_iff.mp h1
    -- the differing bit is inside the value, since a ≠ b
    have hkw : k < w := by
      rcases Nat.lt_or_ge k w with h | h
      · exact h
      · exfalso
        apply hab
        apply BitVec.eq_of_getLsbD_eq
        intro i hi
        have h2 : (Voting.loadInto ga a ^^^ Voting.loadInto gb b).getLsbD i = false := by
          have := hk i (by omega)
          cases hh : (Voting.loadInto ga a ^^^ Voting.loadInto gb b).getLsbD i with
          | false => rfl
          | true => have := this.mp hh; omega
        rw [BitVec.getLsbD_xor, getLsbD_loadInto hW, getLsbD_loadInto hW] at h2
        simp [hi] at h2
        exact h2
    have hlow : Voting.lowestSet (Voting.loadInto ga a ^^^ Voting.loadInto gb b) W 0 = k := by
      apply lowestSet_spec _ k ((hk k hkW).mpr rfl) _ W 0 (by omega) (by omega)
      intro i hi
      cases hh : (Voting.loadInto ga a ^^^ Voting.loadInto gb b).getLsbD i with
      | false => rfl
      | true => have := (hk i (by omega)).mp hh; omega
    rw [hlow]
    have hbits : ∀ i, i < w → i ≠ k → a.getLsbD i = b.getLsbD i := by
      intro i hi hik
      have := fun h => hik ((hk i (by omega)).mp h)
      rw [BitVec.getLsbD_xor, getLsbD_loadInto hW, getLsbD_loadInto hW] at this
      simpa [hi] using this
    have hkbit : a.getLsbD k ≠ b.getLsbD k := by
      have := (hk k hkW).mpr rfl
      rw [BitVec.getLsbD_xor, getLsbD_loadInto hW, getLsbD_loadInto hW] at this
      simpa [hkw] using this
    have hmask : (Voting.loadInto ga a &&& (1#W <<< k) = Voting.loadInto go o &&& (1#W <<< k))
        ↔ a.getLsbD k = o.getLsbD k := by
      rw [and_mask_eq_iff hkW, getLsbD_loadInto hW, getLsbD_loadInto hW]; simp [hkw]
    split
    · rename_i h3
      have h3 := hmask.mp h3
      apply BitVec.eq_of_getLsbD_eq
      intro i hi
      rw [getLsbD_bitLevelVote]
      by_cases hik : i = k
      · subst hik; rw [← h3]; unfold maj3
        cases a.getLsbD i <;> cases b.getLsbD i <;> rfl
      · rw [← hbits i hi hik]; unfold maj3
        cases a.getLsbD i <;> cases o.getLsbD i <;> rfl
    · rename_i h3
      have h3 : ¬ a.getLsbD k = o.getLsbD k := fun h => h3 (hmask.mpr h)
      apply BitVec.eq_of_getLsbD_eq
      intro i hi
      rw [getLsbD_bitLevelVote]
      by_cases hik : i = k
      · subst hik; unfold maj3
        revert hkbit h3
        cases a.getLsbD i <;> cases b.getLsbD i <;> cases o.getLsbD i <;> simp
      · rw [hbits i hi hik]; unfold maj3
        cases b.getLsbD i <;> cases o.getLsbD i <;> rfl
  · rfl

theorem maj3_swap23 (a b c : Bool) : maj3 a c b = maj3 a b c := by
  cases a <;> cases b <;> cases c <;> rfl
theorem maj3_rot (a b c : Bool) : maj3 b c a = maj3 a b c := by
  cases a <;> cases b <;> cases c <;> rfl

theorem bitLevelVote_swap23 {w : Nat} (a b c : BitVec w) :
    Voting.bitLevelVote a c b = Voting.bitLevelVote a b c := by
  apply BitVec.eq_of_getLsbD_eq; intro i _
  rw [getLsbD_bitLevelVote, getLsbD_bitLevelVote, maj3_swap23]
theorem bitLevelVote_rot {w : Nat} (a b c : BitVec w) :
    Voting.bitLevelVote b c a = Voting.bitLevelVote a b c := by
  apply BitVec.eq_of_getLsbD_eq; intro i _
  rw [getLsbD_bitLevelVote, getLsbD_bitLevelVote, maj3_rot]

/-! ### Byte-segment loops -/

theorem getLsbD_byteMask {W : Nat} (hW : W ≤ 64) (s j : Nat) (hj : j < W) :
    (Voting.byteMask W s).getLsbD j = (decide (s ≤ j) && decide (j < s + 8)) := by
  unfold Voting.byteMask
  have h255 : ((1#64 <<< 8) - 1#64) = (BitVec.allOnes 8).setWidth 64 := by decide
  rw [h255, BitVec.getLsbD_setWidth, BitVec.getLsbD_shiftLeft, BitVec.getLsbD_setWidth,
    BitVec.getLsbD_allOnes]
  by_cases h1 : s ≤ j
  · by_cases h2 : j < s + 8
    · simp [hj, h1, h2]; omega
    · simp [hj, h1, h2]; omega
  · have : j < s := by omega
    simp [h1, this]

theorem getLsbD_segment {W : Nat} (hW : W ≤ 64) (x : BitVec W) (s i : Nat) :
    ((x &&& Voting.byteMask W s) >>> s).getLsbD i = (decide (i < 8) && x.getLsbD (s + i)) := by
  rw [BitVec.getLsbD_ushiftRight, BitVec.getLsbD_and]
  by_cases h : s + i < W
  · rw [getLsbD_byteMask hW _ _ h]
    by_cases h2 : i < 8 <;> simp [h2, Bool.and_comm]
  · rw [BitVec.getLsbD_of_ge x _ (by omega)]; simp

theorem getLsbD_segmentVote {W : Nat} (a b c : BitVec W)
    (ha : ∀ j, 8 ≤ j → a.getLsbD j = false) (hb : ∀ j, 8 ≤ j → b.getLsbD j = false) (j : Nat) :
    (Voting.segmentVote a b c).getLsbD j
      = maj3 (a.getLsbD j) (b.getLsbD j) (c.getLsbD j) := by
  unfold Voting.segmentVote
  split
  · rename_i h; subst h; unfold maj3; cases a.getLsbD j <;> cases c.getLsbD j <;> rfl
  · split
    · rename_i h; subst h; unfold maj3; cases a.getLsbD j <;> cases b.getLsbD j <;> rfl
    · split
      · rename_i h; subst h; unfold maj3; cases a.getLsbD j <;> cases b.getLsbD j <;> rfl
      · rw [getLsbD_segmentBitVote]
        by_cases h : j < 8
        · simp [h]
        · simp [h, maj3, ha j (by omega), hb j (by omega)]

end Verif
