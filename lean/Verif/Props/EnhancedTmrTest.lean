import Verif.Model.EnhancedTmrTest
import Verif.Props.Voting
/-! Properties C379–C382: the voting test. -/
namespace Verif.Props.VoteTest
open Verif Verif.Spec Verif.Voting Verif.VoteTest

/-! ### C379: damage injected -/

theorem bit_one {W : Nat} (p i : Nat) (hi : i < W) : (1#W <<< p).getLsbD i = decide (i = p) := by
  rw [BitVec.getLsbD_shiftLeft, BitVec.getLsbD_one]
  by_cases h : i = p
  · subst h
    simp [hi]
    omega
  · by_cases h2 : i < p
    · simp [h, h2]
    · have : ¬ i - p = 0 := by omega
      simp [h, this]

/-- **C379 (single bit).** At every position inside exactly that bit changes; outside the shift is undefined. -/
theorem C379_single {W : Nat} (v : BitVec W) (p : Nat) :
    (W ≤ p → single v p = .ub) ∧ (p < W → ∃ r, single v p = .ok r ∧ ∀ i < W, (r.getLsbD i ≠ v.getLsbD i ↔ i = p)) := by
  unfold single
  refine ⟨fun h => if_neg (by omega), fun h => ?_⟩
  rw [if_pos h]
  refine ⟨_, rfl, fun i hi => ?_⟩
  rw [BitVec.getLsbD_xor, bit_one p i hi]
  by_cases g : i = p <;> simp [g]

/-- The positions of a cluster of `n` bits from `s` on, wrapping around. -/
def InCluster (W s n i : Nat) : Prop := ∃ j < n, (s + j) % W = i

theorem cluster_succ (W s n i : Nat) : InCluster W s (n + 1) i ↔ InCluster W s n i ∨ (s + n) % W = i := by
  constructor
  · rintro ⟨j, hj, h⟩
    rcases Nat.lt_succ_iff_lt_or_eq.1 hj with h2 | rfl
    · exact Or.inl ⟨j, h2, h⟩
    · exact Or.inr h
  · rintro (⟨j, hj, h⟩ | h)
    · exact ⟨j, by omega, h⟩
    · exact ⟨n, by omega, h⟩

theorem cluster_fresh {W s n : Nat} (hn : n < W) : ¬ InCluster W s n ((s + n) % W) := by
  rintro ⟨j, hj, h⟩
  have h1 := Nat.div_add_mod (s + j) W
  have h2 := Nat.div_add_mod (s + n) W
  rw [h] at h1
  have h3 : W * ((s + n) / W) = W * ((s + j) / W) + (n - j) := by omega
  have h4 : n - j < W := by omega
  have h5 : (W * ((s + n) / W)) % W = 0 := Nat.mul_mod_right _ _
  rw [h3, Nat.mul_add_mod, Nat.mod_eq_of_lt h4] at h5
  omega

/-- **C379 (clusters).** For every start and number of bits: the burst changes exactly the bits of the cluster; the adjacent errors do the same as long as there are no more of them than bits. -/
theorem C379_clusters {W : Nat} (v : BitVec W) (s n : Nat) :
    (∀ i < W, ((burst v s n).getLsbD i ≠ v.getLsbD i ↔ InCluster W s n i)) ∧ (n ≤ W → ∀ i < W, ((adjacent v s n).getLsbD i ≠ v.getLsbD i ↔ InCluster W s n i)) := by
  constructor
  · intro i hi
    have mask : ∀ n, (forN n (fun j mask => mask ||| (1#W <<< ((s + j) % W))) 0#W).getLsbD i = true ↔ InCluster W s n i := by
      intro n
      induction n with
      | zero => simp [forN, InCluster]
      | succ n ih =>
        rw [forN, BitVec.getLsbD_or, bit_one _ i hi, Bool.or_eq_true, ih, decide_eq_true_eq, cluster_succ]
        exact or_congr Iff.rfl eq_comm
    unfold burst
    rw [BitVec.getLsbD_xor, ← mask n]
    cases (forN n (fun j mask => mask ||| (1#W <<< ((s + j) % W))) 0#W).getLsbD i <;> simp
  · unfold adjacent
    induction n with
    | zero => intro _ i _; simp [forN, InCluster]
    | succ n ih =>
      intro hn i hi
      have ih := ih (by omega) i hi
      rw [forN, BitVec.getLsbD_xor, bit_one _ i hi, cluster_succ]
      by_cases g : (s + n) % W = i
      · have hf : ¬ InCluster W s n i := by rw [← g]; exact cluster_fresh (by omega)
        have e : (forN n (fun j bits => bits ^^^ (1#W <<< ((s + j) % W))) v).getLsbD i = v.getLsbD i := Classical.not_not.1 fun h => hf (ih.1 h)
        simp [g, e]
      · have g' : ¬ i = (s + n) % W := fun h => g h.symm
        simp only [g', decide_false, Bool.xor_false, g, or_false]
        exact ih

/-- **C379 (bytes and words).** A byte error changes exactly the bits of the byte, and is undefined for a byte outside; a word error changes all bits of a value of up to 32 bits. -/
theorem C379_bytes {W : Nat} (v : BitVec W) (k : Nat) (coin : Bool) :
    (W ≤ k * 8 → byteError v k = .ub) ∧ (k * 8 < W → ∃ r, byteError v k = .ok r ∧ ∀ i < W, (r.getLsbD i ≠ v.getLsbD i ↔ k * 8 ≤ i ∧ i < k * 8 + 8)) ∧
    (W ≤ 32 → ∀ i < W, (wordError coin v).getLsbD i ≠ v.getLsbD i) := by
  refine ⟨fun h => if_neg (by omega), fun h => ?_, fun h i hi => ?_⟩
  · unfold byteError
    rw [if_pos h]
    refine ⟨_, rfl, fun i hi => ?_⟩
    rw [BitVec.getLsbD_xor, BitVec.getLsbD_shiftLeft]
    by_cases g : i < k * 8
    · have : ¬ k * 8 ≤ i := by omega
      simp [g, this]
    · have hb : (0xFF#W).getLsbD (i - k * 8) = decide (i - k * 8 < 8) := by
        rw [BitVec.getLsbD_ofNat]
        have : i - k * 8 < W := by omega
        have e : Nat.testBit 255 (i - k * 8) = decide (i - k * 8 < 8) := Nat.testBit_two_pow_sub_one 8 _
        simp [this, e]
      rw [hb]
      have e1 : k * 8 ≤ i := by omega
      by_cases g2 : i - k * 8 < 8
      · have : i < k * 8 + 8 := by omega
        simp [hi, g, g2, e1, this]
      · have : ¬ i < k * 8 + 8 := by omega
        simp [g2, this]
  · unfold wordError
    rw [if_pos h, BitVec.getLsbD_not]
    simp [hi]

example : (3 : Nat) < 32 ∧ (2 : Nat) ≤ 32 ∧ 0 * 8 < 32 := by decide

/-! ### C380: 32-bit types -/

/-- Equal values agree in all bits but the sign bit. -/
def Sane {W : Nat} (eq : BitVec W → BitVec W → Bool) : Prop := ∀ x y, eq x y = true → ∀ i, i + 1 < W → x.getLsbD i = y.getLsbD i

theorem detect32 (a b c : BitVec 32) : ∃ p, detectFaultPattern a b c = .ok p := by
  unfold detectFaultPattern
  split
  · exact ⟨_, rfl⟩
  · dsimp only
    rw [areByteBoundary32]
    split
    · exact ⟨_, rfl⟩
    · split
      · exact ⟨_, rfl⟩
      · by_cases hb : InOneByte (diffPattern a b c)
        · simp only [hb, decide_true]
          exact ⟨_, rfl⟩
        · simp only [hb, decide_false]
          split
          · exact ⟨_, rfl⟩
          · split <;> exact ⟨_, rfl⟩

theorem same_eq {W : Nat} {eq : BitVec W → BitVec W → Bool} {r v : BitVec W} (hv : eq v v = true) (h : SameValue eq r v) : eq r v = true := by
  rcases h with rfl | h
  · exact hv
  · exact h

/-- Assertions and adaptive vote with two intact copies, whatever the first. -/
theorem sect_two {W : Nat} (h8 : 8 ∣ W) (hW64 : W ≤ 64) {eq : BitVec W → BitVec W → Bool} (g : Garbage W) {v : BitVec W} (hv : eq v v = true) (a : BitVec W) (pre : List (BitVec W))
    (hp : ∀ r ∈ pre, r = bitLevelVote a v v ∨ r = burstErrorVote g.ha g.hb g.hc a v v ∨ r = standardVote eq a v v ∨ r = wordErrorVote eq g.ga g.gb g.gc g.ga' g.gb' g.gc' a v v) :
    sect eq g pre v a v v = (detectFaultPattern a v v).bind fun _ => .ok true := by
  obtain ⟨b1, b2, -, b4, b5, b6⟩ := C01_two_agreeing_copies_win h8 le_rfl hW64 eq v a v v (Or.inr (Or.inr ⟨rfl, rfl⟩)) g
  unfold sect
  rw [if_pos]
  · cases detectFaultPattern a v v with
    | ub => rfl
    | ok p =>
      show Outcome.ok _ = Outcome.ok _
      rw [same_eq hv (b6 p)]
  · rw [List.all_eq_true]
    intro r hr
    rcases hp r hr with rfl | rfl | rfl | rfl
    · rw [b1]; exact hv
    · rw [b2]; exact hv
    · exact same_eq hv b4
    · exact same_eq hv b5

theorem sect_two32 {eq : BitVec 32 → BitVec 32 → Bool} (g : Garbage 32) {v : BitVec 32} (hv : eq v v = true) (a : BitVec 32) (pre : List (BitVec 32))
    (hp : ∀ r ∈ pre, r = bitLevelVote a v v ∨ r = burstErrorVote g.ha g.hb g.hc a v v ∨ r = standardVote eq a v v ∨ r = wordErrorVote eq g.ga g.gb g.gc g.ga' g.gb' g.gc' a v v) :
    sect eq g pre v a v v = .ok true := by
  rw [sect_two (by decide) (by decide) g hv a pre hp]
  obtain ⟨p, h⟩ := detect32 a v v
  rw [h]
  rfl

theorem ne_of_bit {W : Nat} {eq : BitVec W → BitVec W → Bool} (hs : Sane eq) {x y : BitVec W} (i : Nat) (hi : i + 1 < W) (h : x.getLsbD i ≠ y.getLsbD i) : eq x y = false := by
  cases e : eq x y
  · rfl
  · exact absurd (hs x y e i hi) h

theorem flip_bit {W : Nat} (v : BitVec W) (p i : Nat) (hi : i < W) : (v ^^^ (1#W <<< p)).getLsbD i = (v.getLsbD i ^^ decide (i = p)) := by
  rw [BitVec.getLsbD_xor, bit_one p i hi]

/-- With three copies damaged in different bits below the sign bit every mechanism gives the original. -/
theorem three_flips {W : Nat} (h8 : 8 ∣ W) (hW64 : W ≤ 64) {eq : BitVec W → BitVec W → Bool} (hs : Sane eq) (g : Garbage W) (v e₁ e₂ e₃ : BitVec W) (i j : Nat) (hi : i + 1 < W) (hj : j + 1 < W)
    (h1 : e₁.getLsbD i = true ∧ e₂.getLsbD i = false ∧ e₃.getLsbD i = false) (h2 : e₂.getLsbD j = true ∧ e₃.getLsbD j = false)
    (hd : ∀ i, i < W → (e₁.getLsbD i && e₂.getLsbD i) = false ∧ (e₁.getLsbD i && e₃.getLsbD i) = false ∧ (e₂.getLsbD i && e₃.getLsbD i) = false) (p : FaultPattern) :
    let a := v ^^^ e₁; let b := v ^^^ e₂; let c := v ^^^ e₃
    bitLevelVote a b c = v ∧ standardVote eq a b c = v ∧ wordErrorVote eq g.ga g.gb g.gc g.ga' g.gb' g.gc' a b c = v ∧ burstErrorVote g.ha g.hb g.hc a b c = v ∧ adaptiveVote eq g a b c p = v := by
  dsimp only
  have hb := C02_disjoint_upsets_are_masked v e₁ e₂ e₃ hd
  have hab : eq (v ^^^ e₁) (v ^^^ e₂) = false := ne_of_bit hs i hi (by rw [BitVec.getLsbD_xor, BitVec.getLsbD_xor, h1.1, h1.2.1]; simp)
  have hac : eq (v ^^^ e₁) (v ^^^ e₃) = false := ne_of_bit hs i hi (by rw [BitVec.getLsbD_xor, BitVec.getLsbD_xor, h1.1, h1.2.2]; simp)
  have hbc : eq (v ^^^ e₂) (v ^^^ e₃) = false := ne_of_bit hs j hj (by rw [BitVec.getLsbD_xor, BitVec.getLsbD_xor, h2.1, h2.2]; simp)
  obtain ⟨s, w, u, a⟩ := C03_all_strategies_agree_any_eq h8 le_rfl hW64 eq _ _ _ hab hac hbc g p
  rw [s, w, u, a, hb]
  exact ⟨rfl, rfl, rfl, rfl, rfl⟩

/-- **C380 (assertions hold).** For every 32-bit value that equals itself, every equality that is sane, all garbage and both outcomes of `rand()`: no assertion of the test fails and nothing is undefined. -/
theorem C380_assertions (eq : BitVec 32 → BitVec 32 → Bool) (hs : Sane eq) (g : Garbage 32) (coin : Bool) (v : BitVec 32) (hv : eq v v = true) : testVoting eq g coin v = .ok true := by
  have s3 : single v 3 = .ok (v ^^^ (1#32 <<< 3)) := rfl
  have s5 : single v 5 = .ok (v ^^^ (1#32 <<< 5)) := rfl
  have s15 : single v 15 = .ok (v ^^^ (1#32 <<< 15)) := rfl
  have s7 : single v 7 = .ok (v ^^^ (1#32 <<< 7)) := rfl
  have s8 : single v 8 = .ok (v ^^^ (1#32 <<< 8)) := rfl
  have s9 : single v 9 = .ok (v ^^^ (1#32 <<< 9)) := rfl
  have b0 : byteError v 0 = .ok (v ^^^ (0xFF#32 <<< (0 * 8))) := rfl
  have step : ∀ x y : Outcome Bool, x = .ok true → andThen x y = y := by
    rintro x y rfl
    rfl
  unfold testVoting
  rw [s3, s5, s15, s7, s8, s9, b0, step, step, step, step, step, step]
  · obtain ⟨p, h⟩ := detect32 (v ^^^ (1#32 <<< 7)) (v ^^^ (1#32 <<< 8)) (v ^^^ (1#32 <<< 9))
    show (votes eq g _ _ _).bind _ = _
    unfold votes
    rw [h]
    rfl
  · show sect eq g _ v _ _ v = _
    have key := three_flips (by decide) (by decide) hs g v (1#32 <<< 5) (1#32 <<< 15) 0#32 5 15 (by decide) (by decide) (by decide) (by decide) (by
      intro i hi
      rw [bit_one 5 i hi, bit_one 15 i hi]
      by_cases h : i = 5
      · subst h; decide
      · simp [h])
    have e0 : v ^^^ 0#32 = v := BitVec.xor_zero
    rw [e0] at key
    obtain ⟨p, h⟩ := detect32 (v ^^^ (1#32 <<< 5)) (v ^^^ (1#32 <<< 15)) v
    unfold sect
    rw [if_pos, h]
    · show Outcome.ok _ = Outcome.ok _
      rw [(key p).2.2.2.2, hv]
    · rw [List.all_eq_true]
      intro r hr
      rw [List.mem_singleton.1 hr, (key p).1]
      exact hv
  · exact sect_two32 g hv _ _ (by simp)
  · exact sect_two32 g hv _ _ (by simp)
  · exact sect_two32 g hv _ _ (by simp)
  · exact sect_two32 g hv _ _ (by simp)
  · exact sect_two32 g hv _ _ (by simp)

/-- **C380 (extreme case).** For every 32-bit value: with a different bit damaged in each copy, as the last section does, all five mechanisms still give the original, so that the error rates printed are all 0. -/
theorem C380_extreme (eq : BitVec 32 → BitVec 32 → Bool) (hs : Sane eq) (g : Garbage 32) (v : BitVec 32) (hv : eq v v = true) :
    ∃ a b c x, single v 7 = .ok a ∧ single v 8 = .ok b ∧ single v 9 = .ok c ∧ votes eq g a b c = .ok x ∧
      (eq x.standard v = true ∧ eq x.bit v = true ∧ eq x.word v = true ∧ eq x.burst v = true ∧ eq x.adaptive v = true) := by
  obtain ⟨p, h⟩ := detect32 (v ^^^ (1#32 <<< 7)) (v ^^^ (1#32 <<< 8)) (v ^^^ (1#32 <<< 9))
  have key := three_flips (by decide) (by decide) hs g v (1#32 <<< 7) (1#32 <<< 8) (1#32 <<< 9) 7 8 (by decide) (by decide) (by decide) (by decide) (by
    intro i hi
    rw [bit_one 7 i hi, bit_one 8 i hi, bit_one 9 i hi]
    by_cases h : i = 7
    · subst h; decide
    · by_cases h' : i = 8
      · subst h'; decide
      · simp [h, h']) p
  obtain ⟨k1, k2, k3, k4, k5⟩ := key
  refine ⟨_, _, _, _, rfl, rfl, rfl, by unfold votes; rw [h]; rfl, ?_⟩
  dsimp only
  rw [k1, k2, k3, k4, k5]
  exact ⟨hv, hv, hv, hv, hv⟩

/-- **C380 (limit: NaN).** For a value that nothing equals, the first assertion fails although the vote restores its bits. -/
theorem C380_nan_limit (eq : BitVec 32 → BitVec 32 → Bool) (g : Garbage 32) (coin : Bool) (v : BitVec 32) (hv : ∀ x, eq x v = false) : testVoting eq g coin v = .ok false := by
  have s3 : single v 3 = .ok (v ^^^ (1#32 <<< 3)) := rfl
  unfold testVoting
  rw [s3]
  show andThen (sect eq g _ v _ v v) _ = _
  unfold sect
  rw [if_neg]
  · rfl
  · rw [List.all_eq_true]
    intro h
    have := h (bitLevelVote (v ^^^ (1#32 <<< 3)) v v) (by simp)
    rw [hv] at this
    cases this

example : Sane (W := 32) (· == ·) := fun x y h i _ => by rw [beq_iff_eq.1 h]
/-- Equality of floats is sane. -/
theorem sane_f32 : Sane f32eq := by
  intro x y h i hi
  unfold f32eq at h
  simp only [Bool.and_eq_true, Bool.or_eq_true, beq_iff_eq] at h
  rcases h.2 with h | ⟨h1, h2⟩
  · rw [h]
  · have z : ∀ x : BitVec 32, f32isZero x = true → ∀ i, i + 1 < 32 → x.getLsbD i = false := by
      intro x hx i hi
      have hn : x = 0#32 ∨ x = 0x80000000#32 := by
        unfold f32isZero f32exp f32man at hx
        simp only [Bool.and_eq_true, beq_iff_eq] at hx
        obtain ⟨a, b⟩ := hx
        have hl := x.isLt
        rcases (by omega : x.toNat = 0 ∨ x.toNat = 2147483648) with h | h
        · exact Or.inl (BitVec.eq_of_toNat_eq h)
        · exact Or.inr (BitVec.eq_of_toNat_eq h)
      rcases hn with rfl | rfl
      · exact BitVec.getLsbD_zero
      · have : ∀ i : Fin 31, (0x80000000#32).getLsbD i.val = false := by decide
        exact this ⟨i, by omega⟩
    rw [z x h1 i hi, z y h2 i hi]

/-! ### C381: 64-bit types -/

theorem detect_first (v m : BitVec 64) (hd : m ≠ 0#64) (h1 : countBits m ≠ 1) :
    detectFaultPattern (v ^^^ m) v v = match areByteBoundary m with
      | .ub => .ub
      | .ok true => .ok .byteError
      | .ok false => if areWordBoundary m then .ok .wordError
        else if areBurstPattern m then .ok .burstError else .ok .unknown := by
  have hx : ((v ^^^ m) ^^^ v) = m := by
    rw [BitVec.xor_comm v m, BitVec.xor_assoc, BitVec.xor_self, BitVec.xor_zero]
  have hn : countBits m ≠ 0 := by rw [countBits_eq_popcount, ne_eq, popcount_eq_zero_iff]; exact hd
  unfold detectFaultPattern
  rw [if_neg (by rintro ⟨h, _⟩; rw [hx] at h; exact hn h)]
  have hdp : diffPattern (v ^^^ m) v v = m := by unfold diffPattern; rw [hx]; simp [countBits_zero]
  rw [hdp, if_neg h1, areAdjacentBits_false, if_neg (by decide)]
  cases areByteBoundary m with
  | ub => rfl
  | ok b => cases b <;> rfl

theorem detect_ub (v m : BitVec 64) (hd : m ≠ 0#64) (h1 : popcount m ≠ 1) (h : areByteBoundary m = .ub) : detectFaultPattern (v ^^^ m) v v = .ub := by
  rw [detect_first v m hd (by rw [countBits_eq_popcount]; exact h1), h]

theorem detect_byte (v m : BitVec 64) (hd : m ≠ 0#64) (h1 : popcount m ≠ 1) (h : areByteBoundary m = .ok true) : ∃ p, detectFaultPattern (v ^^^ m) v v = .ok p := by
  rw [detect_first v m hd (by rw [countBits_eq_popcount]; exact h1), h]
  exact ⟨_, rfl⟩

theorem detect_one (v m : BitVec 64) (hd : m ≠ 0#64) (h1 : popcount m = 1) : ∃ p, detectFaultPattern (v ^^^ m) v v = .ok p := by
  have hx : ((v ^^^ m) ^^^ v) = m := by
    rw [BitVec.xor_comm v m, BitVec.xor_assoc, BitVec.xor_self, BitVec.xor_zero]
  have hn : countBits m ≠ 0 := by rw [countBits_eq_popcount, ne_eq, popcount_eq_zero_iff]; exact hd
  unfold detectFaultPattern
  rw [if_neg (by rintro ⟨h, _⟩; rw [hx] at h; exact hn h)]
  have hdp : diffPattern (v ^^^ m) v v = m := by unfold diffPattern; rw [hx]; simp [countBits_zero]
  rw [hdp, if_pos (by rw [countBits_eq_popcount]; exact h1)]
  exact ⟨_, rfl⟩

theorem sect_ok64 {eq : BitVec 64 → BitVec 64 → Bool} (g : Garbage 64) {v : BitVec 64} (hv : eq v v = true) (a : BitVec 64) (pre : List (BitVec 64))
    (hp : ∀ r ∈ pre, r = bitLevelVote a v v ∨ r = burstErrorVote g.ha g.hb g.hc a v v ∨ r = standardVote eq a v v ∨ r = wordErrorVote eq g.ga g.gb g.gc g.ga' g.gb' g.gc' a v v)
    (h : ∃ p, detectFaultPattern a v v = .ok p) : sect eq g pre v a v v = .ok true := by
  rw [sect_two (by decide) (by decide) g hv a pre hp]
  obtain ⟨p, h⟩ := h
  rw [h]
  rfl

theorem sect_ub64 {eq : BitVec 64 → BitVec 64 → Bool} (g : Garbage 64) {v : BitVec 64} (hv : eq v v = true) (a : BitVec 64) (pre : List (BitVec 64))
    (hp : ∀ r ∈ pre, r = bitLevelVote a v v ∨ r = burstErrorVote g.ha g.hb g.hc a v v ∨ r = standardVote eq a v v ∨ r = wordErrorVote eq g.ga g.gb g.gc g.ga' g.gb' g.gc' a v v)
    (h : detectFaultPattern a v v = .ub) : sect eq g pre v a v v = .ub := by
  rw [sect_two (by decide) (by decide) g hv a pre hp, h]
  rfl

/-- **C381 (violated: 64-bit types).** For every 64-bit value that equals itself, all garbage and both outcomes of `rand()`, the test of the voters is undefined: classifying the word error or the burst shifts by more than an `int` has. -/
theorem C381_wide_violated (eq : BitVec 64 → BitVec 64 → Bool) (g : Garbage 64) (coin : Bool) (v : BitVec 64) (hv : eq v v = true) : testVoting eq g coin v = .ub := by
  have s3 : single v 3 = .ok (v ^^^ 8#64) := rfl
  have b0 : byteError v 0 = .ok (v ^^^ 0xFF#64) := rfl
  have a2 : adjacent v 10 2 = v ^^^ 0xC00#64 := by
    show (v ^^^ 0x400#64) ^^^ 0x800#64 = _
    rw [BitVec.xor_assoc]
    rfl
  have bu : burst v 12 5 = v ^^^ 0x1F000#64 := rfl
  have step : ∀ x y : Outcome Bool, x = .ok true → andThen x y = y := by
    rintro x y rfl
    rfl
  have stop : ∀ x y : Outcome Bool, x = .ub → andThen x y = .ub := by
    rintro x y rfl
    rfl
  unfold testVoting
  rw [s3, b0, a2, bu, step, step, step]
  · cases coin
    · have w : wordError false v = v ^^^ 0xFFFFFFFF00000000#64 := rfl
      rw [w, step, stop]
      · exact sect_ub64 g hv _ _ (by simp) (detect_ub v _ (by decide) (by decide) (by decide))
      · exact sect_ok64 g hv _ _ (by simp) (detect_byte v _ (by decide) (by decide) (by decide))
    · have w : wordError true v = v ^^^ 0xFFFFFFFF#64 := rfl
      rw [w, stop]
      exact sect_ub64 g hv _ _ (by simp) (detect_ub v _ (by decide) (by decide) (by decide))
  · exact sect_ok64 g hv _ _ (by simp) (detect_byte v _ (by decide) (by decide) (by decide))
  · exact sect_ok64 g hv _ _ (by simp) (detect_byte v _ (by decide) (by decide) (by decide))
  · exact sect_ok64 g hv _ _ (by simp) (detect_one v _ (by decide) (by decide))

/-- **C381 (the program).** With IEEE equality of floats the program of the file never gets past the second type: the test of `double` is undefined. -/
theorem C381_program_violated (eqd : BitVec 64 → BitVec 64 → Bool) (g : Garbage 32) (h : Garbage 64) (c1 c2 : Bool)
    (hd : eqd 0x4005BF0995AAF790#64 0x4005BF0995AAF790#64 = true) : mainVoting f32eq eqd g h c1 c2 = .ub := by
  have f : f32eq 0x40490FD0#32 0x40490FD0#32 = true := by decide
  unfold mainVoting
  rw [C380_assertions f32eq sane_f32 g c1 _ f, C381_wide_violated eqd h c1 _ hd]
  rfl

/-! ### C382: statistics -/

theorem damaged32 (k : Kind) (coin : Bool) (i : Nat) (v : BitVec 32) : ∃ a, damaged k coin i v = .ok a := by
  cases k
  · exact ⟨_, if_pos (Nat.mod_lt _ (by decide))⟩
  · exact ⟨_, rfl⟩
  · have h : i % (32 / 8) * 8 < 32 := by omega
    exact ⟨_, if_pos h⟩
  · exact ⟨_, rfl⟩
  · exact ⟨_, rfl⟩

/-- **C382.** For 32-bit types, every kind of damage, every number of trials, all originals that equal themselves, all garbage and all outcomes of `rand()`: nothing is undefined and every mechanism succeeds in every trial; the printed success rates are all 100 %. -/
theorem C382_statistics (eq : BitVec 32 → BitVec 32 → Bool) (g : Nat → Garbage 32) (coin : Nat → Bool) (orig : Nat → BitVec 32) (k : Kind) (n : Nat)
    (ho : ∀ i < n, eq (orig i) (orig i) = true) : stats eq g coin orig k n = .ok ⟨n, n, n, n, n⟩ := by
  induction n with
  | zero => rfl
  | succ n ih =>
    have hv := ho n (by omega)
    obtain ⟨a, ha⟩ := damaged32 k (coin n) n (orig n)
    obtain ⟨p, hp⟩ := detect32 a (orig n) (orig n)
    obtain ⟨b1, b2, -, b4, b5, b6⟩ := C01_two_agreeing_copies_win (W := 32) (by decide) le_rfl (by decide) eq (orig n) a (orig n) (orig n) (Or.inr (Or.inr ⟨rfl, rfl⟩)) (g n)
    rw [stats, ih fun i hi => ho i (by omega)]
    show (damaged k (coin n) n (orig n)).bind _ = _
    rw [ha]
    show (votes eq (g n) a (orig n) (orig n)).bind _ = _
    unfold votes
    rw [hp]
    show Outcome.ok (Results.add eq (orig n) ⟨n, n, n, n, n⟩ _) = _
    unfold Results.add
    dsimp only
    rw [same_eq hv b4, b1, hv, same_eq hv b5, b2, hv, same_eq hv (b6 p)]
    rfl

/-- Non-vacuity: integers always equal themselves. -/
example (orig : Nat → BitVec 32) (n : Nat) : ∀ i < n, (orig i == orig i) = true := fun _ _ => beq_self_eq_true _

end Verif.Props.VoteTest
