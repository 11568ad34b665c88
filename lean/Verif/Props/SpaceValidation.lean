import Verif.Model.SpaceValidation
import Verif.Lemmas.Crc
import Verif.Lemmas.Bits
import Mathlib.Tactic.Linarith
import Mathlib.Tactic.NormNum
/-!
Properties C318–C320: the validation program of the space-optimised TMR.
-/
namespace Verif.Props.SpaceVal
open Verif Verif.SpaceVal Verif.Spec
open Verif.ETmr (verifyChecksum validCount)

/-! ### C318: the injected faults -/

/-- The mask a fault flips: the pattern, shifted to its position, cut at the width of the value. -/
def mask (w env seq : Nat) : BitVec w :=
  ((patterns.getD env []).getD (seq % 8) 0#64).setWidth w <<< (seq * 7 % w)

theorem patternBits_inv (p : BitVec 64) (k : Nat) :
    let st := forN k (fun _ (st : Nat × BitVec 64) =>
      if st.2 ≠ 0#64 ∧ st.1 < 64 then (st.1 + 1, st.2 >>> 1) else st) (0, p)
    st.2 = p >>> st.1 ∧ (k ≤ 64 → st.1 = k ∨ st.2 = 0#64) ∧ st.1 ≤ k := by
  induction k with
  | zero => simp [forN]
  | succ k ih =>
    simp only [forN] at ih ⊢
    generalize forN k (fun _ (st : Nat × BitVec 64) =>
      if st.2 ≠ 0#64 ∧ st.1 < 64 then (st.1 + 1, st.2 >>> 1) else st) (0, p) = st at ih
    obtain ⟨h1, h2, h3⟩ := ih
    by_cases h : st.2 ≠ 0#64 ∧ st.1 < 64
    · rw [if_pos h]
      refine ⟨?_, ?_, ?_⟩
      · dsimp only
        rw [h1, ← BitVec.shiftRight_add]
      · intro hk
        left
        rcases h2 (by omega) with h4 | h4
        · dsimp only; omega
        · exact absurd h4 h.1
      · dsimp only; omega
    · rw [if_neg h]
      refine ⟨h1, ?_, by omega⟩
      intro hk
      right
      rcases h2 (by omega) with h4 | h4
      · by_contra h5
        exact h ⟨h5, by omega⟩
      · exact h4

theorem patternBits_covers (p : BitVec 64) (i : Nat) (h : p.getLsbD i = true) : i < patternBits p := by
  have inv := patternBits_inv p 64
  unfold patternBits
  simp only at inv
  generalize forN 64 (fun _ (st : Nat × BitVec 64) =>
    if st.2 ≠ 0#64 ∧ st.1 < 64 then (st.1 + 1, st.2 >>> 1) else st) (0, p) = st at inv ⊢
  obtain ⟨h1, h2, _⟩ := inv
  by_contra hlt
  have hi : i < 64 := by
    by_contra hge
    rw [BitVec.getLsbD_of_ge p i (by omega)] at h
    exact absurd h (by decide)
  rcases h2 (Nat.le_refl _) with h4 | h4
  · omega
  · have : (p >>> st.1).getLsbD (i - st.1) = true := by
      rw [BitVec.getLsbD_ushiftRight, show st.1 + (i - st.1) = i by omega]; exact h
    rw [← h1, h4] at this
    simp at this

theorem pattern_bit (p : BitVec 64) (i : Nat) : ((p >>> i) &&& 1#64 ≠ 0#64) ↔ p.getLsbD i = true := by
  constructor
  · intro h
    by_contra hn
    apply h
    apply BitVec.eq_of_getLsbD_eq
    intro j hj
    by_cases h0 : j = 0
    · subst h0; simp at hn; simp [hn]
    · simp [BitVec.getLsbD_and, BitVec.getLsbD_one, h0]
  · intro h hz
    have := congrArg (fun b : BitVec 64 => b.getLsbD 0) hz
    simp [h] at this

theorem apply_loop {w : Nat} (v : BitVec w) (p : BitVec 64) (start m : Nat) (hm : m ≤ w - start) (j : Nat)
    (hj : j < w) :
    (forN m (fun i bits =>
      if start + i ≥ w then bits
      else if (p >>> i) &&& 1#64 ≠ 0#64 then bits ^^^ (1#w <<< (start + i)) else bits) v).getLsbD j
      = xor (v.getLsbD j) (decide (start ≤ j) && (decide (j - start < m) && p.getLsbD (j - start))) := by
  induction m with
  | zero => simp [forN]
  | succ m ih =>
    have ih := ih (by omega)
    simp only [forN]
    rw [if_neg (by omega)]
    by_cases h : (p >>> m) &&& 1#64 ≠ 0#64
    · rw [if_pos h, BitVec.getLsbD_xor, ih]
      rw [pattern_bit] at h
      rw [BitVec.getLsbD_shiftLeft, BitVec.getLsbD_one]
      by_cases hjm : j = start + m
      · subst hjm
        have : start + m - start = m := by omega
        rw [this, h]
        have hw : 0 < w := by omega
        simp [hj, hw]
      · by_cases hs : start ≤ j
        · have e1 : decide (j - start < m + 1) = decide (j - start < m) := by
            rw [decide_eq_decide]; omega
          have e2 : ¬ (¬ j < start + m ∧ j - (start + m) = 0) := by omega
          rw [e1]
          by_cases h3 : j < start + m
          · simp [h3, hj]
          · have : j - (start + m) ≠ 0 := by omega
            simp [h3, hj, this]
        · have : j < start + m := by omega
          simp [hs, this]
    · rw [if_neg h, ih]
      rw [pattern_bit] at h
      by_cases hjm : j - start = m
      · rw [hjm]; simp [Bool.eq_false_iff.mpr h]
      · have e1 : decide (j - start < m + 1) = decide (j - start < m) := by
          rw [decide_eq_decide]; omega
        rw [e1]

/-- C318: for every value, pattern and position a fault flips exactly the bits of the pattern, moved to the position and cut at the end of the value. -/
theorem C318_apply_pattern {w : Nat} (v : BitVec w) (p : BitVec 64) (start : Nat) (hs : start < w) :
    applyBitPattern v p start = v ^^^ (p.setWidth w <<< start) := by
  apply BitVec.eq_of_getLsbD_eq
  intro j hj
  unfold applyBitPattern
  rw [apply_loop v p start _ (Nat.min_le_right _ _) j hj, BitVec.getLsbD_xor, BitVec.getLsbD_shiftLeft,
    BitVec.getLsbD_setWidth]
  congr 1
  by_cases h1 : start ≤ j
  · have h2 : ¬ j < start := by omega
    have h3 : j - start < w := by omega
    simp only [h1, h2, h3, hj, decide_true, decide_false, Bool.true_and, Bool.not_false]
    by_cases hb : p.getLsbD (j - start) = true
    · have := patternBits_covers p (j - start) hb
      rw [hb]
      simp; omega
    · rw [Bool.eq_false_iff.mpr hb]; simp
  · have h2 : j < start := by omega
    simp [h1, h2]

/-- C318: for every value and sequence number an injected fault flips the mask of the environment's pattern. -/
theorem C318_injected {w : Nat} (hw : 0 < w) (v : BitVec w) (env seq : Nat) :
    applyRadiation v env seq = v ^^^ mask w env seq := by
  unfold applyRadiation mask
  exact C318_apply_pattern v _ _ (Nat.mod_lt _ hw)

theorem three0 {α : Type _} (a b c : α) : three a b c 0 = a := rfl
theorem three1 {α : Type _} (a b c : α) : three a b c 1 = b := rfl
theorem three2 {α : Type _} (a b c : α) : three a b c 2 = c := rfl

theorem xor_self_iff {w : Nat} (v m : BitVec w) : v ^^^ m = v ↔ m = 0#w := by
  constructor
  · intro h
    have : v ^^^ (v ^^^ m) = v ^^^ v := by rw [h]
    rwa [← BitVec.xor_assoc, BitVec.xor_self, BitVec.zero_xor] at this
  · intro h; rw [h, BitVec.xor_zero]

theorem xor_left_cancel {w : Nat} (v a b : BitVec w) (h : v ^^^ a = v ^^^ b) : a = b := by
  have : v ^^^ (v ^^^ a) = v ^^^ (v ^^^ b) := by rw [h]
  rwa [← BitVec.xor_assoc, ← BitVec.xor_assoc, BitVec.xor_self, BitVec.zero_xor, BitVec.zero_xor] at this

theorem mask_period (w : Nat) (hw : w = 32 ∨ w = 64) (env seq : Nat) : mask w env seq = mask w env (seq % 64) := by
  unfold mask
  have h1 : seq % 64 % 8 = seq % 8 := by omega
  have h2 : seq % 64 * 7 % w = seq * 7 % w := by rcases hw with rfl | rfl <;> omega
  rw [h1, h2]

/-- Sequence numbers (modulo 64) whose fault in environment `env` falls outside a value of `w` bits. -/
def ineffective (w env : Nat) : List Nat :=
  if env = 0 then
    if w = 32 then [4, 7, 9, 13, 18, 22, 27, 31, 36, 39, 41, 45, 50, 54, 59, 63]
    else [7, 9, 18, 27, 36, 45, 54, 63]
  else if env = 1 then if w = 32 then [31, 63] else [63]
  else []

theorem ineffective_table32 : ∀ env : Fin 6, ∀ i : Fin 64,
    mask 32 env i = 0#32 ↔ i.val ∈ ineffective 32 env := by decide +kernel

theorem ineffective_table64 : ∀ env : Fin 6, ∀ i : Fin 64,
    mask 64 env i = 0#64 ↔ i.val ∈ ineffective 64 env := by decide +kernel

/-- C318: for every value and sequence number the faults that change nothing are exactly those listed: a quarter (32 bit) or an eighth (64 bit) of the faults in low Earth orbit, a few in geostationary orbit, none elsewhere. -/
theorem C318_effective (w : Nat) (hw : w = 32 ∨ w = 64) (v : BitVec w) (env seq : Nat) (he : env < 6) :
    applyRadiation v env seq = v ↔ seq % 64 ∈ ineffective w env := by
  rw [C318_injected (by rcases hw with h | h <;> omega), xor_self_iff, mask_period w hw]
  rcases hw with rfl | rfl
  · exact ineffective_table32 ⟨env, he⟩ ⟨seq % 64, Nat.mod_lt _ (by omega)⟩
  · exact ineffective_table64 ⟨env, he⟩ ⟨seq % 64, Nat.mod_lt _ (by omega)⟩

theorem differ_table32 : ∀ env : Fin 6, 0 < env.val → ∀ i : Fin 64,
    mask 32 env i ≠ mask 32 env ((i + 100) % 64) := by decide +kernel

theorem differ_table64 : ∀ env : Fin 6, 0 < env.val → ∀ i : Fin 64,
    mask 64 env i ≠ mask 64 env ((i + 100) % 64) := by decide +kernel

/-- C318: outside low Earth orbit, for every trial with two faulty copies, the two errors are different. -/
theorem C318_two_errors_differ (w : Nat) (hw : w = 32 ∨ w = 64) (v : BitVec w) (env i : Nat) (he : 0 < env)
    (he' : env < 6) (hi : i % 3 = 1) : copies v env i 0 ≠ copies v env i 1 := by
  have hw0 : 0 < w := by rcases hw with h | h <;> omega
  unfold copies
  rw [if_neg (by omega), if_pos hi]
  rw [three0, three1, C318_injected hw0, C318_injected hw0]
  intro h
  have h := xor_left_cancel _ _ _ h
  rw [mask_period w hw, mask_period w hw env (i + 100), show (i + 100) % 64 = (i % 64 + 100) % 64 by omega] at h
  rcases hw with rfl | rfl
  · exact differ_table32 ⟨env, he'⟩ he ⟨i % 64, Nat.mod_lt _ (by omega)⟩ h
  · exact differ_table64 ⟨env, he'⟩ he ⟨i % 64, Nat.mod_lt _ (by omega)⟩ h

/-- C318: for every value and trial, a "single" trial leaves two copies and a "double" trial one copy as they were. -/
theorem C318_untouched {w : Nat} (v : BitVec w) (env i : Nat) :
    (i % 3 = 0 → copies v env i 1 = v ∧ copies v env i 2 = v) ∧ (i % 3 = 1 → copies v env i 2 = v) := by
  constructor
  · intro h; unfold copies; rw [if_pos h]; exact ⟨three1 _ _ _, three2 _ _ _⟩
  · intro h; unfold copies; rw [if_neg (by omega), if_pos h]; exact three2 _ _ _

/-- C318: in low Earth orbit, for every stored value, trial 63 ("single bit error in one copy") corrupts nothing, trial 16 ("different errors in two copies") writes the same wrong value into two copies, and trial 29 ("all three copies corrupted") leaves a copy intact. -/
theorem C318_copies_violated (w : Nat) (hw : w = 32 ∨ w = 64) (v : BitVec w) :
    (∀ k, copies v 0 63 k = v) ∧ (copies v 0 16 0 = copies v 0 16 1 ∧ copies v 0 16 0 ≠ v) ∧
      ∃ k, copies v 0 29 k = v := by
  have hw0 : 0 < w := by rcases hw with h | h <;> omega
  refine ⟨?_, ⟨?_, ?_⟩, ?_⟩
  · have : applyRadiation v 0 63 = v := by
      rw [C318_effective w hw v 0 63 (by omega)]; rcases hw with rfl | rfl <;> decide
    intro k
    unfold copies
    rw [if_pos (by omega), this]
    unfold three
    split <;> [rfl; (split <;> rfl)]
  · unfold copies
    rw [if_neg (by omega), if_pos (by omega)]
    rw [three0, three1, C318_injected hw0, C318_injected hw0]
    congr 1
    rcases hw with rfl | rfl <;> decide +kernel
  · unfold copies
    rw [if_neg (by omega), if_pos (by omega)]
    rw [three0]
    intro h
    rw [C318_effective w hw v 0 16 (by omega)] at h
    revert h
    rcases hw with rfl | rfl <;> decide
  · unfold copies
    rw [if_neg (by omega), if_neg (by omega)]
    refine ⟨2, ?_⟩
    rw [three2, C318_effective w hw v 0 (29 + 300) (by omega)]
    rcases hw with rfl | rfl <;> decide

example : copies 42#32 5 0 0 = ~~~ 42#32 ∧ copies 42#32 5 0 1 = 42#32 := by decide +kernel
example : copies 42#32 1 4 0 ≠ 42#32 ∧ copies 42#32 1 4 1 ≠ 42#32 ∧ copies 42#32 1 4 0 ≠ copies 42#32 1 4 1 := by
  decide +kernel

/-! ### C319: one trial -/

variable {α : Type _}

/-- The situation of a trial: the checksum tells every copy from the stored value, and `==` with the stored value is equality. -/
structure Tells (eq : α → α → Bool) (crc : α → BitVec 32) (v : α) (c : Fin 3 → α) : Prop where
  crc : ∀ k, crc (c k) = crc v → c k = v
  eq : ∀ x, eq x v = true ↔ x = v

/-- The copies a trial of kind `i` may corrupt. -/
def Kind (i : Nat) (v : α) (c : Fin 3 → α) : Prop :=
  (i % 3 = 0 → c 1 = v ∧ c 2 = v) ∧ (i % 3 = 1 → c 2 = v)

theorem valid_iff (eq : α → α → Bool) (crc : α → BitVec 32) (v : α) (c : Fin 3 → α) (h : Tells eq crc v c)
    (k : Fin 3) : verifyChecksum crc (setCopies c (ETmr.new crc v)) k = true ↔ c k = v := by
  change (crc (c k) == crc v) = true ↔ _
  rw [beq_iff_eq]
  exact ⟨h.crc k, fun e => by rw [e]⟩

theorem exists3 (P : Fin 3 → Prop) : (∃ k, P k) ↔ P 0 ∨ P 1 ∨ P 2 := by
  constructor
  · rintro ⟨k, hk⟩
    match k, hk with
    | 0, h => exact Or.inl h
    | 1, h => exact Or.inr (Or.inl h)
    | 2, h => exact Or.inr (Or.inr h)
  · rintro (h | h | h)
    · exact ⟨0, h⟩
    · exact ⟨1, h⟩
    · exact ⟨2, h⟩

/-- C319: for every value and copies that the checksum tells apart, corruption is detected exactly if a copy differs from the stored value. -/
theorem C319_detected_iff (eq : α → α → Bool) (crc : α → BitVec 32) (v : α) (c : Fin 3 → α)
    (h : Tells eq crc v c) :
    isCorruptionDetected crc (setCopies c (ETmr.new crc v)) = true ↔ ∃ k, c k ≠ v := by
  unfold isCorruptionDetected
  rw [exists3]
  have h0 := valid_iff eq crc v c h 0
  have h1 := valid_iff eq crc v c h 1
  have h2 := valid_iff eq crc v c h 2
  simp only [Bool.or_eq_true, Bool.not_eq_true']
  rw [← Bool.not_eq_true, ← Bool.not_eq_true, ← Bool.not_eq_true, h0, h1, h2, or_assoc]

/-- C319: for every trial, the program's own judgement that a corruption exists is right. -/
theorem C319_actual_iff (eq : α → α → Bool) (crc : α → BitVec 32) (i : Nat) (v : α) (c : Fin 3 → α)
    (h : Tells eq crc v c) (hk : Kind i v c) : actualCorruption eq i v c = true ↔ ∃ k, c k ≠ v := by
  unfold actualCorruption
  rw [exists3]
  have e : ∀ k, (!eq (c k) v) = true ↔ c k ≠ v := by
    intro k
    rw [Bool.not_eq_true', ← Bool.not_eq_true, h.eq]
  by_cases h0 : i % 3 = 0
  · rw [if_pos h0, e]
    obtain ⟨h1, h2⟩ := hk.1 h0
    simp [h1, h2]
  · rw [if_neg h0]
    by_cases h1 : i % 3 = 1
    · rw [if_pos h1, Bool.or_eq_true, e, e]
      simp [hk.2 h1]
    · rw [if_neg h1, Bool.or_eq_true, Bool.or_eq_true, e, e, e, or_assoc]

/-- C319: for every value and copies that the checksum tells apart, if a copy is intact the stored value is returned with SUCCESS. -/
theorem C319_corrected (eq : α → α → Bool) (fb : α → α → α → Outcome α) (crc : α → BitVec 32) (v : α)
    (c : Fin 3 → α) (h : Tells eq crc v c) (hi : ∃ k, c k = v) :
    (STmr.get eq fb crc (setCopies c (ETmr.new crc v))).1 = .ok (.success, v) := by
  generalize hs : setCopies c (ETmr.new crc v) = s
  have key : ∀ k, (verifyChecksum crc s k = true ∧ s.vals k = v) ∨ verifyChecksum crc s k = false := by
    intro k
    by_cases hk : verifyChecksum crc s k = true
    · left
      refine ⟨hk, ?_⟩
      rw [← hs] at hk ⊢
      exact (valid_iff eq crc v c h k).1 hk
    · right; exact Bool.eq_false_iff.mpr hk
  have one : ∃ k, verifyChecksum crc s k = true := by
    obtain ⟨k, hk⟩ := hi
    refine ⟨k, ?_⟩
    rw [← hs]
    exact (valid_iff eq crc v c h k).2 hk
  rw [exists3] at one
  have hv : eq v v = true := (h.eq v).2 rfl
  have k0 := key 0; have k1 := key 1; have k2 := key 2
  rcases k0 with ⟨a0, b0⟩ | a0 <;> rcases k1 with ⟨a1, b1⟩ | a1 <;> rcases k2 with ⟨a2, b2⟩ | a2 <;>
    simp_all [STmr.get, STmr.performMajorityVoting, ETmr.validCount, ETmr.firstValid]

/-- C319: for every value and copies that the checksum tells apart, if all three copies are corrupted no copy is valid, repair is impossible and a value is returned only with REDUNDANCY_FAILURE. -/
theorem C319_all_corrupted (eq : α → α → Bool) (fb : α → α → α → Outcome α) (crc : α → BitVec 32) (v : α)
    (c : Fin 3 → α) (h : Tells eq crc v c) (hi : ∀ k, c k ≠ v) (st : STmr.Status) (x : α)
    (hg : (STmr.get eq fb crc (setCopies c (ETmr.new crc v))).1 = .ok (st, x)) :
    st = .redundancyFailure ∧ validCount crc (setCopies c (ETmr.new crc v)) = 0 ∧
      canRepair crc (setCopies c (ETmr.new crc v)) = false := by
  have key : ∀ k, verifyChecksum crc (setCopies c (ETmr.new crc v)) k = false := by
    intro k
    exact Bool.eq_false_iff.mpr (fun hk => hi k ((valid_iff eq crc v c h k).1 hk))
  have hn : validCount crc (setCopies c (ETmr.new crc v)) = 0 := by
    unfold ETmr.validCount
    rw [key, key, key]; rfl
  refine ⟨?_, hn, by unfold canRepair; rw [hn]; rfl⟩
  unfold STmr.get at hg
  simp only [hn] at hg
  generalize STmr.performMajorityVoting eq fb (setCopies c (ETmr.new crc v)) = m at hg
  cases m with
  | ok y => simp at hg; exact hg.1.symm
  | ub => simp at hg

theorem get_stats (eq : α → α → Bool) (fb : α → α → α → Outcome α) (crc : α → BitVec 32) (s : ETmr.State α)
    (t : ETmr.Stats) : (STmr.get eq fb crc { s with stats := t }).1 = (STmr.get eq fb crc s).1 := by
  unfold STmr.get
  simp only [show validCount crc { s with stats := t } = validCount crc s from rfl,
    show verifyChecksum crc { s with stats := t } = verifyChecksum crc s from rfl,
    show ETmr.firstValid crc { s with stats := t } = ETmr.firstValid crc s from rfl,
    show STmr.performMajorityVoting eq fb { s with stats := t } = STmr.performMajorityVoting eq fb s from rfl]
  split
  · rfl
  · split
    · rfl
    · split
      · split
        · rfl
        · split
          · rfl
          · split <;> rfl
      · rfl

theorem get_state (eq : α → α → Bool) (fb : α → α → α → Outcome α) (crc : α → BitVec 32) (s : ETmr.State α) :
    ∃ t, (STmr.get eq fb crc s).2 = { s with stats := t } := by
  unfold STmr.get
  simp only
  split
  · exact ⟨s.stats, rfl⟩
  · split
    · exact ⟨_, rfl⟩
    · split
      · split
        · exact ⟨_, rfl⟩
        · split
          · exact ⟨_, rfl⟩
          · split <;> exact ⟨_, rfl⟩
      · exact ⟨_, rfl⟩

/-- C319: for every state whose read does not succeed, the repair that follows reports the same failure: the repair branch of the program never counts anything. -/
theorem C319_repair_same_status (eq : α → α → Bool) (fb : α → α → α → Outcome α) (crc : α → BitVec 32)
    (s : ETmr.State α) (st : STmr.Status) (x : α) (hg : (STmr.get eq fb crc s).1 = .ok (st, x)) :
    ∃ t, STmr.repair eq fb crc (STmr.get eq fb crc s).2 = .ok (st, t) := by
  obtain ⟨t, ht⟩ := get_state eq fb crc s
  have h2 : (STmr.get eq fb crc (STmr.get eq fb crc s).2).1 = .ok (st, x) := by rw [ht, get_stats, hg]
  unfold STmr.repair
  generalize STmr.get eq fb crc (STmr.get eq fb crc s).2 = g at h2
  obtain ⟨g1, g2⟩ := g
  simp only at h2
  subst h2
  exact ⟨_, rfl⟩

theorem countStatus_eq (eq : α → α → Bool) (fb : α → α → α → Outcome α) (crc : α → BitVec 32) (v : α)
    (s : ETmr.State α) (st : STmr.Status) (x : α) (hg : (STmr.get eq fb crc s).1 = .ok (st, x)) (r : Results) :
    countStatus eq fb crc v st (STmr.get eq fb crc s).2 r =
      .ok (if st = .success then { r with space_success := r.space_success + 1 }
        else if 0 < validCount crc s then r
        else { r with space_uncorrectable := r.space_uncorrectable + 1 }) := by
  unfold countStatus
  by_cases h : st = .success
  · rw [if_pos h, if_pos h]
  · rw [if_neg h, if_neg h]
    obtain ⟨t, ht⟩ := get_state eq fb crc s
    have hv : canRepair crc (STmr.get eq fb crc s).2 = decide (0 < validCount crc s) := by
      rw [ht]; rfl
    rw [hv]
    by_cases hn : 0 < validCount crc s
    · obtain ⟨u, hu⟩ := C319_repair_same_status eq fb crc s st x hg
      rw [if_pos (by simpa using hn), if_pos hn, hu]
      simp only [Outcome.bind]
      rw [if_neg h]
    · rw [if_neg (by simpa using hn), if_neg hn]

/-- C319: for every state of every trial that returns, the effect on the counters: detection, correction, success or failure are counted once each, a correction is "checksum-guided" if one or two copies are valid and "majority" if three are. -/
theorem C319_trial_counts (eq : α → α → Bool) (fb : α → α → α → Outcome α) (crc : α → BitVec 32) (i : Nat) (v : α)
    (c : Fin 3 → α) (st : STmr.Status) (x : α)
    (hg : (STmr.get eq fb crc (setCopies c (ETmr.new crc v))).1 = .ok (st, x)) (r : Results) :
    let s := setCopies c (ETmr.new crc v)
    let bad := actualCorruption eq i v c
    let det := isCorruptionDetected crc s
    let n := validCount crc s
    let good := eq x v
    trial eq fb crc i v c r = .ok
      { space_success := r.space_success + (decide (st = .success)).toNat
        space_match_original := r.space_match_original + good.toNat
        space_uncorrectable := r.space_uncorrectable + (decide (st ≠ .success ∧ n = 0)).toNat
        errors_detected := r.errors_detected + (bad && det).toNat
        errors_corrected := r.errors_corrected + (bad && good).toNat
        single_copy_errors := r.single_copy_errors + (bad && decide (i % 3 = 0)).toNat
        double_copy_errors := r.double_copy_errors + (bad && decide (i % 3 = 1)).toNat
        triple_copy_errors := r.triple_copy_errors + (bad && decide (i % 3 = 2)).toNat
        checksum_guided_corrections :=
          r.checksum_guided_corrections + (bad && good && decide (n = 1 ∨ n = 2)).toNat
        majority_vote_corrections := r.majority_vote_corrections + (bad && good && decide (n = 3)).toNat
        repair_mechanism_used := r.repair_mechanism_used
        false_positives := r.false_positives + (!bad && det).toNat
        false_negatives := r.false_negatives + (bad && !det).toNat } := by
  intro s bad det n good
  have e : trial eq fb crc i v c r = (STmr.get eq fb crc s).1.bind (fun (q : STmr.Status × α) =>
      countStatus eq fb crc v q.1 (STmr.get eq fb crc s).2
        (countCorrection bad (eq q.2 v) n (countDetection bad det (countKind i bad r)))) := rfl
  have hg : (STmr.get eq fb crc s).1 = .ok (st, x) := hg
  rw [e, hg]
  simp only [Outcome.bind]
  rw [countStatus_eq eq fb crc v s st x hg]
  congr 1
  change (if st = .success then _ else if 0 < n then _ else _) = _
  have hgood : eq x v = good := rfl
  rw [hgood]
  have hn3 : n ≤ 3 := by
    change validCount crc s ≤ 3
    unfold ETmr.validCount
    have := Bool.toNat_le (verifyChecksum crc s 0)
    have := Bool.toNat_le (verifyChecksum crc s 1)
    have := Bool.toNat_le (verifyChecksum crc s 2)
    omega
  clear_value good n det bad
  clear e hg hgood
  have h3 : i % 3 = 0 ∨ i % 3 = 1 ∨ i % 3 = 2 := by omega
  obtain ⟨a1, a2, a3, a4, a5, a6, a7, a8, a9, a10, a11, a12, a13⟩ := r
  have hn : n = 0 ∨ n = 1 ∨ n = 2 ∨ n = 3 := by omega
  cases bad <;> cases det <;> cases good <;> by_cases hst : st = STmr.Status.success <;>
    rcases h3 with h | h | h <;> rcases hn with rfl | rfl | rfl | rfl <;>
    simp [countCorrection, countDetection, countKind, h, hst]

/-! ### C320: the counters and the report -/

theorem trial_ok (eq : α → α → Bool) (fb : α → α → α → Outcome α) (crc : α → BitVec 32) (i : Nat) (v : α)
    (c : Fin 3 → α) (r r' : Results) (h : trial eq fb crc i v c r = .ok r') :
    ∃ st x, (STmr.get eq fb crc (setCopies c (ETmr.new crc v))).1 = .ok (st, x) := by
  unfold trial at h
  simp only at h
  generalize (STmr.get eq fb crc (setCopies c (ETmr.new crc v))).1 = g at h
  cases g with
  | ok q => exact ⟨q.1, q.2, rfl⟩
  | ub => simp [Outcome.bind] at h

theorem run_succ (eq : α → α → Bool) (fb : α → α → α → Outcome α) (crc : α → BitVec 32) (orig : Nat → α)
    (c : Nat → Fin 3 → α) (n : Nat) (r : Results) (h : runTrials eq fb crc orig c (n + 1) = .ok r) :
    ∃ r', runTrials eq fb crc orig c n = .ok r' ∧ trial eq fb crc n (orig n) (c n) r' = .ok r := by
  unfold runTrials at h ⊢
  simp only [forN] at h
  generalize forN n (fun i (acc : Outcome Results) => acc.bind (trial eq fb crc i (orig i) (c i))) (.ok {}) = g at h ⊢
  cases g with
  | ok r' => exact ⟨r', rfl, h⟩
  | ub => simp [Outcome.bind] at h

/-- C320: for every data, checksum and number of trials the books of a completed run balance: every corrupted trial is detected or a false negative, corrections are among them, and each trial is counted at most once as matching, as successful or as uncorrectable. -/
theorem C320_books (eq : α → α → Bool) (fb : α → α → α → Outcome α) (crc : α → BitVec 32) (orig : Nat → α)
    (c : Nat → Fin 3 → α) (n : Nat) (r : Results) (h : runTrials eq fb crc orig c n = .ok r) :
    r.errors_detected + r.false_negatives = r.single_copy_errors + r.double_copy_errors + r.triple_copy_errors ∧
    r.checksum_guided_corrections + r.majority_vote_corrections ≤ r.errors_corrected ∧
    r.errors_corrected ≤ r.errors_detected + r.false_negatives ∧
    r.errors_corrected ≤ r.space_match_original ∧ r.space_match_original ≤ n ∧
    r.space_success + r.space_uncorrectable ≤ n ∧
    r.errors_detected + r.false_negatives + r.false_positives ≤ n := by
  induction n generalizing r with
  | zero =>
    unfold runTrials at h
    simp only [forN, Outcome.ok.injEq] at h
    subst h
    decide
  | succ n ih =>
    obtain ⟨r', h1, h2⟩ := run_succ eq fb crc orig c n r h
    obtain ⟨st, x, hg⟩ := trial_ok eq fb crc n (orig n) (c n) r' r h2
    rw [C319_trial_counts eq fb crc n (orig n) (c n) st x hg r', Outcome.ok.injEq] at h2
    have ih := ih r' h1
    subst h2
    dsimp only
    generalize actualCorruption eq n (orig n) (c n) = bad
    generalize isCorruptionDetected crc (setCopies (c n) (ETmr.new crc (orig n))) = det
    generalize eq x (orig n) = good
    generalize validCount crc (setCopies (c n) (ETmr.new crc (orig n))) = m
    have h3 : n % 3 = 0 ∨ n % 3 = 1 ∨ n % 3 = 2 := by omega
    have hs : (decide (st = STmr.Status.success)).toNat + (decide (st ≠ STmr.Status.success ∧ m = 0)).toNat ≤ 1 := by
      by_cases hst : st = STmr.Status.success
      · simp [hst]
      · simp [hst]; exact Bool.toNat_le _
    have hm : (decide (m = 1 ∨ m = 2)).toNat + (decide (m = 3)).toNat ≤ 1 := by
      by_cases h3 : m = 3
      · simp [h3]
      · simp only [h3, decide_false, Bool.toNat_false, Nat.add_zero]; exact Bool.toNat_le _
    have hb := Bool.toNat_le bad
    cases bad <;> cases det <;> cases good <;> rcases h3 with h3 | h3 | h3 <;>
      simp only [h3, Bool.true_and, Bool.false_and, Bool.and_true, Bool.and_false, Bool.not_true, Bool.not_false,
        Bool.toNat_true, Bool.toNat_false, Nat.add_zero, decide_true, decide_false,
        show ((0 : Nat) = 1) ↔ False by decide, show ((0 : Nat) = 2) ↔ False by decide,
        show ((1 : Nat) = 0) ↔ False by decide, show ((1 : Nat) = 2) ↔ False by decide,
        show ((2 : Nat) = 0) ↔ False by decide, show ((2 : Nat) = 1) ↔ False by decide] <;>
      omega

/-- C320: for every data, checksum, type and number of trials the repair mechanism is reported as never used ("active repair mechanism recovers from complex corruption patterns"). -/
theorem C320_repair_never_violated (eq : α → α → Bool) (fb : α → α → α → Outcome α) (crc : α → BitVec 32)
    (orig : Nat → α) (c : Nat → Fin 3 → α) (n : Nat) (r : Results)
    (h : runTrials eq fb crc orig c n = .ok r) : r.repair_mechanism_used = 0 := by
  induction n generalizing r with
  | zero =>
    unfold runTrials at h
    simp only [forN, Outcome.ok.injEq] at h
    subst h
    rfl
  | succ n ih =>
    obtain ⟨r', h1, h2⟩ := run_succ eq fb crc orig c n r h
    obtain ⟨st, x, hg⟩ := trial_ok eq fb crc n (orig n) (c n) r' r h2
    rw [C319_trial_counts eq fb crc n (orig n) (c n) st x hg r', Outcome.ok.injEq] at h2
    subst h2
    exact ih r' h1

/-- Number of trials below `n` with property `P`. -/
def trials (P : Nat → Prop) [DecidablePred P] (n : Nat) : Nat := (List.range n).countP (fun i => decide (P i))

theorem trials_succ (P : Nat → Prop) [DecidablePred P] (n : Nat) :
    trials P (n + 1) = trials P n + (decide (P n)).toNat := by
  unfold trials
  rw [List.range_succ, List.countP_append, List.countP_singleton]
  cases h : decide (P n) <;> simp

/-- C320: for every data that the checksum tells apart and every number of trials the report of a completed run is exact: every corrupted trial is detected, there is no false alarm, and the uncorrectable trials are those with three corrupted copies; all others succeed with the stored value. -/
theorem C320_report_exact [DecidableEq α] (eq : α → α → Bool) (fb : α → α → α → Outcome α) (crc : α → BitVec 32)
    (orig : Nat → α) (c : Nat → Fin 3 → α) (n : Nat)
    (ht : ∀ i, i < n → Tells eq crc (orig i) (c i)) (hk : ∀ i, i < n → Kind i (orig i) (c i)) (r : Results)
    (h : runTrials eq fb crc orig c n = .ok r) :
    r.false_positives = 0 ∧ r.false_negatives = 0 ∧
    r.errors_detected = trials (fun i => c i 0 ≠ orig i ∨ c i 1 ≠ orig i ∨ c i 2 ≠ orig i) n ∧
    r.space_uncorrectable = trials (fun i => c i 0 ≠ orig i ∧ c i 1 ≠ orig i ∧ c i 2 ≠ orig i) n ∧
    r.space_success + r.space_uncorrectable = n ∧ r.space_success ≤ r.space_match_original ∧
    r.majority_vote_corrections = 0 ∧
    r.checksum_guided_corrections + r.space_uncorrectable = r.errors_detected := by
  induction n generalizing r with
  | zero =>
    unfold runTrials at h
    simp only [forN, Outcome.ok.injEq] at h
    subst h
    simp [trials]
  | succ n ih =>
    obtain ⟨r', h1, h2⟩ := run_succ eq fb crc orig c n r h
    obtain ⟨st, x, hg⟩ := trial_ok eq fb crc n (orig n) (c n) r' r h2
    rw [C319_trial_counts eq fb crc n (orig n) (c n) st x hg r', Outcome.ok.injEq] at h2
    have ih := ih (fun i hi => ht i (by omega)) (fun i hi => hk i (by omega)) r' h1
    have ht := ht n (by omega)
    have hk := hk n (by omega)
    have hact := C319_actual_iff eq crc n (orig n) (c n) ht hk
    have hdet := C319_detected_iff eq crc (orig n) (c n) ht
    have hval := valid_iff eq crc (orig n) (c n) ht
    have hcor := C319_corrected eq fb crc (orig n) (c n) ht
    have hall := C319_all_corrupted eq fb crc (orig n) (c n) ht
    have hbd : actualCorruption eq n (orig n) (c n)
        = isCorruptionDetected crc (setCopies (c n) (ETmr.new crc (orig n))) := by
      rw [Bool.eq_iff_iff, hact, hdet]
    have hm : validCount crc (setCopies (c n) (ETmr.new crc (orig n))) =
        (decide (c n 0 = orig n)).toNat + (decide (c n 1 = orig n)).toNat + (decide (c n 2 = orig n)).toNat := by
      unfold ETmr.validCount
      have e : ∀ k, verifyChecksum crc (setCopies (c n) (ETmr.new crc (orig n))) k = decide (c n k = orig n) := by
        intro k
        rw [Bool.eq_iff_iff, hval, decide_eq_true_eq]
      rw [e, e, e]
    rw [exists3] at hdet
    have hdet' : isCorruptionDetected crc (setCopies (c n) (ETmr.new crc (orig n)))
        = decide (c n 0 ≠ orig n ∨ c n 1 ≠ orig n ∨ c n 2 ≠ orig n) := by
      rw [Bool.eq_iff_iff, hdet, decide_eq_true_eq]
    rw [trials_succ, trials_succ]
    subst h2
    dsimp only
    rw [hbd, hdet', hm, ← ih.2.2.1, ← ih.2.2.2.1]
    have hxv : eq x (orig n) = true ↔ x = orig n := ht.eq x
    by_cases some : ∃ k, c n k = orig n
    · have hg' := hcor some
      rw [hg] at hg'
      simp only [Outcome.ok.injEq, Prod.mk.injEq] at hg'
      obtain ⟨rfl, rfl⟩ := hg'
      rw [hxv.2 rfl]
      rw [exists3] at some
      by_cases e0 : c n 0 = orig n <;> by_cases e1 : c n 1 = orig n <;> by_cases e2 : c n 2 = orig n <;>
        first
        | (exfalso; rcases some with h' | h' | h' <;> contradiction)
        | (simp [e0, e1, e2]; omega)
    · have hno : ∀ k, c n k ≠ orig n := fun k hk => some ⟨k, hk⟩
      obtain ⟨rfl, -, -⟩ := hall hno st x hg
      have e0 := hno 0; have e1 := hno 1; have e2 := hno 2
      cases hgood : eq x (orig n) <;> simp [e0, e1, e2] <;> omega

/-- C320: for every such data the reported detection rate is 100 %. -/
theorem C320_detection_rate [DecidableEq α] (eq : α → α → Bool) (fb : α → α → α → Outcome α) (crc : α → BitVec 32)
    (orig : Nat → α) (c : Nat → Fin 3 → α) (n : Nat)
    (ht : ∀ i, i < n → Tells eq crc (orig i) (c i)) (hk : ∀ i, i < n → Kind i (orig i) (c i)) (r : Results)
    (h : runTrials eq fb crc orig c n = .ok r) : detectionRate r = 1 := by
  have hx := C320_report_exact eq fb crc orig c n ht hk r h
  unfold detectionRate
  rw [hx.2.1, Nat.add_zero]
  split
  · rename_i hpos
    have : (r.errors_detected : ℝ) ≠ 0 := by exact_mod_cast (by omega : r.errors_detected ≠ 0)
    exact div_self this
  · rfl

/-- C320: for every data and number of trials the reported rates and accuracy are fractions. -/
theorem C320_rates (eq : α → α → Bool) (fb : α → α → α → Outcome α) (crc : α → BitVec 32) (orig : Nat → α)
    (c : Nat → Fin 3 → α) (n : Nat) (r : Results) (h : runTrials eq fb crc orig c n = .ok r) :
    (0 ≤ detectionRate r ∧ detectionRate r ≤ 1) ∧ (0 ≤ correctionRate r ∧ correctionRate r ≤ 1) ∧
      (0 ≤ accuracy r n ∧ accuracy r n ≤ 1) := by
  have hb := C320_books eq fb crc orig c n r h
  have frac : ∀ a b : Nat, a ≤ b → (0 : ℝ) ≤ (a : ℝ) / (b : ℝ) ∧ (a : ℝ) / (b : ℝ) ≤ 1 := by
    intro a b hab
    refine ⟨div_nonneg (Nat.cast_nonneg _) (Nat.cast_nonneg _), ?_⟩
    exact div_le_one_of_le₀ (by exact_mod_cast hab) (Nat.cast_nonneg _)
  refine ⟨?_, ?_, frac _ _ hb.2.2.2.2.1⟩
  · unfold detectionRate
    split
    · exact frac _ _ (by omega)
    · exact ⟨by norm_num, le_refl _⟩
  · unfold correctionRate
    split
    · exact frac _ _ (by omega)
    · exact ⟨by norm_num, le_refl _⟩

/-- The checksum and voting functions of `SpaceEnhancedTMR<int32_t>`. -/
def run32 (env n : Nat) : Outcome Results :=
  runComparison (w := 32) (fun x y => x == y) (fun a b c => .ok (STmr.bitLevelVote a b c))
    (fun x => Crc.crcOfValue 4 x) (fun k => BitVec.ofNat 32 k) env n

theorem int32_tells (v : BitVec 32) (c : Fin 3 → BitVec 32) :
    Tells (fun x y => x == y) (fun x => Crc.crcOfValue 4 x) v c :=
  ⟨fun _ hk => Verif.crcOfValue_inj (n := 4) (by omega) hk, fun _ => beq_iff_eq⟩

theorem get_total (eq : α → α → Bool) (fb : α → α → α → Outcome α) (crc : α → BitVec 32) (s : ETmr.State α)
    (hfb : ∀ a b c, ∃ x, fb a b c = .ok x) : ∃ st x, (STmr.get eq fb crc s).1 = .ok (st, x) := by
  have hv : ∃ x, STmr.performMajorityVoting eq fb s = .ok x := by
    unfold STmr.performMajorityVoting
    split
    · exact ⟨_, rfl⟩
    · split
      · exact ⟨_, rfl⟩
      · split
        · exact ⟨_, rfl⟩
        · exact hfb _ _ _
  obtain ⟨y, hy⟩ := hv
  unfold STmr.get
  simp only [hy]
  split
  · exact ⟨_, _, rfl⟩
  · split
    · exact ⟨_, _, rfl⟩
    · split
      · split
        · exact ⟨_, _, rfl⟩
        · split
          · exact ⟨_, _, rfl⟩
          · split <;> exact ⟨_, _, rfl⟩
      · exact ⟨_, _, rfl⟩

theorem run_total (eq : α → α → Bool) (fb : α → α → α → Outcome α) (crc : α → BitVec 32) (orig : Nat → α)
    (c : Nat → Fin 3 → α) (n : Nat) (hfb : ∀ a b c, ∃ x, fb a b c = .ok x) :
    ∃ r, runTrials eq fb crc orig c n = .ok r := by
  induction n with
  | zero => exact ⟨{}, rfl⟩
  | succ n ih =>
    obtain ⟨r, hr⟩ := ih
    obtain ⟨st, x, hg⟩ := get_total eq fb crc (setCopies (c n) (ETmr.new crc (orig n))) hfb
    have ht := C319_trial_counts eq fb crc n (orig n) (c n) st x hg r
    unfold runTrials at hr ⊢
    simp only [forN]
    rw [hr]
    exact ⟨_, ht⟩

/-- C320: for 32-bit integers, in every environment and for every number of trials, the run completes, detects exactly the corrupted trials and fails exactly for those with three corrupted copies. -/
theorem C320_int32 (env n : Nat) : ∃ r, run32 env n = .ok r ∧ r.false_positives = 0 ∧ r.false_negatives = 0 ∧
    r.space_uncorrectable = trials (fun i => ∀ k, copies (BitVec.ofNat 32 (i * 17 + 42)) env i k
      ≠ BitVec.ofNat 32 (i * 17 + 42)) n ∧
    r.space_success + r.space_uncorrectable = n ∧ r.space_success ≤ r.space_match_original := by
  obtain ⟨r, hr⟩ := run_total (fun x y => x == y) (fun a b c => .ok (STmr.bitLevelVote a b c))
    (fun x => Crc.crcOfValue 4 x) (fun i => BitVec.ofNat 32 (i * 17 + 42))
    (fun i => copies (BitVec.ofNat 32 (i * 17 + 42)) env i) n (fun a b c => ⟨_, rfl⟩)
  have hx := C320_report_exact (fun x y => x == y) (fun a b c => .ok (STmr.bitLevelVote a b c))
    (fun x => Crc.crcOfValue 4 x) (fun i => BitVec.ofNat 32 (i * 17 + 42))
    (fun i => copies (BitVec.ofNat 32 (i * 17 + 42)) env i) n (fun i _ => int32_tells _ _)
    (fun i _ => C318_untouched _ env i) r hr
  refine ⟨r, hr, hx.1, hx.2.1, ?_, hx.2.2.2.2.1, hx.2.2.2.2.2.1⟩
  rw [hx.2.2.2.1]
  unfold trials
  congr 1
  funext i
  rw [decide_eq_decide]
  constructor
  · rintro ⟨h0, h1, h2⟩ k
    match k with
    | 0 => exact h0
    | 1 => exact h1
    | 2 => exact h2
  · intro h; exact ⟨h 0, h 1, h 2⟩

/-- C320: the same report is exact for `float`, for every stored values that are neither NaN nor zero, whenever the run completes. -/
theorem C320_float32 (fb : BitVec 32 → BitVec 32 → BitVec 32 → Outcome (BitVec 32)) (conv : Nat → BitVec 32)
    (env n : Nat) (hc : ∀ k, f32isNaN (conv k) = false ∧ f32isZero (conv k) = false) (r : Results)
    (h : runComparison f32eq fb (fun x => Crc.crcOfValue 4 x) conv env n = .ok r) :
    r.false_positives = 0 ∧ r.false_negatives = 0 ∧ r.space_success + r.space_uncorrectable = n ∧
      r.space_success ≤ r.space_match_original := by
  have tells : ∀ i, Tells f32eq (fun x => Crc.crcOfValue 4 x) (conv (i * 17 + 42))
      (copies (conv (i * 17 + 42)) env i) := by
    intro i
    refine ⟨fun _ hk => Verif.crcOfValue_inj (n := 4) (by omega) hk, fun x => ?_⟩
    obtain ⟨h1, h2⟩ := hc (i * 17 + 42)
    unfold f32eq
    constructor
    · intro he
      simp [h1, h2] at he
      exact he.2
    · intro he
      subst he
      simp [h1]
  have hx := C320_report_exact f32eq fb (fun x => Crc.crcOfValue 4 x) (fun i => conv (i * 17 + 42))
    (fun i => copies (conv (i * 17 + 42)) env i) n (fun i _ => tells i) (fun i _ => C318_untouched _ env i) r h
  exact ⟨hx.1, hx.2.1, hx.2.2.2.2.1, hx.2.2.2.2.2.1⟩

/-- C320: for every run with a failure, however rare, the success percentage printed per environment is 0 (integer division). -/
theorem C320_printed_success_violated (r : Results) (total : Nat) (h : r.space_success < total) :
    printedSuccess r total = 0 := by
  unfold printedSuccess
  rw [Nat.div_eq_of_lt h]; simp

/-- C320: for every two run times the slower run is reported as the greater "performance improvement … x faster". -/
theorem C320_performance_violated (a b : ℝ) (ha : 1 < a) (hab : a < b) : performanceRatio a < performanceRatio b := by
  unfold performanceRatio
  rw [if_pos (by norm_num; linarith), if_pos (by norm_num; linarith)]
  exact hab

/-- C320: a trial with three corrupted copies can be counted at once as corrected, as matching and as uncorrectable, and its correction by voting appears in neither category of the report. -/
theorem C320_categories_violated :
    trial (fun x y => x == y) (fun a b c => .ok (STmr.bitLevelVote a b c)) (fun x => Crc.crcOfValue 4 x) 56
      994#32 (copies 994#32 2 56) {} = .ok
      { errors_detected := 1, errors_corrected := 1, triple_copy_errors := 1,
        space_match_original := 1, space_uncorrectable := 1 } := by decide +kernel

example : printedSuccess { space_success := 2, space_match_original := 2 } 3 = 0 :=
  C320_printed_success_violated _ _ (by decide)
example : performanceRatio 2 < performanceRatio 30 := C320_performance_violated _ _ (by norm_num) (by norm_num)
example : f32isNaN 0x42280000#32 = false ∧ f32isZero 0x42280000#32 = false := by decide

example : run32 5 3 = .ok
  { space_success := 2, space_match_original := 2, space_uncorrectable := 1,
    errors_detected := 3, errors_corrected := 2, single_copy_errors := 1, double_copy_errors := 1,
    triple_copy_errors := 1, checksum_guided_corrections := 2 } := by decide +kernel

end Verif.Props.SpaceVal
