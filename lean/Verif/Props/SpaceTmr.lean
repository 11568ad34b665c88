import Verif.Model.SpaceTmr
import Verif.Props.EnhancedTmr
/-!
Properties C13–C15: SpaceEnhancedTMR.
-/
namespace Verif.Props
open Verif Verif.Spec Verif.Crc

variable {α : Type _}

theorem third : ∀ j k : Fin 3, ∃ i : Fin 3, i ≠ j ∧ i ≠ k := by decide

/-- How many replicas hold a value matching their stored checksum. -/
def numValid (crc : α → BitVec 32) (s : ETmr.State α) : Nat :=
  ((List.finRange 3).filter (fun i => decide (crc (s.vals i) = s.crcs i))).length

theorem validCount_eq_numValid (crc : α → BitVec 32) (s : ETmr.State α) :
    ETmr.validCount crc s = numValid crc s := by
  have e : ∀ i, ETmr.verifyChecksum crc s i = decide (crc (s.vals i) = s.crcs i) := by
    intro i; simp only [ETmr.verifyChecksum, beq_eq_decide]
  have l : List.finRange 3 = [0, 1, 2] := by decide
  unfold ETmr.validCount numValid
  rw [l]
  simp only [e, List.filter_cons, List.filter_nil]
  cases decide (crc (s.vals 0) = s.crcs 0) <;> cases decide (crc (s.vals 1) = s.crcs 1) <;>
    cases decide (crc (s.vals 2) = s.crcs 2) <;> rfl

theorem stmr_get_intact (eq : α → α → Bool) (fb : α → α → α → Outcome α) (crc : α → BitVec 32) (k : Fin 3)
    (v : α) (hv : eq v v = true) (s : ETmr.State α) (h : Intact crc k v s) :
    ∃ r, (STmr.get eq fb crc s).1 = .ok (.success, r) ∧ SameValue eq r v := by
  have hc := validCount_intact h
  have ok : ∀ i, i ≠ k → ETmr.verifyChecksum crc s i = true := by
    intro i hi
    obtain ⟨h1, h2⟩ := h i hi
    simp [ETmr.verifyChecksum, h1, h2]
  unfold STmr.get
  simp only [hc]
  cases hk : ETmr.verifyChecksum crc s k with
  | true =>
    simp only [if_true]
    unfold STmr.performMajorityVoting SameValue
    match k, h, ok, hk with
    | 0, h, ok, hk =>
      rw [(h 1 (by decide)).1, (h 2 (by decide)).1, hv]
      by_cases h0 : eq (s.vals 0) v = true
      · simp only [h0, if_true]; exact ⟨_, rfl, Or.inr h0⟩
      · simp only [h0, if_true]; exact ⟨_, rfl, Or.inl rfl⟩
    | 1, h, ok, hk =>
      rw [(h 0 (by decide)).1, (h 2 (by decide)).1, hv]
      by_cases h0 : eq v (s.vals 1) = true
      · simp only [h0, if_true]; exact ⟨_, rfl, Or.inl rfl⟩
      · simp only [h0, if_true]; exact ⟨_, rfl, Or.inl rfl⟩
    | 2, h, ok, hk =>
      rw [(h 0 (by decide)).1, (h 1 (by decide)).1, hv]
      simp only [if_true]; exact ⟨_, rfl, Or.inl rfl⟩
  | false =>
    refine ⟨v, ?_, Or.inl rfl⟩
    match k, h, ok, hk with
    | 0, h, ok, hk => simp [hk, ok 1 (by decide), ok 2 (by decide), (h 1 (by decide)).1, (h 2 (by decide)).1, hv]
    | 1, h, ok, hk => simp [hk, ok 0 (by decide), ok 2 (by decide), (h 0 (by decide)).1, (h 2 (by decide)).1, hv]
    | 2, h, ok, hk => simp [ok 0 (by decide), ok 1 (by decide), (h 0 (by decide)).1, (h 1 (by decide)).1, hv]

/-- **C13 (one replica).** After `set(v)`, any damage to one replica (value and checksum) leaves
`get` reporting SUCCESS with `v` — for every type, fallback and checksum function. -/
theorem C13_one_replica_masked (eq : α → α → Bool) (fb : α → α → α → Outcome α) (crc : α → BitVec 32)
    (v : α) (hv : eq v v = true) (k : Fin 3) (s : ETmr.State α) (x : α) (c : BitVec 32) :
    ∃ r, (STmr.get eq fb crc (ETmr.corrupt k x c (STmr.set crc v s))).1 = .ok (.success, r) ∧
      SameValue eq r v := by
  apply stmr_get_intact eq fb crc k v hv
  intro i hi
  simp [ETmr.corrupt, STmr.set, ETmr.set, ETmr.recalculateChecksums, hi]

/-- **C13 (repair).** and `repair` then reports SUCCESS with all replicas equal to `v` and verified. -/
theorem C13_repair [DecidableEq α] (fb : α → α → α → Outcome α) (crc : α → BitVec 32)
    (v : α) (k : Fin 3) (s : ETmr.State α) (x : α) (c : BitVec 32) :
    let eq := fun a b : α => decide (a = b)
    ∃ t, STmr.repair eq fb crc (ETmr.corrupt k x c (STmr.set crc v s)) = .ok (.success, t) ∧
      (∀ i, t.vals i = v ∧ t.crcs i = crc v) ∧ STmr.verify eq crc t = .success := by
  intro eq
  obtain ⟨r, hr, hs⟩ := C13_one_replica_masked eq fb crc v (by simp [eq]) k s x c
  have hrv : r = v := by
    rcases hs with h | h
    · exact h
    · simpa [eq] using h
  subst hrv
  unfold STmr.repair
  revert hr
  generalize STmr.get eq fb crc (ETmr.corrupt k x c (STmr.set crc r s)) = g
  obtain ⟨g1, g2⟩ := g
  intro hr
  simp only at hr
  subst hr
  refine ⟨_, rfl, fun i => ⟨rfl, rfl⟩, ?_⟩
  simp [STmr.verify, ETmr.verifyChecksum, ETmr.recalculateChecksums]

/-- **C13 (repair reports what the read reported).** In every state: if reading is defined, `repair` returns the status
of that read and leaves all replicas equal to the value read, with matching checksums; if it is undefined, so is the
repair. -/
theorem C13_repair_reports (eq : α → α → Bool) (fb : α → α → α → Outcome α) (crc : α → BitVec 32) (s : ETmr.State α) :
    (∀ st v, (STmr.get eq fb crc s).1 = .ok (st, v) →
      ∃ t, STmr.repair eq fb crc s = .ok (st, t) ∧ ∀ i, t.vals i = v ∧ t.crcs i = crc v) ∧
    ((STmr.get eq fb crc s).1 = .ub → STmr.repair eq fb crc s = .ub) := by
  unfold STmr.repair
  generalize STmr.get eq fb crc s = g
  obtain ⟨g1, g2⟩ := g
  constructor
  · intro st v h
    simp only at h
    subst h
    exact ⟨_, rfl, fun i => ⟨rfl, rfl⟩⟩
  · intro h
    simp only at h
    subst h
    rfl

/-- **C13 (two values).** With intact checksums, two of the three stored values of a type of at most four
bytes may be replaced arbitrarily: `get` still reports SUCCESS with exactly `v`. -/
theorem C13_two_values_corrupted (n : Nat) (hn : n ≤ 4) (eq : BitVec (8 * n) → BitVec (8 * n) → Bool)
    (fb : BitVec (8 * n) → BitVec (8 * n) → BitVec (8 * n) → Outcome (BitVec (8 * n)))
    (v : BitVec (8 * n)) (hv : eq v v = true) (s : ETmr.State (BitVec (8 * n))) (x y : BitVec (8 * n))
    (j k : Fin 3) :
    (STmr.get eq fb (crcOfValue n)
      (ETmr.corruptValue j x (ETmr.corruptValue k y (STmr.set (crcOfValue n) v s)))).1
      = .ok (.success, v) := by
  generalize hs : ETmr.corruptValue j x (ETmr.corruptValue k y (STmr.set (crcOfValue n) v s)) = t
  have hc : ∀ i, t.crcs i = crcOfValue n v := by intro i; rw [← hs]; rfl
  have key : ∀ i, (ETmr.verifyChecksum (crcOfValue n) t i = true ∧ t.vals i = v) ∨
      ETmr.verifyChecksum (crcOfValue n) t i = false := by
    intro i
    by_cases h : t.vals i = v
    · left; simp [ETmr.verifyChecksum, h, hc]
    · right
      simp only [ETmr.verifyChecksum, hc, beq_eq_false_iff_ne]
      exact fun hcrc => h (crcOfValue_inj hn hcrc)
  have one : ∃ i, ETmr.verifyChecksum (crcOfValue n) t i = true := by
    obtain ⟨i, h1, h2⟩ := third j k
    refine ⟨i, ?_⟩
    rw [← hs]
    simp [ETmr.verifyChecksum, ETmr.corruptValue, STmr.set, ETmr.set, ETmr.recalculateChecksums, h1, h2]
  clear hs
  have k0 := key 0; have k1 := key 1; have k2 := key 2
  have hi' : ETmr.verifyChecksum (crcOfValue n) t 0 = true ∨ ETmr.verifyChecksum (crcOfValue n) t 1 = true ∨
      ETmr.verifyChecksum (crcOfValue n) t 2 = true := by
    obtain ⟨i, hi⟩ := one
    match i, hi with
    | 0, hi => exact Or.inl hi
    | 1, hi => exact Or.inr (Or.inl hi)
    | 2, hi => exact Or.inr (Or.inr hi)
  unfold STmr.get
  simp only [ETmr.validCount, ETmr.firstValid, STmr.performMajorityVoting]
  rcases k0 with ⟨a0, b0⟩ | a0 <;> rcases k1 with ⟨a1, b1⟩ | a1 <;> rcases k2 with ⟨a2, b2⟩ | a2 <;>
    simp [a0, a1, a2] at hi' ⊢ <;> simp [*]

/-- **C13 (status).** What the reported status means, for every state: SUCCESS exactly when all three
checksums are valid (and the vote returns), or exactly one is, or two are and those two values are equal;
in all other cases REDUNDANCY_FAILURE. -/
theorem C13_status_meaning (eq : α → α → Bool) (fb : α → α → α → Outcome α) (crc : α → BitVec 32)
    (s : ETmr.State α) (st : STmr.Status) (r : α) (h : (STmr.get eq fb crc s).1 = .ok (st, r)) :
    (st = .success ↔
      (AllValid crc s ∨ numValid crc s = 1 ∨
        (numValid crc s = 2 ∧ ∃ i j, i < j ∧ crc (s.vals i) = s.crcs i ∧ crc (s.vals j) = s.crcs j ∧
          eq (s.vals i) (s.vals j) = true))) ∧
    (st ≠ .success → st = .redundancyFailure) ∧
    -- the value handed out always carries a valid checksum, unless the vote over all three produced it
    (numValid crc s = 1 ∨ numValid crc s = 2 → ∃ i, r = s.vals i ∧ crc (s.vals i) = s.crcs i) := by
  rw [← validCount_three, ← validCount_eq_numValid]
  have e : ∀ i, (crc (s.vals i) = s.crcs i) ↔ ETmr.verifyChecksum crc s i = true := by
    intro i; simp [ETmr.verifyChecksum]
  simp only [e]
  have q2 : (∃ i j, i < j ∧ ETmr.verifyChecksum crc s i = true ∧ ETmr.verifyChecksum crc s j = true ∧
      eq (s.vals i) (s.vals j) = true) ↔
      ((ETmr.verifyChecksum crc s 0 = true ∧ ETmr.verifyChecksum crc s 1 = true ∧ eq (s.vals 0) (s.vals 1) = true) ∨
       (ETmr.verifyChecksum crc s 0 = true ∧ ETmr.verifyChecksum crc s 2 = true ∧ eq (s.vals 0) (s.vals 2) = true) ∨
       (ETmr.verifyChecksum crc s 1 = true ∧ ETmr.verifyChecksum crc s 2 = true ∧ eq (s.vals 1) (s.vals 2) = true)) := by
    constructor
    · rintro ⟨i, j, hij, h⟩
      match i, j, hij, h with
      | 0, 1, _, h => exact Or.inl h
      | 0, 2, _, h => exact Or.inr (Or.inl h)
      | 1, 2, _, h => exact Or.inr (Or.inr h)
      | 0, 0, hij, _ => exact absurd hij (by decide)
      | 1, 1, hij, _ => exact absurd hij (by decide)
      | 2, 2, hij, _ => exact absurd hij (by decide)
      | 1, 0, hij, _ => exact absurd hij (by decide)
      | 2, 0, hij, _ => exact absurd hij (by decide)
      | 2, 1, hij, _ => exact absurd hij (by decide)
    · rintro (h | h | h)
      · exact ⟨0, 1, by decide, h⟩
      · exact ⟨0, 2, by decide, h⟩
      · exact ⟨1, 2, by decide, h⟩
  rw [q2]
  revert h
  unfold STmr.get ETmr.validCount ETmr.firstValid
  cases hm : STmr.performMajorityVoting eq fb s <;>
  cases h0 : ETmr.verifyChecksum crc s 0 <;> cases h1 : ETmr.verifyChecksum crc s 1 <;>
    cases h2 : ETmr.verifyChecksum crc s 2 <;> simp [h0, h1, h2]
  all_goals try (cases g0 : eq (s.vals 0) (s.vals 1) <;> cases g1 : eq (s.vals 0) (s.vals 2) <;>
    cases g2 : eq (s.vals 1) (s.vals 2) <;> simp)
  all_goals (rintro rfl rfl; simp)
  all_goals first
    | exact ⟨0, rfl, h0⟩
    | exact ⟨1, rfl, h1⟩
    | exact ⟨2, rfl, h2⟩

/-- The integer fallback vote of `SpaceEnhancedTMR` is the bitwise majority. -/
theorem stmr_bitLevelVote_eq {w : Nat} (a b c : BitVec w) :
    STmr.bitLevelVote a b c = Voting.bitLevelVote a b c := by
  apply bitMajority_unique
  have hand : ∀ (n : Nat) (x : BitVec w), n < w → ((x &&& (1#w <<< n) ≠ 0#w) ↔ x.getLsbD n = true) := by
    intro n x hn
    have := and_mask_eq_iff hn x 0#w
    simp only [BitVec.zero_and, BitVec.getLsbD_zero] at this
    rw [ne_eq, this]; simp
  have inv := forN_inv
    (fun n (st : BitVec w × BitVec w) => st.2 = 1#w <<< n ∧
      ∀ k, k < w → st.1.getLsbD k = (decide (k < n) && maj3 (a.getLsbD k) (b.getLsbD k) (c.getLsbD k)))
    w (fun _ (st : BitVec w × BitVec w) =>
      let (result, mask) := st
      let count := (if a &&& mask ≠ 0#w then 1 else 0) + (if b &&& mask ≠ 0#w then 1 else 0)
        + (if c &&& mask ≠ 0#w then 1 else 0)
      (if count ≥ 2 then result ||| mask else result, mask <<< 1)) (0#w, 1#w)
    (by
      refine ⟨?_, ?_⟩
      · simp only [BitVec.shiftLeft_zero]
      · intro k _; simp)
    (by
      rintro i ⟨result, mask⟩ hi ⟨hm, hr⟩
      simp only at hm hr
      subst hm
      simp only [hand i _ hi]
      refine ⟨(BitVec.shiftLeft_add _ _ _).symm, ?_⟩
      intro k hk
      have hrk := hr k hk
      by_cases hki : k = i
      · subst hki
        have h1 : decide (k < k) = false := by simp
        have h2 : decide (k < k + 1) = true := by simp
        rw [h1, Bool.false_and] at hrk
        rw [h2, Bool.true_and]
        have hmk := getLsbD_one_shiftLeft hk k
        cases a.getLsbD k <;> cases b.getLsbD k <;> cases c.getLsbD k <;>
          simp only [maj3] <;> simp only [Bool.false_eq_true, if_true, if_false, ge_iff_le, Nat.reduceAdd,
            Nat.reduceLeDiff, hrk, BitVec.getLsbD_or, hmk, decide_true, Bool.or_true, Bool.and_false,
            Bool.or_false, Bool.and_true, Bool.and_self, Bool.or_self, Nat.le_refl]
      · have e : decide (k < i + 1) = decide (k < i) := by
          rw [decide_eq_decide]; omega
        rw [e, ← hrk]
        have hmk := getLsbD_one_shiftLeft hi k
        have hgen : ∀ (P : Prop) [Decidable P],
            (if P then result ||| 1#w <<< i else result).getLsbD k = result.getLsbD k := by
          intro P _
          by_cases hP : P
          · rw [if_pos hP, BitVec.getLsbD_or, hmk]; simp [hki]
          · rw [if_neg hP]
        exact hgen _)
  intro i hi
  have := inv.2 i hi
  simp only [hi, decide_true, Bool.true_and] at this
  exact this

/-- The full reading of C13, "SUCCESS is reported only with a value that some replica holds", is false:
three replicas that are all different but carry valid checksums make `get` report SUCCESS together with a
bitwise blend that none of them holds. -/
theorem C13_success_value_violated :
    ∃ s : ETmr.State (BitVec 32),
      (STmr.get (fun a b => decide (a = b)) (fun a b c => .ok (STmr.bitLevelVote a b c)) (crcOfValue 4) s).1
        = .ok (.success, 1#32) ∧ ∀ i, s.vals i ≠ 1#32 := by
  refine ⟨{ vals := fun i => if i = 0 then 3#32 else if i = 1 then 5#32 else 9#32,
            crcs := fun i => crcOfValue 4 (if i = 0 then 3#32 else if i = 1 then 5#32 else 9#32) }, ?_, ?_⟩
  · decide +kernel
  · decide

/-- Non-vacuity of C13: two forged replicas, third detected; two valid but different -> failure. -/
example : (STmr.get (fun a b => decide (a = b)) (fun a b c => .ok (STmr.bitLevelVote a b c)) (crcOfValue 4)
    (ETmr.corrupt 2 9#32 0#32 (ETmr.corrupt 1 5#32 (crcOfValue 4 5#32) (ETmr.new (crcOfValue 4) 7#32)))).1
    = .ok (.redundancyFailure, 7#32) := by decide +kernel

/-! ### C14 -/

/-- **C14 (what holds).** `verify` reports SUCCESS exactly when the three stored checksums match the three
stored values, replica by replica; it does not compare the replicas.  Missing for the full property: that
the replicas agree with each other (false, see `C14_violated`). -/
theorem C14_verify_checks_checksums_partial (eq : α → α → Bool) (crc : α → BitVec 32) (s : ETmr.State α) :
    (STmr.verify eq crc s = .success ↔ AllValid crc s) ∧
    (STmr.verify eq crc s = .redundancyFailure →
      ∀ i j, i < j → eq (s.vals i) (s.vals j) = false) := by
  have e : AllValid crc s ↔ (ETmr.verifyChecksum crc s 0 && ETmr.verifyChecksum crc s 1
      && ETmr.verifyChecksum crc s 2) = true := by
    rw [← validCount_three]
    unfold ETmr.validCount
    cases ETmr.verifyChecksum crc s 0 <;> cases ETmr.verifyChecksum crc s 1 <;>
      cases ETmr.verifyChecksum crc s 2 <;> decide
  constructor
  · rw [e]
    unfold STmr.verify
    split
    · rename_i h; simp [h]
    · rename_i h
      constructor
      · intro h'; split at h' <;> cases h'
      · intro h'; exact absurd h' h
  · unfold STmr.verify
    split
    · intro h; cases h
    · split
      · intro h; cases h
      · rename_i h
        intro _ i j hij
        simp only [Bool.or_eq_true, not_or, Bool.not_eq_true] at h
        match i, j, hij with
        | 0, 1, _ => exact h.1.1
        | 0, 2, _ => exact h.1.2
        | 1, 2, _ => exact h.2
        | 0, 0, hij => exact absurd hij (by decide)
        | 1, 1, hij => exact absurd hij (by decide)
        | 2, 2, hij => exact absurd hij (by decide)
        | 1, 0, hij => exact absurd hij (by decide)
        | 2, 0, hij => exact absurd hij (by decide)
        | 2, 1, hij => exact absurd hij (by decide)

/-- **C14 is violated:** a forged replica (wrong value, matching checksum) passes `verify`. -/
theorem C14_violated :
    STmr.verify (fun a b => decide (a = b)) (crcOfValue 4)
      (ETmr.corrupt 1 5#32 (crcOfValue 4 5#32) (ETmr.new (crcOfValue 4) 7#32)) = .success := by
  decide +kernel

/-! ### C15: the float fallback -/

theorem special_zero {z : BitVec 32} (hz : f32isZero z = true) : STmr.isSpecialFloat z = true := by
  simp [STmr.isSpecialFloat, hz]

theorem zero_finite {z : BitVec 32} (hz : f32isZero z = true) : f32isFinite z = true := by
  unfold f32isZero at hz; unfold f32isFinite
  simp only [Bool.and_eq_true, beq_iff_eq] at hz
  rw [hz.1]; decide

theorem loop_diverges (close : BitVec 32 → BitVec 32 → Bool) (x y : BitVec 32)
    (hs : (STmr.isSpecialFloat x || STmr.isSpecialFloat y || STmr.isSpecialFloat x) = true)
    (hx : f32isFinite x = true) (hy : f32isFinite y = true)
    (hc : close x y = false) : ∀ fuel, STmr.bitLevelVoteFloat close fuel x y x = none := by
  intro fuel
  induction fuel with
  | zero => rfl
  | succ n ih =>
    unfold STmr.bitLevelVoteFloat
    have hf : STmr.finiteValues x y x = [x, y, x] := by
      simp [STmr.finiteValues, hx, hy]
    rw [if_pos hs, hf]
    simp only [hc, Bool.false_eq_true, if_false]
    exact ih

/-- **C15 is violated.** Let one float replica be NaN or infinite and the other two finite, one of them a
zero, and not "close" to each other.  Then the no-majority vote of `get()` recurses without end, whatever
the order of the three replicas.  (`close 0 x` is exactly `|x| < 1000 ε` since subtracting zero is exact, so
e.g. `x = 1.0f` qualifies.) -/
theorem C15_float_vote_diverges_violated (close : BitVec 32 → BitVec 32 → Bool) (n x y : BitVec 32)
    (hn : f32isFinite n = false) (hx : f32isFinite x = true) (hy : f32isFinite y = true)
    (hz : f32isZero x = true ∨ f32isZero y = true) (hc : close x y = false) :
    ∀ fuel, STmr.floatFallback close fuel n x y = none ∧ STmr.floatFallback close fuel x n y = none ∧
      STmr.floatFallback close fuel x y n = none := by
  have hs : (STmr.isSpecialFloat x || STmr.isSpecialFloat y || STmr.isSpecialFloat x) = true := by
    rcases hz with h | h
    · simp [special_zero h]
    · simp [special_zero h]
  have hsn : STmr.isSpecialFloat n = true := by
    unfold f32isFinite at hn
    unfold STmr.isSpecialFloat f32isNaN f32isInf
    simp only [bne_eq_false_iff_eq] at hn
    rw [hn]
    cases h : (f32man n == 0) <;> simp [bne, h]
  intro fuel
  have loop := loop_diverges close x y hs hx hy hc
  unfold STmr.floatFallback
  simp only [hn, hx, hy, Bool.and_false, Bool.false_and, Bool.and_self, Bool.false_eq_true, if_false]
  cases fuel with
  | zero => exact ⟨rfl, rfl, rfl⟩
  | succ f =>
    unfold STmr.bitLevelVoteFloat
    simp only [hsn, Bool.true_or, Bool.or_true, if_true]
    have f1 : STmr.finiteValues n x y = [x, y] := by simp [STmr.finiteValues, hn, hx, hy]
    have f2 : STmr.finiteValues x n y = [x, y] := by simp [STmr.finiteValues, hn, hx, hy]
    have f3 : STmr.finiteValues x y n = [x, y] := by simp [STmr.finiteValues, hn, hx, hy]
    rw [f1, f2, f3]
    simp only [hc, Bool.false_eq_true, if_false]
    exact ⟨loop f, loop f, loop f⟩

/-- Non-vacuity: NaN, 0.0f, 1.0f with the exact closeness test on these values. -/
example : f32isFinite 0x7FC00000#32 = false ∧ f32isFinite 0#32 = true ∧ f32isFinite 0x3F800000#32 = true ∧
    f32isZero 0#32 = true := by decide

theorem getLsbD_majorityBit (a b c : BitVec 32) (p j : Nat) (hp : p < 32) :
    (STmr.majorityBit a b c p).getLsbD j
      = (decide (j = p) && maj3 (a.getLsbD p) (b.getLsbD p) (c.getLsbD p)) := by
  have hand : ∀ (x : BitVec 32), ((x &&& (1#32 <<< p) ≠ 0#32) ↔ x.getLsbD p = true) := by
    intro x
    have := and_mask_eq_iff hp x 0#32
    simp only [BitVec.zero_and, BitVec.getLsbD_zero] at this
    rw [ne_eq, this]; simp
  unfold STmr.majorityBit
  simp only [hand]
  have hm := getLsbD_one_shiftLeft hp j
  cases a.getLsbD p <;> cases b.getLsbD p <;> cases c.getLsbD p <;>
    simp only [maj3] <;> simp only [Bool.false_eq_true, if_true, if_false, ge_iff_le, Nat.reduceAdd,
      Nat.reduceLeDiff, hm, Bool.and_true, Bool.and_false, Bool.or_false,
      Bool.or_true, BitVec.getLsbD_zero, Bool.and_self, Bool.or_self, Nat.le_refl]

theorem getLsbD_majorityLoop (a b c r0 : BitVec 32) (hi n : Nat) (hhi : hi < 32) (hn : n ≤ hi + 1) (j : Nat) :
    (forN n (fun k r => r ||| STmr.majorityBit a b c (hi - k)) r0).getLsbD j
      = (r0.getLsbD j || (decide (hi + 1 ≤ j + n) && decide (j ≤ hi) &&
          maj3 (a.getLsbD j) (b.getLsbD j) (c.getLsbD j))) := by
  induction n with
  | zero =>
    simp only [forN]
    have : (decide (hi + 1 ≤ j + 0) && decide (j ≤ hi)) = false := by
      simp; omega
    rw [this]; simp
  | succ n ih =>
    simp only [forN]
    rw [BitVec.getLsbD_or, ih (by omega), getLsbD_majorityBit _ _ _ _ _ (by omega)]
    by_cases hj : j = hi - n
    · subst hj
      have h1 : decide (hi + 1 ≤ hi - n + n) = false := decide_eq_false (by omega)
      have h2 : decide (hi + 1 ≤ hi - n + (n + 1)) = true := decide_eq_true (by omega)
      have h3 : decide (hi - n ≤ hi) = true := by simp
      rw [h1, h2, h3]; simp
    · have h1 : (decide (hi + 1 ≤ j + (n + 1)) && decide (j ≤ hi)) = (decide (hi + 1 ≤ j + n) && decide (j ≤ hi)) := by
        rw [Bool.eq_iff_iff]; simp only [Bool.and_eq_true, decide_eq_true_iff]; omega
      rw [h1]; simp [hj]

theorem expmask (j : Nat) : (0x7F800000#32).getLsbD j = (decide (23 ≤ j) && decide (j ≤ 30)) := by
  rcases Nat.lt_or_ge j 32 with h | h
  · have : ∀ j, j < 32 → (0x7F800000#32).getLsbD j = (decide (23 ≤ j) && decide (j ≤ 30)) := by decide
    exact this j h
  · rw [BitVec.getLsbD_of_ge _ _ h]; simp; omega

/-- With two equal arguments the median exponent is that argument's exponent field. -/
theorem nearestExponent_aba (x y : BitVec 32) :
    STmr.findNearestValidExponent x y x = x &&& 0x7F800000#32 := by
  have hx : ((x >>> 23) &&& 0xFF#32) <<< 23 = x &&& 0x7F800000#32 := by
    apply BitVec.eq_of_getLsbD_eq
    intro i hi
    have hff : ∀ j, (0xFF#32).getLsbD j = decide (j < 8) := by
      intro j
      rcases Nat.lt_or_ge j 32 with h | h
      · have : ∀ j, j < 32 → (0xFF#32).getLsbD j = decide (j < 8) := by decide
        exact this j h
      · rw [BitVec.getLsbD_of_ge _ _ h]; simp; omega
    rw [BitVec.getLsbD_shiftLeft, BitVec.getLsbD_and, BitVec.getLsbD_and, BitVec.getLsbD_ushiftRight, hff,
      expmask]
    by_cases h : i < 23
    · have : ¬ 23 ≤ i := by omega
      simp [h, this]
    · have e : 23 + (i - 23) = i := by omega
      rw [e]
      have h1 : decide (i - 23 < 8) = decide (i ≤ 30) := by rw [decide_eq_decide]; omega
      have h2 : 23 ≤ i := by omega
      rw [h1]
      simp only [hi, h, h2, decide_true, decide_false, Bool.not_false, Bool.true_and]
  rw [← hx]
  unfold STmr.findNearestValidExponent
  generalize (x >>> 23) &&& 0xFF#32 = ex
  generalize (y >>> 23) &&& 0xFF#32 = ey
  by_cases h1 : ey < ex
  · have h1' : ¬ ex < ey := by
      intro h
      have a := BitVec.lt_def.mp h1
      have b := BitVec.lt_def.mp h
      omega
    simp [h1, h1']
  · by_cases h2 : ex < ey
    · simp [h1, h2]
    · have : ex = ey := by
        apply BitVec.eq_of_toNat_eq
        have a := BitVec.not_lt.mp h1
        have b := BitVec.not_lt.mp h2
        have a' := BitVec.le_def.mp a
        have b' := BitVec.le_def.mp b
        omega
      simp [this]

theorem structuredVote_aba (x y : BitVec 32) (hx : f32isFinite x = true) :
    STmr.structuredVote x y x = x := by
  have hm : ∀ p q : Bool, maj3 p q p = p := by decide
  have hexp : forN 8 (fun k r => r ||| STmr.majorityBit x y x (30 - k)) 0#32 = x &&& 0x7F800000#32 := by
    apply BitVec.eq_of_getLsbD_eq
    intro i _
    rw [getLsbD_majorityLoop _ _ _ _ 30 8 (by omega) (by omega), hm, BitVec.getLsbD_and, expmask]
    have : decide (30 + 1 ≤ i + 8) = decide (23 ≤ i) := by rw [decide_eq_decide]; omega
    rw [this, BitVec.getLsbD_zero, Bool.false_or, Bool.and_comm]
  unfold STmr.structuredVote
  simp only [hexp, nearestExponent_aba, BitVec.and_assoc, BitVec.and_self, ite_self]
  have hall : forN 23 (fun k r => r ||| STmr.majorityBit x y x (22 - k))
      (STmr.majorityBit x y x 31 ||| x &&& 0x7F800000#32) = x := by
    apply BitVec.eq_of_getLsbD_eq
    intro i hi
    rw [getLsbD_majorityLoop _ _ _ _ 22 23 (by omega) (by omega), hm, BitVec.getLsbD_or,
      getLsbD_majorityBit _ _ _ _ _ (by omega), hm, BitVec.getLsbD_and, expmask]
    rcases Nat.lt_or_ge i 23 with h | h
    · have h1 : decide (22 + 1 ≤ i + 23) = true := by simp
      have h2 : decide (i ≤ 22) = true := by simp; omega
      have h3 : decide (23 ≤ i) = false := by simp; omega
      have h4 : decide (i = 31) = false := by simp; omega
      rw [h1, h2, h3, h4]; simp
    · have h2 : decide (i ≤ 22) = false := by simp; omega
      have h3 : decide (23 ≤ i) = true := by simp; omega
      rw [h2, h3]
      rcases Nat.lt_or_ge i 31 with h5 | h5
      · have h4 : decide (i = 31) = false := by simp; omega
        have h6 : decide (i ≤ 30) = true := by simp; omega
        rw [h4, h6]; simp
      · have : i = 31 := by omega
        subst this; simp
  rw [hall]
  have : x &&& 0x7F800000#32 ≠ 0x7F800000#32 := by
    intro h
    have h1 := congrArg BitVec.toNat h
    have h2 : ((x >>> 23) &&& 0xFF#32).toNat = 255 := by
      have : (x >>> 23) &&& 0xFF#32 = 0xFF#32 := by
        have e : (x >>> 23) &&& 0xFF#32 = (x &&& 0x7F800000#32) >>> 23 := by
          apply BitVec.eq_of_getLsbD_eq
          intro i _
          have hff : (0xFF#32).getLsbD i = (0x7F800000#32).getLsbD (23 + i) := by
            rw [expmask]
            rcases Nat.lt_or_ge i 32 with h | h
            · have : ∀ i, i < 32 → (0xFF#32).getLsbD i = (decide (23 ≤ 23 + i) && decide (23 + i ≤ 30)) := by decide
              exact this i h
            · rw [BitVec.getLsbD_of_ge _ _ h]; simp; omega
          rw [BitVec.getLsbD_and, BitVec.getLsbD_ushiftRight, BitVec.getLsbD_ushiftRight, BitVec.getLsbD_and, hff]
        rw [e, h]; decide
      rw [this]; decide
    unfold f32isFinite f32exp at hx
    rw [BitVec.toNat_and, BitVec.toNat_ushiftRight, Nat.shiftRight_eq_div_pow] at h2
    have h3 : (0xFF#32).toNat = 2 ^ 8 - 1 := by decide
    rw [h3, Nat.and_two_pow_sub_one_eq_mod] at h2
    have h4 : (2 : Nat) ^ 8 = 256 := by decide
    rw [h4] at h2
    rw [h2] at hx
    exact absurd hx (by decide)
  rw [if_neg this]

/-- The median of three: one of them, with one other on each side. -/
def IsMedian (a b c r : BitVec 32) : Prop :=
  (r = a ∧ ((STmr.f32key b ≤ STmr.f32key a ∧ STmr.f32key a ≤ STmr.f32key c) ∨
            (STmr.f32key c ≤ STmr.f32key a ∧ STmr.f32key a ≤ STmr.f32key b))) ∨
  (r = b ∧ ((STmr.f32key a ≤ STmr.f32key b ∧ STmr.f32key b ≤ STmr.f32key c) ∨
            (STmr.f32key c ≤ STmr.f32key b ∧ STmr.f32key b ≤ STmr.f32key a))) ∨
  (r = c ∧ ((STmr.f32key a ≤ STmr.f32key c ∧ STmr.f32key c ≤ STmr.f32key b) ∨
            (STmr.f32key b ≤ STmr.f32key c ∧ STmr.f32key c ≤ STmr.f32key a)))

theorem median3_spec (a b c : BitVec 32) : IsMedian a b c (STmr.median3 a b c) := by
  unfold STmr.median3 IsMedian
  by_cases h1 : STmr.f32key b < STmr.f32key a
  · have h1' : ¬ STmr.f32key a < STmr.f32key b := by omega
    by_cases h2 : STmr.f32key c < STmr.f32key a
    · by_cases h3 : STmr.f32key c < STmr.f32key b
      · simp only [h1, h2, h3, if_true]; right; left; exact ⟨trivial, by omega⟩
      · simp only [h1, h2, h3, if_true, if_false]; right; right; exact ⟨trivial, by omega⟩
    · simp only [h1, h2, h1', if_true, if_false]; left; exact ⟨trivial, by omega⟩
  · by_cases h3 : STmr.f32key c < STmr.f32key b
    · by_cases h2 : STmr.f32key c < STmr.f32key a
      · simp only [h1, h2, h3, if_true, if_false]; left; exact ⟨trivial, by omega⟩
      · simp only [h1, h2, h3, if_true, if_false]; right; right; exact ⟨trivial, by omega⟩
    · simp only [h1, h3, if_false]; right; left; exact ⟨trivial, by omega⟩

/-- **C15 (what holds).** Whenever the situation of `C15_float_vote_diverges_violated` does not occur, the
no-majority float vote returns after at most two nested calls, and its result is: the median of the replicas
if all are finite; otherwise the first finite replica, if there is one.  The missing part of C15 is exactly
the excluded situation. -/
theorem C15_float_vote_terminates_partial (close : BitVec 32 → BitVec 32 → Bool) (a b c : BitVec 32) :
    ((f32isFinite a && f32isFinite b && f32isFinite c) = true →
      ∃ r, STmr.floatFallback close 2 a b c = some r ∧ IsMedian a b c r) ∧
    ((f32isFinite a && f32isFinite b && f32isFinite c) = false →
      match STmr.finiteValues a b c with
      | x :: y :: _ => (close x y = true ∨ (f32isZero x = false ∧ f32isZero y = false)) →
          STmr.floatFallback close 2 a b c = some x
      | [x] => STmr.floatFallback close 2 a b c = some x
      | [] => ∃ r, STmr.floatFallback close 2 a b c = some r) := by
  have hsp : ∀ n, f32isFinite n = false → STmr.isSpecialFloat n = true := by
    intro n hn
    unfold f32isFinite at hn
    unfold STmr.isSpecialFloat f32isNaN f32isInf
    simp only [bne_eq_false_iff_eq] at hn
    rw [hn]
    cases h : (f32man n == 0) <;> simp [bne, h]
  have hns : ∀ n, f32isFinite n = true → f32isZero n = false → STmr.isSpecialFloat n = false := by
    intro n hn hz
    unfold f32isFinite at hn
    unfold STmr.isSpecialFloat f32isNaN f32isInf
    rw [hz]
    have : (f32exp n == 255) = false := by
      simpa [bne] using hn
    rw [this]; rfl
  constructor
  · intro h
    refine ⟨STmr.median3 a b c, ?_, median3_spec a b c⟩
    simp only [STmr.floatFallback, h, if_true, STmr.findBestFloatFallback]
  · intro h
    have hs : (STmr.isSpecialFloat a || STmr.isSpecialFloat b || STmr.isSpecialFloat c) = true := by
      cases ha : f32isFinite a
      · simp [hsp a ha]
      · cases hb : f32isFinite b
        · simp [hsp b hb]
        · cases hc : f32isFinite c
          · simp [hsp c hc]
          · rw [ha, hb, hc] at h; cases h
    have hf : STmr.floatFallback close 2 a b c = STmr.bitLevelVoteFloat close 2 a b c := by
      simp only [STmr.floatFallback, h, Bool.false_eq_true, if_false]
    rw [hf]
    have hmem : ∀ z ∈ STmr.finiteValues a b c, f32isFinite z = true := by
      intro z hz; exact (List.mem_filter.mp hz).2
    have hlen : (STmr.finiteValues a b c).length ≤ 2 := by
      unfold STmr.finiteValues
      cases ha : f32isFinite a <;> cases hb : f32isFinite b <;> cases hc : f32isFinite c <;>
        simp [ha, hb, hc] at h ⊢
    unfold STmr.bitLevelVoteFloat
    rw [if_pos hs]
    match hv : STmr.finiteValues a b c, hmem, hlen with
    | [], _, _ => simp only; repeat' split
                  all_goals exact ⟨_, rfl⟩
    | [x], _, _ => rfl
    | [x, y], hmem, _ =>
      simp only
      intro hcl
      have hx := hmem x (by simp)
      have hy := hmem y (by simp)
      cases hc : close x y
      · simp only [Bool.false_eq_true, if_false]
        rw [hc] at hcl
        rcases hcl with hcl | ⟨h1, h2⟩
        · cases hcl
        · unfold STmr.bitLevelVoteFloat
          have n1 := hns x hx h1
          have n2 := hns y hy h2
          simp only [n1, n2, Bool.or_self, Bool.false_eq_true, if_false]
          rw [structuredVote_aba x y hx]
      · simp
    | x :: y :: z :: r, _, hlen => simp at hlen

/-- Non-vacuity: NaN, 2.0f, 3.0f. -/
example : STmr.floatFallback (fun _ _ => false) 2 0x7FC00000#32 0x40000000#32 0x40400000#32
    = some 0x40000000#32 := by decide +kernel

end Verif.Props
