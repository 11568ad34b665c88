import Verif.Model.Strategies
import Verif.Spec.Float
import Mathlib.Tactic.Linarith
import Mathlib.Tactic.NormNum
import Mathlib.Tactic.Ring
import Mathlib.Tactic.Positivity
import Mathlib.Algebra.Order.Field.Basic
/-!
Properties C72–C74: the redundant-execution strategies of `rad_ml::tmr`.
-/
namespace Verif.Props.StratP
open Verif Verif.Strat

variable {α : Type}

/-- At least two of the three runs returned `v`. -/
def Maj (a b c v : α) : Prop := (a = v ∧ b = v) ∨ (a = v ∧ c = v) ∨ (b = v ∧ c = v)

/-- What a user reads off a `TMRResult`: the value is the majority value if there is one and the first result otherwise, an
error is reported exactly if the runs did not all agree, it is reported as corrected exactly if there is a majority, and the
confidence is 1, `two` or `none` accordingly. -/
def Honest (two zero : ℚ) (a b c : α) (r : Result α) : Prop :=
  (∀ v, Maj a b c v → r.value = v) ∧ ((¬ ∃ v, Maj a b c v) → r.value = a) ∧
  (r.detected = some false ↔ a = b ∧ b = c) ∧ (r.detected = some true ↔ ¬ (a = b ∧ b = c)) ∧
  (r.corrected = some true ↔ ¬ (a = b ∧ b = c) ∧ ∃ v, Maj a b c v) ∧
  (r.corrected = some false ↔ (a = b ∧ b = c) ∨ ¬ ∃ v, Maj a b c v) ∧
  ((a = b ∧ b = c) → r.confidence = 1) ∧ (¬ (a = b ∧ b = c) → (∃ v, Maj a b c v) → r.confidence = two) ∧
  ((¬ ∃ v, Maj a b c v) → r.confidence = zero)

theorem maj_iff (a b c : α) : (∃ v, Maj a b c v) ↔ a = b ∨ a = c ∨ b = c := by
  constructor
  · rintro ⟨v, ⟨h1, h2⟩ | ⟨h1, h2⟩ | ⟨h1, h2⟩⟩
    · exact Or.inl (h1.trans h2.symm)
    · exact Or.inr (Or.inl (h1.trans h2.symm))
    · exact Or.inr (Or.inr (h1.trans h2.symm))
  · rintro (h | h | h)
    · exact ⟨a, Or.inl ⟨rfl, h.symm⟩⟩
    · exact ⟨a, Or.inr (Or.inl ⟨rfl, h.symm⟩)⟩
    · exact ⟨b, Or.inr (Or.inr ⟨rfl, h.symm⟩)⟩

theorem maj_unique {a b c v w : α} (h : Maj a b c v) (h' : Maj a b c w) : v = w := by
  rcases h with ⟨h1, h2⟩ | ⟨h1, h2⟩ | ⟨h1, h2⟩ <;> rcases h' with ⟨g1, g2⟩ | ⟨g1, g2⟩ | ⟨g1, g2⟩ <;>
    first
    | exact h1.symm.trans g1
    | exact h2.symm.trans g1
    | exact h1.symm.trans g2
    | exact h2.symm.trans g2

/-- The common shape of the voting code. -/
def vote3 [DecidableEq α] (two zero : ℚ) (a b c : α) : Result α :=
  if a = b ∧ a = c then ⟨a, 1, some false, some false⟩
  else if a = b then ⟨a, two, some true, some true⟩
  else if a = c then ⟨a, two, some true, some true⟩
  else if b = c then ⟨b, two, some true, some true⟩
  else ⟨a, zero, some true, some false⟩

theorem vote3_honest [DecidableEq α] (two zero : ℚ) (a b c : α) : Honest two zero a b c (vote3 two zero a b c) := by
  have hm := maj_iff a b c
  unfold vote3
  by_cases h1 : a = b
  · subst h1
    by_cases h2 : a = c
    · subst h2
      rw [if_pos ⟨rfl, rfl⟩]
      refine ⟨fun v h => ?_, fun _ => rfl, by simp, by simp, by simp, by simp, fun _ => rfl, fun h => absurd ⟨rfl, rfl⟩ h,
        fun h => absurd (hm.mpr (Or.inl rfl)) h⟩
      exact maj_unique (Or.inl ⟨rfl, rfl⟩) h
    · have e : ∃ v, Maj a a c v := hm.mpr (Or.inl rfl)
      rw [if_neg (fun h => h2 h.2), if_pos rfl]
      refine ⟨fun v h => maj_unique (Or.inl ⟨rfl, rfl⟩) h, fun _ => rfl, by simp [h2], by simp [h2], by simp [h2, e],
        by simp [h2, e], fun h => absurd h.2 h2, fun _ _ => rfl, fun h => absurd e h⟩
  · have hne : ¬ (a = b ∧ b = c) := fun h => h1 h.1
    rw [if_neg (fun h => h1 h.1), if_neg h1]
    by_cases h2 : a = c
    · have e : ∃ v, Maj a b c v := hm.mpr (Or.inr (Or.inl h2))
      rw [if_pos h2]
      refine ⟨fun v h => maj_unique (Or.inr (Or.inl ⟨rfl, h2.symm⟩)) h, fun _ => rfl, by simp [h1], by simp [h1],
        by simp [h1, e], by simp [h1, e], fun h => absurd h hne, fun _ _ => rfl, fun h => absurd e h⟩
    · rw [if_neg h2]
      by_cases h3 : b = c
      · have e : ∃ v, Maj a b c v := hm.mpr (Or.inr (Or.inr h3))
        rw [if_pos h3]
        refine ⟨fun v h => maj_unique (Or.inr (Or.inr ⟨rfl, h3.symm⟩)) h, fun h => absurd e h, by simp [h1], by simp [h1],
          by simp [h1, e], by simp [h1, e], fun h => absurd h hne, fun _ _ => rfl, fun h => absurd e h⟩
      · have e : ¬ ∃ v, Maj a b c v := fun h => by
          rcases hm.mp h with h | h | h
          · exact h1 h
          · exact h2 h
          · exact h3 h
        rw [if_neg h3]
        refine ⟨fun v h => absurd ⟨v, h⟩ e, fun _ => rfl, by simp [h1], by simp [h1], by simp [e], by simp [e],
          fun h => absurd h hne, fun _ h => absurd h e, fun _ => rfl⟩

/-- `==` of a type on which it is the identity. -/
abbrev same [DecidableEq α] : α → α → Bool := fun a b => decide (a = b)

/-- **C72 (NoProtection).** The unprotected strategy hands the single result through, with confidence 1 and no error. -/
theorem C72_none (a : α) : execNone a = ⟨a, 1, some false, some false⟩ := rfl

/-- **C72 (BasicTMR).** For every three results of the operation, `BasicTMR::execute` reports exactly what happened. -/
theorem C72_basic [DecidableEq α] (a b c : α) : Honest (67 / 100) (33 / 100) a b c (execBasic same a b c) := by
  have : execBasic same a b c = vote3 (67 / 100) (33 / 100) a b c := by
    unfold execBasic vote3; simp only [same, Bool.and_eq_true, decide_eq_true_eq]
  rw [this]; exact vote3_honest _ _ a b c

/-- **C72 (HybridRedundancy).** The same for `HybridRedundancy::execute`. -/
theorem C72_hybrid [DecidableEq α] (a b c : α) : Honest (8 / 10) (33 / 100) a b c (execHybrid same a b c) := by
  have : execHybrid same a b c = vote3 (8 / 10) (33 / 100) a b c := by
    unfold execHybrid vote3; simp only [same, Bool.and_eq_true, decide_eq_true_eq]
  rw [this]; exact vote3_honest _ _ a b c

/-- **C72 (EnhancedTMR, partial).** For a type whose values all have a checksum, every three results are voted correctly; the
flags are right whenever the runs do not all agree.  Missing: the flags when they agree
(`C72_enhanced_flags_violated`), and floating-point results (`C72_enhanced_negative_violated`). -/
theorem C72_enhanced_partial [DecidableEq α] (sum : α → Option Nat) (hs : ∀ a, (sum a).isSome) (a b c : α) :
    ∃ r, execEnhanced same sum a b c = .ok r ∧ (∀ v, Maj a b c v → r.value = v) ∧
      (r.value = a ∨ r.value = b ∨ r.value = c) ∧
      ((a = b ∧ b = c) → r.confidence = 1) ∧
      (¬ (a = b ∧ b = c) → r.detected = some true ∧ (r.corrected = some true ↔ ∃ v, Maj a b c v) ∧
        ((∃ v, Maj a b c v) → r.confidence = 8 / 10) ∧ ((¬ ∃ v, Maj a b c v) → r.confidence ≤ 5 / 10)) := by
  obtain ⟨x, hx⟩ := Option.isSome_iff_exists.mp (hs a)
  obtain ⟨y, hy⟩ := Option.isSome_iff_exists.mp (hs b)
  obtain ⟨z, hz⟩ := Option.isSome_iff_exists.mp (hs c)
  have hm := maj_iff a b c
  refine ⟨voteEnhanced same a b c x y z, by unfold execEnhanced; rw [hx, hy, hz], ?_⟩
  unfold voteEnhanced
  simp only [same, Bool.and_eq_true, decide_eq_true_eq]
  by_cases h1 : a = b
  · have e : x = y := Option.some.inj (hx.symm.trans ((congrArg sum h1).trans hy))
    by_cases h2 : a = c
    · have e2 : x = z := Option.some.inj (hx.symm.trans ((congrArg sum h2).trans hz))
      rw [if_pos ⟨h1, h2⟩, if_pos ⟨e, e2⟩]
      exact ⟨fun v h => maj_unique (Or.inl ⟨rfl, h1.symm⟩) h, Or.inl rfl, fun _ => rfl,
        fun h => absurd ⟨h1, h1.symm.trans h2⟩ h⟩
    · have em : ∃ v, Maj a b c v := hm.mpr (Or.inl h1)
      rw [if_neg (fun h => h2 h.2), if_pos h1, if_pos e]
      exact ⟨fun v h => maj_unique (Or.inl ⟨rfl, h1.symm⟩) h, Or.inl rfl, fun h => absurd (h.1.trans h.2) h2,
        fun _ => ⟨rfl, by simp [em], fun _ => rfl, fun h => absurd em h⟩⟩
  · rw [if_neg (fun h => h1 h.1), if_neg h1]
    by_cases h2 : a = c
    · have e2 : x = z := Option.some.inj (hx.symm.trans ((congrArg sum h2).trans hz))
      have em : ∃ v, Maj a b c v := hm.mpr (Or.inr (Or.inl h2))
      rw [if_pos h2, if_pos e2]
      exact ⟨fun v h => maj_unique (Or.inr (Or.inl ⟨rfl, h2.symm⟩)) h, Or.inl rfl, fun h => absurd h.1 h1,
        fun _ => ⟨rfl, by simp [em], fun _ => rfl, fun h => absurd em h⟩⟩
    · rw [if_neg h2]
      by_cases h3 : b = c
      · have e3 : y = z := Option.some.inj (hy.symm.trans ((congrArg sum h3).trans hz))
        have em : ∃ v, Maj a b c v := hm.mpr (Or.inr (Or.inr h3))
        rw [if_pos h3, if_pos e3]
        exact ⟨fun v h => maj_unique (Or.inr (Or.inr ⟨rfl, h3.symm⟩)) h, Or.inr (Or.inl rfl), fun h => absurd h.1 h1,
          fun _ => ⟨rfl, by simp [em], fun _ => rfl, fun h => absurd em h⟩⟩
      · have em : ¬ ∃ v, Maj a b c v := fun h => by
          rcases hm.mp h with h | h | h
          · exact h1 h
          · exact h2 h
          · exact h3 h
        rw [if_neg h3]
        refine ⟨fun v h => absurd ⟨v, h⟩ em, ?_, fun h => absurd h.1 h1, fun _ => ⟨?_, ?_, fun h => absurd h em, fun _ => ?_⟩⟩
        · split
          · exact Or.inl rfl
          · split
            · exact Or.inl rfl
            · split
              · exact Or.inr (Or.inl rfl)
              · exact Or.inl rfl
        · split
          · rfl
          · split
            · rfl
            · split <;> rfl
        · simp only [em, iff_false]
          split
          · simp
          · split
            · simp
            · split <;> simp
        · split
          · exact le_refl _
          · split
            · exact le_refl _
            · split
              · exact le_refl _
              · norm_num

/-- **C72 (EnhancedTMR, violated).** Whenever the three runs agree and have a checksum, `EnhancedTMR::execute` leaves both
flags of the result indeterminate. -/
theorem C72_enhanced_flags_violated [DecidableEq α] (sum : α → Option Nat) (a : α) (x : Nat) (hx : sum a = some x) :
    execEnhanced same sum a a a = .ok ⟨a, 1, none, none⟩ := by
  unfold execEnhanced voteEnhanced
  simp [hx]

/-- **C72 (EnhancedTMR, violated).** For a floating-point operation returning any value below or equal to -1, `execute` has
undefined behaviour even if all runs agree. -/
theorem C72_enhanced_negative_violated (q : ℚ) (hq : q ≤ -1) : execEnhanced same floatSum q q q = .ub := by
  have : floatSum q = none := by
    unfold floatSum
    rw [if_neg]
    rintro ⟨h, _⟩
    linarith
  unfold execEnhanced
  rw [this]

/-- **C72 (NaN, violated).** With the `==` of `float`, three identical runs returning NaN are reported as an uncorrected
error with confidence 0.33. -/
theorem C72_nan_violated :
    execBasic Spec.f32eq 0x7FC00000#32 0x7FC00000#32 0x7FC00000#32 = ⟨0x7FC00000#32, 33 / 100, some true, some false⟩ := by
  have : Spec.f32eq 0x7FC00000#32 0x7FC00000#32 = false := by decide
  unfold execBasic
  simp [this]

/-- Signed integers always have a checksum; a majority exists in this example. -/
example : (∀ a : BitVec 32, (intSum a).isSome) ∧ Maj 3 5 3 3 ∧ (execEnhanced same intSum 3#32 5#32 3#32 =
    .ok ⟨3#32, 8 / 10, some true, some true⟩) ∧ floatSum (7 / 2) = some 3 := by
  refine ⟨fun _ => rfl, Or.inr (Or.inl ⟨rfl, rfl⟩), ?_, ?_⟩
  · unfold execEnhanced intSum voteEnhanced
    simp
  · unfold floatSum
    rw [if_pos (by norm_num), if_neg (by norm_num)]
    have : (7 / 2 : ℚ).floor = 3 := by decide +kernel
    rw [this]; rfl

/-! ### C73: StuckBitTMR -/

/-- **C73 (stuck-bit voting, partial).** Let `v` be a value the check does not regard as stuck.  If at least two runs return
`v` then `execute` returns `v`, reports no error exactly if all three agree, and never a wrong "uncorrected".  This covers
every type, check and fallback (integers, floats, vectors).  Missing: correct values that look stuck, see
`C73_zero_outvoted_violated`. -/
theorem C73_majority_partial [DecidableEq α] (stuck : α → Bool) (fix : α → α → α → α) (a b c v : α)
    (hv : stuck v = false) (hm : Maj a b c v) :
    (execStuck same stuck fix a b c).value = v ∧
    ((execStuck same stuck fix a b c).detected = some false ↔ a = b ∧ b = c) ∧
    ((execStuck same stuck fix a b c).corrected = some true ↔ ¬ (a = b ∧ b = c)) := by
  unfold execStuck
  simp only [same, Bool.and_eq_true, Bool.not_eq_true', decide_eq_true_eq]
  rcases hm with ⟨h1, h2⟩ | ⟨h1, h2⟩ | ⟨h1, h2⟩
  · subst h1; subst h2
    simp only [hv]
    cases hc : stuck c
    · by_cases h : b = c <;> simp [h]
    · have hbc : b ≠ c := fun e => by rw [e, hc] at hv; cases hv
      simp [hbc]
  · subst h1; subst h2
    simp only [hv]
    cases hb : stuck b
    · by_cases h : c = b
      · subst h; simp
      · simp [h, Ne.symm h]
    · have hbc : c ≠ b := fun e => by rw [e, hb] at hv; cases hv
      simp [hbc, Ne.symm hbc]
  · subst h1; subst h2
    simp only [hv]
    cases ha : stuck a
    · by_cases h : a = c
      · subst h; simp
      · simp [h]
    · have hbc : a ≠ c := fun e => by rw [← e, ha] at hv; cases hv
      simp [hbc]

/-- **C73 (no agreement).** If exactly one run is discarded as stuck and the other two disagree, or if none is discarded and all three
disagree, the first result that is not discarded is returned and reported as an error that was not corrected. -/
theorem C73_disagreement [DecidableEq α] (stuck : α → Bool) (fix : α → α → α → α) (a b c : α) :
    (stuck a = false → stuck b = false → stuck c = true → a ≠ b → execStuck same stuck fix a b c = ⟨a, 5 / 10, some true, some false⟩) ∧
    (stuck a = false → stuck b = true → stuck c = false → a ≠ c → execStuck same stuck fix a b c = ⟨a, 5 / 10, some true, some false⟩) ∧
    (stuck a = true → stuck b = false → stuck c = false → b ≠ c → execStuck same stuck fix a b c = ⟨b, 5 / 10, some true, some false⟩) ∧
    (stuck a = false → stuck b = false → stuck c = false → a ≠ b → a ≠ c → b ≠ c →
      execStuck same stuck fix a b c = ⟨a, 3 / 10, some true, some false⟩) := by
  refine ⟨?_, ?_, ?_, ?_⟩
  · intro h1 h2 h3 h; simp [execStuck, h1, h2, h3, h]
  · intro h1 h2 h3 h; simp [execStuck, h1, h2, h3, h]
  · intro h1 h2 h3 h; simp [execStuck, h1, h2, h3, h]
  · intro h1 h2 h3 h h' h''; simp [execStuck, h1, h2, h3, h, h', h'']

example : execStuck same (stuckInt (255#8)) fixInt 5#8 9#8 0#8 = ⟨5#8, 5 / 10, some true, some false⟩ := by decide +kernel

/-- **C73 (zero outvoted, violated).** An integer operation whose correct result is 0: if one run of three is corrupted to any
value `x` (not 0 and not the maximum), `execute` returns the corrupted value and reports the error as corrected. -/
theorem C73_zero_outvoted_violated (w : Nat) (max x : BitVec w) (h0 : x ≠ 0#w) (h1 : x ≠ max) :
    execStuck same (stuckInt max) fixInt 0#w 0#w x = ⟨x, 6 / 10, some true, some true⟩ ∧
    execStuck same (stuckInt max) fixInt 0#w x 0#w = ⟨x, 6 / 10, some true, some true⟩ ∧
    execStuck same (stuckInt max) fixInt x 0#w 0#w = ⟨x, 6 / 10, some true, some true⟩ := by
  have hx : stuckInt max x = false := by
    unfold stuckInt; simp [h0, h1]
  have hz : stuckInt max 0#w = true := by unfold stuckInt; simp
  unfold execStuck
  simp [hx, hz]

/-- **C73 (agreeing zeros, violated).** Three error-free runs returning 0 are reported as an uncorrected error (with the right
value). -/
theorem C73_zero_flagged_violated (w : Nat) (max : BitVec w) :
    execStuck same (stuckInt max) fixInt 0#w 0#w 0#w = ⟨0#w, 2 / 10, some true, some false⟩ := by
  have hz : stuckInt max 0#w = true := by unfold stuckInt; simp
  unfold execStuck
  simp [hz, fixInt]

/-- **C73 (bit correction).** If every integer result looks stuck, the value returned is the bitwise majority of the three. -/
theorem C73_bitwise_majority (w : Nat) (max a b c : BitVec w) (ha : stuckInt max a = true) (hb : stuckInt max b = true)
    (hc : stuckInt max c = true) (i : Nat) (v : Bool)
    (h : Maj (a.getLsbD i) (b.getLsbD i) (c.getLsbD i) v) :
    (execStuck same (stuckInt max) fixInt a b c).value.getLsbD i = v := by
  unfold execStuck
  simp only [ha, hb, hc]
  simp only [fixInt]
  show ((a &&& b) ||| (a &&& c) ||| (b &&& c)).getLsbD i = v
  simp only [BitVec.getLsbD_or, BitVec.getLsbD_and]
  rcases h with ⟨h1, h2⟩ | ⟨h1, h2⟩ | ⟨h1, h2⟩ <;> rw [h1, h2]
  · cases v <;> cases c.getLsbD i <;> rfl
  · cases v <;> cases b.getLsbD i <;> rfl
  · cases v <;> cases a.getLsbD i <;> rfl

theorem all_zip_eq [DecidableEq α] : ∀ (a b : List α), a.length = b.length →
    (((a.zip b).all fun p => decide (p.1 = p.2)) = true ↔ a = b)
  | [], [], _ => by simp
  | [], _ :: _, h => by simp at h
  | _ :: _, [], h => by simp at h
  | x :: a, y :: b, h => by
    have ih := all_zip_eq a b (by simpa using h)
    rw [List.zip_cons_cons, List.all_cons, Bool.and_eq_true, ih]
    simp

theorem vecEq_iff [DecidableEq α] (a b : List α) : vecEq same a b = decide (a = b) := by
  unfold vecEq
  by_cases h : a.length = b.length
  · rw [if_neg (by simpa using h)]
    have := all_zip_eq a b h
    by_cases e : a = b
    · rw [decide_eq_true e]; exact this.mpr e
    · rw [decide_eq_false e]
      exact Bool.eq_false_iff.mpr fun hh => e (this.mp hh)
  · rw [if_pos h]
    have : a ≠ b := fun e => h (by rw [e])
    simp [this]

/-- **C73 (vectors).** For vectors of length at least two that are not constant (such as a layer's outputs), a majority of two
runs is always returned, whatever the third run did — even if it returned a vector of another length. -/
theorem C73_vector_majority [DecidableEq α] (sus : α → Bool) (a b c v : List α) (x y : α) (hx : x ∈ v) (hy : y ∈ v)
    (hxy : x ≠ y) (hm : Maj a b c v) :
    (execStuck (vecEq same) (stuckVec same sus) fixVec a b c).value = v := by
  have he : vecEq (α := α) same = same := by funext p q; exact vecEq_iff p q
  rw [he]
  refine (C73_majority_partial _ _ a b c v ?_ hm).1
  cases v with
  | nil => cases hx
  | cons z l =>
    show (if (l.all fun y => same y z) = true then sus z else false) = false
    rw [if_neg]
    intro hall
    rw [List.all_eq_true] at hall
    have key : ∀ t ∈ z :: l, t = z := by
      intro t ht
      rcases List.mem_cons.mp ht with h | h
      · exact h
      · simpa using hall t h
    exact hxy ((key x hx).trans (key y hy).symm)

/-- **C73 (empty vectors).** A run that returns an empty vector counts as failed: if the two other runs did not return
different non-constant vectors, i.e. one of them returned the non-constant vector `v` and the other nothing, the result is
`v`. -/
theorem C73_empty_ignored [DecidableEq α] (sus : α → Bool) (v : List α) (x y : α) (hx : x ∈ v) (hy : y ∈ v) (hxy : x ≠ y) :
    (execStuck (vecEq same) (stuckVec same sus) fixVec v [] []).value = v ∧
    (execStuck (vecEq same) (stuckVec same sus) fixVec [] v []).value = v ∧
    (execStuck (vecEq same) (stuckVec same sus) fixVec [] [] v).value = v := by
  have hv : stuckVec same sus v = false := by
    cases v with
    | nil => cases hx
    | cons z l =>
      show (if (l.all fun y => same y z) = true then sus z else false) = false
      rw [if_neg]
      intro hall
      rw [List.all_eq_true] at hall
      have key : ∀ t ∈ z :: l, t = z := by
        intro t ht
        rcases List.mem_cons.mp ht with h | h
        · exact h
        · simpa using hall t h
      exact hxy ((key x hx).trans (key y hy).symm)
  have he : stuckVec same sus ([] : List α) = true := rfl
  unfold execStuck
  simp [hv, he]

/-- **C73 (all vectors stuck).** If every result vector looks stuck, the value is one of the three; if moreover none is empty
it is one of minimal length. -/
theorem C73_all_stuck_vectors [DecidableEq α] (eq : List α → List α → Bool) (stuck : List α → Bool) (a b c : List α)
    (ha : stuck a = true) (hb : stuck b = true) (hc : stuck c = true) :
    let r := (execStuck eq stuck fixVec a b c).value
    (r = a ∨ r = b ∨ r = c) ∧
    ((a ≠ [] ∧ b ≠ [] ∧ c ≠ []) → r.length ≤ a.length ∧ r.length ≤ b.length ∧ r.length ≤ c.length) := by
  have e : (execStuck eq stuck fixVec a b c).value = fixVec a b c := by
    unfold execStuck; simp [ha, hb, hc]
  rw [e]
  unfold fixVec
  by_cases h1 : a ≠ [] ∧ a.length ≤ b.length ∧ a.length ≤ c.length
  · rw [if_pos h1]
    exact ⟨Or.inl rfl, fun _ => ⟨Nat.le_refl _, h1.2.1, h1.2.2⟩⟩
  · rw [if_neg h1]
    by_cases h2 : b ≠ [] ∧ b.length ≤ a.length ∧ b.length ≤ c.length
    · rw [if_pos h2]
      exact ⟨Or.inr (Or.inl rfl), fun _ => ⟨h2.2.1, Nat.le_refl _, h2.2.2⟩⟩
    · rw [if_neg h2]
      refine ⟨Or.inr (Or.inr rfl), fun hn => ?_⟩
      have g1 : ¬ (a.length ≤ b.length ∧ a.length ≤ c.length) := fun h => h1 ⟨hn.1, h⟩
      have g2 : ¬ (b.length ≤ a.length ∧ b.length ≤ c.length) := fun h => h2 ⟨hn.2.1, h⟩
      omega

/-- Concrete cases. -/
example : Maj 5#8 5#8 9#8 5#8 ∧ stuckInt 127#8 5#8 = false ∧
    (execStuck (vecEq same) (stuckVec same (fun x : Nat => x == 0)) fixVec [1, 2] [] [1, 2]).value = [1, 2] := by
  refine ⟨Or.inl ⟨rfl, rfl⟩, by decide, ?_⟩
  exact C73_vector_majority _ _ _ _ _ 1 2 (by simp) (by simp) (by decide) (Or.inr (Or.inl ⟨rfl, rfl⟩))

/-! ### C74: HealthWeightedTMR -/

/-- All three scores lie in the documented range. -/
def InRange (h : Health) : Prop :=
  (1 / 10 ≤ h.h0 ∧ h.h0 ≤ 1) ∧ (1 / 10 ≤ h.h1 ∧ h.h1 ≤ 1) ∧ (1 / 10 ≤ h.h2 ∧ h.h2 ≤ 1)

theorem worse_range {h : ℚ} (hh : 1 / 10 ≤ h ∧ h ≤ 1) : 1 / 10 ≤ worse h ∧ worse h ≤ 1 :=
  ⟨le_max_left _ _, max_le (by norm_num) (by linarith [hh.2])⟩
theorem better_range {h : ℚ} (hh : 1 / 10 ≤ h ∧ h ≤ 1) : 1 / 10 ≤ better h ∧ better h ≤ 1 :=
  ⟨le_min (by norm_num) (by linarith [hh.1]), min_le_left _ _⟩

theorem inRange_exec (eq : α → α → Bool) (h : Health) (hh : InRange h) (a b c : α) :
    InRange (execHealth eq h a b c).2 := by
  obtain ⟨h0, h1, h2⟩ := hh
  unfold execHealth
  simp only
  split
  · exact ⟨h0, h1, h2⟩
  · split
    · split
      · exact ⟨h0, h1, worse_range h2⟩
      · exact ⟨h0, h1, h2⟩
    · split
      · split
        · exact ⟨h0, worse_range h1, h2⟩
        · exact ⟨h0, h1, h2⟩
      · split
        · split
          · exact ⟨worse_range h0, h1, h2⟩
          · exact ⟨h0, h1, h2⟩
        · exact ⟨better_range h0, better_range h1, better_range h2⟩

/-- **C74 (score range).** In every history of calls the scores stay in [0.1, 1]. -/
theorem C74_score_range (eq : α → α → Bool) (calls : List (α × α × α)) : InRange (runHealth eq {} calls) := by
  have key : ∀ h, InRange h → InRange (runHealth eq h calls) := by
    unfold runHealth
    induction calls with
    | nil => intro h hh; exact hh
    | cons t l ih => intro h hh; exact ih _ (inRange_exec eq h hh _ _ _)
  exact key {} ⟨by norm_num, by norm_num, by norm_num⟩

/-- **C74 (agreement).** In every history, three agreeing runs give their value with confidence 1 and no error. -/
theorem C74_agreement [DecidableEq α] (calls : List (α × α × α)) (v : α) :
    (execHealth same (runHealth same {} calls) v v v).1 = ⟨v, 1, some false, some false⟩ := by
  unfold execHealth; simp

/-- **C74 (confidence).** In every history the confidence of every answer lies in (0, 1]. -/
theorem C74_confidence_range (eq : α → α → Bool) (calls : List (α × α × α)) (a b c : α) :
    0 < (execHealth eq (runHealth eq {} calls) a b c).1.confidence ∧
    (execHealth eq (runHealth eq {} calls) a b c).1.confidence ≤ 1 := by
  have hr := C74_score_range eq calls
  generalize runHealth eq {} calls = h at hr
  obtain ⟨⟨l0, u0⟩, ⟨l1, u1⟩, ⟨l2, u2⟩⟩ := hr
  have ht : 0 < h.h0 + h.h1 + h.h2 := by linarith
  have p0 : 0 < h.h0 / (h.h0 + h.h1 + h.h2) := div_pos (by linarith) ht
  have p1 : 0 < h.h1 / (h.h0 + h.h1 + h.h2) := div_pos (by linarith) ht
  have p2 : 0 < h.h2 / (h.h0 + h.h1 + h.h2) := div_pos (by linarith) ht
  have hsum : h.h0 / (h.h0 + h.h1 + h.h2) + h.h1 / (h.h0 + h.h1 + h.h2) + h.h2 / (h.h0 + h.h1 + h.h2) = 1 := by
    rw [← add_div, ← add_div]; exact div_self ht.ne'
  unfold execHealth healthiest
  simp only
  generalize h.h0 / (h.h0 + h.h1 + h.h2) = w1 at *
  generalize h.h1 / (h.h0 + h.h1 + h.h2) = w2 at *
  generalize h.h2 / (h.h0 + h.h1 + h.h2) = w3 at *
  repeat' split
  all_goals first
    | exact ⟨by norm_num, le_refl _⟩
    | (constructor <;> simp only <;> linarith)

/-- The share of two scores is above 0.6. -/
theorem share {x y z : ℚ} (ht : 0 < x + y + z) (h : 2 * (x + y) > 3 * z) : x / (x + y + z) + y / (x + y + z) > 6 / 10 := by
  rw [← add_div, gt_iff_lt, lt_div_iff₀ ht]; linarith

/-- **C74 (no majority).** In every history, three pairwise different results are answered by the result of a component with the
highest score, flagged as an uncorrected error, and every score recovers by ten per cent (at most to 1). -/
theorem C74_no_majority [DecidableEq α] (calls : List (α × α × α)) (a b c : α) (hab : a ≠ b) (hac : a ≠ c) (hbc : b ≠ c) :
    let h := runHealth same {} calls
    let r := execHealth same h a b c
    ((r.1.value = a ∧ h.h1 ≤ h.h0 ∧ h.h2 ≤ h.h0) ∨ (r.1.value = b ∧ h.h0 ≤ h.h1 ∧ h.h2 ≤ h.h1) ∨
      (r.1.value = c ∧ h.h0 ≤ h.h2 ∧ h.h1 ≤ h.h2)) ∧
    r.1.detected = some true ∧ r.1.corrected = some false ∧
    r.2.h0 = min 1 (h.h0 * (11 / 10)) ∧ r.2.h1 = min 1 (h.h1 * (11 / 10)) ∧ r.2.h2 = min 1 (h.h2 * (11 / 10)) := by
  intro h r
  have hr : InRange h := C74_score_range same calls
  clear_value h
  obtain ⟨⟨l0, u0⟩, ⟨l1, u1⟩, ⟨l2, u2⟩⟩ := hr
  have ht : 0 < h.h0 + h.h1 + h.h2 := by linarith
  have hr : r = (⟨(healthiest a b c (h.h0 / (h.h0 + h.h1 + h.h2)) (h.h1 / (h.h0 + h.h1 + h.h2)) (h.h2 / (h.h0 + h.h1 + h.h2))).1,
      (healthiest a b c (h.h0 / (h.h0 + h.h1 + h.h2)) (h.h1 / (h.h0 + h.h1 + h.h2)) (h.h2 / (h.h0 + h.h1 + h.h2))).2,
      some true, some false⟩, ⟨better h.h0, better h.h1, better h.h2⟩) := by
    show execHealth same h a b c = _
    unfold execHealth
    simp [same, hab, hac, hbc]
  rw [hr]
  refine ⟨?_, rfl, rfl, rfl, rfl, rfl⟩
  unfold healthiest
  simp only [ge_iff_le, div_le_div_iff_of_pos_right ht]
  by_cases c1 : h.h1 ≤ h.h0 ∧ h.h2 ≤ h.h0
  · rw [if_pos c1]; exact Or.inl ⟨rfl, c1⟩
  · rw [if_neg c1]
    by_cases c2 : h.h0 ≤ h.h1 ∧ h.h2 ≤ h.h1
    · rw [if_pos c2]; exact Or.inr (Or.inl ⟨rfl, c2⟩)
    · rw [if_neg c2]
      refine Or.inr (Or.inr ⟨rfl, ?_, ?_⟩)
      · by_contra g
        push Not at g
        have : ¬ h.h1 ≤ h.h0 := fun g' => c1 ⟨g', g.le⟩
        exact c2 ⟨by linarith, by linarith⟩
      · by_contra g
        push Not at g
        have : ¬ h.h0 ≤ h.h1 := fun g' => c2 ⟨g', g.le⟩
        exact c1 ⟨by linarith, by linarith⟩

/-- **C74 (trusted majority).** In every history: if two runs agree and the sum of their scores exceeds one and a half times the
score of the third, the result is the agreed value. -/
theorem C74_trusted_majority [DecidableEq α] (calls : List (α × α × α)) (a b c v : α) :
    let h := runHealth same {} calls
    ((a = v ∧ b = v ∧ 2 * (h.h0 + h.h1) > 3 * h.h2) ∨ (a = v ∧ c = v ∧ 2 * (h.h0 + h.h2) > 3 * h.h1) ∨
      (b = v ∧ c = v ∧ 2 * (h.h1 + h.h2) > 3 * h.h0)) →
    (execHealth same h a b c).1.value = v := by
  intro h hyp
  have hr : InRange h := C74_score_range same calls
  obtain ⟨⟨l0, u0⟩, ⟨l1, u1⟩, ⟨l2, u2⟩⟩ := hr
  have ht : 0 < h.h0 + h.h1 + h.h2 := by linarith
  unfold execHealth
  simp only [same, Bool.and_eq_true, decide_eq_true_eq]
  rcases hyp with ⟨h1, h2, h3⟩ | ⟨h1, h2, h3⟩ | ⟨h1, h2, h3⟩
  · subst h1; subst h2
    split
    · rfl
    · rw [if_pos rfl, if_pos (share ht h3)]
  · subst h1; subst h2
    by_cases hb : c = b
    · rw [if_pos ⟨hb, rfl⟩]
    · rw [if_neg (fun e => hb e.1), if_neg hb, if_pos rfl, if_pos]
      have e : h.h0 + h.h1 + h.h2 = h.h0 + h.h2 + h.h1 := by ring
      rw [e]; exact share (by linarith) h3
  · subst h1; subst h2
    by_cases ha : a = c
    · rw [if_pos ⟨ha, ha⟩]; exact ha
    · rw [if_neg (fun e => ha e.1), if_neg ha, if_neg ha, if_pos rfl, if_pos]
      have e : h.h0 + h.h1 + h.h2 = h.h1 + h.h2 + h.h0 := by ring
      rw [e]; exact share (by linarith) h3

/-- The three runs of a call in which only run `k` may be corrupted: the correct value and the result of run `k`. -/
def place (k : Fin 3) (v x : α) : α × α × α :=
  match k with
  | 0 => (x, v, v)
  | 1 => (v, x, v)
  | 2 => (v, v, x)

/-- Scores reachable while only run `k` is ever corrupted. -/
def OnlyBad (k : Fin 3) (h : Health) : Prop :=
  match k with
  | 0 => (1 / 10 ≤ h.h0 ∧ h.h0 ≤ 1) ∧ h.h1 = 1 ∧ h.h2 = 1
  | 1 => h.h0 = 1 ∧ (1 / 10 ≤ h.h1 ∧ h.h1 ≤ 1) ∧ h.h2 = 1
  | 2 => h.h0 = 1 ∧ h.h1 = 1 ∧ (1 / 10 ≤ h.h2 ∧ h.h2 ≤ 1)

theorem onlyBad_exec [DecidableEq α] (k : Fin 3) (h : Health) (hh : OnlyBad k h) (v x : α) :
    OnlyBad k (execHealth same h (place k v x).1 (place k v x).2.1 (place k v x).2.2).2 := by
  match k with
  | 0 =>
    obtain ⟨⟨l, u⟩, e1, e2⟩ := hh
    unfold execHealth place
    by_cases hx : x = v
    · simp only [hx, same, decide_true, Bool.and_self, if_true]; exact ⟨⟨l, u⟩, e1, e2⟩
    · simp only [same, hx, decide_false, Bool.false_and, Bool.false_eq_true, if_false, decide_true, if_true]
      split
      · exact ⟨worse_range ⟨l, u⟩, e1, e2⟩
      · exact ⟨⟨l, u⟩, e1, e2⟩
  | 1 =>
    obtain ⟨e1, ⟨l, u⟩, e2⟩ := hh
    unfold execHealth place
    by_cases hx : v = x
    · simp only [← hx, same, decide_true, Bool.and_self, if_true]; exact ⟨e1, ⟨l, u⟩, e2⟩
    · simp only [same, hx, decide_false, Bool.false_and, Bool.false_eq_true, if_false, decide_true, if_true]
      split
      · exact ⟨e1, worse_range ⟨l, u⟩, e2⟩
      · exact ⟨e1, ⟨l, u⟩, e2⟩
  | 2 =>
    obtain ⟨e1, e2, l, u⟩ := hh
    unfold execHealth place
    by_cases hx : v = x
    · simp only [← hx, same, decide_true, Bool.and_self, if_true]; exact ⟨e1, e2, l, u⟩
    · simp only [same, hx, decide_false, Bool.and_false, Bool.false_eq_true, if_false, decide_true, if_true]
      split
      · exact ⟨e1, e2, worse_range ⟨l, u⟩⟩
      · exact ⟨e1, e2, l, u⟩

/-- **C74 (one bad component, partial).** If in the whole life of the object only run number `k` is ever corrupted (in any
calls, to any values), every call returns the correct value.  Missing: faults in different runs at different times, see
`C74_majority_outvoted_violated`. -/
theorem C74_one_bad_component_partial [DecidableEq α] (k : Fin 3) (hist : List (α × α)) (v x : α) :
    (execHealth same (runHealth same {} (hist.map fun p => place k p.1 p.2)) (place k v x).1 (place k v x).2.1
      (place k v x).2.2).1.value = v := by
  have key : ∀ h, OnlyBad k h → OnlyBad k (runHealth same h (hist.map fun p => place k p.1 p.2)) := by
    unfold runHealth
    induction hist with
    | nil => intro h hh; exact hh
    | cons p l ih => intro h hh; exact ih _ (onlyBad_exec k h hh p.1 p.2)
  have h0 : OnlyBad k {} := by
    match k with
    | 0 => exact ⟨by norm_num, rfl, rfl⟩
    | 1 => exact ⟨rfl, by norm_num, rfl⟩
    | 2 => exact ⟨rfl, rfl, by norm_num⟩
  have hk := key {} h0
  apply C74_trusted_majority
  match k with
  | 0 =>
    obtain ⟨⟨l, u⟩, e1, e2⟩ := hk
    exact Or.inr (Or.inr ⟨rfl, rfl, by rw [e1, e2]; linarith⟩)
  | 1 =>
    obtain ⟨e1, ⟨l, u⟩, e2⟩ := hk
    exact Or.inr (Or.inl ⟨rfl, rfl, by rw [e1, e2]; linarith⟩)
  | 2 =>
    obtain ⟨e1, e2, l, u⟩ := hk
    exact Or.inl ⟨rfl, rfl, by rw [e1, e2]; linarith⟩

theorem bad0 [DecidableEq α] (h : Health) (hh : OnlyBad 0 h) (v x : α) (hx : x ≠ v) :
    (execHealth same h x v v).2 = { h with h0 := worse h.h0 } := by
  obtain ⟨⟨l0, u0⟩, e1, e2⟩ := hh
  have ht : 0 < h.h0 + h.h1 + h.h2 := by rw [e1, e2]; linarith
  have wbc : h.h1 / (h.h0 + h.h1 + h.h2) + h.h2 / (h.h0 + h.h1 + h.h2) > 6 / 10 := by
    rw [← add_div, gt_iff_lt, lt_div_iff₀ ht, e1, e2]; linarith
  unfold execHealth
  simp only [same, hx, decide_false, Bool.false_and, Bool.false_eq_true, if_false, decide_true, if_true, wbc]

/-- **C74 (majority outvoted, violated).** Four corrupted results of run 0 (in four calls, all masked) are enough: when in the
next call run 1 alone is corrupted to any `y`, `execute` returns the corrupted `y` although runs 0 and 2 agree on the
correct value. -/
theorem C74_majority_outvoted_violated [DecidableEq α] (v x y : α) (hx : x ≠ v) (hy : y ≠ v) :
    (execHealth same (runHealth same {} (List.replicate 4 (x, v, v))) v y v).1.value = y := by
  have h0 : OnlyBad 0 {} := ⟨by norm_num, rfl, rfl⟩
  have hw : ∀ q : ℚ, 1 / 10 ≤ q ∧ q ≤ 1 → OnlyBad 0 ⟨q, 1, 1⟩ := fun q hq => ⟨hq, rfl, rfl⟩
  have e : runHealth same {} (List.replicate 4 (x, v, v)) = ⟨4096 / 10000, 1, 1⟩ := by
    show (execHealth same (execHealth same (execHealth same (execHealth same {} x v v).2 x v v).2 x v v).2 x v v).2 = _
    have w1 : worse 1 = 8 / 10 := by unfold worse; norm_num
    have w2 : worse (8 / 10) = 64 / 100 := by unfold worse; norm_num
    have w3 : worse (64 / 100) = 512 / 1000 := by unfold worse; norm_num
    have w4 : worse (512 / 1000) = 4096 / 10000 := by unfold worse; norm_num
    have s1 : (execHealth same ({} : Health) x v v).2 = ⟨8 / 10, 1, 1⟩ := by
      rw [bad0 _ h0 v x hx]; simp only [w1]
    have s2 : (execHealth same (⟨8 / 10, 1, 1⟩ : Health) x v v).2 = ⟨64 / 100, 1, 1⟩ := by
      rw [bad0 _ (hw _ (by norm_num)) v x hx]; simp only [w2]
    have s3 : (execHealth same (⟨64 / 100, 1, 1⟩ : Health) x v v).2 = ⟨512 / 1000, 1, 1⟩ := by
      rw [bad0 _ (hw _ (by norm_num)) v x hx]; simp only [w3]
    have s4 : (execHealth same (⟨512 / 1000, 1, 1⟩ : Health) x v v).2 = ⟨4096 / 10000, 1, 1⟩ := by
      rw [bad0 _ (hw _ (by norm_num)) v x hx]; simp only [w4]
    rw [s1, s2, s3, s4]
  rw [e]
  unfold execHealth healthiest
  have hvy : ¬ v = y := fun h => hy h.symm
  simp only [same, hvy, decide_false, Bool.false_and, Bool.false_eq_true, if_false, decide_true, if_true]
  rw [if_neg (by norm_num)]
  simp only
  rw [if_neg (by norm_num), if_pos (by norm_num)]

/-- The hypotheses are met by byte values. -/
example : (execHealth same (runHealth same {} (List.replicate 4 ((9 : Nat), 5, 5))) 5 7 5).1.value = 7 :=
  C74_majority_outvoted_violated 5 9 7 (by decide) (by decide)

end Verif.Props.StratP
