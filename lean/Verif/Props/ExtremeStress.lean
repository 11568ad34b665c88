import Verif.Model.ExtremeStress
import Verif.Spec.Bits
import Mathlib.Tactic.Linarith
import Mathlib.Tactic.NormNum
import Mathlib.Tactic.Positivity
import Mathlib.Tactic.Ring
import Mathlib.Tactic.FinCases
import Mathlib.Data.Fintype.Basic
import Mathlib.Data.List.Induction
/-!
Properties C338-C346: the voters, the environment and the stress test of /repo/examples/enhanced_features_test/extreme_stress_test.cpp.
-/
namespace Verif.Props.Extreme
open Verif Verif.Spec Verif.Extreme

/-! ### C338: votes -/

/-- C338: `BasicTMR` reads the value two copies agree on. -/
theorem C338_basic (c : Copies) (x : V) (h : TwoAgree x (c 0) (c 1) (c 2)) : basicGet c = x := by
  unfold basicGet
  rcases h with ⟨a, b⟩ | ⟨a, b⟩ | ⟨a, b⟩
  · rw [if_pos (by rw [a, b]), a]
  · split_ifs with h1 <;> simp_all
  · split_ifs with h1 h2 <;> simp_all

example : basicGet (fun | 0 => 7 | 1 => 42 | 2 => 42) = 42 := by decide +kernel

/-- C338: `HealthWeightedTMR` reads the value two copies agree on, whatever the health scores. -/
theorem C338_health (s : HW) (x : V) (h : TwoAgree x (s.copies 0) (s.copies 1) (s.copies 2)) : s.get.1 = x := by
  unfold HW.get
  dsimp only
  rcases h with ⟨a, b⟩ | ⟨a, b⟩ | ⟨a, b⟩
  · rw [if_pos (by left; rw [a, b])]; exact a
  · rw [if_pos (by right; rw [a, b])]; exact a
  · split_ifs with h1 h2 <;> simp_all

example : (HW.get ⟨fun | 0 => 7 | 1 => 42 | 2 => 42, fun | 0 => 1 | _ => 1 / 10⟩).1 = 42 := by decide +kernel

/-- C338: `ApproximateTMR` reads the value two copies agree on, whatever the kinds of approximation. -/
theorem C338_approximate (s : AT) (x : V) (h : TwoAgree x (s.copies 0) (s.copies 1) (s.copies 2)) : s.get = x := by
  unfold AT.get
  dsimp only
  rcases h with ⟨a, b⟩ | ⟨a, b⟩ | ⟨a, b⟩
  · rw [if_pos (by rw [a, b])]; exact a
  · by_cases h1 : s.copies 0 = s.copies 1
    · rw [if_pos h1]; exact a
    · rw [if_neg h1, if_pos (by rw [a, b])]; exact a
  · by_cases h1 : s.copies 0 = s.copies 1
    · rw [if_pos h1, h1]; exact a
    · by_cases h2 : s.copies 0 = s.copies 2
      · rw [if_neg h1, if_pos h2, h2]; exact b
      · rw [if_neg h1, if_neg h2, if_pos (by rw [a, b])]; exact a

example : AT.get ⟨fun | 0 => 7 | 1 => 42 | 2 => 42, defaultTypes⟩ = 42 := by decide +kernel

/-- C338: when all three differ, `BasicTMR` reads the first copy, `HealthWeightedTMR` the first copy of the highest health, `ApproximateTMR` the first exact copy. -/
theorem C338_no_majority (c : Copies) (h01 : c 0 ≠ c 1) (h02 : c 0 ≠ c 2) (h12 : c 1 ≠ c 2) :
    basicGet c = c 0 ∧
    (∀ health : Fin 3 → ℚ, ∃ k, (HW.get ⟨c, health⟩).1 = c k ∧ (∀ j, health j ≤ health k) ∧ ∀ j, j < k → health j < health k) ∧
    (∀ (t : Fin 3 → Approx) (k : Fin 3), t k = .exact → (∀ j, j < k → t j ≠ .exact) → AT.get ⟨c, t⟩ = c k) := by
  refine ⟨?_, ?_, ?_⟩
  · unfold basicGet; rw [if_neg h01, if_neg h02, if_neg h12]
  · intro health
    refine ⟨HW.best ⟨c, health⟩, ?_, ?_, ?_⟩
    · unfold HW.get; dsimp only
      rw [if_neg (by rintro (h | h) <;> contradiction), if_neg h12]
    · intro j
      unfold HW.best; dsimp only
      fin_cases j <;> split_ifs <;> simp_all <;> linarith
    · intro j
      unfold HW.best; dsimp only
      fin_cases j <;> split_ifs <;> simp_all <;> linarith
  · intro t k hk hj
    unfold AT.get; dsimp only
    rw [if_neg h01, if_neg h02, if_neg h12]
    fin_cases k
    · exact if_pos hk
    · rw [if_neg (hj 0 (by decide))]; exact if_pos hk
    · rw [if_neg (hj 0 (by decide)), if_neg (hj 1 (by decide))]; exact if_pos hk

example : basicGet (fun | 0 => 1 | 1 => 2 | 2 => 3) = 1 ∧ (HW.get ⟨fun | 0 => 1 | 1 => 2 | 2 => 3, fun | 0 => 1 / 2 | _ => 1⟩).1 = 2 := by decide +kernel

/-! ### C339: health -/

theorem update_same (s : HW) (i : Fin 3) (b : Bool) : (s.update i b).health i = if b then min 1 (s.health i + 1 / 20) else max (1 / 10) (s.health i - 1 / 5) := by
  unfold HW.update; dsimp only; rw [if_pos rfl]

theorem update_other (s : HW) (i j : Fin 3) (b : Bool) (h : j ≠ i) : (s.update i b).health j = s.health j := by
  unfold HW.update; dsimp only; rw [if_neg h]

theorem update_copies (s : HW) (i : Fin 3) (b : Bool) : (s.update i b).copies = s.copies := rfl

theorem three (s : HW) (b0 b1 b2 : Bool) (j : Fin 3) :
    (((s.update 0 b0).update 1 b1).update 2 b2).health j =
      if (match j with | 0 => b0 | 1 => b1 | 2 => b2) then min 1 (s.health j + 1 / 20) else max (1 / 10) (s.health j - 1 / 5) := by
  fin_cases j
  · change (((s.update 0 b0).update 1 b1).update 2 b2).health 0 = _
    rw [update_other _ _ _ _ (by decide), update_other _ _ _ _ (by decide), update_same]
    rfl
  · change (((s.update 0 b0).update 1 b1).update 2 b2).health 1 = _
    rw [update_other _ _ _ _ (by decide), update_same, update_other _ _ _ _ (by decide)]
    rfl
  · change (((s.update 0 b0).update 1 b1).update 2 b2).health 2 = _
    rw [update_same, update_other _ _ _ _ (by decide), update_other _ _ _ _ (by decide)]
    rfl

/-- C339: a read in which two copies agree on `x` rewards every copy holding `x` by 0.05 up to 1 and punishes every other one by 0.2 down to 0.1; a read never changes a copy. -/
theorem C339_reward (s : HW) (x : V) (h : TwoAgree x (s.copies 0) (s.copies 1) (s.copies 2)) :
    s.get.2.copies = s.copies ∧
    ∀ j, s.get.2.health j = if s.copies j = x then min 1 (s.health j + 1 / 20) else max (1 / 10) (s.health j - 1 / 5) := by
  have hx := C338_health s x h
  unfold HW.get at hx ⊢
  dsimp only at hx ⊢
  by_cases h1 : s.copies 0 = s.copies 1
  · rw [if_pos (Or.inl h1)] at hx ⊢
    dsimp only at hx ⊢
    rw [if_pos h1]
    refine ⟨rfl, fun j => ?_⟩
    rw [three]
    fin_cases j <;> simp_all
  · by_cases h2 : s.copies 0 = s.copies 2
    · rw [if_pos (Or.inr h2)] at hx ⊢
      dsimp only at hx ⊢
      rw [if_neg h1]
      refine ⟨rfl, fun j => ?_⟩
      rw [three]
      fin_cases j <;> simp_all
    · rw [if_neg (by rintro (h | h) <;> contradiction)] at hx ⊢
      by_cases h3 : s.copies 1 = s.copies 2
      · rw [if_pos h3] at hx ⊢
        dsimp only at hx ⊢
        refine ⟨rfl, fun j => ?_⟩
        rw [three]
        fin_cases j <;> simp_all
      · exfalso
        rcases h with ⟨a, b⟩ | ⟨a, b⟩ | ⟨a, b⟩ <;> simp_all

example : (HW.get ⟨fun | 0 => 7 | 1 => 42 | 2 => 42, fun | 0 => 1 | _ => 1 / 2⟩).2.health 0 = 4 / 5 ∧ (HW.get ⟨fun | 0 => 7 | 1 => 42 | 2 => 42, fun | 0 => 1 | _ => 1 / 2⟩).2.health 1 = 11 / 20 := by decide +kernel

/-- C339: a read without majority changes nothing. -/
theorem C339_unchanged (s : HW) (h01 : s.copies 0 ≠ s.copies 1) (h02 : s.copies 0 ≠ s.copies 2) (h12 : s.copies 1 ≠ s.copies 2) : s.get.2 = s := by
  unfold HW.get; dsimp only
  rw [if_neg (by rintro (h | h) <;> contradiction), if_neg h12]

/-- The operations of the interface. -/
inductive Op
  | get
  | set (v : V)
  | repair
  | corrupt (i : Nat) (v : V)

/-- The effect of one operation. -/
def Op.step (s : HW) : Op → HW
  | .get => s.get.2
  | .set v => s.set v
  | .repair => s.repair
  | .corrupt i v => hw.corrupt s i v

theorem decide_majority (c : Copies) : (∃ x, TwoAgree x (c 0) (c 1) (c 2)) ∨ (c 0 ≠ c 1 ∧ c 0 ≠ c 2 ∧ c 1 ≠ c 2) := by
  by_cases h1 : c 0 = c 1
  · exact .inl ⟨c 0, .inl ⟨rfl, h1.symm⟩⟩
  by_cases h2 : c 0 = c 2
  · exact .inl ⟨c 0, .inr (.inl ⟨rfl, h2.symm⟩)⟩
  by_cases h3 : c 1 = c 2
  · exact .inl ⟨c 1, .inr (.inr ⟨rfl, h3.symm⟩)⟩
  exact .inr ⟨h1, h2, h3⟩

theorem get_range (s : HW) (h : ∀ j, 1 / 10 ≤ s.health j ∧ s.health j ≤ 1) (j : Fin 3) : 1 / 10 ≤ s.get.2.health j ∧ s.get.2.health j ≤ 1 := by
  rcases decide_majority s.copies with ⟨x, hx⟩ | ⟨a, b, c⟩
  · rw [(C339_reward s x hx).2 j]
    obtain ⟨h1, h2⟩ := h j
    split_ifs
    · exact ⟨le_min (by norm_num) (by linarith), min_le_left _ _⟩
    · exact ⟨le_max_left _ _, max_le (by norm_num) (by linarith)⟩
  · rw [C339_unchanged s a b c]; exact h j

/-- C339: after every history of operations on a new object every health score is between 0.1 and 1. -/
theorem C339_range (v : V) (ops : List Op) (j : Fin 3) :
    1 / 10 ≤ (ops.foldl Op.step (HW.new v)).health j ∧ (ops.foldl Op.step (HW.new v)).health j ≤ 1 := by
  have key : ∀ (ops : List Op) (s : HW), (∀ j, 1 / 10 ≤ s.health j ∧ s.health j ≤ 1) → ∀ j, 1 / 10 ≤ (ops.foldl Op.step s).health j ∧ (ops.foldl Op.step s).health j ≤ 1 := by
    intro ops
    induction ops with
    | nil => intro s h; exact h
    | cons o os ih =>
      intro s h
      rw [List.foldl_cons]
      refine ih _ ?_
      intro j
      cases o with
      | get => exact get_range s h j
      | set v => exact ⟨by norm_num [Op.step, HW.set], by norm_num [Op.step, HW.set]⟩
      | repair => exact get_range s h j
      | corrupt i v => exact h j
  refine key ops _ ?_ j
  intro j; norm_num [HW.new]

example : ([Op.corrupt 0 7, .get, .get, .get, .get, .get, .get].foldl Op.step (HW.new 42)).health 0 = 1 / 10 := by decide +kernel

/-! ### C340: approximate copies -/

theorem toInt_of_nonneg {v : V} (h : 0 ≤ v.toInt) : v.toInt = v.toNat ∧ v.toNat < 2 ^ 31 := by
  rw [BitVec.toInt_eq_toNat_cond] at h ⊢
  have := v.isLt
  split_ifs at h ⊢ with h1
  · exact ⟨rfl, by omega⟩
  · omega

theorem reduce_ok {v : V} (h : 0 ≤ v.toInt) : ∃ r : V, reduce v = .ok r ∧ r.toNat = v.toNat / 8 * 8 := by
  obtain ⟨_, h2⟩ := toInt_of_nonneg h
  refine ⟨_, by unfold reduce; rw [if_neg (by omega)], ?_⟩
  have hm : v.msb = false := by
    rw [BitVec.msb_eq_false_iff_two_mul_lt]; omega
  rw [BitVec.sshiftRight_eq_of_msb_false hm, BitVec.toNat_shiftLeft, BitVec.toNat_ushiftRight, Nat.shiftRight_eq_div_pow, Nat.shiftLeft_eq]
  omega

theorem limit_nat {v : V} (h : 0 ≤ v.toInt) : (limit v).toNat = min v.toNat 1073741823 := by
  obtain ⟨h1, h2⟩ := toInt_of_nonneg h
  unfold limit
  dsimp only
  rw [h1, BitVec.toNat_ofInt]
  omega

/-- C340: limiting the range leaves a value within half the maximum of `int` alone, and takes a larger or smaller one to that bound, of its own sign. -/
theorem C340_limit_value (v : V) : (limit v).toInt = if 1073741823 < v.toInt then 1073741823 else if v.toInt < -1073741823 then -1073741823 else v.toInt := by
  unfold limit
  have h1 := @BitVec.toInt_lt 32 v
  have h2 := @BitVec.le_toInt 32 v
  norm_num at h1 h2
  rw [BitVec.toInt_ofInt]
  norm_num
  have h : (max (min v.toInt 1073741823) (-1073741823)).bmod 4294967296 = max (min v.toInt 1073741823) (-1073741823) := by
    apply Int.bmod_eq_of_le <;> norm_num <;> omega
  rw [h]
  split_ifs <;> omega

/-- C340: storing a value that is not negative succeeds; the first copy is the value, the second the next lower multiple of 8, the third the value limited to half the maximum; and reading gives the value back. -/
theorem C340_store (s : AT) (ht : s.types = defaultTypes) (v : V) (h : 0 ≤ v.toInt) :
    ∃ s', s.set v = .ok s' ∧ s'.types = defaultTypes ∧ (s'.copies 0).toInt = v.toInt ∧ ((s'.copies 1).toNat = v.toInt / 8 * 8) ∧
      ((s'.copies 2).toNat : Int) = min v.toInt 1073741823 ∧ s'.get = v := by
  obtain ⟨r, hr, hn⟩ := reduce_ok h
  obtain ⟨h1, h2⟩ := toInt_of_nonneg h
  have hl := limit_nat h
  refine ⟨{ s with copies := fun | 0 => v | 1 => r | 2 => limit v }, ?_, ht, rfl, ?_, ?_, ?_⟩
  · unfold AT.set
    rw [ht]
    simp only [defaultTypes, approximate, Outcome.bind, hr]
    rfl
  · change (r.toNat : Int) = _
    rw [h1]; omega
  · change ((limit v).toNat : Int) = _
    rw [h1]; omega
  · unfold AT.get
    dsimp only
    rw [ht]
    by_cases a : v = r
    · rw [if_pos a]
    · rw [if_neg a]
      by_cases b : v = limit v
      · rw [if_pos b]
      · rw [if_neg b]
        by_cases c : r = limit v
        · exfalso
          have : r.toNat = (limit v).toNat := by rw [c]
          apply b
          apply BitVec.eq_of_toNat_eq
          omega
        · rw [if_neg c, if_pos (by decide)]

example : (0 : Int) ≤ (42 : V).toInt ∧ (AT.new 42 defaultTypes).bind (fun s => .ok (s.copies 1, s.get)) = .ok (40, 42) := by decide +kernel

/-- C340: storing a negative value is undefined behaviour: its second copy shifts a negative number to the left. -/
theorem C340_negative_violated (v : V) (h : v.toInt < 0) : AT.new v defaultTypes = .ub := by
  have hr : reduce v = .ub := by unfold reduce; rw [if_pos h]
  unfold AT.new AT.set
  simp only [defaultTypes, approximate, Outcome.bind, hr]

example : (-42 : V).toInt < 0 := by decide +kernel

theorem new_eq (v : V) (h : 0 ≤ v.toInt) : ∃ r : V, r.toNat = v.toNat / 8 * 8 ∧ AT.new v defaultTypes = .ok ⟨fun | 0 => v | 1 => r | 2 => limit v, defaultTypes⟩ := by
  obtain ⟨r, hr, hn⟩ := reduce_ok h
  refine ⟨r, hn, ?_⟩
  unfold AT.new AT.set
  simp only [defaultTypes, approximate, Outcome.bind, hr]
  rfl

/-- C340: a multiple of 8 up to half the maximum is held in three equal copies, so an arbitrary fault in one of them is outvoted. -/
theorem C340_masked (v : V) (h : 0 ≤ v.toInt) (h8 : v.toInt % 8 = 0) (hl : v.toInt ≤ 1073741823) :
    ∃ s, AT.new v defaultTypes = .ok s ∧ (∀ j, s.copies j = v) ∧ ∀ k x, (approx.get (approx.corrupt s k x)).1 = v := by
  obtain ⟨r, hn, he⟩ := new_eq v h
  obtain ⟨h1, h2⟩ := toInt_of_nonneg h
  have hl' := limit_nat h
  have er : r = v := BitVec.eq_of_toNat_eq (by omega)
  have el : limit v = v := BitVec.eq_of_toNat_eq (by omega)
  have hc : ∀ j, (AT.copies ⟨fun | 0 => v | 1 => r | 2 => limit v, defaultTypes⟩) j = v := by
    intro j; fin_cases j
    · rfl
    · exact er
    · exact el
  refine ⟨_, he, hc, fun k x => ?_⟩
  generalize AT.mk (fun | 0 => v | 1 => r | 2 => limit v) defaultTypes = s at hc
  refine C338_approximate _ v ?_
  change TwoAgree v (Extreme.corrupt s.copies k x 0) (Extreme.corrupt s.copies k x 1) (Extreme.corrupt s.copies k x 2)
  unfold Extreme.corrupt
  rw [hc 0, hc 1, hc 2]
  by_cases k0 : 0 = k
  · subst k0; exact .inr (.inr ⟨by simp, by simp⟩)
  · by_cases k1 : 1 = k
    · subst k1; exact .inr (.inl ⟨by simp, by simp⟩)
    · exact .inl ⟨by simp [k0], by simp [k1]⟩

example : (0 : Int) ≤ (40 : V).toInt ∧ (40 : V).toInt % 8 = 0 ∧ (40 : V).toInt ≤ 1073741823 := by decide +kernel

/-- C340: for every other value of that range - the 42 of the test among them - a fault in the first copy is never outvoted: whatever it turns into is what is read; and a fault making the third copy equal to the rounded second one goes through as well. -/
theorem C340_exposed_violated (v : V) (h : 0 ≤ v.toInt) (h8 : v.toInt % 8 ≠ 0) (hl : v.toInt ≤ 1073741823) :
    ∃ s, AT.new v defaultTypes = .ok s ∧ (∀ x, x ≠ v → (approx.get (approx.corrupt s 0 x)).1 = x) ∧
      ∃ x, x ≠ v ∧ (approx.get (approx.corrupt s 2 x)).1 = x := by
  obtain ⟨r, hn, he⟩ := new_eq v h
  obtain ⟨h1, h2⟩ := toInt_of_nonneg h
  have hl' := limit_nat h
  have er : r ≠ v := by
    intro e
    have : r.toNat = v.toNat := by rw [e]
    omega
  have el : limit v = v := BitVec.eq_of_toNat_eq (by omega)
  refine ⟨_, he, fun x hx => ?_, r, er, ?_⟩
  · change AT.get ⟨Extreme.corrupt (fun | 0 => v | 1 => r | 2 => limit v) 0 x, defaultTypes⟩ = x
    have e0 : Extreme.corrupt (fun | 0 => v | 1 => r | 2 => limit v) 0 x 0 = x := rfl
    have e1 : Extreme.corrupt (fun | 0 => v | 1 => r | 2 => limit v) 0 x 1 = r := rfl
    have e2 : Extreme.corrupt (fun | 0 => v | 1 => r | 2 => limit v) 0 x 2 = limit v := rfl
    unfold AT.get
    dsimp only
    rw [e0, e1, e2, el]
    by_cases a : x = r
    · rw [if_pos a]
    · rw [if_neg a, if_neg hx, if_neg er, if_pos (by decide)]
  · change AT.get ⟨Extreme.corrupt (fun | 0 => v | 1 => r | 2 => limit v) 2 r, defaultTypes⟩ = r
    have e0 : Extreme.corrupt (fun | 0 => v | 1 => r | 2 => limit v) 2 r 0 = v := rfl
    have e1 : Extreme.corrupt (fun | 0 => v | 1 => r | 2 => limit v) 2 r 1 = r := rfl
    have e2 : Extreme.corrupt (fun | 0 => v | 1 => r | 2 => limit v) 2 r 2 = r := rfl
    exact C338_approximate _ r (.inr (.inr ⟨e1, e2⟩))

example : (0 : Int) ≤ (42 : V).toInt ∧ (42 : V).toInt % 8 ≠ 0 ∧ (42 : V).toInt ≤ 1073741823 := by decide +kernel

/-! ### C341: the effect of an event -/

theorem getLsbD_flipAt (v : V) (byte bit j : Nat) (hb : bit < 8) (hj : j < 32) :
    (flipAt v byte bit).getLsbD j = (v.getLsbD j ^^ decide (8 * byte + bit = j)) := by
  unfold flipAt
  split_ifs with h
  · rw [BitVec.getLsbD_xor, BitVec.getLsbD_twoPow]
    have : 8 * byte + bit < 32 := by omega
    simp [this]
  · have : ¬ 8 * byte + bit = j := by omega
    simp [this]

/-- C341: a single bit flip inverts the bit at its position and no other. -/
theorem C341_single (v : V) (e : Event) (one : Bool) (pos : Nat → Nat) (h : e.type = .single) (j : Nat) (hj : j < 32) :
    (applyEvent v e one pos).getLsbD j = (v.getLsbD j ^^ decide (j = e.bit)) := by
  unfold applyEvent
  rw [h]
  dsimp only
  rw [getLsbD_flipAt v _ _ j (Nat.mod_lt _ (by decide)) hj, Nat.div_add_mod]
  congr 1
  simp [eq_comm]

example : applyEvent 42 ⟨.single, 0, 31, 1⟩ true id = 42 + 2 ^ 31 := by decide +kernel

theorem multi_bits (v : V) (b n j : Nat) (hj : j < 32) :
    (forN n (fun i c => if b % 8 + i < 8 then flipAt c (b / 8) (b % 8 + i) else c) v).getLsbD j =
      (v.getLsbD j ^^ decide (b ≤ j ∧ j < b + n ∧ j < 8 * (b / 8) + 8)) := by
  induction n with
  | zero =>
    have : ¬ (b ≤ j ∧ j < b + 0 ∧ j < 8 * (b / 8) + 8) := by omega
    rw [decide_eq_false this]; simp [forN]
  | succ n ih =>
    rw [forN]
    split_ifs with h
    · rw [getLsbD_flipAt _ _ _ j h hj, ih]
      by_cases a : j = b + n
      · have h1 : ¬ (b ≤ j ∧ j < b + n ∧ j < 8 * (b / 8) + 8) := by omega
        have h2 : b ≤ j ∧ j < b + (n + 1) ∧ j < 8 * (b / 8) + 8 := by omega
        have h3 : 8 * (b / 8) + (b % 8 + n) = j := by omega
        rw [decide_eq_false h1, decide_eq_true h2, decide_eq_true h3]; simp
      · have h3 : ¬ 8 * (b / 8) + (b % 8 + n) = j := by omega
        rw [decide_eq_false h3, Bool.xor_false]
        congr 1
        exact decide_eq_decide.mpr (by omega)
    · rw [ih]
      congr 1
      exact decide_eq_decide.mpr (by omega)

/-- C341: a multi-bit upset inverts the announced number of consecutive bits from its position on, as far as they lie in the same byte. -/
theorem C341_multi (v : V) (e : Event) (one : Bool) (pos : Nat → Nat) (h : e.type = .multi) (hn : e.bit % 8 + e.num ≤ 8) (j : Nat) (hj : j < 32) :
    (applyEvent v e one pos).getLsbD j = (v.getLsbD j ^^ decide (e.bit ≤ j ∧ j < e.bit + e.num)) := by
  unfold applyEvent
  rw [h]
  dsimp only
  rw [multi_bits v _ _ j hj]
  congr 1
  exact decide_eq_decide.mpr (by omega)

example : applyEvent 0 ⟨.multi, 0, 4, 4⟩ true id = 240 := by decide +kernel

/-- C341: an upset reaching beyond its byte is cut off there: at the last bit of a byte every upset is a single bit flip, whatever number it announces. -/
theorem C341_multi_violated (v : V) (e : Event) (one : Bool) (pos : Nat → Nat) (h : e.type = .multi) (h8 : e.bit % 8 = 7) (hn : 1 ≤ e.num) :
    applyEvent v e one pos = applyEvent v { e with type := .single } one pos := by
  refine BitVec.eq_of_getLsbD_eq fun j hj => ?_
  rw [C341_single v { e with type := .single } one pos rfl j hj]
  unfold applyEvent
  rw [h]
  dsimp only
  rw [multi_bits v _ _ j hj]
  congr 1
  exact decide_eq_decide.mpr (by omega)

example : applyEvent 0 ⟨.multi, 0, 7, 4⟩ true id = 128 := by decide +kernel

/-- C341: a stuck bit gives the bit at its position the drawn value and leaves the others; so it changes nothing exactly when the bit had that value already. -/
theorem C341_stuck (v : V) (e : Event) (one : Bool) (pos : Nat → Nat) (h : e.type = .stuck) (hb : e.bit < 32) :
    (∀ j, j < 32 → (applyEvent v e one pos).getLsbD j = if j = e.bit then one else v.getLsbD j) ∧
    (applyEvent v e one pos = v ↔ v.getLsbD e.bit = one) := by
  have key : ∀ j, j < 32 → (applyEvent v e one pos).getLsbD j = if j = e.bit then one else v.getLsbD j := by
    intro j hj
    unfold applyEvent
    rw [h]
    dsimp only
    rw [if_pos (by omega), Nat.div_add_mod]
    cases one
    · rw [if_neg (by decide), BitVec.getLsbD_and, BitVec.getLsbD_not, BitVec.getLsbD_twoPow]
      by_cases a : j = e.bit
      · subst a; simp [hj]
      · have a' : ¬ e.bit = j := fun h => a h.symm
        simp [a, a', hj]
    · rw [if_pos rfl, BitVec.getLsbD_or, BitVec.getLsbD_twoPow]
      by_cases a : j = e.bit
      · subst a; simp [hj]
      · have a' : ¬ e.bit = j := fun h => a h.symm
        simp [a, a']
  refine ⟨key, fun he => ?_, fun he => ?_⟩
  · have := key e.bit hb
    rw [he, if_pos rfl] at this
    exact this
  · refine BitVec.eq_of_getLsbD_eq fun j hj => ?_
    rw [key j hj]
    split_ifs with a
    · rw [a, he]
    · rfl

example : applyEvent 42 ⟨.stuck, 0, 1, 1⟩ true id = 42 ∧ applyEvent 42 ⟨.stuck, 0, 1, 1⟩ false id = 40 := by decide +kernel

/-- C341: severe corruption inverts the bits drawn an odd number of times and no other. -/
theorem C341_severe (v : V) (e : Event) (one : Bool) (pos : Nat → Nat) (h : e.type = .severe) (j : Nat) (hj : j < 32) :
    (applyEvent v e one pos).getLsbD j = (v.getLsbD j ^^ decide (countTrue (fun i => decide (pos i = j)) e.num % 2 = 1)) := by
  unfold applyEvent
  rw [h]
  dsimp only
  generalize e.num = n
  induction n with
  | zero => simp [forN, countTrue]
  | succ n ih =>
    rw [forN]
    rw [getLsbD_flipAt _ _ _ j (Nat.mod_lt _ (by decide)) hj, ih, Nat.div_add_mod, countTrue]
    by_cases a : pos n = j
    · rw [decide_eq_true a, Bool.xor_assoc]
      congr 1
      by_cases b : countTrue (fun i => decide (pos i = j)) n % 2 = 1
      · have c : ¬ (countTrue (fun i => decide (pos i = j)) n + true.toNat) % 2 = 1 := by rw [Bool.toNat_true]; omega
        rw [decide_eq_true b, decide_eq_false c]; rfl
      · have c : (countTrue (fun i => decide (pos i = j)) n + true.toNat) % 2 = 1 := by rw [Bool.toNat_true]; omega
        rw [decide_eq_false b, decide_eq_true c]; rfl
    · rw [decide_eq_false a, Bool.xor_false]
      rfl

/-- C341: so severe corruption can leave the value as it is: when every position is drawn twice. -/
theorem C341_severe_limit (v : V) (e : Event) (one : Bool) (pos : Nat → Nat) (h : e.type = .severe) (m : Nat) (hn : e.num = 2 * m) (hp : ∀ i, pos (2 * i + 1) = pos (2 * i)) :
    applyEvent v e one pos = v := by
  refine BitVec.eq_of_getLsbD_eq fun j hj => ?_
  rw [C341_severe v e one pos h j hj, hn]
  have : countTrue (fun i => decide (pos i = j)) (2 * m) % 2 = 0 := by
    induction m generalizing e with
    | zero => rfl
    | succ m ih =>
      have := ih { e with num := 2 * m } h rfl
      rw [Nat.mul_succ, countTrue, countTrue, hp m]
      omega
  have c : ¬ countTrue (fun i => decide (pos i = j)) (2 * m) % 2 = 1 := by omega
  rw [decide_eq_false c, Bool.xor_false]

example : applyEvent 42 ⟨.severe, 0, 0, 8⟩ true (fun _ => 5) = 42 ∧ applyEvent 0 ⟨.severe, 0, 0, 8⟩ true id = 255 := by decide +kernel

/-! ### C342: environments -/

/-- C342: at every location the probabilities are positive and add up to 1. -/
theorem C342_probabilities (l : Location) : (∀ t, 0 < prob l t) ∧ prob l .single + prob l .multi + prob l .stuck + prob l .severe = 1 := by
  refine ⟨fun t => ?_, ?_⟩
  · cases l <;> cases t <;> norm_num [prob]
  · cases l <;> norm_num [prob]

/-- C342: the locations are listed by growing rate, and the share of plain single bit flips shrinks along the list. -/
theorem C342_order : [Location.leo, .geo, .moon, .mars, .jupiter, .flare, .extreme].Pairwise (fun a b => rate a < rate b ∧ prob b .single < prob a .single) := by
  simp only [List.pairwise_cons, List.mem_cons, List.not_mem_nil]
  refine ⟨?_, ?_, ?_, ?_, ?_, ?_, ?_, List.Pairwise.nil⟩ <;>
    (intro b hb; cases b <;> simp_all <;> norm_num [rate, prob])

/-- C342: for every roll up to 1 the type drawn is the one in whose share of the unit interval the roll lies; the default is never needed. -/
theorem C342_draw (l : Location) (roll : ℝ) (h : roll ≤ 1) :
    (errorType l roll = .single ↔ roll ≤ prob l .single) ∧
    (errorType l roll = .multi ↔ prob l .single < roll ∧ roll ≤ prob l .single + prob l .multi) ∧
    (errorType l roll = .stuck ↔ prob l .single + prob l .multi < roll ∧ roll ≤ prob l .single + prob l .multi + prob l .stuck) ∧
    (errorType l roll = .severe ↔ prob l .single + prob l .multi + prob l .stuck < roll) := by
  obtain ⟨hp, hs⟩ := C342_probabilities l
  have p1 := hp .single
  have p2 := hp .multi
  have p3 := hp .stuck
  have p4 := hp .severe
  unfold errorType errs
  simp only [pick, zero_add]
  by_cases a : roll ≤ prob l .single
  · rw [if_pos a]
    refine ⟨by simp [a], ?_, ?_, ?_⟩ <;> simp <;> intros <;> linarith
  · rw [if_neg a]
    by_cases b : roll ≤ prob l .single + prob l .multi
    · rw [if_pos b]
      refine ⟨by simp; linarith, by simp [b]; linarith, ?_, ?_⟩ <;> simp <;> intros <;> linarith
    · rw [if_neg b]
      by_cases c : roll ≤ prob l .single + prob l .multi + prob l .stuck
      · rw [if_pos c]
        refine ⟨by simp; linarith, by simp; intros; linarith, by simp [c]; linarith, by simp; linarith⟩
      · rw [if_neg c, if_pos (by linarith)]
        refine ⟨by simp; linarith, by simp; intros; linarith, by simp; intros; linarith, by simp; linarith⟩

example : errorType .leo 0.9 = .multi := (C342_draw .leo 0.9 (by norm_num)).2.1.mpr (by norm_num [prob])

/-- C342: the mean number of events is proportional to rate, duration, number of elements and factor: in the test of `main` 90 events per element. -/
theorem C342_mean (l : Location) (factor : ℝ) (n ms : Nat) :
    expectedEvents l factor n ms = rate l * factor * n * ms / 1000 ∧ expectedEvents .extreme 3 2000 15000 = 90 * 2000 := by
  refine ⟨by unfold expectedEvents; ring, by norm_num [expectedEvents, rate]⟩

/-! ### C343: accounting -/

/-- The number of events of a type. -/
def ofType (t : Err) (hs : List Hit) : Nat := hs.countP (fun h => decide (h.event.type = t))

theorem bind_ok {α β : Type} {x : Outcome α} {f : α → Outcome β} {b : β} (h : x.bind f = .ok b) : ∃ a, x = .ok a ∧ f a = .ok b := by
  cases x with
  | ok a => exact ⟨a, rfl, h⟩
  | ub => exact absurd h (by simp [Outcome.bind])

/-- What one turn does to the results. -/
theorem turn_cases {σ : Type} (w : Voter σ) (s s' : St σ) (h : Hit) (ht : turn w s h = .ok s') :
    (∀ j, j ≠ h.event.target → s'.els j = s.els j ∧ s'.expected j = s.expected j) ∧ s'.r.counts = bump s.r.counts h.event.type ∧
    ((applyEvent (w.copies (s.els h.event.target) h.copy) h.event h.one h.pos = w.copies (s.els h.event.target) h.copy ∧
        s' = { s with r := { s.r with counts := bump s.r.counts h.event.type } }) ∨
     (∃ e, w.repair (w.get (w.corrupt (s.els h.event.target) h.copy (applyEvent (w.copies (s.els h.event.target) h.copy) h.event h.one h.pos))).2 = .ok e ∧
        (w.get (w.corrupt (s.els h.event.target) h.copy (applyEvent (w.copies (s.els h.event.target) h.copy) h.event h.one h.pos))).1 ≠ s.expected h.event.target ∧
        s'.els h.event.target = (w.get e).2 ∧ s'.r.detected = s.r.detected + 1 ∧
        (((w.get e).1 = s.expected h.event.target ∧ s'.expected = s.expected ∧ s'.r.corrected = s.r.corrected + 1 ∧ s'.r.success = bump s.r.success h.event.type) ∨
         ((w.get e).1 ≠ s.expected h.event.target ∧ s'.expected h.event.target = (w.get e).1 ∧ s'.r.corrected = s.r.corrected ∧ s'.r.success = s.r.success))) ∨
     ((w.get (w.corrupt (s.els h.event.target) h.copy (applyEvent (w.copies (s.els h.event.target) h.copy) h.event h.one h.pos))).1 = s.expected h.event.target ∧
        s'.els h.event.target = (w.get (w.corrupt (s.els h.event.target) h.copy (applyEvent (w.copies (s.els h.event.target) h.copy) h.event h.one h.pos))).2 ∧
        s'.expected = s.expected ∧ s'.r.detected = s.r.detected ∧ s'.r.corrected = s.r.corrected + 1 ∧ s'.r.success = bump s.r.success h.event.type)) := by
  unfold turn at ht
  dsimp only at ht
  generalize applyEvent (w.copies (s.els h.event.target) h.copy) h.event h.one h.pos = x at ht ⊢
  by_cases a : x = w.copies (s.els h.event.target) h.copy
  · rw [if_pos a] at ht
    cases ht
    exact ⟨fun j _ => ⟨rfl, rfl⟩, rfl, .inl ⟨a, rfl⟩⟩
  · rw [if_neg a] at ht
    generalize w.get (w.corrupt (s.els h.event.target) h.copy x) = g at ht ⊢
    by_cases b : g.1 = s.expected h.event.target
    · rw [if_neg (by simpa using b)] at ht
      cases ht
      refine ⟨fun j hj => ⟨by simp [put, hj], rfl⟩, rfl, .inr (.inr ⟨b, by simp [put], rfl, rfl, rfl, rfl⟩)⟩
    · rw [if_pos b] at ht
      obtain ⟨e, he, hf⟩ := bind_ok ht
      by_cases c : (w.get e).1 = s.expected h.event.target
      · rw [if_pos c] at hf
        cases hf
        exact ⟨fun j hj => ⟨by simp [put, hj], rfl⟩, rfl, .inr (.inl ⟨e, he, b, by simp [put], rfl, .inl ⟨c, rfl, rfl, rfl⟩⟩)⟩
      · rw [if_neg c] at hf
        cases hf
        exact ⟨fun j hj => ⟨by simp [put, hj], by simp [put, hj]⟩, rfl, .inr (.inl ⟨e, he, b, by simp [put], rfl, .inr ⟨c, by simp [put], rfl, rfl⟩⟩)⟩

theorem loop_append {σ : Type} (w : Voter σ) (s : St σ) (hs : List Hit) (h : Hit) :
    loop w s (hs ++ [h]) = (loop w s hs).bind fun s => turn w s h := by
  induction hs generalizing s with
  | nil =>
    simp only [List.nil_append, loop, Outcome.bind]
    cases turn w s h <;> rfl
  | cons a l ih =>
    simp only [List.cons_append, loop]
    cases turn w s a with
    | ok s' => exact ih s'
    | ub => rfl

theorem run_append {σ : Type} (w : Voter σ) (v : V) (hs : List Hit) (h : Hit) :
    run w v (hs ++ [h]) = (run w v hs).bind fun s => turn w s h := by
  unfold run
  cases w.new v with
  | ok e => exact loop_append w _ hs h
  | ub => rfl

/-- Induction over the events of a run. -/
theorem run_induction {σ : Type} (w : Voter σ) (v : V) (P : List Hit → St σ → Prop)
    (h0 : ∀ e, w.new v = .ok e → P [] ⟨fun _ => e, fun _ => v, ⟨0, 0, fun _ => 0, fun _ => 0⟩⟩)
    (hstep : ∀ hs h s s', run w v hs = .ok s → P hs s → turn w s h = .ok s' → P (hs ++ [h]) s') :
    ∀ hs s, run w v hs = .ok s → P hs s := by
  intro hs
  induction hs using List.reverseRecOn with
  | nil =>
    intro s hr
    unfold run at hr
    obtain ⟨e, he, hl⟩ := bind_ok hr
    rw [loop] at hl
    cases hl
    exact h0 e he
  | append_singleton l a ih =>
    intro s hr
    rw [run_append] at hr
    obtain ⟨s1, h1, h2⟩ := bind_ok hr
    exact hstep l a s1 s h1 (ih s1 h1) h2

theorem ofType_append (t : Err) (hs : List Hit) (h : Hit) : ofType t (hs ++ [h]) = ofType t hs + if h.event.type = t then 1 else 0 := by
  unfold ofType
  rw [List.countP_append, List.countP_singleton]
  simp

theorem sum_types (hs : List Hit) : ofType .single hs + ofType .multi hs + ofType .stuck hs + ofType .severe hs = hs.length := by
  induction hs with
  | nil => rfl
  | cons h l ih =>
    unfold ofType at ih ⊢
    simp only [List.countP_cons, List.length_cons]
    cases h.event.type <;> simp <;> omega

/-- C343: for every voter, value and list of events whose run ends: every type is counted as often as it occurs, the successes of the types add up to the corrected errors, no type has more successes than events, and neither corrected nor detected errors exceed the events. -/
theorem C343_accounting {σ : Type} (w : Voter σ) (v : V) (hs : List Hit) (s : St σ) (hr : run w v hs = .ok s) :
    (∀ t, s.r.counts t = ofType t hs) ∧ (∀ t, s.r.success t ≤ s.r.counts t) ∧
    s.r.success .single + s.r.success .multi + s.r.success .stuck + s.r.success .severe = s.r.corrected ∧
    s.r.corrected ≤ hs.length ∧ s.r.detected ≤ hs.length := by
  have key : (∀ t, s.r.counts t = ofType t hs) ∧ (∀ t, s.r.success t ≤ s.r.counts t) ∧
      s.r.success .single + s.r.success .multi + s.r.success .stuck + s.r.success .severe = s.r.corrected ∧ s.r.detected ≤ hs.length := by
    refine run_induction w v (fun hs s => (∀ t, s.r.counts t = ofType t hs) ∧ (∀ t, s.r.success t ≤ s.r.counts t) ∧
      s.r.success .single + s.r.success .multi + s.r.success .stuck + s.r.success .severe = s.r.corrected ∧ s.r.detected ≤ hs.length) ?_ ?_ hs s hr
    · intro e _
      exact ⟨fun _ => rfl, fun _ => le_refl _, rfl, le_refl _⟩
    · rintro hs h s s' _ ⟨i1, i2, i3, i4⟩ ht
      obtain ⟨_, hc, hd⟩ := turn_cases w s s' h ht
      have c1 : ∀ t, s'.r.counts t = ofType t (hs ++ [h]) := by
        intro t
        rw [hc, ofType_append, bump, i1]
        by_cases a : t = h.event.type
        · rw [if_pos a, if_pos a.symm]
        · rw [if_neg a, if_neg (fun b => a b.symm), Nat.add_zero]
      have c2 : ∀ t, s.r.success t ≤ s'.r.counts t := by
        intro t; rw [hc, bump]; have := i2 t; split_ifs <;> omega
      have c3 : ∀ t, bump s.r.success h.event.type t ≤ s'.r.counts t := by
        intro t; rw [hc, bump, bump]; have := i2 t; split_ifs <;> omega
      have c4 : ∀ t, bump s.r.success t .single + bump s.r.success t .multi + bump s.r.success t .stuck + bump s.r.success t .severe = s.r.corrected + 1 := by
        intro t; cases t <;> simp [bump] <;> omega
      rw [List.length_append, List.length_singleton]
      rcases hd with ⟨_, e⟩ | ⟨e, _, _, _, d, (⟨_, _, x, y⟩ | ⟨_, _, x, y⟩)⟩ | ⟨_, _, _, d, x, y⟩
      · refine ⟨c1, ?_, ?_, ?_⟩
        · intro t; have := c2 t; rw [e] at this ⊢; exact this
        · rw [e]; exact i3
        · rw [e]; dsimp only; omega
      · refine ⟨c1, ?_, ?_, by omega⟩
        · rw [y]; exact c3
        · rw [y, x]; exact c4 _
      · refine ⟨c1, ?_, ?_, by omega⟩
        · rw [y]; exact c2
        · rw [y, x]; exact i3
      · refine ⟨c1, ?_, ?_, by omega⟩
        · rw [y]; exact c3
        · rw [y, x]; exact c4 _
  obtain ⟨a, b, c, d⟩ := key
  refine ⟨a, b, c, ?_, d⟩
  rw [← c, ← sum_types hs, ← a, ← a, ← a, ← a]
  have := b .single
  have := b .multi
  have := b .stuck
  have := b .severe
  omega

/-- C343: so every printed rate lies between 0 and 1; a rate of a type that did not occur, or of a run without events, is 1. -/
theorem C343_rates {σ : Type} (w : Voter σ) (v : V) (hs : List Hit) (s : St σ) (hr : run w v hs = .ok s) :
    (0 ≤ overall s.r.corrected hs.length ∧ overall s.r.corrected hs.length ≤ 1) ∧
    (0 ≤ overall s.r.detected hs.length ∧ overall s.r.detected hs.length ≤ 1) ∧
    (∀ t, 0 ≤ byType s.r t ∧ byType s.r t ≤ 1) ∧ (∀ t, ofType t hs = 0 → byType s.r t = 1) ∧
    (hs = [] → overall s.r.corrected hs.length = 1) := by
  obtain ⟨h1, h2, _, h4, h5⟩ := C343_accounting w v hs s hr
  have key : ∀ a b : Nat, a ≤ b → 0 ≤ overall a b ∧ overall a b ≤ 1 := by
    intro a b h
    unfold overall
    split_ifs with c
    · have : (0 : ℝ) < b := by exact_mod_cast c
      exact ⟨by positivity, by rw [div_le_one this]; exact_mod_cast h⟩
    · exact ⟨by norm_num, le_refl _⟩
  refine ⟨key _ _ h4, key _ _ h5, fun t => key _ _ (h2 t), fun t h => ?_, fun h => ?_⟩
  · unfold byType; rw [h1 t, h, if_neg (by decide)]
  · subst h; unfold overall; rw [if_neg (by decide)]

/-- C343: an event that changes no bit - a stuck bit that had its value already - is neither detected nor corrected, yet counted as an event: it lowers the correction rate like a lost value. -/
theorem C343_skipped_violated {σ : Type} (w : Voter σ) (s : St σ) (h : Hit)
    (hx : applyEvent (w.copies (s.els h.event.target) h.copy) h.event h.one h.pos = w.copies (s.els h.event.target) h.copy) :
    ∃ s', turn w s h = .ok s' ∧ s'.els = s.els ∧ s'.expected = s.expected ∧ s'.r.detected = s.r.detected ∧ s'.r.corrected = s.r.corrected ∧
      s'.r.success = s.r.success ∧ s'.r.counts h.event.type = s.r.counts h.event.type + 1 := by
  refine ⟨{ s with r := { s.r with counts := bump s.r.counts h.event.type } }, ?_, rfl, rfl, rfl, rfl, rfl, by simp [bump]⟩
  unfold turn
  dsimp only
  rw [if_pos hx]

/-- A single hit used in the examples: bit `b` of copy `k` of element 0 flips. -/
def hitBit (b : Nat) (k : Fin 3) : Hit := ⟨⟨.single, 0, b, 1⟩, k, true, id⟩

/-- The counters of a run. -/
def counters {σ : Type} (x : Outcome (St σ)) : Outcome (Nat × Nat) := x.bind fun s => .ok (s.r.detected, s.r.corrected)

example : counters (run basic 42 [hitBit 3 0, ⟨⟨.stuck, 0, 1, 1⟩, 2, true, id⟩]) = .ok (0, 1) := by decide +kernel

/-! ### C344: repair -/

theorem hw_get_all (s : HW) (v : V) (h : ∀ j, s.copies j = v) : s.get.1 = v := C338_health s v (.inl ⟨h 0, h 1⟩)

theorem hw_get_twice (s : HW) : s.get.2.get.1 = s.get.1 := by
  rcases decide_majority s.copies with ⟨x, hx⟩ | ⟨a, b, c⟩
  · rw [C338_health s x hx]
    refine C338_health _ x ?_
    rw [(C339_reward s x hx).1]; exact hx
  · rw [C339_unchanged s a b c]

/-- The reads of the three voters after a repair are those before it. -/
theorem repair_basic (c e : Copies) (h : basic.repair (basic.get c).2 = .ok e) : (basic.get e).1 = (basic.get c).1 := by
  cases h
  exact C338_basic _ _ (.inl ⟨rfl, rfl⟩)

theorem repair_hw (s e : HW) (h : hw.repair (hw.get s).2 = .ok e) : (hw.get e).1 = (hw.get s).1 := by
  cases h
  refine (hw_get_all _ s.get.2.get.1 fun j => rfl).trans (hw_get_twice s)

theorem repair_approx (s e : AT) (hd : s.types = defaultTypes) (h : approx.repair (approx.get s).2 = .ok e) :
    e.types = defaultTypes ∧ (approx.get e).1 = (approx.get s).1 := by
  change AT.set s s.get = .ok e at h
  by_cases a : 0 ≤ s.get.toInt
  · obtain ⟨s', h1, h2, _, _, _, h6⟩ := C340_store s hd s.get a
    rw [h1] at h
    cases h
    exact ⟨h2, h6⟩
  · exfalso
    have hr : reduce s.get = .ub := by unfold reduce; rw [if_pos (by omega)]
    unfold AT.set at h
    rw [hd] at h
    simp only [defaultTypes, approximate, Outcome.bind, hr] at h
    cases h

theorem types_approx (v : V) (hs : List Hit) (s : St AT) (hr : run approx v hs = .ok s) : ∀ i, (s.els i).types = defaultTypes := by
  refine run_induction approx v (fun _ s => ∀ i, (s.els i).types = defaultTypes) ?_ ?_ hs s hr
  · intro e he i
    change AT.set ⟨fun _ => 0, defaultTypes⟩ v = .ok e at he
    unfold AT.set at he
    obtain ⟨a, _, h1⟩ := bind_ok he
    obtain ⟨b, _, h2⟩ := bind_ok h1
    obtain ⟨c, _, h3⟩ := bind_ok h2
    cases h3
    rfl
  · intro hs h s s' _ ih ht i
    obtain ⟨ho, _, hd⟩ := turn_cases approx s s' h ht
    by_cases a : i = h.event.target
    · subst a
      rcases hd with ⟨_, e⟩ | ⟨e, h1, _, h3, _⟩ | ⟨_, h3, _⟩
      · rw [e]; exact ih _
      · rw [h3]
        exact (repair_approx _ _ (by exact ih h.event.target) h1).1
      · rw [h3]; exact ih _
    · rw [(ho i a).1]; exact ih i

/-- One turn of a test in which repairs do not change what is read. -/
theorem no_repair {σ : Type} (w : Voter σ) (s s' : St σ) (h : Hit) (ht : turn w s h = .ok s')
    (hw : ∀ x e, w.repair (w.get (w.corrupt (s.els h.event.target) h.copy x)).2 = .ok e → (w.get e).1 = (w.get (w.corrupt (s.els h.event.target) h.copy x)).1) :
    (s'.r.detected = s.r.detected ∧ s'.expected = s.expected) ∨
    (s'.r.detected = s.r.detected + 1 ∧ s'.r.corrected = s.r.corrected ∧ s'.r.success = s.r.success ∧ s'.expected h.event.target ≠ s.expected h.event.target) := by
  obtain ⟨_, _, hd⟩ := turn_cases w s s' h ht
  rcases hd with ⟨_, e⟩ | ⟨e, h1, h2, _, d, (⟨x, _⟩ | ⟨x, y, c, su⟩)⟩ | ⟨_, _, ex, d, _⟩
  · exact .inl ⟨by rw [e], by rw [e]⟩
  · exact absurd (by rw [hw _ e h1] at x; exact x) h2
  · exact .inr ⟨d, c, su, by rw [y]; exact x⟩
  · exact .inl ⟨d, ex⟩

/-- C344: repair never recovers a value: in no run with `BasicTMR` or `HealthWeightedTMR` or `ApproximateTMR` is an error that reached the output corrected afterwards.  Every detected error is a lost value, and the reference value of the element is replaced by the wrong one. -/
theorem C344_repair_violated (v : V) (hs : List Hit) (h : Hit) :
    (∀ s s', run basic v hs = .ok s → run basic v (hs ++ [h]) = .ok s' → s'.r.detected ≠ s.r.detected →
      s'.r.corrected = s.r.corrected ∧ s'.expected h.event.target ≠ s.expected h.event.target) ∧
    (∀ s s', run hw v hs = .ok s → run hw v (hs ++ [h]) = .ok s' → s'.r.detected ≠ s.r.detected →
      s'.r.corrected = s.r.corrected ∧ s'.expected h.event.target ≠ s.expected h.event.target) ∧
    (∀ s s', run approx v hs = .ok s → run approx v (hs ++ [h]) = .ok s' → s'.r.detected ≠ s.r.detected →
      s'.r.corrected = s.r.corrected ∧ s'.expected h.event.target ≠ s.expected h.event.target) := by
  refine ⟨?_, ?_, ?_⟩
  · intro s s' h1 h2 hd
    rw [run_append, h1] at h2
    rcases no_repair basic s s' h h2 (fun x e => repair_basic _ e) with ⟨a, _⟩ | ⟨_, b, _, d⟩
    · exact absurd a hd
    · exact ⟨b, d⟩
  · intro s s' h1 h2 hd
    rw [run_append, h1] at h2
    rcases no_repair hw s s' h h2 (fun x e => repair_hw _ e) with ⟨a, _⟩ | ⟨_, b, _, d⟩
    · exact absurd a hd
    · exact ⟨b, d⟩
  · intro s s' h1 h2 hd
    have ht := types_approx v hs s h1
    rw [run_append, h1] at h2
    rcases no_repair approx s s' h h2 (fun x e he => (repair_approx _ e (by exact ht h.event.target) he).2) with ⟨a, _⟩ | ⟨_, b, _, d⟩
    · exact absurd a hd
    · exact ⟨b, d⟩

example : counters (run basic 42 [hitBit 3 1]) = .ok (0, 1) ∧ counters (run basic 42 ([hitBit 3 1] ++ [hitBit 2 0])) = .ok (1, 1) := by decide +kernel

example : (run basic 42 [hitBit 3 1, hitBit 2 0]).bind (fun s => .ok (s.expected 0)) = .ok 46 := by decide +kernel

/-- C344: what a detected error leaves behind counts as right from then on: after losing 42 to 46 the same element, hit once more, is reported as corrected although it still reads 46. -/
theorem C344_reference_violated :
    counters (run basic 42 [hitBit 3 1, hitBit 2 0, hitBit 5 2]) = .ok (1, 2) ∧
    (run basic 42 [hitBit 3 1, hitBit 2 0, hitBit 5 2]).bind (fun s => .ok (basic.get (s.els 0)).1) = .ok 46 := by decide +kernel

/-- C344: with the voter of approximate copies the test itself is undefined for some events: a flip of the sign bit of the exact copy makes the read value negative, and storing it shifts a negative number. -/
theorem C344_undefined_violated : run approx 42 [hitBit 31 0] = .ub := by
  have h : counters (run approx 42 [hitBit 31 0]) = .ub := by decide +kernel
  revert h
  generalize run approx 42 [hitBit 31 0] = x
  intro h
  cases x with
  | ok a => exact absurd h (by simp [counters, Outcome.bind])
  | ub => rfl

/-! ### C345: faults confined to one copy -/

theorem corrupt_other (c : Copies) (k j : Fin 3) (x : V) (h : j ≠ k) : Extreme.corrupt c k x j = c j := by
  unfold Extreme.corrupt
  rw [if_neg (fun e => h (Fin.ext e))]

theorem others_agree (c : Copies) (k : Fin 3) (v : V) (h : ∀ j, j ≠ k → c j = v) : TwoAgree v (c 0) (c 1) (c 2) := by
  fin_cases k
  · exact .inr (.inr ⟨h 1 (by decide), h 2 (by decide)⟩)
  · exact .inr (.inl ⟨h 0 (by decide), h 2 (by decide)⟩)
  · exact .inl ⟨h 0 (by decide), h 1 (by decide)⟩

/-- A run in which every element is hit in one copy only, for a voter that reads what two copies agree on and does not change its copies by reading. -/
theorem one_copy {σ : Type} (w : Voter σ) (v : V) (κ : Nat → Fin 3) (hs : List Hit) (hκ : ∀ h ∈ hs, h.copy = κ h.event.target)
    (hnew : ∃ e, w.new v = .ok e ∧ ∀ j, w.copies e j = v)
    (hget : ∀ s x, TwoAgree x (w.copies s 0) (w.copies s 1) (w.copies s 2) → (w.get s).1 = x ∧ w.copies (w.get s).2 = w.copies s)
    (hcor : ∀ s k x, w.copies (w.corrupt s k x) = Extreme.corrupt (w.copies s) k x) :
    ∃ s, run w v hs = .ok s ∧ s.r.detected = 0 ∧ (∀ i, s.expected i = v ∧ ∀ j, j ≠ κ i → w.copies (s.els i) j = v) := by
  induction hs using List.reverseRecOn with
  | nil =>
    obtain ⟨e, h1, h2⟩ := hnew
    refine ⟨⟨fun _ => e, fun _ => v, ⟨0, 0, fun _ => 0, fun _ => 0⟩⟩, ?_, rfl, fun i => ⟨rfl, fun j _ => h2 j⟩⟩
    unfold run
    rw [h1]
    rfl
  | append_singleton l a ih =>
    obtain ⟨s, h1, h2, h3⟩ := ih (fun h hm => hκ h (by simp [hm]))
    have ha : a.copy = κ a.event.target := hκ a (by simp)
    rw [run_append, h1]
    change ∃ s', turn w s a = .ok s' ∧ _
    unfold turn
    dsimp only
    generalize applyEvent (w.copies (s.els a.event.target) a.copy) a.event a.one a.pos = x
    split_ifs with c d
    · exact ⟨_, rfl, h2, h3⟩
    · exfalso
      apply d
      rw [(h3 a.event.target).1]
      refine (hget _ v ?_).1
      rw [hcor]
      refine others_agree _ a.copy v fun j hj => ?_
      rw [corrupt_other _ _ _ _ hj]
      exact (h3 _).2 j (by rw [← ha]; exact hj)
    · have hv : TwoAgree v (w.copies (w.corrupt (s.els a.event.target) a.copy x) 0) (w.copies (w.corrupt (s.els a.event.target) a.copy x) 1) (w.copies (w.corrupt (s.els a.event.target) a.copy x) 2) := by
        rw [hcor]
        refine others_agree _ a.copy v fun j hj => ?_
        rw [corrupt_other _ _ _ _ hj]
        exact (h3 _).2 j (by rw [← ha]; exact hj)
      refine ⟨_, rfl, h2, fun i => ⟨(h3 i).1, fun j hj => ?_⟩⟩
      by_cases b : i = a.event.target
      · subst b
        dsimp only
        rw [put, if_pos rfl, (hget _ v hv).2, hcor, corrupt_other _ _ _ _ (by rw [ha]; exact hj)]
        exact (h3 _).2 j hj
      · dsimp only
        rw [put, if_neg b]
        exact (h3 i).2 j hj

/-- C345: as long as every element is hit in one of its copies only - any number of times, by any events - no value is lost: nothing is detected, every event that changed a bit counts as corrected, and every element still reads the stored value.  This holds for `BasicTMR` and `HealthWeightedTMR` with every value and for `ApproximateTMR` with the multiples of 8 up to half the maximum. -/
theorem C345_one_copy (v : V) (κ : Nat → Fin 3) (hs : List Hit) (hκ : ∀ h ∈ hs, h.copy = κ h.event.target) :
    (∃ s, run basic v hs = .ok s ∧ s.r.detected = 0 ∧ ∀ i, s.expected i = v ∧ (basic.get (s.els i)).1 = v) ∧
    (∃ s, run hw v hs = .ok s ∧ s.r.detected = 0 ∧ ∀ i, s.expected i = v ∧ (hw.get (s.els i)).1 = v) ∧
    (0 ≤ v.toInt → v.toInt % 8 = 0 → v.toInt ≤ 1073741823 →
      ∃ s, run approx v hs = .ok s ∧ s.r.detected = 0 ∧ ∀ i, s.expected i = v ∧ (approx.get (s.els i)).1 = v) := by
  refine ⟨?_, ?_, ?_⟩
  · obtain ⟨s, h1, h2, h3⟩ := one_copy basic v κ hs hκ ⟨_, rfl, fun _ => rfl⟩ (fun s x h => ⟨C338_basic s x h, rfl⟩) (fun _ _ _ => rfl)
    exact ⟨s, h1, h2, fun i => ⟨(h3 i).1, C338_basic _ v (others_agree _ (κ i) v (h3 i).2)⟩⟩
  · obtain ⟨s, h1, h2, h3⟩ := one_copy hw v κ hs hκ ⟨_, rfl, fun _ => rfl⟩ (fun s x h => ⟨C338_health s x h, (C339_reward s x h).1⟩) (fun _ _ _ => rfl)
    exact ⟨s, h1, h2, fun i => ⟨(h3 i).1, C338_health _ v (others_agree _ (κ i) v (h3 i).2)⟩⟩
  · intro a b c
    obtain ⟨e, e1, e2, _⟩ := C340_masked v a b c
    obtain ⟨s, h1, h2, h3⟩ := one_copy approx v κ hs hκ ⟨e, e1, e2⟩ (fun s x h => ⟨C338_approximate s x h, rfl⟩) (fun _ _ _ => rfl)
    exact ⟨s, h1, h2, fun i => ⟨(h3 i).1, C338_approximate _ v (others_agree _ (κ i) v (h3 i).2)⟩⟩

example : ∀ h ∈ [hitBit 3 1, hitBit 7 1, hitBit 3 1], h.copy = (fun _ => 1 : Nat → Fin 3) h.event.target := by decide +kernel

theorem single_hit (v : V) (b : Nat) (hb : b < 32) : flipAt v (b / 8) (b % 8) = v ^^^ BitVec.twoPow 32 b := by
  unfold flipAt
  rw [if_pos (by omega), Nat.div_add_mod]

theorem xor_ne (v : V) (b : Nat) (hb : b < 32) : v ^^^ BitVec.twoPow 32 b ≠ v := by
  intro h
  have : (v ^^^ BitVec.twoPow 32 b).getLsbD b = v.getLsbD b := by rw [h]
  rw [BitVec.getLsbD_xor, BitVec.getLsbD_twoPow] at this
  simp [hb] at this

theorem xor_ne' (v : V) (b c : Nat) (hb : b < 32) (hbc : b ≠ c) : v ^^^ BitVec.twoPow 32 b ≠ v ^^^ BitVec.twoPow 32 c := by
  intro h
  have : (v ^^^ BitVec.twoPow 32 b).getLsbD b = (v ^^^ BitVec.twoPow 32 c).getLsbD b := by rw [h]
  rw [BitVec.getLsbD_xor, BitVec.getLsbD_xor, BitVec.getLsbD_twoPow, BitVec.getLsbD_twoPow] at this
  have hcb : ¬ c = b := fun e => hbc e.symm
  simp [hb, hcb] at this

/-- The second hit of a run of two. -/
theorem two_run {σ : Type} (w : Voter σ) (v x y : V) (e : σ) (b c : Nat) (k l : Fin 3) (hw : w.new v = .ok e)
    (hx : applyEvent (w.copies e k) (hitBit b k).event true id = x) (hxv : x ≠ w.copies e k)
    (g : V × σ) (hg : w.get (w.corrupt e k x) = g) (hgv : g.1 = v)
    (hy : applyEvent (w.copies g.2 l) (hitBit c l).event true id = y) (hyv : y ≠ w.copies g.2 l)
    (g' : V × σ) (hg' : w.get (w.corrupt g.2 l y) = g') (e' : σ) (hr : w.repair g'.2 = .ok e') :
    ∃ s, run w v [hitBit b k, hitBit c l] = .ok s ∧ s.r.detected = if g'.1 = v then 0 else 1 := by
  have h1 : run w v [hitBit b k, hitBit c l] = (turn w ⟨fun _ => e, fun _ => v, ⟨0, 0, fun _ => 0, fun _ => 0⟩⟩ (hitBit b k)).bind fun s => (turn w s (hitBit c l)).bind fun s => .ok s := by
    unfold run
    rw [hw]
    rfl
  have t1 : turn w ⟨fun _ => e, fun _ => v, ⟨0, 0, fun _ => 0, fun _ => 0⟩⟩ (hitBit b k) =
      .ok ⟨put (fun _ => e) 0 g.2, fun _ => v, ⟨0, 1, bump (fun _ => 0) .single, bump (fun _ => 0) .single⟩⟩ := by
    unfold turn
    dsimp only [hitBit] at hx ⊢
    rw [hx, if_neg hxv, hg, if_neg (by simpa using hgv)]
  rw [h1, t1]
  change ∃ s, (turn w _ (hitBit c l)).bind _ = .ok s ∧ _
  unfold turn
  dsimp only [hitBit] at hy ⊢
  have ep : put (fun _ => e) 0 g.2 0 = g.2 := rfl
  rw [ep, hy, if_neg hyv, hg']
  by_cases a : g'.1 = v
  · rw [if_neg (by simpa using a), if_pos a]
    exact ⟨_, rfl, rfl⟩
  · rw [if_pos a, if_neg a, hr]
    change ∃ s, Outcome.bind (if (w.get e').1 = v then _ else _) _ = .ok s ∧ _
    split_ifs with d
    · exact ⟨_, rfl, rfl⟩
    · exact ⟨_, rfl, rfl⟩

theorem best_after (k : Fin 3) : HW.best ⟨fun _ => 0, fun j => if j = k then 4 / 5 else 1⟩ = if k = 0 then 1 else 0 := by
  revert k; decide +kernel

/-- C345: no scrubbing takes place between events, so two single flips of different bits in different copies of an element, each harmless alone, lose its value: `BasicTMR` when one of them hits the first copy, `HealthWeightedTMR` when the second one hits the first of the two copies the first one spared. -/
theorem C345_two_copies_violated (v : V) (b c : Nat) (hb : b < 32) (hc : c < 32) (hbc : b ≠ c) (k l : Fin 3) (hkl : k ≠ l) :
    (∃ s, run basic v [hitBit b k, hitBit c l] = .ok s ∧ s.r.detected = if k = 0 ∨ l = 0 then 1 else 0) ∧
    (∃ s, run hw v [hitBit b k, hitBit c l] = .ok s ∧ s.r.detected = if l = (if k = 0 then 1 else 0) then 1 else 0) := by
  have hx := xor_ne v b hb
  have hy := xor_ne v c hc
  have hxy := xor_ne' v b c hb hbc
  have ax : ∀ k, applyEvent v (hitBit b k).event true id = v ^^^ BitVec.twoPow 32 b := fun k => single_hit v b hb
  have ay : ∀ k, applyEvent v (hitBit c k).event true id = v ^^^ BitVec.twoPow 32 c := fun k => single_hit v c hc
  generalize v ^^^ BitVec.twoPow 32 b = x at *
  generalize v ^^^ BitVec.twoPow 32 c = y at *
  constructor
  · have g1 : basic.get (basic.corrupt (fun _ => v) k x) = (v, Extreme.corrupt (fun _ => v) k x) := by
      have := C338_basic (Extreme.corrupt (fun _ => v) k x) v (others_agree _ k v fun j hj => corrupt_other _ _ _ _ hj)
      change (basicGet (Extreme.corrupt (fun _ => v) k x), _) = _
      rw [this]
      rfl
    have cl : Extreme.corrupt (fun _ => v) k x l = v := corrupt_other _ _ _ _ (fun e => hkl e.symm)
    obtain ⟨s, h1, h2⟩ := two_run basic v x y (fun _ => v) b c k l rfl (ax k) hx _ g1 rfl
      (by change applyEvent (Extreme.corrupt (fun _ => v) k x l) _ _ _ = y; rw [cl]; exact ay l) (by change y ≠ Extreme.corrupt (fun _ => v) k x l; rw [cl]; exact hy) _ rfl _ rfl
    refine ⟨s, h1, ?_⟩
    rw [h2]
    change (if basicGet (Extreme.corrupt (Extreme.corrupt (fun _ => v) k x) l y) = v then 0 else 1) = _
    have hx' : v ≠ x := fun e => hx e.symm
    have hy' : v ≠ y := fun e => hy e.symm
    have hyx : y ≠ x := fun e => hxy e.symm
    fin_cases k <;> fin_cases l <;> simp_all [basicGet, Extreme.corrupt]
  · have a1 : TwoAgree v (Extreme.corrupt (fun _ => v) k x 0) (Extreme.corrupt (fun _ => v) k x 1) (Extreme.corrupt (fun _ => v) k x 2) :=
      others_agree _ k v fun j hj => corrupt_other _ _ _ _ hj
    have r1 := C339_reward ⟨Extreme.corrupt (fun _ => v) k x, fun _ => 1⟩ v a1
    have v1 := C338_health ⟨Extreme.corrupt (fun _ => v) k x, fun _ => 1⟩ v a1
    have cl : Extreme.corrupt (fun _ => v) k x l = v := corrupt_other _ _ _ _ (fun e => hkl e.symm)
    have ck : Extreme.corrupt (fun _ => v) k x k = x := by unfold Extreme.corrupt; rw [if_pos rfl]
    generalize hg : HW.get ⟨Extreme.corrupt (fun _ => v) k x, fun _ => 1⟩ = g at r1 v1
    obtain ⟨rc, rh⟩ := r1
    have cl' : hw.copies g.2 l = v := by change g.2.copies l = v; rw [rc]; exact cl
    obtain ⟨s, h1, h2⟩ := two_run hw v x y (HW.new v) b c k l rfl (ax k) hx g hg v1
      (by rw [cl']; exact ay l) (by rw [cl']; exact hy) _ rfl _ rfl
    refine ⟨s, h1, ?_⟩
    rw [h2]
    change (if (HW.get ⟨Extreme.corrupt g.2.copies l y, g.2.health⟩).1 = v then 0 else 1) = _
    rw [rc]
    dsimp only
    have hk : ∀ j, g.2.health j = if j = k then 4 / 5 else 1 := by
      intro j
      rw [rh j]
      dsimp only
      by_cases a : j = k
      · subst a
        rw [if_neg (by rw [ck]; exact hx), if_pos rfl]; norm_num
      · rw [if_pos (corrupt_other _ _ _ _ a), if_neg a]; norm_num
    have hb' : HW.best ⟨Extreme.corrupt (Extreme.corrupt (fun _ => v) k x) l y, g.2.health⟩ = if k = 0 then 1 else 0 := by
      rw [show g.2.health = fun j => if j = k then 4 / 5 else 1 from funext hk]
      exact best_after k
    have hx' : v ≠ x := fun e => hx e.symm
    have hy' : v ≠ y := fun e => hy e.symm
    have hyx : y ≠ x := fun e => hxy e.symm
    have nm : (HW.get ⟨Extreme.corrupt (Extreme.corrupt (fun _ => v) k x) l y, g.2.health⟩).1 = Extreme.corrupt (Extreme.corrupt (fun _ => v) k x) l y (if k = 0 then 1 else 0) := by
      rw [← hb']
      unfold HW.get
      dsimp only
      have n : ∀ i j : Fin 3, i ≠ j → Extreme.corrupt (Extreme.corrupt (fun _ => v) k x) l y i ≠ Extreme.corrupt (Extreme.corrupt (fun _ => v) k x) l y j := by
        clear hb' hk rh rc h2 h1 hg cl' v1 ck cl a1
        intro i j
        fin_cases k <;> fin_cases l <;> fin_cases i <;> fin_cases j <;> simp_all [Extreme.corrupt]
      rw [if_neg (by rintro (h | h); exacts [n 0 1 (by decide) h, n 0 2 (by decide) h]), if_neg (n 1 2 (by decide))]
    rw [nm]
    clear nm hb' hk rh rc h2 h1 hg cl' v1 ck cl a1
    fin_cases k <;> fin_cases l <;> simp_all [Extreme.corrupt]

example : counters (run hw 42 [hitBit 3 0, hitBit 4 1]) = .ok (1, 1) ∧ counters (run hw 42 [hitBit 3 0, hitBit 4 2]) = .ok (0, 2) := by decide +kernel

/-! ### C346: conclusion -/

/-- C346: the rate printed as the best is the highest of the three, and it is the one of the voter named. -/
theorem C346_best (b h a : ℝ) :
    b ≤ (conclusion b h a).2 ∧ h ≤ (conclusion b h a).2 ∧ a ≤ (conclusion b h a).2 ∧
    (conclusion b h a = ("Health-Weighted TMR", h) ∨ conclusion b h a = ("Approximate TMR", a) ∨ conclusion b h a = ("Basic TMR", b)) := by
  unfold conclusion
  by_cases h1 : h ≥ b ∧ h ≥ a
  · rw [if_pos h1]; exact ⟨h1.1, le_refl _, h1.2, .inl rfl⟩
  · rw [if_neg h1]
    by_cases h2 : a ≥ b ∧ a ≥ h
    · rw [if_pos h2]; exact ⟨h2.1, h2.2, le_refl _, .inr (.inl rfl)⟩
    · rw [if_neg h2]
      refine ⟨le_refl _, ?_, ?_, .inr (.inr rfl)⟩
      · by_contra c
        dsimp only at c
        rcases not_and_or.mp h1 with d | d <;> rcases not_and_or.mp h2 with e | e <;> simp only [ge_iff_le, not_le] at c d e <;> linarith
      · by_contra c
        dsimp only at c
        rcases not_and_or.mp h1 with d | d <;> rcases not_and_or.mp h2 with e | e <;> simp only [ge_iff_le, not_le] at c d e <;> linarith

/-- C346: a tie goes to the health-weighted voter, then to the approximate one: `BasicTMR` is named only when strictly better than both. -/
theorem C346_tie_limit (b h a : ℝ) :
    ((conclusion b h a).1 = "Health-Weighted TMR" ↔ b ≤ h ∧ a ≤ h) ∧ ((conclusion b h a).1 = "Basic TMR" ↔ h < b ∧ a < b) := by
  unfold conclusion
  by_cases h1 : h ≥ b ∧ h ≥ a
  · rw [if_pos h1]
    exact ⟨⟨fun _ => h1, fun _ => rfl⟩, ⟨fun e => absurd e (by simp), fun e => absurd h1.1 (not_le.mpr e.1)⟩⟩
  · rw [if_neg h1]
    by_cases h2 : a ≥ b ∧ a ≥ h
    · rw [if_pos h2]
      exact ⟨⟨fun e => absurd e (by simp), fun e => absurd e h1⟩, ⟨fun e => absurd e (by simp), fun e => absurd h2.1 (not_le.mpr e.2)⟩⟩
    · rw [if_neg h2]
      refine ⟨⟨fun e => absurd e (by simp), fun e => absurd e h1⟩, ⟨fun _ => ?_, fun _ => rfl⟩⟩
      constructor
      · by_contra c
        rcases not_and_or.mp h1 with d | d <;> rcases not_and_or.mp h2 with e | e <;> simp only [ge_iff_le, not_le, not_lt] at c d e <;> linarith
      · by_contra c
        rcases not_and_or.mp h1 with d | d <;> rcases not_and_or.mp h2 with e | e <;> simp only [ge_iff_le, not_le, not_lt] at c d e <;> linarith

example : conclusion 1 1 1 = ("Health-Weighted TMR", 1) := by
  unfold conclusion; rw [if_pos ⟨le_refl _, le_refl _⟩]

end Verif.Props.Extreme
