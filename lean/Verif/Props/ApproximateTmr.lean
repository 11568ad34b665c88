import Verif.Model.ApproximateTmr
import Verif.Lemmas.Crc
/-!
Property C18: ApproximateTMR.
-/
namespace Verif.Props
open Verif Verif.Spec Verif.Crc

/-- The two exact integer equalities. -/
abbrev beqInt (w : Nat) : BitVec w → BitVec w → Bool := fun a b => a == b

theorem low_reduceSigned {w : Nat} (v : BitVec w) : (ATmr.reduceSigned v).getLsbD 0 = false := by
  unfold ATmr.reduceSigned
  rw [BitVec.getLsbD_shiftLeft]
  have : 0 < ATmr.shiftFor w := by unfold ATmr.shiftFor; split <;> omega
  simp [this]

theorem low_reduceUnsigned {w : Nat} (v : BitVec w) : (ATmr.reduceUnsigned v).getLsbD 0 = false := by
  unfold ATmr.reduceUnsigned
  rw [BitVec.getLsbD_shiftLeft]
  have : 0 < ATmr.shiftFor w := by unfold ATmr.shiftFor; split <;> omega
  simp [this]

theorem low_pow_sub_one {w k : Nat} (hw : 0 < w) (hk : 0 < k) :
    (BitVec.ofNat w (2 ^ k - 1)).getLsbD 0 = true := by
  rw [BitVec.getLsbD_ofNat, Nat.testBit_two_pow_sub_one]
  simp [hw, hk]

theorem low_neg {w : Nat} (v : BitVec w) : (-v).getLsbD 0 = v.getLsbD 0 := by
  rw [BitVec.getLsbD_neg]
  by_cases h : 0 < w
  · simp [h]
  · have : w = 0 := by omega
    subst this; simp

theorem limitSigned_cases {w : Nat} (hw : 3 ≤ w) (v : BitVec w) :
    ATmr.limitSigned v = v ∨ (ATmr.limitSigned v).getLsbD 0 = true := by
  unfold ATmr.limitSigned
  have hl := low_pow_sub_one (w := w) (k := w - 2) (by omega) (by omega)
  simp only
  repeat' split
  · right; rw [low_neg]; exact hl
  · right; exact hl
  · right; rw [low_neg]; exact hl
  · left; rfl

theorem limitUnsigned_cases {w : Nat} (hw : 3 ≤ w) (v : BitVec w) :
    ATmr.limitUnsigned v = v ∨ (ATmr.limitUnsigned v).getLsbD 0 = true := by
  unfold ATmr.limitUnsigned
  have hl := low_pow_sub_one (w := w) (k := w - 1) (by omega) (by omega)
  simp only
  repeat' split
  · right; rw [low_neg]; exact hl
  · right; exact hl
  · right; rw [low_neg]; exact hl
  · left; rfl

theorem approx_get_set {w : Nat} (ap : ATmr.Approx (BitVec w)) (crc : BitVec w → BitVec 32) (v : BitVec w)
    (hr : (ap.reduce v).getLsbD 0 = false)
    (hl : ap.limit v = v ∨ (ap.limit v).getLsbD 0 = true) :
    ATmr.get (beqInt w) ATmr.defaultTypes (ATmr.set ap ATmr.defaultTypes crc v) = v := by
  unfold ATmr.get ATmr.set ATmr.applyApproximation ATmr.defaultTypes beqInt
  simp only [beq_iff_eq, if_true]
  split
  · rfl
  · split
    · rfl
    · split
      · rename_i h1 h2 h3
        rcases hl with hl | hl
        · exact absurd hl.symm h2
        · rw [← h3, hr] at hl; cases hl
      · rfl

/-- **C18 (integers, no fault).** With the default configuration, reading back what was stored gives exactly
the stored value, for every signed and unsigned integer type (8, 16, 32, 64 bits) and every value. -/
theorem C18_int_roundtrip (w : Nat) (hw : 3 ≤ w) (crc : BitVec w → BitVec 32)
    (custom : Option (BitVec w → BitVec w)) (v : BitVec w) :
    ATmr.get (beqInt w) ATmr.defaultTypes (ATmr.set (ATmr.signed w custom) ATmr.defaultTypes crc v) = v ∧
    ATmr.get (beqInt w) ATmr.defaultTypes (ATmr.set (ATmr.unsigned w custom) ATmr.defaultTypes crc v) = v :=
  ⟨approx_get_set _ _ _ (low_reduceSigned v) (limitSigned_cases hw v),
   approx_get_set _ _ _ (low_reduceUnsigned v) (limitUnsigned_cases hw v)⟩

/-- Non-vacuity: a value outside the clamped range with non-zero low bits, so all copies differ. -/
example : (ATmr.set (ATmr.signed 32 none) ATmr.defaultTypes (crcOfValue 4) 0x7FFFFFF5#32).copies 1 = 0x7FFFFFF0#32 ∧
    (ATmr.set (ATmr.signed 32 none) ATmr.defaultTypes (crcOfValue 4) 0x7FFFFFF5#32).copies 2 = 0x3FFFFFFF#32 := by
  decide

/-- **C18 is violated for `float`.** Without any fault, `set(1000000.0625f)` followed by `get()` returns
`1000000.0f`: the two approximated copies agree with each other and outvote the exact one. -/
theorem C18_float_roundtrip_violated (crc : BitVec 32 → BitVec 32) (custom : Option (BitVec 32 → BitVec 32)) :
    ATmr.get f32eq ATmr.defaultTypes (ATmr.set (ATmr.f32 custom) ATmr.defaultTypes crc 0x49742401#32)
      = 0x49742400#32 := by
  have h : ATmr.get f32eq ATmr.defaultTypes
      (ATmr.set (ATmr.f32 none) ATmr.defaultTypes (fun _ => 0#32) 0x49742401#32) = 0x49742400#32 := by decide
  exact h

/-- **C18 (`float`, what holds).** Every value that is in the clamped range (or NaN) reads back exactly. -/
theorem C18_float_roundtrip_partial (crc : BitVec 32 → BitVec 32) (custom : Option (BitVec 32 → BitVec 32))
    (v : BitVec 32) (h1 : ATmr.f32lt 0x49742400#32 v = false) (h2 : ATmr.f32lt v 0xC9742400#32 = false) :
    ATmr.get f32eq ATmr.defaultTypes (ATmr.set (ATmr.f32 custom) ATmr.defaultTypes crc v) = v := by
  have hl : ATmr.limitF32 v = v := by
    unfold ATmr.limitF32; simp [h1, h2]
  unfold ATmr.get ATmr.set ATmr.applyApproximation ATmr.defaultTypes ATmr.f32
  simp only [hl, if_true]
  by_cases hn : f32eq v v = true
  · simp [hn]
  · have hnan : f32isNaN v = true := by
      cases hc : f32isNaN v with
      | true => rfl
      | false => exact absurd (by simp [f32eq, hc]) hn
    have e1 : ∀ x, f32eq v x = false := by intro x; simp [f32eq, hnan]
    have e2 : ∀ x, f32eq x v = false := by intro x; simp [f32eq, hnan]
    simp [e1, e2]

example : ATmr.f32lt 0x49742400#32 0x3F800001#32 = false ∧ ATmr.f32lt 0x3F800001#32 0xC9742400#32 = false := by
  decide

/-- **C18 (one corrupted copy, what holds).** For every type with exact equality: if one of the two
*approximated* copies is overwritten with an arbitrary value, `get()` still returns `v` or one of the two
stored approximations of `v`.  Missing: corruption of the exact copy (false, see below). -/
theorem C18_corrupt_approximate_copy_partial {α : Type} [DecidableEq α] (ap : ATmr.Approx α) (crc : α → BitVec 32)
    (v x : α) (k : Fin 3) (hk : k ≠ 0) :
    let r := ATmr.get (fun a b => decide (a = b)) ATmr.defaultTypes
      (ATmr.upset k x (ATmr.set ap ATmr.defaultTypes crc v))
    r = v ∨ r = ap.reduce v ∨ r = ap.limit v := by
  match k, hk with
  | 0, h => exact absurd rfl h
  | 1, _ =>
    simp only [ATmr.get, ATmr.upset, ATmr.set, ATmr.applyApproximation, ATmr.defaultTypes, if_true,
      decide_eq_true_eq]
    have e0 : (0 : Fin 3) ≠ 1 := by decide
    have e2 : (2 : Fin 3) ≠ 1 := by decide
    simp only [e0, e2, if_false]
    split
    · left; rfl
    · split
      · left; rfl
      · split
        · rename_i h; right; right; exact h
        · left; rfl
  | 2, _ =>
    simp only [ATmr.get, ATmr.upset, ATmr.set, ATmr.applyApproximation, ATmr.defaultTypes, if_true,
      decide_eq_true_eq]
    have e0 : (0 : Fin 3) ≠ 2 := by decide
    have e1 : (1 : Fin 3) ≠ 2 := by decide
    simp only [e0, e1, if_false]
    split
    · left; rfl
    · split
      · left; rfl
      · split
        · right; left; rfl
        · left; rfl

/-- **C18 (values the approximations do not change).** If neither approximation changes `v` then any
corruption of any one copy is masked. -/
theorem C18_masked_when_representable_partial {α : Type} [DecidableEq α] (ap : ATmr.Approx α)
    (crc : α → BitVec 32) (v x : α) (k : Fin 3) (hr : ap.reduce v = v) (hl : ap.limit v = v) :
    ATmr.get (fun a b => decide (a = b)) ATmr.defaultTypes
      (ATmr.upset k x (ATmr.set ap ATmr.defaultTypes crc v)) = v := by
  have e01 : (0 : Fin 3) ≠ 1 := by decide
  have e02 : (0 : Fin 3) ≠ 2 := by decide
  have e12 : (1 : Fin 3) ≠ 2 := by decide
  match k with
  | 0 =>
    simp only [ATmr.get, ATmr.upset, ATmr.set, ATmr.applyApproximation, ATmr.defaultTypes, if_true,
      decide_eq_true_eq, hr, hl, e01.symm, e02.symm, if_false]
    split
    · assumption
    · rfl
  | 1 =>
    simp only [ATmr.get, ATmr.upset, ATmr.set, ATmr.applyApproximation, ATmr.defaultTypes, if_true,
      decide_eq_true_eq, hr, hl, e01, e12.symm, if_false]
    split <;> rfl
  | 2 =>
    simp only [ATmr.get, ATmr.upset, ATmr.set, ATmr.applyApproximation, ATmr.defaultTypes, if_true,
      decide_eq_true_eq, hr, hl, e02, e12, if_false]

example : ATmr.reduceSigned 0xFFFFFFF8#32 = 0xFFFFFFF8#32 ∧ ATmr.limitSigned 0xFFFFFFF8#32 = 0xFFFFFFF8#32 := by
  decide

/-- **C18 is violated for corruption of the exact copy.** For every signed 32-bit value that is in the
clamped range and not a multiple of eight, an upset of copy 0 to any value other than `v` and the
truncated `v` makes `get()` return the corrupted value itself. -/
theorem C18_corrupt_exact_copy_violated (crc : BitVec 32 → BitVec 32) (custom : Option (BitVec 32 → BitVec 32))
    (v x : BitVec 32) (hr : ATmr.reduceSigned v ≠ v) (hl : ATmr.limitSigned v = v)
    (hx : x ≠ v) (hx' : x ≠ ATmr.reduceSigned v) :
    ATmr.get (beqInt 32) ATmr.defaultTypes
      (ATmr.upset 0 x (ATmr.set (ATmr.signed 32 custom) ATmr.defaultTypes crc v)) = x := by
  have e1 : (1 : Fin 3) ≠ 0 := by decide
  have e2 : (2 : Fin 3) ≠ 0 := by decide
  simp only [ATmr.get, ATmr.upset, ATmr.set, ATmr.applyApproximation, ATmr.defaultTypes, if_true,
    beqInt, beq_iff_eq, ATmr.signed, hl, hr, hx, hx', e1, e2, if_false]

example : ATmr.reduceSigned 5#32 ≠ 5#32 ∧ ATmr.limitSigned 5#32 = 5#32 ∧ (0x80000005#32 : BitVec 32) ≠ 5#32 ∧
    0x80000005#32 ≠ ATmr.reduceSigned 5#32 := by decide

/-- **C18 (verify).** For types of at most four bytes, in any configuration, after `set(v)` and any sequence
of value upsets `verify()` is true exactly when every copy again holds what `set` stored. -/
theorem C18_verify_detects {n : Nat} (hn : n ≤ 4) (ap : ATmr.Approx (BitVec (8 * n)))
    (ty : Fin 3 → ATmr.ApproxType) (v : BitVec (8 * n)) (ups : List (Fin 3 × BitVec (8 * n))) :
    let s₀ := ATmr.set ap ty (crcOfValue n) v
    let s := ups.foldl (fun s u => ATmr.upset u.1 u.2 s) s₀
    (ATmr.verify (crcOfValue n) s = true ↔ ∀ i, s.copies i = s₀.copies i) := by
  intro s₀ s
  have hsum : s.checksums = s₀.checksums := by
    have : ∀ (t : ATmr.State (BitVec (8 * n))),
        (ups.foldl (fun s u => ATmr.upset u.1 u.2 s) t).checksums = t.checksums := by
      induction ups with
      | nil => intro t; rfl
      | cons u ups ih => intro t; rw [List.foldl_cons]; exact ih _
    exact this s₀
  have hs0 : ∀ i, s₀.checksums i = crcOfValue n (s₀.copies i) := fun i => rfl
  have hone : ∀ i, ATmr.verifyChecksum (crcOfValue n) s i = true ↔ s.copies i = s₀.copies i := by
    intro i
    unfold ATmr.verifyChecksum
    rw [beq_iff_eq, hsum, hs0]
    exact ⟨fun h => (crcOfValue_inj hn h).symm, fun h => by rw [h]⟩
  unfold ATmr.verify
  simp only [Bool.and_eq_true, hone]
  constructor
  · rintro ⟨⟨h0, h1⟩, h2⟩ i
    match i with
    | 0 => exact h0
    | 1 => exact h1
    | 2 => exact h2
  · intro h; exact ⟨⟨h 0, h 1⟩, h 2⟩

example : ATmr.verify (crcOfValue 4) (ATmr.upset 1 9#32 (ATmr.set (ATmr.signed 32 none) ATmr.defaultTypes
    (crcOfValue 4) 8#32)) = false := by decide +kernel

/-- **C18 (repair).** For integer types, `repair()` always leaves an object that verifies and whose `get()`
is the value `get()` returned before the repair. -/
theorem C18_repair_keeps_value (w : Nat) (hw : 3 ≤ w) (crc : BitVec w → BitVec 32)
    (custom : Option (BitVec w → BitVec w)) (s : ATmr.State (BitVec w)) :
    let t := ATmr.repair (beqInt w) (ATmr.signed w custom) ATmr.defaultTypes crc s
    ATmr.verify crc t = true ∧
    ATmr.get (beqInt w) ATmr.defaultTypes t = ATmr.get (beqInt w) ATmr.defaultTypes s := by
  intro t
  refine ⟨?_, (C18_int_roundtrip w hw crc custom _).1⟩
  simp [t, ATmr.repair, ATmr.verify, ATmr.verifyChecksum, ATmr.set]

/-- **C18 (reduced precision).** The reduced-precision approximation clears exactly the low two bits of integers of at
most 16 bits, the low three bits of wider ones, and the low five bits of a `float`; all other bits are kept. -/
theorem C18_reduced_precision :
    (∀ (w : Nat) (v : BitVec w) (i : Nat), w ≤ 16 →
      (ATmr.reduceSigned v).getLsbD i = (decide (2 ≤ i) && v.getLsbD i) ∧
      (ATmr.reduceUnsigned v).getLsbD i = (decide (2 ≤ i) && v.getLsbD i)) ∧
    (∀ (w : Nat) (v : BitVec w) (i : Nat), 24 ≤ w →
      (ATmr.reduceSigned v).getLsbD i = (decide (3 ≤ i) && v.getLsbD i) ∧
      (ATmr.reduceUnsigned v).getLsbD i = (decide (3 ≤ i) && v.getLsbD i)) ∧
    (∀ (v : BitVec 32) (i : Nat), (ATmr.reduceF32 v).getLsbD i = (decide (5 ≤ i) && v.getLsbD i)) := by
  have gen : ∀ (w : Nat) (v : BitVec w) (i : Nat),
      (ATmr.reduceSigned v).getLsbD i = (decide (ATmr.shiftFor w ≤ i) && v.getLsbD i) ∧
      (ATmr.reduceUnsigned v).getLsbD i = (decide (ATmr.shiftFor w ≤ i) && v.getLsbD i) := by
    intro w v i
    unfold ATmr.reduceSigned ATmr.reduceUnsigned
    generalize ATmr.shiftFor w = k
    rw [BitVec.getLsbD_shiftLeft, BitVec.getLsbD_shiftLeft, BitVec.getLsbD_sshiftRight, BitVec.getLsbD_ushiftRight]
    by_cases hi : i < w
    · by_cases hk : k ≤ i
      · have e : k + (i - k) = i := by omega
        have h1 : ¬ w ≤ i - k := by omega
        simp [hi, hk, e, h1, Nat.not_lt.mpr hk]
      · simp [hi, hk, Nat.lt_of_not_le hk]
    · have : v.getLsbD i = false := BitVec.getLsbD_of_ge v i (by omega)
      simp [hi, this]
  refine ⟨fun w v i h => ?_, fun w v i h => ?_, fun v i => ?_⟩
  · have e : ATmr.shiftFor w = 2 := by unfold ATmr.shiftFor; rw [if_pos (by omega)]
    have := gen w v i
    rwa [e] at this
  · have e : ATmr.shiftFor w = 3 := by unfold ATmr.shiftFor; rw [if_neg (by omega)]
    have := gen w v i
    rwa [e] at this
  · unfold ATmr.reduceF32
    rw [BitVec.getLsbD_and]
    by_cases hi : i < 32
    · have : ∀ i : Fin 32, (~~~ ((1#32 <<< 5) - 1#32)).getLsbD i.val = decide (5 ≤ i.val) := by decide
      rw [this ⟨i, hi⟩, Bool.and_comm]
    · have : v.getLsbD i = false := BitVec.getLsbD_of_ge v i (by omega)
      simp [this]

example : ATmr.reduceSigned (0xFF#16) = 0xFC#16 ∧ ATmr.reduceUnsigned (0xFF#32) = 0xF8#32 := by decide

/-- **C18 (range limiting, signed).** The range-limited approximation of a signed integer is the value clamped to
`±(2^(w-2) - 1)`. -/
theorem C18_range_limited_signed (w : Nat) (hw : 3 ≤ w) (v : BitVec w) :
    (ATmr.limitSigned v).toInt = max (min v.toInt (2 ^ (w - 2) - 1)) (-(2 ^ (w - 2) - 1)) := by
  obtain ⟨k, rfl⟩ : ∃ k, w = k + 3 := ⟨w - 3, by omega⟩
  have h1 : 1 ≤ 2 ^ (k + 1) := Nat.one_le_two_pow
  have hp : (2 : Nat) ^ (k + 3) = 4 * 2 ^ (k + 1) := by rw [show k + 3 = (k + 1) + 2 by omega, Nat.pow_add]; omega
  have hl : (BitVec.ofNat (k + 3) (2 ^ (k + 3 - 2) - 1)).toInt = 2 ^ (k + 1) - 1 := by
    have hn : (BitVec.ofNat (k + 3) (2 ^ (k + 3 - 2) - 1)).toNat = 2 ^ (k + 1) - 1 := by
      rw [BitVec.toNat_ofNat, show k + 3 - 2 = k + 1 by omega]; exact Nat.mod_eq_of_lt (by omega)
    rw [BitVec.toInt_eq_toNat_of_lt (by rw [hn]; omega), hn]
    push_cast [h1]; rfl
  have hn : (-BitVec.ofNat (k + 3) (2 ^ (k + 3 - 2) - 1)).toInt = -(2 ^ (k + 1) - 1) := by
    rw [BitVec.toInt_neg, hl, Int.bmod_eq_of_le]
    · push_cast [hp]
      have : (1 : Int) ≤ 2 ^ (k + 1) := by exact_mod_cast h1
      omega
    · push_cast [hp]
      have : (1 : Int) ≤ 2 ^ (k + 1) := by exact_mod_cast h1
      omega
  have e2 : k + 3 - 2 = k + 1 := by omega
  unfold ATmr.limitSigned
  simp only [BitVec.slt_iff_toInt_lt]
  rw [e2] at hl hn ⊢
  have h1' : (1 : Int) ≤ 2 ^ (k + 1) := by exact_mod_cast h1
  generalize (2 : Int) ^ (k + 1) = P at *
  split
  · rw [hl, hn, if_neg (by omega), hl]
    omega
  · rw [hn]
    split
    · rw [hn]; omega
    · omega

/-- **C18 (range limiting, unsigned, violated).** For unsigned integer types the 'range-limited' copy is the constant
`2^(w-1) + 1`, whatever the value: it carries no redundancy at all. -/
theorem C18_range_limited_unsigned_violated (w : Nat) (hw : 2 ≤ w) (v : BitVec w) :
    (ATmr.limitUnsigned v).toNat = 2 ^ (w - 1) + 1 := by
  obtain ⟨k, rfl⟩ : ∃ k, w = k + 2 := ⟨w - 2, by omega⟩
  have h1 : 2 ≤ 2 ^ (k + 1) := by
    have : 1 ≤ 2 ^ k := Nat.one_le_two_pow
    rw [Nat.pow_succ]; omega
  have hp : (2 : Nat) ^ (k + 2) = 2 * 2 ^ (k + 1) := by rw [Nat.pow_succ]; omega
  have e : k + 2 - 1 = k + 1 := by omega
  have hl : (BitVec.ofNat (k + 2) (2 ^ (k + 1) - 1)).toNat = 2 ^ (k + 1) - 1 := by
    rw [BitVec.toNat_ofNat]; exact Nat.mod_eq_of_lt (by omega)
  have hn : (-BitVec.ofNat (k + 2) (2 ^ (k + 1) - 1)).toNat = 2 ^ (k + 1) + 1 := by
    rw [BitVec.toNat_neg, hl, Nat.mod_eq_of_lt (by omega)]; omega
  unfold ATmr.limitUnsigned
  simp only [BitVec.lt_def, e, hl, hn]
  rw [if_pos, hn]
  split
  · rw [hl]; omega
  · omega

/-- **C18 (indexed read).** `getApproximateValue` is total: out of range indices give the default value. -/
theorem C18_indexed_read {α : Type} (d : α) (ap : ATmr.Approx α) (ty : Fin 3 → ATmr.ApproxType)
    (crc : α → BitVec 32) (v : α) (i : Nat) :
    ATmr.getApproximateValue d (ATmr.set ap ty crc v) i =
      if h : i < 3 then ATmr.applyApproximation ap v (ty ⟨i, h⟩) else d := by
  unfold ATmr.getApproximateValue
  by_cases h : i < 3
  · rw [dif_neg (by omega), dif_pos h]; rfl
  · rw [dif_pos (by omega), dif_neg h]

end Verif.Props
