import Verif.Model.FixedPoint
import Mathlib.Tactic.Linarith
import Mathlib.Tactic.FieldSimp
import Mathlib.Tactic.Ring
import Mathlib.Tactic.NormNum
import Mathlib.Algebra.Order.Floor.Ring
import Mathlib.Algebra.Order.Field.Rat
/-!
Property C32: fixed-point arithmetic is exact within range.
-/
namespace Verif.Props.Fixed
open Verif Verif.Fixed

/-- The rational number a raw value stands for: `raw / 2^f`. -/
def val (f : Nat) (raw : Int) : ℚ := raw / 2 ^ f

/-- A base type of 16 or 32 bits with a sign bit left over (`f ≤ w - 2`), as in the three provided aliases. -/
def Fmt (w f : Nat) : Prop := (w = 16 ∨ w = 32) ∧ f + 2 ≤ w

theorem narrow_of_inRange (w : Nat) (hw : 0 < w) (x : Int) (h : inRange w x) : narrow w x = x := by
  unfold narrow
  obtain ⟨h1, h2⟩ := h
  obtain ⟨k, rfl⟩ : ∃ k, w = k + 1 := ⟨w - 1, by omega⟩
  simp only [Nat.add_sub_cancel] at h1 h2
  have hp : ((2 ^ (k + 1) : Nat) : Int) = 2 * 2 ^ k := by push_cast; ring
  apply Int.bmod_eq_of_le
  · rw [hp]; omega
  · rw [hp]; omega

theorem inRange_mono {w w' : Nat} (h : w ≤ w') {x : Int} (hx : inRange w x) : inRange w' x := by
  obtain ⟨h1, h2⟩ := hx
  have : (2 : Int) ^ (w - 1) ≤ 2 ^ (w' - 1) := pow_le_pow_right₀ (by norm_num) (by omega)
  exact ⟨by omega, by omega⟩

theorem store_of_inRange (w : Nat) (hw : 0 < w) (x : Int) (h : inRange w x) : store w x = .ok x := by
  unfold store
  rw [if_pos (inRange_mono (Nat.le_max_left _ _) h), narrow_of_inRange w hw x h]

theorem scale_eq {w f : Nat} (h : Fmt w f) : scale w f = 2 ^ f := by
  apply narrow_of_inRange w (by rcases h.1 with h | h <;> omega)
  have h1 : (2 : Int) ^ f < 2 ^ (w - 1) := by
    have := Nat.pow_lt_pow_right (a := 2) (by omega) (show f < w - 1 by have := h.2; omega)
    exact_mod_cast this
  have h2 : (0 : Int) < 2 ^ f := by positivity
  exact ⟨by omega, h1⟩

/-- **C32, addition and subtraction.** For every base width and every pair of raw values whose exact sum
(difference) is representable, the operation is defined and exact. -/
theorem C32_add_sub_exact (w f : Nat) (hw : 0 < w) (a b : Int) :
    (inRange w (a + b) → ∃ r, add w a b = .ok r ∧ val f r = val f a + val f b) ∧
    (inRange w (a - b) → ∃ r, sub w a b = .ok r ∧ val f r = val f a - val f b) := by
  refine ⟨fun h => ⟨a + b, store_of_inRange w hw _ h, ?_⟩, fun h => ⟨a - b, store_of_inRange w hw _ h, ?_⟩⟩
  · simp only [val]; push_cast; ring
  · simp only [val]; push_cast; ring

/-- 1.5 + (-2.25) = -0.75 in 16.16. -/
example : inRange 32 (98304 + -147456) ∧ add 32 98304 (-147456) = .ok (-49152) ∧ val 16 (-49152) = -3 / 4 := by
  refine ⟨by decide, by decide, by norm_num [val]⟩

/-- **C32, addition.** For the 32- and 64-bit base types an unrepresentable sum is undefined behaviour; for the
16-bit base type it silently wraps around. -/
theorem C32_add_out_of_range (w : Nat) (a b : Int) (ha : inRange w a) (hb : inRange w b)
    (h : ¬ inRange w (a + b)) :
    (32 ≤ w → add w a b = .ub) ∧
    (w = 16 → ∃ r, add w a b = .ok r ∧ (r = a + b - 2 ^ 16 ∨ r = a + b + 2 ^ 16)) := by
  refine ⟨fun hw => ?_, fun hw => ?_⟩
  · unfold add store
    rw [if_neg]
    rwa [Nat.max_eq_left hw]
  · subst hw
    unfold inRange at ha hb h
    norm_num at ha hb h
    refine ⟨narrow 16 (a + b), ?_, ?_⟩
    · unfold add store
      rw [if_pos]
      refine ⟨?_, ?_⟩ <;> norm_num <;> omega
    · unfold narrow
      norm_num
      rw [Int.bmod_def]
      split <;> omega

example : add 16 32767 1 = .ok (-32768) ∧ add 32 2147483647 1 = .ub := by decide

/-- **C32, multiplication.** For 16/32-bit base types: the 64-bit product never overflows, and whenever the rounded
product is representable the result is the exact product rounded down to a multiple of `2^-f`
(so it is at most the product and less than one unit below it). -/
theorem C32_mul_rounds_down (w f : Nat) (h : Fmt w f) (a b : Int) (ha : inRange w a) (hb : inRange w b)
    (hr : inRange w ⌊val f a * val f b * 2 ^ f⌋) :
    ∃ r, mul w f a b = .ok r ∧ val f r ≤ val f a * val f b ∧ val f a * val f b < val f r + 1 / 2 ^ f := by
  have hp : (0 : ℚ) < 2 ^ f := by positivity
  have hw : 0 < w := by rcases h.1 with h | h <;> omega
  have e : val f a * val f b * 2 ^ f = ((a * b : Int) : ℚ) / ((2 ^ f : Nat) : ℚ) := by
    simp only [val]; push_cast; field_simp
  have e2 : ⌊val f a * val f b * 2 ^ f⌋ = a * b / 2 ^ f := by
    rw [e, Rat.floor_intCast_div_natCast]; push_cast; rfl
  have h64 : inRange 64 (a * b) := by
    have hab : ∀ x : Int, inRange w x → |x| ≤ 2 ^ 31 := by
      intro x hx
      have := inRange_mono (show w ≤ 32 by rcases h.1 with h | h <;> omega) hx
      obtain ⟨h1, h2⟩ := this
      rw [abs_le]
      norm_num at h1 h2 ⊢
      omega
    have h1 := hab a ha
    have h2 := hab b hb
    have h3 : |a * b| ≤ 2 ^ 31 * 2 ^ 31 := by
      rw [abs_mul]; exact mul_le_mul h1 h2 (abs_nonneg _) (by norm_num)
    rw [abs_le] at h3
    refine ⟨?_, ?_⟩ <;> norm_num at h3 ⊢ <;> omega
  rw [e2] at hr
  refine ⟨a * b / 2 ^ f, ?_, ?_⟩
  · unfold mul; rw [if_pos h64, narrow_of_inRange w hw _ hr]
  · rw [← e2]
    simp only [show ∀ r : Int, val f r = (r : ℚ) / 2 ^ f from fun _ => rfl]
    have h1 := Int.floor_le (val f a * val f b * 2 ^ f)
    have h2 := Int.lt_floor_add_one (val f a * val f b * 2 ^ f)
    constructor
    · rw [div_le_iff₀ hp]; exact h1
    · rw [← add_div, lt_div_iff₀ hp]; exact h2

/-- 1.5 * 2.25 = 3.375 in 16.16. -/
example : Fmt 32 16 ∧ mul 32 16 98304 147456 = .ok 221184 ∧ val 16 221184 = 27 / 8 := by
  refine ⟨⟨Or.inr rfl, by omega⟩, by decide, by norm_num [val]⟩

/-- **C32, division (partial).** For 16/32-bit base types, a non-zero divisor and a representable quotient the result
is the exact quotient truncated towards zero to a multiple of `2^-f`, under the C++20 shift rule for every dividend
and under the C++17 rule for non-negative dividends.
Missing: under C++17 a negative dividend is undefined behaviour, see `C32_negative_dividend_violated`. -/
theorem C32_div_truncates_partial (cxx20 : Bool) (w f : Nat) (h : Fmt w f) (a b : Int) (ha : inRange w a)
    (hb0 : b ≠ 0) (hd : cxx20 = true ∨ 0 ≤ a)
    (hr : inRange w (truncate (val f a / val f b * 2 ^ f))) :
    ∃ r, div cxx20 w f a b = .ok r ∧ |val f r - val f a / val f b| < 1 / 2 ^ f ∧
      |val f r| ≤ |val f a / val f b| := by
  have hp : (0 : ℚ) < 2 ^ f := by positivity
  have hw : 0 < w := by rcases h.1 with h | h <;> omega
  have hw32 : w ≤ 32 := by rcases h.1 with h | h <;> omega
  have hbq : (b : ℚ) ≠ 0 := by exact_mod_cast hb0
  have e : val f a / val f b * 2 ^ f = ((a * 2 ^ f : Int) : ℚ) / (b : ℚ) := by
    simp only [val]; push_cast; field_simp
  -- the scaled dividend fits 64 bits
  have ha32 := inRange_mono hw32 ha
  have hf : (2 : Int) ^ f ≤ 2 ^ 30 := pow_le_pow_right₀ (by norm_num) (by have := h.2; omega)
  have hf0 : (0 : Int) < 2 ^ f := by positivity
  have habs : |a * 2 ^ f| ≤ 2 ^ 31 * 2 ^ 30 := by
    rw [abs_mul, abs_of_pos hf0]
    refine mul_le_mul ?_ hf (le_of_lt hf0) (by norm_num)
    obtain ⟨h1, h2⟩ := ha32
    rw [abs_le]; norm_num at h1 h2 ⊢; omega
  have h64 : inRange 64 (a * 2 ^ f) := by
    rw [abs_le] at habs
    refine ⟨?_, ?_⟩ <;> norm_num at habs ⊢ <;> omega
  have htd : truncate (((a * 2 ^ f : Int) : ℚ) / (b : ℚ)) = (a * 2 ^ f).tdiv b := by
    generalize a * 2 ^ f = x
    unfold truncate
    have key : ∀ x y : Int, ⌊(x : ℚ) / (y : ℚ)⌋ = x / y ∨ y < 0 := by
      intro x y
      by_cases hy : y < 0
      · exact Or.inr hy
      · left
        obtain ⟨n, rfl⟩ : ∃ n : Nat, y = n := ⟨y.toNat, by omega⟩
        exact_mod_cast Rat.floor_intCast_div_natCast x n
    have keyp : ∀ x y : Int, 0 < y → ⌊(x : ℚ) / (y : ℚ)⌋ = x / y := fun x y hy => (key x y).resolve_right (by omega)
    have nn : ∀ x y : Int, 0 < y → (if (0 : ℚ) ≤ (x : ℚ) / y then ⌊(x : ℚ) / y⌋ else ⌈(x : ℚ) / y⌉) = x.tdiv y := by
      intro x y hy
      have hyq : (0 : ℚ) < y := by exact_mod_cast hy
      by_cases hx : 0 ≤ x
      · have : (0 : ℚ) ≤ (x : ℚ) / y := div_nonneg (by exact_mod_cast hx) hyq.le
        rw [if_pos this, keyp x y hy, Int.tdiv_eq_ediv_of_nonneg hx]
      · have hxq : (x : ℚ) < 0 := by exact_mod_cast (by omega : x < 0)
        have : ¬ (0 : ℚ) ≤ (x : ℚ) / y := not_le.2 (div_neg_of_neg_of_pos hxq hyq)
        rw [if_neg this]
        have e1 : (x : ℚ) / y = - (((-x : Int) : ℚ) / y) := by push_cast; ring
        rw [e1, Int.ceil_neg, keyp (-x) y hy, ← Int.tdiv_eq_ediv_of_nonneg (by omega), Int.neg_tdiv]
        omega
    rcases lt_or_gt_of_ne hb0 with hneg | hpos
    · have e1 : (x : ℚ) / b = ((-x : Int) : ℚ) / ((-b : Int) : ℚ) := by push_cast; rw [neg_div_neg_eq]
      rw [e1]
      have := nn (-x) (-b) (by omega)
      rw [this, Int.neg_tdiv, Int.tdiv_neg, neg_neg]
    · exact nn x b hpos
  rw [e, htd] at hr
  refine ⟨(a * 2 ^ f).tdiv b, ?_, ?_⟩
  · unfold div
    rw [if_neg hb0, if_neg]
    · simp only [narrow_of_inRange 64 (by omega) _ h64]
      rw [if_pos (inRange_mono (by omega) hr), narrow_of_inRange w hw _ hr]
    · rintro ⟨h1, h2⟩
      rcases hd with hd | hd
      · rw [hd] at h1; cases h1
      · rcases h2 with h2 | h2
        · omega
        · have := h64.2; norm_num at this h2; omega
  · have hq : val f a / val f b = ((a * 2 ^ f : Int) : ℚ) / (b : ℚ) / 2 ^ f := by
      rw [← e]; field_simp
    rw [hq, ← htd]
    generalize ((a * 2 ^ f : Int) : ℚ) / (b : ℚ) = q
    simp only [show ∀ r : Int, val f r = (r : ℚ) / 2 ^ f from fun _ => rfl]
    rw [← sub_div, abs_div, abs_div, abs_div, abs_of_pos hp]
    unfold truncate
    split
    next hq0 =>
      have h1 := Int.floor_le q
      have h2 := Int.lt_floor_add_one q
      have h3 : (0 : ℚ) ≤ ⌊q⌋ := by exact_mod_cast Int.floor_nonneg.2 hq0
      refine ⟨(div_lt_div_iff_of_pos_right hp).2 ?_, (div_le_div_iff_of_pos_right hp).2 ?_⟩
      · rw [abs_lt]; constructor <;> linarith
      · rw [abs_of_nonneg h3, abs_of_nonneg hq0]; exact h1
    next hq0 =>
      have h1 := Int.le_ceil q
      have h2 := Int.ceil_lt_add_one q
      have h3 : ((⌈q⌉ : Int) : ℚ) ≤ 0 := by
        have : ⌈q⌉ ≤ 0 := Int.ceil_le.2 (by push_cast; linarith [not_le.1 hq0])
        exact_mod_cast this
      refine ⟨(div_lt_div_iff_of_pos_right hp).2 ?_, (div_le_div_iff_of_pos_right hp).2 ?_⟩
      · rw [abs_lt]; constructor <;> linarith
      · rw [abs_of_nonpos h3, abs_of_neg (not_le.1 hq0)]; linarith

/-- -1.5 / 2.25 = -0.666… → -43690/65536 in 16.16 under the C++20 rule. -/
example : div true 32 16 (-98304) 147456 = .ok (-43690) ∧ div false 32 16 98304 147456 = .ok 43690 := by decide

/-- **C32 (violated).** Under C++17, which the build selects, dividing any negative number is undefined behaviour
(left shift of a negative value), for every format and every divisor. -/
theorem C32_negative_dividend_violated (w f : Nat) (a b : Int) (ha : a < 0) : div false w f a b = .ub := by
  unfold div
  by_cases hb : b = 0
  · rw [if_pos hb]
  · rw [if_neg hb, if_pos ⟨rfl, Or.inl ha⟩]

example : (-98304 : Int) < 0 ∧ div false 32 16 (-98304) 147456 = .ub := by decide

/-- **C32, comparison.** The six comparison operators agree with the represented rational numbers. -/
theorem C32_comparison (f : Nat) (a b : Int) :
    (lt a b = true ↔ val f a < val f b) ∧ (le a b = true ↔ val f a ≤ val f b) ∧
    (gt a b = true ↔ val f a > val f b) ∧ (ge a b = true ↔ val f a ≥ val f b) ∧
    (eq a b = true ↔ val f a = val f b) ∧ (ne a b = true ↔ val f a ≠ val f b) := by
  have hp : (0 : ℚ) < 2 ^ f := by positivity
  have h1 : ∀ x y : Int, val f x < val f y ↔ x < y := by
    intro x y; simp only [val]; rw [div_lt_div_iff_of_pos_right hp]; exact_mod_cast Iff.rfl
  have h2 : ∀ x y : Int, val f x ≤ val f y ↔ x ≤ y := by
    intro x y; simp only [val]; rw [div_le_div_iff_of_pos_right hp]; exact_mod_cast Iff.rfl
  have h3 : ∀ x y : Int, val f x = val f y ↔ x = y := by
    intro x y; rw [le_antisymm_iff, h2, h2, ← le_antisymm_iff]
  simp [lt, le, gt, ge, eq, ne, h1, h2, h3]

example : lt (-5) 3 = true ∧ ge 3 3 = true := by decide

/-- **C32, conversions.** An integer in range converts to the fixed-point number with exactly its value and reads back
unchanged; a real number in range converts with an error below one unit, exactly if it is a multiple of `2^-f`. -/
theorem C32_conversions (w f : Nat) (h : Fmt w f) :
    (∀ n : Int, inRange w (n * 2 ^ f) → ∃ r, ofInt w f n = .ok r ∧ val f r = n ∧ toReal w f r = n) ∧
    (∀ r : Int, toReal w f r = val f r) ∧
    (∀ r : Int, inRange w r → ofReal w f (val f r) = .ok r) ∧
    (∀ x : ℚ, inRange w (truncate (x * 2 ^ f)) → ∃ r, ofReal w f x = .ok r ∧ |val f r - x| < 1 / 2 ^ f) := by
  have hp : (0 : ℚ) < 2 ^ f := by positivity
  have hw : 0 < w := by rcases h.1 with h | h <;> omega
  have hs := scale_eq h
  have htr : ∀ r : Int, toReal w f r = val f r := by intro r; simp [toReal, val, hs]
  refine ⟨fun n hn => ⟨n * 2 ^ f, ?_, ?_, ?_⟩, htr, fun r hr => ?_, fun x hx => ⟨truncate (x * 2 ^ f), ?_, ?_⟩⟩
  · unfold ofInt; rw [hs]; exact store_of_inRange w hw _ hn
  · simp only [val]; push_cast; field_simp
  · rw [htr]; simp only [val]; push_cast; field_simp
  · unfold ofReal
    have e : val f r * ((scale w f : Int) : ℚ) = (r : ℚ) := by
      rw [hs]; simp only [val]; push_cast; field_simp
    have : truncate (r : ℚ) = r := by unfold truncate; split <;> simp
    simp only [e, this, if_pos hr]
  · unfold ofReal
    have e : x * ((scale w f : Int) : ℚ) = x * 2 ^ f := by rw [hs]; push_cast; rfl
    simp only [e, if_pos hx]
  · obtain ⟨q, hq⟩ : ∃ q, q = x * 2 ^ f := ⟨_, rfl⟩
    have hx' : x = q / 2 ^ f := by rw [hq]; field_simp
    rw [← hq, hx', val, ← sub_div, abs_div, abs_of_pos hp, div_lt_div_iff_of_pos_right hp]
    unfold truncate
    split
    · have h1 := Int.floor_le q
      have h2 := Int.lt_floor_add_one q
      rw [abs_lt]; constructor <;> linarith
    · have h1 := Int.le_ceil q
      have h2 := Int.ceil_lt_add_one q
      rw [abs_lt]; constructor <;> linarith

/-- The three aliases provided by the library are formats in the sense used here. -/
example : Fmt 32 16 ∧ Fmt 16 8 ∧ Fmt 32 24 := by simp [Fmt]

example : ofInt 32 16 (-7) = .ok (-458752) ∧ inRange 32 ((-7 : Int) * 2 ^ 16) := by decide

/-- **C32 (violated).** The class also accepts formats without room for the sign bit of the scale
(e.g. `FixedPoint<1, 15, int16_t>`): there the scale constant is negative and the number one reads back as minus one
in raw form: `FixedPoint(1).raw_value()` is `-32768`, which stands for -1. -/
theorem C32_no_sign_bit_violated : scale 16 15 = -2 ^ 15 ∧ ofInt 16 15 1 = .ok (-2 ^ 15) ∧ val 15 (-2 ^ 15) = -1 := by
  refine ⟨by decide, by decide, by norm_num [val]⟩

end Verif.Props.Fixed
