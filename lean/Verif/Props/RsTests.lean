import Verif.Model.RsTests
import Verif.Lemmas.Gf
import Mathlib.Algebra.Polynomial.Eval.Defs
import Mathlib.Algebra.BigOperators.Fin
import Mathlib.Tactic.Ring
/-!
Properties C279 to C281 of the stand-alone Reed–Solomon programs (model `Verif.RsTests`).
-/
namespace Verif.Props.RsTests
open Verif Verif.RsTests Verif.Spec
open Verif.GF (wordPoly_xor wordPoly_zero wordPoly_one wordPoly_double coeff_wordPoly degree_wordPoly_lt wordPoly_inj)

/-! ### The field -/

/-- The polynomial of the comment, x⁸ + x⁴ + x³ + x² + 1. -/
abbrev P : ℕ := 0x11D

/-- α. -/
noncomputable abbrev α : FieldOf P := alpha P

theorem elt_xor (a b : ℕ) : elt P (a ^^^ b) = elt P a + elt P b := by simp [elt, wordPoly_xor]
theorem elt_zero : elt P 0 = 0 := by simp [elt, wordPoly_zero]
theorem elt_one : elt P 1 = 1 := by simp [elt, wordPoly_one]
theorem elt_double (x : ℕ) : elt P (2 * x) = α * elt P x := by simp [elt, alpha, wordPoly_double]
theorem elt_self : elt P P = 0 := AdjoinRoot.mk_self

theorem timesAlpha_eq : ∀ x, x < 256 → timesAlpha x < 256 ∧ timesAlpha x = (2 * x) ^^^ (if x.testBit 7 then P else 0) := by decide +kernel

theorem elt_timesAlpha {x : ℕ} (h : x < 256) : elt P (timesAlpha x) = α * elt P x := by
  rw [(timesAlpha_eq x h).2, elt_xor, elt_double]
  have : elt P (if x.testBit 7 then P else 0) = 0 := by
    split
    · exact elt_self
    · exact elt_zero
  rw [this, add_zero]

theorem degree_P : (wordPoly P).degree = 8 := by
  apply le_antisymm
  · rw [Polynomial.degree_le_iff_coeff_zero]
    intro k hk
    have hk' : 8 < k := by exact_mod_cast hk
    rw [coeff_wordPoly, Nat.testBit_lt_two_pow (lt_of_lt_of_le (show P < 2 ^ 9 by decide) (Nat.pow_le_pow_right (by norm_num) hk'))]
    simp
  · apply Polynomial.le_degree_of_ne_zero
    rw [coeff_wordPoly, show P.testBit 8 = true by decide]; simp

theorem elt_inj {a b : ℕ} (ha : a < 256) (hb : b < 256) (e : elt P a = elt P b) : a = b := by
  have hd := AdjoinRoot.mk_eq_mk.mp e
  have hz := Polynomial.eq_zero_of_dvd_of_degree_lt hd (by
    rw [degree_P]
    exact lt_of_le_of_lt (Polynomial.degree_sub_le _ _) (max_lt (degree_wordPoly_lt (m := 8) ha) (degree_wordPoly_lt (m := 8) hb)))
  exact wordPoly_inj (sub_eq_zero.mp hz)

theorem powers_spec : ∀ (n x j : ℕ), x < 256 → j < n → (powers n x).getD j 0 < 256 ∧ elt P ((powers n x).getD j 0) = α ^ j * elt P x
  | 0, _, _, _, h => by omega
  | n + 1, x, 0, hx, _ => by simp [powers, hx]
  | n + 1, x, j + 1, hx, h => by
    obtain ⟨h1, h2⟩ := powers_spec n (timesAlpha x) j (timesAlpha_eq x hx).1 (by omega)
    simp only [powers, List.getD_cons_succ]
    exact ⟨h1, by rw [h2, elt_timesAlpha hx]; ring⟩

theorem powers_length : ∀ n x, (powers n x).length = n
  | 0, _ => rfl
  | n + 1, x => by rw [powers, List.length_cons, powers_length n]

theorem exp_lt255 {j : ℕ} (h : j < 255) : exp j = (powers 255 1).getD j 0 := by
  unfold exp expTable
  rw [List.getD_eq_getElem?_getD, List.getElem?_append_left (by rw [powers_length]; exact h), ← List.getD_eq_getElem?_getD]

theorem α255 : α ^ 255 = 1 := by
  have h := (powers_spec 256 1 255 (by omega) (by omega)).2
  have e : (powers 256 1).getD 255 0 = 1 := by decide +kernel
  rw [e, elt_one, mul_one] at h
  exact h.symm

theorem α_mod (n : ℕ) : α ^ (n % 255) = α ^ n := by
  conv_rhs => rw [← Nat.mod_add_div n 255, pow_add, pow_mul, α255, one_pow, mul_one]

theorem exp_spec {j : ℕ} (h : j ≤ 255) : exp j < 256 ∧ elt P (exp j) = α ^ j := by
  rcases Nat.lt_or_ge j 255 with h1 | h1
  · have := powers_spec 255 1 j (by omega) h1
    rw [exp_lt255 h1]
    exact ⟨this.1, by rw [this.2, elt_one, mul_one]⟩
  · obtain rfl : j = 255 := by omega
    have e : exp 255 = 1 := by decide +kernel
    rw [e, elt_one, α255]
    exact ⟨by omega, rfl⟩

theorem exp_nodup : (powers 255 1).Nodup := by decide +kernel

theorem exp_inj {i j : ℕ} (hi : i < 255) (hj : j < 255) (h : exp i = exp j) : i = j := by
  rw [exp_lt255 hi, exp_lt255 hj] at h
  rw [List.getD_eq_getElem?_getD, List.getD_eq_getElem?_getD, List.getElem?_eq_getElem (by rw [powers_length]; exact hi),
    List.getElem?_eq_getElem (by rw [powers_length]; exact hj)] at h
  exact (List.Nodup.getElem_inj_iff exp_nodup).1 h

theorem log_exp {j : ℕ} (hj : j < 255) : log (exp j) = j := by
  have : ∀ n, n ≤ 255 → forN n (fun i l => if exp i = exp j then i else l) 0 = if j < n then j else 0 := by
    intro n
    induction n with
    | zero => intro _; rfl
    | succ n ih =>
      intro hn
      rw [forN, ih (by omega)]
      by_cases h : exp n = exp j
      · obtain rfl := exp_inj (by omega) hj h
        rw [if_pos rfl, if_pos (by omega)]
      · rw [if_neg h]
        have hne : n ≠ j := fun e => h (by rw [e])
        by_cases h2 : j < n
        · rw [if_pos h2, if_pos (by omega)]
        · rw [if_neg h2, if_neg (by omega)]
  rw [log, this 255 (le_refl _), if_pos hj]

theorem exp_onto : ∀ a, a < 256 → a ≠ 0 → (powers 255 1).idxOf a < 255 := by decide +kernel

theorem log_spec {a : ℕ} (h : a < 256) (h0 : a ≠ 0) : log a < 255 ∧ elt P a = α ^ log a := by
  have h1 := exp_onto a h h0
  have h2 : exp ((powers 255 1).idxOf a) = a := by
    rw [exp_lt255 h1, List.getD_eq_getElem?_getD, List.getElem?_eq_getElem (by rw [powers_length]; exact h1), Option.getD_some, List.getElem_idxOf]
  have h3 : log a = (powers 255 1).idxOf a := by conv_lhs => rw [← h2]; rw [log_exp h1]
  rw [h3]
  refine ⟨h1, ?_⟩
  rw [← (exp_spec h1.le).2, h2]

theorem mod_le (n : ℕ) : n % 255 ≤ 255 := (Nat.mod_lt n (by omega)).le

theorem multiply_spec {a b : ℕ} (ha : a < 256) (hb : b < 256) : multiply a b < 256 ∧ elt P (multiply a b) = elt P a * elt P b := by
  unfold multiply
  by_cases h : a = 0 ∨ b = 0
  · rw [if_pos h]
    refine ⟨by omega, ?_⟩
    rcases h with rfl | rfl <;> simp [elt_zero]
  · rw [if_neg h]
    rw [not_or] at h
    have e := exp_spec (mod_le (log a + log b))
    exact ⟨e.1, by rw [e.2, α_mod, pow_add, (log_spec ha h.1).2, (log_spec hb h.2).2]⟩

theorem divide_spec {a b : ℕ} (ha : a < 256) (hb : b < 256) (h0 : b ≠ 0) : ∃ c, divide a b = some c ∧ c < 256 ∧ elt P c * elt P b = elt P a := by
  unfold divide
  rw [if_neg h0]
  by_cases h : a = 0
  · rw [if_pos h]
    exact ⟨0, rfl, by omega, by rw [h, elt_zero, zero_mul]⟩
  · rw [if_neg h]
    have e := exp_spec (mod_le (log a + 255 - log b))
    obtain ⟨hb1, hb2⟩ := log_spec hb h0
    refine ⟨_, rfl, e.1, ?_⟩
    rw [e.2, α_mod, hb2, ← pow_add, show log a + 255 - log b + log b = log a + 255 by omega, pow_add, α255, mul_one, (log_spec ha h).2]

/-! ### Polynomials -/

/-- All entries are bytes. -/
def Bytes (l : List ℕ) : Prop := ∀ x ∈ l, x < 256

theorem Bytes.getD {l : List ℕ} (h : Bytes l) (j : ℕ) : l.getD j 0 < 256 := by
  rw [List.getD_eq_getElem?_getD]
  cases e : l[j]? with
  | none => simp
  | some x => exact h x (List.mem_of_getElem? e)

/-- The polynomial with these coefficients, lowest first. -/
noncomputable def asPoly (l : List ℕ) : Polynomial (FieldOf P) := ∑ i ∈ Finset.range l.length, Polynomial.C (elt P (l.getD i 0)) * Polynomial.X ^ i

theorem asPoly_set {l : List ℕ} {k : ℕ} (hk : k < l.length) (y : ℕ) : asPoly (l.set k (add (l.getD k 0) y)) = asPoly l + Polynomial.C (elt P y) * Polynomial.X ^ k := by
  have hs : ∀ j, elt P ((l.set k (add (l.getD k 0) y)).getD j 0) = elt P (l.getD j 0) + if j = k then elt P y else 0 := by
    intro j
    rw [List.getD_eq_getElem?_getD, List.getElem?_set]
    by_cases h : k = j
    · subst h
      rw [if_pos rfl, if_pos hk, if_pos rfl, Option.getD_some, add, elt_xor]
    · rw [if_neg h, if_neg (Ne.symm h), add_zero, List.getD_eq_getElem?_getD]
  unfold asPoly
  rw [List.length_set]
  simp only [hs, map_add, add_mul]
  rw [Finset.sum_add_distrib]
  congr 1
  rw [Finset.sum_eq_single k]
  · rw [if_pos rfl]
  · intro j _ hj
    rw [if_neg hj, map_zero, zero_mul]
  · intro h
    exact absurd (Finset.mem_range.2 hk) h

theorem set_bytes {l : List ℕ} (h : Bytes l) {k y : ℕ} (hy : y < 256) : Bytes (l.set k y) := by
  intro x hx
  rcases List.mem_or_eq_of_mem_set hx with hx | rfl
  · exact h x hx
  · exact hy

theorem polyMul_spec {p q : List ℕ} (hp : Bytes p) (hq : Bytes q) : Bytes (polyMul p q) ∧ (polyMul p q).length = p.length + q.length - 1 ∧ asPoly (polyMul p q) = asPoly p * asPoly q := by
  have inner : ∀ i, i < p.length → ∀ (r : List ℕ), Bytes r → r.length = p.length + q.length - 1 → ∀ n, n ≤ q.length →
      Bytes (forN n (fun j (r : List ℕ) => r.set (i + j) (add (r.getD (i + j) 0) (multiply (p.getD i 0) (q.getD j 0)))) r) ∧
      (forN n (fun j (r : List ℕ) => r.set (i + j) (add (r.getD (i + j) 0) (multiply (p.getD i 0) (q.getD j 0)))) r).length = p.length + q.length - 1 ∧
      asPoly (forN n (fun j (r : List ℕ) => r.set (i + j) (add (r.getD (i + j) 0) (multiply (p.getD i 0) (q.getD j 0)))) r) =
        asPoly r + (Polynomial.C (elt P (p.getD i 0)) * Polynomial.X ^ i) * ∑ j ∈ Finset.range n, Polynomial.C (elt P (q.getD j 0)) * Polynomial.X ^ j := by
    intro i hi r hr hl n
    induction n with
    | zero => intro _; exact ⟨hr, hl, by simp [forN]⟩
    | succ n ih =>
      intro hn
      obtain ⟨h1, h2, h3⟩ := ih (by omega)
      rw [forN]
      have m := multiply_spec (hp.getD i) (hq.getD n)
      refine ⟨set_bytes h1 (Nat.xor_lt_two_pow (n := 8) (h1.getD _) m.1), by rw [List.length_set, h2], ?_⟩
      rw [asPoly_set (by rw [h2]; omega), h3, m.2, Finset.sum_range_succ, map_mul, pow_add]
      ring
  have outer : ∀ n, n ≤ p.length →
      Bytes (forN n (fun i r => forN q.length (fun j (r : List ℕ) => r.set (i + j) (add (r.getD (i + j) 0) (multiply (p.getD i 0) (q.getD j 0)))) r) (List.replicate (p.length + q.length - 1) 0)) ∧
      (forN n (fun i r => forN q.length (fun j (r : List ℕ) => r.set (i + j) (add (r.getD (i + j) 0) (multiply (p.getD i 0) (q.getD j 0)))) r) (List.replicate (p.length + q.length - 1) 0)).length = p.length + q.length - 1 ∧
      asPoly (forN n (fun i r => forN q.length (fun j (r : List ℕ) => r.set (i + j) (add (r.getD (i + j) 0) (multiply (p.getD i 0) (q.getD j 0)))) r) (List.replicate (p.length + q.length - 1) 0)) =
        (∑ i ∈ Finset.range n, Polynomial.C (elt P (p.getD i 0)) * Polynomial.X ^ i) * asPoly q := by
    intro n
    induction n with
    | zero =>
      intro _
      refine ⟨fun x hx => by rw [List.eq_of_mem_replicate hx]; omega, by simp [forN], ?_⟩
      rw [Finset.sum_range_zero, zero_mul]
      unfold asPoly forN
      refine Finset.sum_eq_zero fun j _ => ?_
      have : (List.replicate (p.length + q.length - 1) 0).getD j 0 = 0 := by
        rw [List.getD_eq_getElem?_getD, List.getElem?_replicate]; split <;> rfl
      rw [this, elt_zero, map_zero, zero_mul]
    | succ n ih =>
      intro hn
      obtain ⟨h1, h2, h3⟩ := ih (by omega)
      rw [forN]
      obtain ⟨i1, i2, i3⟩ := inner n (by omega) _ h1 h2 q.length (le_refl _)
      refine ⟨i1, i2, ?_⟩
      rw [i3, h3, Finset.sum_range_succ, add_mul]
      rfl
  exact outer p.length (le_refl _)

theorem evalPoly_spec {l : List ℕ} (h : Bytes l) {x : ℕ} (hx : x < 256) : evalPoly l x < 256 ∧ elt P (evalPoly l x) = (asPoly l).eval (elt P x) := by
  have key : ∀ (l : List ℕ) (r y : ℕ), Bytes l → r < 256 → y < 256 →
      (l.foldl (fun (s : ℕ × ℕ) c => (add s.1 (multiply c s.2), multiply s.2 x)) (r, y)).1 < 256 ∧
      elt P (l.foldl (fun (s : ℕ × ℕ) c => (add s.1 (multiply c s.2), multiply s.2 x)) (r, y)).1 =
        elt P r + elt P y * ∑ i ∈ Finset.range l.length, elt P (l.getD i 0) * elt P x ^ i := by
    intro l
    induction l with
    | nil => intro r y _ hr _; exact ⟨hr, by simp⟩
    | cons c cs ih =>
      intro r y hl hr hy
      have m1 := multiply_spec (hl c (by simp)) hy
      have m2 := multiply_spec hy hx
      obtain ⟨i1, i2⟩ := ih (add r (multiply c y)) (multiply y x) (fun z hz => hl z (by simp [hz])) (Nat.xor_lt_two_pow (n := 8) hr m1.1) m2.1
      rw [List.foldl_cons]
      refine ⟨i1, ?_⟩
      rw [i2, add, elt_xor, m1.2, m2.2, List.length_cons, Finset.sum_range_succ']
      simp only [List.getD_cons_succ, List.getD_cons_zero, pow_succ, pow_zero, mul_one]
      rw [mul_add, Finset.mul_sum, Finset.mul_sum, add_assoc, mul_comm (elt P y) (elt P c), add_comm (elt P c * elt P y)]
      congr 2
      refine Finset.sum_congr rfl fun i _ => ?_
      ring
  obtain ⟨k1, k2⟩ := key l 0 1 h (by omega) (by omega)
  refine ⟨k1, ?_⟩
  unfold evalPoly
  rw [k2, elt_zero, elt_one, zero_add, one_mul, asPoly, Polynomial.eval_finsetSum]
  refine Finset.sum_congr rfl fun i _ => ?_
  simp

theorem generator_spec (n : ℕ) (hn : n ≤ 255) : Bytes (generator n) ∧ (generator n).length = n + 1 ∧ asPoly (generator n) = ∏ i ∈ Finset.range n, (1 + Polynomial.C (α ^ i) * Polynomial.X) := by
  unfold generator
  induction n with
  | zero =>
    refine ⟨fun x hx => by rw [List.mem_singleton.1 hx]; omega, rfl, ?_⟩
    simp [forN, asPoly, elt_one]
  | succ n ih =>
    obtain ⟨h1, h2, h3⟩ := ih (by omega)
    rw [forN]
    have e := exp_spec (j := n) (by omega)
    have hb : Bytes [1, exp n] := by
      intro x hx
      simp only [List.mem_cons, List.not_mem_nil, or_false] at hx
      rcases hx with rfl | rfl
      · omega
      · exact e.1
    obtain ⟨m1, m2, m3⟩ := polyMul_spec h1 hb
    refine ⟨m1, by rw [m2, h2]; rfl, ?_⟩
    rw [m3, h3, Finset.prod_range_succ]
    congr 1
    simp [asPoly, Finset.sum_range_succ, elt_one, e.2]

/-- **C279.** `GF256` of rs_improved_test.cpp is the field GF(2)[x]/(x⁸ + x⁴ + x³ + x² + 1) on the bytes: sums, products and quotients for all bytes, a division by zero raises, `eval_poly` is
the value (lowest coefficient first) and `poly_mul` the product for polynomials of every length, and the generator polynomial is the product of the factors 1 + αⁱ x. -/
theorem C279_field :
    (∀ a b, a < 256 → b < 256 → elt P a = elt P b → a = b) ∧
    (∀ a b, elt P (add a b) = elt P a + elt P b) ∧
    (∀ a b, a < 256 → b < 256 → multiply a b < 256 ∧ elt P (multiply a b) = elt P a * elt P b) ∧
    (∀ a b, a < 256 → b < 256 → b ≠ 0 → ∃ c, divide a b = some c ∧ c < 256 ∧ elt P c * elt P b = elt P a) ∧ (∀ a, divide a 0 = none) ∧
    (∀ l x, (∀ c ∈ l, c < 256) → x < 256 → elt P (evalPoly l x) = (asPoly l).eval (elt P x)) ∧
    (∀ p q, (∀ c ∈ p, c < 256) → (∀ c ∈ q, c < 256) → (polyMul p q).length = p.length + q.length - 1 ∧ asPoly (polyMul p q) = asPoly p * asPoly q) ∧
    (∀ n ≤ 255, (generator n).length = n + 1 ∧ asPoly (generator n) = ∏ i ∈ Finset.range n, (1 + Polynomial.C (α ^ i) * Polynomial.X)) :=
  ⟨fun _ _ => elt_inj, elt_xor, fun _ _ => multiply_spec, fun _ _ => divide_spec, fun _ => rfl, fun _ _ h hx => (evalPoly_spec h hx).2, fun _ _ hp hq => (polyMul_spec hp hq).2,
    fun n hn => (generator_spec n hn).2⟩

/-- The hypotheses are met: α · α⁷ = x⁴ + x³ + x² + 1. -/
example : multiply 2 128 = 0x1D ∧ generator 4 = [1, 15, 54, 120, 64] := by decide +kernel

/-- **C279.** The two conventions do not fit: with the coefficients of the generator polynomial highest first its roots are α⁰, …, α³, but `eval_poly` takes the lowest first, and so its value
at α¹ (a "syndrome" of the generator itself) is not zero. -/
theorem C279_order_violated : evalPoly (generator 4) (exp 1) ≠ 0 ∧ (∀ i < 4, evalPoly (generator 4).reverse (exp i) = 0) := by decide +kernel

/-! ### The improved code -/

theorem byteAt_toNat (v : Value) (i : ℕ) : (byteAt v i).toNat = v.toNat / 256 ^ i % 256 := by rw [byteAt, BitVec.toNat_ofNat]

theorem valueOf_bytes (v : Value) (t : List Byte) : valueOf (bytesOf v ++ t) = v := by
  have := v.isLt
  unfold valueOf bytesOf
  simp only [List.cons_append, List.getD_cons_zero, List.getD_cons_succ, byteAt_toNat]
  apply BitVec.eq_of_toNat_eq
  rw [BitVec.toNat_ofNat]
  omega

theorem byteAt_valueOf (w : List Byte) (i : ℕ) (hi : i < 4) : byteAt (valueOf w) i = w.getD i 0#8 := by
  have h0 := (w.getD 0 0#8).isLt
  have h1 := (w.getD 1 0#8).isLt
  have h2 := (w.getD 2 0#8).isLt
  have h3 := (w.getD 3 0#8).isLt
  apply BitVec.eq_of_toNat_eq
  rw [byteAt_toNat, valueOf, BitVec.toNat_ofNat]
  obtain rfl | rfl | rfl | rfl : i = 0 ∨ i = 1 ∨ i = 2 ∨ i = 3 := by omega
  all_goals omega

theorem sum1_eq (w : List Byte) : sum1 w = w.getD 0 0#8 ^^^ w.getD 1 0#8 ^^^ w.getD 2 0#8 ^^^ w.getD 3 0#8 := by
  simp only [sum1, forN]; rw [BitVec.zero_xor]

theorem sum2_eq (w : List Byte) : sum2 w = w.getD 0 0#8 ^^^ (w.getD 1 0#8 <<< 1) ^^^ (w.getD 2 0#8 <<< 2) ^^^ (w.getD 3 0#8 <<< 3) := by
  simp only [sum2, forN]; rw [BitVec.zero_xor]; simp

theorem sums_congr {a b : List Byte} (h : ∀ i < 4, a.getD i 0#8 = b.getD i 0#8) : sum1 a = sum1 b ∧ sum2 a = sum2 b ∧ sum3 a = sum3 b ∧ sum4 a = sum4 b := by
  have h0 := h 0 (by omega); have h1 := h 1 (by omega); have h2 := h 2 (by omega); have h3 := h 3 (by omega)
  simp only [sum1, sum2, sum3, sum4, forN, h0, h1, h2, h3, and_self]

theorem encode_sums (v : Value) : sum1 (encode v) = sum1 (bytesOf v) ∧ sum2 (encode v) = sum2 (bytesOf v) ∧ sum3 (encode v) = sum3 (bytesOf v) ∧ sum4 (encode v) = sum4 (bytesOf v) := by
  refine sums_congr fun i hi => ?_
  rw [encode, List.getD_eq_getElem?_getD, List.getElem?_append_left (by simpa [bytesOf] using hi), ← List.getD_eq_getElem?_getD]

/-- **C280.** A value encoded by `ReedSolomon` of rs_improved_test.cpp is eight bytes and comes back — for every pattern, and whatever follows the eight bytes. -/
theorem C280_roundtrip (v : Value) : (encode v).length = 8 ∧ decode (encode v) = some v := by
  refine ⟨rfl, ?_⟩
  obtain ⟨h1, h2, h3, h4⟩ := encode_sums v
  have hs : syndromes (encode v) = [0#8, 0#8, 0#8, 0#8] := by
    have e4 : (encode v).getD 4 0#8 = sum1 (bytesOf v) := rfl
    have e5 : (encode v).getD 5 0#8 = sum2 (bytesOf v) := rfl
    have e6 : (encode v).getD 6 0#8 = sum3 (bytesOf v) := rfl
    have e7 : (encode v).getD 7 0#8 = sum4 (bytesOf v) := rfl
    rw [syndromes, h1, h2, h3, h4, e4, e5, e6, e7, BitVec.xor_self, BitVec.xor_self, BitVec.xor_self, BitVec.xor_self]
  rw [decode, if_neg (by show ¬(8 < 8); omega), hs, if_pos (by decide), encode, valueOf_bytes]

/-- **C280.** Nothing is ever corrected: whatever the word, a value returned consists of the data bytes as received. -/
theorem C280_unchanged (w : List Byte) (x : Value) (h : decode w = some x) : 8 ≤ w.length ∧ ∀ i < 4, byteAt x i = w.getD i 0#8 := by
  unfold decode at h
  by_cases hl : w.length < 8
  · rw [if_pos hl] at h; cases h
  · rw [if_neg hl] at h
    refine ⟨by omega, fun i hi => ?_⟩
    split at h
    · rw [← Option.some.inj h, byteAt_valueOf w i hi]
    · split at h
      · cases h
      · rw [← Option.some.inj h, byteAt_valueOf w i hi]

theorem xor_cancel (a d b : Byte) : (a ^^^ d ^^^ b = a ^^^ b ↔ d = 0#8) ∧ (a ^^^ (b ^^^ d) = a ^^^ b ↔ d = 0#8) := by
  have key : ∀ x y : Byte, x ^^^ y = x ↔ y = 0#8 := by
    intro x y
    constructor
    · intro h
      calc y = x ^^^ (x ^^^ y) := by rw [← BitVec.xor_assoc, BitVec.xor_self, BitVec.zero_xor]
        _ = 0#8 := by rw [h, BitVec.xor_self]
    · rintro rfl; rw [BitVec.xor_zero]
  refine ⟨?_, ?_⟩
  · rw [BitVec.xor_assoc, BitVec.xor_comm d b, ← BitVec.xor_assoc, key]
  · rw [← BitVec.xor_assoc, key]

/-- A data byte damaged. -/
theorem damaged_sums (v : Value) (i : ℕ) (hi : i < 4) (d : Byte) :
    (sum1 ((encode v).set i (byteAt v i ^^^ d)) = sum1 (bytesOf v) ↔ d = 0#8) ∧ (sum2 ((encode v).set i (byteAt v i ^^^ d)) = sum2 (bytesOf v) ↔ d <<< i = 0#8) := by
  rw [sum1_eq, sum1_eq, sum2_eq, sum2_eq]
  rcases i with _ | _ | _ | _ | i
  · simp only [encode, bytesOf, List.cons_append, List.set_cons_zero, List.getD_cons_zero, List.getD_cons_succ]
    constructor
    · rw [← (xor_cancel (byteAt v 0) d (byteAt v 1 ^^^ byteAt v 2 ^^^ byteAt v 3)).1]
      simp only [BitVec.xor_assoc]
    · rw [← (xor_cancel (byteAt v 0) (d <<< 0) (byteAt v 1 <<< 1 ^^^ byteAt v 2 <<< 2 ^^^ byteAt v 3 <<< 3)).1]
      simp only [BitVec.xor_assoc, BitVec.shiftLeft_zero]
  · simp only [encode, bytesOf, List.cons_append, List.set_cons_zero, List.set_cons_succ, List.getD_cons_zero, List.getD_cons_succ, BitVec.shiftLeft_xor_distrib]
    constructor
    · rw [← (xor_cancel (byteAt v 0 ^^^ byteAt v 1) d (byteAt v 2 ^^^ byteAt v 3)).1]
      simp only [BitVec.xor_assoc]
    · rw [← (xor_cancel (byteAt v 0 ^^^ byteAt v 1 <<< 1) (d <<< 1) (byteAt v 2 <<< 2 ^^^ byteAt v 3 <<< 3)).1]
      simp only [BitVec.xor_assoc]
  · simp only [encode, bytesOf, List.cons_append, List.set_cons_zero, List.set_cons_succ, List.getD_cons_zero, List.getD_cons_succ, BitVec.shiftLeft_xor_distrib]
    constructor
    · rw [← (xor_cancel (byteAt v 0 ^^^ byteAt v 1 ^^^ byteAt v 2) d (byteAt v 3)).1]
      simp only [BitVec.xor_assoc]
    · rw [← (xor_cancel (byteAt v 0 ^^^ byteAt v 1 <<< 1 ^^^ byteAt v 2 <<< 2) (d <<< 2) (byteAt v 3 <<< 3)).1]
      simp only [BitVec.xor_assoc]
  · simp only [encode, bytesOf, List.cons_append, List.set_cons_zero, List.set_cons_succ, List.getD_cons_zero, List.getD_cons_succ, BitVec.shiftLeft_xor_distrib]
    constructor
    · rw [← (xor_cancel (byteAt v 0 ^^^ byteAt v 1 ^^^ byteAt v 2) d (byteAt v 3)).2]
    · rw [← (xor_cancel (byteAt v 0 ^^^ byteAt v 1 <<< 1 ^^^ byteAt v 2 <<< 2) (d <<< 3) (byteAt v 3 <<< 3)).2]
  · omega

/-- **C280.** The advertised correction of two symbols fails for every damage of a single data byte: it is refused, or — if the damage is in the highest `i` bits of byte `i` — the damaged
value is returned as if corrected. So every value comes back with its sign inverted after an upset of the sign bit; and with both checksums damaged intact data are refused. -/
theorem C280_correction_violated : capability = 2 ∧
    (∀ v i d, i < 4 → d ≠ 0#8 → decode ((encode v).set i (byteAt v i ^^^ d)) = if d <<< i = 0#8 then some (valueOf ((encode v).set i (byteAt v i ^^^ d))) else none) ∧
    (∀ v, ∃ x, decode ((encode v).set 3 (byteAt v 3 ^^^ 0x80#8)) = some x ∧ x ≠ v ∧ byteAt x 3 = byteAt v 3 ^^^ 0x80#8) ∧
    (∀ v a b, a ≠ 0#8 → b ≠ 0#8 → decode (((encode v).set 4 (sum1 (bytesOf v) ^^^ a)).set 5 (sum2 (bytesOf v) ^^^ b)) = none) := by
  have key : ∀ v i d, i < 4 → d ≠ 0#8 → decode ((encode v).set i (byteAt v i ^^^ d)) = if d <<< i = 0#8 then some (valueOf ((encode v).set i (byteAt v i ^^^ d))) else none := by
    intro v i d hi hd
    obtain ⟨s1, s2⟩ := damaged_sums v i hi d
    have e4 : ((encode v).set i (byteAt v i ^^^ d)).getD 4 0#8 = sum1 (bytesOf v) := by
      rw [List.getD_eq_getElem?_getD, List.getElem?_set_ne (by omega)]; rfl
    have e5 : ((encode v).set i (byteAt v i ^^^ d)).getD 5 0#8 = sum2 (bytesOf v) := by
      rw [List.getD_eq_getElem?_getD, List.getElem?_set_ne (by omega)]; rfl
    have hl : ((encode v).set i (byteAt v i ^^^ d)).length = 8 := by rw [List.length_set]; rfl
    generalize (encode v).set i (byteAt v i ^^^ d) = w at *
    have n1 : sum1 w ≠ sum1 (bytesOf v) := fun e => hd (s1.1 e)
    have hall : (syndromes w).all (· == 0#8) = false := by
      rw [syndromes, e4]
      have : (sum1 w ^^^ sum1 (bytesOf v) == 0#8) = false := by
        rw [beq_eq_false_iff_ne]
        intro e
        exact n1 (BitVec.xor_eq_zero_iff.1 e)
      rw [List.all_cons, this, Bool.false_and]
    have f1 : (sum1 w == sum1 (bytesOf v)) = false := beq_eq_false_iff_ne.2 n1
    rw [decode, if_neg (by omega), hall, if_neg (by simp), e4, e5, f1]
    by_cases h : d <<< i = 0#8
    · rw [if_pos h, s2.2 h]; simp
    · rw [if_neg h]
      have : (sum2 w == sum2 (bytesOf v)) = false := beq_eq_false_iff_ne.2 (fun e => h (s2.1 e))
      rw [this]; rfl
  refine ⟨rfl, key, fun v => ?_, fun v a b ha hb => ?_⟩
  · refine ⟨_, by rw [key v 3 0x80#8 (by omega) (by decide), if_pos (by decide)], ?_⟩
    have h3 : byteAt (valueOf ((encode v).set 3 (byteAt v 3 ^^^ 0x80#8))) 3 = byteAt v 3 ^^^ 0x80#8 := by rw [byteAt_valueOf _ _ (by omega)]; rfl
    refine ⟨fun e => ?_, h3⟩
    rw [e] at h3
    have : byteAt v 3 ^^^ (byteAt v 3 ^^^ 0x80#8) = 0#8 := by rw [← h3, BitVec.xor_self]
    rw [← BitVec.xor_assoc, BitVec.xor_self, BitVec.zero_xor] at this
    exact absurd this (by decide)
  · obtain ⟨h1, h2, _, _⟩ := sums_congr (a := ((encode v).set 4 (sum1 (bytesOf v) ^^^ a)).set 5 (sum2 (bytesOf v) ^^^ b)) (b := bytesOf v) (by
      intro i hi
      rw [List.getD_eq_getElem?_getD, List.getElem?_set_ne (by omega), List.getElem?_set_ne (by omega), encode, List.getElem?_append_left (by simpa [bytesOf] using hi), ← List.getD_eq_getElem?_getD])
    have e4 : (((encode v).set 4 (sum1 (bytesOf v) ^^^ a)).set 5 (sum2 (bytesOf v) ^^^ b)).getD 4 0#8 = sum1 (bytesOf v) ^^^ a := rfl
    have e5 : (((encode v).set 4 (sum1 (bytesOf v) ^^^ a)).set 5 (sum2 (bytesOf v) ^^^ b)).getD 5 0#8 = sum2 (bytesOf v) ^^^ b := rfl
    have hl : (((encode v).set 4 (sum1 (bytesOf v) ^^^ a)).set 5 (sum2 (bytesOf v) ^^^ b)).length = 8 := by rw [List.length_set, List.length_set]; rfl
    generalize ((encode v).set 4 (sum1 (bytesOf v) ^^^ a)).set 5 (sum2 (bytesOf v) ^^^ b) = w at *
    have ne : ∀ x y : Byte, y ≠ 0#8 → (x == x ^^^ y) = false := by
      intro x y hy
      rw [beq_eq_false_iff_ne]
      intro e
      have := (xor_cancel x y 0#8).1.1 (by rw [BitVec.xor_zero, BitVec.xor_zero, ← e])
      exact hy this
    have hall : (syndromes w).all (· == 0#8) = false := by
      rw [syndromes, e4, h1, List.all_cons, ← BitVec.xor_assoc, BitVec.xor_self, BitVec.zero_xor, beq_eq_false_iff_ne.2 ha, Bool.false_and]
    rw [decode, if_neg (by omega), hall, if_neg (by simp), e4, e5, h1, h2, ne _ _ ha, ne _ _ hb]; rfl

/-- The hypotheses are met: 1.0 comes back as -1.0. -/
example : decode ((encode 0x3F800000#32).set 3 0xBF#8) = some 0xBF800000#32 := by decide +kernel

/-! ### The minimal code -/

/-- **C281.** `SimpleReedSolomon` of rs_minimal_test.cpp never decodes anything: `~checksum` is a negative `int` that no byte equals, so `decode` gives nothing for every word, damaged or
not, although the encoder stores the inverted checksum. -/
theorem C281_minimal_violated : (∀ w, minDecode w = none) ∧ (∀ v, (minEncode v).getD 5 0#8 = ~~~ (minEncode v).getD 4 0#8 ∧ minDecode (minEncode v) = none) := by
  have key : ∀ w, minDecode w = none := by
    intro w
    unfold minDecode
    by_cases h : w.length < 8
    · rw [if_pos h]
    · rw [if_neg h]
      have : (intNot (sum1 w) == ((w.getD 5 0#8).toNat : Int)) = false := by
        rw [beq_eq_false_iff_ne]
        unfold intNot
        omega
      dsimp only
      rw [this]
      simp
  exact ⟨key, fun v => ⟨rfl, key _⟩⟩

/-- **C281.** `multiply` of gf_minimal_test.cpp is the product only for factors 0 and 1 and two more pairs; all others give 0, so it does not even commute. -/
theorem C281_stub_violated : (∀ a, stubMultiply a 1#8 = a ∧ stubMultiply 1#8 a = a ∧ stubMultiply a 0#8 = 0#8 ∧ stubMultiply 0#8 a = 0#8) ∧
    (∀ a b, a ≠ 1#8 → b ≠ 1#8 → ¬(a = 2#8 ∧ (b = 2#8 ∨ b = 4#8)) → stubMultiply a b = 0#8) ∧ stubMultiply 2#8 4#8 = 8#8 ∧ stubMultiply 4#8 2#8 = 0#8 := by
  refine ⟨by decide, fun a b ha hb h => ?_, by decide, by decide⟩
  unfold stubMultiply
  by_cases h0 : a = 0#8 ∨ b = 0#8
  · rw [if_pos h0]
  · rw [if_neg h0, if_neg ha, if_neg hb, if_neg (fun e => h ⟨e.1, Or.inl e.2⟩), if_neg (fun e => h ⟨e.1, Or.inr e.2⟩)]

/-- **C280 (check bytes).** The four check bytes of a value with bytes b0 … b3. -/
theorem C280_check_bytes (v : Value) :
    (encode v).getD 4 0#8 = sum1 (bytesOf v) ∧ (encode v).getD 5 0#8 = sum2 (bytesOf v) ∧ (encode v).getD 6 0#8 = sum3 (bytesOf v) ∧ (encode v).getD 7 0#8 = sum4 (bytesOf v) ∧
    encode 0#32 = [0#8, 0#8, 0#8, 0#8, 0#8, 0#8, 0#8, 0x5A#8] := by
  refine ⟨rfl, rfl, rfl, rfl, by decide +kernel⟩

end Verif.Props.RsTests
