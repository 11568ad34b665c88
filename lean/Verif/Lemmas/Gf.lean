import Verif.Spec.Gf
import Verif.Model.GaloisField
import Mathlib.RingTheory.AdjoinRoot
import Mathlib.Algebra.CharP.Two
import Mathlib.Algebra.Polynomial.Degree.Lemmas
/-! Lemmas about the Galois field model. -/
namespace Verif.GF
open Polynomial Verif.Spec

@[simp] theorem Eff.bind_ok {α β : Type} (a : α) (f : α → Eff β) : Eff.bind (.ok a) f = f a := rfl
@[simp] theorem Eff.bind_ub {α β : Type} (f : α → Eff β) : Eff.bind .ub f = .ub := rfl
@[simp] theorem Eff.bind_throws {α β : Type} (f : α → Eff β) : Eff.bind .throws f = .throws := rfl

theorem forE_inv {σ : Type} {f : Nat → σ → Eff σ} (I : Nat → σ → Prop) :
    ∀ (n : Nat) (s : σ), I 0 s → (∀ i < n, ∀ s, I i s → ∃ s', f i s = .ok s' ∧ I (i + 1) s') →
      ∃ s', forE n f s = .ok s' ∧ I n s'
  | 0, s, h0, _ => ⟨s, rfl, h0⟩
  | n + 1, s, h0, hs => by
    obtain ⟨s₁, h1, h2⟩ := forE_inv I n s h0 (fun i hi => hs i (by omega))
    obtain ⟨s₂, h3, h4⟩ := hs n (by omega) s₁ h2
    exact ⟨s₂, by simp [forE, h1, h3], h4⟩

theorem rd_eq {l : List Nat} {i v : Nat} (h : l[i]? = some v) : rd l i = .ok v := by simp [rd, h]
theorem rd_oob {l : List Nat} {i : Nat} (h : l.length ≤ i) : rd l i = .ub := by
  simp [rd, List.getElem?_eq_none h]
theorem wr_eq {l : List Nat} {i v : Nat} (h : i < l.length) : wr l i v = .ok (l.set i v) := by simp [wr, h]

/-! ### Words as polynomials -/

theorem coeff_wordPoly (n i : ℕ) : (wordPoly n).coeff i = if n.testBit i then 1 else 0 := by
  unfold wordPoly
  rw [Polynomial.finsetSum_coeff]
  have h1 : ∀ b ∈ Finset.range n, (if n.testBit b then (X ^ b : (ZMod 2)[X]) else 0).coeff i =
      if i = b then (if n.testBit i then 1 else 0) else 0 := by
    intro b _
    by_cases hb : n.testBit b = true
    · rw [if_pos hb, Polynomial.coeff_X_pow]
      by_cases h : i = b
      · subst h; simp [hb]
      · simp [h]
    · rw [if_neg hb]
      by_cases h : i = b
      · subst h; simp [hb]
      · simp [h]
  rw [Finset.sum_congr rfl h1, Finset.sum_ite_eq]
  by_cases hi : i < n
  · simp [hi]
  · have : n.testBit i = false :=
      Nat.testBit_lt_two_pow (lt_of_lt_of_le Nat.lt_two_pow_self (Nat.pow_le_pow_right (by norm_num) (Nat.not_lt.mp hi)))
    simp [hi, this]

theorem wordPoly_xor (a b : ℕ) : wordPoly (a ^^^ b) = wordPoly a + wordPoly b := by
  ext i
  rw [Polynomial.coeff_add, coeff_wordPoly, coeff_wordPoly, coeff_wordPoly, Nat.testBit_xor]
  cases a.testBit i <;> cases b.testBit i <;> simp
  decide

@[simp] theorem wordPoly_zero : wordPoly 0 = 0 := by ext i; simp [coeff_wordPoly]
@[simp] theorem wordPoly_one : wordPoly 1 = 1 := by
  ext i
  rw [coeff_wordPoly, Polynomial.coeff_one]
  rcases i with _ | i
  · simp
  · simp [Nat.testBit_succ]

theorem wordPoly_double (a : ℕ) : wordPoly (2 * a) = X * wordPoly a := by
  ext i
  rcases i with _ | i
  · simp [coeff_wordPoly]
  · rw [Polynomial.coeff_X_mul, coeff_wordPoly, coeff_wordPoly, Nat.testBit_succ]
    simp

theorem wordPoly_inj {a b : ℕ} (h : wordPoly a = wordPoly b) : a = b := by
  apply Nat.eq_of_testBit_eq
  intro i
  have := congrArg (fun p => Polynomial.coeff p i) h
  simp only [coeff_wordPoly] at this
  cases ha : a.testBit i <;> cases hb : b.testBit i <;> simp [ha, hb] at this <;> rfl

theorem degree_wordPoly_lt {a m : ℕ} (h : a < 2 ^ m) : (wordPoly a).degree < m := by
  rw [Polynomial.degree_lt_iff_coeff_zero]
  intro i hi
  rw [coeff_wordPoly, Nat.testBit_lt_two_pow (lt_of_lt_of_le h (Nat.pow_le_pow_right (by norm_num) hi))]
  simp

/-! ### Multiplication by `α` -/

/-- Multiplication of a word by `X` modulo the defining polynomial. -/
def xt (P : Params) (x : ℕ) : ℕ := (2 * x) ^^^ (if x.testBit (P.m - 1) then P.poly else 0)

/-- Parameters for which the class works: the type holds `2^m`, the polynomial has degree `m`, and `X`
has multiplicative order `2^m - 1`. -/
structure Good (P : Params) : Prop where
  two_le : 2 ≤ P.m
  le15 : P.m ≤ 15
  ne8 : P.m ≠ 8
  polyLt : P.poly < 2 ^ (P.m + 1)
  top : P.poly.testBit P.m = true
  ret : (xt P)^[2 ^ P.m - 1] 1 = 1
  noRet : ∀ i, 0 < i → i < 2 ^ P.m - 1 → (xt P)^[i] 1 ≠ 1

variable {P : Params}

theorem Good.m_lt_elBits (h : Good P) : P.m < P.elBits := by
  have := h.ne8; have := h.le15
  unfold Params.elBits
  split <;> omega

theorem Good.fieldSize_eq (h : Good P) : P.fieldSize = 2 ^ P.m := by
  unfold Params.fieldSize Params.toEl
  exact Nat.mod_eq_of_lt (Nat.pow_lt_pow_right (by norm_num) h.m_lt_elBits)

theorem Good.fieldSize_ge (h : Good P) : 4 ≤ P.fieldSize := by
  rw [h.fieldSize_eq]
  calc 4 = 2 ^ 2 := rfl
    _ ≤ 2 ^ P.m := Nat.pow_le_pow_right (by norm_num) h.two_le

theorem Good.fieldSize_le (h : Good P) : P.fieldSize ≤ 32768 := by
  rw [h.fieldSize_eq]
  calc 2 ^ P.m ≤ 2 ^ 15 := Nat.pow_le_pow_right (by norm_num) h.le15
    _ = 32768 := by norm_num

theorem Good.order_eq (h : Good P) : P.order = 2 ^ P.m - 1 := by rw [Params.order, h.fieldSize_eq]

theorem Good.fieldMask_eq (h : Good P) : P.fieldMask = 2 ^ P.m - 1 := by
  unfold Params.fieldMask Params.toEl
  rw [h.fieldSize_eq]
  have h1 : 2 ^ P.m < 2 ^ P.elBits := Nat.pow_lt_pow_right (by norm_num) h.m_lt_elBits
  have h2 : 0 < 2 ^ P.m := Nat.pow_pos (by norm_num)
  rw [show 2 ^ P.m + 2 ^ P.elBits - 1 = (2 ^ P.m - 1) + 2 ^ P.elBits by omega, Nat.add_mod_right,
    Nat.mod_eq_of_lt (by omega)]

theorem Good.primPoly_eq (h : Good P) : P.primPoly = P.poly := by
  unfold Params.primPoly Params.toEl
  exact Nat.mod_eq_of_lt (lt_of_lt_of_le h.polyLt (Nat.pow_le_pow_right (by norm_num) h.m_lt_elBits))

theorem xt_lt (h : Good P) {x : ℕ} (hx : x < 2 ^ P.m) : xt P x < 2 ^ P.m := by
  have hm := h.two_le
  apply Nat.lt_pow_two_of_testBit
  intro i hi
  unfold xt
  rw [Nat.testBit_xor]
  rcases Nat.lt_or_ge P.m i with h1 | h1
  · have a1 : (2 * x).testBit i = false :=
      Nat.testBit_lt_two_pow (lt_of_lt_of_le (show 2 * x < 2 ^ (P.m + 1) by rw [pow_succ]; omega)
        (Nat.pow_le_pow_right (by norm_num) h1))
    have a2 : P.poly.testBit i = false :=
      Nat.testBit_lt_two_pow (lt_of_lt_of_le h.polyLt (Nat.pow_le_pow_right (by norm_num) h1))
    rw [a1]; split <;> simp [a2]
  · have : i = P.m := by omega
    subst this
    have a1 : (2 * x).testBit P.m = x.testBit (P.m - 1) := by
      conv_lhs => rw [show P.m = (P.m - 1) + 1 by omega, Nat.testBit_succ]
      simp
    rw [a1]
    split
    · rename_i hb; rw [hb, h.top]; rfl
    · rename_i hb; simp at hb; rw [hb]; simp

theorem go_ge2 (P : Params) : ∀ (n i r a : ℕ), 2 ≤ i → Params.mulNoLut.go P 2 n i r a = r
  | 0, _, _, _, _ => rfl
  | n + 1, i, r, a, h => by
    have hz : (2 &&& (1 <<< i)) = 0 := by
      apply Nat.eq_of_testBit_eq
      intro j
      rw [Nat.testBit_and, Nat.zero_testBit, Nat.one_shiftLeft, Nat.testBit_two_pow]
      by_cases hj : i = j
      · have : (2 : ℕ).testBit j = false :=
          Nat.testBit_lt_two_pow (lt_of_lt_of_le (show 2 < 2 ^ 2 by norm_num) (Nat.pow_le_pow_right (by norm_num) (by omega)))
        simp [this]
      · simp [hj]
    unfold Params.mulNoLut.go
    simp only [hz, ne_eq, not_true_eq_false, if_false]
    exact go_ge2 P n (i + 1) r _ (by omega)

theorem and_bit_ne_zero (a k : ℕ) : ((a &&& (1 <<< k)) != 0) = a.testBit k := by
  rw [Nat.one_shiftLeft]
  cases hb : a.testBit k
  · have : a &&& 2 ^ k = 0 := by
      apply Nat.eq_of_testBit_eq
      intro j
      rw [Nat.testBit_and, Nat.testBit_two_pow, Nat.zero_testBit]
      by_cases hj : k = j
      · subst hj; simp [hb]
      · simp [hj]
    simp [this]
  · have : a &&& 2 ^ k ≠ 0 := by
      intro e
      have := congrArg (fun n => n.testBit k) e
      simp [Nat.testBit_and, hb] at this
    simp [this]

theorem mulNoLut_two (h : Good P) {x : ℕ} (hx : x < 2 ^ P.m) : P.mulNoLut x 2 = xt P x := by
  have hm := h.two_le
  unfold Params.mulNoLut
  obtain ⟨k, hk⟩ : ∃ k, P.m = k + 2 := ⟨P.m - 2, by omega⟩
  have e : Params.mulNoLut.go P 2 P.m 0 0 x =
      (if x.testBit (P.m - 1) = true then P.toEl (x <<< 1) ^^^ (P.primPoly &&& P.fieldMask) else P.toEl (x <<< 1)) := by
    rw [show Params.mulNoLut.go P 2 P.m = Params.mulNoLut.go P 2 (k + 2) by rw [hk]]
    unfold Params.mulNoLut.go
    unfold Params.mulNoLut.go
    rw [go_ge2 P k _ _ _ (by omega)]
    simp only [and_bit_ne_zero]
    have z1 : (2 &&& 1 <<< 0) = 0 := by decide
    have z2 : (2 &&& 1 <<< (0 + 1)) = 2 := by decide
    simp
  rw [e, h.primPoly_eq, h.fieldMask_eq]
  have hE : P.toEl (x <<< 1) = 2 * x := by
    unfold Params.toEl
    rw [Nat.shiftLeft_eq, Nat.mod_eq_of_lt]
    · omega
    · calc x * 2 ^ 1 < 2 ^ (P.m + 1) := by rw [pow_succ]; omega
        _ ≤ 2 ^ P.elBits := Nat.pow_le_pow_right (by norm_num) h.m_lt_elBits
  rw [hE]
  apply Nat.eq_of_testBit_eq
  intro i
  rw [Nat.testBit_and, Nat.testBit_two_pow_sub_one]
  by_cases hi : i < P.m
  · unfold xt
    split <;> simp [Nat.testBit_xor, Nat.testBit_and, Nat.testBit_two_pow_sub_one, hi]
  · rw [Nat.testBit_lt_two_pow (lt_of_lt_of_le (xt_lt h hx) (Nat.pow_le_pow_right (by norm_num) (Nat.not_lt.mp hi)))]
    simp [hi]

/-! ### The quotient ring -/

/-- GF(2)[X] modulo the defining polynomial. -/
abbrev Rg (P : Params) := AdjoinRoot (wordPoly P.poly)

/-- The ring element a word stands for. -/
noncomputable def emb (P : Params) (a : ℕ) : Rg P := AdjoinRoot.mk (wordPoly P.poly) (wordPoly a)

theorem emb_eq_iff (P : Params) (a : ℕ) (f : (ZMod 2)[X]) :
    AdjoinRoot.mk (wordPoly P.poly) f = emb P a ↔ SameMod P.poly f (wordPoly a) := AdjoinRoot.mk_eq_mk

@[simp] theorem emb_zero : emb P 0 = 0 := by simp [emb]
@[simp] theorem emb_one : emb P 1 = 1 := by simp [emb]
theorem emb_xor (a b : ℕ) : emb P (a ^^^ b) = emb P a + emb P b := by simp [emb, wordPoly_xor]

/-- The class of `X`. -/
noncomputable def al (P : Params) : Rg P := AdjoinRoot.mk (wordPoly P.poly) X

theorem emb_xt (x : ℕ) : emb P (xt P x) = al P * emb P x := by
  unfold xt
  rw [emb_xor]
  have h1 : emb P (2 * x) = al P * emb P x := by simp [emb, al, wordPoly_double]
  have h2 : emb P (if x.testBit (P.m - 1) = true then P.poly else 0) = 0 := by
    split
    · exact AdjoinRoot.mk_self
    · simp
  rw [h1, h2, add_zero]

theorem emb_iter (i : ℕ) : emb P ((xt P)^[i] 1) = al P ^ i := by
  induction i with
  | zero => simp
  | succ n ih => rw [Function.iterate_succ_apply', emb_xt, ih, pow_succ']

theorem iter_lt (h : Good P) (i : ℕ) : (xt P)^[i] 1 < 2 ^ P.m := by
  induction i with
  | zero => exact Nat.one_lt_two_pow (by have := h.two_le; omega)
  | succ n ih => rw [Function.iterate_succ_apply']; exact xt_lt h ih

theorem degree_poly (h : Good P) : (wordPoly P.poly).degree = P.m := by
  apply le_antisymm
  · have := degree_wordPoly_lt h.polyLt
    rw [Polynomial.degree_le_iff_coeff_zero]
    intro k hk
    have hk' : P.m < k := by exact_mod_cast hk
    rw [coeff_wordPoly, Nat.testBit_lt_two_pow (lt_of_lt_of_le h.polyLt (Nat.pow_le_pow_right (by norm_num) hk'))]
    simp
  · apply Polynomial.le_degree_of_ne_zero
    rw [coeff_wordPoly, h.top]; simp

theorem emb_inj (h : Good P) {a b : ℕ} (ha : a < 2 ^ P.m) (hb : b < 2 ^ P.m) (e : emb P a = emb P b) : a = b := by
  have hd := AdjoinRoot.mk_eq_mk.mp e
  have hz := Polynomial.eq_zero_of_dvd_of_degree_lt hd (by
    rw [degree_poly h]
    exact lt_of_le_of_lt (Polynomial.degree_sub_le _ _) (max_lt (degree_wordPoly_lt ha) (degree_wordPoly_lt hb)))
  exact wordPoly_inj (sub_eq_zero.mp hz)

theorem al_pow_order (h : Good P) : al P ^ P.order = 1 := by
  rw [h.order_eq, ← emb_iter, h.ret, emb_one]

theorem al_pow_mod (h : Good P) (n : ℕ) : al P ^ (n % P.order) = al P ^ n := by
  conv_rhs => rw [← Nat.mod_add_div n P.order, pow_add, pow_mul, al_pow_order h, one_pow, mul_one]

theorem order_pos (h : Good P) : 0 < P.order := by have := h.fieldSize_ge; unfold Params.order; omega

theorem one_ne_zero' (h : Good P) : (1 : Rg P) ≠ 0 := by
  intro e
  rw [← emb_one, ← emb_zero] at e
  exact absurd (emb_inj h (iter_lt h 0) (Nat.pow_pos (by norm_num)) e) (by norm_num)

theorem al_unit (h : Good P) (i : ℕ) : al P ^ i * al P ^ (P.order * i - i) = 1 := by
  rw [← pow_add, Nat.add_sub_cancel' (Nat.le_mul_of_pos_left i (order_pos h)), pow_mul, al_pow_order h, one_pow]

theorem iter_inj (h : Good P) {i j : ℕ} (hj : j < P.order) (hij : i < j) : (xt P)^[i] 1 ≠ (xt P)^[j] 1 := by
  intro e
  have e1 : al P ^ i = al P ^ j := by rw [← emb_iter, ← emb_iter, e]
  have e2 : al P ^ (j - i) = 1 := by
    have : al P ^ i * al P ^ (j - i) = al P ^ i * 1 := by
      rw [← pow_add, Nat.add_sub_cancel' hij.le, mul_one, e1]
    calc al P ^ (j - i) = (al P ^ i * al P ^ (P.order * i - i)) * al P ^ (j - i) := by rw [al_unit h, one_mul]
      _ = al P ^ (P.order * i - i) * (al P ^ i * al P ^ (j - i)) := by ring
      _ = al P ^ i * al P ^ (P.order * i - i) := by rw [this]; ring
      _ = 1 := al_unit h i
  have e3 : (xt P)^[j - i] 1 = 1 :=
    emb_inj h (iter_lt h _) (iter_lt h 0) (by rw [emb_iter, e2]; simp)
  exact h.noRet (j - i) (by omega) (by rw [← h.order_eq]; omega) e3

theorem iter_ne_zero (h : Good P) (i : ℕ) : (xt P)^[i] 1 ≠ 0 := by
  intro e
  have e1 : al P ^ i = 0 := by rw [← emb_iter, e, emb_zero]
  have := al_unit h i
  rw [e1, zero_mul] at this
  exact one_ne_zero' h this.symm

theorem iter_surj (h : Good P) {a : ℕ} (h0 : a ≠ 0) (ha : a < 2 ^ P.m) : ∃ i < P.order, (xt P)^[i] 1 = a := by
  have hsub : (Finset.range P.order).image (fun i => (xt P)^[i] 1) ⊆ Finset.Ico 1 (2 ^ P.m) := by
    intro y hy
    rw [Finset.mem_image] at hy
    obtain ⟨i, _, rfl⟩ := hy
    rw [Finset.mem_Ico]
    exact ⟨Nat.one_le_iff_ne_zero.mpr (iter_ne_zero h i), iter_lt h i⟩
  have hcard : ((Finset.range P.order).image (fun i => (xt P)^[i] 1)).card = P.order := by
    rw [Finset.card_image_of_injOn, Finset.card_range]
    intro i hi j hj e
    simp only [Finset.coe_range, Set.mem_Iio] at hi hj
    rcases Nat.lt_trichotomy i j with h1 | h1 | h1
    · exact absurd e (iter_inj h hj h1)
    · exact h1
    · exact absurd e.symm (iter_inj h hi h1)
  have heq := Finset.eq_of_subset_of_card_le hsub (by rw [hcard, Nat.card_Ico, h.order_eq])
  have hmem : a ∈ Finset.Ico 1 (2 ^ P.m) := by rw [Finset.mem_Ico]; exact ⟨Nat.one_le_iff_ne_zero.mpr h0, ha⟩
  rw [← heq, Finset.mem_image] at hmem
  obtain ⟨i, hi, e⟩ := hmem
  exact ⟨i, Finset.mem_range.mp hi, e⟩

/-! ### The constructor -/

/-- What the lookup tables hold. -/
structure IsTab (P : Params) (t : Tables) : Prop where
  expLen : t.exp.length = P.fieldSize
  logLen : t.log.length = P.fieldSize
  exp : ∀ i, i < P.fieldSize → t.exp[i]? = some ((xt P)^[i] 1)
  log : ∀ i, i < P.order → t.log[(xt P)^[i] 1]? = some i

theorem construct_ok (h : Good P) : ∃ t, P.construct = .ok t ∧ IsTab P t := by
  have hfs := h.fieldSize_ge
  have hle := h.fieldSize_le
  have hord : P.order = P.fieldSize - 1 := rfl
  obtain ⟨⟨e1, x1⟩, he1, hlen1, hx1, hval1⟩ := forE_inv (f := P.expStep)
    (fun k s => s.1.length = P.fieldSize ∧ s.2 = (xt P)^[k] 1 ∧ ∀ i < k, s.1[i]? = some ((xt P)^[i] 1))
    P.order (List.replicate P.fieldSize 0, 1) ⟨by simp, rfl, fun i hi => absurd hi (Nat.not_lt_zero _)⟩ (by
      rintro i hi ⟨l, x⟩ ⟨hl, hx, hv⟩
      simp only at hl hx hv
      refine ⟨(l.set i x, xt P x), ?_, ?_, ?_, ?_⟩
      · have hxlt : x < 2 ^ P.m := by rw [hx]; exact iter_lt h i
        have h2 : ¬ (xt P x ≥ P.fieldSize) := by rw [h.fieldSize_eq]; exact Nat.not_le.mpr (xt_lt h hxlt)
        simp only [Params.expStep, wr_eq (show i < l.length by omega), Eff.bind_ok, mulNoLut_two h hxlt, if_neg h2]
      · simpa using hl
      · simp only; rw [Function.iterate_succ_apply', hx]
      · intro j hj
        simp only [List.getElem?_set]
        by_cases hij : i = j
        · subst hij; simp [show i < l.length by omega, hx]
        · simp [hij, hv j (by omega)])
  simp only at hlen1 hx1 hval1
  have hlast : P.lastIdx = P.order := by
    unfold Params.lastIdx
    rw [show P.fieldSize + 2 ^ 64 - 1 = P.order + 2 ^ 64 by omega, Nat.add_mod_right, Nat.mod_eq_of_lt (by omega)]
  have hexp : ∀ i, i < P.fieldSize → (e1.set P.order 1)[i]? = some ((xt P)^[i] 1) := by
    intro i hi
    rw [List.getElem?_set]
    by_cases hio : P.order = i
    · subst hio
      rw [if_pos rfl, if_pos (by omega)]
      rw [h.order_eq, h.ret]
    · rw [if_neg hio]; exact hval1 i (by omega)
  obtain ⟨l2, hl2, hlen2, hval2⟩ := forE_inv (f := logStep (e1.set P.order 1))
    (fun k s => s.length = P.fieldSize ∧ ∀ i < k, s[(xt P)^[i] 1]? = some i)
    P.order ((List.replicate P.fieldSize 0).set 0 0) ⟨by simp, fun i hi => absurd hi (Nat.not_lt_zero _)⟩ (by
      rintro i hi l ⟨hl, hv⟩
      refine ⟨l.set ((xt P)^[i] 1) i, ?_, by simpa using hl, ?_⟩
      · simp only [logStep, rd_eq (hexp i (by omega)), Eff.bind_ok]
        rw [wr_eq]
        rw [hl, h.fieldSize_eq]; exact iter_lt h i
      · intro j hj
        rw [List.getElem?_set]
        by_cases hij : (xt P)^[i] 1 = (xt P)^[j] 1
        · have : i = j := by
            rcases Nat.lt_trichotomy i j with h1 | h1 | h1
            · omega
            · exact h1
            · exact absurd hij.symm (iter_inj h hi h1)
          subst this
          rw [if_pos rfl, if_pos (by rw [hl, h.fieldSize_eq]; exact iter_lt h i)]
        · rw [if_neg hij]
          exact hv j (by
            rcases Nat.lt_or_eq_of_le (Nat.le_of_lt_succ hj) with h1 | h1
            · exact h1
            · exact absurd (by rw [h1]) hij))
  refine ⟨⟨e1.set P.order 1, l2⟩, ?_, by simpa using hlen1, hlen2, hexp, hval2⟩
  unfold Params.construct
  simp only [he1, Eff.bind_ok]
  rw [rd_eq (hval1 0 (order_pos h))]
  simp only [Eff.bind_ok, Function.iterate_zero, id_eq, hlast]
  rw [wr_eq (by omega), Eff.bind_ok, wr_eq (by simp; omega), Eff.bind_ok, hl2]
  rfl

/-! ### Operations -/

variable {t : Tables}

/-- Each nonzero word is a power of `α`, found in the log table. -/
theorem log_spec (h : Good P) (ht : IsTab P t) {a : ℕ} (h0 : a ≠ 0) (ha : a < 2 ^ P.m) :
    ∃ i < P.order, rd t.log a = .ok i ∧ (xt P)^[i] 1 = a ∧ emb P a = al P ^ i := by
  obtain ⟨i, hi, e⟩ := iter_surj h h0 ha
  exact ⟨i, hi, by rw [← e]; exact rd_eq (ht.log i hi), e, by rw [← emb_iter, e]⟩

theorem exp_spec (ht : IsTab P t) {i : ℕ} (hi : i < P.fieldSize) : rd t.exp i = .ok ((xt P)^[i] 1) :=
  rd_eq (ht.exp i hi)

theorem order_lt (h : Good P) : P.order < P.fieldSize := by have := h.fieldSize_ge; unfold Params.order; omega

theorem multiply_spec (h : Good P) (ht : IsTab P t) {a b : ℕ} (ha : a < 2 ^ P.m) (hb : b < 2 ^ P.m) :
    ∃ c, multiply P t a b = .ok c ∧ c < 2 ^ P.m ∧ emb P c = emb P a * emb P b := by
  unfold multiply
  by_cases hz : a = 0 ∨ b = 0
  · rw [if_pos hz]
    refine ⟨0, rfl, Nat.pow_pos (by norm_num), ?_⟩
    rcases hz with rfl | rfl <;> simp
  · rw [if_neg hz]
    push Not at hz
    obtain ⟨i, hi, h1, _, h3⟩ := log_spec h ht hz.1 ha
    obtain ⟨j, hj, h4, _, h6⟩ := log_spec h ht hz.2 hb
    rw [h1, h4, Eff.bind_ok, Eff.bind_ok]
    have hlt : (i + j) % P.order < P.fieldSize := (Nat.mod_lt _ (order_pos h)).trans (order_lt h)
    refine ⟨_, exp_spec ht hlt, iter_lt h _, ?_⟩
    rw [emb_iter, al_pow_mod h, pow_add, h3, h6]

theorem inverse_spec (h : Good P) (ht : IsTab P t) {a : ℕ} (h0 : a ≠ 0) (ha : a < 2 ^ P.m) :
    ∃ c, inverse P t a = .ok c ∧ c < 2 ^ P.m ∧ emb P a * emb P c = 1 := by
  unfold inverse
  rw [if_neg h0]
  obtain ⟨i, hi, h1, _, h3⟩ := log_spec h ht h0 ha
  rw [h1, Eff.bind_ok]
  have := order_lt h
  refine ⟨_, exp_spec ht (by omega), iter_lt h _, ?_⟩
  rw [emb_iter, h3, ← pow_add, Nat.add_sub_cancel' hi.le, al_pow_order h]

theorem divide_spec (h : Good P) (ht : IsTab P t) {a b : ℕ} (ha : a < 2 ^ P.m) (h0 : b ≠ 0) (hb : b < 2 ^ P.m) :
    ∃ c, divide P t a b = .ok c ∧ c < 2 ^ P.m ∧ emb P c * emb P b = emb P a := by
  unfold divide
  rw [if_neg h0]
  by_cases ha0 : a = 0
  · subst ha0; exact ⟨0, by simp, Nat.pow_pos (by norm_num), by simp⟩
  · rw [if_neg ha0]
    obtain ⟨i, hi, h1, _, h3⟩ := log_spec h ht ha0 ha
    obtain ⟨j, hj, h4, _, h6⟩ := log_spec h ht h0 hb
    rw [h1, h4, Eff.bind_ok, Eff.bind_ok]
    have hlt : (i + P.order - j) % P.order < P.fieldSize := (Nat.mod_lt _ (order_pos h)).trans (order_lt h)
    refine ⟨_, exp_spec ht hlt, iter_lt h _, ?_⟩
    rw [emb_iter, al_pow_mod h, h3, h6, ← pow_add, Nat.sub_add_cancel (by omega), pow_add, al_pow_order h, mul_one]

theorem pow_spec (h : Good P) (ht : IsTab P t) {a n : ℕ} (ha : a < 2 ^ P.m) (hn : n * 2 ^ P.m ≤ 2 ^ 32) :
    ∃ c, pow P t a n = .ok c ∧ c < 2 ^ P.m ∧ emb P c = emb P a ^ n := by
  unfold pow
  by_cases h0 : a = 0
  · subst h0
    rw [if_pos rfl]
    by_cases hn0 : n = 0
    · subst hn0; exact ⟨1, by simp, iter_lt h 0, by simp⟩
    · exact ⟨0, by simp [hn0], Nat.pow_pos (by norm_num), by simp [hn0]⟩
  · rw [if_neg h0]
    by_cases hn0 : n = 0
    · subst hn0; exact ⟨1, by simp, iter_lt h 0, by simp⟩
    · rw [if_neg hn0]
      obtain ⟨i, hi, h1, _, h3⟩ := log_spec h ht h0 ha
      rw [h1, Eff.bind_ok]
      have hin : i * n < 2 ^ 32 := by
        have : i < 2 ^ P.m := by have := order_lt h; rw [← h.fieldSize_eq]; omega
        calc i * n < 2 ^ P.m * n := Nat.mul_lt_mul_of_pos_right this (Nat.pos_of_ne_zero hn0)
          _ = n * 2 ^ P.m := Nat.mul_comm _ _
          _ ≤ 2 ^ 32 := hn
      rw [Nat.mod_eq_of_lt hin]
      refine ⟨_, exp_spec ht ((Nat.mod_lt _ (order_pos h)).trans (order_lt h)), iter_lt h _, ?_⟩
      rw [emb_iter, al_pow_mod h, h3, pow_mul]

end Verif.GF
