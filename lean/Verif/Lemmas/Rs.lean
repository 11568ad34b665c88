import Verif.Lemmas.Gf
import Verif.Model.ReedSolomon
import Mathlib.Algebra.Polynomial.Roots
/-! Lemmas about the Reed–Solomon model. -/
namespace Verif.GF
open Polynomial Verif.Spec

variable {P : Params} {t : Tables}

/-- A list of words all of which are field elements. -/
def InField (P : Params) (l : List ℕ) : Prop := ∀ x ∈ l, x < 2 ^ P.m

theorem listPoly_snoc {R : Type} [CommRing R] (l : List R) (c : R) :
    listPoly (l ++ [c]) = listPoly l * X + C c := by
  induction l with
  | nil => simp [listPoly]
  | cons a l ih => simp only [List.cons_append, listPoly, ih, List.length_append, List.length_singleton]; ring

theorem listPoly_append {R : Type} [CommRing R] (l m : List R) :
    listPoly (l ++ m) = listPoly l * X ^ m.length + listPoly m := by
  induction l with
  | nil => simp [listPoly]
  | cons a l ih => simp only [List.cons_append, listPoly, ih, List.length_append]; ring

/-- The polynomial over the field that a list of words stands for. -/
noncomputable def msgPoly (P : Params) (l : List ℕ) : (Rg P)[X] := listPoly (l.map (emb P))

theorem evalPoly_spec (h : Good P) (ht : IsTab P t) {x : ℕ} (hx : x < 2 ^ P.m) :
    ∀ (l : List ℕ) (r : ℕ), InField P l → r < 2 ^ P.m → ∃ c, evalPoly P t x l r = .ok c ∧ c < 2 ^ P.m ∧
      emb P c = emb P r * emb P x ^ l.length + (msgPoly P l).eval (emb P x)
  | [], r, _, hr => ⟨r, rfl, hr, by simp [msgPoly, listPoly]⟩
  | a :: l, r, hl, hr => by
    obtain ⟨p, h1, h2, h3⟩ := multiply_spec h ht hr hx
    have ha : a < 2 ^ P.m := hl a (List.mem_cons_self ..)
    obtain ⟨c, h4, h5, h6⟩ := evalPoly_spec h ht hx l (add p a) (fun y hy => hl y (List.mem_cons_of_mem _ hy))
      (Nat.xor_lt_two_pow h2 ha)
    refine ⟨c, by simp [evalPoly, h1, h4], h5, ?_⟩
    rw [h6]
    have : emb P (add p a) = emb P r * emb P x + emb P a := by
      rw [show add p a = p ^^^ a from rfl, emb_xor, h3]
    rw [this]
    simp only [msgPoly, List.map_cons, listPoly, eval_add, eval_mul, eval_C, eval_pow, eval_X, List.length_map, List.length_cons]
    ring

theorem eval_zero (h : Good P) (ht : IsTab P t) {x : ℕ} (hx : x < 2 ^ P.m) {l : List ℕ} (hl : InField P l) :
    ∃ c, evalPoly P t x l 0 = .ok c ∧ c < 2 ^ P.m ∧ emb P c = (msgPoly P l).eval (emb P x) := by
  obtain ⟨c, h1, h2, h3⟩ := evalPoly_spec h ht hx l 0 hl (Nat.pow_pos (by norm_num))
  exact ⟨c, h1, h2, by rw [h3]; simp⟩

theorem emb_eq_zero (h : Good P) {a : ℕ} (ha : a < 2 ^ P.m) (e : emb P a = 0) : a = 0 :=
  emb_inj h ha (Nat.pow_pos (by norm_num)) (by rw [e, emb_zero])

/-- Every element of the quotient ring is represented by a word. -/
theorem rg_domain_mul (h : Good P) {a b : ℕ} (ha : a < 2 ^ P.m) (e : emb P a * emb P b = 0) (hb : b < 2 ^ P.m) :
    a = 0 ∨ b = 0 := by
  by_contra hne
  push Not at hne
  obtain ⟨i, _, e1⟩ := iter_surj h hne.1 ha
  obtain ⟨j, _, e2⟩ := iter_surj h hne.2 hb
  rw [← e1, ← e2, emb_iter, emb_iter, ← pow_add] at e
  have := al_unit h (i + j)
  rw [e, zero_mul] at this
  exact one_ne_zero' h this.symm

/-! ### Syndromes -/

theorem calcSyndromes_spec (h : Good P) (ht : IsTab P t) {msg : List ℕ} (hm : InField P msg) {nsym : ℕ}
    (hn : nsym < P.fieldSize) : ∃ s, calcSyndromes P t msg nsym = .ok s ∧ s.length = nsym + 1 ∧ InField P s ∧
      ∀ i ≤ nsym, ∃ v, s[i]? = some v ∧ v < 2 ^ P.m ∧ emb P v = (msgPoly P msg).eval (al P ^ i) := by
  obtain ⟨s, h1, h2, h3, h4⟩ := forE_inv (f := syndStep P t msg)
    (fun k s => s.length = nsym + 1 ∧ InField P s ∧
      ∀ i < k, ∃ v, s[i]? = some v ∧ v < 2 ^ P.m ∧ emb P v = (msgPoly P msg).eval (al P ^ i))
    (nsym + 1) (List.replicate (nsym + 1) 0)
    ⟨by simp, by intro x hx; rw [List.mem_replicate] at hx; rw [hx.2]; exact Nat.pow_pos (by norm_num),
      fun i hi => absurd hi (Nat.not_lt_zero _)⟩ (by
      rintro i hi s ⟨hl, hf, hv⟩
      obtain ⟨v, h1, h2, h3⟩ := eval_zero h ht (iter_lt h i) hm
      refine ⟨s.set i v, ?_, by simpa using hl, ?_, ?_⟩
      · simp only [syndStep, exp_spec ht (show i < P.fieldSize by omega), Eff.bind_ok, h1]
        exact wr_eq (by omega)
      · intro y hy
        rcases List.mem_or_eq_of_mem_set hy with hy | hy
        · exact hf y hy
        · rw [hy]; exact h2
      · intro j hj
        rw [List.getElem?_set]
        by_cases hij : i = j
        · subst hij; rw [if_pos rfl, if_pos (by omega)]
          exact ⟨v, rfl, h2, by rw [h3, emb_iter]⟩
        · rw [if_neg hij]; exact hv j (by omega))
  exact ⟨s, h1, h2, h3, fun i hi => h4 i (by omega)⟩

theorem drop_all_zero {s : List ℕ} : ((s.drop 1).all (· == 0)) = true ↔ ∀ i, 1 ≤ i → i < s.length → s[i]? = some 0 := by
  constructor
  · intro h i h1 h2
    rw [List.all_eq_true] at h
    have hm : s[i] ∈ s.drop 1 := by
      rw [List.mem_iff_getElem]
      refine ⟨i - 1, by simp; omega, ?_⟩
      rw [List.getElem_drop]; congr 1; omega
    have := h _ hm
    simp at this
    rw [List.getElem?_eq_getElem h2, this]
  · intro h
    rw [List.all_eq_true]
    intro x hx
    rw [List.mem_iff_getElem] at hx
    obtain ⟨j, hj, rfl⟩ := hx
    have hj' : j + 1 < s.length := by simp at hj; omega
    have := h (j + 1) (by omega) hj'
    rw [List.getElem?_eq_getElem hj'] at this
    injection this with this
    rw [List.getElem_drop]
    simp [Nat.add_comm 1 j, this]

theorem forE_ub {σ : Type} {f : Nat → σ → Eff σ} (s : σ) (k : ℕ) : ∀ n, k ≤ n → forE k f s = .ub → forE n f s = .ub
  | 0, hk, h => by
    have : k = 0 := by omega
    subst this; exact h
  | n + 1, hk, h => by
    rcases Nat.lt_or_eq_of_le hk with h1 | h1
    · rw [forE, forE_ub s k n (by omega) h]; rfl
    · rw [← h1]; exact h

/-- While all discrepancies are zero, Berlekamp–Massey only shifts `old_loc`; the first nonzero one makes it
read `err_loc[1]`, which does not exist. -/
theorem bm_ub {synd : List ℕ} {nsym : ℕ} (hlen : synd.length = nsym + 1)
    (hne : ∃ i, 1 ≤ i ∧ i ≤ nsym ∧ synd[i]? ≠ some 0) :
    forE nsym (bmStep P t synd) ([1], [1]) = .ub := by
  classical
  obtain ⟨i, h1, h2, h3, hmin⟩ : ∃ i, 1 ≤ i ∧ i ≤ nsym ∧ synd[i]? ≠ some 0 ∧ ∀ j, 1 ≤ j → j < i → synd[j]? = some 0 := by
    let p := fun i => 1 ≤ i ∧ i ≤ nsym ∧ synd[i]? ≠ some 0
    have hp : ∃ i, p i := hne
    refine ⟨Nat.find hp, (Nat.find_spec hp).1, (Nat.find_spec hp).2.1, (Nat.find_spec hp).2.2, ?_⟩
    intro j hj1 hj2
    have := Nat.find_min hp hj2
    by_contra hc
    exact this ⟨hj1, by have := (Nat.find_spec hp).2.1; omega, hc⟩
  have pre : ∀ k, k < i → ∃ old : List ℕ, 1 ≤ old.length ∧ forE k (bmStep P t synd) ([1], [1]) = .ok ([1], old) := by
    intro k
    induction k with
    | zero => intro _; exact ⟨[1], by simp, rfl⟩
    | succ n ih =>
      intro hn
      obtain ⟨old, ho, he⟩ := ih (by omega)
      refine ⟨0 :: old, by simp, ?_⟩
      simp only [forE, he, Eff.bind_ok, bmStep, rd_eq (hmin (n + 1) (by omega) (by omega)), List.length_singleton,
        Nat.sub_self, discrepancy]
      simp
  obtain ⟨old, ho, he⟩ := pre (i - 1) (by omega)
  obtain ⟨d, hd⟩ : ∃ d, synd[i]? = some d := ⟨synd[i]'(by omega), List.getElem?_eq_getElem _⟩
  have hd0 : d ≠ 0 := fun e => h3 (by rw [hd, e])
  obtain ⟨o0, old', rfl⟩ : ∃ a l, old = a :: l := by
    cases old with
    | nil => simp at ho
    | cons a l => exact ⟨a, l, rfl⟩
  apply forE_ub _ i nsym h2
  obtain ⟨k, rfl⟩ : ∃ k, i = k + 1 := ⟨i - 1, by omega⟩
  simp only [Nat.add_sub_cancel] at he
  have step2 : forE 2 (locStep P t [1] d) (0 :: o0 :: old') = .ub := by
    simp only [forE, Eff.bind_ok, locStep, rd, List.getElem?_cons_zero]
    have hz : multiply P t d 0 = .ok 0 := by simp [multiply]
    rw [hz, Eff.bind_ok, wr_eq (by simp), Eff.bind_ok]
    rfl
  simp only [forE, he, Eff.bind_ok, bmStep, rd_eq hd, List.length_singleton, Nat.sub_self, discrepancy, ne_eq, hd0,
    not_false_eq_true, if_true]
  rw [forE_ub _ 2 _ (by simp) step2]
  rfl

/-- All syndromes the code looks at vanish. -/
def Clean (P : Params) (msg : List ℕ) (nsym : ℕ) : Prop :=
  ∀ i, 1 ≤ i → i ≤ nsym → (msgPoly P msg).eval (al P ^ i) = 0

theorem correct_clean (h : Good P) (ht : IsTab P t) {msg : List ℕ} (hm : InField P msg) {nsym : ℕ}
    (hn : nsym < P.fieldSize) (hc : Clean P msg nsym) : correctErrors P t msg nsym = .ok (some msg) := by
  obtain ⟨s, h1, h2, _, h4⟩ := calcSyndromes_spec h ht hm hn
  have : ((s.drop 1).all (· == 0)) = true := by
    rw [drop_all_zero]
    intro i hi1 hi2
    obtain ⟨v, hv, hlt, he⟩ := h4 i (by omega)
    rw [hc i hi1 (by omega)] at he
    rw [hv, emb_eq_zero h hlt he]
  simp only [correctErrors, h1, Eff.bind_ok, this, if_true]

theorem correct_dirty (h : Good P) (ht : IsTab P t) {msg : List ℕ} (hm : InField P msg) {nsym : ℕ}
    (hn : nsym < P.fieldSize) (hc : ¬ Clean P msg nsym) : correctErrors P t msg nsym = .ub := by
  obtain ⟨s, h1, h2, _, h4⟩ := calcSyndromes_spec h ht hm hn
  have hne : ∃ i, 1 ≤ i ∧ i ≤ nsym ∧ s[i]? ≠ some 0 := by
    by_contra hcon
    push Not at hcon
    apply hc
    intro i hi1 hi2
    obtain ⟨v, hv, _, he⟩ := h4 i hi2
    have := hcon i hi1 hi2
    rw [hv] at this
    injection this with this
    rw [← he, this, emb_zero]
  have hall : ¬ (((s.drop 1).all (· == 0)) = true) := by
    rw [drop_all_zero]
    intro hall
    obtain ⟨i, a, b, c⟩ := hne
    exact c (hall i a (by omega))
  simp only [correctErrors, h1, Eff.bind_ok, if_neg hall, findErrorLocator, bm_ub h2 hne, Eff.bind_ub]

theorem codeword_iff (msg : List ℕ) (nsym : ℕ) : IsCodeword P.poly 1 nsym msg ↔ Clean P msg nsym := by
  constructor
  · intro h i h1 h2; exact h i h1 (by omega)
  · intro h i h1 h2; exact h i h1 (by omega)

theorem listPoly_set {R : Type} [CommRing R] : ∀ (l : List R) (i : ℕ) (hi : i < l.length) (v : R),
    listPoly (l.set i v) = listPoly l + C (v - l[i]) * X ^ (l.length - 1 - i)
  | a :: l, 0, _, v => by simp [listPoly]; ring
  | a :: l, i + 1, hi, v => by
    have hi' : i < l.length := by simpa using hi
    simp only [List.set_cons_succ, listPoly, listPoly_set l i hi' v, List.length_set, List.getElem_cons_succ, List.length_cons]
    rw [show l.length + 1 - 1 - (i + 1) = l.length - 1 - i by omega]
    ring

/-! ### The quotient ring is a domain -/

theorem emb_surj (h : Good P) (r : Rg P) : ∃ a < 2 ^ P.m, emb P a = r := by
  obtain ⟨f, rfl⟩ := AdjoinRoot.mk_surjective r
  induction f using Polynomial.induction_on' with
  | add f g hf hg =>
    obtain ⟨a, ha, ea⟩ := hf
    obtain ⟨b, hb, eb⟩ := hg
    exact ⟨a ^^^ b, Nat.xor_lt_two_pow ha hb, by rw [emb_xor, ea, eb, map_add]⟩
  | monomial n a =>
    have h01 : ∀ z : ZMod 2, z = 0 ∨ z = 1 := by decide
    rcases h01 a with rfl | rfl
    · exact ⟨0, Nat.pow_pos (by norm_num), by simp⟩
    · refine ⟨(xt P)^[n] 1, iter_lt h n, ?_⟩
      rw [emb_iter, ← Polynomial.C_mul_X_pow_eq_monomial, map_mul, map_pow]
      simp [al]

theorem rg_isDomain (h : Good P) : IsDomain (Rg P) := by
  have : Nontrivial (Rg P) := ⟨⟨1, 0, one_ne_zero' h⟩⟩
  have : NoZeroDivisors (Rg P) := ⟨by
    intro a b e
    obtain ⟨x, hx, rfl⟩ := emb_surj h a
    obtain ⟨y, hy, rfl⟩ := emb_surj h b
    rcases rg_domain_mul h hx e hy with rfl | rfl
    · left; simp
    · right; simp⟩
  exact NoZeroDivisors.to_isDomain _

/-! ### List polynomials -/

section
variable {R : Type} [CommRing R]

theorem degree_listPoly_lt (l : List R) : (listPoly l).degree < (l.length : ℕ) := by
  induction l with
  | nil => simp [listPoly]
  | cons c cs ih =>
    simp only [listPoly, List.length_cons]
    refine lt_of_le_of_lt (Polynomial.degree_add_le _ _) (max_lt ?_ ?_)
    · exact lt_of_le_of_lt (Polynomial.degree_C_mul_X_pow_le _ _) (by exact_mod_cast Nat.lt_succ_self _)
    · exact ih.trans (by exact_mod_cast Nat.lt_succ_self _)

theorem listPoly_eq_zero : ∀ (l : List R), listPoly l = 0 → ∀ x ∈ l, x = 0
  | [], _, x, hx => by simp at hx
  | c :: cs, h, x, hx => by
    have hc : c = 0 := by
      have := congrArg (fun p => Polynomial.coeff p cs.length) h
      simp only [listPoly, Polynomial.coeff_add, Polynomial.coeff_C_mul, Polynomial.coeff_X_pow, if_true, mul_one,
        Polynomial.coeff_zero, Polynomial.coeff_eq_zero_of_degree_lt (degree_listPoly_lt cs), add_zero] at this
      exact this
    subst hc
    simp only [listPoly, map_zero, zero_mul, zero_add] at h
    rcases List.mem_cons.mp hx with rfl | hx
    · rfl
    · exact listPoly_eq_zero cs h x hx

theorem listPoly_zipWith (e : R) : ∀ (l m : List R), l.length = m.length →
    listPoly (List.zipWith (fun a b => a + e * b) l m) = listPoly l + C e * listPoly m
  | [], [], _ => by simp [listPoly]
  | a :: l, b :: m, h => by
    simp only [List.length_cons, Nat.add_right_cancel_iff] at h
    simp only [List.zipWith_cons_cons, listPoly, listPoly_zipWith e l m h, List.length_zipWith, h, Nat.min_self]
    simp only [map_add, map_mul]
    ring
  | [], _ :: _, h => by simp at h
  | _ :: _, [], h => by simp at h

theorem listPoly_zeros (n : ℕ) : listPoly (List.replicate n (0 : R)) = 0 := by
  induction n with
  | zero => rfl
  | succ n ih => simp [List.replicate_succ, listPoly, ih]

end

/-! ### The generator polynomial -/

theorem getD_lt {l : List ℕ} {i : ℕ} (h : i < l.length) : l.getD i 0 = l[i] := by simp [h]

theorem add_self (r : Rg P) : r + r = 0 := by
  have h1 : (1 : Rg P) + 1 = 0 := by
    have : emb P (1 ^^^ 1) = emb P 1 + emb P 1 := emb_xor 1 1
    rw [Nat.xor_self, emb_zero, emb_one] at this
    exact this.symm
  calc r + r = (1 + 1) * r := by ring
    _ = 0 := by rw [h1, zero_mul]

theorem poly_add_self (f : (Rg P)[X]) : f + f = 0 := by
  ext i; rw [Polynomial.coeff_add, add_self, Polynomial.coeff_zero]


theorem genInner (h : Good P) (ht : IsTab P t) {g : List ℕ} (hg : InField P g) (hne : g ≠ []) {i : ℕ} (hi : i < P.fieldSize) :
    ∃ r, forE g.length (genStep P t g i) (g ++ [0]) = .ok r ∧ r.length = g.length + 1 ∧ InField P r ∧
      r[0]? = g[0]? ∧ msgPoly P r = msgPoly P g * (X - C (al P ^ i)) := by
  have hpos : 0 < 2 ^ P.m := Nat.pow_pos (by norm_num)
  have hgpos : 0 < g.length := List.length_pos_iff.mpr hne
  have key := forE_inv (f := genStep P t g i)
    (fun k r => r.length = g.length + 1 ∧ InField P r ∧ r[0]? = g[0]? ∧
      ∀ j, 1 ≤ j → j ≤ g.length → ∃ v, r[j]? = some v ∧
        emb P v = emb P (g.getD j 0) + (if j ≤ k then al P ^ i * emb P (g.getD (j - 1) 0) else 0))
    g.length (g ++ [0]) ⟨by simp, ?_, ?_, ?_⟩ ?_
  · obtain ⟨r, h1, h2, h3, h4, h5⟩ := key
    refine ⟨r, h1, h2, h3, h4, ?_⟩
    have hz : r.map (emb P) = List.zipWith (fun a b => a + (al P ^ i) * b) (g.map (emb P) ++ [0]) (0 :: g.map (emb P)) := by
      apply List.ext_getElem
      · simp [h2]
      · intro j hj1 hj2
        simp only [List.getElem_map, List.getElem_zipWith]
        simp only [List.length_map] at hj1
        rcases j with _ | j
        · have e0 : r[0]'(by omega) = g[0]'(by omega) := by
            rw [List.getElem?_eq_getElem (by omega), List.getElem?_eq_getElem (by omega)] at h4
            injection h4
          simp [e0, hgpos]
        · obtain ⟨v, hv, he⟩ := h5 (j + 1) (by omega) (by omega)
          rw [List.getElem?_eq_getElem (by omega)] at hv
          injection hv with hv
          rw [hv, he, if_pos (by omega)]
          simp only [List.getElem_cons_succ, List.getElem_map, Nat.add_sub_cancel]
          have hj : j < g.length := by omega
          rw [getD_lt hj]
          congr 1
          rw [List.getElem_append]
          by_cases hjj : j + 1 < g.length
          · simp [hjj]
          · have : g.getD (j + 1) 0 = 0 := by rw [List.getD_eq_getElem?_getD, List.getElem?_eq_none (by omega)]; rfl
            rw [this]; simp [hjj]
    unfold msgPoly
    rw [hz, listPoly_zipWith _ _ _ (by simp), listPoly_snoc]
    simp only [listPoly, List.length_map, map_zero, zero_mul, zero_add, add_zero]
    have hneg : ∀ z : (Rg P)[X], -z = z := fun z => neg_eq_of_add_eq_zero_left (poly_add_self z)
    rw [mul_sub, sub_eq_add_neg, hneg]
    ring
  · intro x hx
    rcases List.mem_append.mp hx with hx | hx
    · exact hg x hx
    · rw [List.mem_singleton] at hx; rw [hx]; exact hpos
  · rw [List.getElem?_append_left hgpos]
  · intro j hj1 hj2
    refine ⟨g.getD j 0, ?_, by rw [if_neg (by omega), add_zero]⟩
    by_cases hj : j < g.length
    · rw [List.getElem?_append_left hj, getD_lt hj, List.getElem?_eq_getElem hj]
    · have : j = g.length := by omega
      subst this
      simp
  · rintro k hk r ⟨hl, hf, hr0, hv⟩
    obtain ⟨old, ho, heo⟩ := hv (k + 1) (by omega) (by omega)
    have hgk : g[k]? = some (g[k]) := List.getElem?_eq_getElem hk
    have hgkl : g[k] < 2 ^ P.m := hg _ (List.getElem_mem hk)
    obtain ⟨p, hp1, hp2, hp3⟩ := multiply_spec h ht hgkl (iter_lt h i)
    have hold : old < 2 ^ P.m := hf _ (List.mem_of_getElem? ho)
    refine ⟨r.set (k + 1) (add old p), ?_, by simpa using hl, ?_, ?_, ?_⟩
    · simp only [genStep, rd_eq ho, rd_eq hgk, exp_spec ht hi, Eff.bind_ok, hp1]
      exact wr_eq (by omega)
    · intro y hy
      rcases List.mem_or_eq_of_mem_set hy with hy | hy
      · exact hf y hy
      · rw [hy]; exact Nat.xor_lt_two_pow hold hp2
    · rw [List.getElem?_set_ne (by omega)]; exact hr0
    · intro j hj1 hj2
      by_cases hjk : k + 1 = j
      · subst hjk
        refine ⟨add old p, by rw [List.getElem?_set_self (by omega)], ?_⟩
        rw [show add old p = old ^^^ p from rfl, emb_xor, heo, if_neg (by omega), if_pos (by omega), hp3, emb_iter, add_zero]
        rw [Nat.add_sub_cancel, getD_lt hk, mul_comm (al P ^ i)]
      · rw [List.getElem?_set_ne hjk]
        obtain ⟨v, hv1, hv2⟩ := hv j hj1 hj2
        refine ⟨v, hv1, ?_⟩
        rw [hv2]
        by_cases hjk2 : j ≤ k
        · rw [if_pos hjk2, if_pos (by omega)]
        · rw [if_neg hjk2, if_neg (by omega)]

theorem generatorPoly_spec (h : Good P) (ht : IsTab P t) {nsym : ℕ} (hn : nsym ≤ P.fieldSize) :
    ∃ g, generatorPoly P t nsym = .ok g ∧ g.length = nsym + 1 ∧ InField P g ∧ g[0]? = some 1 ∧
      msgPoly P g = ∏ i ∈ Finset.range nsym, (X - C (al P ^ i)) := by
  have one_lt : 1 < 2 ^ P.m := iter_lt h 0
  obtain ⟨g, h1, h2, h3, h4, h5⟩ := forE_inv
    (f := fun i g => forE g.length (genStep P t g i) (g ++ [0]))
    (fun k g => g.length = k + 1 ∧ InField P g ∧ g[0]? = some 1 ∧
      msgPoly P g = ∏ i ∈ Finset.range k, (X - C (al P ^ i)))
    nsym [1] ⟨rfl, by intro x hx; rw [List.mem_singleton] at hx; rw [hx]; exact one_lt, rfl, by
      simp [msgPoly, listPoly]⟩ (by
      rintro i hi g ⟨hl, hf, h0, hp⟩
      obtain ⟨r, r1, r2, r3, r4, r5⟩ := genInner h ht hf (by rintro rfl; simp at hl) (show i < P.fieldSize by omega)
      exact ⟨r, r1, by omega, r3, by rw [r4, h0], by rw [r5, hp, Finset.prod_range_succ]⟩)
  exact ⟨g, h1, h2, h3, h4, h5⟩

end Verif.GF

namespace Verif.RS
open Polynomial Verif.Spec Verif.GF

/-- The state of the encoder: a usable field, its tables and its generator polynomial. -/
structure Ready (c : Cfg) (k : Codec) : Prop where
  good : Good c.field
  tab : IsTab c.field k.tab
  eccPos : 1 ≤ c.ecc
  eccLe : c.ecc ≤ c.field.order
  genLen : k.gen.length = c.ecc + 1
  genIn : InField c.field k.gen
  gen0 : k.gen[0]? = some 1
  genPoly : msgPoly c.field k.gen = ∏ i ∈ Finset.range c.ecc, (X - C (al c.field ^ i))

theorem construct_ready {c : Cfg} {k : Codec} (hg : Good c.field) (h1 : 1 ≤ c.ecc) (h2 : c.ecc ≤ c.field.order)
    (hk : c.construct = .ok k) : Ready c k := by
  obtain ⟨t, ht, hT⟩ := construct_ok hg
  obtain ⟨g, g1, g2, g3, g4, g5⟩ := generatorPoly_spec hg hT (nsym := c.ecc) (by have := order_lt hg; omega)
  simp only [Cfg.construct, ht, Eff.bind_ok, g1] at hk
  injection hk with hk
  subst hk
  exact ⟨hg, hT, h1, h2, g2, g3, g4, g5⟩

theorem construct_total {c : Cfg} (hg : Good c.field) (h2 : c.ecc ≤ c.field.order) : ∃ k, c.construct = .ok k := by
  obtain ⟨t, ht, hT⟩ := construct_ok hg
  obtain ⟨g, g1, _⟩ := generatorPoly_spec hg hT (nsym := c.ecc) (by have := order_lt hg; omega)
  exact ⟨⟨t, g⟩, by simp [Cfg.construct, ht, g1]⟩

section
variable {c : Cfg} {k : Codec}

/-- One step of the division: the new remainder in terms of the old one. -/
theorem eccStep_spec (hr : Ready c k) {message r : List ℕ} {i m : ℕ} (hm : message[i]? = some m)
    (hml : m < 2 ^ c.field.m) (hl : r.length = c.ecc) (hf : InField c.field r) :
    ∃ r', c.eccStep k message i r = .ok r' ∧ r'.length = c.ecc ∧ InField c.field r' ∧
      ∀ j (hj : j < c.ecc), ∃ v, r'[j]? = some v ∧
        emb c.field v = if j + 1 < c.ecc then
          emb c.field (r.getD (j + 1) 0) + emb c.field (m ^^^ r.getD 0 0) * emb c.field (k.gen.getD (j + 1) 0) else 0 := by
  have hep := hr.eccPos
  have hgl := hr.genLen
  have hpos : 0 < 2 ^ c.field.m := Nat.pow_pos (by norm_num)
  have hr0 : r[0]? = some (r.getD 0 0) := by
    rw [getD_lt (by omega), List.getElem?_eq_getElem]
  have hr0l : r.getD 0 0 < 2 ^ c.field.m := hf _ (List.mem_of_getElem? hr0)
  have hfl : m ^^^ r.getD 0 0 < 2 ^ c.field.m := Nat.xor_lt_two_pow hml hr0l
  -- common shape of the two inner loops
  have loop : ∀ (f : ℕ → List ℕ → Eff (List ℕ)),
      (∀ i, i < c.ecc - 1 → ∀ s : List ℕ, s.length = c.ecc → InField c.field s → ∀ old, s[i + 1]? = some old →
        ∃ v, v < 2 ^ c.field.m ∧ f i s = .ok (s.set i v) ∧
          emb c.field v = emb c.field old + emb c.field (m ^^^ r.getD 0 0) * emb c.field (k.gen.getD (i + 1) 0)) →
      ∃ s, forE (c.ecc - 1) f r = .ok s ∧ s.length = c.ecc ∧ InField c.field s ∧
        ∀ j, j + 1 < c.ecc → ∃ v, s[j]? = some v ∧
          emb c.field v = emb c.field (r.getD (j + 1) 0) + emb c.field (m ^^^ r.getD 0 0) * emb c.field (k.gen.getD (j + 1) 0) := by
    intro f hstep
    obtain ⟨s, h1, h2, h3, h4, _⟩ := forE_inv (f := f)
      (fun n s => s.length = c.ecc ∧ InField c.field s ∧
        (∀ j, j < n → ∃ v, s[j]? = some v ∧
          emb c.field v = emb c.field (r.getD (j + 1) 0) + emb c.field (m ^^^ r.getD 0 0) * emb c.field (k.gen.getD (j + 1) 0)) ∧
        ∀ j, n ≤ j → s[j]? = r[j]?)
      (c.ecc - 1) r ⟨hl, hf, fun j hj => absurd hj (Nat.not_lt_zero _), fun _ _ => rfl⟩ (by
        rintro i hi s ⟨s1, s2, s3, s4⟩
        have hold : s[i + 1]? = some (r.getD (i + 1) 0) := by
          rw [s4 (i + 1) (by omega), getD_lt (by omega), List.getElem?_eq_getElem]
        obtain ⟨v, v1, v2, v3⟩ := hstep i hi s s1 s2 _ hold
        refine ⟨_, v2, by simpa using s1, ?_, ?_, ?_⟩
        · intro y hy
          rcases List.mem_or_eq_of_mem_set hy with hy | hy
          · exact s2 y hy
          · rw [hy]; exact v1
        · intro j hj
          by_cases hij : i = j
          · subst hij; exact ⟨v, by rw [List.getElem?_set_self (by omega)], v3⟩
          · rw [List.getElem?_set_ne hij]; exact s3 j (by omega)
        · intro j hj
          rw [List.getElem?_set_ne (by omega)]; exact s4 j (by omega))
    exact ⟨s, h1, h2, h3, fun j hj => h4 j (by omega)⟩
  have finish : ∀ s : List ℕ, s.length = c.ecc → InField c.field s →
      (∀ j, j + 1 < c.ecc → ∃ v, s[j]? = some v ∧
          emb c.field v = emb c.field (r.getD (j + 1) 0) + emb c.field (m ^^^ r.getD 0 0) * emb c.field (k.gen.getD (j + 1) 0)) →
      ∃ r', wr s (c.ecc - 1) 0 = .ok r' ∧ r'.length = c.ecc ∧ InField c.field r' ∧
      ∀ j (hj : j < c.ecc), ∃ v, r'[j]? = some v ∧
        emb c.field v = if j + 1 < c.ecc then
          emb c.field (r.getD (j + 1) 0) + emb c.field (m ^^^ r.getD 0 0) * emb c.field (k.gen.getD (j + 1) 0) else 0 := by
    intro s s1 s2 s3
    refine ⟨s.set (c.ecc - 1) 0, wr_eq (by omega), by simpa using s1, ?_, ?_⟩
    · intro y hy
      rcases List.mem_or_eq_of_mem_set hy with hy | hy
      · exact s2 y hy
      · rw [hy]; exact hpos
    · intro j hj
      by_cases hjl : j + 1 < c.ecc
      · rw [List.getElem?_set_ne (by omega), if_pos hjl]; exact s3 j hjl
      · have : c.ecc - 1 = j := by omega
        rw [this, List.getElem?_set_self (by omega), if_neg hjl]
        exact ⟨0, rfl, emb_zero⟩
  unfold Cfg.eccStep
  rw [rd_eq hm, rd_eq hr0]
  simp only [Eff.bind_ok, show add m (r.getD 0 0) = m ^^^ r.getD 0 0 from rfl]
  by_cases hfb : m ^^^ r.getD 0 0 = 0
  · rw [if_neg (by simpa using hfb)]
    obtain ⟨s, h1, h2, h3, h4⟩ := loop (fun j r => Eff.bind (rd r (j + 1)) fun v => wr r j v) (by
      intro i hi s s1 s2 old ho
      refine ⟨old, s2 _ (List.mem_of_getElem? ho), ?_, ?_⟩
      · simp only [rd_eq ho, Eff.bind_ok]; exact wr_eq (by omega)
      · rw [hfb, emb_zero, zero_mul, add_zero])
    rw [h1, Eff.bind_ok]
    exact finish s h2 h3 h4
  · rw [if_pos hfb]
    obtain ⟨s, h1, h2, h3, h4⟩ := loop (c.eccInner k (m ^^^ r.getD 0 0)) (by
      intro i hi s s1 s2 old ho
      have hgi : k.gen[i + 1]? = some (k.gen.getD (i + 1) 0) := by
        rw [getD_lt (by omega), List.getElem?_eq_getElem]
      obtain ⟨p, p1, p2, p3⟩ := multiply_spec hr.good hr.tab hfl (hr.genIn _ (List.mem_of_getElem? hgi))
      refine ⟨old ^^^ p, Nat.xor_lt_two_pow (s2 _ (List.mem_of_getElem? ho)) p2, ?_, ?_⟩
      · unfold Cfg.eccInner
        simp only
        rw [if_pos (by omega), rd_eq ho, rd_eq hgi, Eff.bind_ok, Eff.bind_ok, p1, Eff.bind_ok, Nat.add_sub_cancel]
        exact wr_eq (by omega)
      · rw [emb_xor, p3])
    rw [h1, Eff.bind_ok, if_pos (by omega)]
    exact finish s h2 h3 h4

/-- The polynomial the encoder really divides by: the generator with its constant term dropped. -/
noncomputable def genCut (c : Cfg) (k : Codec) : (Rg c.field)[X] :=
  msgPoly c.field k.gen - C (emb c.field (k.gen.getD c.ecc 0))

theorem gen_split (hr : Ready c k) : ∃ gs : List ℕ, ∃ gl, k.gen = 1 :: (gs ++ [gl]) ∧ gs.length + 1 = c.ecc ∧
    (∀ j, j + 1 < c.ecc → gs[j]? = some (k.gen.getD (j + 1) 0)) ∧
    genCut c k = X ^ c.ecc + listPoly (gs.map (emb c.field)) * X := by
  have hgl := hr.genLen
  have hep := hr.eccPos
  have h0 := hr.gen0
  obtain ⟨a, tl, hk⟩ : ∃ a l, k.gen = a :: l := by
    cases hk : k.gen with
    | nil => rw [hk] at hgl; simp at hgl
    | cons a l => exact ⟨a, l, rfl⟩
  rw [hk] at h0
  simp at h0
  subst h0
  have htl : tl.length = c.ecc := by rw [hk] at hgl; simpa using hgl
  have htne : tl ≠ [] := by rintro rfl; simp at htl; omega
  refine ⟨tl.dropLast, tl.getLast htne, ?_, by simp; omega, ?_, ?_⟩
  · rw [List.dropLast_append_getLast]; exact hk
  · intro j hj
    rw [hk, getD_lt (by simp; omega), List.getElem?_eq_getElem (by simp; omega)]
    simp
  · unfold genCut
    have hlast : k.gen.getD c.ecc 0 = tl.getLast htne := by
      rw [hk, getD_lt (by simp; omega), List.getLast_eq_getElem]
      obtain ⟨e, he⟩ : ∃ e, c.ecc = e + 1 := ⟨c.ecc - 1, by omega⟩
      simp [he, htl]
    rw [hlast]
    have hk2 : k.gen = 1 :: (tl.dropLast ++ [tl.getLast htne]) := by rw [List.dropLast_append_getLast]; exact hk
    rw [hk2]
    simp only [msgPoly, List.map_cons, List.map_append, List.map_nil, listPoly, listPoly_snoc, emb_one, map_one, one_mul]
    have : (List.map (emb c.field) tl.dropLast ++ [emb c.field (tl.getLast htne)]).length = c.ecc := by simp; omega
    rw [this]
    simp
    ring

/-- The codeword (data followed by the computed symbols) is a multiple of the cut generator. -/
theorem computeEcc_spec (hr : Ready c k) {message : List ℕ} (hlen : c.dataSymbols ≤ message.length)
    (hmf : InField c.field message) :
    ∃ r, c.computeEcc k message = .ok r ∧ r.length = c.ecc ∧ InField c.field r ∧
      ∃ q : List (Rg c.field), q.length = c.dataSymbols ∧
        msgPoly c.field (message.take c.dataSymbols) * X ^ c.ecc + msgPoly c.field r = listPoly q * genCut c k := by
  obtain ⟨gs, gl, hk, hgs, hgj, hcut⟩ := gen_split hr
  have hep := hr.eccPos
  obtain ⟨r, h1, h2, h3, h4⟩ := forE_inv (f := c.eccStep k message)
    (fun n r => r.length = c.ecc ∧ InField c.field r ∧ ∃ q : List (Rg c.field), q.length = n ∧
        msgPoly c.field (message.take n) * X ^ c.ecc + msgPoly c.field r = listPoly q * genCut c k)
    c.dataSymbols (List.replicate c.ecc 0)
    ⟨by simp, by intro x hx; rw [List.mem_replicate] at hx; rw [hx.2]; exact Nat.pow_pos (by norm_num),
      [], rfl, by simp [msgPoly, listPoly, listPoly_zeros]⟩ (by
      rintro i hi r ⟨hl, hf, q, hq, he⟩
      have hmi : message[i]? = some (message[i]) := List.getElem?_eq_getElem (by omega)
      obtain ⟨r', s1, s2, s3, s4⟩ := eccStep_spec hr hmi (hmf _ (List.getElem_mem _)) hl hf
      refine ⟨r', s1, s2, s3, q ++ [emb c.field (message[i] ^^^ r.getD 0 0)], by simp [hq], ?_⟩
      obtain ⟨r0, rs, hrr⟩ : ∃ a l, r = a :: l := by
        cases hh : r with
        | nil => rw [hh] at hl; simp at hl; omega
        | cons a l => exact ⟨a, l, rfl⟩
      have hrs : rs.length + 1 = c.ecc := by rw [hrr] at hl; simpa using hl
      have e' : r'.map (emb c.field) =
          List.zipWith (fun a b => a + emb c.field (message[i] ^^^ r.getD 0 0) * b) (rs.map (emb c.field)) (gs.map (emb c.field)) ++ [0] := by
        apply List.ext_getElem
        · simp; omega
        · intro j hj1 hj2
          simp only [List.length_map] at hj1
          obtain ⟨v, v1, v2⟩ := s4 j (by omega)
          rw [List.getElem?_eq_getElem hj1] at v1
          injection v1 with v1
          rw [List.getElem_map, v1, v2, List.getElem_append]
          by_cases hjl : j + 1 < c.ecc
          · have g2 := hgj j hjl
            rw [List.getElem?_eq_getElem (by omega)] at g2
            injection g2 with g2
            rw [if_pos hjl]
            have hlen' : j < (List.zipWith (fun a b => a + emb c.field (message[i] ^^^ r.getD 0 0) * b)
              (rs.map (emb c.field)) (gs.map (emb c.field))).length := by simp; omega
            rw [dif_pos hlen', List.getElem_zipWith, List.getElem_map, List.getElem_map, g2]
            congr 1
            congr 1
            have hjr : j < rs.length := by omega
            have hgd : (r0 :: rs).getD (j + 1) 0 = rs[j] := by
              rw [getD_lt (by simp; omega)]; simp
            rw [← hrr] at hgd
            exact hgd
          · rw [if_neg hjl]
            have hlen' : ¬ j < (List.zipWith (fun a b => a + emb c.field (message[i] ^^^ r.getD 0 0) * b)
              (rs.map (emb c.field)) (gs.map (emb c.field))).length := by simp; omega
            rw [dif_neg hlen']
            simp
      have hpr' : msgPoly c.field r' = (listPoly (rs.map (emb c.field)) +
          C (emb c.field (message[i] ^^^ r.getD 0 0)) * listPoly (gs.map (emb c.field))) * X := by
        unfold msgPoly
        rw [e', listPoly_snoc, listPoly_zipWith _ _ _ (by simp; omega)]
        simp
      have hpr : msgPoly c.field r = C (emb c.field r0) * X ^ rs.length + listPoly (rs.map (emb c.field)) := by
        rw [hrr]; simp [msgPoly, listPoly]
      have htake : msgPoly c.field (message.take (i + 1)) = msgPoly c.field (message.take i) * X + C (emb c.field message[i]) := by
        rw [List.take_succ_eq_append_getElem (by omega)]
        unfold msgPoly
        rw [List.map_append]
        exact listPoly_snoc _ _
      have hr00 : r.getD 0 0 = r0 := by rw [hrr]; rfl
      rw [hr00] at hpr' ⊢
      rw [listPoly_snoc, add_mul, mul_right_comm, ← he, hcut, htake, hpr', hpr, emb_xor]
      have hc2 : C (emb c.field r0) * X ^ c.ecc + C (emb c.field r0) * X ^ c.ecc = 0 := poly_add_self _
      have hc3 : C (emb c.field message[i]) * X ^ c.ecc + C (emb c.field message[i]) * X ^ c.ecc = 0 := poly_add_self _
      rw [← hrs] at hc2 hc3 ⊢
      simp only [map_add]
      linear_combination (-1 : (Rg c.field)[X]) * hc2)
  exact ⟨r, h1, h2, h3, h4⟩

end
end Verif.RS
