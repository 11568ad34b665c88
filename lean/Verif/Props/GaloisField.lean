import Verif.Lemmas.Gf
/-!
Property C22: the table arithmetic of `GaloisField` is the arithmetic of GF(2)[X] modulo the defining
polynomial, it satisfies the field laws, and every shipped instantiation can be constructed.
-/
namespace Verif.Props.Gf
open Verif.GF Verif.Spec Polynomial

/-- Linear scan used to check that no earlier power of `α` is 1. -/
def scan (P : Params) : Nat → Nat → Bool
  | 0, _ => true
  | n + 1, x => x != 1 && scan P n (xt P x)

theorem scan_spec (P : Params) : ∀ (n x : Nat), scan P n x = true → ∀ i < n, (xt P)^[i] x ≠ 1
  | 0, _, _, i, hi => absurd hi (Nat.not_lt_zero _)
  | n + 1, x, h, i, hi => by
    simp only [scan, Bool.and_eq_true, bne_iff_ne, ne_eq] at h
    rcases i with _ | i
    · exact h.1
    · rw [Function.iterate_succ_apply]; exact scan_spec P n _ h.2 i (by omega)

theorem good_gf16 : Good gf16 where
  two_le := by decide
  le15 := by decide
  ne8 := by decide
  polyLt := by decide
  top := by decide
  ret := by decide +kernel
  noRet := by
    intro i h0 h1
    obtain ⟨j, rfl⟩ : ∃ j, i = j + 1 := ⟨i - 1, by omega⟩
    rw [Function.iterate_succ_apply]
    exact scan_spec gf16 14 _ (by decide +kernel) j (by change j + 1 < 15 at h1; omega)

theorem good_gf1024 : Good gf1024 where
  two_le := by decide
  le15 := by decide
  ne8 := by decide
  polyLt := by decide
  top := by decide
  ret := by decide +kernel
  noRet := by
    intro i h0 h1
    obtain ⟨j, rfl⟩ : ∃ j, i = j + 1 := ⟨i - 1, by omega⟩
    rw [Function.iterate_succ_apply]
    exact scan_spec gf1024 1022 _ (by decide +kernel) j (by change j + 1 < 1023 at h1; omega)

/-- The fields that can be used: the two shipped instantiations with a working constructor. -/
def Shipped (P : Params) : Prop := P = gf16 ∨ P = gf1024

theorem Shipped.good {P : Params} (h : Shipped P) : Good P := by
  rcases h with rfl | rfl
  · exact good_gf16
  · exact good_gf1024

theorem tab_of {P : Params} (h : Good P) {t : Tables} (hc : P.construct = .ok t) : IsTab P t := by
  obtain ⟨t', h1, h2⟩ := construct_ok h
  rw [hc] at h1
  injection h1 with h1
  rw [h1]; exact h2

/-- **C22 (construction).** Constructing a GF16 or GF1024 object succeeds. -/
theorem C22_constructible {P : Params} (hP : Shipped P) : ∃ t, P.construct = .ok t :=
  let ⟨t, h, _⟩ := construct_ok hP.good; ⟨t, h⟩

/-- **C22 (violated for GF256).** `field_size` is an 8-bit 256, i.e. 0, so the tables are empty and the
constructor of GF256 writes outside them. -/
theorem C22_gf256_construct_violated : gf256.construct = .ub := by decide +kernel

/-- **C22 (polynomial arithmetic).** On all field elements `a, b`: `add`/`subtract` are addition of polynomials
over GF(2); `multiply` returns the element congruent to the product modulo the defining polynomial; for `b ≠ 0`
`divide` returns the element whose product with `b` is `a`, and `inverse` the one whose product with `b` is 1. -/
theorem C22_polynomial_arithmetic {P : Params} (hP : Shipped P) {t : Tables} (hc : P.construct = .ok t)
    {a b : ℕ} (ha : a < 2 ^ P.m) (hb : b < 2 ^ P.m) :
    (add a b < 2 ^ P.m ∧ wordPoly (add a b) = wordPoly a + wordPoly b) ∧
    (subtract a b < 2 ^ P.m ∧ wordPoly (subtract a b) = wordPoly a - wordPoly b) ∧
    (∃ c, multiply P t a b = .ok c ∧ c < 2 ^ P.m ∧ SameMod P.poly (wordPoly a * wordPoly b) (wordPoly c)) ∧
    (b ≠ 0 → ∃ c, divide P t a b = .ok c ∧ c < 2 ^ P.m ∧ SameMod P.poly (wordPoly c * wordPoly b) (wordPoly a)) ∧
    (b ≠ 0 → ∃ c, inverse P t b = .ok c ∧ c < 2 ^ P.m ∧ SameMod P.poly (wordPoly b * wordPoly c) 1) := by
  have h := hP.good
  have ht := tab_of h hc
  refine ⟨⟨Nat.xor_lt_two_pow ha hb, wordPoly_xor a b⟩, ⟨Nat.xor_lt_two_pow ha hb, ?_⟩, ?_, ?_, ?_⟩
  · rw [CharTwo.sub_eq_add]; exact wordPoly_xor a b
  · obtain ⟨c, h1, h2, h3⟩ := multiply_spec h ht ha hb
    refine ⟨c, h1, h2, (emb_eq_iff P c _).mp ?_⟩
    rw [h3, map_mul]; rfl
  · intro h0
    obtain ⟨c, h1, h2, h3⟩ := divide_spec h ht ha h0 hb
    refine ⟨c, h1, h2, (emb_eq_iff P a _).mp ?_⟩
    rw [← h3, map_mul]; rfl
  · intro h0
    obtain ⟨c, h1, h2, h3⟩ := inverse_spec h ht h0 hb
    refine ⟨c, h1, h2, ?_⟩
    have := (emb_eq_iff P 1 (wordPoly b * wordPoly c)).mp (by rw [emb_one, ← h3, map_mul]; rfl)
    rwa [wordPoly_one] at this

/-- The element congruent to a given polynomial is unique, so C22_polynomial_arithmetic pins the results down. -/
theorem C22_representatives_unique {P : Params} (hP : Shipped P) {a b : ℕ} (ha : a < 2 ^ P.m) (hb : b < 2 ^ P.m)
    (h : SameMod P.poly (wordPoly a) (wordPoly b)) : a = b :=
  emb_inj hP.good ha hb ((emb_eq_iff P b _).mpr h)

/-- **C22 (division by zero).** `divide` by zero and `inverse` of zero throw. -/
theorem C22_zero_division_throws (P : Params) (t : Tables) (a : ℕ) :
    divide P t a 0 = .throws ∧ inverse P t 0 = .throws := ⟨rfl, rfl⟩

/-- **C22 (field laws).** Commutativity, associativity, distributivity, units, inverses and the relation of
`divide` with `multiply` and `inverse`, for all field elements, as equations between results of API calls. -/
theorem C22_field_laws {P : Params} (hP : Shipped P) {t : Tables} (hc : P.construct = .ok t)
    {a b c : ℕ} (ha : a < 2 ^ P.m) (hb : b < 2 ^ P.m) (hcc : c < 2 ^ P.m) :
    multiply P t a b = multiply P t b a ∧
    (multiply P t a b).bind (fun ab => multiply P t ab c) = (multiply P t b c).bind (fun bc => multiply P t a bc) ∧
    multiply P t a (add b c) =
      (multiply P t a b).bind (fun ab => (multiply P t a c).bind fun ac => .ok (add ab ac)) ∧
    add a b = add b a ∧ add (add a b) c = add a (add b c) ∧ add a 0 = a ∧ add a a = 0 ∧
    multiply P t a 1 = .ok a ∧ multiply P t a 0 = .ok 0 ∧
    (a ≠ 0 → (inverse P t a).bind (fun i => multiply P t a i) = .ok 1) ∧
    (b ≠ 0 → divide P t a b = (inverse P t b).bind (fun i => multiply P t a i)) ∧
    (b ≠ 0 → (divide P t a b).bind (fun q => multiply P t q b) = .ok a) := by
  have h := hP.good
  have ht := tab_of h hc
  have one_lt : 1 < 2 ^ P.m := iter_lt h 0
  have mul := fun {x y : ℕ} (hx : x < 2 ^ P.m) (hy : y < 2 ^ P.m) => multiply_spec h ht hx hy
  refine ⟨?_, ?_, ?_, Nat.xor_comm _ _, Nat.xor_assoc _ _ _, Nat.xor_zero _, Nat.xor_self _, ?_, ?_, ?_, ?_, ?_⟩
  · obtain ⟨x, h1, h2, h3⟩ := mul ha hb
    obtain ⟨y, h4, h5, h6⟩ := mul hb ha
    rw [h1, h4, emb_inj h h2 h5 (by rw [h3, h6, mul_comm])]
  · obtain ⟨x, h1, h2, h3⟩ := mul ha hb
    obtain ⟨y, h4, h5, h6⟩ := mul hb hcc
    obtain ⟨u, h7, h8, h9⟩ := mul h2 hcc
    obtain ⟨v, k1, k2, k3⟩ := mul ha h5
    rw [h1, h4, Eff.bind_ok, Eff.bind_ok, h7, k1, emb_inj h h8 k2 (by rw [h9, k3, h3, h6, mul_assoc])]
  · obtain ⟨x, h1, h2, h3⟩ := mul ha hb
    obtain ⟨y, h4, h5, h6⟩ := mul ha hcc
    obtain ⟨u, h7, h8, h9⟩ := mul ha (Nat.xor_lt_two_pow hb hcc)
    rw [h1, h4, Eff.bind_ok, Eff.bind_ok]
    change multiply P t a (b ^^^ c) = _
    rw [h7, emb_inj h h8 (Nat.xor_lt_two_pow h2 h5) (by rw [h9, emb_xor, emb_xor, h3, h6, mul_add])]
    rfl
  · obtain ⟨x, h1, h2, h3⟩ := mul ha one_lt
    rw [h1, emb_inj h h2 ha (by rw [h3, emb_one, mul_one])]
  · simp [multiply]
  · intro h0
    obtain ⟨i, h1, h2, h3⟩ := inverse_spec h ht h0 ha
    obtain ⟨x, h4, h5, h6⟩ := mul ha h2
    rw [h1, Eff.bind_ok, h4, emb_inj h h5 one_lt (by rw [h6, h3, emb_one])]
  · intro h0
    obtain ⟨q, h1, h2, h3⟩ := divide_spec h ht ha h0 hb
    obtain ⟨i, h4, h5, h6⟩ := inverse_spec h ht h0 hb
    obtain ⟨x, h7, h8, h9⟩ := mul ha h5
    rw [h1, h4, Eff.bind_ok, h7, emb_inj h h2 h8]
    rw [h9, ← h3, mul_assoc, h6, mul_one]
  · intro h0
    obtain ⟨q, h1, h2, h3⟩ := divide_spec h ht ha h0 hb
    obtain ⟨x, h7, h8, h9⟩ := mul h2 hb
    rw [h1, Eff.bind_ok, h7, emb_inj h h8 ha (by rw [h9, h3])]

/-- **C22 (power, partial).** `pow` is the `n`-fold product as long as `n * 2^m ≤ 2^32`; beyond that the 32-bit
product of logarithm and exponent wraps (see `C22_pow_violated`). -/
theorem C22_pow_partial {P : Params} (hP : Shipped P) {t : Tables} (hc : P.construct = .ok t)
    {a n : ℕ} (ha : a < 2 ^ P.m) (hn : n * 2 ^ P.m ≤ 2 ^ 32) :
    ∃ c, pow P t a n = .ok c ∧ c < 2 ^ P.m ∧ SameMod P.poly (wordPoly a ^ n) (wordPoly c) := by
  obtain ⟨c, h1, h2, h3⟩ := pow_spec hP.good (tab_of hP.good hc) ha hn
  refine ⟨c, h1, h2, (emb_eq_iff P c _).mp ?_⟩
  rw [h3, map_pow]; rfl

/-- **C22 (power, violated).** In GF16, `pow(4, 2^31)` returns 1, which is not the `2^31`-th power of 4. -/
theorem C22_pow_violated : ∃ t, gf16.construct = .ok t ∧ pow gf16 t 4 (2 ^ 31) = .ok 1 ∧
    ¬ SameMod gf16.poly (wordPoly 4 ^ (2 ^ 31)) (wordPoly 1) := by
  obtain ⟨t, hc, ht⟩ := construct_ok good_gf16
  refine ⟨t, hc, ?_, ?_⟩
  · have h4 : rd t.log 4 = .ok 2 := rd_eq (ht.log 2 (by decide))
    have h0 : rd t.exp 0 = .ok 1 := exp_spec ht (i := 0) (by decide)
    unfold GF.pow
    rw [if_neg (by decide), if_neg (by decide), h4, Eff.bind_ok]
    exact h0
  · intro hs
    have e := (emb_eq_iff gf16 1 _).mpr hs
    rw [map_pow] at e
    have e4 : AdjoinRoot.mk (wordPoly gf16.poly) (wordPoly 4) = al gf16 ^ 2 := by
      rw [← emb_iter]; rfl
    rw [e4, ← pow_mul, ← al_pow_mod good_gf16] at e
    have : (2 * 2 ^ 31) % gf16.order = 1 := by decide
    rw [this, ← emb_iter] at e
    exact absurd (emb_inj good_gf16 (iter_lt good_gf16 1) (iter_lt good_gf16 0) e) (by decide +kernel)

/-- **C22 (range).** An operand outside the field is not rejected: the table access is out of bounds. -/
theorem C22_out_of_range_violated {P : Params} (hP : Shipped P) {t : Tables} (hc : P.construct = .ok t)
    {a b : ℕ} (ha : 2 ^ P.m ≤ a) (hb : b ≠ 0) : multiply P t a b = .ub ∧ divide P t a b = .ub ∧ inverse P t a = .ub := by
  have h := hP.good
  have ht := tab_of h hc
  have h0 : a ≠ 0 := by have : 0 < 2 ^ P.m := Nat.pow_pos (by norm_num); omega
  have e : rd t.log a = .ub := rd_oob (by rw [ht.logLen, h.fieldSize_eq]; exact ha)
  simp [multiply, divide, inverse, h0, hb, e]

/-- Witness: the hypotheses hold for the constructed GF16 and GF1024. -/
example : ∃ t, gf16.construct = .ok t ∧ multiply gf16 t 7 11 = .ok 4 ∧ divide gf16 t 4 11 = .ok 7 ∧
    inverse gf16 t 7 = .ok 6 ∧ pow gf16 t 3 2 = .ok 5 := by
  obtain ⟨t, hc⟩ := C22_constructible (Or.inl rfl)
  refine ⟨t, hc, ?_⟩
  have : gf16.construct = .ok ⟨[1, 2, 4, 8, 3, 6, 12, 11, 5, 10, 7, 14, 15, 13, 9, 1],
    [0, 0, 1, 4, 2, 8, 5, 10, 3, 14, 9, 7, 6, 13, 11, 12]⟩ := by decide +kernel
  rw [hc] at this
  injection this with this
  subst this
  decide +kernel

example : ∃ t, gf1024.construct = .ok t ∧ (512 : ℕ) < 2 ^ gf1024.m ∧ 5 * 2 ^ gf1024.m ≤ 2 ^ 32 ∧ 2 ^ gf1024.m ≤ 1024 :=
  let ⟨t, h⟩ := C22_constructible (Or.inr rfl); ⟨t, h, by decide, by decide, by decide⟩

end Verif.Props.Gf
