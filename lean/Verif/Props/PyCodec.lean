import Verif.Model.PyCodec
import Verif.Lemmas.Gf
import Verif.Lemmas.Bits
import Mathlib.LinearAlgebra.Vandermonde
import Mathlib.Tactic.Ring
/-!
Properties C273 and C274 of `GF256` and `RS8Bit8Sym` of rs_monte_carlo.py (model `Verif.PyRs`).
-/
namespace Verif.Props.PyRs
open Verif Verif.PyRs Verif.Spec
open Verif.GF (wordPoly_xor wordPoly_zero wordPoly_one wordPoly_double coeff_wordPoly degree_wordPoly_lt wordPoly_inj and_bit_ne_zero)

/-! ### The field -/

/-- The polynomial of the comment, x⁸ + x⁴ + x³ + x + 1. -/
abbrev P8 : ℕ := 0x11b

/-- The generator. -/
noncomputable def γ : FieldOf P8 := elt P8 3

theorem elt_xor (a b : ℕ) : elt P8 (a ^^^ b) = elt P8 a + elt P8 b := by simp [elt, wordPoly_xor]
theorem elt_zero : elt P8 0 = 0 := by simp [elt, wordPoly_zero]
theorem elt_one : elt P8 1 = 1 := by simp [elt, wordPoly_one]

theorem elt_double (x : ℕ) : elt P8 (2 * x) = alpha P8 * elt P8 x := by simp [elt, alpha, wordPoly_double]

theorem elt_self : elt P8 P8 = 0 := AdjoinRoot.mk_self

theorem γ_eq : γ = alpha P8 + 1 := by
  have : (3 : ℕ) = 2 * 1 ^^^ 1 := rfl
  rw [γ, this, elt_xor, elt_double, elt_one, mul_one]

theorem times3 : ∀ x, x < 256 → multNoTable x 3 < 256 ∧ multNoTable x 3 = (2 * x) ^^^ x ^^^ (if x.testBit 7 then P8 else 0) := by
  decide +kernel

theorem elt_times3 {x : ℕ} (h : x < 256) : elt P8 (multNoTable x 3) = γ * elt P8 x := by
  rw [(times3 x h).2, elt_xor, elt_xor, elt_double, γ_eq]
  have : elt P8 (if x.testBit 7 then P8 else 0) = 0 := by
    split
    · exact elt_self
    · exact elt_zero
  rw [this]; ring

theorem degree_P8 : (wordPoly P8).degree = 8 := by
  apply le_antisymm
  · rw [Polynomial.degree_le_iff_coeff_zero]
    intro k hk
    have hk' : 8 < k := by exact_mod_cast hk
    rw [coeff_wordPoly, Nat.testBit_lt_two_pow (lt_of_lt_of_le (show P8 < 2 ^ 9 by decide) (Nat.pow_le_pow_right (by norm_num) hk'))]
    simp
  · apply Polynomial.le_degree_of_ne_zero
    rw [coeff_wordPoly, show P8.testBit 8 = true by decide]; simp

theorem elt_inj {a b : ℕ} (ha : a < 256) (hb : b < 256) (e : elt P8 a = elt P8 b) : a = b := by
  have hd := AdjoinRoot.mk_eq_mk.mp e
  have hz := Polynomial.eq_zero_of_dvd_of_degree_lt hd (by
    rw [degree_P8]
    exact lt_of_le_of_lt (Polynomial.degree_sub_le _ _) (max_lt (degree_wordPoly_lt (m := 8) ha) (degree_wordPoly_lt (m := 8) hb)))
  exact wordPoly_inj (sub_eq_zero.mp hz)

theorem powers_spec : ∀ (n x j : ℕ), x < 256 → j < n → (powers n x).getD j 0 < 256 ∧ elt P8 ((powers n x).getD j 0) = γ ^ j * elt P8 x
  | 0, _, _, _, h => by omega
  | n + 1, x, 0, hx, _ => by simp [powers, hx]
  | n + 1, x, j + 1, hx, h => by
    obtain ⟨h1, h2⟩ := powers_spec n (multNoTable x 3) j (times3 x hx).1 (by omega)
    simp only [powers, List.getD_cons_succ]
    exact ⟨h1, by rw [h2, elt_times3 hx]; ring⟩

theorem powers_length : ∀ n x, (powers n x).length = n
  | 0, _ => rfl
  | n + 1, x => by rw [powers, List.length_cons, powers_length n]

theorem exp_lt255 {j : ℕ} (h : j < 255) : exp j = (powers 255 1).getD j 0 := by
  unfold exp expTable
  rw [List.getD_eq_getElem?_getD, List.getElem?_append_left (by rw [powers_length]; exact h), ← List.getD_eq_getElem?_getD]

theorem γ255 : γ ^ 255 = 1 := by
  have h := (powers_spec 256 1 255 (by omega) (by omega)).2
  have e : (powers 256 1).getD 255 0 = 1 := by decide +kernel
  rw [e, elt_one, mul_one] at h
  exact h.symm

theorem γ_mod (n : ℕ) : γ ^ (n % 255) = γ ^ n := by
  conv_rhs => rw [← Nat.mod_add_div n 255, pow_add, pow_mul, γ255, one_pow, mul_one]

theorem exp_spec {j : ℕ} (h : j ≤ 255) : exp j < 256 ∧ elt P8 (exp j) = γ ^ j := by
  rcases Nat.lt_or_ge j 255 with h1 | h1
  · have := powers_spec 255 1 j (by omega) h1
    rw [exp_lt255 h1]
    exact ⟨this.1, by rw [this.2, elt_one, mul_one]⟩
  · obtain rfl : j = 255 := by omega
    have e : exp 255 = 1 := by decide +kernel
    rw [e, elt_one, γ255]
    exact ⟨by omega, rfl⟩

theorem exp_log : ∀ a, a < 256 → a ≠ 0 → log a < 255 ∧ exp (log a) = a := by decide +kernel

theorem log_spec {a : ℕ} (h : a < 256) (h0 : a ≠ 0) : log a < 255 ∧ elt P8 a = γ ^ log a := by
  obtain ⟨h1, h2⟩ := exp_log a h h0
  refine ⟨h1, ?_⟩
  rw [← (exp_spec (j := log a) (by omega)).2, h2]

theorem mod_le (n : ℕ) : n % 255 ≤ 255 := (Nat.mod_lt n (by omega)).le

theorem one_ne_zero8 : (1 : FieldOf P8) ≠ 0 := by
  intro e
  rw [← elt_one, ← elt_zero] at e
  exact absurd (elt_inj (by omega) (by omega) e) (by omega)

theorem γ_pow_ne (n : ℕ) : γ ^ n ≠ 0 := by
  intro e
  have h : γ ^ n * γ ^ (255 * n - n) = 1 := by
    rw [← pow_add, Nat.add_sub_cancel' (by omega), pow_mul, γ255, one_pow]
  rw [e, zero_mul] at h
  exact one_ne_zero8 h.symm

theorem mult_spec {a b : ℕ} (ha : a < 256) (hb : b < 256) : mult a b < 256 ∧ elt P8 (mult a b) = elt P8 a * elt P8 b := by
  unfold mult
  by_cases h : a = 0 ∨ b = 0
  · rw [if_pos h]
    refine ⟨by omega, ?_⟩
    rcases h with rfl | rfl <;> simp [elt_zero]
  · rw [if_neg h]
    rw [not_or] at h
    have e := exp_spec (mod_le (log a + log b))
    exact ⟨e.1, by rw [e.2, γ_mod, pow_add, (log_spec ha h.1).2, (log_spec hb h.2).2]⟩

theorem pow_spec {a : ℕ} (ha : a < 256) (n : ℕ) (h : a ≠ 0 ∨ n ≠ 0) : pow a n < 256 ∧ elt P8 (pow a n) = elt P8 a ^ n := by
  unfold pow
  by_cases h0 : a = 0
  · rw [if_pos h0, h0, elt_zero]
    exact ⟨by omega, by rw [zero_pow (by omega)]⟩
  · rw [if_neg h0]
    by_cases h1 : n = 0
    · rw [if_pos h1, h1, pow_zero, elt_one]; exact ⟨by omega, rfl⟩
    · rw [if_neg h1]
      have e := exp_spec (mod_le (log a * n))
      exact ⟨e.1, by rw [e.2, γ_mod, pow_mul, (log_spec ha h0).2]⟩

theorem div_spec {a b : ℕ} (ha : a < 256) (hb : b < 256) (h0 : b ≠ 0) : ∃ c, div a b = some c ∧ c < 256 ∧ elt P8 c * elt P8 b = elt P8 a ∧ (a ≠ 0 → c ≠ 0) := by
  unfold div
  by_cases h : a = 0
  · rw [if_pos h]
    exact ⟨0, rfl, by omega, by rw [h, elt_zero, zero_mul], fun h' => absurd h h'⟩
  · rw [if_neg h, if_neg h0]
    have e := exp_spec (mod_le (log a + 255 - log b))
    obtain ⟨hb1, hb2⟩ := log_spec hb h0
    refine ⟨_, rfl, e.1, ?_, fun _ hc => ?_⟩
    · rw [e.2, γ_mod, hb2, ← pow_add, show log a + 255 - log b + log b = log a + 255 by omega, pow_add, γ255, mul_one, (log_spec ha h).2]
    · have := e.2
      rw [hc, elt_zero] at this
      exact γ_pow_ne _ this.symm

theorem elt_eq_zero {a : ℕ} (ha : a < 256) (h : elt P8 a = 0) : a = 0 := elt_inj ha (by omega) (h.trans elt_zero.symm)

theorem elt_surj (r : FieldOf P8) : ∃ a < 256, elt P8 a = r := by
  have hx : ∀ n, ∃ a < 256, elt P8 a = alpha P8 ^ n := by
    intro n
    induction n with
    | zero => exact ⟨1, by omega, by rw [elt_one, pow_zero]⟩
    | succ n ih =>
      obtain ⟨a, ha, e⟩ := ih
      have h2 : elt P8 2 = alpha P8 := by
        have := elt_double 1
        rw [elt_one] at this
        exact this.trans (mul_one _)
      exact ⟨mult 2 a, (mult_spec (by omega) ha).1, by rw [(mult_spec (by omega) ha).2, h2, e, pow_succ']⟩
  obtain ⟨f, rfl⟩ := AdjoinRoot.mk_surjective r
  induction f using Polynomial.induction_on' with
  | add f g hf hg =>
    obtain ⟨a, ha, ea⟩ := hf
    obtain ⟨b, hb, eb⟩ := hg
    exact ⟨a ^^^ b, Nat.xor_lt_two_pow (n := 8) ha hb, by rw [elt_xor, ea, eb, map_add]⟩
  | monomial n a =>
    have h01 : ∀ z : ZMod 2, z = 0 ∨ z = 1 := by decide
    rcases h01 a with rfl | rfl
    · exact ⟨0, by omega, by simp [elt_zero]⟩
    · obtain ⟨a, ha, e⟩ := hx n
      refine ⟨a, ha, ?_⟩
      rw [e, ← Polynomial.C_mul_X_pow_eq_monomial, map_mul, map_pow]
      simp [alpha]

theorem mult_ne_zero {a b : ℕ} (ha : a < 256) (hb : b < 256) (h0 : a ≠ 0) (h1 : b ≠ 0) : mult a b ≠ 0 := by
  intro h
  have := (mult_spec ha hb).2
  rw [h, elt_zero, (log_spec ha h0).2, (log_spec hb h1).2, ← pow_add] at this
  exact γ_pow_ne _ this.symm

theorem domain8 : IsDomain (FieldOf P8) := by
  have : Nontrivial (FieldOf P8) := ⟨⟨1, 0, one_ne_zero8⟩⟩
  have : NoZeroDivisors (FieldOf P8) := ⟨by
    intro a b e
    obtain ⟨x, hx, rfl⟩ := elt_surj a
    obtain ⟨y, hy, rfl⟩ := elt_surj b
    by_contra hc
    rw [not_or] at hc
    refine mult_ne_zero hx hy (fun h => hc.1 (by rw [h, elt_zero])) (fun h => hc.2 (by rw [h, elt_zero])) ?_
    exact elt_eq_zero (mult_spec hx hy).1 (by rw [(mult_spec hx hy).2, e])⟩
  exact NoZeroDivisors.to_isDomain _

theorem γ_inj {i j : ℕ} (hi : i < 255) (hj : j < 255) (h : γ ^ i = γ ^ j) : i = j := by
  rw [← (exp_spec hi.le).2, ← (exp_spec hj.le).2] at h
  have h' := elt_inj (exp_spec hi.le).1 (exp_spec hj.le).1 h
  have hnd : (powers 255 1).Nodup := by decide +kernel
  rw [exp_lt255 hi, exp_lt255 hj] at h'
  rw [List.getD_eq_getElem?_getD, List.getD_eq_getElem?_getD, List.getElem?_eq_getElem (by rw [powers_length]; exact hi),
    List.getElem?_eq_getElem (by rw [powers_length]; exact hj)] at h'
  exact (List.Nodup.getElem_inj_iff hnd).1 h'

/-- What an iteration of the multiplication keeps. -/
noncomputable def kept (s : ℕ × ℕ × ℕ) : FieldOf P8 := elt P8 (s.1 % 256) + elt P8 (s.2.1 % 256) * elt P8 s.2.2

theorem shifted : ∀ x, x < 256 → ((2 * x) % 256) ^^^ (if x.testBit 7 then 0x1B else 0) = 2 * x ^^^ (if x.testBit 7 then P8 else 0) := by decide +kernel

theorem xor_mod (a b : ℕ) : (a ^^^ b) % 256 = (a % 256) ^^^ (b % 256) := Nat.xor_mod_two_pow (n := 8)

theorem next_a (a : ℕ) : elt P8 ((if a &&& 0x80 != 0 then a <<< 1 ^^^ 0x1B else a <<< 1) % 256) = alpha P8 * elt P8 (a % 256) := by
  have hb : (a &&& 0x80 != 0) = (a % 256).testBit 7 := by
    have h1 : (a &&& 0x80 != 0) = a.testBit 7 := and_bit_ne_zero a 7
    have h2 : (a % 256).testBit 7 = a.testBit 7 := by rw [show 256 = 2 ^ 8 from rfl, Nat.testBit_mod_two_pow]; simp
    rw [h1, ← h2]
  have h2 : (a <<< 1) % 256 = (2 * (a % 256)) % 256 := by rw [Nat.shiftLeft_eq]; omega
  have hlt : a % 256 < 256 := Nat.mod_lt _ (by omega)
  have h3 := shifted (a % 256) hlt
  rw [hb]
  have h4 : (if (a % 256).testBit 7 then a <<< 1 ^^^ 0x1B else a <<< 1) % 256 = 2 * (a % 256) ^^^ (if (a % 256).testBit 7 then P8 else 0) := by
    rw [← h3]
    split
    · rw [xor_mod, h2]
    · rw [h2, Nat.xor_zero]
  rw [h4, elt_xor, elt_double]
  have : elt P8 (if (a % 256).testBit 7 then P8 else 0) = 0 := by
    split
    · exact elt_self
    · exact elt_zero
  rw [this, add_zero]

theorem elt_half (b : ℕ) : elt P8 b = (if b &&& 1 == 1 then 1 else 0) + alpha P8 * elt P8 (b >>> 1) := by
  have h1 : b = 2 * (b >>> 1) ^^^ (b % 2) := by
    have h2 : b >>> 1 = b / 2 := by rw [Nat.shiftRight_eq_div_pow, pow_one]
    apply Nat.eq_of_testBit_eq
    intro i
    rw [Nat.testBit_xor, h2]
    cases i with
    | zero => simp [Nat.testBit_zero]
    | succ i => rw [Nat.testBit_succ, Nat.testBit_succ, Nat.testBit_succ, Nat.mul_div_cancel_left _ (by omega), show b % 2 / 2 = 0 by omega, Nat.zero_testBit, Bool.xor_false]
  conv_lhs => rw [h1]
  rw [elt_xor, elt_double, Nat.and_one_is_mod]
  rcases Nat.mod_two_eq_zero_or_one b with h | h <;> rw [h] <;> simp [elt_zero, elt_one, add_comm]

theorem kept_step (s : ℕ × ℕ × ℕ) : kept (mulStep s) = kept s := by
  obtain ⟨r, a, b⟩ := s
  unfold kept mulStep
  dsimp only
  rw [next_a]
  conv_rhs => rw [elt_half b]
  by_cases h : (b &&& 1 == 1) = true
  · rw [if_pos h, if_pos h, xor_mod, elt_xor]; ring
  · rw [if_neg h, if_neg h]; ring

theorem mulNo_spec {a b : ℕ} (ha : a < 256) (hb : b < 256) : multNoTable a b < 256 ∧ elt P8 (multNoTable a b) = elt P8 a * elt P8 b := by
  have h : ∀ n, kept (forN n (fun _ s => mulStep s) (0, a, b)) = kept (0, a, b) ∧ (forN n (fun _ s => mulStep s) (0, a, b)).2.2 = b >>> n := by
    intro n
    induction n with
    | zero => exact ⟨rfl, rfl⟩
    | succ n ih =>
      refine ⟨by rw [forN, kept_step, ih.1], ?_⟩
      rw [forN, mulStep]
      dsimp only
      rw [ih.2, ← Nat.shiftRight_add]
  obtain ⟨h1, h2⟩ := h 8
  have h3 : b >>> 8 = 0 := by rw [Nat.shiftRight_eq_div_pow]; omega
  have h4 : multNoTable a b = (forN 8 (fun _ s => mulStep s) (0, a, b)).1 % 256 := Nat.and_two_pow_sub_one_eq_mod _ 8
  rw [h4]
  refine ⟨Nat.mod_lt _ (by omega), ?_⟩
  unfold kept at h1
  rw [h2, h3, elt_zero, mul_zero, add_zero, Nat.mod_eq_of_lt ha] at h1
  rw [h1, Nat.zero_mod, elt_zero, zero_add]

/-- **C273.** `GF256` is the field GF(2)[x]/(x⁸ + x⁴ + x³ + x + 1) on the bytes: different bytes are different elements and every element is one; sums, products, powers and quotients
are those of the field for all bytes, the two multiplications agree, and only a division by zero raises (of anything but zero; 0/0 is 0). -/
theorem C273_field :
    (∀ a b, a < 256 → b < 256 → elt P8 a = elt P8 b → a = b) ∧ (∀ r : FieldOf P8, ∃ a < 256, elt P8 a = r) ∧
    (∀ a b, a < 256 → b < 256 → elt P8 (add a b) = elt P8 a + elt P8 b) ∧
    (∀ a b, a < 256 → b < 256 → mult a b < 256 ∧ elt P8 (mult a b) = elt P8 a * elt P8 b ∧ multNoTable a b = mult a b) ∧
    (∀ a n, a < 256 → (a ≠ 0 ∨ n ≠ 0) → pow a n < 256 ∧ elt P8 (pow a n) = elt P8 a ^ n) ∧
    (∀ a b, a < 256 → b < 256 → b ≠ 0 → ∃ c, div a b = some c ∧ c < 256 ∧ elt P8 c * elt P8 b = elt P8 a) ∧
    (∀ a, div a 0 = if a = 0 then some 0 else none) := by
  refine ⟨fun a b => elt_inj, elt_surj, fun a b _ _ => elt_xor a b, fun a b ha hb => ⟨(mult_spec ha hb).1, (mult_spec ha hb).2, ?_⟩, fun a n ha h => pow_spec ha n h, ?_, ?_⟩
  · have h1 := mulNo_spec ha hb
    exact elt_inj h1.1 (mult_spec ha hb).1 (by rw [h1.2, (mult_spec ha hb).2])
  · intro a b ha hb h0
    obtain ⟨c, h1, h2, h3, _⟩ := div_spec ha hb h0
    exact ⟨c, h1, h2, h3⟩
  · intro a
    unfold div
    by_cases h : a = 0
    · rw [if_pos h, if_pos h]
    · rw [if_neg h, if_neg h, if_pos rfl]

/-- The hypotheses are met: 0x53 and 0xCA are inverse to each other. -/
example : mult 0x53 0xCA = 1 ∧ div 1 0xCA = some 0x53 ∧ pow 3 255 = 1 := by decide +kernel

/-! ### The codec -/

/-- The word with coefficients highest degree first, at `ρ`. -/
noncomputable def V (ρ : FieldOf P8) : List ℕ → FieldOf P8
  | [] => 0
  | c :: cs => elt P8 c * ρ ^ cs.length + V ρ cs

theorem V_sum (ρ : FieldOf P8) : ∀ l : List ℕ, V ρ l = ∑ j ∈ Finset.range l.length, elt P8 (l.getD j 0) * ρ ^ (l.length - 1 - j)
  | [] => by simp [V]
  | c :: cs => by
    rw [V, V_sum ρ cs, List.length_cons, Finset.sum_range_succ', add_comm]
    congr 1
    refine Finset.sum_congr rfl fun j _ => ?_
    rw [List.getD_cons_succ]
    congr 2
    omega

theorem V_append (ρ : FieldOf P8) (b : List ℕ) : ∀ a : List ℕ, V ρ (a ++ b) = V ρ a * ρ ^ b.length + V ρ b
  | [] => by simp [V]
  | c :: cs => by
    rw [List.cons_append, V, V, V_append ρ b cs, List.length_append, pow_add]; ring

theorem V_zeros (ρ : FieldOf P8) : ∀ n, V ρ (List.replicate n 0) = 0
  | 0 => rfl
  | n + 1 => by rw [List.replicate_succ, V, V_zeros ρ n, elt_zero]; ring

theorem twice (x : FieldOf P8) : x + x = 0 := by
  obtain ⟨a, _, rfl⟩ := elt_surj x
  rw [← elt_xor, Nat.xor_self, elt_zero]

/-- All entries are bytes. -/
def Bytes (l : List ℕ) : Prop := ∀ x ∈ l, x < 256

theorem Bytes.getD {l : List ℕ} (h : Bytes l) (j : ℕ) : l.getD j 0 < 256 := by
  rw [List.getD_eq_getElem?_getD]
  cases e : l[j]? with
  | none => simp
  | some x => exact h x (List.mem_of_getElem? e)

theorem getD_lt (l : List ℕ) {j : ℕ} (h : j < l.length) : l.getD j 0 = l[j] := by
  rw [List.getD_eq_getElem?_getD, List.getElem?_eq_getElem h, Option.getD_some]

theorem exp_ne {i : ℕ} (h : i ≤ 255) : exp i ≠ 0 := by
  intro e
  have := (exp_spec h).2
  rw [e, elt_zero] at this
  exact γ_pow_ne _ this.symm

theorem syndrome_spec {l : List ℕ} (h : Bytes l) {i : ℕ} (hi : i < 8) : syndrome l i < 256 ∧ elt P8 (syndrome l i) = V (γ ^ i) l := by
  have key : ∀ n, forN n (fun j r => add r (mult (l.getD j 0) (pow (exp i) (l.length - 1 - j)))) 0 < 256 ∧
      elt P8 (forN n (fun j r => add r (mult (l.getD j 0) (pow (exp i) (l.length - 1 - j)))) 0) =
        ∑ j ∈ Finset.range n, elt P8 (l.getD j 0) * (γ ^ i) ^ (l.length - 1 - j) := by
    intro n
    induction n with
    | zero => exact ⟨by simp [forN], by simp [forN, elt_zero]⟩
    | succ n ih =>
      have e := exp_spec (j := i) (by omega)
      have p := pow_spec e.1 (l.length - 1 - n) (Or.inl (exp_ne (by omega)))
      have q := mult_spec (h.getD n) p.1
      rw [forN]
      refine ⟨Nat.xor_lt_two_pow (n := 8) ih.1 q.1, ?_⟩
      rw [add, elt_xor, ih.2, q.2, p.2, e.2, Finset.sum_range_succ]
  rw [V_sum]
  exact key l.length

theorem gen_bytes : Bytes genPoly := by unfold Bytes; decide +kernel

theorem gen_head : genPoly = 1 :: genPoly.drop 1 := by decide +kernel

theorem gen_length : (genPoly.drop 1).length = 8 := by decide +kernel

theorem gen_root {i : ℕ} (hi : i < 8) : V (γ ^ i) (genPoly.drop 1) = (γ ^ i) ^ 8 := by
  have h0 : ∀ i, i < 8 → syndrome genPoly i = 0 := by decide +kernel
  have h := (syndrome_spec gen_bytes hi).2
  rw [h0 i hi, elt_zero, gen_head, V, elt_one, one_mul, gen_length] at h
  have t := twice ((γ ^ i) ^ 8)
  calc V (γ ^ i) (genPoly.drop 1) = V (γ ^ i) (genPoly.drop 1) + ((γ ^ i) ^ 8 + (γ ^ i) ^ 8) := by rw [t, add_zero]
    _ = (γ ^ i) ^ 8 + ((γ ^ i) ^ 8 + V (γ ^ i) (genPoly.drop 1)) := by ring
    _ = (γ ^ i) ^ 8 := by rw [← h, add_zero]

theorem addMultiple_spec (ρ : FieldOf P8) {c : ℕ} (hc : c < 256) : ∀ (l d : List ℕ), Bytes l → Bytes d → d.length ≤ l.length →
    Bytes (addMultiple c l d) ∧ (addMultiple c l d).length = l.length ∧ V ρ (addMultiple c l d) = V ρ l + elt P8 c * V ρ d * ρ ^ (l.length - d.length)
  | [], [], _, _, _ => by simp [addMultiple, V, Bytes]
  | p :: ps, [], hl, _, _ => by simp [addMultiple, V, hl]
  | [], _ :: _, _, _, h => by simp at h
  | p :: ps, q :: qs, hl, hd, h => by
    have hp : p < 256 := hl p (by simp)
    have hq : q < 256 := hd q (by simp)
    have hle : qs.length ≤ ps.length := by simpa using h
    obtain ⟨h1, h2, h3⟩ := addMultiple_spec ρ hc ps qs (fun x hx => hl x (by simp [hx])) (fun x hx => hd x (by simp [hx])) hle
    have m := mult_spec hq hc
    have hx : (if q ≠ 0 then add p (mult q c) else p) < 256 ∧ elt P8 (if q ≠ 0 then add p (mult q c) else p) = elt P8 p + elt P8 q * elt P8 c := by
      by_cases h0 : q = 0
      · rw [if_neg (by simpa using h0), h0, elt_zero]; exact ⟨hp, by ring⟩
      · rw [if_pos h0]; exact ⟨Nat.xor_lt_two_pow (n := 8) hp m.1, by rw [add, elt_xor, m.2]⟩
    rw [addMultiple]
    refine ⟨?_, by simp [h2], ?_⟩
    · intro y hy
      rcases List.mem_cons.1 hy with rfl | hy
      · exact hx.1
      · exact h1 y hy
    · have hs : ρ ^ ps.length = ρ ^ qs.length * ρ ^ (ps.length - qs.length) := by rw [← pow_add, Nat.add_sub_cancel' hle]
      rw [V, V, V, hx.2, h3, h2, List.length_cons, List.length_cons, Nat.add_sub_add_right, hs]; ring

theorem divide_spec {i : ℕ} (hi : i < 8) : ∀ (n : ℕ) (l : List ℕ), Bytes l → n + 8 ≤ l.length →
    Bytes (divide n l) ∧ (divide n l).length = l.length - n ∧ V (γ ^ i) (divide n l) = V (γ ^ i) l
  | 0, l, hl, _ => ⟨hl, rfl, rfl⟩
  | n + 1, [], _, h => by simp at h
  | n + 1, c :: l, hl, h => by
    have hc : c < 256 := hl c (by simp)
    have hb : Bytes l := fun x hx => hl x (by simp [hx])
    have hlen : n + 8 ≤ l.length := by simp at h; omega
    have hd : Bytes (genPoly.drop 1) := fun x hx => gen_bytes x (List.mem_of_mem_drop hx)
    obtain ⟨a1, a2, a3⟩ := addMultiple_spec (γ ^ i) hc l (genPoly.drop 1) hb hd (by rw [gen_length]; omega)
    have hx : Bytes (if c ≠ 0 then addMultiple c l (genPoly.drop 1) else l) ∧ (if c ≠ 0 then addMultiple c l (genPoly.drop 1) else l).length = l.length ∧
        V (γ ^ i) (if c ≠ 0 then addMultiple c l (genPoly.drop 1) else l) = V (γ ^ i) (c :: l) := by
      by_cases h0 : c = 0
      · rw [if_neg (by simpa using h0)]
        exact ⟨hb, rfl, by rw [V, h0, elt_zero, zero_mul, zero_add]⟩
      · rw [if_pos h0]
        refine ⟨a1, a2, ?_⟩
        rw [a3, gen_root hi, gen_length, V, mul_assoc, ← pow_add, Nat.add_sub_cancel' (by omega), add_comm]
    obtain ⟨r1, r2, r3⟩ := divide_spec hi n _ hx.1 (by rw [hx.2.1]; exact hlen)
    rw [divide]
    exact ⟨r1, by rw [r2, hx.2.1, List.length_cons]; omega, by rw [r3, hx.2.2]⟩

theorem encode_spec {data : List ℕ} (h : Bytes data) : Bytes (encode data) ∧ (encode data).length = data.length + 8 ∧ ∀ i < 8, V (γ ^ i) (encode data) = 0 := by
  have hz : Bytes (data ++ List.replicate 8 0) := by
    intro x hx
    rcases List.mem_append.1 hx with hx | hx
    · exact h x hx
    · rw [List.eq_of_mem_replicate hx]; omega
  have d : ∀ i < 8, _ := fun i hi => divide_spec (i := i) hi data.length (data ++ List.replicate 8 0) hz (by simp)
  have hl : (divide data.length (data ++ List.replicate 8 0)).length = 8 := by rw [(d 0 (by omega)).2.1]; simp
  refine ⟨?_, by rw [encode, List.length_append, hl], ?_⟩
  · intro x hx
    rcases List.mem_append.1 hx with hx | hx
    · exact h x hx
    · exact (d 0 (by omega)).1 x hx
  · intro i hi
    rw [encode, V_append, (d i hi).2.2, hl, V_append, V_zeros, List.length_replicate, add_zero, twice]

theorem all_iff (l : List ℕ) : (syndromes l).all (· == 0) = true ↔ ∀ i < 8, syndrome l i = 0 := by
  unfold syndromes
  rw [List.all_eq_true]
  constructor
  · intro h i hi
    have := h (syndrome l i) (List.mem_map.2 ⟨i, List.mem_range.2 hi, rfl⟩)
    simpa using this
  · intro h x hx
    obtain ⟨i, hi, rfl⟩ := List.mem_map.1 hx
    simpa using h i (List.mem_range.1 hi)

theorem encode_all {data : List ℕ} (h : Bytes data) : (syndromes (encode data)).all (· == 0) = true := by
  obtain ⟨h1, _, h3⟩ := encode_spec h
  rw [all_iff]
  intro i hi
  have := syndrome_spec h1 hi
  exact elt_eq_zero this.1 (by rw [this.2, h3 i hi])

theorem encode_take {data : List ℕ} (h : Bytes data) : (encode data).take ((encode data).length - 8) = data := by
  rw [(encode_spec h).2.1, Nat.add_sub_cancel, encode, List.take_left]

/-- A word that differs from a codeword in at most eight places, but does differ, has a non-zero syndrome. -/
theorem damaged_syndrome {data r : List ℕ} (h : Bytes data) (hr : Bytes r) (hl : r.length = (encode data).length) (h255 : r.length ≤ 255)
    (S : Finset ℕ) (hS : S.card ≤ 8) (hd : ∀ j, j ∉ S → r[j]? = (encode data)[j]?) (hne : r ≠ encode data) : (syndromes r).all (· == 0) = false := by
  rw [Bool.eq_false_iff]
  intro hall
  rw [all_iff] at hall
  obtain ⟨hw, _, hroot⟩ := encode_spec h
  have hdom := domain8
  apply hne
  generalize hwd : encode data = w at *
  -- only the places inside the word matter
  obtain ⟨T, hT⟩ : ∃ T, T = S ∩ Finset.range r.length := ⟨_, rfl⟩
  have hTc : T.card ≤ 8 := by rw [hT]; exact (Finset.card_le_card Finset.inter_subset_left).trans hS
  have hTl : ∀ j ∈ T, j < r.length := by
    intro j hj; rw [hT] at hj; exact Finset.mem_range.1 (Finset.mem_inter.1 hj).2
  let δ : ℕ → FieldOf P8 := fun j => elt P8 (r.getD j 0) + elt P8 (w.getD j 0)
  have hδ : ∀ j, j < r.length → j ∉ T → δ j = 0 := by
    intro j hj hn
    have hns : j ∉ S := fun hs => hn (by rw [hT]; exact Finset.mem_inter.2 ⟨hs, Finset.mem_range.2 hj⟩)
    show elt P8 (r.getD j 0) + elt P8 (w.getD j 0) = 0
    rw [List.getD_eq_getElem?_getD, List.getD_eq_getElem?_getD, hd j hns]
    exact twice _
  have hsum : ∀ i < 8, ∑ j ∈ T, δ j * (γ ^ (r.length - 1 - j)) ^ i = 0 := by
    intro i hi
    have hv : V (γ ^ i) r = 0 := by rw [← (syndrome_spec hr hi).2, hall i hi, elt_zero]
    have hsub : T ⊆ Finset.range r.length := fun j hj => Finset.mem_range.2 (hTl j hj)
    rw [Finset.sum_subset hsub (fun j hj hn => by rw [hδ j (Finset.mem_range.1 hj) hn, zero_mul])]
    calc ∑ j ∈ Finset.range r.length, δ j * (γ ^ (r.length - 1 - j)) ^ i
        = ∑ j ∈ Finset.range r.length, (elt P8 (r.getD j 0) * (γ ^ i) ^ (r.length - 1 - j) + elt P8 (w.getD j 0) * (γ ^ i) ^ (r.length - 1 - j)) := by
          refine Finset.sum_congr rfl fun j _ => ?_
          show (elt P8 (r.getD j 0) + elt P8 (w.getD j 0)) * _ = _
          rw [← pow_mul, ← pow_mul, mul_comm (r.length - 1 - j) i]; ring
      _ = V (γ ^ i) r + V (γ ^ i) w := by rw [Finset.sum_add_distrib, V_sum, V_sum, hl]
      _ = 0 := by rw [hv, hroot i hi, add_zero]
  -- Vandermonde
  let e := T.equivFin.symm
  have hv : (fun k : Fin T.card => δ (e k)) = 0 := by
    refine Matrix.eq_zero_of_forall_pow_sum_mul_pow_eq_zero (f := fun k : Fin T.card => γ ^ (r.length - 1 - (e k : ℕ))) ?_ ?_
    · intro a b hab
      have ha := hTl _ (e a).2
      have hb := hTl _ (e b).2
      have := γ_inj (i := r.length - 1 - (e a : ℕ)) (j := r.length - 1 - (e b : ℕ)) (by omega) (by omega) hab
      exact e.injective (Subtype.ext (by omega))
    · intro i
      have := hsum i (by omega)
      rw [← Finset.sum_coe_sort T, ← Equiv.sum_comp e] at this
      exact this
  have hz : ∀ j < r.length, r.getD j 0 = w.getD j 0 := by
    intro j hj
    have : δ j = 0 := by
      by_cases hm : j ∈ T
      · have := congrFun hv (T.equivFin ⟨j, hm⟩)
        simpa [e] using this
      · exact hδ j hj hm
    refine elt_inj (hr.getD j) (hw.getD j) ?_
    have h2 : elt P8 (r.getD j 0) + elt P8 (w.getD j 0) = 0 := this
    calc elt P8 (r.getD j 0) = elt P8 (r.getD j 0) + elt P8 (w.getD j 0) + elt P8 (w.getD j 0) := by rw [add_assoc, twice, add_zero]
      _ = elt P8 (w.getD j 0) := by rw [h2, zero_add]
  refine List.ext_getElem hl fun j h1 h2 => ?_
  have := hz j h1
  rwa [getD_lt _ h1, getD_lt _ h2] at this

/-! The locator never grows. -/

/-- A list of one byte, not zero. -/
def One (l : List ℕ) : Prop := ∃ c, l = [c] ∧ c ≠ 0 ∧ c < 256

theorem scaled_spec {c d : ℕ} (hc : c ≠ 0 ∧ c < 256) (hd : d ≠ 0 ∧ d < 256) (i : ℕ) : scaled [c] i d 0 ≠ 0 ∧ scaled [c] i d 0 < 256 := by
  have he := exp_spec (j := 255 - i) (by omega)
  obtain ⟨q, h1, h2, _, h4⟩ := div_spec he.1 hd.2 hd.1
  unfold scaled
  rw [h1]
  have : ([c] : List ℕ).getD 0 0 = c := rfl
  rw [this, Option.getD_some]
  exact ⟨mult_ne_zero hc.2 h2 hc.1 (h4 (exp_ne (by omega))), (mult_spec hc.2 h2).1⟩

theorem bmStep_one {synd : List ℕ} (hb : Bytes synd) (i : ℕ) {s : List ℕ × List ℕ} (h1 : One s.1) (h2 : One s.2) : One (bmStep synd i s).1 ∧ One (bmStep synd i s).2 := by
  obtain ⟨c, hc, hc0⟩ := h1
  obtain ⟨d, hd, hd0⟩ := h2
  obtain ⟨a, b⟩ := s
  dsimp only at hc hd
  subst hc hd
  have hδ : delta [c] synd i = synd.getD i 0 := rfl
  unfold bmStep
  dsimp only
  rw [hδ]
  by_cases h : synd.getD i 0 = 0
  · rw [if_neg (by simpa using h)]
    exact ⟨⟨c, rfl, hc0⟩, ⟨d, rfl, hd0⟩⟩
  · rw [if_pos h, if_neg (by simp)]
    refine ⟨⟨scaled [d] i (synd.getD i 0) 0, rfl, scaled_spec hd0 ⟨h, hb.getD i⟩ i⟩, ⟨c, rfl, hc0⟩⟩

theorem locator_one {synd : List ℕ} (hb : Bytes synd) : One (errorLocator synd) := by
  have : ∀ n, One (forN n (bmStep synd) ([1], [1])).1 ∧ One (forN n (bmStep synd) ([1], [1])).2 := by
    intro n
    induction n with
    | zero => exact ⟨⟨1, rfl, by omega, by omega⟩, ⟨1, rfl, by omega, by omega⟩⟩
    | succ n ih => rw [forN]; exact bmStep_one hb n ih.1 ih.2
  exact (this 8).1

theorem locator_value {l : List ℕ} (h : One l) (x : ℕ) : locatorValue l x ≠ 0 := by
  obtain ⟨c, rfl, h0, _⟩ := h
  exact h0

theorem positions_none {l : List ℕ} (h : One l) (m : ℕ) : ∀ n, forN n (fun i (r : Option (List ℕ)) => r.bind fun ps => (expNeg i).bind fun x => some (if locatorValue l x = 0 then ps ++ [m - 1 - i] else ps)) (some []) =
    if n ≤ 512 then some [] else none := by
  intro n
  induction n with
  | zero => simp [forN]
  | succ n ih =>
    rw [forN, ih]
    by_cases h1 : n ≤ 512
    · rw [if_pos h1, Option.bind_some]
      by_cases h2 : n ≤ 511
      · have : ∃ x, expNeg n = some x := by
          unfold expNeg
          by_cases h3 : n ≤ 255
          · exact ⟨_, if_pos h3⟩
          · rw [if_neg h3, if_pos h2]; exact ⟨_, rfl⟩
        obtain ⟨x, hx⟩ := this
        rw [hx, Option.bind_some, if_neg (locator_value h x), if_pos (by omega)]
      · have : expNeg n = none := by unfold expNeg; rw [if_neg (by omega), if_neg h2]
        rw [this, if_neg (by omega)]; rfl
    · rw [if_neg h1, if_neg (by omega)]; rfl

theorem syndromes_bytes {l : List ℕ} (h : Bytes l) : Bytes (syndromes l) := by
  intro x hx
  obtain ⟨i, hi, rfl⟩ := List.mem_map.1 hx
  exact (syndrome_spec h (List.mem_range.1 hi)).1

theorem decode_eq {r : List ℕ} (hr : Bytes r) (forney : List ℕ → List ℕ → List ℕ → Option (List ℕ × Bool)) :
    decode forney r = if (syndromes r).all (· == 0) = true then some (r.take (r.length - 8), true) else if r.length ≤ 512 then some (r.take (r.length - 8), false) else none := by
  unfold decode
  dsimp only
  by_cases h : (syndromes r).all (· == 0) = true
  · rw [if_pos h, if_pos h]
  · rw [if_neg h, if_neg h]
    have : errorPositions (errorLocator (syndromes r)) r.length = if r.length ≤ 512 then some [] else none :=
      positions_none (locator_one (syndromes_bytes hr)) r.length r.length
    rw [this]
    by_cases h5 : r.length ≤ 512
    · rw [if_pos h5, if_pos h5]; rfl
    · rw [if_neg h5, if_neg h5]; rfl

/-- **C274.** `encode` keeps the data and appends eight bytes, and undamaged data come back with success — for data of every length. -/
theorem C274_roundtrip (forney : List ℕ → List ℕ → List ℕ → Option (List ℕ × Bool)) (data : List ℕ) (h : ∀ x ∈ data, x < 256) :
    (∀ x ∈ encode data, x < 256) ∧ (encode data).length = data.length + 8 ∧ (encode data).take data.length = data ∧ decode forney (encode data) = some (data, true) := by
  obtain ⟨h1, h2, _⟩ := encode_spec h
  refine ⟨h1, h2, by rw [encode, List.take_left], ?_⟩
  rw [decode_eq h1, if_pos (encode_all h), encode_take h]

/-- **C274.** Damage is never reported as success as long as at most eight bytes of a word of at most 255 bytes are hit: the flag is false. -/
theorem C274_detect (forney : List ℕ → List ℕ → List ℕ → Option (List ℕ × Bool)) (data r : List ℕ) (h : ∀ x ∈ data, x < 256) (hr : ∀ x ∈ r, x < 256)
    (hl : r.length = (encode data).length) (h255 : r.length ≤ 255) (S : Finset ℕ) (hS : S.card ≤ 8) (hd : ∀ j, j ∉ S → r[j]? = (encode data)[j]?)
    (hne : r ≠ encode data) : decode forney r = some (r.take data.length, false) := by
  rw [decode_eq hr, damaged_syndrome h hr hl h255 S hS hd hne, if_neg (by simp), if_pos (by omega), hl, (encode_spec h).2.1, Nat.add_sub_cancel]

/-- **C274.** The claim "can correct up to 4 byte errors" fails completely: `decode` never changes a byte. Whatever the word received, it returns the leading bytes as received,
with success exactly if the word is a codeword (an exception for a damaged word of more than 512 bytes), whatever the error value computation would do. In particular every damaged
data byte stays damaged. -/
theorem C274_correction_violated :
    (∀ forney r, (∀ x ∈ r, x < 256) → ∀ out, decode forney r = some out → out.1 = r.take (r.length - 8)) ∧
    (∀ forney r, (∀ x ∈ r, x < 256) → (decode forney r = none ↔ (∃ i < 8, syndrome r i ≠ 0) ∧ 512 < r.length)) ∧
    (∀ forney (data : List ℕ) (j b : ℕ), (∀ x ∈ data, x < 256) → data.length ≤ 247 → j < data.length → b < 256 → b ≠ data.getD j 0 →
      decode forney ((encode data).set j b) = some (data.set j b, false)) := by
  refine ⟨?_, ?_, ?_⟩
  · intro forney r hr out ho
    rw [decode_eq hr] at ho
    split at ho
    · obtain rfl := Option.some.inj ho; rfl
    · split at ho
      · obtain rfl := Option.some.inj ho; rfl
      · simp at ho
  · intro forney r hr
    rw [decode_eq hr]
    have hx : (∃ i < 8, syndrome r i ≠ 0) ↔ ¬(syndromes r).all (· == 0) = true := by rw [all_iff]; push Not; rfl
    rw [hx]
    by_cases h : (syndromes r).all (· == 0) = true
    · rw [if_pos h]; simp [h]
    · rw [if_neg h]
      by_cases h5 : r.length ≤ 512
      · rw [if_pos h5]; simp; omega
      · rw [if_neg h5]; exact ⟨fun _ => ⟨h, by omega⟩, fun _ => rfl⟩
  · intro forney data j b h hl hj hb hne
    obtain ⟨h1, h2, _⟩ := encode_spec h
    have hjl : j < (encode data).length := by omega
    have hg : (encode data)[j]'hjl = data.getD j 0 := by
      rw [getD_lt _ hj]; exact List.getElem_append_left hj
    have := C274_detect forney data ((encode data).set j b) h
      (fun x hx => by rcases List.mem_or_eq_of_mem_set hx with hx | rfl; exacts [h1 x hx, hb])
      (by simp) (by simp; omega) {j} (by simp)
      (fun k hk => by rw [List.getElem?_set_ne]; intro e; exact hk (by simp [e]))
      (fun e => hne (by
        rw [← hg]
        have h3 := List.getElem_set_self (l := encode data) (a := b) (h := by simpa using hjl)
        rw [← h3]
        congr 1))
    rw [this, List.take_set, encode, List.take_left]

/-- The hypotheses are met: a single damaged byte of four. -/
example : decode (fun _ _ _ => none) ((encode [0x3F, 0x80, 0, 0]).set 0 0xBF) = some ([0xBF, 0x80, 0, 0], false) :=
  C274_correction_violated.2.2 _ [0x3F, 0x80, 0, 0] 0 0xBF (by decide) (by decide) (by decide) (by decide) (by decide)

end Verif.Props.PyRs
