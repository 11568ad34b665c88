import Verif.Model.RsDemos
import Verif.Props.ReedSolomon
/-! Properties C390 and C391: the Reed–Solomon demonstrations. -/
namespace Verif.Props.RsDemos
open Verif Verif.GF Verif.RS Verif.RsDemos

/-! ### C390: errors injected, counted and printed -/

theorem strike_bits (u : ℕ → ℝ) (rate : ℝ) (i b : ℕ) (j : ℕ) :
    (strikeByte u rate i b).testBit j = (b.testBit j ^^ open Classical in decide (j < 8 ∧ u (8 * i + j) < rate)) := by
  classical
  unfold strikeByte
  have key : ∀ n, (forN n (fun bit b => if u (8 * i + bit) < rate then b ^^^ (1 <<< bit) else b) b).testBit j = (b.testBit j ^^ decide (j < n ∧ u (8 * i + j) < rate)) := by
    intro n
    induction n with
    | zero => simp [forN]
    | succ n ih =>
      rw [forN]
      have ht : (1 <<< n).testBit j = decide (n = j) := by
        rw [Nat.one_shiftLeft, Nat.testBit_two_pow]
      by_cases h : u (8 * i + n) < rate
      · rw [if_pos h, Nat.testBit_xor, ih, ht]
        by_cases e : n = j
        · subst e; simp [h]
        · have : (j < n + 1) ↔ (j < n) := by omega
          simp [e, this]
      · rw [if_neg h, ih]
        by_cases e : n = j
        · subst e; simp [h]
        · have : (j < n + 1) ↔ (j < n) := by omega
          simp [this]
  exact key 8

/-- **C390 (injection).** Every byte stays a byte and the number of bytes stays; for a positive rate bit `j` of byte `i` is flipped exactly if draw `8 i + j` is below the rate, for other rates nothing changes. -/
theorem C390_apply (u : ℕ → ℝ) (rate : ℝ) (data : List ℕ) (hb : ∀ b ∈ data, b < 256) :
    (applyErrors u rate data).length = data.length ∧ (∀ b ∈ applyErrors u rate data, b < 256) ∧ (rate ≤ 0 → applyErrors u rate data = data) ∧
    ∀ i < data.length, ∀ j < 8, ((applyErrors u rate data).getD i 0).testBit j ≠ (data.getD i 0).testBit j ↔ 0 < rate ∧ u (8 * i + j) < rate := by
  classical
  unfold applyErrors
  by_cases h : data = [] ∨ rate ≤ 0
  · rw [if_pos h]
    refine ⟨rfl, hb, fun _ => rfl, fun i hi j _ => ?_⟩
    rcases h with h | h
    · subst h; simp at hi
    · constructor
      · intro e; exact absurd rfl e
      · rintro ⟨a, _⟩; linarith
  · rw [if_neg h]
    rw [not_or, not_le] at h
    refine ⟨by simp, ?_, fun e => absurd e (not_le.mpr h.2), fun i hi j hj => ?_⟩
    · intro b hm
      obtain ⟨i, hi, rfl⟩ := List.mem_mapIdx.mp hm
      have : strikeByte u rate i data[i] < 2 ^ 8 := by
        apply Nat.lt_pow_two_of_testBit
        intro j hj
        rw [strike_bits, Nat.testBit_lt_two_pow]
        · simp; omega
        · exact lt_of_lt_of_le (hb _ (List.getElem_mem hi)) (by calc 256 = 2 ^ 8 := rfl
            _ ≤ 2 ^ j := Nat.pow_le_pow_right (by omega) hj)
      exact this
    · have e : (data.mapIdx (strikeByte u rate)).getD i 0 = strikeByte u rate i (data.getD i 0) := by
        simp [List.getD_eq_getElem?_getD, hi]
      rw [e, strike_bits]
      generalize (data.getD i 0).testBit j = q
      by_cases hu : u (8 * i + j) < rate <;> cases q <;> simp [hj, h.2, hu]

theorem ones_zero {x : ℕ} (h : x < 256) : ones x = 0 ↔ x = 0 := by
  unfold ones
  rw [List.countP_eq_zero]
  constructor
  · intro e
    apply Nat.eq_of_testBit_eq
    intro i
    by_cases hi : i < 8
    · have := e i (List.mem_range.mpr hi); simpa using this
    · rw [Nat.testBit_lt_two_pow (lt_of_lt_of_le h (by calc 256 = 2 ^ 8 := rfl
        _ ≤ 2 ^ i := Nat.pow_le_pow_right (by omega) (by omega)))]
      simp
  · rintro rfl; simp

/-- **C390 (counts).** There are at least as many bit errors as corrupted bytes and at most eight times as many; words of the same size are equal exactly if no byte is counted. -/
theorem C390_counts (a b : List ℕ) (ha : ∀ x ∈ a, x < 256) (hb : ∀ x ∈ b, x < 256) :
    byteErrors a b ≤ bitErrors a b ∧ bitErrors a b ≤ 8 * byteErrors a b ∧ (a.length = b.length → (byteErrors a b = 0 ↔ a = b)) := by
  induction a generalizing b with
  | nil =>
    refine ⟨by simp [byteErrors], by simp [bitErrors], fun h => ?_⟩
    have : b = [] := List.length_eq_zero_iff.mp h.symm
    simp [this, byteErrors]
  | cons x a ih =>
    cases b with
    | nil => exact ⟨by simp [byteErrors], by simp [bitErrors], fun h => by simp at h⟩
    | cons y b =>
      obtain ⟨h1, h2, h3⟩ := ih b (fun z hz => ha z (by simp [hz])) fun z hz => hb z (by simp [hz])
      have hx := ha x (by simp)
      have hy := hb y (by simp)
      have hxy : x ^^^ y < 256 := Nat.xor_lt_two_pow (n := 8) hx hy
      have h8 : ones (x ^^^ y) ≤ 8 := (List.countP_le_length).trans (by simp)
      have h0 := ones_zero hxy
      have hz : x ^^^ y = 0 ↔ x = y := by
        constructor
        · intro q
          apply Nat.eq_of_testBit_eq
          intro i
          have := congrArg (fun n => n.testBit i) q
          simpa [Nat.testBit_xor] using this
        · rintro rfl; exact Nat.xor_self x
      rw [hz] at h0
      rw [byteErrors, bitErrors]
      by_cases e : x = y
      · rw [if_neg (by simpa using e), h0.mpr e]
        refine ⟨by omega, by omega, fun hl => ?_⟩
        rw [Nat.zero_add, h3 (by simpa using hl)]
        simp [e]
      · rw [if_pos e]
        have : ones (x ^^^ y) ≠ 0 := fun z => e (h0.mp z)
        refine ⟨by omega, by omega, fun hl => ?_⟩
        simp [e]

theorem digits_at (f : ℕ → Char) (k : ℕ) (h : k < 32) : ((List.range 32).flatMap fun k => f k :: (if (31 - k) % 8 = 0 then [' '] else []))[k + k / 8]? = some (f k) := by
  interval_cases k <;> rfl

/-- **C390 (digits).** The 36 characters printed for a word determine it. -/
theorem C390_digits (v w : BitVec 32) : (digits v).length = 36 ∧ (digits v = digits w ↔ v = w) := by
  refine ⟨rfl, fun h => ?_, fun h => by rw [h]⟩
  have e : ∀ b c : Bool, (if b then '1' else '0') = (if c then '1' else '0') → b = c := by decide
  have hk : ∀ v : BitVec 32, ∀ k, k < 32 → (digits v)[k + k / 8]? = some (if v.getLsbD (31 - k) then '1' else '0') := by
    intro v k hk
    exact digits_at (fun k => if v.getLsbD (31 - k) then '1' else '0') k hk
  apply BitVec.eq_of_getLsbD_eq
  intro i hi
  have a := hk v (31 - i) (by omega)
  have b := hk w (31 - i) (by omega)
  rw [h, b] at a
  have hi' : 31 - (31 - i) = i := by omega
  rw [hi', Option.some.injEq] at a
  exact (e _ _ a).symm

/-- Non-vacuity: two flips in one byte, three in all. -/
example : byteErrors [5, 7, 0] [6, 7, 1] = 2 ∧ bitErrors [5, 7, 0] [6, 7, 1] = 3 := by decide +kernel

/-! ### C391: the demonstrations run -/

/-- **C391 (violated).** "Can correct 4 symbol errors": with the codec of the demonstrations no trial is defined, whatever the weight, the draws and the rate, even at rate 0; nor are the trials of a rate, nor the test of the field. -/
theorem C391_demo_violated (u : ℕ → ℕ → ℝ) (rate : ℝ) (v : List ℕ) (close : List ℕ → Bool) (n : ℕ) :
    trial demo (u 0) rate v close = .ub ∧ successes demo u rate v close (n + 1) = .ub ∧ galoisTest = .ub := by
  have h : ∀ t, trial demo (u t) rate v close = .ub := by
    intro t; unfold trial demo; rw [Props.Rs.C25_symbol8_violated]; rfl
  refine ⟨h 0, ?_, ?_⟩
  · unfold successes
    induction n with
    | zero => simp [forE, h, Eff.bind]
    | succ n ih => rw [forE, ih]; rfl
  · unfold galoisTest
    rw [Props.Gf.C22_gf256_construct_violated]; rfl

/-- **C391 (violated, field).** The field test of rs_debug.cpp, which its program runs first, is undefined too; its handlers of exceptions are never reached. -/
theorem C391_debug_violated : galoisDebug = .ub := by
  unfold galoisDebug
  rw [Props.Gf.C22_gf256_construct_violated]; rfl

/-- **C391 (trial).** With any codec that can be constructed and encodes the weight, a trial succeeds exactly if the damaged word is decoded to a value close to the weight. -/
theorem C391_trial (c : Cfg) (u : ℕ → ℝ) (rate : ℝ) (v : List ℕ) (close : List ℕ → Bool) (k : Codec) (e : List ℕ) (hk : c.construct = .ok k) (he : c.encode k v = .ok e) :
    trial c u rate v close = .ok true ↔ ∃ x, c.decode k (applyErrors u rate e) = .ok (some x) ∧ close x = true := by
  unfold trial
  rw [hk]
  simp only [Eff.bind, he]
  cases c.decode k (applyErrors u rate e) with
  | ok r => cases r <;> simp
  | ub => simp
  | throws => simp

/-- **C391 (successes).** With any codec for which the trials are defined, the successes of a rate are the number of its trials that succeed, never more than the trials. -/
theorem C391_successes (c : Cfg) (u : ℕ → ℕ → ℝ) (rate : ℝ) (v : List ℕ) (close : List ℕ → Bool) (r : ℕ → Bool) (n : ℕ) (h : ∀ t < n, trial c (u t) rate v close = .ok (r t)) :
    successes c u rate v close n = .ok ((List.range n).countP r) ∧ (List.range n).countP r ≤ n := by
  refine ⟨?_, (List.countP_le_length).trans (by simp)⟩
  unfold successes
  induction n with
  | zero => rfl
  | succ n ih =>
    rw [forE, ih fun t ht => h t (by omega)]
    show Eff.bind _ _ = _
    rw [h n (by omega), List.range_succ, List.countP_append]
    show Eff.ok _ = _
    cases hr : r n <;> simp [hr]

/-- Non-vacuity: with the codec of four-bit symbols the value 0 survives trials without errors. -/
example : trial (Props.Rs.cfg4 4 2) (fun _ => 1) 0 [0, 0, 0, 0] (· == [0, 0, 0, 0]) = .ok true := by
  have h : ∀ l, applyErrors (fun _ => 1) 0 l = l := fun l => by simp [applyErrors]
  unfold trial
  simp only [h]
  decide +kernel

end Verif.Props.RsDemos
