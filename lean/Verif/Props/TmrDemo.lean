import Verif.Model.TmrDemo
import Mathlib.Data.List.Induction
import Mathlib.Tactic.Linarith
import Mathlib.Tactic.Ring
/-! Properties C312–C314: the demonstrations of majority voting (/repo/advanced_tmr_demo.py, /repo/validate_tmr.py). -/
namespace Verif.Props.TmrDemo
open Verif.TmrDemo Verif.Spec

/-! ### C312 — the protected value -/

/-- A value that equals itself: not NaN. -/
def Proper (v : Val) : Prop := v.eq v = true

theorem eq_symm (a b : Val) : a.eq b = b.eq a := by
  cases a <;> cases b <;> simp only [Val.eq]
  · rw [Bool.eq_iff_iff, beq_iff_eq, beq_iff_eq]; exact eq_comm
  · rename_i x y
    simp only [f32eq]
    rw [show (x == y) = (y == x) by rw [Bool.eq_iff_iff, beq_iff_eq, beq_iff_eq]; exact eq_comm, Bool.and_comm (!f32isNaN x), Bool.and_comm (f32isZero x)]
  · rw [Bool.eq_iff_iff, beq_iff_eq, beq_iff_eq]; exact eq_comm

/-- C312: whenever two copies of the demonstration are the value `v`, the third being anything, the value read is `v` or equal to it in Python's sense. -/
theorem C312_value_two (v x : Val) (hv : Proper v) :
    (Demo.mk v v x).value = v ∧ (Demo.mk v x v).value = v ∧ ((Demo.mk x v v).value).eq v = true := by
  have hv : v.eq v = true := hv
  refine ⟨by simp [Demo.value, hv], ?_, ?_⟩
  · simp only [Demo.value]
    by_cases h : v.eq x = true
    · simp [h]
    · simp [h, hv]
  · simp only [Demo.value]
    by_cases h : x.eq v = true
    · simp [h]
    · simp [h, hv]

/-- C312: a copy that differs is replaced by the value of the other two and nothing else changes. -/
theorem C312_correct_single (v x : Val) (hv : Proper v) (hx : x.eq v = false) :
    (Demo.mk x v v).correct = (true, Demo.new v) ∧ (Demo.mk v x v).correct = (true, Demo.new v) ∧ (Demo.mk v v x).correct = (true, Demo.new v) := by
  have hv : v.eq v = true := hv
  have hx' : v.eq x = false := by rw [eq_symm]; exact hx
  simp [Demo.correct, Demo.new, hv, hx, hx']

theorem eq_trans (a b c : Val) (h1 : a.eq b = true) (h2 : b.eq c = true) : a.eq c = true := by
  cases a <;> cases b <;> cases c <;> simp only [Val.eq] at h1 h2 ⊢ <;> first | exact absurd h1 Bool.false_ne_true | exact absurd h2 Bool.false_ne_true | skip
  · rw [beq_iff_eq] at *; exact h1.trans h2
  · rename_i x y z
    simp only [f32eq, Bool.and_eq_true, Bool.or_eq_true, beq_iff_eq] at *
    obtain ⟨⟨a1, a2⟩, a3⟩ := h1
    obtain ⟨⟨b1, b2⟩, b3⟩ := h2
    refine ⟨⟨a1, b2⟩, ?_⟩
    rcases a3 with rfl | ⟨a3, a4⟩
    · exact b3
    · rcases b3 with rfl | ⟨b3, b4⟩
      · exact Or.inr ⟨a3, a4⟩
      · exact Or.inr ⟨a3, b4⟩
  · rw [beq_iff_eq] at *; exact h1.trans h2

/-- C312: correction does nothing and reports failure exactly if the copies are intact, or no two of them are equal. -/
theorem C312_correct_false (d : Demo) :
    (d.correct.1 = false ↔ d.intact = true ∨ (d.v1.eq d.v2 = false ∧ d.v1.eq d.v3 = false ∧ d.v2.eq d.v3 = false)) ∧ (d.correct.1 = false → d.correct.2 = d) := by
  obtain ⟨a, b, c⟩ := d
  have t1 : a.eq b = true → a.eq c = true → b.eq c = true := fun h1 h2 => eq_trans b a c (by rw [eq_symm]; exact h1) h2
  have t2 : a.eq b = true → b.eq c = true → a.eq c = true := eq_trans a b c
  have t3 : a.eq c = true → b.eq c = true → a.eq b = true := fun h1 h2 => eq_trans a c b h1 (by rw [eq_symm]; exact h2)
  simp only [Demo.correct, Demo.intact] at *
  cases h1 : a.eq b <;> cases h2 : a.eq c <;> cases h3 : b.eq c <;> simp_all

/-- C312: the integrity check passes exactly if the copies are equal in Python's sense, and a single damaged copy never passes. -/
theorem C312_intact_single (v x : Val) (hx : x.eq v = false) :
    (Demo.mk x v v).intact = false ∧ (Demo.mk v x v).intact = false ∧ (Demo.mk v v x).intact = false := by
  have hx' : v.eq x = false := by rw [eq_symm]; exact hx
  simp [Demo.intact, hx, hx']

/-- C312: a protected NaN is never intact, cannot be corrected, and is reported as a damaged value forever. -/
theorem C312_nan_never_intact_limit (b : BitVec 32) (h : f32isNaN b = true) :
    (Demo.new (.single b)).intact = false ∧ (Demo.new (.single b)).correct = (false, Demo.new (.single b)) := by
  have : (Val.single b).eq (.single b) = false := by simp [Val.eq, f32eq, h]
  simp [Demo.intact, Demo.correct, Demo.new, this]

/-- C312: if all copies differ the first one is returned, even if it is the damaged one that a user would recognise. -/
theorem C312_all_differ_first_limit (d : Demo) (h : d.v1.eq d.v2 = false ∧ d.v1.eq d.v3 = false ∧ d.v2.eq d.v3 = false) : d.value = d.v1 := by
  simp [Demo.value, h]

example : Proper (.int 7) ∧ (Val.int 5).eq (.int 7) = false := ⟨rfl, rfl⟩
example : Proper (.single 0x3f800000) ∧ (Val.single 0xbf800000).eq (.single 0x3f800000) = false := by unfold Proper; decide
example : f32isNaN 0x7fc00000 = true := by decide

/-! ### C313 — the bit flip -/

theorem ofDigits_testBit (l : List Bool) : ∀ i, (ofDigits l).testBit i = l.reverse.getD i false := by
  induction l using List.reverseRecOn with
  | nil => intro i; simp [ofDigits]
  | append_singleton l b ih =>
    intro i
    have e : ofDigits (l ++ [b]) = 2 * ofDigits l + b.toNat := by simp [ofDigits]
    rw [e]
    cases i with
    | zero => cases b <;> simp [Nat.testBit_zero]
    | succ i =>
      rw [Nat.testBit_succ]
      have : (2 * ofDigits l + b.toNat) / 2 = ofDigits l := by cases b <;> (simp; try omega)
      rw [this, ih]
      simp

theorem digits_length (n : ℕ) : (digits n).length = max 32 n.size := by simp [digits]

theorem digits_get (n i : ℕ) (h : i < max 32 n.size) : (digits n)[i]? = some (n.testBit (max 32 n.size - 1 - i)) := by
  simp [digits, h]

theorem testBit_of_size_le (n i : ℕ) (h : n.size ≤ i) : n.testBit i = false :=
  Nat.testBit_lt_two_pow (lt_of_lt_of_le (Nat.lt_size_self n) (Nat.pow_le_pow_right (by norm_num) h))

/-- C313: flipping position `p` of an integer changes exactly one bit of it: position 0 is the most significant of the 32 (or more) digits. -/
theorem C313_flip_one_bit (n p : ℕ) (h : p < max 32 n.size) : flipInt n p = n ^^^ 2 ^ (max 32 n.size - 1 - p) := by
  unfold flipInt
  rw [if_pos (by rw [digits_length]; exact h)]
  apply Nat.eq_of_testBit_eq
  intro i
  rw [ofDigits_testBit, Nat.testBit_xor, Nat.testBit_two_pow]
  generalize hL : max 32 n.size = L at h
  have hs : n.size ≤ L := hL ▸ le_max_right _ _
  have hlen : ((digits n).modify p not).length = L := by rw [List.length_modify, digits_length, hL]
  by_cases hi : i < L
  · have e1 : ((digits n).modify p not).reverse[i]? = ((digits n).modify p not)[L - 1 - i]? := by
      rw [List.getElem?_reverse (by rw [hlen]; exact hi), hlen]
    have e2 : (digits n)[L - 1 - i]? = some (n.testBit i) := by
      rw [digits_get n (L - 1 - i) (by omega), hL, show L - 1 - (L - 1 - i) = i by omega]
    rw [List.getD_eq_getElem?_getD, e1, List.getElem?_modify, e2]
    by_cases hp : p = L - 1 - i
    · have : L - 1 - p = i := by omega
      simp [hp, show L - 1 - (L - 1 - i) = i by omega]
    · have : ¬ L - 1 - p = i := by omega
      simp [hp, this]
  · have e1 : ((digits n).modify p not).reverse[i]? = none := by
      rw [List.getElem?_eq_none]; simp only [List.length_reverse, hlen]; omega
    have e2 : n.testBit i = false := testBit_of_size_le n i (by omega)
    have : ¬ L - 1 - p = i := by omega
    rw [List.getD_eq_getElem?_getD, e1, e2]
    simp [this]

/-- C313: flipping always changes the integer, and flipping the same position again restores a 32-bit integer. -/
theorem C313_flip_changes (n p : ℕ) (h : p < 32) : flipInt n p ≠ n ∧ (n < 2 ^ 32 → flipInt n p < 2 ^ 32 ∧ flipInt (flipInt n p) p = n) := by
  have hp : p < max 32 n.size := lt_of_lt_of_le h (le_max_left _ _)
  have hb := C313_flip_one_bit n p hp
  constructor
  · intro hc
    rw [hb] at hc
    have : (n ^^^ 2 ^ (max 32 n.size - 1 - p)).testBit (max 32 n.size - 1 - p) = n.testBit (max 32 n.size - 1 - p) := by rw [hc]
    rw [Nat.testBit_xor, Nat.testBit_two_pow_self] at this
    cases hq : n.testBit (max 32 n.size - 1 - p) <;> simp [hq] at this
  · intro hn
    have hs : n.size ≤ 32 := Nat.size_le.2 hn
    have hb' : flipInt n p = n ^^^ 2 ^ (31 - p) := by rw [hb, max_eq_left hs]
    have hlt : n ^^^ 2 ^ (31 - p) < 2 ^ 32 := Nat.xor_lt_two_pow hn (Nat.pow_lt_pow_right (by norm_num) (by omega))
    refine ⟨hb' ▸ hlt, ?_⟩
    have hs2 : (n ^^^ 2 ^ (31 - p)).size ≤ 32 := Nat.size_le.2 hlt
    rw [hb', C313_flip_one_bit _ p (lt_of_lt_of_le h (le_max_left _ _)), max_eq_left hs2, Nat.xor_assoc, Nat.xor_self, Nat.xor_zero]

/-- C313: positions outside the digits leave the value alone in the demonstration and raise an error in the validation; inside, both agree. -/
theorem C313_flip_out_of_range (n p : ℕ) :
    (max 32 n.size ≤ p → flipInt n p = n ∧ flipIntV n p = none) ∧ (p < max 32 n.size → flipIntV n p = some (flipInt n p)) := by
  unfold flipInt flipIntV
  rw [digits_length]
  constructor
  · intro h
    rw [if_neg (by omega), if_neg (by omega)]
    exact ⟨rfl, rfl⟩
  · intro h
    rw [if_pos h, if_pos h]

theorem xor_pow_of_lt (n k : ℕ) (h : n < 2 ^ k) : n ^^^ 2 ^ k = n + 2 ^ k := by
  apply Nat.eq_of_testBit_eq
  intro i
  rw [Nat.testBit_xor, Nat.testBit_two_pow, Nat.add_comm n]
  rcases lt_trichotomy i k with hi | hi | hi
  · rw [Nat.testBit_two_pow_add_gt hi]
    simp [show ¬ k = i by omega]
  · subst hi
    rw [Nat.testBit_two_pow_add_eq]
    simp
  · have h1 : n.testBit i = false := Nat.testBit_lt_two_pow (lt_trans h (Nat.pow_lt_pow_right (by norm_num) hi))
    have h2 : (2 ^ k + n).testBit i = false := by
      refine Nat.testBit_lt_two_pow (lt_of_lt_of_le (show 2 ^ k + n < 2 ^ (k + 1) by rw [pow_succ]; omega) (Nat.pow_le_pow_right (by norm_num) hi))
    rw [h1, h2]
    simp [show ¬ k = i by omega]

/-- C313: the positions 0 to 7 that the demonstration calls the lower bits are the eight most significant ones: every integer it draws is raised by at least 16777216. -/
theorem C313_lower_bits_are_upper_violated (n p : ℕ) (hn : n < 2 ^ 24) (hp : p ≤ 7) : flipInt n p = n + 2 ^ (31 - p) ∧ n + 16777216 ≤ flipInt n p := by
  have hs : n.size ≤ 32 := Nat.size_le.2 (lt_trans hn (by norm_num))
  have e : flipInt n p = n + 2 ^ (31 - p) := by
    rw [C313_flip_one_bit n p (lt_of_lt_of_le (by omega) (le_max_left _ _)), max_eq_left hs]
    exact xor_pow_of_lt n _ (lt_of_lt_of_le hn (Nat.pow_le_pow_right (by norm_num) (by omega)))
  refine ⟨e, ?_⟩
  rw [e]
  have : 2 ^ 24 ≤ 2 ^ (31 - p) := Nat.pow_le_pow_right (by norm_num) (by omega)
  omega

example : flipInt 5 0 = 2147483653 ∧ flipInt 5 31 = 4 := by decide +kernel

theorem one_shift_ne (p : ℕ) (h : p < 32) : (1#32 <<< p) ≠ 0#32 := by
  intro hc
  have := congrArg (fun b : BitVec 32 => b.getLsbD p) hc
  simp [h] at this

theorem xor_ne (b : BitVec 32) (p : ℕ) (h : p < 32) : b ^^^ (1#32 <<< p) ≠ b := by
  intro hc
  refine one_shift_ne p h ?_
  have : b ^^^ (b ^^^ (1#32 <<< p)) = b ^^^ b := by rw [hc]
  rwa [← BitVec.xor_assoc, BitVec.xor_self, BitVec.zero_xor] at this

/-- A number other than zero and NaN; integers and numbers without a binary32 value count. -/
def Ordinary : Val → Prop
  | .int _ => True
  | .single b => f32isNaN b = false ∧ f32isZero b = false
  | .other _ => True

theorem ordinary_proper (v : Val) (h : Ordinary v) : Proper v := by
  cases v with
  | int n => simp [Proper, Val.eq]
  | single b => simp [Proper, Val.eq, f32eq, h.1]
  | other k => simp [Proper, Val.eq]

/-- C313: a flip of any of the 32 bits of an integer, or of a float other than zero and NaN, always gives a value that Python tells from the original, whatever rounding to binary32 does. -/
theorem C313_flip_differs (round : ℕ → BitVec 32) (v : Val) (p : ℕ) (hp : p < 32) (hv : Ordinary v) : (flipVal round v p).eq v = false := by
  cases v with
  | int n =>
    simp only [flipVal, Val.eq]
    exact beq_eq_false_iff_ne.2 (C313_flip_changes n p hp).1
  | single b =>
    simp only [flipVal, Val.pattern, Val.eq, f32eq, hv.2, Bool.and_false, Bool.or_false]
    rw [beq_eq_false_iff_ne.2 (xor_ne b p hp)]
    simp
  | other k => rfl

/-- C313: a flip of the sign of zero is not a change Python sees. -/
theorem C313_zero_sign_limit (round : ℕ → BitVec 32) : flipVal round (.single 0) 31 ≠ .single 0 ∧ (flipVal round (.single 0) 31).eq (.single 0) = true := by
  constructor
  · simp only [flipVal, Val.pattern]; decide
  · simp only [flipVal, Val.pattern]; decide

/-- C313: for a float that binary32 cannot represent, flipping one bit and flipping it back gives the rounded number, not the original. -/
theorem C313_float_rounds_limit (round : ℕ → BitVec 32) (k p : ℕ) : flipVal round (flipVal round (.other k) p) p = .single (round k) ∧ (flipVal round (flipVal round (.other k) p) p).eq (.other k) = false := by
  have : flipVal round (flipVal round (.other k) p) p = .single (round k) := by
    simp only [flipVal, Val.pattern, BitVec.xor_assoc, BitVec.xor_self, BitVec.xor_zero]
  exact ⟨this, by rw [this]; rfl⟩

/-! ### C314 — the runs -/

/-- A draw the scripts can make: an ordinary value and, if it is struck, one of 32 bits of a copy. -/
def Fair (t : Draw) : Prop := Ordinary t.value ∧ ∀ c b, t.strike = some (c, b) → b < 32

theorem corrupt_correct (v x : Val) (copy : ℕ) (hv : Proper v) (hx : x.eq v = false) :
    ((Demo.new v).corrupt copy x).intact = false ∧ ((Demo.new v).corrupt copy x).correct = (true, Demo.new v) ∧ (Demo.new v).value = v := by
  have h1 := C312_intact_single v x hx
  have h2 := C312_correct_single v x hv hx
  refine ⟨?_, ?_, (C312_value_two v v hv).1⟩
  · unfold Demo.corrupt Demo.new
    split
    · exact h1.1
    · split
      · exact h1.2.1
      · exact h1.2.2
  · unfold Demo.corrupt Demo.new
    split
    · exact h2.1
    · split
      · exact h2.2.1
      · exact h2.2.2

/-- C314: every struck value is detected, corrected and counted as corrected, every other as not needing it, in both scripts. -/
theorem C314_test_verdict (round : ℕ → BitVec 32) (t : Draw) (h : Fair t) :
    demoTest round t = (if t.strike = none then .unneeded else .corrected) ∧ validateTest round t = (if t.strike = none then .unneeded else .corrected) := by
  obtain ⟨v, s⟩ := t
  have hp := ordinary_proper v h.1
  have hp' : v.eq v = true := hp
  cases s with
  | none => simp [demoTest, validateTest, Demo.new, Demo.intact, hp']
  | some cb =>
    obtain ⟨c, b⟩ := cb
    have hx := C313_flip_differs round v b (h.2 c b rfl) h.1
    obtain ⟨h1, h2, h3⟩ := corrupt_correct v (flipVal round v b) c hp hx
    simp [demoTest, validateTest, h1, h2, h3, hp']

theorem add_total (c : Counts) (v : Verdict) : (c.add v).corrected + (c.add v).failed + (c.add v).unneeded = c.corrected + c.failed + c.unneeded + 1 := by
  cases v <;> simp only [Counts.add] <;> omega

theorem fold_counts (test : Draw → Verdict) (ts : List Draw) : ∀ c : Counts,
    (ts.foldl (fun c t => c.add (test t)) c).corrected = c.corrected + ts.countP (fun t => test t == .corrected) ∧
    (ts.foldl (fun c t => c.add (test t)) c).failed = c.failed + ts.countP (fun t => test t == .failed) ∧
    (ts.foldl (fun c t => c.add (test t)) c).unneeded = c.unneeded + ts.countP (fun t => test t == .unneeded) := by
  induction ts with
  | nil => intro c; simp
  | cons t ts ih =>
    intro c
    obtain ⟨h1, h2, h3⟩ := ih (c.add (test t))
    simp only [List.foldl_cons, List.countP_cons]
    rw [h1, h2, h3]
    cases test t <;> simp [Counts.add] <;> omega

/-- C314: for every test function each counter is the number of tests with that verdict, and the counters add up to the number of tests. -/
theorem C314_counters_partition (test : Draw → Verdict) (ts : List Draw) :
    (run test ts).corrected = ts.countP (fun t => test t == .corrected) ∧ (run test ts).failed = ts.countP (fun t => test t == .failed) ∧
    (run test ts).unneeded = ts.countP (fun t => test t == .unneeded) ∧
    (run test ts).corrected + (run test ts).failed + (run test ts).unneeded = ts.length := by
  have h := fold_counts test ts {}
  simp only [Nat.zero_add] at h
  refine ⟨h.1, h.2.1, h.2.2, ?_⟩
  have : ∀ (ts : List Draw) (c : Counts), (ts.foldl (fun c t => c.add (test t)) c).corrected + (ts.foldl (fun c t => c.add (test t)) c).failed +
      (ts.foldl (fun c t => c.add (test t)) c).unneeded = c.corrected + c.failed + c.unneeded + ts.length := by
    intro ts
    induction ts with
    | nil => intro c; simp
    | cons t ts ih =>
      intro c
      simp only [List.foldl_cons, List.length_cons]
      rw [ih, add_total]
      omega
  have := this ts {}
  simpa [run] using this

/-- C314: whatever is drawn, neither script ever reports a failed correction: the protection rate is 100 % in every run. -/
theorem C314_never_fails (round : ℕ → BitVec 32) (ts : List Draw) (h : ∀ t ∈ ts, Fair t) :
    (run (demoTest round) ts).failed = 0 ∧ (run (validateTest round) ts).failed = 0 ∧
    (run (demoTest round) ts).corrected = ts.countP (fun t => t.strike.isSome) ∧ (run (validateTest round) ts).corrected = ts.countP (fun t => t.strike.isSome) := by
  have key : ∀ test : Draw → Verdict, (∀ t ∈ ts, test t = (if t.strike = none then .unneeded else .corrected)) →
      (run test ts).failed = 0 ∧ (run test ts).corrected = ts.countP (fun t => t.strike.isSome) := by
    intro test ht
    obtain ⟨h1, h2, -, -⟩ := C314_counters_partition test ts
    rw [h1, h2]
    constructor
    · rw [List.countP_eq_zero]
      intro t hm
      rw [ht t hm]
      cases t.strike <;> simp
    · refine List.countP_congr fun t hm => ?_
      rw [ht t hm]
      cases t.strike <;> simp
  have a := key (demoTest round) fun t hm => (C314_test_verdict round t (h t hm)).1
  have b := key (validateTest round) fun t hm => (C314_test_verdict round t (h t hm)).2
  exact ⟨a.1, b.1, a.2, b.2⟩

/-- C314: the two scripts disagree on a flip that changes nothing visible: one calls it unneeded, the other a failure. -/
theorem C314_scripts_disagree_limit (round : ℕ → BitVec 32) (copy : ℕ) :
    demoTest round ⟨.single 0, some (copy, 31)⟩ = .unneeded ∧ validateTest round ⟨.single 0, some (copy, 31)⟩ = .failed := by
  have hf : flipVal round (.single 0) 31 = .single 0x80000000 := by simp only [flipVal, Val.pattern]; decide
  simp only [demoTest, validateTest, hf, Demo.corrupt, Demo.new]
  by_cases h1 : copy = 1
  · subst h1; decide
  · by_cases h2 : copy = 2
    · subst h2; decide
    · simp only [h1, h2, if_false]; decide

example : Fair ⟨.int 42, some (2, 7)⟩ ∧ Fair ⟨.single 0x3f800000, some (1, 31)⟩ ∧ Fair ⟨.other 3, none⟩ := by
  refine ⟨⟨trivial, ?_⟩, ⟨⟨rfl, rfl⟩, ?_⟩, ⟨trivial, ?_⟩⟩
  · intro c b h; simp only [Option.some.injEq, Prod.mk.injEq] at h; omega
  · intro c b h; simp only [Option.some.injEq, Prod.mk.injEq] at h; omega
  · intro c b h; cases h

end Verif.Props.TmrDemo
