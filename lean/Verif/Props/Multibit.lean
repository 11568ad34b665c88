import Verif.Lemmas.Multibit
/-!
Properties C26, C27, C28: `MultibitProtection` under HAMMING and SECDED, and bit interleaving.
-/
namespace Verif.Props.Multibit
open Verif Verif.Multibit

/-- An object that holds `x` under a scheme (constructed with or assigned `x`), after the stored value has been hit by
the upset mask `e` (bits set in `e` flip). -/
def upset (junk : Nat → BitVec 8) (s : Scheme) (x e : Word) : Obj :=
  { Obj.mk' junk x s with value := x ^^^ e }

/-- `setValue` on any object gives the same contents as constructing it, up to unused check bytes. -/
theorem setValue_eq (o : Obj) (x : Word) : o.setValue x = Obj.mk' o.ecc x o.scheme := by
  unfold Obj.setValue Obj.mk' Obj.updateECC
  cases o.scheme <;> rfl

/-- The word with only bit `i` set. -/
def bit (i : Fin 32) : Word := 1#32 <<< i.val

section
variable (junk : Nat → BitVec 8) (x e : Word)

theorem ecc_ham {s : Scheme} (hs : s = .hamming ∨ s = .secded) {j : Nat} (hj : j < 7) :
    (upset junk s x e).ecc j = hammingBytes x j := by
  rcases hs with rfl | rfl <;> simp [upset, Obj.mk', Obj.updateECC, hj]

theorem syn_ham {s : Scheme} (hs : s = .hamming ∨ s = .secded) (cur : Nat → BitVec 8)
    (hc : ∀ j, j < 6 → cur j = b1 (par (x ^^^ e) j)) : syndrome cur (upset junk s x e).ecc = posXor e :=
  syndrome_eq (x := x) hc (fun j hj => by rw [ecc_ham junk x e hs (by omega), hammingBytes_lt x j hj])

theorem overall_ham {s : Scheme} (hs : s = .hamming ∨ s = .secded) :
    (hammingBytes (x ^^^ e) 6 != (upset junk s x e).ecc 6) = ovErr e := by
  rw [ecc_ham junk x e hs (by omega), hammingBytes_six, hammingBytes_six, bits_xor]
  have : xorB 6 (par (x ^^^ e)) = (xorB 6 (par x) ^^ xorB 6 (par e)) := by
    rw [← xorB_xor]; exact xorB_congr (fun i _ => par_xor x e i)
  rw [this]
  unfold ovErr
  cases xorB 6 (par x) <;> cases xorB 6 (par e) <;> cases xorB 32 x.getLsbD <;> cases xorB 32 e.getLsbD <;> rfl

theorem hasError_ham {s : Scheme} (hs : s = .hamming ∨ s = .secded) :
    (upset junk s x e).hasError = (decide (posXor e ≠ 0) || ovErr e) := by
  have hv : (upset junk s x e).valid = true := by rcases hs with rfl | rfl <;> rfl
  have hsc : (upset junk s x e).scheme = s := by rcases hs with rfl | rfl <;> rfl
  have hchk : (upset junk s x e).checkHamming = (decide (posXor e ≠ 0) || ovErr e) := by
    unfold Obj.checkHamming
    have hval : (upset junk s x e).value = x ^^^ e := rfl
    rw [hval]
    have hov := overall_ham junk x e hs
    rw [show List.range 7 = List.range 6 ++ [6] from rfl, List.any_append]
    simp only [List.any_cons, List.any_nil, Bool.or_false, hov]
    congr 1
    rw [Bool.eq_iff_iff, List.any_eq_true, decide_eq_true_eq]
    have hsyn := syn_ham junk x e hs (hammingBytes (x ^^^ e)) (fun j hj => hammingBytes_lt _ j hj)
    constructor
    · rintro ⟨i, hi, hne⟩
      rw [List.mem_range] at hi
      intro h0
      have := syndrome_testBit (hammingBytes (x ^^^ e)) (upset junk s x e).ecc i
      rw [hsyn, h0, Nat.zero_testBit] at this
      simp [hi] at this
      simp [this] at hne
    · intro hne
      obtain ⟨i, hi⟩ := Nat.exists_testBit_of_ne_zero hne
      have := syndrome_testBit (hammingBytes (x ^^^ e)) (upset junk s x e).ecc i
      rw [hsyn, hi] at this
      simp at this
      exact ⟨i, List.mem_range.mpr this.1, by simpa using this.2⟩
  unfold Obj.hasError
  rw [hv, hsc]
  rcases hs with rfl | rfl <;> simpa using hchk

/-- What `getValue` returns and `correctErrors` reports under HAMMING for an arbitrary upset mask. -/
theorem hamming_exact : ((upset junk .hamming x e).getValue).1 =
      (if posXor e ≠ 0 ∧ posXor e ≤ 32 then x ^^^ e ^^^ (1#32 <<< (posXor e - 1)) else x ^^^ e) ∧
    ((upset junk .hamming x e).correctErrors).1 =
      (!(decide (posXor e ≠ 0) || ovErr e) || decide (posXor e ≠ 0 ∧ posXor e ≤ 32)) := by
  have hs : Scheme.hamming = .hamming ∨ Scheme.hamming = .secded := Or.inl rfl
  have hh := hasError_ham junk x e hs
  have hsyn := syn_ham junk x e hs (parityBytes (x ^^^ e)) (fun j hj => parityBytes_eq _ j hj)
  have hval : (upset junk .hamming x e).value = x ^^^ e := rfl
  have hsch : (upset junk .hamming x e).scheme = .hamming := rfl
  have hcor : (upset junk .hamming x e).correctErrors =
      if (decide (posXor e ≠ 0) || ovErr e) then
        (if posXor e > 0 ∧ posXor e ≤ 32 then (true, { upset junk .hamming x e with value := x ^^^ e ^^^ (1#32 <<< (posXor e - 1)) })
          else (false, upset junk .hamming x e))
      else (true, upset junk .hamming x e) := by
    unfold Obj.correctErrors
    rw [hh, hsch]
    unfold Obj.correctHamming
    rw [hval, hsyn]
    cases (decide (posXor e ≠ 0) || ovErr e) <;> rfl
  unfold Obj.getValue
  rw [hh, hcor]
  by_cases h0 : posXor e = 0
  · cases ho : ovErr e <;> simp [h0, hval]
  · by_cases h32 : posXor e ≤ 32
    · simp [h0, h32, Nat.pos_of_ne_zero h0]
    · simp [h0, h32, hval]

/-- The same under SECDED. -/
theorem secded_exact : ((upset junk .secded x e).getValue).1 =
      (if posXor e ≠ 0 ∧ posXor e ≤ 32 ∧ ovErr e = true then x ^^^ e ^^^ (1#32 <<< (posXor e - 1)) else x ^^^ e) ∧
    ((upset junk .secded x e).correctErrors).1 =
      (decide (posXor e = 0) || (ovErr e && decide (posXor e ≤ 32))) := by
  have hs : Scheme.secded = .hamming ∨ Scheme.secded = .secded := Or.inr rfl
  have hh := hasError_ham junk x e hs
  have hsyn := syn_ham junk x e hs (hammingBytes (x ^^^ e)) (fun j hj => hammingBytes_lt _ j hj)
  have hov := overall_ham junk x e hs
  have hval : (upset junk .secded x e).value = x ^^^ e := rfl
  have hsch : (upset junk .secded x e).scheme = .secded := rfl
  have hcor : (upset junk .secded x e).correctErrors =
      if (decide (posXor e ≠ 0) || ovErr e) then
        (if posXor e = 0 ∧ ovErr e = false then (true, upset junk .secded x e)
         else if posXor e > 0 ∧ ovErr e = true then
          if posXor e ≤ 32 then (true, { upset junk .secded x e with value := x ^^^ e ^^^ (1#32 <<< (posXor e - 1)) })
          else (false, upset junk .secded x e)
         else if posXor e = 0 ∧ ovErr e = true then (true, upset junk .secded x e)
         else (false, upset junk .secded x e))
      else (true, upset junk .secded x e) := by
    unfold Obj.correctErrors
    rw [hh, hsch]
    unfold Obj.correctSecded
    rw [hval]
    simp only
    rw [hsyn, hov]
    cases (decide (posXor e ≠ 0) || ovErr e) <;> rfl
  unfold Obj.getValue
  rw [hh, hcor]
  by_cases h0 : posXor e = 0
  · cases ho : ovErr e <;> simp [h0, hval]
  · cases ho : ovErr e
    · simp [h0, hval]
    · by_cases h32 : posXor e ≤ 32
      · simp [h0, h32, Nat.pos_of_ne_zero h0]
      · simp [h0, h32, Nat.pos_of_ne_zero h0, hval]

end

theorem xor_eq_zero {a b : Nat} (h : a ^^^ b = 0) : a = b := by
  apply Nat.eq_of_testBit_eq
  intro i
  have := congrArg (fun n => n.testBit i) h
  simp only [Nat.testBit_xor, Nat.zero_testBit] at this
  revert this
  cases a.testBit i <;> cases b.testBit i <;> simp

/-! Facts about masks of one and two bits: complete finite case analyses over bit positions. -/

theorem posXor_bit : ∀ i : Fin 32, posXor (bit i) = i.val + 1 := by decide +kernel

/-- Number of ones of a natural number below 64. -/
def ones (n : Nat) : Nat := ((List.range 6).filter n.testBit).length

theorem ovErr_bit : ∀ i : Fin 32, ovErr (bit i) = decide (ones (i.val + 1) % 2 = 0) := by decide +kernel

theorem posXor_xor (e f : Word) : posXor (e ^^^ f) = posXor e ^^^ posXor f := by
  apply Nat.eq_of_testBit_eq
  intro j
  rw [Nat.testBit_xor, posXor_testBit, posXor_testBit, posXor_testBit, par_xor]

theorem ovErr_xor (e f : Word) : ovErr (e ^^^ f) = (ovErr e ^^ ovErr f) := by
  unfold ovErr
  have : xorB 6 (par (e ^^^ f)) = (xorB 6 (par e) ^^ xorB 6 (par f)) := by
    rw [← xorB_xor]; exact xorB_congr (fun i _ => par_xor e f i)
  rw [this, bits_xor]
  cases xorB 6 (par e) <;> cases xorB 6 (par f) <;> cases xorB 32 e.getLsbD <;> cases xorB 32 f.getLsbD <;> rfl

theorem posXor_two (i k : Fin 32) : posXor (bit i ^^^ bit k) = (i.val + 1) ^^^ (k.val + 1) := by
  rw [posXor_xor, posXor_bit, posXor_bit]

theorem ones_xor : ∀ i k : Fin 64, (decide (ones i.val % 2 = 0) ^^ decide (ones k.val % 2 = 0)) =
    decide (ones (i.val ^^^ k.val) % 2 = 1) := by decide +kernel

theorem ovErr_two (i k : Fin 32) : ovErr (bit i ^^^ bit k) = decide (ones ((i.val + 1) ^^^ (k.val + 1)) % 2 = 1) := by
  rw [ovErr_xor, ovErr_bit, ovErr_bit]
  exact ones_xor ⟨i.val + 1, by omega⟩ ⟨k.val + 1, by omega⟩

/-! ### C26 -/

/-- **C26 (HAMMING).** After any single bit of the stored value flips, `hasError` reports it, `correctErrors` reports
success and `getValue` returns the original value — for every value and every bit. -/
theorem C26_hamming_single_bit (junk : Nat → BitVec 8) (x : Word) (i : Fin 32) :
    (upset junk .hamming x (bit i)).hasError = true ∧
    ((upset junk .hamming x (bit i)).correctErrors).1 = true ∧
    ((upset junk .hamming x (bit i)).getValue).1 = x := by
  have hp := posXor_bit i
  have hlt := i.isLt
  obtain ⟨h1, h2⟩ := hamming_exact junk x (bit i)
  refine ⟨?_, ?_, ?_⟩
  · rw [hasError_ham junk x _ (Or.inl rfl), hp]; simp
  · rw [h2, hp]
    have : decide (i.val + 1 ≠ 0 ∧ i.val + 1 ≤ 32) = true := decide_eq_true (by omega)
    rw [this, Bool.or_true]
  · rw [h1, hp, if_pos (by omega), Nat.add_sub_cancel]
    change x ^^^ bit i ^^^ bit i = x
    rw [BitVec.xor_assoc, BitVec.xor_self, BitVec.xor_zero]

/-- **C26 (SECDED, exact).** A single flipped bit `i` is repaired exactly when `i + 1` has an even number of ones;
for the other positions the error is reported as uncorrectable and the corrupted value is returned. -/
theorem C26_secded_single_bit_partial (junk : Nat → BitVec 8) (x : Word) (i : Fin 32) :
    (upset junk .secded x (bit i)).hasError = true ∧
    ((upset junk .secded x (bit i)).correctErrors).1 = decide (ones (i.val + 1) % 2 = 0) ∧
    ((upset junk .secded x (bit i)).getValue).1 = (if ones (i.val + 1) % 2 = 0 then x else x ^^^ bit i) := by
  have hp := posXor_bit i
  have ho := ovErr_bit i
  have hlt := i.isLt
  obtain ⟨h1, h2⟩ := secded_exact junk x (bit i)
  refine ⟨?_, ?_, ?_⟩
  · rw [hasError_ham junk x _ (Or.inr rfl), hp]; simp
  · rw [h2, hp, ho]
    have h3 : decide (i.val + 1 ≤ 32) = true := decide_eq_true (by omega)
    have h4 : decide (i.val + 1 = 0) = false := decide_eq_false (by omega)
    rw [h3, h4]; simp
  · rw [h1, hp, ho]
    by_cases hc : ones (i.val + 1) % 2 = 0
    · rw [if_pos ⟨by omega, by omega, decide_eq_true hc⟩, if_pos hc, Nat.add_sub_cancel]
      change x ^^^ bit i ^^^ bit i = x
      rw [BitVec.xor_assoc, BitVec.xor_self, BitVec.xor_zero]
    · rw [if_neg (by simp [hc]), if_neg hc]

/-- **C26 (SECDED, violated).** Flipping bit 0 of any value under SECDED yields the corrupted value. -/
theorem C26_secded_violated (junk : Nat → BitVec 8) (x : Word) :
    ((upset junk .secded x (bit 0)).getValue).1 = x ^^^ 1#32 ∧ x ^^^ 1#32 ≠ x := by
  refine ⟨?_, ?_⟩
  · rw [(C26_secded_single_bit_partial junk x 0).2.2, if_neg (by decide)]; rfl
  · intro h
    have := congrArg (fun w => x ^^^ w) h
    simp only [← BitVec.xor_assoc, BitVec.xor_self, BitVec.zero_xor] at this
    exact absurd this (by decide)

example : ((upset (fun _ => 0#8) .hamming 0x3f800000#32 (bit 31)).getValue).1 = 0x3f800000#32 := by decide +kernel

/-! ### C27 -/

/-- **C27 (detection).** Every double-bit upset is noticed by `hasError` (both codes). -/
theorem C27_double_detected (junk : Nat → BitVec 8) (s : Scheme) (hs : s = .hamming ∨ s = .secded) (x : Word)
    (i k : Fin 32) (h : i ≠ k) : (upset junk s x (bit i ^^^ bit k)).hasError = true := by
  rw [hasError_ham junk x _ hs, posXor_two i k]
  have : (i.val + 1) ^^^ (k.val + 1) ≠ 0 := by
    intro e
    have := xor_eq_zero e
    exact h (Fin.ext (by omega))
  simp [this]

/-- **C27 (SECDED, exact).** For two flipped bits at 1-based positions `p = i+1`, `q = k+1`: the value is left alone
and the error reported as uncorrectable exactly when `p xor q` has an even number of ones or exceeds 32; otherwise
SECDED claims success after flipping a third bit. -/
theorem C27_secded_double_exact_partial (junk : Nat → BitVec 8) (x : Word) (i k : Fin 32) (h : i ≠ k) :
    (((upset junk .secded x (bit i ^^^ bit k)).correctErrors).1 = true ↔
      (ones ((i.val + 1) ^^^ (k.val + 1)) % 2 = 1 ∧ (i.val + 1) ^^^ (k.val + 1) ≤ 32)) ∧
    ((upset junk .secded x (bit i ^^^ bit k)).getValue).1 =
      (if ones ((i.val + 1) ^^^ (k.val + 1)) % 2 = 1 ∧ (i.val + 1) ^^^ (k.val + 1) ≤ 32
        then x ^^^ (bit i ^^^ bit k) ^^^ (1#32 <<< (((i.val + 1) ^^^ (k.val + 1)) - 1))
        else x ^^^ (bit i ^^^ bit k)) := by
  have hne : (i.val + 1) ^^^ (k.val + 1) ≠ 0 := by
    intro e
    have := xor_eq_zero e
    exact h (Fin.ext (by omega))
  obtain ⟨h1, h2⟩ := secded_exact junk x (bit i ^^^ bit k)
  rw [posXor_two i k, ovErr_two i k] at h1 h2
  constructor
  · rw [h2]; simp [hne]
  · rw [h1]
    by_cases hc : ones ((i.val + 1) ^^^ (k.val + 1)) % 2 = 1 ∧ (i.val + 1) ^^^ (k.val + 1) ≤ 32
    · rw [if_pos ⟨hne, hc.2, decide_eq_true hc.1⟩, if_pos hc]
    · rw [if_neg hc, if_neg]
      rintro ⟨_, a, b⟩
      exact hc ⟨of_decide_eq_true b, a⟩

/-- **C27 (violated).** Flipping bits 0 and 2 under SECDED: the code reports success and returns a value that is wrong
in three bits. -/
theorem C27_secded_violated (junk : Nat → BitVec 8) (x : Word) :
    ((upset junk .secded x (bit 0 ^^^ bit 2)).correctErrors).1 = true ∧
    ((upset junk .secded x (bit 0 ^^^ bit 2)).getValue).1 = x ^^^ 0x7#32 := by
  have h := C27_secded_double_exact_partial junk x 0 2 (by decide)
  refine ⟨h.1.mpr (by decide), ?_⟩
  rw [h.2, if_pos (by decide), BitVec.xor_assoc]
  congr 1

/-- **C27 (a double upset is never repaired to the original).** Whatever happens, under both codes the value returned
after a double upset is not the original value. -/
theorem C27_double_never_restored (junk : Nat → BitVec 8) (s : Scheme) (hs : s = .hamming ∨ s = .secded) (x : Word)
    (i k : Fin 32) (h : i ≠ k) : ((upset junk s x (bit i ^^^ bit k)).getValue).1 ≠ x := by
  have bit_bit : ∀ (i : Fin 32) (t : Nat), (bit i).getLsbD t = decide (t = i.val) := by
    intro i t
    have hi := i.isLt
    unfold bit
    rw [BitVec.getLsbD_shiftLeft, BitVec.getLsbD_one]
    by_cases h : t = i.val
    · simp [h]
    · by_cases h2 : t < i.val
      · simp [h, h2]
      · have : t - i.val ≠ 0 := by omega
        simp [h, this]
  have key : ∀ l : Fin 32, bit i ^^^ bit k ^^^ bit l ≠ 0#32 ∧ bit i ^^^ bit k ≠ 0#32 := by
    intro l
    have hik : i.val ≠ k.val := fun e => h (Fin.ext e)
    constructor
    · intro e
      have e1 := congrArg (fun w => w.getLsbD i.val) e
      have e2 := congrArg (fun w => w.getLsbD k.val) e
      simp only [BitVec.getLsbD_xor, bit_bit, BitVec.getLsbD_zero] at e1 e2
      simp [hik, Ne.symm hik] at e1 e2
      omega
    · intro e
      have e1 := congrArg (fun w => w.getLsbD i.val) e
      simp only [BitVec.getLsbD_xor, bit_bit, BitVec.getLsbD_zero] at e1
      simp [hik] at e1
  have cancel : ∀ w : Word, w ≠ 0#32 → x ^^^ w ≠ x := by
    intro w hw e
    apply hw
    have := congrArg (fun y => x ^^^ y) e
    simp only [← BitVec.xor_assoc, BitVec.xor_self, BitVec.zero_xor] at this
    exact this
  have h1 : ∀ n, n ≠ 0 → n ≤ 32 → x ^^^ (bit i ^^^ bit k) ^^^ (1#32 <<< (n - 1)) ≠ x := by
    intro n hn0 hn
    rw [BitVec.xor_assoc]
    exact cancel _ (key ⟨n - 1, by omega⟩).1
  rcases hs with rfl | rfl
  · rw [(hamming_exact junk x _).1]
    split
    · rename_i hc; exact h1 _ hc.1 hc.2
    · exact cancel _ (key 0).2
  · rw [(secded_exact junk x _).1]
    split
    · rename_i hc; exact h1 _ hc.1 hc.2.1
    · exact cancel _ (key 0).2

/-! ### C28 -/

theorem and_one_shift (w : Word) (i n t : Nat) :
    (((w >>> i) &&& 1#32) <<< n).getLsbD t = (decide (t = n) && decide (t < 32) && w.getLsbD i) := by
  rw [BitVec.getLsbD_shiftLeft, BitVec.getLsbD_and, BitVec.getLsbD_ushiftRight, BitVec.getLsbD_one]
  by_cases h : t = n
  · subst h; simp
  · by_cases h2 : t < n
    · simp [h, h2]
    · have : t - n ≠ 0 := by omega
      simp [h, this]

/-- Physical cell of logical bit `i`. -/
def cell (i : Nat) : Nat := if i % 2 = 0 then i / 2 else 16 + i / 2

/-- **C28 (layout).** Logical bit `i` is stored in physical cell `i/2` (even `i`) or `16 + i/2` (odd `i`). -/
theorem C28_layout (w : Word) (i : Nat) (hi : i < 32) : (interleave w).getLsbD (cell i) = w.getLsbD i := by
  have inv := forN_inv (fun n (r : Word) => ∀ t, t < 32 → r.getLsbD t =
      (decide ((if t < 16 then 2 * t else 2 * (t - 16) + 1) < n) && w.getLsbD (if t < 16 then 2 * t else 2 * (t - 16) + 1))) 32
    (fun i r =>
      if i % 2 = 0 then r ||| (((w >>> i) &&& 1#32) <<< (i / 2))
      else r ||| (((w >>> i) &&& 1#32) <<< (16 + i / 2))) 0#32 (by intro t _; simp) (by
      intro i r hi hr t ht
      have hstep : ∀ n, (if i % 2 = 0 then i / 2 else 16 + i / 2) = n →
          (r ||| (((w >>> i) &&& 1#32) <<< n)).getLsbD t =
          (decide ((if t < 16 then 2 * t else 2 * (t - 16) + 1) < i + 1) && w.getLsbD (if t < 16 then 2 * t else 2 * (t - 16) + 1)) := by
        intro n hn
        rw [BitVec.getLsbD_or, hr t ht, and_one_shift]
        by_cases htn : t = n
        · have hl : (if t < 16 then 2 * t else 2 * (t - 16) + 1) = i := by split at hn <;> split <;> omega
          rw [hl, decide_eq_true htn, decide_eq_true ht]; simp
        · have hl : (if t < 16 then 2 * t else 2 * (t - 16) + 1) ≠ i := by split at hn <;> split <;> omega
          have : decide ((if t < 16 then 2 * t else 2 * (t - 16) + 1) < i + 1) =
              decide ((if t < 16 then 2 * t else 2 * (t - 16) + 1) < i) := by apply decide_eq_decide.mpr; omega
          rw [this]; simp [htn]
      by_cases he : i % 2 = 0
      · rw [if_pos he]; exact hstep _ (by rw [if_pos he])
      · rw [if_neg he]; exact hstep _ (by rw [if_neg he]))
  have hc : cell i < 32 := by unfold cell; split <;> omega
  have := inv (cell i) hc
  have hl : (if cell i < 16 then 2 * cell i else 2 * (cell i - 16) + 1) = i := by
    unfold cell
    by_cases he : i % 2 = 0
    · rw [if_pos he, if_pos (by omega)]; omega
    · rw [if_neg he, if_neg (by omega)]; omega
  rw [hl] at this
  exact this.trans (by simp [hi])

theorem deinterleave_bit (w : Word) (i : Nat) (hi : i < 32) : (deinterleave w).getLsbD i = w.getLsbD (cell i) := by
  have inv := forN_inv (fun n (r : Word) => ∀ t, t < 32 → r.getLsbD t = (decide (t < 2 * n) && w.getLsbD (cell t))) 16
    (fun i r => (r ||| (((w >>> i) &&& 1#32) <<< (i * 2))) ||| (((w >>> (i + 16)) &&& 1#32) <<< (i * 2 + 1))) 0#32
    (by intro t _; simp) (by
      intro i r hi hr t ht
      rw [BitVec.getLsbD_or, BitVec.getLsbD_or, hr t ht, and_one_shift, and_one_shift]
      by_cases h1 : t = i * 2
      · have hc : cell t = i := by unfold cell; rw [if_pos (by omega)]; omega
        have h2 : t ≠ i * 2 + 1 := by omega
        rw [hc]
        simp [h1, show i * 2 < 2 * (i + 1) by omega, show i * 2 < 32 by omega]
      · by_cases h2 : t = i * 2 + 1
        · have hc : cell t = i + 16 := by unfold cell; rw [if_neg (by omega)]; omega
          rw [hc]
          simp [h2, show i * 2 + 1 < 2 * (i + 1) by omega, show i * 2 + 1 < 32 by omega]
        · have : decide (t < 2 * (i + 1)) = decide (t < 2 * i) := by apply decide_eq_decide.mpr; omega
          rw [this]; simp [h1, h2])
  have := inv i hi
  exact this.trans (by simp [hi])

/-- **C28 (round trip).** Interleaving and undoing it are inverse bijections on 32-bit words. -/
theorem C28_roundtrip (w : Word) : deinterleave (interleave w) = w ∧ interleave (deinterleave w) = w := by
  have hd : ∀ w : Word, deinterleave (interleave w) = w := by
    intro w
    apply BitVec.eq_of_getLsbD_eq
    intro i hi
    rw [deinterleave_bit _ i hi, C28_layout w i hi]
  refine ⟨hd w, ?_⟩
  apply BitVec.eq_of_getLsbD_eq
  intro t ht
  obtain ⟨i, hi, hc⟩ : ∃ i, i < 32 ∧ cell i = t := by
    refine ⟨if t < 16 then 2 * t else 2 * (t - 16) + 1, ?_, ?_⟩
    · split <;> omega
    · unfold cell
      by_cases h : t < 16
      · rw [if_pos h, if_pos (by omega)]; omega
      · rw [if_neg h, if_neg (by omega)]; omega
  rw [← hc, C28_layout _ i hi, deinterleave_bit _ i hi]

/-- **C28 (separation).** Two neighbouring logical bits are stored at least 15 cells apart, and two neighbouring
physical cells never hold neighbouring logical bits. -/
theorem C28_separation (i : Nat) (hi : i + 1 < 32) : 15 ≤ ((cell (i + 1) : Int) - cell i).natAbs ∧
    ∀ k, k < 32 → cell k = cell i + 1 → k ≠ i + 1 ∧ i ≠ k + 1 := by
  unfold cell
  constructor
  · split <;> split <;> omega
  · intro k hk h
    split at h <;> split at h <;> omega

/-- **C28 (effect of a physical burst).** Flipping any cells `c` of the interleaved word flips exactly the logical bits
stored there. -/
theorem C28_burst (w c : Word) (i : Nat) (hi : i < 32) :
    (deinterleave (interleave w ^^^ c)).getLsbD i = (w.getLsbD i ^^ c.getLsbD (cell i)) := by
  rw [deinterleave_bit _ i hi, BitVec.getLsbD_xor, C28_layout w i hi]

example : interleave 0xDEADBEEF#32 ≠ 0xDEADBEEF#32 ∧ deinterleave (interleave 0xDEADBEEF#32) = 0xDEADBEEF#32 := by decide +kernel

end Verif.Props.Multibit
