import Verif.Model.Multibit
import Verif.Lemmas.Bits
import Mathlib.Tactic.NormNum
import Mathlib.Order.Basic
/-! Lemmas about `MultibitProtection`. -/
namespace Verif.Multibit
open Verif

/-- Exclusive or of `f 0, …, f (n - 1)`. -/
def xorB (n : Nat) (f : Nat → Bool) : Bool := forN n (fun i b => b ^^ f i) false

theorem xorB_xor (n : Nat) (f g : Nat → Bool) : xorB n (fun i => f i ^^ g i) = (xorB n f ^^ xorB n g) := by
  induction n with
  | zero => rfl
  | succ n ih =>
    simp only [xorB, forN] at ih ⊢
    rw [ih]
    cases forN n (fun i b => b ^^ f i) false <;> cases forN n (fun i b => b ^^ g i) false <;> cases f n <;> cases g n <;> rfl

theorem xorB_congr {n : Nat} {f g : Nat → Bool} (h : ∀ i, i < n → f i = g i) : xorB n f = xorB n g := by
  induction n with
  | zero => rfl
  | succ n ih =>
    simp only [xorB, forN] at ih ⊢
    rw [ih (fun i hi => h i (by omega)), h n (by omega)]

/-- 0/1 byte. -/
def b1 (b : Bool) : BitVec 8 := if b then 1#8 else 0#8

theorem b1_xor (a b : Bool) : b1 a ^^^ b1 b = b1 (a ^^ b) := by cases a <;> cases b <;> decide
theorem b1_inj {a b : Bool} : b1 a = b1 b ↔ a = b := by cases a <;> cases b <;> decide

theorem shiftAnd (x j : Nat) : ((x >>> j) &&& 1) ≠ 0 ↔ x.testBit j = true := by
  rw [Nat.testBit, Nat.and_comm]; simp

/-- Parity `j` as an exclusive or. -/
def par (bits : Word) (j : Nat) : Bool := xorB 32 (fun i => bits.getLsbD i && (i + 1).testBit j)

theorem inner_loop (i : Nat) (p : Nat → BitVec 8) (k : Nat) :
    forN 6 (fun j p => if (((i + 1) >>> j) &&& 1) ≠ 0 then upd p j (p j ^^^ 1#8) else p) p k =
      if k < 6 then p k ^^^ b1 ((i + 1).testBit k) else p k := by
  have := forN_inv (fun n q => ∀ k, q k = if k < n then p k ^^^ b1 ((i + 1).testBit k) else p k) 6
    (fun j p => if (((i + 1) >>> j) &&& 1) ≠ 0 then upd p j (p j ^^^ 1#8) else p) p (by intro k; simp) (by
      intro j q hj hq k
      by_cases hb : (i + 1).testBit j = true
      · rw [if_pos ((shiftAnd _ _).mpr hb)]
        unfold upd
        by_cases hk : k = j
        · subst hk; rw [if_pos rfl, hq, if_neg (by omega), if_pos (by omega), hb]; rfl
        · rw [if_neg hk, hq]
          by_cases hkj : k < j
          · rw [if_pos hkj, if_pos (by omega)]
          · rw [if_neg hkj, if_neg (by omega)]
      · rw [if_neg (fun h => hb ((shiftAnd _ _).mp h)), hq]
        by_cases hk : k = j
        · subst hk; rw [if_neg (by omega), if_pos (by omega)]
          have : (i + 1).testBit k = false := by simpa using hb
          rw [this]; simp [b1]
        · by_cases hkj : k < j
          · rw [if_pos hkj, if_pos (by omega)]
          · rw [if_neg hkj, if_neg (by omega)])
  exact this k

theorem parityBytes_eq (bits : Word) (j : Nat) (hj : j < 6) : parityBytes bits j = b1 (par bits j) := by
  have := forN_inv (fun n p => ∀ j, j < 6 → p j = b1 (xorB n (fun i => bits.getLsbD i && (i + 1).testBit j))) 32
    (fun i p => if bits.getLsbD i then
      forN 6 (fun j p => if (((i + 1) >>> j) &&& 1) ≠ 0 then upd p j (p j ^^^ 1#8) else p) p
    else p) (fun _ => 0#8) (by intro j _; rfl) (by
      intro i p _ hp j hj
      have e : xorB (i + 1) (fun i => bits.getLsbD i && (i + 1).testBit j) =
          (xorB i (fun i => bits.getLsbD i && (i + 1).testBit j) ^^ (bits.getLsbD i && (i + 1).testBit j)) := rfl
      rw [e, ← b1_xor, ← hp j hj]
      by_cases hb : bits.getLsbD i = true
      · rw [if_pos hb, inner_loop, if_pos hj, hb, Bool.true_and]
      · have : bits.getLsbD i = false := by simpa using hb
        rw [this]
        simp [b1])
  exact this j hj

theorem overall_eq (bits : Word) : overallByte bits (parityBytes bits) =
    b1 (xorB 6 (par bits) ^^ xorB 32 bits.getLsbD) := by
  unfold overallByte
  have h6 : forN 6 (fun i a => a ^^^ parityBytes bits i) 0#8 = b1 (xorB 6 (par bits)) := by
    have := forN_inv (fun n a => a = b1 (xorB n (par bits))) 6 (fun i a => a ^^^ parityBytes bits i) 0#8 rfl (by
      intro i a hi ha
      rw [ha, parityBytes_eq bits i hi, b1_xor]; rfl)
    exact this
  rw [h6]
  have := forN_inv (fun n a => a = b1 (xorB 6 (par bits) ^^ xorB n bits.getLsbD)) 32
    (fun i a => a ^^^ (if bits.getLsbD i then 1#8 else 0#8)) (b1 (xorB 6 (par bits)))
    (by simp [xorB, forN]) (by
      intro i a _ ha
      rw [ha]
      have : (if bits.getLsbD i then 1#8 else 0#8) = b1 (bits.getLsbD i) := rfl
      rw [this, b1_xor, Bool.xor_assoc]
      rfl)
  exact this

theorem hammingBytes_lt (bits : Word) (j : Nat) (hj : j < 6) : hammingBytes bits j = b1 (par bits j) := by
  unfold hammingBytes upd
  rw [if_neg (by omega), parityBytes_eq bits j hj]

theorem hammingBytes_six (bits : Word) : hammingBytes bits 6 = b1 (xorB 6 (par bits) ^^ xorB 32 bits.getLsbD) := by
  unfold hammingBytes upd
  rw [if_pos rfl, overall_eq]

theorem par_xor (x e : Word) (j : Nat) : par (x ^^^ e) j = (par x j ^^ par e j) := by
  unfold par
  rw [← xorB_xor]
  apply xorB_congr
  intro i _
  rw [BitVec.getLsbD_xor]
  cases x.getLsbD i <;> cases e.getLsbD i <;> cases (i + 1).testBit j <;> rfl

theorem bits_xor (x e : Word) : xorB 32 (x ^^^ e).getLsbD = (xorB 32 x.getLsbD ^^ xorB 32 e.getLsbD) := by
  rw [← xorB_xor]
  apply xorB_congr
  intro i _
  rw [BitVec.getLsbD_xor]

/-- Exclusive or of the (1-based) positions of the set bits. -/
def posXor (e : Word) : Nat := forN 32 (fun i s => if e.getLsbD i then s ^^^ (i + 1) else s) 0

theorem posXor_testBit (e : Word) (j : Nat) : (posXor e).testBit j = par e j := by
  have := forN_inv (fun n (s : Nat) => s.testBit j = xorB n (fun i => e.getLsbD i && (i + 1).testBit j)) 32
    (fun i s => if e.getLsbD i then s ^^^ (i + 1) else s) 0 (by simp [xorB, forN]) (by
      intro i s _ hs
      have e1 : xorB (i + 1) (fun i => e.getLsbD i && (i + 1).testBit j) =
          (xorB i (fun i => e.getLsbD i && (i + 1).testBit j) ^^ (e.getLsbD i && (i + 1).testBit j)) := rfl
      rw [e1, ← hs]
      by_cases hb : e.getLsbD i = true
      · rw [if_pos hb, Nat.testBit_xor, hb, Bool.true_and]
      · have : e.getLsbD i = false := by simpa using hb
        rw [this]; simp)
  exact this

theorem posXor_lt (e : Word) : posXor e < 64 := by
  have := forN_inv (fun _ (s : Nat) => s < 2 ^ 6) 32 (fun i s => if e.getLsbD i then s ^^^ (i + 1) else s) 0 (by norm_num) (by
    intro i s hi hs
    split
    · exact Nat.xor_lt_two_pow hs (by omega)
    · exact hs)
  exact this

theorem syndrome_testBit (cur ecc : Nat → BitVec 8) (j : Nat) :
    (syndrome cur ecc).testBit j = (decide (j < 6) && decide (cur j ≠ ecc j)) := by
  have := forN_inv (fun n (s : Nat) => ∀ j, s.testBit j = (decide (j < n) && decide (cur j ≠ ecc j))) 6
    (fun i s => if cur i ≠ ecc i then s ||| (1 <<< i) else s) 0 (by intro j; simp) (by
      intro i s _ hs j
      by_cases hc : cur i ≠ ecc i
      · rw [if_pos hc, Nat.testBit_or, hs, Nat.one_shiftLeft, Nat.testBit_two_pow]
        by_cases hj : i = j
        · subst hj; simp [hc]
        · have : decide (j < i + 1) = decide (j < i) := by apply decide_eq_decide.mpr; omega
          simp [hj, this]
      · rw [if_neg hc, hs]
        by_cases hj : i = j
        · subst hj; simp [not_not.mp hc]
        · have : decide (j < i + 1) = decide (j < i) := by apply decide_eq_decide.mpr; omega
          rw [this])
  exact this j

/-- With intact check bytes, the syndrome of a value hit by the upset mask `e` is `posXor e`. -/
theorem syndrome_eq {x e : Word} {cur ecc : Nat → BitVec 8} (hc : ∀ j, j < 6 → cur j = b1 (par (x ^^^ e) j))
    (he : ∀ j, j < 6 → ecc j = b1 (par x j)) : syndrome cur ecc = posXor e := by
  apply Nat.eq_of_testBit_eq
  intro j
  rw [syndrome_testBit]
  by_cases hj : j < 6
  · rw [hc j hj, he j hj, posXor_testBit, par_xor]
    cases par x j <;> cases par e j <;> simp [hj, b1]
  · rw [Nat.testBit_lt_two_pow (lt_of_lt_of_le (posXor_lt e) (show 2 ^ 6 ≤ 2 ^ j from Nat.pow_le_pow_right (by norm_num) (by omega)))]
    simp [hj]

/-- Overall-parity mismatch caused by the upset mask. -/
def ovErr (e : Word) : Bool := xorB 6 (par e) ^^ xorB 32 e.getLsbD

end Verif.Multibit
