import Verif.Model.UpsetTmr
import Verif.Props.Multibit
import Verif.Props.MultibitObject
import Verif.Props.SpaceTmr
import Mathlib.Tactic.NormNum
import Mathlib.Tactic.Linarith
import Mathlib.Tactic.Ring
import Mathlib.Tactic.Positivity
import Mathlib.Tactic.FinCases
/-!
C192-C197: multi-bit upsets applied to values, the TMR-based weights, the float specialisation of the stuck-bit TMR and the
`SimpleTMR` of the Python bindings.
-/
namespace Verif.Props.UpsetTmrP
open Verif Verif.UpsetTmr Verif.Multibit Verif.Props Verif.Spec

/-! ### Specification -/

/-- The two values differ in bit `i`. -/
def Differ {m : ℕ} (v w : BitVec m) (i : ℕ) : Prop := v.getLsbD i ≠ w.getLsbD i

/-- In how many bits two values differ. -/
def distance {m : ℕ} (v w : BitVec m) : ℕ := ((List.range m).filter (fun i => v.getLsbD i != w.getLsbD i)).length

/-! ### Flipping a list of bits -/

/-- The bits of a list flipped one after the other. -/
def flips {m : ℕ} (v : BitVec m) (ps : List ℕ) : BitVec m := ps.foldl (fun w p => w ^^^ BitVec.twoPow m p) v

theorem flips_bit {m : ℕ} (ps : List ℕ) : ∀ (v : BitVec m) (i : ℕ), i < m →
    (flips v ps).getLsbD i = (v.getLsbD i ^^ decide (ps.count i % 2 = 1)) := by
  induction ps with
  | nil => intro v i _; simp [flips]
  | cons p ps ih =>
    intro v i hi
    show (flips (v ^^^ BitVec.twoPow m p) ps).getLsbD i = _
    rw [ih _ i hi, BitVec.getLsbD_xor, BitVec.getLsbD_twoPow]
    by_cases h : p = i
    · subst h
      rw [List.count_cons_self]
      rcases Nat.mod_two_eq_zero_or_one (ps.count p) with e | e
      · have : (ps.count p + 1) % 2 = 1 := by omega
        simp [e, this, hi]
      · have : (ps.count p + 1) % 2 = 0 := by omega
        simp [e, this, hi]
    · rw [List.count_cons_of_ne h]
      have : ¬ i = p := fun e => h e.symm
      simp [h]

theorem forN_flips {m : ℕ} (f : ℕ → ℕ) (v : BitVec m) : ∀ k, forN k (fun i w => w ^^^ BitVec.twoPow m (f i)) v = flips v ((List.range k).map f) := by
  intro k
  induction k with
  | zero => rfl
  | succ k ih =>
    show forN k _ v ^^^ BitVec.twoPow m (f k) = _
    rw [ih, List.range_succ, List.map_append]
    simp [flips, List.foldl_append]

theorem toggle (f : ℕ → Bool) (p : ℕ) : ∀ m, p < m →
    ((List.range m).filter (fun i => f i ^^ decide (i = p))).length + 1 = ((List.range m).filter f).length ∨
    ((List.range m).filter (fun i => f i ^^ decide (i = p))).length = ((List.range m).filter f).length + 1 := by
  have same : ∀ m, m ≤ p → (List.range m).filter (fun i => f i ^^ decide (i = p)) = (List.range m).filter f := by
    intro m hm
    apply List.filter_congr
    intro i hi
    have : i ≠ p := by have := List.mem_range.1 hi; omega
    simp [this]
  intro m
  induction m with
  | zero => intro h; omega
  | succ m ih =>
    intro h
    rw [List.range_succ, List.filter_append, List.filter_append, List.length_append, List.length_append]
    by_cases hp : p = m
    · subst hp
      rw [same p le_rfl]
      cases hf : f p <;> simp [hf]
    · have hm : m ≠ p := fun e => hp e.symm
      have e : [m].filter (fun i => f i ^^ decide (i = p)) = [m].filter f := by simp [List.filter_cons, hm]
      rw [e]
      rcases ih (by omega) with h' | h' <;> omega

theorem distance_self {m : ℕ} (v : BitVec m) : distance v v = 0 := by simp [distance]

theorem distance_flip {m : ℕ} (v w : BitVec m) {p : ℕ} (hp : p < m) :
    distance v (w ^^^ BitVec.twoPow m p) + 1 = distance v w ∨ distance v (w ^^^ BitVec.twoPow m p) = distance v w + 1 := by
  have e : (List.range m).filter (fun i => v.getLsbD i != (w ^^^ BitVec.twoPow m p).getLsbD i) =
      (List.range m).filter (fun i => (v.getLsbD i != w.getLsbD i) ^^ decide (i = p)) := by
    apply List.filter_congr
    intro i hi
    have := List.mem_range.1 hi
    rw [BitVec.getLsbD_xor, BitVec.getLsbD_twoPow]
    by_cases h : p = i
    · subst h; simp [hp]
    · have h' : ¬ i = p := fun e => h e.symm
      simp [h, h']
  unfold distance
  rw [e]
  exact toggle _ p m hp

theorem flips_distance {m : ℕ} (v : BitVec m) (ps : List ℕ) : ∀ w : BitVec m, (∀ p ∈ ps, p < m) →
    distance v (flips w ps) ≤ distance v w + ps.length ∧ distance v (flips w ps) % 2 = (distance v w + ps.length) % 2 := by
  induction ps with
  | nil => intro w _; simp [flips]
  | cons p ps ih =>
    intro w h
    obtain ⟨h1, h2⟩ := ih (w ^^^ BitVec.twoPow m p) (fun q hq => h q (by simp [hq]))
    show distance v (flips (w ^^^ BitVec.twoPow m p) ps) ≤ _ ∧ distance v (flips (w ^^^ BitVec.twoPow m p) ps) % 2 = _
    rw [List.length_cons]
    rcases distance_flip v w (h p (by simp)) with e | e <;> omega

theorem flips_mem {m : ℕ} {v : BitVec m} {ps : List ℕ} {i : ℕ} (h : Differ v (flips v ps) i) : i ∈ ps := by
  unfold Differ at h
  by_cases hi : i < m
  · rw [flips_bit ps v i hi] at h
    by_contra hn
    rw [List.count_eq_zero_of_not_mem hn] at h
    simp at h
  · exact absurd (by rw [BitVec.getLsbD_of_ge _ _ (by omega), BitVec.getLsbD_of_ge _ _ (by omega)]) h

/-! ### C192: upsets -/

/-- **C192 (no upset).** Without an error rate nothing changes, for values of any size and all patterns; and with one, a draw not below the rate leaves
the value alone for all patterns but the last. -/
theorem C192_no_upset {n : ℕ} (v : BitVec (8 * n)) (rate : ℝ) (t : Upset) (u : ℕ → ℝ) (d : ℕ → ℕ) :
    (rate ≤ 0 → applyErrors v rate t u d = .ok v) ∧ (rate ≤ u 0 → t ≠ .randomMulti → applyErrors v rate t u d = .ok v) := by
  constructor
  · intro h; unfold applyErrors; rw [if_pos h]
  · intro h ht
    unfold applyErrors
    by_cases h0 : rate ≤ 0
    · rw [if_pos h0]
    · rw [if_neg h0]
      cases t <;> simp_all [not_lt.2 h]

/-- **C192 (single).** A hit flips exactly one bit of a value of up to four bytes, the one drawn. -/
theorem C192_single {n : ℕ} (hn : 1 ≤ n ∧ n ≤ 4) (v : BitVec (8 * n)) (rate : ℝ) (u : ℕ → ℝ) (d : ℕ → ℕ) (h0 : 0 < rate) (hu : u 0 < rate) :
    ∃ w, applyErrors v rate .singleBit u d = .ok w ∧ ∀ i, Differ v w i ↔ i = d 0 % (8 * n) := by
  have hp : d 0 % (8 * n) < 8 * n := Nat.mod_lt _ (by omega)
  refine ⟨v ^^^ BitVec.twoPow (8 * n) (d 0 % (8 * n)), ?_, ?_⟩
  · unfold applyErrors
    rw [if_neg (not_le.2 h0)]
    simp only []
    rw [if_pos hu]
    unfold flipWord
    rw [if_neg (by omega)]
  · intro i
    unfold Differ
    rw [BitVec.getLsbD_xor, BitVec.getLsbD_twoPow]
    by_cases h : d 0 % (8 * n) = i
    · subst h; simp [hp]
    · have : ¬ i = d 0 % (8 * n) := fun e => h e.symm
      simp [h, this]

theorem flipRun_spec {n : ℕ} (v : BitVec (8 * n)) (s : ℕ) : ∀ k, s + k ≤ 32 → flipRun v s k = .ok (flips v ((List.range k).map (s + ·))) := by
  intro k
  induction k with
  | zero => intro _; rfl
  | succ k ih =>
    intro h
    show (flipRun v s k).bind _ = _
    rw [ih (by omega)]
    show flipWord _ _ = _
    unfold flipWord
    rw [if_neg (by omega), List.range_succ, List.map_append]
    simp [flips, List.foldl_append]

/-- **C192 (adjacent).** A hit flips exactly two or three adjacent bits, all inside the value. -/
theorem C192_adjacent {n : ℕ} (hn : 1 ≤ n ∧ n ≤ 4) (v : BitVec (8 * n)) (rate : ℝ) (u : ℕ → ℝ) (d : ℕ → ℕ) (h0 : 0 < rate) (hu : u 0 < rate) :
    ∃ w s k, applyErrors v rate .adjacentBits u d = .ok w ∧ (k = 2 ∨ k = 3) ∧ s + k ≤ 8 * n ∧ ∀ i, Differ v w i ↔ s ≤ i ∧ i < s + k := by
  have hs : d 0 % (8 * n - 2) < 8 * n - 2 := Nat.mod_lt _ (by omega)
  generalize hse : d 0 % (8 * n - 2) = s at hs
  have hk : 2 + d 1 % 2 = 2 ∨ 2 + d 1 % 2 = 3 := by omega
  generalize hke : 2 + d 1 % 2 = k at hk
  refine ⟨flips v ((List.range k).map (s + ·)), s, k, ?_, hk, by omega, ?_⟩
  · unfold applyErrors
    rw [if_neg (not_le.2 h0)]
    simp only []
    rw [if_pos hu, hse, hke, flipRun_spec v s k (by omega)]
  · intro i
    constructor
    · intro h
      obtain ⟨j, hj, rfl⟩ := List.mem_map.1 (flips_mem h)
      have := List.mem_range.1 hj
      omega
    · rintro ⟨h1, h2⟩
      unfold Differ
      rw [flips_bit _ _ _ (by omega)]
      have hc : ((List.range k).map (s + ·)).count i = 1 := by
        apply List.count_eq_one_of_mem
        · exact (List.nodup_range).map (fun a b h => by simpa using h)
        · exact List.mem_map.2 ⟨i - s, List.mem_range.2 (by omega), by omega⟩
      rw [hc]; simp

/-- **C192 (adjacent, limit).** The two highest bits (in a float the sign and the top of the exponent) are never the ones flipped as a pair. -/
theorem C192_top_pair_limit {n : ℕ} (hn : 1 ≤ n ∧ n ≤ 4) (v w : BitVec (8 * n)) (rate : ℝ) (u : ℕ → ℝ) (d : ℕ → ℕ) (h0 : 0 < rate) (hu : u 0 < rate)
    (h : applyErrors v rate .adjacentBits u d = .ok w) : ¬ ∀ i, Differ v w i ↔ 8 * n - 2 ≤ i ∧ i < 8 * n := by
  intro hd
  have hs : d 0 % (8 * n - 2) < 8 * n - 2 := Nat.mod_lt _ (by omega)
  unfold applyErrors at h
  rw [if_neg (not_le.2 h0)] at h
  simp only [] at h
  rw [if_pos hu, flipRun_spec v _ _ (by omega)] at h
  cases h
  have : Differ v (flips v ((List.range (2 + d 1 % 2)).map (d 0 % (8 * n - 2) + ·))) (d 0 % (8 * n - 2)) := by
    unfold Differ
    rw [flips_bit _ _ _ (by omega)]
    have hc : ((List.range (2 + d 1 % 2)).map (d 0 % (8 * n - 2) + ·)).count (d 0 % (8 * n - 2)) = 1 := by
      apply List.count_eq_one_of_mem
      · exact (List.nodup_range).map (fun a b h => by simpa using h)
      · exact List.mem_map.2 ⟨0, List.mem_range.2 (by omega), by omega⟩
    rw [hc]; simp
  have := (hd _).1 this
  omega

theorem toUnsigned_ok {x : ℝ} (h0 : 0 ≤ x) (h1 : x < 2 ^ 32) : toUnsigned x = .ok ⌊x⌋₊ := by
  unfold toUnsigned
  rw [if_neg]
  rintro (h | h) <;> linarith

theorem floor_small {x : ℝ} (h0 : 0 ≤ x) (h1 : x ≤ 8) : (1 + ⌊x⌋₊) % 2 ^ 32 = 1 + ⌊x⌋₊ := by
  apply Nat.mod_eq_of_lt
  have : ⌊x⌋₊ ≤ 8 := Nat.floor_le_of_le (by exact_mod_cast h1)
  omega

/-- **C192 (row).** A hit at a rate of at most 1 touches a single byte, with `1 + floor(4 rate)` flips: it changes at most so many bits, and an odd number of
them if that is odd. -/
theorem C192_row {n : ℕ} (hn : 1 ≤ n) (v : BitVec (8 * n)) (rate : ℝ) (u : ℕ → ℝ) (d : ℕ → ℕ) (h0 : 0 < rate) (h1 : rate ≤ 1) (hu : u 0 < rate) :
    ∃ w b, applyErrors v rate .rowUpset u d = .ok w ∧ b < n ∧ (∀ i, Differ v w i → i / 8 = b) ∧
      distance v w ≤ 1 + ⌊4 * rate⌋₊ ∧ distance v w % 2 = (1 + ⌊4 * rate⌋₊) % 2 := by
  have hb : d 0 % n < n := Nat.mod_lt _ (by omega)
  have e4 : rate * 4 = 4 * rate := by ring
  have hall : ∀ p ∈ (List.range (1 + ⌊4 * rate⌋₊)).map (fun i => 8 * (d 0 % n) + d (i + 1) % 8), p < 8 * n := by
    intro p hp
    obtain ⟨i, _, rfl⟩ := List.mem_map.1 hp
    have := Nat.mod_lt (d (i + 1)) (by norm_num : 0 < 8)
    omega
  have hd := flips_distance v _ v hall
  rw [distance_self, List.length_map, List.length_range] at hd
  refine ⟨_, d 0 % n, ?_, hb, ?_, by simpa using hd.1, by simpa using hd.2⟩
  · unfold applyErrors
    rw [if_neg (not_le.2 h0)]
    simp only []
    rw [if_pos hu, e4, toUnsigned_ok (by linarith) (by norm_num; linarith)]
    show Outcome.ok (forN _ _ v) = _
    rw [floor_small (by linarith) (by linarith)]
    unfold flipByte
    rw [forN_flips (fun i => 8 * (d 0 % n) + d (i + 1) % 8)]
  · intro i hi
    obtain ⟨j, _, rfl⟩ := List.mem_map.1 (flips_mem hi)
    have := Nat.mod_lt (d (j + 1)) (by norm_num : 0 < 8)
    omega

/-- **C192 (column).** A hit at a rate of at most 1 touches the same bit position of the bytes, with `1 + floor(rate (n - 1))` flips. -/
theorem C192_column {n : ℕ} (hn : 1 ≤ n ∧ n ≤ 8) (v : BitVec (8 * n)) (rate : ℝ) (u : ℕ → ℝ) (d : ℕ → ℕ) (h0 : 0 < rate) (h1 : rate ≤ 1) (hu : u 0 < rate) :
    ∃ w b, applyErrors v rate .columnUpset u d = .ok w ∧ b < 8 ∧ (∀ i, Differ v w i → i % 8 = b) ∧
      distance v w ≤ 1 + ⌊rate * ((n : ℝ) - 1)⌋₊ ∧ distance v w % 2 = (1 + ⌊rate * ((n : ℝ) - 1)⌋₊) % 2 := by
  have hb : d 0 % 8 < 8 := Nat.mod_lt _ (by norm_num)
  have hn1 : (1:ℝ) ≤ n := by exact_mod_cast hn.1
  have hn8 : (n:ℝ) ≤ 8 := by exact_mod_cast hn.2
  have hx0 : 0 ≤ rate * ((n : ℝ) - 1) := by apply mul_nonneg <;> linarith
  have hx8 : rate * ((n : ℝ) - 1) ≤ 8 := by nlinarith
  generalize hk : ⌊rate * ((n : ℝ) - 1)⌋₊ = k
  have hall : ∀ p ∈ (List.range (1 + k)).map (fun i => 8 * (d (i + 1) % n) + d 0 % 8), p < 8 * n := by
    intro p hp
    obtain ⟨i, _, rfl⟩ := List.mem_map.1 hp
    have := Nat.mod_lt (d (i + 1)) (by omega : 0 < n)
    omega
  have hd := flips_distance v _ v hall
  rw [distance_self, List.length_map, List.length_range] at hd
  refine ⟨_, d 0 % 8, ?_, hb, ?_, by simpa using hd.1, by simpa using hd.2⟩
  · unfold applyErrors
    rw [if_neg (not_le.2 h0)]
    simp only []
    rw [if_pos hu, toUnsigned_ok hx0 (by norm_num; linarith)]
    show Outcome.ok (forN _ _ v) = _
    rw [floor_small hx0 hx8, hk]
    unfold flipByte
    rw [forN_flips (fun i => 8 * (d (i + 1) % n) + d 0 % 8)]
  · intro i hi
    obtain ⟨j, _, rfl⟩ := List.mem_map.1 (flips_mem hi)
    omega

theorem randomLoop_spec {n : ℕ} (hn : 1 ≤ n) (rate : ℝ) (u : ℕ → ℝ) (d : ℕ → ℕ) (v : BitVec (8 * n)) : ∀ k,
    ∃ ps : List ℕ, (randomLoop rate u d k v).1 = flips v ps ∧ ps.length = (randomLoop rate u d k v).2 ∧ ps.length ≤ k ∧ (∀ p ∈ ps, p < 8 * n) ∧
      ps.length = ((List.range k).filter (fun i => open Classical in decide (u i < rate))).length := by
  intro k
  induction k with
  | zero => exact ⟨[], rfl, rfl, by simp, by simp, by simp⟩
  | succ k ih =>
    obtain ⟨ps, h1, h2, h3, h4, h5⟩ := ih
    have hstep : randomLoop rate u d (k + 1) v = open Classical in (if u k < rate then
        (flipByte (randomLoop rate u d k v).1 (d (randomLoop rate u d k v).2 % (8 * n) / 8) (d (randomLoop rate u d k v).2 % (8 * n) % 8),
          (randomLoop rate u d k v).2 + 1) else randomLoop rate u d k v) := rfl
    rw [hstep, List.range_succ, List.filter_append, List.length_append]
    by_cases hu : u k < rate
    · rw [if_pos hu]
      refine ⟨ps ++ [d (randomLoop rate u d k v).2 % (8 * n)], ?_, ?_, ?_, ?_, ?_⟩
      · show flipByte _ _ _ = _
        unfold flipByte
        rw [h1, Nat.div_add_mod]
        simp [flips, List.foldl_append]
      · simp [h2]
      · simp; omega
      · intro p hp
        rcases List.mem_append.1 hp with hp | hp
        · exact h4 p hp
        · rw [List.mem_singleton.1 hp]; exact Nat.mod_lt _ (by omega)
      · simp [hu, h5]
    · rw [if_neg hu]
      exact ⟨ps, h1, h2, by omega, h4, by simp [hu, h5]⟩

/-- **C192 (random).** At a rate of at most 1 at most `floor(8 rate)` bits change, and no more than there are draws below the rate among the first
`floor(8 rate)`. -/
theorem C192_random {n : ℕ} (hn : 1 ≤ n) (v : BitVec (8 * n)) (rate : ℝ) (u : ℕ → ℝ) (d : ℕ → ℕ) (h0 : 0 < rate) (h1 : rate ≤ 1) :
    ∃ w, applyErrors v rate .randomMulti u d = .ok w ∧ distance v w ≤ ⌊8 * rate⌋₊ ∧
      distance v w ≤ ((List.range ⌊8 * rate⌋₊).filter (fun i => open Classical in decide (u i < rate))).length ∧
      distance v w % 2 = ((List.range ⌊8 * rate⌋₊).filter (fun i => open Classical in decide (u i < rate))).length % 2 := by
  have e8 : rate * 8 = 8 * rate := by ring
  obtain ⟨ps, p1, p2, p3, p4, p5⟩ := randomLoop_spec hn rate u d v ⌊8 * rate⌋₊
  have hd := flips_distance v ps v p4
  rw [distance_self, ← p1] at hd
  refine ⟨(randomLoop rate u d ⌊8 * rate⌋₊ v).1, ?_, ?_, ?_, ?_⟩
  · unfold applyErrors
    rw [if_neg (not_le.2 h0)]
    simp only []
    rw [e8, toUnsigned_ok (by linarith) (by norm_num; linarith)]
    rfl
  · omega
  · omega
  · omega

/-- **C192 (random, violated).** At rates below 1/8 a random multi-bit upset never changes anything. -/
theorem C192_random_rare_violated {n : ℕ} (v : BitVec (8 * n)) (rate : ℝ) (u : ℕ → ℝ) (d : ℕ → ℕ) (h0 : 0 < rate) (h1 : rate < 1 / 8) :
    applyErrors v rate .randomMulti u d = .ok v := by
  have e : ⌊rate * 8⌋₊ = 0 := Nat.floor_eq_zero.2 (by linarith)
  unfold applyErrors
  rw [if_neg (not_le.2 h0)]
  simp only []
  rw [toUnsigned_ok (by linarith) (by norm_num; linarith), e]
  rfl

/-- **C192 (cancelling, violated).** A row or column upset of a four-byte value may hit and change nothing: at rates from 1/3 to below 1/2 it flips two bits, which may
be the same. -/
theorem C192_cancel_violated (v : BitVec (8 * 4)) (rate : ℝ) (h0 : 1 / 3 ≤ rate) (h1 : rate < 1 / 2) :
    applyErrors v rate .rowUpset (fun _ => 0) (fun _ => 0) = .ok v ∧ applyErrors v rate .columnUpset (fun _ => 0) (fun _ => 0) = .ok v := by
  have e1 : ⌊rate * 4⌋₊ = 1 := by rw [Nat.floor_eq_iff (by linarith)]; constructor <;> push_cast <;> linarith
  have e2 : ⌊rate * (((4 : ℕ) : ℝ) - 1)⌋₊ = 1 := by
    rw [Nat.floor_eq_iff (by push_cast; nlinarith)]; constructor <;> push_cast <;> linarith
  have two : flips v [0, 0] = v := by
    show v ^^^ _ ^^^ _ = v
    rw [BitVec.xor_assoc, BitVec.xor_self, BitVec.xor_zero]
  constructor
  · unfold applyErrors
    rw [if_neg (by linarith)]
    simp only []
    rw [if_pos (by linarith), toUnsigned_ok (by linarith) (by norm_num; linarith), e1]
    exact congrArg Outcome.ok two
  · unfold applyErrors
    rw [if_neg (by linarith)]
    simp only []
    rw [if_pos (by linarith), toUnsigned_ok (by push_cast; nlinarith) (by push_cast; norm_num; linarith), e2]
    exact congrArg Outcome.ok two

/-- **C192 (doubles, violated).** For eight-byte values a single upset is undefined whenever the drawn bit lies in the upper half: the mask is a 32-bit number. -/
theorem C192_double_violated (v : BitVec (8 * 8)) (rate : ℝ) (u : ℕ → ℝ) (d : ℕ → ℕ) (h0 : 0 < rate) (hu : u 0 < rate) :
    applyErrors v rate .singleBit u d = .ub ↔ 32 ≤ d 0 % 64 := by
  unfold applyErrors
  rw [if_neg (not_le.2 h0)]
  simp only []
  rw [if_pos hu]
  unfold flipWord
  by_cases h : 32 ≤ d 0 % 64
  · simp [h]
  · simp [h]

example (v : BitVec (8 * 4)) : ∃ w, applyErrors v (1 / 2) .singleBit (fun _ => 0) (fun _ => 31) = .ok w ∧ ∀ i, Differ v w i ↔ i = 31 :=
  C192_single ⟨by norm_num, by norm_num⟩ v (1 / 2) _ _ (by norm_num) (by norm_num)

/-! ### C193: the TMR weight -/

theorem core_get_masks {α : Type} (eq : α → α → Bool) (v : α) (hv : eq v v = true) (k : Fin 3) (x : α) :
    SameValue eq (CoreTmr.get eq (CoreTmr.corrupt (CoreTmr.set v) k x)) v := by
  unfold SameValue
  match k with
  | 0 =>
    by_cases h : eq x v = true
    · right; simp [CoreTmr.corrupt, CoreTmr.set, CoreTmr.get, h]
    · left; simp [CoreTmr.corrupt, CoreTmr.set, CoreTmr.get, h, hv]
  | 1 => left; simp [CoreTmr.corrupt, CoreTmr.set, CoreTmr.get, hv]
  | 2 => left; simp [CoreTmr.corrupt, CoreTmr.set, CoreTmr.get, hv]

theorem mk_again (junk : ℕ → BitVec 8) (v : Word) : Obj.mk' (Obj.mk' junk v .hamming).ecc v .hamming = Obj.mk' junk v .hamming := by
  simp only [Obj.mk', Obj.updateECC]
  congr 1
  funext k
  by_cases h7 : k < 7
  · simp [h7]
  · by_cases h8 : k < 8 <;> simp [h7, h8]

/-- **C193.** After `setValue(v)` on any weight (or construction with `v`), any damage to one of the three copies and any damage to the inherited
object, `getValue` returns `v`. -/
theorem C193_masked (eq : Word → Word → Bool) (v : Word) (hv : eq v v = true) (w : Weight) (k : Fin 3) (x : Word) (b : Obj) (junk : ℕ → BitVec 8) :
    SameValue eq (Weight.getValue eq ⟨b, CoreTmr.corrupt (w.setValue v).tmr k x⟩) v ∧
    SameValue eq (Weight.getValue eq ⟨b, CoreTmr.corrupt (Weight.new junk v).tmr k x⟩) v :=
  ⟨core_get_masks eq v hv k x, core_get_masks eq v hv k x⟩

/-- **C193 (conversion).** The conversion to the value type does not read the three copies but the inherited object: after construction with `v` it returns `v`
whatever happens to the copies, also if a single bit of the inherited value flips. -/
theorem C193_conversion (junk : ℕ → BitVec 8) (v : Word) (t : CoreTmr.State Word) (i : Fin 32) :
    Weight.convert ⟨(Weight.new junk v).base, t⟩ = v ∧ Weight.convert ⟨Multibit.upset junk .hamming v (Multibit.bit i), t⟩ = v := by
  refine ⟨?_, (Multibit.C26_hamming_single_bit junk v i).2.2⟩
  have h := (Multibit.C64_write_read (Weight.new junk v).base v).2.2.2
  have e : (Weight.new junk v).base.setValue v = (Weight.new junk v).base := by
    rw [Multibit.setValue_eq]
    exact mk_again junk v
  rw [e] at h
  show (Weight.new junk v).base.getValue.1 = v
  rw [h]

/-- **C193 (conversion, violated).** Two flipped bits of the inherited value give a wrong value by conversion, although all three copies are intact and `getValue`
is right. -/
theorem C193_conversion_violated (eq : Word → Word → Bool) (junk : ℕ → BitVec 8) (v : Word) (hv : eq v v = true) (i k : Fin 32) (h : i ≠ k) :
    let w : Weight := ⟨Multibit.upset junk .hamming v (Multibit.bit i ^^^ Multibit.bit k), CoreTmr.set v⟩
    w.convert ≠ v ∧ w.getValue eq = v := by
  refine ⟨Multibit.C27_double_never_restored junk .hamming (.inl rfl) v i k h, ?_⟩
  simp [Weight.getValue, CoreTmr.get, CoreTmr.set, hv]

/-- **C193 (default construction, violated).** A weight constructed without a value and then set has no code in its inherited object: by conversion any
overwritten value is returned as it is. -/
theorem C193_default_violated (junk : ℕ → BitVec 8) (v y : Word) :
    let w := (Weight.default junk).setValue v
    Weight.convert { w with base := { w.base with value := y } } = y := by
  simp [Weight.convert, Weight.default, Weight.setValue, Obj.mk', Obj.setValue, Obj.updateECC, Obj.getValue, Obj.hasError]

example : Verif.Spec.f32eq 0x3f800000#32 0x3f800000#32 = true := by decide

/-! ### C194: adaptive weights -/

/-- Calls on an adaptive weight. -/
inductive Op where
  | set (v : Word)
  | threshold (t : ℝ)
  | update (level : ℝ)
  | read

/-- One call. -/
noncomputable def step (eq : Word → Word → Bool) (a : Adaptive) : Op → Adaptive
  | .set v => a.setValue v
  | .threshold t => a.setThreshold t
  | .update l => a.update l
  | .read => (a.getValue eq).2

/-- The value set last. -/
def current (v : Word) : List Op → Word
  | [] => v
  | .set w :: ops => current w ops
  | _ :: ops => current v ops

/-- The state holds `v` everywhere. -/
def Holds (v : Word) (a : Adaptive) : Prop := a.w.tmr = CoreTmr.set v ∧ a.w.base.getValue = (v, a.w.base)

theorem holds_set (a : Adaptive) (v : Word) : Holds v (a.setValue v) := ⟨rfl, (Multibit.C64_write_read a.w.base v).2.2.2⟩

theorem core_get_set (eq : Word → Word → Bool) (v : Word) : CoreTmr.get eq (CoreTmr.set v) = v := by
  unfold CoreTmr.get CoreTmr.set
  simp only []
  split <;> rfl

theorem holds_read {eq : Word → Word → Bool} {v : Word} {a : Adaptive} (h : Holds v a) : a.getValue eq = (v, a) := by
  unfold Adaptive.getValue
  cases he : a.enabled
  · simp only [Bool.false_eq_true, if_false]; rw [h.2]; cases a; cases he; rfl
  · simp only [if_true]; rw [h.1, core_get_set]

theorem holds_run (eq : Word → Word → Bool) (ops : List Op) : ∀ (v : Word) (a : Adaptive), Holds v a → Holds (current v ops) (ops.foldl (step eq) a) := by
  induction ops with
  | nil => intro v a h; exact h
  | cons o ops ih =>
    intro v a h
    cases o with
    | set w => exact ih w _ (holds_set a w)
    | threshold t => exact ih v _ h
    | update l => exact ih v _ h
    | read =>
      apply ih v
      show Holds v (a.getValue eq).2
      rw [holds_read h]; exact h

/-- **C194 (value).** After every history of writes, reads, thresholds and levels, without damage, a read returns the value written last — for every value (also
NaN) and every notion of equality. -/
theorem C194_value (eq : Word → Word → Bool) (junk : ℕ → BitVec 8) (v : Word) (t : ℝ) (ops : List Op) :
    ((ops.foldl (step eq) (Adaptive.new junk v t)).getValue eq).1 = current v ops := by
  have h0 : Holds v (Adaptive.new junk v t) := by
    refine ⟨rfl, ?_⟩
    have h := (Multibit.C64_write_read (Adaptive.new junk v t).w.base v).2.2.2
    have e : (Adaptive.new junk v t).w.base.setValue v = (Adaptive.new junk v t).w.base := by
      rw [Multibit.setValue_eq]
      exact mk_again junk v
    rw [e] at h
    exact h
  rw [holds_read (holds_run eq ops v _ h0)]

/-- **C194 (switching).** The protection is on after an update exactly if the level reaches the threshold in force; no other call switches it. -/
theorem C194_switching (eq : Word → Word → Bool) (a : Adaptive) :
    (∀ l, (step eq a (.update l)).enabled = true ↔ a.threshold ≤ l) ∧ (∀ v, (step eq a (.set v)).enabled = a.enabled) ∧
    (∀ t, (step eq a (.threshold t)).enabled = a.enabled ∧ (step eq a (.threshold t)).threshold = t) ∧ (step eq a .read).enabled = a.enabled ∧
    (step eq a .read).threshold = a.threshold := by
  refine ⟨fun l => ?_, fun _ => rfl, fun _ => ⟨rfl, rfl⟩, ?_, ?_⟩
  · simp [step, Adaptive.update]
  · show (a.getValue eq).2.enabled = _
    unfold Adaptive.getValue; split <;> rfl
  · show (a.getValue eq).2.threshold = _
    unfold Adaptive.getValue; split <;> rfl

/-- **C194 (on).** While the protection is on, after `setValue(v)` any damage to one copy and to the inherited object is masked. -/
theorem C194_on (eq : Word → Word → Bool) (v : Word) (hv : eq v v = true) (a : Adaptive) (he : a.enabled = true) (k : Fin 3) (x : Word) (b : Obj) :
    SameValue eq (({ (a.setValue v) with w := ⟨b, CoreTmr.corrupt (a.setValue v).w.tmr k x⟩ } : Adaptive).getValue eq).1 v := by
  unfold Adaptive.getValue
  have : (a.setValue v).enabled = true := he
  simp only [this, if_true]
  exact core_get_masks eq v hv k x

/-- **C194 (off).** While it is off, a weight constructed with `v` masks a single flipped bit of its inherited value, whatever happens to the copies. -/
theorem C194_off_partial (eq : Word → Word → Bool) (junk : ℕ → BitVec 8) (v : Word) (t : ℝ) (i : Fin 32) (c : CoreTmr.State Word) :
    (({ Adaptive.new junk v t with w := ⟨Multibit.upset junk .hamming v (Multibit.bit i), c⟩ } : Adaptive).getValue eq).1 = v :=
  (Multibit.C26_hamming_single_bit junk v i).2.2

/-- **C194 (stale, violated).** The copy used without protection is not kept up while the protection is on: two bits of it flip, reads still return `v` — but once the
radiation level falls below the threshold the read is wrong, although all three copies hold `v`. -/
theorem C194_stale_violated (eq : Word → Word → Bool) (junk : ℕ → BitVec 8) (v : Word) (t l : ℝ) (hl : l < t) (i k : Fin 32) (h : i ≠ k) :
    let a : Adaptive := { (Adaptive.new junk v t).update t with w := ⟨Multibit.upset junk .hamming v (Multibit.bit i ^^^ Multibit.bit k), CoreTmr.set v⟩ }
    (a.getValue eq).1 = v ∧ (((a.getValue eq).2.update l).getValue eq).1 ≠ v := by
  intro a
  have ha : a.enabled = true := by simp [a, Adaptive.update, Adaptive.new]
  have hg : a.getValue eq = (v, a) := by
    unfold Adaptive.getValue
    rw [ha]
    simp only [if_true]
    show (CoreTmr.get eq (CoreTmr.set v), a) = (v, a)
    rw [core_get_set]
  have hoff : (a.update l).enabled = false := by
    simp only [a, Adaptive.update, Adaptive.new]
    exact decide_eq_false (not_le.2 hl)
  rw [hg]
  refine ⟨rfl, ?_⟩
  show ((a.update l).getValue eq).1 ≠ v
  unfold Adaptive.getValue
  rw [hoff]
  simp only [Bool.false_eq_true, if_false]
  exact Multibit.C27_double_never_restored junk .hamming (.inl rfl) v i k h

/-- **C194 (new objects, violated).** A new weight is unprotected whatever the threshold, until the first update: with threshold 0 two flipped bits of the inherited value
are returned. -/
theorem C194_initial_violated (eq : Word → Word → Bool) (junk : ℕ → BitVec 8) (v : Word) (t : ℝ) (i k : Fin 32) (h : i ≠ k) :
    (({ Adaptive.new junk v t with w := ⟨Multibit.upset junk .hamming v (Multibit.bit i ^^^ Multibit.bit k), CoreTmr.set v⟩ } : Adaptive).getValue eq).1 ≠ v :=
  Multibit.C27_double_never_restored junk .hamming (.inl rfl) v i k h

/-- **C194 (default construction, violated).** Constructed without a value, an unprotected weight returns any overwritten value as it is. -/
theorem C194_default_violated (eq : Word → Word → Bool) (junk : ℕ → BitVec 8) (v y : Word) :
    let a := (Adaptive.default junk).setValue v
    (({ a with w := { a.w with base := { a.w.base with value := y } } } : Adaptive).getValue eq).1 = y := by
  simp [Adaptive.default, Adaptive.setValue, Adaptive.getValue, Weight.default, Weight.setValue, Obj.mk', Obj.setValue, Obj.updateECC, Obj.getValue,
    Obj.hasError]

example : current 5#32 [.threshold 1, .set 7#32, .update 2, .read] = 7#32 := rfl

/-! ### C195: space-optimised weights -/

/-- **C195.** After `setValue(v)` any damage to one replica (value and checksum) is masked by `getValue`; for types with plain equality `correctErrors` then
succeeds, restores all replicas, and no error is reported afterwards. -/
theorem C195_one_replica (eq : Word → Word → Bool) (fb : Word → Word → Word → Outcome Word) (crc : Word → BitVec 32) (v : Word) (hv : eq v v = true)
    (s : Space) (k : Fin 3) (x : Word) (c : BitVec 32) (b : Obj) :
    (∃ r, Space.getValue eq fb crc ⟨b, ETmr.corrupt k x c (s.setValue crc v).tmr⟩ = .ok r ∧ SameValue eq r v) ∧
    ∃ t, Space.correctErrors (fun a b => decide (a = b)) fb crc ⟨b, ETmr.corrupt k x c (s.setValue crc v).tmr⟩ = .ok (true, t) ∧
      Space.getValue (fun a b => decide (a = b)) fb crc t = .ok v ∧ (∀ i, t.tmr.vals i = v) ∧
      Space.hasError (fun a b => decide (a = b)) crc t = false := by
  constructor
  · obtain ⟨r, h1, h2⟩ := C13_one_replica_masked eq fb crc v hv k s.tmr x c
    refine ⟨r, ?_, h2⟩
    show (STmr.get eq fb crc (ETmr.corrupt k x c (STmr.set crc v s.tmr))).1.bind _ = _
    rw [h1]; rfl
  · obtain ⟨t, h1, h2, h3⟩ := C13_repair fb crc v k s.tmr x c
    have hv3 : ∀ i, ETmr.verifyChecksum crc t i = true := fun i => by simp [ETmr.verifyChecksum, (h2 i).1, (h2 i).2]
    refine ⟨⟨b, t⟩, ?_, ?_, fun i => (h2 i).1, ?_⟩
    · show (STmr.repair _ fb crc (ETmr.corrupt k x c (STmr.set crc v s.tmr))).bind _ = _
      rw [h1]; rfl
    · have hc : ETmr.validCount crc t = 3 := by simp [ETmr.validCount, hv3]
      show (STmr.get _ fb crc t).1.bind _ = _
      unfold STmr.get
      simp only [hc, if_true, STmr.performMajorityVoting, (h2 0).1, (h2 1).1, decide_true]
      rfl
    · unfold Space.hasError
      rw [h3]; rfl

example (fb : Word → Word → Word → Outcome Word) (s : Space) (b : Obj) :
    ∃ r, Space.getValue Verif.Spec.f32eq fb id ⟨b, ETmr.corrupt 2 7#32 7#32 (s.setValue id 0x3f800000#32).tmr⟩ = .ok r ∧
      SameValue Verif.Spec.f32eq r 0x3f800000#32 :=
  (C195_one_replica _ fb id _ (by decide) s 2 7#32 7#32 b).1

/-- **C195 (detection).** An error is reported exactly if a replica does not match its checksum. -/
theorem C195_detects (eq : Word → Word → Bool) (crc : Word → BitVec 32) (s : Space) :
    s.hasError eq crc = true ↔ ∃ i, crc (s.tmr.vals i) ≠ s.tmr.crcs i := by
  unfold Space.hasError STmr.verify
  have e : ∀ i, ETmr.verifyChecksum crc s.tmr i = decide (crc (s.tmr.vals i) = s.tmr.crcs i) := by
    intro i; simp only [ETmr.verifyChecksum, beq_eq_decide]
  simp only [e]
  constructor
  · intro h
    by_contra hn
    push Not at hn
    simp [hn] at h
  · rintro ⟨i, hi⟩
    have : ¬ ((decide (crc (s.tmr.vals 0) = s.tmr.crcs 0) && decide (crc (s.tmr.vals 1) = s.tmr.crcs 1) &&
        decide (crc (s.tmr.vals 2) = s.tmr.crcs 2)) = true) := by
      simp only [Bool.and_eq_true, decide_eq_true_eq, not_and]
      intro h
      match i, hi with
      | 0, hi => exact absurd h.1 hi
      | 1, hi => exact absurd h.2 hi
      | 2, hi => exact hi
    rw [if_neg this]
    split <;> simp

/-- **C195 (failed correction, violated).** A correction that fails hides the error: whenever `correctErrors` returns false, no error is reported any more afterwards and the
replicas have been overwritten with the value that could not be trusted; such states exist. -/
theorem C195_failure_hidden_violated (eq : Word → Word → Bool) (fb : Word → Word → Word → Outcome Word) (crc : Word → BitVec 32) :
    (∀ s s', Space.correctErrors eq fb crc s = .ok (false, s') → s'.hasError eq crc = false) ∧
    ∀ v, eq v v = true → ∃ s s', s.hasError eq crc = true ∧ Space.correctErrors eq fb crc s = .ok (false, s') := by
  constructor
  · intro s s' h
    unfold Space.correctErrors at h
    cases hr : (STmr.get eq fb crc s.tmr).1 with
    | ub => rw [(C13_repair_reports eq fb crc s.tmr).2 hr] at h; cases h
    | ok p =>
      obtain ⟨st, v⟩ := p
      obtain ⟨t, h1, h2⟩ := (C13_repair_reports eq fb crc s.tmr).1 st v hr
      rw [h1] at h
      simp only [Outcome.bind, Outcome.ok.injEq, Prod.mk.injEq] at h
      obtain ⟨_, rfl⟩ := h
      have : ¬ (Space.hasError eq crc { s with tmr := t } = true) := by
        rw [C195_detects]
        rintro ⟨i, hi⟩
        apply hi
        show crc (t.vals i) = t.crcs i
        rw [(h2 i).1, (h2 i).2]
      simpa using this
  · intro v hv
    let t0 : ETmr.State Word := { (STmr.set crc v (ETmr.set crc v ⟨fun _ => v, fun _ => 0, {}⟩)) with crcs := fun _ => crc v + 1 }
    have hne : crc v ≠ crc v + 1 := by
      intro e
      have h2 := congrArg BitVec.toNat e
      rw [BitVec.toNat_add, show (1 : BitVec 32).toNat = 1 from rfl] at h2
      have h1 := (crc v).isLt
      omega
    have hvals : ∀ i, t0.vals i = v := fun i => rfl
    have hcrcs : ∀ i, t0.crcs i = crc v + 1 := fun i => rfl
    have hbad : ∀ i, ETmr.verifyChecksum crc t0 i = false := by
      intro i
      simp only [ETmr.verifyChecksum, beq_eq_decide, hvals, hcrcs]
      exact decide_eq_false hne
    have hc : ETmr.validCount crc t0 = 0 := by simp [ETmr.validCount, hbad]
    have hg : (STmr.get eq fb crc t0).1 = .ok (.redundancyFailure, v) := by
      unfold STmr.get
      simp [hc, STmr.performMajorityVoting, hvals, hv]
    obtain ⟨t, h1, _⟩ := (C13_repair_reports eq fb crc t0).1 _ _ hg
    refine ⟨⟨Obj.mk' (fun _ => 0) v .hamming, t0⟩, ⟨Obj.mk' (fun _ => 0) v .hamming, t⟩, ?_, ?_⟩
    · rw [C195_detects]
      exact ⟨0, by rw [hvals, hcrcs]; exact hne⟩
    · unfold Space.correctErrors
      show (STmr.repair eq fb crc t0).bind _ = _
      rw [h1]; rfl

/-! ### C196: stuck-bit TMR of floats -/

/-- Every copy equals `v`. -/
def Sound {α : Type} (eq : α → α → Bool) (v : α) (s : FloatTmr α) : Prop := ∀ i, eq (s.copy i) v = true

/-- Health scores in their range. -/
def Ranged {α : Type} (s : FloatTmr α) : Prop := ∀ i, 1 / 10 ≤ s.health i ∧ s.health i ≤ 1

theorem get_sound {α : Type} {eq : α → α → Bool} (hs : ∀ a b, eq a b = true → eq b a = true) (ht : ∀ a b c, eq a b = true → eq b c = true → eq a c = true)
    {v : α} {s : FloatTmr α} (h : Sound eq v s) (k : ℕ) (x : α) : eq ((s.corrupt k x).get eq) v = true := by
  have hc : ∀ j : Fin 3, (s.corrupt k x).copy j = if j.val = k then x else s.copy j := fun _ => rfl
  have hp : ∀ i j : Fin 3, eq (s.copy i) (s.copy j) = true := fun i j => ht _ _ _ (h i) (hs _ _ (h j))
  unfold FloatTmr.get
  rw [hc 0, hc 1, hc 2]
  by_cases h0 : k = 0
  · subst h0
    simp only [Fin.val_zero, Fin.val_one, Fin.val_two, if_true, one_ne_zero, OfNat.ofNat_ne_zero, if_false]
    by_cases hx : (eq x (s.copy 1) || eq x (s.copy 2)) = true
    · rw [if_pos hx]
      rcases Bool.or_eq_true _ _ ▸ hx with e | e
      exacts [ht _ _ _ e (h 1), ht _ _ _ e (h 2)]
    · rw [if_neg hx, if_pos (hp 1 2)]; exact h 1
  · by_cases h1 : k = 1
    · subst h1
      have : (eq (s.copy 0) x || eq (s.copy 0) (s.copy 2)) = true := by rw [hp 0 2]; simp
      simp only [Fin.val_zero, Fin.val_one, Fin.val_two, zero_ne_one, if_true, if_false, OfNat.ofNat_ne_one, this]
      exact h 0
    · have : eq (s.copy 0) (s.copy 1) = true := hp 0 1
      have e0 : ¬ (0 : Fin 3).val = k := fun e => h0 e.symm
      have e1 : ¬ (1 : Fin 3).val = k := fun e => h1 e.symm
      rw [if_neg e0, if_neg e1, this]
      simp only [Bool.true_or, if_true]
      exact h 0

theorem repair_sound {α : Type} {eq : α → α → Bool} (hs : ∀ a b, eq a b = true → eq b a = true) (ht : ∀ a b c, eq a b = true → eq b c = true → eq a c = true)
    {v : α} {s : FloatTmr α} (h : Sound eq v s) (k : ℕ) (x : α) : Sound eq v ((s.corrupt k x).repair eq) := by
  have hg := get_sound hs ht h k x
  intro i
  show eq (if eq ((s.corrupt k x).copy i) ((s.corrupt k x).get eq) then _ else _) v = true
  split
  · next e => exact ht _ _ _ e hg
  · exact hg

theorem repair_ranged {α : Type} {eq : α → α → Bool} {s : FloatTmr α} (h : Ranged s) : Ranged (s.repair eq) := by
  intro i
  obtain ⟨h1, h2⟩ := h i
  show 1 / 10 ≤ (if eq (s.copy i) (s.get eq) then _ else _) ∧ (if eq (s.copy i) (s.get eq) then _ else _) ≤ (1:ℝ)
  split
  · exact ⟨le_min (by norm_num) (by linarith), min_le_left _ _⟩
  · exact ⟨le_max_left _ _, max_le (by norm_num) (by linarith)⟩

/-- Strikes, each followed by a repair. -/
noncomputable def rounds {α : Type} (eq : α → α → Bool) (s : FloatTmr α) (hits : List (ℕ × α)) : FloatTmr α :=
  hits.foldl (fun s h => (s.corrupt h.1 h.2).repair eq) s

/-- **C196.** For a value equal to itself and every sequence of strikes — any copy (also an index out of range), any value, also always the same copy as with a stuck
bit — each followed by a repair: one more strike is masked, all copies equal the value, and health scores stay between 0.1 and 1. -/
theorem C196_rounds {α : Type} (eq : α → α → Bool) (hs : ∀ a b, eq a b = true → eq b a = true)
    (ht : ∀ a b c, eq a b = true → eq b c = true → eq a c = true) (v : α) (hv : eq v v = true) (hits : List (ℕ × α)) (k : ℕ) (x : α) :
    eq (((rounds eq (FloatTmr.set v) hits).corrupt k x).get eq) v = true ∧ (∀ i, eq ((rounds eq (FloatTmr.set v) hits).copy i) v = true) ∧
    ∀ i, 1 / 10 ≤ (rounds eq (FloatTmr.set v) hits).health i ∧ (rounds eq (FloatTmr.set v) hits).health i ≤ 1 := by
  have key : ∀ (hits : List (ℕ × α)) (s : FloatTmr α), Sound eq v s → Ranged s → Sound eq v (rounds eq s hits) ∧ Ranged (rounds eq s hits) := by
    intro hits
    induction hits with
    | nil => intro s h1 h2; exact ⟨h1, h2⟩
    | cons h t ih =>
      intro s h1 h2
      exact ih _ (repair_sound hs ht h1 h.1 h.2) (repair_ranged (s := s.corrupt h.1 h.2) h2)
  obtain ⟨h1, h2⟩ := key hits (FloatTmr.set v) (fun _ => hv) (fun _ => by show (1:ℝ) / 10 ≤ 1 ∧ (1:ℝ) ≤ 1; norm_num)
  exact ⟨get_sound hs ht h1 k x, h1, h2⟩

/-- IEEE equality of floats meets the hypotheses for every number. -/
theorem f32eq_laws : (∀ a b, Verif.Spec.f32eq a b = true → Verif.Spec.f32eq b a = true) ∧
    (∀ a b c, Verif.Spec.f32eq a b = true → Verif.Spec.f32eq b c = true → Verif.Spec.f32eq a c = true) ∧
    (∀ a, Verif.Spec.f32isNaN a = false → Verif.Spec.f32eq a a = true) := by
  unfold Verif.Spec.f32eq
  refine ⟨?_, ?_, ?_⟩
  · intro a b h
    simp only [Bool.and_eq_true, Bool.or_eq_true, Bool.not_eq_true', beq_iff_eq] at h ⊢
    exact ⟨⟨h.1.2, h.1.1⟩, h.2.elim (fun e => .inl e.symm) (fun e => .inr ⟨e.2, e.1⟩)⟩
  · intro a b c h1 h2
    simp only [Bool.and_eq_true, Bool.or_eq_true, Bool.not_eq_true', beq_iff_eq] at h1 h2 ⊢
    refine ⟨⟨h1.1.1, h2.1.2⟩, ?_⟩
    rcases h1.2 with e | e
    · subst e; exact h2.2
    · rcases h2.2 with e' | e'
      · subst e'; exact .inr e
      · exact .inr ⟨e.1, e'.2⟩
  · intro a h
    simp [h]

example (hits : List (ℕ × BitVec 32)) :
    Verif.Spec.f32eq (((rounds Verif.Spec.f32eq (FloatTmr.set 0x3f800000#32) hits).corrupt 1 0x7fc00000#32).get Verif.Spec.f32eq) 0x3f800000#32 = true :=
  (C196_rounds _ f32eq_laws.1 f32eq_laws.2.1 _ (by decide) hits 1 _).1

/-- **C196 (no majority).** If no two copies are equal the copy with the highest health score is returned, the first of several. -/
theorem C196_no_majority {α : Type} (eq : α → α → Bool) (s : FloatTmr α) (h01 : eq (s.copy 0) (s.copy 1) = false)
    (h02 : eq (s.copy 0) (s.copy 2) = false) (h12 : eq (s.copy 1) (s.copy 2) = false) :
    ∃ b : Fin 3, s.get eq = s.copy b ∧ (∀ i, s.health i ≤ s.health b) ∧ ∀ i, i < b → s.health i < s.health b := by
  refine ⟨best s.health, by simp [FloatTmr.get, h01, h02, h12], ?_, ?_⟩
  · intro i
    unfold best
    by_cases a : s.health 0 < s.health 1
    · simp only [if_pos a]
      by_cases c : s.health 1 < s.health 2
      · rw [if_pos c]; fin_cases i <;> simp <;> linarith
      · rw [if_neg c]; fin_cases i <;> simp <;> linarith
    · simp only [if_neg a]
      by_cases c : s.health 0 < s.health 2
      · rw [if_pos c]; fin_cases i <;> simp <;> linarith
      · rw [if_neg c]; fin_cases i <;> simp <;> linarith
  · intro i
    unfold best
    by_cases a : s.health 0 < s.health 1
    · simp only [if_pos a]
      by_cases c : s.health 1 < s.health 2
      · rw [if_pos c]; fin_cases i <;> simp <;> linarith
      · rw [if_neg c]; fin_cases i <;> simp <;> linarith
    · simp only [if_neg a]
      by_cases c : s.health 0 < s.health 2
      · rw [if_pos c]; fin_cases i <;> simp <;> linarith
      · rw [if_neg c]; fin_cases i <;> simp

/-- **C196 (NaN, limit).** A value not equal to itself is not protected: a strike on the first copy is returned, and every repair lowers the health of all intact copies. -/
theorem C196_nan_limit {α : Type} (eq : α → α → Bool) (v : α) (hv : eq v v = false) (x : α) (hx : eq x v = false) :
    ((FloatTmr.set v).corrupt 0 x).get eq = x ∧ ∀ i, ((FloatTmr.set v).repair eq).health i = 8 / 10 := by
  constructor
  · simp [FloatTmr.get, FloatTmr.corrupt, FloatTmr.set, hv, hx, best]
  · intro i
    have : (FloatTmr.set v).get eq = v := by
      unfold FloatTmr.get FloatTmr.set
      simp only []
      split
      · rfl
      · split <;> rfl
    show (if eq v ((FloatTmr.set v).get eq) then _ else max (1 / 10) ((1:ℝ) - 2 / 10)) = _
    rw [this, hv]
    norm_num

/-! ### C197: SimpleTMR -/

/-- **C197.** For types with plain equality: `correct` reports true exactly if exactly one copy differs from the two others, and then makes all equal to the value of the
majority; otherwise nothing changes. The value read never changes by correcting, and integrity holds exactly if all are equal. -/
theorem C197_simple {α : Type} [DecidableEq α] (s : CoreTmr.State α) :
    let eq := fun a b : α => decide (a = b)
    ((simpleCorrect eq s).1 = true ↔ (∃ v x, v ≠ x ∧ (s = ⟨x, v, v⟩ ∨ s = ⟨v, x, v⟩ ∨ s = ⟨v, v, x⟩))) ∧
    ((simpleCorrect eq s).1 = true → (simpleCorrect eq s).2 = CoreTmr.set (CoreTmr.get eq s)) ∧
    ((simpleCorrect eq s).1 = false → (simpleCorrect eq s).2 = s) ∧
    CoreTmr.get eq (simpleCorrect eq s).2 = CoreTmr.get eq s ∧
    (simpleIntegrity eq s = true ↔ ∃ v, s = CoreTmr.set v) := by
  obtain ⟨a, b, c⟩ := s
  intro eq
  have E : ∀ x y : α, eq x y = decide (x = y) := fun _ _ => rfl
  unfold simpleCorrect simpleIntegrity CoreTmr.get CoreTmr.set
  simp only [E]
  by_cases h1 : a = b
  · subst h1
    by_cases h3 : a = c
    · subst h3
      refine ⟨?_, by simp, by simp, by simp, by simp⟩
      simp only [decide_true, Bool.not_true, Bool.and_false, Bool.false_eq_true, if_false, false_iff]
      rintro ⟨v, x, hn, h | h | h⟩ <;> (injection h with e1 e2 e3; subst e1; first | exact hn e2 | exact hn e2.symm | exact hn e3)
    · refine ⟨?_, by simp [h3], by simp [h3], by simp [h3], ?_⟩
      · simp only [decide_true, Bool.true_and, decide_eq_false h3, Bool.not_false, if_true, true_iff]
        exact ⟨a, c, h3, .inr (.inr rfl)⟩
      · simp only [decide_true, Bool.true_and, decide_eq_false h3, Bool.false_eq_true, false_iff]
        rintro ⟨v, h⟩
        injection h with e1 e2 e3
        exact h3 (e1.trans e3.symm)
  · by_cases h2 : a = c
    · subst h2
      refine ⟨?_, by simp [h1], by simp [h1], by simp [h1], ?_⟩
      · simp only [decide_eq_false h1, Bool.false_and, Bool.false_eq_true, if_false, decide_true, Bool.true_and, Bool.not_false, if_true, true_iff]
        exact ⟨a, b, h1, .inr (.inl rfl)⟩
      · simp only [decide_eq_false h1, Bool.false_and, Bool.false_eq_true, false_iff]
        rintro ⟨v, h⟩
        injection h with e1 e2 e3
        exact h1 (e1.trans e2.symm)
    · by_cases h3 : b = c
      · subst h3
        refine ⟨?_, by simp [h1], by simp [h1], by simp [h1], ?_⟩
        · simp only [decide_eq_false h1, Bool.false_and, Bool.false_eq_true, if_false, decide_true, Bool.true_and, Bool.not_false, if_true, true_iff]
          exact ⟨b, a, fun e => h1 e.symm, .inl rfl⟩
        · simp only [decide_eq_false h1, Bool.false_and, Bool.false_eq_true, false_iff]
          rintro ⟨v, h⟩
          injection h with e1 e2 e3
          exact h1 (e1.trans e2.symm)
      · refine ⟨?_, by simp [h1, h2, h3], by simp [h1, h2, h3], by simp [h1, h2, h3], ?_⟩
        · simp only [decide_eq_false h1, decide_eq_false h2, decide_eq_false h3, Bool.false_and, Bool.false_eq_true, if_false, false_iff]
          rintro ⟨v, x, hn, h | h | h⟩ <;> injection h with e1 e2 e3
          · exact h3 (e2.trans e3.symm)
          · exact h2 (e1.trans e3.symm)
          · exact h1 (e1.trans e2.symm)
        · simp only [decide_eq_false h1, Bool.false_and, Bool.false_eq_true, false_iff]
          rintro ⟨v, h⟩
          injection h with e1 e2 e3
          exact h1 (e1.trans e2.symm)

/-- **C197 (one strike).** After setting `v` a strike on one copy leaves the value read `v`, and correcting restores all copies. -/
theorem C197_masked {α : Type} [DecidableEq α] (v x : α) (k : Fin 3) :
    let eq := fun a b : α => decide (a = b)
    CoreTmr.get eq (CoreTmr.corrupt (CoreTmr.set v) k x) = v ∧ (simpleCorrect eq (CoreTmr.corrupt (CoreTmr.set v) k x)).2 = CoreTmr.set v ∧
    ((simpleCorrect eq (CoreTmr.corrupt (CoreTmr.set v) k x)).1 = true ↔ x ≠ v) := by
  intro eq
  by_cases h : x = v
  · subst h
    have hc : CoreTmr.corrupt (CoreTmr.set x) k x = CoreTmr.set x := by match k with | 0 => rfl | 1 => rfl | 2 => rfl
    rw [hc]
    refine ⟨?_, ?_, ?_⟩ <;> simp [CoreTmr.get, simpleCorrect, CoreTmr.set, eq]
  · have h' : ¬ v = x := fun e => h e.symm
    match k with
    | 0 => refine ⟨?_, ?_, ?_⟩ <;> simp [CoreTmr.get, simpleCorrect, CoreTmr.corrupt, CoreTmr.set, eq, h]
    | 1 => refine ⟨?_, ?_, ?_⟩ <;> simp [CoreTmr.get, simpleCorrect, CoreTmr.corrupt, CoreTmr.set, eq, h, h']
    | 2 => refine ⟨?_, ?_, ?_⟩ <;> simp [CoreTmr.get, simpleCorrect, CoreTmr.corrupt, CoreTmr.set, eq, h, h']

/-- **C197 (NaN, limit).** A stored value not equal to itself never passes the integrity check and is never corrected, even when intact. -/
theorem C197_nan_limit {α : Type} (eq : α → α → Bool) (v : α) (hv : eq v v = false) :
    simpleIntegrity eq (CoreTmr.set v) = false ∧ simpleCorrect eq (CoreTmr.set v) = (false, CoreTmr.set v) := by
  simp [simpleIntegrity, simpleCorrect, CoreTmr.set, hv]

example : (simpleCorrect (fun a b : ℕ => decide (a = b)) ⟨1, 2, 1⟩).1 = true := by decide

end Verif.Props.UpsetTmrP
