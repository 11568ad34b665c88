import Verif.Model.SimpleNN
import Verif.Props.FixedPoint
import Mathlib.Tactic.FinCases
import Mathlib.Data.Fintype.Basic
/-! Properties C392 and C393: examples/simple_nn/main.cpp. -/
namespace Verif.Props.SimpleNN
open Verif Verif.Fixed Verif.SimpleNN

/-! ### C392: the activation and the prediction -/

theorem select (a b : Int) (ha : inRange 32 a) (hb : inRange 32 b) : maxBranchless a b = ofInt 32 24 (max a b) := by
  have t : ∀ x : Int, inRange 32 x → (BitVec.ofInt 32 x).toInt = x := by
    intro x hx
    obtain ⟨h1, h2⟩ := hx
    norm_num at h1 h2
    rw [BitVec.toInt_ofInt]
    apply Int.bmod_eq_of_le <;> norm_num <;> omega
  unfold maxBranchless ge
  by_cases h : a ≥ b
  · have e1 : (-(1#32) : BitVec 32) = BitVec.allOnes 32 := by decide
    have e2 : (~~~ BitVec.allOnes 32 : BitVec 32) = 0#32 := by decide
    simp only [h, decide_true, if_true, e1, e2, BitVec.allOnes_and, BitVec.zero_and, BitVec.or_zero, t a ha]
    rw [max_eq_left h]
  · have e1 : (-(0#32) : BitVec 32) = 0#32 := by decide
    have e2 : (~~~ 0#32 : BitVec 32) = BitVec.allOnes 32 := by decide
    simp only [h, decide_false, Bool.false_eq_true, if_false, e1, e2, BitVec.allOnes_and, BitVec.zero_and, BitVec.zero_or, t b hb]
    rw [max_eq_right (by omega)]

/-- **C392 (violated).** `max_branchless` is meant to give the larger value. Its result is the larger raw value times 2^24 if that is between −128 and 127, and undefined (signed overflow) else: apart from 0 it is never the larger value. -/
theorem C392_max_violated (a b : Int) (ha : inRange 32 a) (hb : inRange 32 b) :
    (-128 ≤ max a b ∧ max a b ≤ 127 → maxBranchless a b = .ok (max a b * 2 ^ 24)) ∧
    (¬ (-128 ≤ max a b ∧ max a b ≤ 127) → maxBranchless a b = .ub) ∧
    (maxBranchless a b = .ok (max a b) ↔ max a b = 0) := by
  rw [select a b ha hb]
  have hs : scale 32 24 = 16777216 := by decide
  generalize max a b = m
  have h1 : -128 ≤ m ∧ m ≤ 127 → ofInt 32 24 m = .ok (m * 2 ^ 24) := by
    intro h
    unfold ofInt
    rw [hs]
    rw [Props.Fixed.store_of_inRange 32 (by omega)]
    · norm_num
    · constructor <;> norm_num <;> omega
  have h2 : ¬ (-128 ≤ m ∧ m ≤ 127) → ofInt 32 24 m = .ub := by
    intro h
    unfold ofInt store
    rw [hs, if_neg]
    rintro ⟨a1, a2⟩
    norm_num at a1 a2
    omega
  refine ⟨h1, h2, ?_⟩
  by_cases h : -128 ≤ m ∧ m ≤ 127
  · rw [h1 h, Outcome.ok.injEq]
    norm_num
    omega
  · rw [h2 h]
    constructor
    · intro e; cases e
    · rintro rfl; omega

/-- **C392 (prediction, violated).** Whatever the weights, a prediction is undefined as soon as one hidden sum has a raw value of 128 or more, eight millionths; only non-positive sums pass unchanged, as 0. The prediction of the program itself, for the input 0.5 and 0.8, is undefined. -/
theorem C392_predict_violated (n : Net) (x : Fin 2 → Int) :
    (∀ i s, n.sum x i = .ok s → 128 ≤ s → inRange 32 s → n.predict x = .ub) ∧
    (∀ i s, n.sum x i = .ok s → s ≤ 0 → inRange 32 s → n.hidden x i = .ok 0) ∧
    Net.new.predict input = .ub := by
  have z : inRange 32 0 := by decide
  refine ⟨fun i s hs h hr => ?_, fun i s hs h hr => ?_, by decide +kernel⟩
  · have hh : n.hidden x i = .ub := by
      unfold Net.hidden
      rw [hs]
      exact (C392_max_violated s 0 hr z).2.1 (by omega)
    unfold Net.predict
    fin_cases i
    · change n.hidden x 0 = _ at hh
      rw [hh]; rfl
    · change n.hidden x 1 = _ at hh
      rw [hh]; cases n.hidden x 0 <;> rfl
    · change n.hidden x 2 = _ at hh
      rw [hh]; cases n.hidden x 0 <;> cases n.hidden x 1 <;> rfl
  · unfold Net.hidden
    rw [hs]
    have := (C392_max_violated s 0 hr z).1 (by omega)
    rw [max_eq_right h] at this
    exact this

/-! ### C393: upsets of the weights -/

/-- A weight with at most one copy overwritten. -/
def Struck (v : Int) (w : W) : Prop := w = CoreTmr.set v ∨ ∃ k x, w = CoreTmr.corrupt (CoreTmr.set v) k x

theorem read_struck {v : Int} {w : W} (h : Struck v w) : readW w = v := by
  rcases h with rfl | ⟨k, x, rfl⟩
  · simp [readW, CoreTmr.get, CoreTmr.set, Fixed.eq]
  · fin_cases k <;> simp only [readW, CoreTmr.get, CoreTmr.set, CoreTmr.corrupt, Fixed.eq] <;> by_cases h : x = v <;> simp [h] <;> simp_all

/-- **C393 (upsets).** If in every weight at most one copy is overwritten, whatever the values, each prediction is that of the untouched network, defined or not, and repair gives back exactly the untouched network; so predictions and repairs may alternate with such upsets for ever. -/
theorem C393_upsets (v : Fin 2 → Fin 3 → Int) (u : Fin 3 → Int) (n : Net) (h1 : ∀ i j, Struck (v i j) (n.ih i j)) (h2 : ∀ i, Struck (u i) (n.ho i)) (x : Fin 2 → Int) :
    n.predict x = Net.predict ⟨fun i j => CoreTmr.set (v i j), fun i => CoreTmr.set (u i)⟩ x ∧
    n.repair = ⟨fun i j => CoreTmr.set (v i j), fun i => CoreTmr.set (u i)⟩ := by
  have r1 : ∀ i j, readW (n.ih i j) = readW (CoreTmr.set (v i j)) := fun i j => by rw [read_struck (h1 i j), read_struck (.inl rfl)]
  have r2 : ∀ i, readW (n.ho i) = readW (CoreTmr.set (u i)) := fun i => by rw [read_struck (h2 i), read_struck (.inl rfl)]
  constructor
  · simp only [Net.predict, Net.hidden, Net.sum, r1, r2]
  · unfold Net.repair
    congr 1
    · funext i j
      have := read_struck (h1 i j)
      unfold readW at this
      simp only [CoreTmr.repair, this, CoreTmr.set]
    · funext i
      have := read_struck (h2 i)
      unfold readW at this
      simp only [CoreTmr.repair, this, CoreTmr.set]

/-- **C393 (zero).** For inputs that make every hidden sum non-positive the prediction is defined and 0, whatever the output weights. -/
theorem C393_zero (n : Net) (x : Fin 2 → Int) (s : Fin 3 → Int) (hs : ∀ i, n.sum x i = .ok (s i) ∧ s i ≤ 0 ∧ inRange 32 (s i)) : n.predict x = .ok 0 := by
  have h : ∀ i, n.hidden x i = .ok 0 := fun i => (C392_predict_violated n x).2.1 i (s i) (hs i).1 (hs i).2.1 (hs i).2.2
  have m : ∀ w, mac 0 w (.ok 0) = .ok 0 := by
    intro w
    simp only [mac, Outcome.bind, mul, zero_mul]
    decide
  unfold Net.predict
  rw [h 0, h 1, h 2]
  simp only [Outcome.bind, m]

theorem mac_ok (x w s : Int) (hm : inRange 64 (x * w)) (hp : inRange 32 (x * w / 2 ^ 24)) (hs : inRange 32 (s + x * w / 2 ^ 24)) :
    mac x w (.ok s) = .ok (s + x * w / 2 ^ 24) := by
  have h1 : mul 32 24 x w = .ok (x * w / 2 ^ 24) := by
    unfold mul
    rw [if_pos hm, Props.Fixed.narrow_of_inRange 32 (by omega) _ hp]
  show (mul 32 24 x w).bind (fun p => add 32 s p) = _
  rw [h1]
  exact Props.Fixed.store_of_inRange 32 (by omega) _ hs

/-- **C393 (value).** Inside the range of the type a hidden sum is the sum of the two products of inputs and weights, each rounded down to a multiple of 2^-24. Where all hidden sums have raw values up to 127 the prediction is defined; it is the sum of the positive ones, taken as whole numbers, times the output weights: 2^24 times what it should be. -/
theorem C393_value (n : Net) (x : Fin 2 → Int) :
    (∀ i, let p := x 0 * readW (n.ih 0 i); let q := x 1 * readW (n.ih 1 i)
      inRange 64 p → inRange 64 q → inRange 32 (p / 2 ^ 24) → inRange 32 (q / 2 ^ 24) → inRange 32 (p / 2 ^ 24 + q / 2 ^ 24) →
      n.sum x i = .ok (p / 2 ^ 24 + q / 2 ^ 24)) ∧
    ∀ s : Fin 3 → Int, (∀ i, n.sum x i = .ok (s i) ∧ s i ≤ 127 ∧ inRange 32 (s i)) →
      let r : Fin 3 → Int := fun i => max (s i) 0 * readW (n.ho i)
      (∀ i, inRange 32 (r i)) → inRange 32 (r 0 + r 1) → inRange 32 (r 0 + r 1 + r 2) → n.predict x = .ok (r 0 + r 1 + r 2) := by
  refine ⟨fun i hp hq hp' hq' hs => ?_, fun s hs => ?_⟩
  · unfold Net.sum
    rw [mac_ok _ _ 0 hp hp' (by rwa [zero_add]), mac_ok _ _ _ hq hq' (by rwa [zero_add]), zero_add]
  · intro r hw h01 h012
    have z : inRange 32 0 := by decide
    have hh : ∀ i, n.hidden x i = .ok (max (s i) 0 * 2 ^ 24) := by
      intro i
      unfold Net.hidden
      rw [(hs i).1]
      exact (C392_max_violated (s i) 0 (hs i).2.2 z).1 (by have := (hs i).2.1; omega)
    have step : ∀ i t, inRange 32 (t + r i) → mac (max (s i) 0 * 2 ^ 24) (readW (n.ho i)) (.ok t) = .ok (t + r i) := by
      intro i t ht
      have b := hw i
      have b3 : max (s i) 0 * 2 ^ 24 * readW (n.ho i) = r i * 2 ^ 24 := by simp only [r]; ring
      have e : max (s i) 0 * 2 ^ 24 * readW (n.ho i) / 2 ^ 24 = r i := by
        rw [b3]; exact Int.mul_ediv_cancel _ (by norm_num)
      have c := mac_ok (max (s i) 0 * 2 ^ 24) (readW (n.ho i)) t ?_ ?_ ?_
      · rw [c, e]
      · rw [b3]
        generalize r i = v at b
        obtain ⟨b1, b2⟩ := b
        norm_num at b1 b2
        constructor <;> norm_num <;> omega
      · rw [e]; exact b
      · rwa [e]
    unfold Net.predict
    rw [hh 0, hh 1, hh 2]
    simp only [Outcome.bind]
    rw [step 0 0 (by rw [zero_add]; exact hw 0), zero_add, step 1 _ h01, step 2 _ h012]

/-- Non-vacuity: the network of the program answers 0 to the input −0.5 and −0.8, also with a copy of a weight overwritten. -/
example : Net.new.predict (fun i => - input i) = .ok 0 ∧
    (Net.mk (fun i j => if i = 0 ∧ j = 0 then CoreTmr.corrupt (CoreTmr.set (raw (initial.1 i j))) 1 77 else CoreTmr.set (raw (initial.1 i j))) Net.new.ho).predict (fun i => - input i) = .ok 0 := by
  decide +kernel

end Verif.Props.SimpleNN
