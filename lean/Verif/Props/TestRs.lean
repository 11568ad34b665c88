import Verif.Model.TestRs
import Mathlib.Tactic.Linarith
/-!
Property C272 of the class `ReedSolomonCode` (model `Verif.TestRs`).
-/
namespace Verif.Props.TestRs
open Verif.TestRs

/-! ### Specification -/

/-- The exclusive or of the symbols at odd positions below `n`. -/
def oddXor (w : List Byte) : Nat → Byte
  | 0 => 0#8
  | n + 1 => if n % 2 = 1 then oddXor w n ^^^ w.getD n 0#8 else oddXor w n

/-! ### Lemmas -/

/-- The factor of an odd number. -/
def g (a : Byte) : Byte := gfMultiply a 1#8

theorem mul_eq (a b : Byte) : gfMultiply a b = if b.toNat % 2 = 1 then g a else 0#8 := by
  have hb : (b &&& 1#8 != 0#8) = decide (b.toNat % 2 = 1) := by revert b; decide +kernel
  have h1 : (1#8 &&& 1#8 != 0#8) = true := by decide
  unfold g gfMultiply
  simp only [hb, h1]
  by_cases h : b.toNat % 2 = 1
  · simp only [h, decide_true, if_true]
  · simp only [h, decide_false, if_false, forN, Bool.false_eq_true]

theorem shift_xor (a b : Byte) : shift (a ^^^ b) = shift a ^^^ shift b := by
  revert a b; decide +kernel

theorem g_eq (a : Byte) : g a = 0#8 ^^^ a ^^^ shift a ^^^ shift (shift a) ^^^ shift (shift (shift a)) ^^^ shift (shift (shift (shift a))) ^^^
    shift (shift (shift (shift (shift a)))) ^^^ shift (shift (shift (shift (shift (shift a))))) ^^^ shift (shift (shift (shift (shift (shift (shift a)))))) := by
  have h1 : (1#8 &&& 1#8 != 0#8) = true := by decide
  simp only [g, gfMultiply, forN, h1, if_true]

theorem g_xor (a b : Byte) : g (a ^^^ b) = g a ^^^ g b := by
  simp only [g_eq, shift_xor, BitVec.zero_xor]
  ac_rfl

theorem g_zero_iff (a : Byte) : g a = 0#8 ↔ a = 0#8 := by
  revert a; decide +kernel

theorem mul_zero_right (a : Byte) : gfMultiply a 0#8 = 0#8 := by rw [mul_eq]; rfl

theorem mul_zero_left (b : Byte) : gfMultiply 0#8 b = 0#8 := by
  rw [mul_eq, (g_zero_iff 0#8).2 rfl, ite_self]

theorem xorSum_succ (n : Nat) (f : Nat → Byte) : xorSum (n + 1) f = xorSum n f ^^^ f n := rfl

theorem xorSum_zero {n : Nat} {f : Nat → Byte} (h : ∀ i, i < n → f i = 0#8) : xorSum n f = 0#8 := by
  induction n with
  | zero => rfl
  | succ n ih => rw [xorSum_succ, ih (fun i hi => h i (by omega)), h n (by omega)]; rfl

theorem xorSum_congr {n : Nat} {f k : Nat → Byte} (h : ∀ i, i < n → f i = k i) : xorSum n f = xorSum n k := by
  induction n with
  | zero => rfl
  | succ n ih => rw [xorSum_succ, xorSum_succ, ih (fun i hi => h i (by omega)), h n (by omega)]

theorem ofNat_odd (m : Nat) : (BitVec.ofNat 8 m).toNat % 2 = m % 2 := by
  rw [BitVec.toNat_ofNat]; omega

theorem twice (c : Byte) (m : Nat) : gfMultiply c (gfMultiply 1#8 (BitVec.ofNat 8 m)) = if m % 2 = 1 then g c else 0#8 := by
  rw [mul_eq 1#8, ofNat_odd]
  by_cases h : m % 2 = 1
  · rw [if_pos h, if_pos h, mul_eq]
    have : (g 1#8).toNat % 2 = 1 := by decide
    rw [if_pos this]
  · rw [if_neg h, if_neg h, mul_zero_right]

theorem g_oddXor (w : List Byte) (n : Nat) : xorSum n (fun j => if j % 2 = 1 then g (w.getD j 0#8) else 0#8) = g (oddXor w n) := by
  induction n with
  | zero => exact ((g_zero_iff 0#8).2 rfl).symm
  | succ n ih =>
    rw [xorSum_succ, ih]
    simp only [oddXor]
    by_cases h : n % 2 = 1
    · rw [if_pos h, if_pos h, g_xor]
    · rw [if_neg h, if_neg h, BitVec.xor_zero]

theorem syndrome_eq (w : List Byte) (i : Nat) : syndrome w i = if i % 2 = 1 then g (oddXor w 255) else 0#8 := by
  unfold syndrome
  by_cases h : i % 2 = 1
  · rw [if_pos h, ← g_oddXor]
    refine xorSum_congr (fun j _ => ?_)
    rw [twice]
    have : i * j % 2 = j % 2 := by rw [Nat.mul_mod, h, Nat.one_mul, Nat.mod_mod]
    rw [this]
  · rw [if_neg h]
    refine xorSum_zero (fun j _ => ?_)
    rw [twice, if_neg]
    have : i % 2 = 0 := by omega
    rw [Nat.mul_mod, this, Nat.zero_mul]; omega

theorem bind_ok {α β : Type} (a : α) (f : α → Outcome β) : (Outcome.ok a).bind f = f a := rfl

/-- What holds before iteration `n`. -/
structure Inv (n : Nat) (s : Bm) : Prop where
  lam : ∀ i, 1 ≤ i → s.lam.getD i 0#8 = 0#8
  b : ∀ i, 1 ≤ i → s.b.getD i 0#8 = 0#8
  start : n ≤ 1 → s.L = 0
  low : 2 ≤ n → 2 ≤ s.L
  high : s.L ≤ n
  high' : 3 ≤ n → s.L + 1 ≤ n

theorem addScaled_zero (d : Byte) {lam b : List Byte} (hl : ∀ i, 1 ≤ i → lam.getD i 0#8 = 0#8) (hb : ∀ i, 1 ≤ i → b.getD i 0#8 = 0#8) (i : Nat) (hi : 1 ≤ i) :
    (addScaled d lam b).getD i 0#8 = 0#8 := by
  have h1 := hl i hi
  have h2 := hb i hi
  unfold addScaled
  rw [List.getD_eq_getElem?_getD] at *
  rw [List.getElem?_zipWith]
  cases h3 : lam[i]? with
  | none => rfl
  | some x =>
    cases h4 : b[i]? with
    | none => rfl
    | some y =>
      rw [h3] at h1
      rw [h4] at h2
      simp only [Option.getD_some] at h1 h2
      subst h1; subst h2
      simp only [Option.getD_some, mul_zero_right]
      rfl

theorem init_zero (i : Nat) (hi : 1 ≤ i) : (1#8 :: List.replicate 31 0#8).getD i 0#8 = 0#8 := by
  obtain ⟨j, rfl⟩ : ∃ j, i = j + 1 := ⟨i - 1, by omega⟩
  rw [List.getD_cons_succ, List.getD_eq_getElem?_getD, List.getElem?_replicate]
  split <;> rfl

theorem bm_inv {synd : List Byte} {x : Byte} (hx : x ≠ 0#8) (hs : ∀ n, n < 32 → synd.getD n 0#8 = if n % 2 = 1 then x else 0#8) :
    ∀ n, n ≤ 32 → ∃ s, forN n (fun n (r : Outcome Bm) => r.bind (bmStep synd n)) (Outcome.ok Bm.init) = .ok s ∧ Inv n s
  | 0, _ => ⟨Bm.init, rfl, init_zero, init_zero, fun _ => rfl, fun h => by omega, Nat.le_refl 0, fun h => by omega⟩
  | n + 1, hn => by
    obtain ⟨s, h1, h2⟩ := bm_inv hx hs n (by omega)
    have hd : discrepancy synd s n = .ok (if n % 2 = 1 then x else 0#8) := by
      unfold discrepancy
      have h3 := h2.high
      rw [if_pos ⟨by omega, h3⟩, hs n (by omega), xorSum_zero, BitVec.xor_zero]
      intro i _
      rw [h2.lam (i + 1) (by omega), mul_zero_left]
    have hlow := h2.low
    have hhigh := h2.high
    have hhigh' := h2.high'
    have hstart := h2.start
    have e1 : forN (n + 1) (fun n (r : Outcome Bm) => r.bind (bmStep synd n)) (Outcome.ok Bm.init) = bmStep synd n s := by
      rw [forN, h1]; rfl
    rw [e1]
    unfold bmStep
    rw [hd]
    simp only [Outcome.bind]
    by_cases ho : n % 2 = 1
    · rw [if_pos ho, if_neg (by simpa using hx)]
      by_cases hL : 2 * s.L ≤ n
      · rw [if_pos hL]
        refine ⟨_, rfl, addScaled_zero x h2.lam h2.b, h2.lam, fun h => by omega, fun _ => ?_, ?_, fun h => ?_⟩
        · show 2 ≤ n + 1 - s.L
          rcases Nat.lt_or_ge n 2 with h | h
          · have := hstart (by omega); omega
          · have := hlow h; omega
        · show n + 1 - s.L ≤ n + 1
          omega
        · show n + 1 - s.L + 1 ≤ n + 1
          have := hlow (by omega); omega
      · rw [if_neg hL]
        refine ⟨_, rfl, addScaled_zero x h2.lam h2.b, h2.b, fun h => by omega, fun h => ?_, ?_, fun h => ?_⟩
        · show 2 ≤ s.L
          rcases Nat.lt_or_ge n 2 with h' | h'
          · have := hstart (by omega); omega
          · exact hlow h'
        · show s.L ≤ n + 1
          omega
        · show s.L + 1 ≤ n + 1
          omega
    · rw [if_neg ho, if_pos (by rfl)]
      refine ⟨s, rfl, h2.lam, h2.b, fun h => hstart (by omega), fun h => ?_, by omega, fun h => by omega⟩
      exact hlow (by omega)

theorem fix_loop {s : Bm} (hL : s.L ≤ 31) (hl : ∀ i, 1 ≤ i → s.lam.getD i 0#8 = 0#8) (data : List Byte) (hd : data.length = 223) :
    ∀ n, ∃ r, forN n (fun i (r : Outcome (List Byte)) => r.bind (fixAt s i)) (Outcome.ok data) = .ok r ∧ r.length = 223 ∧
      ∀ j, j < 223 → r.getD j 0#8 = if j < n then data.getD j 0#8 ^^^ 1#8 else data.getD j 0#8
  | 0 => ⟨data, rfl, hd, fun j _ => by rw [if_neg (by omega)]⟩
  | n + 1 => by
    obtain ⟨r, h1, h2, h3⟩ := fix_loop hL hl data hd n
    have he : evalAt s n = .ok 0#8 := by
      unfold evalAt
      rw [if_pos hL, xorSum_zero]
      intro j _
      rcases Nat.eq_zero_or_pos j with h | h
      · rw [h, Nat.mul_zero, twice]; rfl
      · rw [hl j h, mul_zero_left]
    have e1 : forN (n + 1) (fun i (r : Outcome (List Byte)) => r.bind (fixAt s i)) (Outcome.ok data) = fixAt s n r := by
      rw [forN, h1]; rfl
    rw [e1]
    unfold fixAt
    rw [he]
    simp only [Outcome.bind, beq_self_eq_true, if_true]
    refine ⟨_, rfl, ?_, ?_⟩
    · split
      · rw [List.length_set, h2]
      · exact h2
    · intro j hj
      by_cases hn : n < 223
      · rw [if_pos hn]
        by_cases hjn : j = n
        · subst hjn
          rw [List.getD_eq_getElem?_getD, List.getElem?_set_self (by omega), Option.getD_some, h3 j hj, if_neg (by omega), if_pos (by omega)]
        · rw [List.getD_eq_getElem?_getD, List.getElem?_set_ne (by omega), ← List.getD_eq_getElem?_getD, h3 j hj]
          by_cases hjl : j < n
          · rw [if_pos hjl, if_pos (by omega)]
          · rw [if_neg hjl, if_neg (by omega)]
      · rw [if_neg hn, h3 j hj, if_pos (by omega), if_pos (by omega)]

/-! ### C272 -/

/-- **C272.** What decoding does, for every word of 255 symbols or more: it is defined, it reports an error exactly if the symbols at odd positions do not cancel, and then returns the
first 223 symbols with the lowest bit of every one inverted; otherwise it returns them as they are. For a shorter word it is undefined. -/
theorem C272_decode (w : List Byte) :
    (w.length < 255 → decode w = .ub) ∧
    (255 ≤ w.length → decode w = .ok (if oddXor w 255 = 0#8 then (w.take 223, false) else ((w.take 223).map (· ^^^ 1#8), true))) := by
  refine ⟨fun h => if_pos h, fun h => ?_⟩
  unfold decode
  rw [if_neg (by omega)]
  have hs : ∀ n, n < 32 → ((List.range 32).map (syndrome w)).getD n 0#8 = if n % 2 = 1 then g (oddXor w 255) else 0#8 := by
    intro n hn
    rw [List.getD_eq_getElem?_getD, List.getElem?_map, List.getElem?_range hn]
    exact syndrome_eq w n
  by_cases h0 : oddXor w 255 = 0#8
  · rw [if_pos h0]
    have : ((List.range 32).map (syndrome w)).all (· == 0#8) = true := by
      rw [List.all_eq_true]
      intro x hx
      obtain ⟨i, _, rfl⟩ := List.mem_map.1 hx
      rw [syndrome_eq, (g_zero_iff _).2 h0, ite_self]; rfl
    dsimp only
    rw [if_pos this]
  · rw [if_neg h0]
    have hx : g (oddXor w 255) ≠ 0#8 := fun h => h0 ((g_zero_iff _).1 h)
    have : ¬ ((List.range 32).map (syndrome w)).all (· == 0#8) = true := by
      intro h
      rw [List.all_eq_true] at h
      have := h (syndrome w 1) (List.mem_map.2 ⟨1, by simp, rfl⟩)
      rw [syndrome_eq] at this
      exact hx (by simpa using this)
    dsimp only
    rw [if_neg this]
    obtain ⟨s, h1, h2⟩ := bm_inv hx hs 32 (Nat.le_refl _)
    unfold berlekampMassey
    rw [h1]
    have hlen : (w.take 223).length = 223 := by rw [List.length_take]; omega
    obtain ⟨r, h3, h4, h5⟩ := fix_loop (s := s) (by have := h2.high' (by omega); omega) h2.lam (w.take 223) hlen 255
    have e1 : (Outcome.ok s).bind (fun s => (forN 255 (fun i (r : Outcome (List Byte)) => r.bind (fixAt s i)) (Outcome.ok (w.take 223))).bind fun d => Outcome.ok (d, true)) =
        Outcome.ok (r, true) := by
      rw [bind_ok, h3, bind_ok]
    rw [e1]
    have hr : r = (w.take 223).map (· ^^^ 1#8) := by
      refine List.ext_getElem (by rw [h4, List.length_map, hlen]) (fun j hj1 hj2 => ?_)
      have := h5 j (by omega)
      rw [if_pos (by omega)] at this
      rw [List.getElem_map]
      rw [List.getD_eq_getElem?_getD, List.getD_eq_getElem?_getD, List.getElem?_eq_getElem hj1, List.getElem?_eq_getElem (by omega)] at this
      exact this
    rw [hr]

example : oddXor (List.replicate 255 1#8) 255 = 1#8 := by decide +kernel

/-! Encoding. -/

theorem paritySymbol_eq (w : List Byte) (i i' : Nat) (h : i % 2 = i' % 2) (hi : 223 ≤ i) (hi' : 223 ≤ i') (w' : List Byte) (hw : ∀ j, j < 223 → w.getD j 0#8 = w'.getD j 0#8) :
    paritySymbol w i = paritySymbol w' i' := by
  refine xorSum_congr (fun j hj => ?_)
  rw [twice, twice, hw j hj]
  have : (i - j) % 2 = (i' - j) % 2 := by omega
  rw [this]

theorem encode_loop (w : List Byte) (hw : w.length = 255) : ∀ n, n ≤ 32 →
    (forN n (fun k (cw : List Byte) => cw.set (223 + k) (paritySymbol cw (223 + k))) w).length = 255 ∧
    (∀ j, j < 223 → (forN n (fun k (cw : List Byte) => cw.set (223 + k) (paritySymbol cw (223 + k))) w).getD j 0#8 = w.getD j 0#8) ∧
    (∀ k, k < n → (forN n (fun k (cw : List Byte) => cw.set (223 + k) (paritySymbol cw (223 + k))) w).getD (223 + k) 0#8 = paritySymbol w (223 + k))
  | 0, _ => ⟨hw, fun _ _ => rfl, fun k hk => by omega⟩
  | n + 1, hn => by
    obtain ⟨h1, h2, h3⟩ := encode_loop w hw n (by omega)
    simp only [forN]
    generalize forN n (fun k (cw : List Byte) => cw.set (223 + k) (paritySymbol cw (223 + k))) w = cw at *
    refine ⟨by rw [List.length_set, h1], fun j hj => ?_, fun k hk => ?_⟩
    · rw [List.getD_eq_getElem?_getD, List.getElem?_set_ne (by omega), ← List.getD_eq_getElem?_getD, h2 j hj]
    · by_cases hkn : k = n
      · subst hkn
        rw [List.getD_eq_getElem?_getD, List.getElem?_set_self (by omega), Option.getD_some]
        exact paritySymbol_eq cw _ _ rfl (by omega) (by omega) w h2
      · rw [List.getD_eq_getElem?_getD, List.getElem?_set_ne (by omega), ← List.getD_eq_getElem?_getD, h3 k (by omega)]

theorem oddXor_congr {w w' : List Byte} : ∀ n, (∀ j, j < n → j % 2 = 1 → w.getD j 0#8 = w'.getD j 0#8) → oddXor w n = oddXor w' n
  | 0, _ => rfl
  | n + 1, h => by
    simp only [oddXor]
    rw [oddXor_congr n (fun j hj => h j (by omega))]
    by_cases ho : n % 2 = 1
    · rw [if_pos ho, if_pos ho, h n (by omega) ho]
    · rw [if_neg ho, if_neg ho]

theorem oddXor_tail {w : List Byte} {p : Byte} (hp : ∀ k, k < 32 → (223 + k) % 2 = 1 → w.getD (223 + k) 0#8 = p) :
    ∀ k, k ≤ 16 → oddXor w (223 + 2 * k) = if k % 2 = 1 then oddXor w 223 ^^^ p else oddXor w 223
  | 0, _ => rfl
  | k + 1, hk => by
    have ih := oddXor_tail hp k (by omega)
    have h1 : 223 + 2 * (k + 1) = (223 + 2 * k) + 1 + 1 := by omega
    rw [h1]
    have e1 : oddXor w ((223 + 2 * k) + 1 + 1) = oddXor w (223 + 2 * k) ^^^ w.getD (223 + 2 * k) 0#8 := by
      rw [oddXor, if_neg (by omega), oddXor, if_pos (by omega)]
    rw [e1, ih, hp (2 * k) (by omega) (by omega)]
    by_cases ho : k % 2 = 1
    · rw [if_pos ho, if_neg (by omega), BitVec.xor_assoc, BitVec.xor_self, BitVec.xor_zero]
    · rw [if_neg ho, if_pos (by omega)]

/-- **C272 (encoding).** For every message of at most 223 symbols the word has 255 symbols: the message, zeros, and 32 parity symbols of which only two differ, since those at odd
positions are all equal and those at even positions are; the parity symbols at odd positions cancel, so that the check of the decoder sees the message alone. More than 255
symbols are written past the end, and of 224 to 255 the last are lost. -/
theorem C272_encode (data : List Byte) :
    (255 < data.length → encode data = .ub) ∧
    (data.length ≤ 255 → ∃ w, encode data = .ok w ∧ w.length = 255 ∧ w.take 223 = (data ++ List.replicate (223 - data.length) 0#8).take 223 ∧
      (∀ i j, 223 ≤ i → i < 255 → 223 ≤ j → j < 255 → i % 2 = j % 2 → w.getD i 0#8 = w.getD j 0#8) ∧ oddXor w 255 = oddXor data 223) := by
  refine ⟨fun h => if_pos h, fun h => ?_⟩
  have hlen : (data ++ List.replicate (255 - data.length) 0#8).length = 255 := by rw [List.length_append, List.length_replicate]; omega
  obtain ⟨h1, h2, h3⟩ := encode_loop _ hlen 32 (Nat.le_refl _)
  refine ⟨_, by unfold encode; rw [if_neg (by omega)], h1, ?_, ?_, ?_⟩
  · refine List.ext_getElem ?_ (fun j hj1 hj2 => ?_)
    · rw [List.length_take, List.length_take, h1, List.length_append, List.length_replicate]; omega
    · have hj : j < 223 := by rw [List.length_take] at hj1; omega
      have := h2 j hj
      rw [List.getElem_take, List.getElem_take]
      rw [List.getD_eq_getElem?_getD, List.getElem?_eq_getElem (by omega), List.getD_eq_getElem?_getD, List.getElem?_eq_getElem (by omega)] at this
      simp only [Option.getD_some] at this
      rw [this]
      by_cases hjd : j < data.length
      · rw [List.getElem_append_left hjd, List.getElem_append_left hjd]
      · rw [List.getElem_append_right (by omega), List.getElem_append_right (by omega), List.getElem_replicate, List.getElem_replicate]
  · intro i j hi hi' hj hj' hij
    obtain ⟨a, rfl⟩ : ∃ a, i = 223 + a := ⟨i - 223, by omega⟩
    obtain ⟨b, rfl⟩ : ∃ b, j = 223 + b := ⟨j - 223, by omega⟩
    rw [h3 a (by omega), h3 b (by omega)]
    exact paritySymbol_eq _ _ _ hij (by omega) (by omega) _ (fun _ _ => rfl)
  · have ht := oddXor_tail (p := paritySymbol (data ++ List.replicate (255 - data.length) 0#8) 223) (fun k hk ho => by
      rw [h3 k hk]
      exact paritySymbol_eq _ _ _ (by omega) (by omega) (by omega) _ (fun _ _ => rfl)) 16 (by omega)
    rw [if_neg (by omega)] at ht
    refine ht.trans (oddXor_congr 223 (fun j hj _ => ?_))
    rw [h2 j hj]
    rw [List.getD_eq_getElem?_getD, List.getD_eq_getElem?_getD]
    by_cases hjd : j < data.length
    · rw [List.getElem?_append_left hjd]
    · rw [List.getElem?_append_right (by omega), List.getElem?_replicate, List.getElem?_eq_none (by omega)]
      split <;> rfl

example : (List.replicate 223 7#8).length ≤ 255 := by rw [List.length_replicate]; omega

/-- **C272, violated: faultless words.** Encoding and decoding give the message back only if its symbols at odd positions cancel; otherwise the faultless word is reported as
damaged and every symbol of the message comes back wrong. -/
theorem C272_roundtrip_violated (data : List Byte) (h : data.length = 223) :
    ∃ w, encode data = .ok w ∧ decode w = .ok (if oddXor data 223 = 0#8 then (data, false) else (data.map (· ^^^ 1#8), true)) := by
  obtain ⟨w, h1, h2, h3, _, h5⟩ := (C272_encode data).2 (by omega)
  refine ⟨w, h1, ?_⟩
  rw [(C272_decode w).2 (by omega), h5, h3, h, Nat.sub_self, List.replicate_zero, List.append_nil, List.take_of_length_le (by omega)]

example : oddXor (0#8 :: 1#8 :: List.replicate 221 0#8) 223 ≠ 0#8 := by decide +kernel

/-- **C272, violated: correction.** No damage is ever repaired: damage of symbols at even positions is never reported, whatever it is, and whenever an error is reported the
decoder changes every symbol, so a symbol that was right is wrong afterwards. -/
theorem C272_correction_violated (w w' : List Byte) (hw' : w'.length = 255) :
    ((∀ j, j % 2 = 1 → w'.getD j 0#8 = w.getD j 0#8) → oddXor w 255 = 0#8 → decode w' = .ok (w'.take 223, false)) ∧
    (∀ d, decode w' = .ok (d, true) → ∀ j, j < 223 → w'.getD j 0#8 = w.getD j 0#8 → d.getD j 0#8 ≠ w.getD j 0#8) := by
  constructor
  · intro h h0
    rw [(C272_decode w').2 (by omega), oddXor_congr 255 (fun j _ ho => h j ho), if_pos h0]
  · intro d hd j hj he
    rw [(C272_decode w').2 (by omega)] at hd
    by_cases h0 : oddXor w' 255 = 0#8
    · rw [if_pos h0] at hd
      injection hd with hd
      cases (Prod.mk.inj hd).2
    · rw [if_neg h0] at hd
      injection hd with hd
      rw [← (Prod.mk.inj hd).1, ← he]
      rw [List.getD_eq_getElem?_getD, List.getD_eq_getElem?_getD, List.getElem?_map, List.getElem?_take_of_lt hj, List.getElem?_eq_getElem (by omega)]
      simp only [Option.map_some, Option.getD_some]
      generalize w'[j]'(by omega) = x
      revert x; decide

example : ∃ w : List Byte, w.length = 255 ∧ oddXor w 255 = 0#8 ∧ w.getD 0 0#8 = 5#8 := ⟨5#8 :: List.replicate 254 0#8, by rw [List.length_cons, List.length_replicate], by decide +kernel, rfl⟩

/-- **C272, violated: multiplication.** `gf_multiply` is none: the second factor matters only by its lowest bit, so one is not neutral and the product does not commute. -/
theorem C272_multiply_violated : (∀ a b c : Byte, b.toNat % 2 = c.toNat % 2 → gfMultiply a b = gfMultiply a c) ∧ gfMultiply 1#8 1#8 = 255#8 ∧
    gfMultiply 2#8 1#8 ≠ gfMultiply 1#8 2#8 := by
  refine ⟨fun a b c h => by rw [mul_eq, mul_eq, h], by decide, by decide⟩

/-- **C272 (reduction).** Doubling reduces by the polynomial 0x11D of the usual Reed–Solomon field: as integers, doubling is twice the byte, with 0x11D subtracted (xor) once if bit 8
is set; what is wrong is only the loop that should look at the bits of the second factor. -/
theorem C272_doubling : ∀ a : Byte, (shift a).toNat = if 128 ≤ a.toNat then (2 * a.toNat) ^^^ 0x11D else 2 * a.toNat := by decide +kernel

end Verif.Props.TestRs
