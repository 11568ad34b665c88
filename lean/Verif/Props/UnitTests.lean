import Verif.Model.UnitTests
import Verif.Props.ConvLayer
import Verif.Props.FaultTools
import Mathlib.Tactic.Linarith
import Mathlib.Tactic.IntervalCases
/-!
Properties C356-C360: the unit tests in /repo/test/unit.
-/
namespace Verif.Props.UnitTests
open Verif Verif.UnitTests

/-! ### C356: the tests of the voter and of the scrubber's callback -/

/-- C356: for every stored value and every corrupting value all assertions of the test of the voter hold. -/
theorem C356_voting {α : Type} [DecidableEq α] (v x : α) : votingChecks v x = [true, true, true, true] := by
  by_cases h : x = v
  · subst h; simp [votingChecks, CoreTmr.corrupt, CoreTmr.set, CoreTmr.get, CoreTmr.repair]
  · simp [votingChecks, CoreTmr.corrupt, CoreTmr.set, CoreTmr.get, CoreTmr.repair, h]

/-- C356: after the callback of the scrubber has run over a region of any size, each complete object in it whose copies were those of `v i` but for one has three copies of `v i` again, and nothing outside is touched. -/
theorem C356_callback {α : Type} [DecidableEq α] (n : ℕ) (v x : ℕ → α) (k : ℕ → Fin 3) (m : ℕ → CoreTmr.State α)
    (hm : ∀ i, i < n → m i = CoreTmr.corrupt (CoreTmr.set (v i)) (k i) (x i)) (r : ℕ) (hr : r < 12) :
    (∀ i, i < n → callback m (12 * n + r) i = CoreTmr.set (v i)) ∧ ∀ i, n ≤ i → callback m (12 * n + r) i = m i := by
  have e : (12 * n + r) / 12 = n := by omega
  unfold callback
  rw [e]
  have fix : ∀ (w y : α) (q : Fin 3), CoreTmr.repair (fun a b : α => decide (a = b)) (CoreTmr.corrupt (CoreTmr.set w) q y) = CoreTmr.set w := by
    intro w y q
    by_cases h : y = w
    · subst h; fin_cases q <;> simp [CoreTmr.corrupt, CoreTmr.set, CoreTmr.get, CoreTmr.repair]
    · have h' : ¬ w = y := fun z => h z.symm
      fin_cases q <;> simp [CoreTmr.corrupt, CoreTmr.set, CoreTmr.get, CoreTmr.repair, h, h']
  have key : ∀ j, j ≤ n → ∀ i, forN j (fun i (m : ℕ → CoreTmr.State α) j => if j = i then CoreTmr.repair (fun a b : α => decide (a = b)) (m i) else m j) m i =
      if i < j then CoreTmr.set (v i) else m i := by
    intro j
    induction j with
    | zero => intro _ i; simp [forN]
    | succ j ih =>
      intro hj i
      rw [forN]
      by_cases h : i = j
      · subst h
        rw [if_pos rfl, ih (by omega) i, if_neg (by omega), if_pos (by omega), hm i (by omega), fix]
      · rw [if_neg h, ih (by omega) i]
        by_cases h' : i < j
        · rw [if_pos h', if_pos (by omega)]
        · rw [if_neg h', if_neg (by omega)]
  exact ⟨fun i hi => by rw [key n le_rfl i, if_pos hi], fun i hi => by rw [key n le_rfl i, if_neg (by omega)]⟩

example : ∃ m : ℕ → CoreTmr.State ℕ, ∀ i, i < 10 → m i = CoreTmr.corrupt (CoreTmr.set i) 0 (if i = 5 then 99 else i) := ⟨_, fun _ _ => rfl⟩

/-! ### C357: exactly one bit -/

theorem countDiff_eq : ∀ (b : BitVec 8) , countDiff b 0 = (List.finRange 8).countP fun i => b.getLsbD i.val := by decide +kernel

theorem countDiff_add (b : BitVec 8) (c : ℕ) : countDiff b c = c + countDiff b 0 := by
  unfold countDiff
  have key : ∀ n, (forN n (fun _ (s : BitVec 8 × ℕ) => if s.1 = 0#8 then s else (s.1 >>> 1, s.2 + (s.1 &&& 1#8).toNat)) (b, c)).1 =
      (forN n (fun _ (s : BitVec 8 × ℕ) => if s.1 = 0#8 then s else (s.1 >>> 1, s.2 + (s.1 &&& 1#8).toNat)) (b, 0)).1 ∧
      (forN n (fun _ (s : BitVec 8 × ℕ) => if s.1 = 0#8 then s else (s.1 >>> 1, s.2 + (s.1 &&& 1#8).toNat)) (b, c)).2 = c +
      (forN n (fun _ (s : BitVec 8 × ℕ) => if s.1 = 0#8 then s else (s.1 >>> 1, s.2 + (s.1 &&& 1#8).toNat)) (b, 0)).2 := by
    intro n
    induction n with
    | zero => simp [forN]
    | succ n ih =>
      rw [forN, forN]
      rw [ih.1]
      split_ifs
      · exact ⟨ih.1, ih.2⟩
      · exact ⟨rfl, by dsimp only; rw [ih.2]; omega⟩
  exact (key 8).2

theorem one_bit : ∀ i : Fin 8, countDiff (1#8 <<< i.val) 0 = 1 := by decide +kernel

/-- C357: the counting loop of the test counts the bits in which two buffers differ. -/
theorem C357_count (n : ℕ) (a b : List (BitVec 8)) :
    flippedBits n a b = ((List.range n).map fun i => (List.finRange 8).countP fun j => (b.getD i 0 ^^^ a.getD i 0).getLsbD j.val).sum := by
  unfold flippedBits
  induction n with
  | zero => rfl
  | succ n ih =>
    rw [forN, ih, countDiff_add, countDiff_eq, List.range_succ, List.map_append, List.sum_append]
    simp

/-- C357: for every buffer, the ten bytes of the test or any other, and every byte and bit drawn inside it, a single bit flip changes exactly one bit: the assertion holds in every run. -/
theorem C357_single_flip (mem : List (BitVec 8)) (k bit : ℕ) (hk : k < mem.length) (hb : bit < 8) (bits : List ℕ) (byte : BitVec 8) :
    ∃ m, FaultTools.injectByte mem .singleBitFlip k (bit :: bits) byte = .ok m ∧ flippedBits mem.length mem m = 1 := by
  have e : FaultTools.injectByte mem .singleBitFlip k (bit :: bits) byte = .ok (mem.set k (mem[k] ^^^ (1#8 <<< bit))) := by
    unfold FaultTools.injectByte
    rw [List.getElem?_eq_getElem hk]
    rfl
  refine ⟨_, e, ?_⟩
  have d : ∀ i, (mem.set k (mem[k] ^^^ (1#8 <<< bit))).getD i 0 ^^^ mem.getD i 0 = if i = k then 1#8 <<< bit else 0#8 := by
    intro i
    by_cases h : i = k
    · subst h
      simp only [List.getD_eq_getElem?_getD, List.getElem?_set_self hk, List.getElem?_eq_getElem hk, Option.getD_some, if_true]
      rw [BitVec.xor_comm, ← BitVec.xor_assoc, BitVec.xor_self, BitVec.zero_xor]
    · simp only [List.getD_eq_getElem?_getD, if_neg h]
      rw [List.getElem?_set_ne (fun z => h z.symm), BitVec.xor_self]
  unfold flippedBits
  have key : ∀ n, forN n (fun i c => countDiff ((mem.set k (mem[k] ^^^ (1#8 <<< bit))).getD i 0 ^^^ mem.getD i 0) c) 0 = if k < n then 1 else 0 := by
    intro n
    induction n with
    | zero => simp [forN]
    | succ n ih =>
      rw [forN, ih, d, countDiff_add]
      by_cases h : n = k
      · subst h
        rw [if_pos rfl, if_neg (by omega), if_pos (by omega), one_bit ⟨bit, hb⟩]
      · rw [if_neg h, show countDiff 0#8 0 = 0 by decide +kernel]
        by_cases h' : k < n
        · rw [if_pos h', if_pos (by omega)]
        · rw [if_neg h', if_neg (by omega)]
  rw [key, if_pos hk]

example : ∃ m, FaultTools.injectByte [0, 1, 2, 3] .singleBitFlip 3 [7] 0 = .ok m ∧ flippedBits 4 [0, 1, 2, 3] m = 1 := C357_single_flip [0, 1, 2, 3] 3 7 (by decide) (by decide) [] 0

/-! ### C358: the resilience test -/

/-- The object after `n` flips without any repair. -/
def piled (v : BitVec 32) (f : ℕ → Fin 3 × Fin 32) (n : ℕ) : CoreTmr.State (BitVec 32) := ((List.range n).map f).foldl flipBit (CoreTmr.set v)

theorem piled_succ (v : BitVec 32) (f : ℕ → Fin 3 × Fin 32) (n : ℕ) : piled v f (n + 1) = flipBit (piled v f n) (f n) := by
  unfold piled
  rw [List.range_succ, List.map_append, List.foldl_append]
  rfl

theorem get_set (w : BitVec 32) : CoreTmr.get eqv (CoreTmr.set w) = w := by simp [CoreTmr.get, CoreTmr.set, eqv]

theorem get_flip (w : BitVec 32) (q : Fin 3 × Fin 32) : CoreTmr.get eqv (flipBit (CoreTmr.set w) q) = w := by
  obtain ⟨k, b⟩ := q
  fin_cases k
  · by_cases h : w ^^^ 1#32 <<< b.val = w
    · simp [flipBit, CoreTmr.corrupt, CoreTmr.get, CoreTmr.set, eqv, h]
    · simp [flipBit, CoreTmr.corrupt, CoreTmr.get, CoreTmr.set, eqv, h]
  · simp [flipBit, CoreTmr.corrupt, CoreTmr.get, CoreTmr.set, eqv]
  · simp [flipBit, CoreTmr.corrupt, CoreTmr.get, CoreTmr.set, eqv]

/-- One trial. -/
theorem trial_eq (v : BitVec 32) (f : ℕ → Fin 3 × Fin 32) (i : ℕ) (t : FaultTools.Trial (CoreTmr.State (BitVec 32))) :
    FaultTools.trial (fun i s => flipBit s (f i)) (fun s => (eqv (CoreTmr.get eqv s) v, s)) (CoreTmr.repair eqv) i t =
      if CoreTmr.get eqv (flipBit t.comp (f i)) = v then { t with comp := flipBit t.comp (f i) }
      else ⟨CoreTmr.set (CoreTmr.get eqv (flipBit t.comp (f i))), t.detected + 1, t.corrected⟩ := by
  unfold FaultTools.trial
  dsimp only
  by_cases h : CoreTmr.get eqv (flipBit t.comp (f i)) = v
  · rw [if_pos h]; simp [eqv, h]
  · have r : CoreTmr.repair eqv (flipBit t.comp (f i)) = CoreTmr.set (CoreTmr.get eqv (flipBit t.comp (f i))) := rfl
    rw [if_neg h, r, get_set]
    simp [eqv, h]

/-- C358: what the test counts, for every value, every sequence of flips and every number of trials.  Faults the vote hides are not repaired but pile up; nothing is detected before the pile changes the vote, and every trial is from then on. No fault is ever corrected, because a repair never changes what is read. -/
theorem C358_resilience (v : BitVec 32) (f : ℕ → Fin 3 × Fin 32) (n : ℕ) :
    (resilience v f n).corrected = 0 ∧
    ((∀ j, j < n → CoreTmr.get eqv (piled v f (j + 1)) = v) → (resilience v f n).detected = 0 ∧ (resilience v f n).comp = piled v f n) ∧
    (∀ j, j < n → (∀ i, i < j → CoreTmr.get eqv (piled v f (i + 1)) = v) → CoreTmr.get eqv (piled v f (j + 1)) ≠ v →
      (resilience v f n).detected = n - j ∧ (resilience v f n).comp = CoreTmr.set (CoreTmr.get eqv (piled v f (j + 1)))) := by
  unfold resilience FaultTools.testResilience
  rw [Int.toNat_natCast]
  induction n with
  | zero => refine ⟨rfl, fun _ => ⟨rfl, rfl⟩, fun j hj => by omega⟩
  | succ n ih =>
    rw [forN, trial_eq]
    generalize forN n (FaultTools.trial (fun i s => flipBit s (f i)) (fun s => (eqv (CoreTmr.get eqv s) v, s)) (CoreTmr.repair eqv)) { comp := CoreTmr.set v } = t at *
    obtain ⟨i1, i2, i3⟩ := ih
    refine ⟨?_, fun h => ?_, fun j hj h1 h2 => ?_⟩
    · split_ifs <;> exact i1
    · obtain ⟨a, b⟩ := i2 fun j hj => h j (by omega)
      rw [b, ← piled_succ, if_pos (h n (by omega))]
      exact ⟨a, rfl⟩
    · rcases Nat.lt_or_ge j n with g | g
      · obtain ⟨a, b⟩ := i3 j g h1 h2
        rw [b, get_flip, if_neg h2]
        exact ⟨by dsimp only; omega, rfl⟩
      · obtain rfl : j = n := by omega
        obtain ⟨a, b⟩ := i2 h1
        rw [b, ← piled_succ, if_neg h2]
        exact ⟨by dsimp only; omega, rfl⟩

/-- C358: two flips of the same bit in two copies lose the value: with these the test detects 99 of 100 faults, corrects none and leaves three copies of a wrong value, which is why it sets the value again before its final assertion, which therefore tells nothing: it holds for all flips. -/
theorem C358_uncorrected_violated (v : BitVec 32) :
    (∀ f trials, finalCheck v f trials = true) ∧
    (resilience v (fun i => (if i = 0 then 0 else 1, 0)) 100).detected = 99 ∧ (resilience v (fun i => (if i = 0 then 0 else 1, 0)) 100).corrected = 0 ∧
    (resilience v (fun i => (if i = 0 then 0 else 1, 0)) 100).comp = CoreTmr.set (v ^^^ 1#32) := by
  have hx : v ^^^ 1#32 ≠ v := by
    intro h
    have := congrArg (fun z : BitVec 32 => z.getLsbD 0) h
    simp at this
  have p2 : piled v (fun i => (if i = 0 then 0 else 1, 0)) 2 = ⟨v ^^^ 1#32, v ^^^ 1#32, v⟩ := by
    rw [piled_succ, piled_succ]
    simp [piled, flipBit, CoreTmr.corrupt, CoreTmr.set]
  have g2 : CoreTmr.get eqv (piled v (fun i => (if i = 0 then 0 else 1, 0)) (1 + 1)) = v ^^^ 1#32 := by
    rw [p2]; simp [CoreTmr.get, eqv]
  have h := (C358_resilience v (fun i => (if i = 0 then 0 else 1, 0)) 100).2.2 1 (by omega) (fun i hi => by
    obtain rfl : i = 0 := by omega
    rw [piled_succ]
    exact get_flip v _) (by rw [g2]; exact hx)
  refine ⟨fun f t => by unfold finalCheck; rw [get_set]; simp [eqv], h.1, (C358_resilience v _ 100).1, ?_⟩
  rw [← g2]
  exact h.2

/-- C358: as long as all flips hit the same copy, however many, nothing is lost and nothing detected. -/
theorem C358_one_copy (v : BitVec 32) (f : ℕ → Fin 3 × Fin 32) (k : Fin 3) (hf : ∀ i, (f i).1 = k) (n : ℕ) : (resilience v f n).detected = 0 := by
  have key : ∀ j, ∃ x, piled v f j = CoreTmr.corrupt (CoreTmr.set v) k x := by
    intro j
    induction j with
    | zero => exact ⟨v, by fin_cases k <;> rfl⟩
    | succ j ih =>
      obtain ⟨x, hx⟩ := ih
      rw [piled_succ, hx]
      have := hf j
      revert this
      generalize f j = q
      rintro rfl
      obtain ⟨a, b⟩ := q
      fin_cases a
      · exact ⟨_, rfl⟩
      · exact ⟨_, rfl⟩
      · exact ⟨_, rfl⟩
  refine ((C358_resilience v f n).2.1 fun j _ => ?_).1
  obtain ⟨x, hx⟩ := key (j + 1)
  rw [hx]
  by_cases h : v = x
  · subst h; fin_cases k <;> simp [CoreTmr.corrupt, CoreTmr.get, CoreTmr.set, eqv]
  · have h' : ¬ x = v := fun z => h z.symm
    fin_cases k <;> simp [CoreTmr.corrupt, CoreTmr.get, CoreTmr.set, eqv, h, h']

/-! ### C359, C360: the tests of the convolutional layer -/
open Verif.Conv Verif.Props.ConvP

theorem eqz_isEq : IsEq eqz := fun a b => by simp [eqz]

/-- What the output is after a history that loses no parameter. -/
theorem conv_value (d : Dims) (raw : Layer ℤ) (h : List (Op ℤ)) (hh : ∀ p v, Op.set p v ∈ h → InRange d p)
    (hl : ∀ p, InRange d p → (tracked 0 p h).2 ≠ .lost) (x out : ℕ → ℕ → ℕ → ℤ) :
    ∃ o, convolve d raw h x out = .ok o ∧
      (∀ oc oh ow, oc < d.OC → oh < d.out d.H → ow < d.out d.W → o oc oh ow = (positions d oh ow).foldl
        (fun s p => fixed.add s (fixed.mul (tracked 0 (.w oc p.1 p.2.1 p.2.2) h).1 (x p.1 (oh * d.S + p.2.1 - d.P) (ow * d.S + p.2.2 - d.P))))
        (tracked 0 (.b oc) h).1) ∧
      ∀ oc oh ow, ¬(oc < d.OC ∧ oh < d.out d.H ∧ ow < d.out d.W) → o oc oh ow = out oc oh ow := by
  obtain ⟨L, hL⟩ := C97_defined d eqz h hh (Layer.new d fixed raw)
  obtain ⟨o, h1, h2, h3⟩ := C96_forward_any d fixed eqz L x out
  refine ⟨o, by unfold convolve; rw [hL]; exact h1, fun oc oh ow a b c => ?_, h3⟩
  have hv : ∀ p, InRange d p → (L.at p).get eqz = (tracked 0 p h).1 := fun p hp => C97_parameter d fixed eqz eqz_isEq raw h L hL p hp (hl p hp)
  rw [h2 oc oh ow a b c, hv (.b oc) a]
  refine List.foldl_ext _ _ _ fun s p hp => ?_
  unfold positions at hp
  rw [List.mem_filter] at hp
  have hp := hp.1
  obtain ⟨i, j, k⟩ := p
  change (i, j, k) ∈ List.product _ (List.product _ _) at hp
  rw [List.pair_mem_product, List.pair_mem_product, List.mem_range, List.mem_range, List.mem_range] at hp
  rw [hv (.w oc i j k) ⟨a, hp⟩]

theorem program_sets (d : Dims) (hd : d.IC = 1 ∧ d.OC = 1 ∧ d.K = 3) (f : ℕ → ℕ → ℤ) (z : ℤ) (p : Param) (v : ℤ) (h : Op.set p v ∈ program z f) : InRange d p := by
  obtain ⟨h1, h2, h3⟩ := hd
  unfold program at h
  rw [List.mem_append, List.mem_flatMap] at h
  rcases h with ⟨i, hi, hm⟩ | h
  · rw [List.mem_map] at hm
    obtain ⟨j, hj, e⟩ := hm
    rw [List.mem_range] at hi hj
    cases e
    exact ⟨by omega, by omega, by omega, by omega⟩
  · rw [List.mem_singleton] at h
    cases h
    change 0 < d.OC
    omega

theorem tracked_w (f : ℕ → ℕ → ℤ) (z : ℤ) (kh kw : ℕ) (h1 : kh < 3) (h2 : kw < 3) : tracked 0 (.w 0 0 kh kw) (program z f) = (f kh kw, .none) := by
  have e : program z f = [.set (.w 0 0 0 0) (f 0 0), .set (.w 0 0 0 1) (f 0 1), .set (.w 0 0 0 2) (f 0 2), .set (.w 0 0 1 0) (f 1 0), .set (.w 0 0 1 1) (f 1 1),
      .set (.w 0 0 1 2) (f 1 2), .set (.w 0 0 2 0) (f 2 0), .set (.w 0 0 2 1) (f 2 1), .set (.w 0 0 2 2) (f 2 2), .set (.b 0) z] := rfl
  rw [e]
  interval_cases kh <;> interval_cases kw <;> simp [tracked, track]

theorem tracked_b (f : ℕ → ℕ → ℤ) (z : ℤ) : tracked 0 (.b 0) (program z f) = (z, .none) := by
  unfold tracked program
  rw [List.foldl_append]
  simp [track]

theorem not_lost (d : Dims) (hd : d.IC = 1 ∧ d.OC = 1 ∧ d.K = 3) (f : ℕ → ℕ → ℤ) (z : ℤ) (p : Param) (hp : InRange d p) : (tracked 0 p (program z f)).2 ≠ .lost := by
  obtain ⟨h1, h2, h3⟩ := hd
  cases p with
  | w oc ic kh kw =>
    obtain ⟨a, b, c, e⟩ := hp
    obtain rfl : oc = 0 := by omega
    obtain rfl : ic = 0 := by omega
    rw [tracked_w f z kh kw (by omega) (by omega)]
    simp
  | b oc =>
    have : oc < d.OC := hp
    obtain rfl : oc = 0 := by omega
    rw [tracked_b]
    simp

theorem positions_edge : positions edgeDims 0 0 = [(0, 0, 0), (0, 0, 1), (0, 0, 2), (0, 1, 0), (0, 1, 1), (0, 1, 2), (0, 2, 0), (0, 2, 1), (0, 2, 2)] := by decide +kernel

theorem positions_identity : positions identityDims 0 0 = [(0, 0, 0), (0, 0, 1), (0, 0, 2), (0, 1, 0), (0, 1, 1), (0, 1, 2), (0, 2, 0), (0, 2, 1), (0, 2, 2)] := by decide +kernel

theorem narrow_small (v : ℤ) (h : Fixed.inRange 16 v) : Fixed.narrow 16 v = v := by
  unfold Fixed.inRange at h
  unfold Fixed.narrow Int.bmod
  norm_num at h ⊢
  split_ifs <;> omega

/-- C359: the layer of the first test produces one number, for every image of numbers that exist the pixel in row 1 and column 1, and writes nothing else. -/
theorem C359_identity (raw : Layer ℤ) (x out : ℕ → ℕ → ℕ → ℤ) (hx : Fixed.inRange 16 (x 0 1 1)) :
    ∃ o, convolve identityDims raw (program 0 identityFilter) x out = .ok o ∧ o 0 0 0 = x 0 1 1 ∧ ∀ i j k, (i, j, k) ≠ (0, 0, 0) → o i j k = out i j k := by
  obtain ⟨o, h1, h2, h3⟩ := conv_value identityDims raw (program 0 identityFilter) (program_sets _ ⟨rfl, rfl, rfl⟩ _ _) (not_lost _ ⟨rfl, rfl, rfl⟩ _ _) x out
  have e4 : identityDims.out 4 = 1 := by decide +kernel
  refine ⟨o, h1, ?_, fun i j k h => h3 i j k ?_⟩
  · rw [h2 0 0 0 (by decide) (by decide +kernel) (by decide +kernel), positions_identity, tracked_b]
    simp only [List.foldl_cons, List.foldl_nil]
    rw [tracked_w, tracked_w, tracked_w, tracked_w, tracked_w, tracked_w, tracked_w, tracked_w, tracked_w] <;> try omega
    simp only [identityFilter, identityDims, fixed]
    have hz : Fixed.narrow 16 0 = 0 := by decide +kernel
    simp [hz, narrow_small _ hx]
  · change ¬ (i < 1 ∧ j < identityDims.out 4 ∧ k < identityDims.out 4)
    rw [e4]
    rintro ⟨a, b, c⟩
    exact h (by rw [show i = 0 by omega, show j = 0 by omega, show k = 0 by omega])

/-- C359: its output has one row and one column; the comments of the test say two. The three pixels it skips are never looked at. -/
theorem C359_extent_violated : identityDims.out identityDims.H = 1 ∧ identityDims.out identityDims.W = 1 ∧ edgeDims.out edgeDims.H = 1 := by decide +kernel

theorem edge_value (raw : Layer ℤ) (f : ℕ → ℕ → ℤ) (z : ℤ) (x out : ℕ → ℕ → ℕ → ℤ) :
    ∃ o, convolve edgeDims raw (program z f) x out = .ok o ∧ o 0 0 0 =
      ([(0, 0, 0), (0, 0, 1), (0, 0, 2), (0, 1, 0), (0, 1, 1), (0, 1, 2), (0, 2, 0), (0, 2, 1), (0, 2, 2)] : List (ℕ × ℕ × ℕ)).foldl
        (fun s p => fixed.add s (fixed.mul (f p.2.1 p.2.2) (x 0 p.2.1 p.2.2))) z := by
  obtain ⟨o, h1, h2, _⟩ := conv_value edgeDims raw (program z f) (program_sets _ ⟨rfl, rfl, rfl⟩ _ _) (not_lost _ ⟨rfl, rfl, rfl⟩ _ _) x out
  refine ⟨o, h1, ?_⟩
  rw [h2 0 0 0 (by decide) (by decide +kernel) (by decide +kernel), positions_edge, tracked_b]
  simp only [List.foldl_cons, List.foldl_nil]
  rw [tracked_w, tracked_w, tracked_w, tracked_w, tracked_w, tracked_w, tracked_w, tracked_w, tracked_w] <;> try omega
  simp [edgeDims]

/-- C359: for every image the filter for horizontal edges gives the sum of the last row minus that of the first, reduced to 16 bits, and the filter for vertical edges the sum of the last column minus that of the first. -/
theorem C359_edges (raw : Layer ℤ) (x out : ℕ → ℕ → ℕ → ℤ) :
    (∃ o, convolve edgeDims raw (program 0 horizontal) x out = .ok o ∧
      o 0 0 0 = Fixed.narrow 16 ((x 0 2 0 + x 0 2 1 + x 0 2 2) - (x 0 0 0 + x 0 0 1 + x 0 0 2))) ∧
    (∃ o, convolve edgeDims raw (program 0 vertical) x out = .ok o ∧
      o 0 0 0 = Fixed.narrow 16 ((x 0 0 2 + x 0 1 2 + x 0 2 2) - (x 0 0 0 + x 0 1 0 + x 0 2 0))) := by
  have a1 : ∀ v : ℤ, -256 * v / 256 = -v := fun v => by omega
  have a2 : ∀ v : ℤ, 256 * v / 256 = v := fun v => by omega
  refine ⟨?_, ?_⟩
  · obtain ⟨o, h1, h2⟩ := edge_value raw horizontal 0 x out
    refine ⟨o, h1, ?_⟩
    rw [h2]
    simp only [List.foldl_cons, List.foldl_nil, horizontal, fixed, Fixed.narrow, if_true, if_false, a1, a2, show (1 : ℕ) ≠ 0 by decide, show (2 : ℕ) ≠ 0 by decide, show (2 : ℕ) ≠ 1 by decide,
      zero_mul, Int.zero_ediv, zero_add, Int.bmod_add_bmod, Int.add_bmod_bmod, Int.bmod_bmod, add_zero]
    congr 1
    ring
  · obtain ⟨o, h1, h2⟩ := edge_value raw vertical 0 x out
    refine ⟨o, h1, ?_⟩
    rw [h2]
    simp only [List.foldl_cons, List.foldl_nil, vertical, fixed, Fixed.narrow, if_true, if_false, a1, a2, show (1 : ℕ) ≠ 0 by decide, show (2 : ℕ) ≠ 0 by decide, show (2 : ℕ) ≠ 1 by decide,
      zero_mul, Int.zero_ediv, zero_add, Int.bmod_add_bmod, Int.add_bmod_bmod, Int.bmod_bmod, add_zero]
    congr 1
    ring

/-- The image of the test. -/
def image (_ _ w : ℕ) : ℤ := if w < 2 then 256 else 0

/-- C359: the two assertions of the test, 0 and -3. -/
theorem C359_test (raw : Layer ℤ) (out : ℕ → ℕ → ℕ → ℤ) :
    (∃ o, convolve edgeDims raw (program 0 horizontal) image out = .ok o ∧ o 0 0 0 = 0) ∧
    (∃ o, convolve edgeDims raw (program 0 vertical) image out = .ok o ∧ o 0 0 0 = -3 * 256) := by
  obtain ⟨⟨o, h1, h2⟩, p, h3, h4⟩ := C359_edges raw image out
  exact ⟨⟨o, h1, h2.trans (by decide +kernel)⟩, p, h3, h4.trans (by decide +kernel)⟩

example : Fixed.inRange 16 (image 0 1 1) := by decide +kernel

/-- C360: for every filter, bias, image, parameter, copy and corrupting value: after one fault and the repair, or without the repair, the output is that of the undamaged layer. -/
theorem C360_resilience (raw : Layer ℤ) (f : ℕ → ℕ → ℤ) (z : ℤ) (p : Param) (k : Fin 3) (y : ℤ) (x out : ℕ → ℕ → ℕ → ℤ) :
    ∃ o o1 o2, convolve edgeDims raw (program z f) x out = .ok o ∧ convolve edgeDims raw (program z f ++ [.strike p k y]) x out = .ok o1 ∧
      convolve edgeDims raw (program z f ++ [.strike p k y, .repair]) x out = .ok o2 ∧ o1 0 0 0 = o 0 0 0 ∧ o2 0 0 0 = o 0 0 0 := by
  have hn : ∀ q, InRange edgeDims q → (tracked 0 q (program z f)).2 = .none := by
    intro q hq
    cases q with
    | w oc ic kh kw =>
      obtain ⟨a, b, c, e⟩ := hq
      have a : oc < 1 := a
      have b : ic < 1 := b
      obtain rfl : oc = 0 := by omega
      obtain rfl : ic = 0 := by omega
      rw [tracked_w f z kh kw c e]
    | b oc =>
      have a : oc < 1 := hq
      obtain rfl : oc = 0 := by omega
      rw [tracked_b]
  have t : ∀ (l : List (Op ℤ)) q, tracked 0 q (program z f ++ l) = l.foldl (track q) (tracked 0 q (program z f)) := fun l q => by
    unfold tracked; rw [List.foldl_append]
  have key : ∀ l : List (Op ℤ), l = [] ∨ l = [.strike p k y] ∨ l = [.strike p k y, .repair] →
      (∀ q v, Op.set q v ∈ program z f ++ l → InRange edgeDims q) ∧
      ∀ q, InRange edgeDims q → (tracked 0 q (program z f ++ l)).2 ≠ .lost ∧ (tracked 0 q (program z f ++ l)).1 = (tracked 0 q (program z f)).1 := by
    intro l hl
    refine ⟨fun q v h => ?_, fun q hq => ?_⟩
    · rw [List.mem_append] at h
      rcases h with h | h
      · exact program_sets _ ⟨rfl, rfl, rfl⟩ _ _ _ _ h
      · rcases hl with rfl | rfl | rfl <;> simp at h
    · have := hn q hq
      rw [t]
      generalize tracked 0 q (program z f) = s at this
      obtain ⟨a, b⟩ := s
      dsimp only at this
      subst this
      rcases hl with rfl | rfl | rfl
      · simp
      · by_cases e : p = q <;> simp [track, e, Damage.hit]
      · by_cases e : p = q <;> simp [track, e, Damage.hit, Damage.fix]
  have val : ∀ l : List (Op ℤ), l = [] ∨ l = [.strike p k y] ∨ l = [.strike p k y, .repair] → ∃ o, convolve edgeDims raw (program z f ++ l) x out = .ok o ∧
      o 0 0 0 = (positions edgeDims 0 0).foldl (fun s q => fixed.add s (fixed.mul (tracked 0 (.w 0 q.1 q.2.1 q.2.2) (program z f)).1
        (x q.1 (0 * edgeDims.S + q.2.1 - edgeDims.P) (0 * edgeDims.S + q.2.2 - edgeDims.P)))) (tracked 0 (.b 0) (program z f)).1 := by
    intro l hl
    obtain ⟨k1, k2⟩ := key l hl
    obtain ⟨o, h1, h2, _⟩ := conv_value edgeDims raw (program z f ++ l) k1 (fun q hq => (k2 q hq).1) x out
    refine ⟨o, h1, ?_⟩
    rw [h2 0 0 0 (by decide) (by decide +kernel) (by decide +kernel), (k2 (.b 0) (by decide)).2]
    refine List.foldl_ext _ _ _ fun s q hq => ?_
    have : InRange edgeDims (.w 0 q.1 q.2.1 q.2.2) := by
      rw [positions_edge] at hq
      have : ∀ q ∈ ([(0, 0, 0), (0, 0, 1), (0, 0, 2), (0, 1, 0), (0, 1, 1), (0, 1, 2), (0, 2, 0), (0, 2, 1), (0, 2, 2)] : List (ℕ × ℕ × ℕ)), InRange edgeDims (.w 0 q.1 q.2.1 q.2.2) := by decide
      exact this q hq
    rw [(k2 _ this).2]
  obtain ⟨o, a1, a2⟩ := val [] (.inl rfl)
  obtain ⟨o1, b1, b2⟩ := val _ (.inr (.inl rfl))
  obtain ⟨o2, c1, c2⟩ := val _ (.inr (.inr rfl))
  rw [List.append_nil] at a1
  exact ⟨o, o1, o2, a1, b1, c1, b2.trans a2.symm, c2.trans a2.symm⟩

/-- C360: the limit: the same fault in two copies of a weight changes the output, repaired or not. -/
theorem C360_two_copies_limit (raw : Layer ℤ) (out : ℕ → ℕ → ℕ → ℤ) :
    ∃ o, convolve edgeDims raw (program 0 (fun _ _ => 256) ++ [.strike (.b 0) 0 256, .strike (.b 0) 1 256, .repair]) (fun _ _ _ => 0) out = .ok o ∧ o 0 0 0 = 256 ∧
    ∃ o', convolve edgeDims raw (program 0 (fun _ _ => 256)) (fun _ _ _ => 0) out = .ok o' ∧ o' 0 0 0 = 0 := by
  obtain ⟨o', e1, e2⟩ := edge_value raw (fun _ _ => 256) 0 (fun _ _ _ => 0) out
  have hs : ∀ q v, Op.set q v ∈ program 0 (fun _ _ => (256 : ℤ)) ++ [.strike (.b 0) 0 256, .strike (.b 0) 1 256, .repair] → InRange edgeDims q := by
    intro q v h
    rw [List.mem_append] at h
    rcases h with h | h
    · exact program_sets _ ⟨rfl, rfl, rfl⟩ _ _ _ _ h
    · simp at h
  obtain ⟨L, hL⟩ := C97_defined edgeDims eqz _ hs (Layer.new edgeDims fixed raw)
  obtain ⟨o, h1, h2, _⟩ := C96_forward_any edgeDims fixed eqz L (fun _ _ _ => 0) out
  refine ⟨o, by unfold convolve; rw [hL]; exact h1, ?_, o', e1, e2.trans (by decide +kernel)⟩
  rw [h2 0 0 0 (by decide) (by decide +kernel) (by decide +kernel)]
  have hb : (L.at (.b 0)).get eqz = 256 := by
    obtain ⟨M, hM⟩ := C97_defined edgeDims eqz (program 0 (fun _ _ => (256 : ℤ))) (program_sets _ ⟨rfl, rfl, rfl⟩ _ _) (Layer.new edgeDims fixed raw)
    have hr : ∀ (l m : List (Op ℤ)) (A B : Layer ℤ), A.run edgeDims eqz l = .ok B → A.run edgeDims eqz (l ++ m) = B.run edgeDims eqz m := by
      intro l
      induction l with
      | nil => intro m A B h; cases h; rfl
      | cons a l ih =>
        intro m A B h
        rw [List.cons_append, Layer.run]
        rw [Layer.run] at h
        cases hs : A.step edgeDims eqz a with
        | ub => rw [hs] at h; cases h
        | ok C => rw [hs] at h; exact ih m C B h
    have hm := hr _ [.strike (.b 0) 0 256, .strike (.b 0) 1 256, .repair] _ _ hM
    rw [hL] at hm
    simp only [Layer.run, Layer.step, Outcome.bind] at hm
    cases hm
    unfold Layer.repair
    rw [all_at, if_pos (by decide)]
    simp [Layer.at, Layer.updB, Tri.strike, Tri.repair, Tri.get, eqz]
  rw [hb]
  have hz : ∀ (l : List (ℕ × ℕ × ℕ)) (g : ℕ × ℕ × ℕ → ℤ), l.foldl (fun s p => fixed.add s (fixed.mul (g p) 0)) 256 = 256 := by
    intro l g
    induction l with
    | nil => rfl
    | cons a l ih =>
      rw [List.foldl_cons]
      have : fixed.add 256 (fixed.mul (g a) 0) = 256 := by
        simp only [fixed, mul_zero, Int.zero_ediv]
        decide +kernel
      rw [this]
      exact ih
  exact hz _ fun p => (L.at (.w 0 p.1 p.2.1 p.2.2)).get eqz

end Verif.Props.UnitTests
