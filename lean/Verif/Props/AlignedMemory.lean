import Verif.Model.AlignedMemory
import Verif.Props.Voting
/-!
Properties C35 (`InterleavedBitMemory`), C54 (`AlignedProtectedMemory`), C55 (`ProtectedValue`).
-/
namespace Verif.Props.AlignedMem
open Verif Verif.Spec Verif.Voting

/-! ### C35: bit-interleaved storage -/

section interleaved
open Verif.Interleaved
variable {w S : Nat}

theorem getLsbD_lowbit (x : BitVec S) (i j : Nat) :
    ((x >>> i) &&& 1#S).getLsbD j = (decide (j = 0) && x.getLsbD i) := getLsbD_bit x i j

theorem getLsbD_interleave (hS : 3 * w ≤ S) (data : BitVec S) (v : BitVec w) (idx : Nat) (hidx : idx < 3) (j : Nat) :
    (interleave data v idx).getLsbD j =
      (data.getLsbD j || (decide (j % 3 = idx) && decide (j / 3 < w) && v.getLsbD (j / 3))) := by
  unfold interleave
  have := forN_inv (fun n (d : BitVec S) => d.getLsbD j =
      (data.getLsbD j || (decide (j % 3 = idx) && decide (j / 3 < n) && v.getLsbD (j / 3)))) w
    (fun i data =>
      let b := (v.signExtend S >>> i) &&& 1#S
      data ||| (b <<< (i * 3 + idx))) data ?_ ?_
  · exact this
  · simp
  · intro i d hi hd
    simp only [BitVec.getLsbD_or, BitVec.getLsbD_shiftLeft, hd, getLsbD_lowbit]
    have hv : (v.signExtend S).getLsbD i = v.getLsbD i := by
      rw [BitVec.getLsbD_signExtend]; simp [hi]; omega
    rw [hv]
    by_cases hj : j = i * 3 + idx
    · have h1 : j % 3 = idx := by omega
      have h2 : j / 3 = i := by omega
      have h3 : j < S := by omega
      simp [h1, h2, h3, hj.symm]
    · have h4 : (decide (j < S) && !decide (j < i * 3 + idx) && (decide (j - (i * 3 + idx) = 0) && v.getLsbD i)) =
          false := by
        by_cases h5 : j < i * 3 + idx
        · simp [h5]
        · have : ¬ (j - (i * 3 + idx) = 0) := by omega
          simp [this]
      rw [h4, Bool.or_false]
      by_cases h6 : j % 3 = idx
      · have : (j / 3 < i + 1) ↔ j / 3 < i := by
          constructor
          · intro h; by_contra h'; apply hj; omega
          · omega
        simp [this]
      · simp [h6]

theorem getLsbD_deinterleave (data : BitVec S) (idx j : Nat) :
    (deinterleave w data idx).getLsbD j = (decide (j < w) && data.getLsbD (j * 3 + idx)) := by
  unfold deinterleave
  by_cases hjw : j < w
  · have := forN_inv (fun n (d : BitVec w) => d.getLsbD j =
        (decide (j < n) && data.getLsbD (j * 3 + idx))) w
      (fun i result =>
        let b := ((data >>> (i * 3 + idx)) &&& 1#S).setWidth w
        result ||| (b <<< i)) (0 : BitVec w) ?_ ?_
    · exact this
    · simp
    · intro i d hi hd
      simp only [BitVec.getLsbD_or, BitVec.getLsbD_shiftLeft, hd, BitVec.getLsbD_setWidth, getLsbD_lowbit]
      by_cases hj : j = i
      · subst hj; simp [hjw]; omega
      · by_cases h5 : j < i
        · have : j < i + 1 := by omega
          simp [h5, this]
        · have h6 : ¬ j < i + 1 := by omega
          have h7 : ¬ (j - i = 0) := by omega
          simp [h5, h6, h7]
  · simp [hjw, BitVec.getLsbD_of_ge _ j (Nat.le_of_not_lt hjw)]

theorem getLsbD_set (hS : 3 * w ≤ S) (v : BitVec w) (j : Nat) :
    (Interleaved.set S v).getLsbD j = v.getLsbD (j / 3) := by
  unfold Interleaved.set
  rw [getLsbD_interleave hS _ _ _ (by omega), getLsbD_interleave hS _ _ _ (by omega),
    getLsbD_interleave hS _ _ _ (by omega)]
  by_cases h : j / 3 < w
  · have : j % 3 = 0 ∨ j % 3 = 1 ∨ j % 3 = 2 := by omega
    rcases this with h' | h' | h' <;> simp [h, h']
  · simp [h, BitVec.getLsbD_of_ge v _ (Nat.le_of_not_lt h)]

/-- **C35 (exact effect of arbitrary upsets).** For 8-, 16- and 32-bit types: after `set(v)` and an arbitrary pattern
`e` of flipped storage bits, bit `i` read back is wrong exactly when at least two of the three physical bits
`3i, 3i+1, 3i+2` were flipped. -/
theorem C35_upset_effect {W : Nat} (h8 : 8 ∣ w) (hW : w ≤ W) (hW64 : W ≤ 64) (hS : 3 * w ≤ S)
    (v : BitVec w) (e : BitVec S) (g : Garbage W) (p : FaultPattern) (i : Nat) (hi : i < w) :
    (Interleaved.get (w := w) g p (Interleaved.set S v ^^^ e)).getLsbD i =
      (v.getLsbD i ^^ maj3 (e.getLsbD (3 * i)) (e.getLsbD (3 * i + 1)) (e.getLsbD (3 * i + 2))) := by
  unfold Interleaved.get
  have := (C03_all_strategies_agree h8 hW hW64 (deinterleave w (Interleaved.set S v ^^^ e) 0)
    (deinterleave w (Interleaved.set S v ^^^ e) 1) (deinterleave w (Interleaved.set S v ^^^ e) 2) g p).2.2.2.2 i hi
  rw [this]
  simp only [getLsbD_deinterleave, BitVec.getLsbD_xor, getLsbD_set hS, hi, decide_true, Bool.true_and]
  have h0 : (i * 3 + 0) / 3 = i := by omega
  have h1 : (i * 3 + 1) / 3 = i := by omega
  have h2 : (i * 3 + 2) / 3 = i := by omega
  have e0 : i * 3 + 0 = 3 * i := by omega
  have e1 : i * 3 + 1 = 3 * i + 1 := by omega
  have e2 : i * 3 + 2 = 3 * i + 2 := by omega
  rw [h0, h1, h2, e0, e1, e2]
  unfold maj3
  cases v.getLsbD i <;> cases e.getLsbD (3 * i) <;> cases e.getLsbD (3 * i + 1) <;> cases e.getLsbD (3 * i + 2) <;> rfl

example : (8 : Nat) ∣ 32 ∧ 3 * 32 ≤ storageBits 32 ∧ 3 * 16 ≤ storageBits 16 ∧ 3 * 8 ≤ storageBits 8 := by decide

/-- **C35.** Reading back an undisturbed value, and reading after the upset of any single physical bit, returns the
value written; so does any upset pattern that hits at most one of the three physical bits of each logical bit. -/
theorem C35_single_upset_masked_partial {W : Nat} (h8 : 8 ∣ w) (hW : w ≤ W) (hW64 : W ≤ 64) (hS : 3 * w ≤ S)
    (v : BitVec w) (g : Garbage W) (p : FaultPattern) :
    Interleaved.get (w := w) g p (Interleaved.set S v) = v ∧
    (∀ k, k < S → Interleaved.get (w := w) g p (Interleaved.set S v ^^^ (1#S <<< k)) = v) ∧
    (∀ e : BitVec S, (∀ j k, j / 3 = k / 3 → e.getLsbD j = true → e.getLsbD k = true → j = k) →
      Interleaved.get (w := w) g p (Interleaved.set S v ^^^ e) = v) := by
  have key : ∀ e : BitVec S, (∀ j k, j / 3 = k / 3 → e.getLsbD j = true → e.getLsbD k = true → j = k) →
      Interleaved.get (w := w) g p (Interleaved.set S v ^^^ e) = v := by
    intro e he
    apply BitVec.eq_of_getLsbD_eq
    intro i hi
    rw [C35_upset_effect h8 hW hW64 hS v e g p i hi]
    have h1 := he (3 * i) (3 * i + 1) (by omega)
    have h2 := he (3 * i) (3 * i + 2) (by omega)
    have h3 := he (3 * i + 1) (3 * i + 2) (by omega)
    unfold maj3
    cases ha : e.getLsbD (3 * i) <;> cases hb : e.getLsbD (3 * i + 1) <;> cases hc : e.getLsbD (3 * i + 2) <;>
      simp [ha, hb, hc] at h1 h2 h3 ⊢
  refine ⟨?_, fun k hk => key _ ?_, key⟩
  · have := key 0#S (by simp)
    simpa using this
  · intro a b _ ha hb
    rw [getLsbD_one_shiftLeft hk] at ha hb
    simp at ha hb; omega

example : ∀ j k : Nat, j / 3 = k / 3 → (0b1001#24 : BitVec 24).getLsbD j = true →
    (0b1001#24 : BitVec 24).getLsbD k = true → j = k := by
  intro j k h1 h2 h3
  have hj : j < 24 := by by_contra h; rw [BitVec.getLsbD_of_ge _ j (by omega)] at h2; cases h2
  have hk : k < 24 := by by_contra h; rw [BitVec.getLsbD_of_ge _ k (by omega)] at h3; cases h3
  exact (by decide : ∀ j < 24, ∀ k < 24, j / 3 = k / 3 → (0b1001#24 : BitVec 24).getLsbD j = true →
    (0b1001#24 : BitVec 24).getLsbD k = true → j = k) j hj k hk h1 h2 h3

/-- **C35 (violated).** The interleaving puts the three copies of one logical bit next to each other: for *every*
value and *every* logical bit, the upset of the two adjacent cells `3i, 3i+1` changes the value read back. -/
theorem C35_adjacent_upset_violated {W : Nat} (h8 : 8 ∣ w) (hW : w ≤ W) (hW64 : W ≤ 64) (hS : 3 * w ≤ S)
    (v : BitVec w) (g : Garbage W) (p : FaultPattern) (i : Nat) (hi : i < w) :
    Interleaved.get (w := w) g p (Interleaved.set S v ^^^ (3#S <<< (3 * i))) ≠ v := by
  intro h
  have := C35_upset_effect h8 hW hW64 hS v (3#S <<< (3 * i)) g p i hi
  rw [h] at this
  have hb : ∀ k, k < 2 → (3#S <<< (3 * i)).getLsbD (3 * i + k) = true := by
    intro k hk
    rw [BitVec.getLsbD_shiftLeft]
    have hS2 : 2 ≤ S := by omega
    have h1 : (3#S).getLsbD k = true := by
      rw [BitVec.getLsbD_ofNat]
      have : k = 0 ∨ k = 1 := by omega
      have h3 : Nat.testBit 3 k = true := by rcases this with rfl | rfl <;> decide
      simp [h3]; omega
    have h2 : 3 * i + k - 3 * i = k := by omega
    rw [h2, h1]; simp; omega
  have h0 := hb 0 (by omega)
  have h1 := hb 1 (by omega)
  rw [Nat.add_zero] at h0
  rw [h0, h1] at this
  unfold maj3 at this
  revert this
  cases v.getLsbD i <;> simp

/-- **C35.** Scrubbing after any tolerated upset restores every physical bit, so upsets separated by scrubs never
accumulate. -/
theorem C35_scrub_restores {W : Nat} (h8 : 8 ∣ w) (hW : w ≤ W) (hW64 : W ≤ 64) (hS : 3 * w ≤ S)
    (v : BitVec w) (es : List (BitVec S)) (g : Garbage W) (p : FaultPattern)
    (hes : ∀ e ∈ es, ∀ j k, j / 3 = k / 3 → e.getLsbD j = true → e.getLsbD k = true → j = k) :
    es.foldl (fun d e => Interleaved.scrub w g p (d ^^^ e)) (Interleaved.set S v) = Interleaved.set S v := by
  induction es with
  | nil => rfl
  | cons e es ih =>
    rw [List.foldl_cons]
    have h1 : Interleaved.scrub w g p (Interleaved.set S v ^^^ e) = Interleaved.set S v := by
      unfold Interleaved.scrub
      rw [(C35_single_upset_masked_partial h8 hW hW64 hS v g p).2.2 e (hes e List.mem_cons_self)]
    rw [h1]
    exact ih (fun e he => hes e (List.mem_cons_of_mem _ he))

end interleaved

/-! ### C54: aligned triple with automatic scrubbing (4-byte types) -/

section aligned
open Verif.AlignedMem

theorem detect32_defined (a b c : BitVec 32) : ∃ p, detectFaultPattern a b c = .ok p := by
  unfold detectFaultPattern
  simp only [areByteBoundary32]
  split
  · exact ⟨_, rfl⟩
  · split
    · exact ⟨_, rfl⟩
    · split
      · exact ⟨_, rfl⟩
      · split
        · rename_i h; cases h
        · exact ⟨_, rfl⟩
        · split
          · exact ⟨_, rfl⟩
          · split <;> exact ⟨_, rfl⟩

theorem detectC32_defined (a b c : BitVec 32) : ∃ p q, detectFaultPatternWithConfidence a b c = .ok (p, q) := by
  obtain ⟨p, hp⟩ := detect32_defined a b c
  have := C04_confidence_same_pattern a b c
  rw [hp] at this
  cases h : detectFaultPatternWithConfidence a b c with
  | ub => rw [h] at this; cases this
  | ok r => exact ⟨r.1, r.2, rfl⟩

theorem scrub_copies {W : Nat} (s : State W) (v : BitVec W) :
    (AlignedMem.scrub s v).2.copy = (fun _ => v) ∧ (AlignedMem.scrub s v).2.scrubbing = s.scrubbing := by
  have : ∀ n, n ≤ 3 → (∀ j : Fin 3, j.val < n → (forN n (fun i (r : Bool × State W) => if h : i < 3 then
      (if r.2.copy ⟨i, h⟩ ≠ v then
        (true, { r.2 with copy := fun j => if j = ⟨i, h⟩ then v else r.2.copy j })
      else r) else r) (false, s)).2.copy j = v) ∧ (forN n (fun i (r : Bool × State W) => if h : i < 3 then
      (if r.2.copy ⟨i, h⟩ ≠ v then
        (true, { r.2 with copy := fun j => if j = ⟨i, h⟩ then v else r.2.copy j })
      else r) else r) (false, s)).2.scrubbing = s.scrubbing := by
    intro n
    induction n with
    | zero => intro _; exact ⟨fun j hj => absurd hj (by omega), rfl⟩
    | succ n ih =>
      intro hn
      obtain ⟨ih1, ih2⟩ := ih (by omega)
      simp only [forN]
      generalize forN n _ (false, s) = r at ih1 ih2
      rw [dif_pos (by omega)]
      by_cases hc : r.2.copy ⟨n, by omega⟩ ≠ v
      · rw [if_pos hc]
        refine ⟨fun j hj => ?_, ih2⟩
        by_cases hjn : j = ⟨n, by omega⟩
        · simp [hjn]
        · have : j.val ≠ n := fun e => hjn (Fin.ext e)
          simp only [hjn, if_false]
          exact ih1 j (by omega)
      · rw [if_neg hc]
        refine ⟨fun j hj => ?_, ih2⟩
        by_cases hjn : j = ⟨n, by omega⟩
        · rw [hjn]; simpa using hc
        · have : j.val ≠ n := fun e => hjn (Fin.ext e)
          exact ih1 j (by omega)
  obtain ⟨h1, h2⟩ := this 3 (Nat.le_refl 3)
  exact ⟨funext fun j => h1 j j.isLt, h2⟩

/-- What `get` does: it returns the bitwise majority; with scrubbing on, all copies equal it afterwards; with
scrubbing off nothing changes. -/
theorem get_spec (g : Garbage 32) (s : State 32) :
    ∃ r, AlignedMem.get g s = .ok (r, if s.scrubbing then { s with copy := fun _ => r } else s) ∧
      IsBitMajority (s.copy 0) (s.copy 1) (s.copy 2) r := by
  unfold AlignedMem.get
  by_cases h : s.copy 0 = s.copy 1 ∧ s.copy 1 = s.copy 2
  · refine ⟨s.copy 0, ?_, ?_⟩
    · rw [if_pos h]
      have e : (fun _ => s.copy 0) = s.copy := by
        funext j
        have : j = 0 ∨ j = 1 ∨ j = 2 := by
          rcases j with ⟨n, hn⟩
          have : n = 0 ∨ n = 1 ∨ n = 2 := by omega
          rcases this with rfl | rfl | rfl
          · exact Or.inl rfl
          · exact Or.inr (Or.inl rfl)
          · exact Or.inr (Or.inr rfl)
        rcases this with rfl | rfl | rfl
        · rfl
        · exact h.1
        · exact h.1.trans h.2
      rw [e]; simp
    · rw [← h.1.trans h.2, ← h.1]
      intro i _; unfold maj3; cases (s.copy 0).getLsbD i <;> rfl
  · rw [if_neg h]
    obtain ⟨p, q, hpq⟩ := detectC32_defined (s.copy 0) (s.copy 1) (s.copy 2)
    have hq := C45_confidence_in_range (by omega) _ _ _ p q hpq
    have hq1 : q < 1 := lt_of_le_of_ne hq.2.1 (fun e => h (hq.2.2.1 e))
    refine ⟨adaptiveVote (· == ·) g (s.copy 0) (s.copy 1) (s.copy 2) p, ?_, ?_⟩
    · rw [hpq]
      simp only [hq1, decide_true, Bool.and_true]
      by_cases hs : s.scrubbing = true
      · rw [if_pos hs, if_pos hs]
        have := scrub_copies s (adaptiveVote (· == ·) g (s.copy 0) (s.copy 1) (s.copy 2) p)
        obtain ⟨h1, h2⟩ := this
        generalize AlignedMem.scrub s (adaptiveVote (· == ·) g (s.copy 0) (s.copy 1) (s.copy 2) p) = r at h1 h2
        obtain ⟨b, ⟨c, f⟩⟩ := r
        simp only at h1 h2
        simp [h1, h2]
      · rw [if_neg hs, if_neg hs]
    · exact (C03_all_strategies_agree (by decide) (Nat.le_refl 32) (by decide) _ _ _ g p).2.2.2.2

/-- Events in the life of the object: reads and upsets of a copy. -/
inductive Ev where
  | read | upset (index : Nat) (x : BitVec 32)

/-- Runs events, collecting what the reads return. -/
def runEv (g : Garbage 32) : State 32 → List Ev → Outcome (List (BitVec 32))
  | _, [] => .ok []
  | s, .read :: es => (AlignedMem.get g s).bind fun (r, s') => (runEv g s' es).bind fun rs => .ok (r :: rs)
  | s, .upset i x :: es => runEv g (corruptCopy s i x) es

/-- Between two reads at most one copy is hit (any number of times). `hit` is the copy hit since the last read. -/
def OnePerRead : Option Nat → List Ev → Prop
  | _, [] => True
  | _, .read :: es => OnePerRead none es
  | none, .upset i _ :: es => OnePerRead (some (i % 3)) es
  | some k, .upset i _ :: es => i % 3 = k ∧ OnePerRead (some k) es

def numReads : List Ev → Nat
  | [] => 0
  | .read :: es => numReads es + 1
  | .upset _ _ :: es => numReads es

theorem majority_two {w : Nat} {x a b c r : BitVec w} (h : TwoAgree x a b c) (hr : IsBitMajority a b c r) : r = x := by
  apply BitVec.eq_of_getLsbD_eq
  intro i hi
  rw [hr i hi]
  unfold maj3
  rcases h with ⟨rfl, rfl⟩ | ⟨rfl, rfl⟩ | ⟨rfl, rfl⟩
  · cases b.getLsbD i <;> cases c.getLsbD i <;> rfl
  · cases c.getLsbD i <;> cases b.getLsbD i <;> rfl
  · cases c.getLsbD i <;> cases a.getLsbD i <;> rfl

/-- **C54.** With scrubbing on (the default), for every value and every history in which at most one copy is hit
between consecutive reads (each time possibly a different copy, with arbitrary values), every read is defined and
returns the value stored: upsets never accumulate across reads. -/
theorem C54_scrubbing_reads (g : Garbage 32) (v : BitVec 32) (es : List Ev) (h : OnePerRead none es) :
    runEv g (AlignedMem.new v) es = .ok (List.replicate (numReads es) v) := by
  suffices ∀ (o : Option Nat) (s : State 32), s.scrubbing = true →
      (∀ j : Fin 3, o ≠ some j.val → s.copy j = v) → (∀ k, o = some k → k < 3) → OnePerRead o es →
      runEv g s es = .ok (List.replicate (numReads es) v) from
    this none (AlignedMem.new v) rfl (fun _ _ => rfl) (by simp) h
  clear h
  induction es with
  | nil => intro o s _ _ _ _; rfl
  | cons e es ih =>
    intro o s hs hc hk ho
    cases e with
    | read =>
      obtain ⟨r, hr, hm⟩ := get_spec g s
      have htwo : TwoAgree v (s.copy 0) (s.copy 1) (s.copy 2) := by
        cases o with
        | none => exact Or.inl ⟨hc 0 (by simp), hc 1 (by simp)⟩
        | some k =>
          have := hk k rfl
          have : k = 0 ∨ k = 1 ∨ k = 2 := by omega
          rcases this with rfl | rfl | rfl
          · exact Or.inr (Or.inr ⟨hc 1 (by simp), hc 2 (by simp)⟩)
          · exact Or.inr (Or.inl ⟨hc 0 (by simp), hc 2 (by simp)⟩)
          · exact Or.inl ⟨hc 0 (by simp), hc 1 (by simp)⟩
      have hrv := majority_two htwo hm
      subst hrv
      rw [hs] at hr
      have e1 : runEv g s (.read :: es) = (runEv g { s with copy := fun _ => r } es).bind fun rs => .ok (r :: rs) := by
        simp only [runEv, hr, Outcome.bind, if_true, hs]
      rw [e1, ih none _ (by simpa using hs) (fun _ _ => rfl) (by simp) (by cases o <;> exact ho)]
      simp [Outcome.bind, numReads, List.replicate_succ]
    | upset i x =>
      have e1 : runEv g s (.upset i x :: es) = runEv g (corruptCopy s i x) es := rfl
      rw [e1]
      have hcor : ∀ j : Fin 3, some (i % 3) ≠ some j.val → s.copy j = v → (corruptCopy s i x).copy j = v := by
        intro j hj hv
        have : ¬ j.val = i % 3 := fun e => hj (by rw [e])
        simp [corruptCopy, this, hv]
      cases o with
      | none =>
        exact ih (some (i % 3)) _ hs (fun j hj => hcor j hj (hc j (by simp)))
          (by intro k hk; cases hk; omega) ho
      | some k =>
        obtain ⟨h1, h2⟩ := ho
        subst h1
        exact ih (some (i % 3)) _ hs (fun j hj => hcor j hj (hc j hj)) (by intro k hk; cases hk; omega) h2

/-- Copies 0, 2 and 1 are hit in turn; without the scrubs in between the value would be lost. -/
example : OnePerRead none [.upset 0 7, .upset 3 9, .read, .upset 2 0, .read, .upset 1 5, .read] := by
  simp [OnePerRead]

/-- **C54.** With scrubbing off, hits that are all on one copy are still masked, and nothing else changes the
copies. -/
theorem C54_no_scrubbing_one_copy (g : Garbage 32) (v : BitVec 32) (k : Nat) (es : List Ev)
    (h : ∀ i x, Ev.upset i x ∈ es → i % 3 = k % 3) :
    runEv g (enableScrubbing (AlignedMem.new v) false) es = .ok (List.replicate (numReads es) v) := by
  suffices ∀ s : State 32, s.scrubbing = false → (∀ j : Fin 3, j.val ≠ k % 3 → s.copy j = v) →
      runEv g s es = .ok (List.replicate (numReads es) v) from
    this _ rfl (fun _ _ => rfl)
  induction es with
  | nil => intro s _ _; rfl
  | cons e es ih =>
    intro s hs hc
    have ih' := ih (fun i x hm => h i x (List.mem_cons_of_mem _ hm))
    cases e with
    | read =>
      obtain ⟨r, hr, hm⟩ := get_spec g s
      have htwo : TwoAgree v (s.copy 0) (s.copy 1) (s.copy 2) := by
        have : k % 3 = 0 ∨ k % 3 = 1 ∨ k % 3 = 2 := by omega
        rcases this with h | h | h
        · exact Or.inr (Or.inr ⟨hc 1 (by simp [h]), hc 2 (by simp [h])⟩)
        · exact Or.inr (Or.inl ⟨hc 0 (by simp [h]), hc 2 (by simp [h])⟩)
        · exact Or.inl ⟨hc 0 (by simp [h]), hc 1 (by simp [h])⟩
      have hrv := majority_two htwo hm
      subst hrv
      rw [hs] at hr
      have e1 : runEv g s (.read :: es) = (runEv g s es).bind fun rs => .ok (r :: rs) := by
        simp only [runEv, hr, Outcome.bind, Bool.false_eq_true, if_false]
      rw [e1, ih' s hs hc]
      simp [Outcome.bind, numReads, List.replicate_succ]
    | upset i x =>
      have e1 : runEv g s (.upset i x :: es) = runEv g (corruptCopy s i x) es := rfl
      rw [e1]
      refine ih' _ hs (fun j hj => ?_)
      have := h i x List.mem_cons_self
      have h2 : ¬ j.val = i % 3 := by omega
      simp [corruptCopy, h2, hc j hj]

example : ∀ i x, Ev.upset i x ∈ [Ev.upset 1 3, .read, .upset 4 8, .read] → i % 3 = 1 % 3 := by
  intro i x h; simp at h; omega

end aligned

/-! ### C55: ProtectedValue (4-byte types) -/

section pvalue
open Verif.PValue

/-- Exactly the copies of a value stored by `set(v)` of which one was overwritten by `x`. -/
def oneHit (k : Fin 3) (v x : BitVec 32) : State 32 :=
  ⟨some (if k = 0 then x else v, if k = 1 then x else v, if k = 2 then x else v), false⟩

theorem oneHit_two (k : Fin 3) (v x : BitVec 32) :
    TwoAgree v (if k = 0 then x else v) (if k = 1 then x else v) (if k = 2 then x else v) := by
  rcases k with ⟨n, hn⟩
  have : n = 0 ∨ n = 1 ∨ n = 2 := by omega
  rcases this with rfl | rfl | rfl
  · exact Or.inr (Or.inr ⟨rfl, rfl⟩)
  · exact Or.inr (Or.inl ⟨rfl, rfl⟩)
  · exact Or.inl ⟨rfl, rfl⟩

theorem get_two (g : Garbage 32) (a b c v : BitVec 32) (f : Bool) (h : TwoAgree v a b c) :
    (∃ p q, PValue.get g ⟨some (a, b, c), f⟩ = .ok (.error p q) ∧ detectFaultPatternWithConfidence a b c = .ok (p, q) ∧
      q < 7 / 10) ∨ PValue.get g ⟨some (a, b, c), f⟩ = .ok (.value v) := by
  unfold PValue.get
  simp only
  by_cases h0 : a = b ∧ b = c
  · right; rw [if_pos h0]
    obtain ⟨rfl, rfl⟩ := h0
    rcases h with ⟨h, _⟩ | ⟨h, _⟩ | ⟨h, _⟩ <;> rw [h]
  · rw [if_neg h0]
    obtain ⟨p, q, hpq⟩ := detectC32_defined a b c
    rw [hpq]
    simp only
    by_cases hq : q < 7 / 10
    · left; exact ⟨p, q, by rw [if_pos hq], rfl, hq⟩
    · right; rw [if_neg hq]
      have := (C01_integers (by decide : 8 ∣ 32) (Nat.le_refl 32) (by decide) v a b c h g p).2.2
      rw [this]

/-- **C55 (partial).** After an arbitrary hit on one copy, `get` is defined and never returns a wrong value: it
returns the stored value, or an error; and `scrub` always restores all three copies.
Missing: it should return the stored value always; see `C55_correctable_hit_reported_violated`. -/
theorem C55_never_wrong_partial (g : Garbage 32) (k : Fin 3) (v x : BitVec 32) :
    ((∃ p q, PValue.get g (oneHit k v x) = .ok (.error p q)) ∨ PValue.get g (oneHit k v x) = .ok (.value v)) ∧
    (∀ fb, PValue.getOrFallback g (oneHit k v x) fb = .ok v ∨ PValue.getOrFallback g (oneHit k v x) fb = .ok fb) ∧
    (∃ b, PValue.scrub g (oneHit k v x) = .ok (b, PValue.new v) ∧ (b = true ↔ x ≠ v)) := by
  have h2 := oneHit_two k v x
  have hg := get_two g _ _ _ v false h2
  refine ⟨?_, ?_, ?_⟩
  · rcases hg with ⟨p, q, h, _⟩ | h
    · exact Or.inl ⟨p, q, h⟩
    · exact Or.inr h
  · intro fb
    unfold getOrFallback
    rcases hg with ⟨p, q, h, _⟩ | h
    · right; unfold oneHit; rw [h]; rfl
    · left; unfold oneHit; rw [h]; rfl
  · have hxv : (((if k = 0 then x else v) = (if k = 1 then x else v)) ∧
        ((if k = 1 then x else v) = (if k = 2 then x else v))) ↔ x = v := by
      rcases k with ⟨n, hn⟩
      have : n = 0 ∨ n = 1 ∨ n = 2 := by omega
      rcases this with rfl | rfl | rfl <;> simp [eq_comm]
    unfold oneHit at hg ⊢
    unfold PValue.scrub
    simp only
    by_cases h0 : x = v
    · rw [if_pos (hxv.2 h0)]
      subst h0
      exact ⟨false, by simp [PValue.new], by simp⟩
    · rw [if_neg (fun h => h0 (hxv.1 h))]
      obtain ⟨p, hp⟩ := detect32_defined (if k = 0 then x else v) (if k = 1 then x else v) (if k = 2 then x else v)
      rw [hp]
      have := (C01_integers (by decide : 8 ∣ 32) (Nat.le_refl 32) (by decide) v _ _ _ h2 g p).2.2
      simp only [this]
      exact ⟨true, rfl, by simp [h0]⟩

theorem confidence_nonburst (a b c : BitVec 32) (p : FaultPattern) (q : ℚ) (hbase : baseConfidence 32 a b c = 9/10)
    (hd : detectFaultPatternWithConfidence a b c = .ok (p, q)) (hnb : p ≠ .burstError) : 7 / 10 ≤ q := by
  revert hd
  unfold detectFaultPatternWithConfidence
  rw [hbase]
  split
  · intro hd; injection hd with hd; injection hd with h1 h2; rw [← h2]; norm_num
  · simp only
    split
    · intro hd; injection hd with hd; injection hd with h1 h2
      rw [← h2]; norm_num
    · split
      · intro hd; injection hd with hd; injection hd with h1 h2; rw [← h2]; norm_num
      · split
        · intro hd; cases hd
        · intro hd; injection hd with hd; injection hd with h1 h2; rw [← h2]; norm_num
        · split
          · intro hd; injection hd with hd; injection hd with h1 h2; rw [← h2]; norm_num
          · split
            · intro hd; injection hd with hd; injection hd with h1 h2; exact absurd h1.symm hnb
            · intro hd; injection hd with hd; injection hd with h1 h2; rw [← h2]; norm_num

/-- **C55 (partial).** Outside burst-shaped hits the value is always returned: if the difference between the hit copy
and the stored value is not classified as a burst, `get` returns the stored value. -/
theorem C55_masked_unless_burst_partial (g : Garbage 32) (k : Fin 3) (v x : BitVec 32)
    (h : ¬ Class32 (v ^^^ x) .burstError) : PValue.get g (oneHit k v x) = .ok (.value v) := by
  rcases get_two g _ _ _ v false (oneHit_two k v x) with ⟨p, q, _, hd, hq⟩ | h'
  · exfalso
    by_cases hxv : v = x
    · subst hxv
      have : ∀ c : Prop, [Decidable c] → (if c then v else v) = v := fun c _ => by split <;> rfl
      simp only [this] at hd
      have := C45_confidence_in_range (by omega) v v v p q hd
      have h1 := this.2.2.2 ⟨rfl, rfl⟩
      rw [h1] at hq; norm_num at hq
    · -- the reported pattern is not a burst, hence the confidence is at least 0.72
      have hpat := C04_confidence_same_pattern (if k = 0 then x else v) (if k = 1 then x else v)
        (if k = 2 then x else v)
      rw [hd] at hpat
      simp only at hpat
      have hcls : Class32 (v ^^^ x) p := by
        have hc := C04_classification_32_partial v x hxv p
        rcases k with ⟨n, hn⟩
        have : n = 0 ∨ n = 1 ∨ n = 2 := by omega
        rcases this with rfl | rfl | rfl
        · exact hc.2.2.1 (by simpa using hpat.symm)
        · exact hc.2.1.1 (by simpa using hpat.symm)
        · exact hc.1.1 (by simpa using hpat.symm)
      have hbase : baseConfidence 32 (if k = 0 then x else v) (if k = 1 then x else v) (if k = 2 then x else v) = 9/10 := by
        have hz : countBits (v ^^^ v) = 0 := by
          rw [countBits_eq_popcount, popcount_eq_zero_iff, xor_eq_zero_iff']
        have hn : ∀ a b : BitVec 32, a ≠ b → countBits (a ^^^ b) ≠ 0 := by
          intro a b hab; rw [countBits_eq_popcount, ne_eq, popcount_eq_zero_iff, xor_eq_zero_iff']; exact hab
        have n1 := hn v x hxv
        have n2 := hn x v (Ne.symm hxv)
        unfold baseConfidence
        rcases k with ⟨n, hn⟩
        have : n = 0 ∨ n = 1 ∨ n = 2 := by omega
        rcases this with rfl | rfl | rfl <;> simp [countBits_zero]
      have hnb : p ≠ .burstError := fun e => h (e ▸ hcls)
      have := confidence_nonburst _ _ _ p q hbase hd hnb
      linarith
  · exact h'

/-- A two-byte scatter (bits 0 and 9) is not a burst. -/
example : ¬ Class32 (0#32 ^^^ 0x201#32) .burstError := by
  rintro ⟨_, _, k, hk, ⟨s, hs, hrun⟩, _⟩
  have h0 := hrun 0 (by omega)
  have h1 := hrun 1 (by omega)
  have hs32 : s < 32 := by omega
  exact (by decide : ∀ s < 32, ¬ ((0#32 ^^^ 0x201#32).getLsbD (s + 0) = true ∧
    (0#32 ^^^ 0x201#32).getLsbD (s + 1) = true)) s hs32 ⟨h0, h1⟩

/-- **C55 (violated).** Two intact copies agree on 0, the third was hit by a burst of three bits plus one more bit
(bits 0–2 and 9): `get` reports an error instead of the value, and `getOrFallback` returns the fallback. -/
theorem C55_correctable_hit_reported_violated (g : Garbage 32) :
    PValue.get g (oneHit 2 0 0x207#32) = .ok (.error .burstError (27/40)) ∧
    PValue.getOrFallback g (oneHit 2 0 0x207#32) 99 = .ok 99 := by
  have hd : detectFaultPatternWithConfidence 0#32 0#32 0x207#32 = .ok (.burstError, 27/40) := by
    have h1 : countBits (0x207#32 : BitVec 32) = 4 := by rw [countBits_eq_popcount]; decide
    have hx : (0#32 ^^^ 0x207#32) = 0x207#32 := by decide
    have hdp : diffPatternC 0#32 0#32 0x207#32 = 0x207#32 := by
      unfold diffPatternC; simp [countBits_zero]
    have hb : baseConfidence 32 0#32 0#32 0x207#32 = 9/10 := by
      unfold baseConfidence; simp [countBits_zero]
    have hbb : areByteBoundary 0x207#32 = .ok false := by decide
    have hww : areWordBoundary 0x207#32 = false := by unfold areWordBoundary; simp [h1]
    have hr : (runScan 0x207#32).1 = 3 := by decide
    have hbu : areBurstPattern 0x207#32 = true := by unfold areBurstPattern; simp [h1, hr]
    have hbc : burstPatternConfidence 0x207#32 = 3/4 := by unfold burstPatternConfidence; simp [h1, hr]
    unfold detectFaultPatternWithConfidence
    simp [hdp, hb, h1, areAdjacentBits_false, hbb, hww, hbu, hbc]
    norm_num
  have hget : PValue.get g (oneHit 2 0 0x207#32) = .ok (.error .burstError (27/40)) := by
    unfold PValue.get oneHit
    simp only [Fin.reduceEq, if_false, if_true]
    rw [if_neg (by decide)]
    rw [show (0 : BitVec 32) = 0#32 from rfl, hd]
    simp only
    rw [if_pos (by norm_num)]
  refine ⟨hget, ?_⟩
  unfold getOrFallback; rw [hget]; rfl

/-- **C55 (violated).** Error propagation through `transform` loses the error: the resulting object remembers the error
in a flag nobody reads, and the next `get` on it reads uninitialised copies (undefined behaviour). -/
theorem C55_transform_error_violated (g : Garbage 32) (f : BitVec 32 → BitVec 32) :
    ∃ s, PValue.transform g (oneHit 2 0 0x207#32) f = .ok s ∧ s.hasError = true ∧ PValue.get g s = .ub := by
  refine ⟨PValue.ofError, ?_, rfl, rfl⟩
  unfold transform
  rw [(C55_correctable_hit_reported_violated g).1]; rfl

/-- **C55 (partial).** On values that `get` can read, `transform` applies the function and re-establishes three equal
copies, and composes: transforming by `f` then `h` is transforming by their composition.
Missing: propagation of errors, see `C55_transform_error_violated`. -/
theorem C55_transform_partial (g : Garbage 32) (s : State 32) (v : BitVec 32) (f h : BitVec 32 → BitVec 32)
    (hs : PValue.get g s = .ok (.value v)) :
    PValue.transform g s f = .ok (PValue.new (f v)) ∧
    PValue.get g (PValue.new (f v)) = .ok (.value (f v)) ∧
    ((PValue.transform g s f).bind fun s' => PValue.transform g s' h) = PValue.transform g s (h ∘ f) := by
  have hn : ∀ x : BitVec 32, PValue.get g (PValue.new x) = .ok (.value x) := by
    intro x; unfold PValue.get PValue.new; simp
  have h1 : PValue.transform g s f = .ok (PValue.new (f v)) := by unfold transform; rw [hs]; rfl
  refine ⟨h1, hn _, ?_⟩
  rw [h1]
  unfold transform
  rw [hs]
  simp [Outcome.bind, hn]

example (g : Garbage 32) : PValue.get g (PValue.new 5#32) = .ok (.value 5#32) := by
  unfold PValue.get PValue.new; simp

end pvalue

end Verif.Props.AlignedMem
