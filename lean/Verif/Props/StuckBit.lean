import Verif.Model.StuckBit
import Verif.Lemmas.Bits
import Verif.Props.TemporalRedundancy
import Verif.Props.Checkpoint
import Mathlib.Tactic.Linarith
import Mathlib.Tactic.NormNum
/-!
Properties C50–C53: EnhancedStuckBitTMR and HybridRedundancy.
-/
namespace Verif.Props
open Verif Verif.Spec

section stuck
variable {w : Nat}
open Verif.Stuck hiding get set

/-! ### Loops -/

theorem getLsbD_setBits (p : Nat → Bool) (n : Nat) (hn : n ≤ w) (j : Nat) :
    (forN n (fun bit r => if p bit then r ||| (1#w <<< bit) else r) 0#w).getLsbD j = (decide (j < n) && p j) := by
  induction n with
  | zero => simp [forN]
  | succ n ih =>
    simp only [forN]
    have hs : (1#w <<< n).getLsbD j = decide (j = n) := getLsbD_one_shiftLeft (by omega) j
    by_cases hp : p n = true
    · rw [if_pos hp, BitVec.getLsbD_or, ih (by omega), hs]
      by_cases hj : j = n
      · subst hj; simp [hp]
      · by_cases h2 : j < n
        · simp [h2, hj, show j < n + 1 by omega]
        · simp [h2, hj, show ¬ j < n + 1 by omega]
    · rw [if_neg hp, ih (by omega)]
      by_cases hj : j = n
      · subst hj; simp [hp]
      · by_cases h2 : j < n
        · simp [h2, show j < n + 1 by omega]
        · simp [h2, show ¬ j < n + 1 by omega]

theorem getLsbD_repairLoop (mask : Nat → Bool) (copy correct : BitVec w) (n : Nat) (hn : n ≤ w) (j : Nat) :
    (forN n (fun bit c =>
      if (copy ^^^ correct).getLsbD bit && !mask bit then
        let c := c &&& ~~~ (1#w <<< bit)
        if correct.getLsbD bit then c ||| (1#w <<< bit) else c
      else c) copy).getLsbD j
      = if j < n ∧ mask j = false then correct.getLsbD j else copy.getLsbD j := by
  induction n with
  | zero => simp [forN]
  | succ n ih =>
    simp only [forN]
    have ih' := ih (by omega)
    simp only at ih'
    generalize forN n _ copy = c at ih'
    have hs : (1#w <<< n).getLsbD j = decide (j = n) := getLsbD_one_shiftLeft (by omega) j
    by_cases hj : j = n
    · subst hj
      have ih2 : c.getLsbD j = copy.getLsbD j := by rw [ih', if_neg (by omega)]
      by_cases hm : mask j = true
      · rw [if_neg (by simp [hm]), if_neg (by simp [hm]), ih2]
      · have hm' : mask j = false := by simpa using hm
        rw [if_pos (show j < j + 1 ∧ mask j = false from ⟨by omega, hm'⟩)]
        by_cases hd : (copy ^^^ correct).getLsbD j = true
        · rw [if_pos (by simp only [hd, hm', Bool.not_false, Bool.and_true])]
          by_cases hc : correct.getLsbD j = true
          · simp only [hc, if_true]
            rw [BitVec.getLsbD_or, hs]; simp
          · simp only [hc, if_false, Bool.false_eq_true]
            rw [BitVec.getLsbD_and, BitVec.getLsbD_not, hs]
            simp
        · rw [if_neg (by simp only [hd]; simp), ih2]
          have : (copy ^^^ correct).getLsbD j = false := by simpa using hd
          rw [BitVec.getLsbD_xor] at this
          cases h1 : copy.getLsbD j <;> cases h2 : correct.getLsbD j <;> simp [h1, h2] at this ⊢
    · have hiff : (j < n + 1 ∧ mask j = false) ↔ (j < n ∧ mask j = false) := by
        constructor
        · rintro ⟨h1, h2⟩; exact ⟨by omega, h2⟩
        · rintro ⟨h1, h2⟩; exact ⟨by omega, h2⟩
      rw [if_congr hiff rfl rfl, ← ih']
      split
      · split
        · rw [BitVec.getLsbD_or, BitVec.getLsbD_and, BitVec.getLsbD_not, hs]
          by_cases hjw : j < w
          · simp [hj, hjw]
          · simp [hj, BitVec.getLsbD_of_ge c j (by omega)]
        · rw [BitVec.getLsbD_and, BitVec.getLsbD_not, hs]
          by_cases hjw : j < w
          · simp [hj, hjw]
          · simp [BitVec.getLsbD_of_ge c j (by omega)]
      · rfl

theorem getLsbD_repairBits (mask : Nat → Bool) (copy correct : BitVec w) (j : Nat) :
    (repairBits mask copy correct).getLsbD j = if mask j then copy.getLsbD j else correct.getLsbD j := by
  unfold repairBits
  split
  · rename_i h; rw [h]; simp
  · rw [getLsbD_repairLoop mask copy correct w (Nat.le_refl _) j]
    by_cases hjw : j < w
    · cases hm : mask j <;> simp [hjw]
    · rw [if_neg (by omega), BitVec.getLsbD_of_ge copy j (by omega), BitVec.getLsbD_of_ge correct j (by omega)]
      simp

/-- Effect of the tracking loop over the bits of copy `i`. -/
theorem trackLoop (i : Fin 3) (diff : BitVec w) (s : State w) (n : Nat) (_hn : n ≤ w) :
    let t := forN n (trackBit i diff) s
    t.copies = s.copies ∧ t.health = s.health ∧ (∀ j, j ≠ i → t.masks j = s.masks j) ∧
    (∀ b, t.masks i b = if b < n ∧ diff.getLsbD b = true then (s.copies i).getLsbD b else s.masks i b) ∧
    (∀ b, t.counters b = if b < n ∧ diff.getLsbD b = true ∧ s.counters b < 255 then s.counters b + 1
      else s.counters b) ∧
    (∀ b, t.stuck b = true ↔ (s.stuck b = true ∨ (b < n ∧ diff.getLsbD b = true ∧ t.counters b ≥ 3))) := by
  induction n with
  | zero => simp [forN]
  | succ n ih =>
    obtain ⟨h1, h2, h3, h4, h5, h6⟩ := ih (by omega)
    simp only [forN]
    generalize forN n (trackBit i diff) s = t at h1 h2 h3 h4 h5 h6
    unfold trackBit
    by_cases hd : diff.getLsbD n = true
    · rw [if_pos hd]
      have hcn : t.counters n = s.counters n := by rw [h5 n, if_neg (by omega)]
      refine ⟨h1, h2, ?_, ?_, ?_, ?_⟩
      · intro j hj; simp only [upd, if_neg hj]; exact h3 j hj
      · intro b
        simp only [upd, if_true, updN]
        by_cases hb : b = n
        · subst hb; rw [if_pos rfl, if_pos ⟨by omega, hd⟩, h1]
        · rw [if_neg hb, h4 b]
          apply if_congr _ rfl rfl
          constructor
          · rintro ⟨a, c⟩; exact ⟨by omega, c⟩
          · rintro ⟨a, c⟩; exact ⟨by omega, c⟩
      · intro b
        simp only [updN]
        by_cases hb : b = n
        · subst hb
          rw [if_pos rfl, hcn]
          by_cases hlt : s.counters b < 255
          · rw [if_pos hlt, if_pos ⟨by omega, hd, hlt⟩]
          · rw [if_neg hlt, if_neg (by rintro ⟨_, _, h⟩; exact hlt h)]
        · rw [if_neg hb, h5 b]
          apply if_congr _ rfl rfl
          constructor
          · rintro ⟨a, c⟩; exact ⟨by omega, c⟩
          · rintro ⟨a, c⟩; exact ⟨by omega, c⟩
      · intro b
        simp only [updN]
        by_cases hb : b = n
        · subst hb
          rw [if_pos rfl]
          by_cases hge : (if t.counters b < 255 then t.counters b + 1 else t.counters b) ≥ 3
          · simp only [if_pos hge]
            exact ⟨fun _ => Or.inr ⟨by omega, hd, hge⟩, fun _ => by simp [updN]⟩
          · simp only [if_neg hge]
            rw [h6 b]
            constructor
            · rintro (h | ⟨h, _⟩)
              · exact Or.inl h
              · omega
            · rintro (h | ⟨_, _, h⟩)
              · exact Or.inl h
              · exact absurd h hge
        · rw [if_neg hb]
          have e : (if (if t.counters n < 255 then t.counters n + 1 else t.counters n) ≥ 3 then
              updN t.stuck n true else t.stuck) b = t.stuck b := by
            generalize (if t.counters n < 255 then t.counters n + 1 else t.counters n) = q
            split
            · simp only [updN, if_neg hb]
            · rfl
          rw [e, h6 b]
          constructor
          · rintro (h | ⟨a, c⟩)
            · exact Or.inl h
            · exact Or.inr ⟨by omega, c⟩
          · rintro (h | ⟨a, c⟩)
            · exact Or.inl h
            · exact Or.inr ⟨by omega, c⟩
    · rw [if_neg hd]
      have hiff : ∀ b (Q : Prop), (b < n + 1 ∧ diff.getLsbD b = true ∧ Q) ↔ (b < n ∧ diff.getLsbD b = true ∧ Q) := by
        intro b Q
        constructor
        · rintro ⟨a, c, d⟩
          refine ⟨?_, c, d⟩
          rcases Nat.lt_succ_iff_lt_or_eq.mp a with a | a
          · exact a
          · rw [a] at c; exact absurd c hd
        · rintro ⟨a, c⟩; exact ⟨by omega, c⟩
      refine ⟨h1, h2, h3, ?_, ?_, ?_⟩
      · intro b; rw [h4 b]
        apply if_congr _ rfl rfl
        have := hiff b True
        simp only [and_true] at this
        exact this.symm
      · intro b; rw [h5 b]
        exact if_congr (hiff b _).symm rfl rfl
      · intro b; rw [h6 b, hiff b]

theorem trackCopy_spec (voted : BitVec w) (i : Fin 3) (s : State w) :
    let t := trackCopy voted i s
    t.copies = s.copies ∧ t.health = s.health ∧ (∀ j, j ≠ i → t.masks j = s.masks j) ∧
    (∀ b, t.masks i b = if b < w ∧ (s.copies i ^^^ voted).getLsbD b = true then (s.copies i).getLsbD b
      else s.masks i b) ∧
    (∀ b, t.counters b = if b < w ∧ (s.copies i ^^^ voted).getLsbD b = true ∧ s.counters b < 255
      then s.counters b + 1 else s.counters b) ∧
    (∀ b, t.stuck b = true ↔ (s.stuck b = true ∨
      (b < w ∧ (s.copies i ^^^ voted).getLsbD b = true ∧ t.counters b ≥ 3))) := by
  unfold trackCopy
  split
  · rename_i h
    have hx : s.copies i ^^^ voted = 0#w := by rw [h]; simp
    rw [hx]
    simp
  · exact trackLoop i _ s w (Nat.le_refl _)

theorem getStandard_frame (s : State w) :
    (getStandard s).2.copies = s.copies ∧ (getStandard s).2.masks = s.masks ∧
    (getStandard s).2.stuck = s.stuck ∧ (getStandard s).2.counters = s.counters := by
  unfold getStandard
  simp only
  repeat' split
  all_goals exact ⟨rfl, rfl, rfl, rfl⟩

theorem get_frame (s : State w) :
    (Stuck.get s).2.copies = s.copies ∧ (Stuck.get s).2.masks = s.masks ∧
    (Stuck.get s).2.stuck = s.stuck ∧ (Stuck.get s).2.counters = s.counters := by
  unfold Stuck.get
  split
  · exact ⟨rfl, rfl, rfl, rfl⟩
  · exact getStandard_frame s

theorem getStandard_two (s : State w) (v : BitVec w) (h : TwoAgree v (s.copies 0) (s.copies 1) (s.copies 2)) :
    (getStandard s).1 = v := by
  unfold getStandard
  simp only
  rcases h with ⟨h0, h1⟩ | ⟨h0, h2⟩ | ⟨h1, h2⟩
  · rw [if_pos (Or.inl (h0.trans h1.symm)), if_pos (h0.trans h1.symm)]; exact h0
  · rw [if_pos (Or.inr (h0.trans h2.symm))]; split <;> exact h0
  · by_cases h : s.copies 0 = s.copies 1 ∨ s.copies 0 = s.copies 2
    · rw [if_pos h]
      have : s.copies 0 = v := by rcases h with h | h <;> rw [h] <;> assumption
      split <;> exact this
    · rw [if_neg h, if_pos (h1.trans h2.symm)]; exact h1

/-- The state is undamaged outside copy `k`: the other two hold `v` and have no bit recorded as stuck. -/
def Confined (k : Fin 3) (v : BitVec w) (s : State w) : Prop :=
  ∀ j, j ≠ k → s.copies j = v ∧ ∀ b, s.masks j b = false

theorem Confined.two {k : Fin 3} {v : BitVec w} {s : State w} (h : Confined k v s) :
    TwoAgree v (s.copies 0) (s.copies 1) (s.copies 2) := by
  match k, h with
  | 0, h => exact Or.inr (Or.inr ⟨(h 1 (by decide)).1, (h 2 (by decide)).1⟩)
  | 1, h => exact Or.inr (Or.inl ⟨(h 0 (by decide)).1, (h 2 (by decide)).1⟩)
  | 2, h => exact Or.inl ⟨(h 0 (by decide)).1, (h 1 (by decide)).1⟩

theorem awareBit_confined {k : Fin 3} {v : BitVec w} {s : State w} (h : Confined k v s) (b : Nat) :
    awareBit s b = v.getLsbD b := by
  unfold awareBit
  match k, h with
  | 0, h =>
    simp only [(h 1 (by decide)).1, (h 2 (by decide)).1, (h 1 (by decide)).2 b, (h 2 (by decide)).2 b]
    generalize weightedBit s b = q
    cases q <;> cases s.stuck b <;> cases s.masks 0 b <;> cases v.getLsbD b <;> cases (s.copies 0).getLsbD b <;> decide
  | 1, h =>
    simp only [(h 0 (by decide)).1, (h 2 (by decide)).1, (h 0 (by decide)).2 b, (h 2 (by decide)).2 b]
    generalize weightedBit s b = q
    cases q <;> cases s.stuck b <;> cases s.masks 1 b <;> cases v.getLsbD b <;> cases (s.copies 1).getLsbD b <;> decide
  | 2, h =>
    simp only [(h 0 (by decide)).1, (h 1 (by decide)).1, (h 0 (by decide)).2 b, (h 1 (by decide)).2 b]
    generalize weightedBit s b = q
    cases q <;> cases s.stuck b <;> cases s.masks 2 b <;> cases v.getLsbD b <;> cases (s.copies 2).getLsbD b <;> decide

theorem get_confined {k : Fin 3} {v : BitVec w} {s : State w} (h : Confined k v s) : (Stuck.get s).1 = v := by
  unfold Stuck.get
  split
  · unfold getAware
    split
    · rename_i hall
      have h2 := h.two
      rcases h2 with ⟨h0, _⟩ | ⟨h0, _⟩ | ⟨h1, _⟩
      · exact h0
      · exact h0
      · exact hall.1.trans h1
    · apply BitVec.eq_of_getLsbD_eq
      intro j hj
      rw [getLsbD_setBits _ w (Nat.le_refl _), awareBit_confined h]
      simp [hj]
  · exact getStandard_two s v h.two

theorem confined_congr {k : Fin 3} {v : BitVec w} {s t : State w} (h : Confined k v s)
    (h1 : t.copies = s.copies) (h2 : t.masks = s.masks) : Confined k v t := by
  intro j hj
  rw [h1, h2]; exact h j hj

theorem confined_track {k : Fin 3} {v : BitVec w} {s : State w} (h : Confined k v s) (i : Fin 3) :
    Confined k v (trackCopy v i s) := by
  obtain ⟨h1, _, h3, h4, _, _⟩ := trackCopy_spec v i s
  intro j hj
  refine ⟨by rw [h1]; exact (h j hj).1, ?_⟩
  intro b
  by_cases hji : j = i
  · subst hji
    rw [h4 b, (h j hj).1]
    simp [(h j hj).2 b]
  · rw [h3 j hji]; exact (h j hj).2 b

theorem confined_updateTracking {k : Fin 3} {v : BitVec w} {s : State w} (h : Confined k v s) :
    Confined k v (updateTracking s) := by
  unfold updateTracking
  simp only
  rw [getStandard_two s v h.two]
  have hf := getStandard_frame s
  exact confined_track (confined_track (confined_track (confined_congr h hf.1 hf.2.1) 0) 1) 2

theorem confined_repair {k : Fin 3} {v : BitVec w} {s : State w} (h : Confined k v s) :
    Confined k v (repair s) := by
  have h' := confined_updateTracking h
  have hg := get_confined h'
  obtain ⟨f1, f2, _, _⟩ := get_frame (updateTracking s)
  intro j hj
  obtain ⟨h1, h2⟩ := h' j hj
  unfold repair
  simp only
  rw [hg, f1, f2]
  refine ⟨?_, h2⟩
  rw [h1]
  unfold repairBits
  rw [if_pos rfl]

theorem confined_corrupt {k : Fin 3} {v : BitVec w} {s : State w} (h : Confined k v s) (i : Nat) (x : BitVec w)
    (hi : i = k.val ∨ 3 ≤ i) : Confined k v (corruptCopy s i x) := by
  unfold corruptCopy
  split
  · rename_i hlt
    intro j hj
    refine ⟨?_, (h j hj).2⟩
    simp only [upd]
    rw [if_neg]
    · exact (h j hj).1
    · intro heq
      rcases hi with hi | hi
      · apply hj; apply Fin.ext; rw [heq]; exact hi
      · omega
  · exact h

/-- Events that touch at most copy `k`. -/
def OnlySlot (k : Fin 3) : Op w → Prop
  | .get => True
  | .repair => True
  | .set _ => False
  | .corrupt i _ => i = k.val ∨ 3 ≤ i

theorem confined_run {k : Fin 3} {v : BitVec w} (ops : List (Op w)) (hops : ∀ op ∈ ops, OnlySlot k op) :
    ∀ s : State w, Confined k v s → Confined k v (run s ops) := by
  induction ops with
  | nil => intro s h; exact h
  | cons op ops ih =>
    intro s h
    apply ih (fun o ho => hops o (List.mem_cons_of_mem _ ho))
    have hop := hops op (by simp)
    cases op with
    | get => exact confined_congr h (get_frame s).1 (get_frame s).2.1
    | set v' => exact absurd hop (by simp [OnlySlot])
    | repair => exact confined_repair h
    | corrupt i x => exact confined_corrupt h i x hop

/-- **C50.** After `set(v)` (in any prior state), for every history of reads, repairs and arbitrary
corruptions confined to one copy — however often, including enough repeats for bits to be declared stuck —
`get()` returns `v`. -/
theorem C50_one_copy_masked (k : Fin 3) (v : BitVec w) (s : State w) (ops : List (Op w))
    (hops : ∀ op ∈ ops, OnlySlot k op) : (Stuck.get (run (Stuck.set v s) ops)).1 = v :=
  get_confined (confined_run ops hops _ (fun _ _ => ⟨rfl, fun _ => rfl⟩))

/-- Non-vacuity of C50: enough repairs for bit 0 to be declared stuck. -/
example : let ops : List (Op 8) := [.corrupt 1 0xFF#8, .repair, .repair, .repair, .corrupt 1 0x0F#8]
    (run (Stuck.set 0xF0#8 (new 0#8)) ops).stuck 0 = true ∧ (Stuck.get (run (Stuck.set 0xF0#8 (new 0#8)) ops)).1 = 0xF0#8 := by
  decide +kernel

/-! ### Repair -/

theorem track3_spec (v : BitVec w) (s : State w) (j : Fin 3) (b : Nat) :
    (trackCopy v 2 (trackCopy v 1 (trackCopy v 0 s))).copies = s.copies ∧
    (trackCopy v 2 (trackCopy v 1 (trackCopy v 0 s))).masks j b =
      if b < w ∧ (s.copies j ^^^ v).getLsbD b = true then (s.copies j).getLsbD b else s.masks j b := by
  obtain ⟨b1, _, b3, b4, _, _⟩ := trackCopy_spec v 0 s
  obtain ⟨c1, _, c3, c4, _, _⟩ := trackCopy_spec v 1 (trackCopy v 0 s)
  obtain ⟨d1, _, d3, d4, _, _⟩ := trackCopy_spec v 2 (trackCopy v 1 (trackCopy v 0 s))
  refine ⟨by rw [d1, c1, b1], ?_⟩
  match j with
  | 0 => rw [d3 0 (by decide), c3 0 (by decide), b4 b]
  | 1 => rw [d3 1 (by decide), c4 b, b1, b3 1 (by decide)]
  | 2 => rw [d4 b, c1, b1, c3 2 (by decide), b3 2 (by decide)]

/-- **C51 (what repair does).** After `set(v)` and one upset of copy `k` to `x`, `repair()` clears exactly the
1→0 flips: copy `k` becomes `v ||| x`, the other copies keep `v`.  Missing from the full property: 0→1 flips
are never repaired (see the next theorem). -/
theorem C51_repair_clears_lost_bits_partial (k : Fin 3) (v x : BitVec w) (s : State w) :
    (repair (corruptCopy (Stuck.set v s) k.val x)).copies = fun j => if j = k then v ||| x else v := by
  have h0 : Confined k v (corruptCopy (Stuck.set v s) k.val x) :=
    confined_corrupt (s := Stuck.set v s) (fun _ _ => ⟨rfl, fun _ => rfl⟩) k.val x (Or.inl rfl)
  have hcop : (corruptCopy (Stuck.set v s) k.val x).copies k = x := by
    unfold corruptCopy
    rw [dif_pos k.isLt]
    simp [upd]
  have hmask : ∀ b, (corruptCopy (Stuck.set v s) k.val x).masks k b = false := by
    intro b
    unfold corruptCopy
    rw [dif_pos k.isLt]
    rfl
  generalize corruptCopy (Stuck.set v s) k.val x = t at h0 hcop hmask
  funext j
  by_cases hj : j = k
  · subst hj
    rw [if_pos rfl]
    have h1 := confined_updateTracking h0
    have hg := get_confined h1
    obtain ⟨f1, f2, _, _⟩ := get_frame (updateTracking t)
    have hfin : (repair t).copies j = repairBits ((updateTracking t).masks j) ((updateTracking t).copies j) v := by
      unfold repair
      simp only
      rw [hg, f1, f2]
    rw [hfin]
    -- masks and copies after tracking
    have hv := getStandard_two t v h0.two
    obtain ⟨g1, g2, _, _⟩ := getStandard_frame t
    have hut : updateTracking t = trackCopy v 2 (trackCopy v 1 (trackCopy v 0 (getStandard t).2)) := by
      unfold updateTracking; simp only; rw [hv]
    have key : (updateTracking t).copies j = x ∧ ∀ b, (updateTracking t).masks j b =
        (decide (b < w) && (x.getLsbD b && !v.getLsbD b)) := by
      have hbit : ∀ b, (if b < w ∧ (x ^^^ v).getLsbD b = true then x.getLsbD b else false)
          = (decide (b < w) && (x.getLsbD b && !v.getLsbD b)) := by
        intro b
        rw [BitVec.getLsbD_xor]
        by_cases hb : b < w
        · cases x.getLsbD b <;> cases v.getLsbD b <;> simp [hb]
        · simp [hb]
      rw [hut]
      refine ⟨by rw [(track3_spec v (getStandard t).2 j 0).1, g1, hcop], ?_⟩
      intro b
      rw [← hbit b, (track3_spec v (getStandard t).2 j b).2, g1, g2, hcop, hmask]
    apply BitVec.eq_of_getLsbD_eq
    intro b hb
    rw [getLsbD_repairBits, key.1, key.2 b, BitVec.getLsbD_or]
    cases x.getLsbD b <;> cases v.getLsbD b <;> simp [hb]
  · rw [if_neg hj]; exact (confined_repair h0 j hj).1

example : (repair (corruptCopy (Stuck.set 0xF0#8 (new 0#8)) 2 0xCC#8)).copies 2 = 0xFC#8 := by decide +kernel

/-- **C51 is violated.** `repair()` should restore the protection level: after `set(0)`, one transient upset of
bit 0 in copy 0, `repair()`, and one later upset of bit 0 in copy 1, `get()` returns the wrong value — the
first upset is treated as a stuck bit at once and never repaired. -/
theorem C51_repair_restores_protection_violated :
    let s := repair (corruptCopy (Stuck.set 0#8 (new 0#8)) 0 1#8)
    s.copies 0 = 1#8 ∧ s.stuck 0 = false ∧ (Stuck.get (corruptCopy s 1 1#8)).1 = 1#8 := by
  decide +kernel

/-! ### Health scores and stuck-bit reports -/

/-- Health bounds. -/
def SHealthOk (s : State w) : Prop := ∀ i, (1 / 10 : ℚ) ≤ s.health i ∧ s.health i ≤ 1

theorem sHealthOk_update (s : State w) (h : SHealthOk s) (i : Fin 3) (c : Bool) :
    SHealthOk (updateHealth s i c) := by
  intro j
  unfold updateHealth upd
  simp only
  by_cases hj : j = i
  · rw [if_pos hj]
    obtain ⟨h1, h2⟩ := h i
    cases c
    · simp only [Bool.false_eq_true, if_false]
      exact ⟨le_max_left _ _, max_le (by norm_num) (by linarith)⟩
    · simp only [if_true]
      exact ⟨le_min (by norm_num) (by linarith), min_le_left _ _⟩
  · rw [if_neg hj]; exact h j

theorem sHealthOk_getStandard (s : State w) (h : SHealthOk s) : SHealthOk (getStandard s).2 := by
  unfold getStandard
  simp only
  split
  · split
    · exact sHealthOk_update _ (sHealthOk_update _ (sHealthOk_update _ h _ _) _ _) _ _
    · exact sHealthOk_update _ (sHealthOk_update _ (sHealthOk_update _ h _ _) _ _) _ _
  · split
    · exact sHealthOk_update _ (sHealthOk_update _ (sHealthOk_update _ h _ _) _ _) _ _
    · exact h

theorem sHealthOk_get (s : State w) (h : SHealthOk s) : SHealthOk (Stuck.get s).2 := by
  unfold Stuck.get
  split
  · exact h
  · exact sHealthOk_getStandard s h

theorem sHealthOk_track (s : State w) (h : SHealthOk s) (v : BitVec w) (i : Fin 3) :
    SHealthOk (trackCopy v i s) := by
  obtain ⟨_, h2, _⟩ := trackCopy_spec v i s
  intro j; rw [h2]; exact h j

theorem sHealthOk_repair (s : State w) (h : SHealthOk s) : SHealthOk (repair s) := by
  have h1 : SHealthOk (updateTracking s) :=
    sHealthOk_track _ (sHealthOk_track _ (sHealthOk_track _ (sHealthOk_getStandard s h) _ _) _ _) _ _
  have h2 := sHealthOk_get _ h1
  intro i
  unfold repair
  simp only
  generalize Stuck.get (updateTracking s) = r at h2
  unfold repairHealth
  obtain ⟨h3, h4⟩ := h2 i
  split
  · exact ⟨le_min (by norm_num) (by simp only; linarith), min_le_left _ _⟩
  · split
    · exact ⟨le_min (by norm_num) (by simp only; linarith), le_trans (min_le_left _ _) (by norm_num)⟩
    · exact ⟨le_max_left _ _, max_le (by norm_num) (by simp only; linarith)⟩

/-- **C52 (health).** For every history the health scores stay in [0.1, 1]. -/
theorem C52_health_bounds (v : BitVec w) (ops : List (Op w)) (i : Fin 3) :
    (1 / 10 : ℚ) ≤ (run (new v) ops).health i ∧ (run (new v) ops).health i ≤ 1 := by
  have key : ∀ (s : State w), SHealthOk s → SHealthOk (run s ops) := by
    induction ops with
    | nil => intro s h; exact h
    | cons op ops ih =>
      intro s h
      apply ih
      cases op with
      | get => exact sHealthOk_get s h
      | set v' => intro j; exact ⟨by norm_num [step, Stuck.set], by norm_num [step, Stuck.set]⟩
      | repair => exact sHealthOk_repair s h
      | corrupt k x =>
        intro j
        simp only [step, corruptCopy]
        split <;> exact h j
  exact key (new v) (fun j => ⟨by norm_num [new], by norm_num [new]⟩) i

/-- Is this event a call of `repair()`? -/
def isRepair : Op w → Bool
  | .repair => true
  | _ => false

/-- Is this event a call of `set`? -/
def isSet : Op w → Bool
  | .set _ => true
  | _ => false

theorem getStandard_mem (s : State w) : ∃ i, (getStandard s).1 = s.copies i := by
  unfold getStandard
  simp only
  split
  · split <;> exact ⟨0, rfl⟩
  · split
    · exact ⟨1, rfl⟩
    · exact ⟨_, rfl⟩

/-- Counter discipline: a bit is flagged only with a counter of at least 3. -/
def FlagOk (n : Nat) (s : State w) : Prop :=
  (∀ b, s.stuck b = true → 3 ≤ s.counters b) ∧ ∀ b, s.counters b ≤ 2 * n

theorem track_flag (s : State w) (v : BitVec w) (i : Fin 3) (m : Nat)
    (h1 : ∀ b, s.stuck b = true → 3 ≤ s.counters b) (h2 : ∀ b, s.counters b ≤ m) :
    (∀ b, (trackCopy v i s).stuck b = true → 3 ≤ (trackCopy v i s).counters b) ∧
    (∀ b, (trackCopy v i s).counters b ≤ if s.copies i = v then m else m + 1) ∧
    (trackCopy v i s).copies = s.copies := by
  have hx : s.copies i = v → trackCopy v i s = s := by
    intro h; unfold trackCopy; rw [if_pos h]
  obtain ⟨e1, _, _, _, e5, e6⟩ := trackCopy_spec v i s
  refine ⟨?_, ?_, e1⟩
  · intro b hb
    rcases (e6 b).mp hb with h | ⟨_, _, h⟩
    · have := h1 b h
      rw [e5 b]; split <;> omega
    · exact h
  · intro b
    by_cases hv : s.copies i = v
    · rw [if_pos hv, hx hv]; exact h2 b
    · rw [if_neg hv, e5 b]
      have := h2 b
      split <;> omega

theorem flag_repair (n : Nat) (s : State w) (h : FlagOk n s) : FlagOk (n + 1) (repair s) := by
  obtain ⟨f1, f2, f3, f4⟩ := getStandard_frame s
  have hut : FlagOk (n + 1) (updateTracking s) := by
    unfold updateTracking
    simp only
    obtain ⟨k, hk⟩ := getStandard_mem s
    generalize getStandard s = r at f1 f2 f3 f4 hk
    have a0 := track_flag r.2 r.1 0 (2 * n) (by rw [f3, f4]; exact h.1) (by rw [f4]; exact h.2)
    have a1 := track_flag (trackCopy r.1 0 r.2) r.1 1 _ a0.1 a0.2.1
    have a2 := track_flag (trackCopy r.1 1 (trackCopy r.1 0 r.2)) r.1 2 _ a1.1 a1.2.1
    refine ⟨a2.1, ?_⟩
    intro b
    have := a2.2.1 b
    rw [a1.2.2, a0.2.2, f1] at this
    have hk' : s.copies 0 = r.1 ∨ s.copies 1 = r.1 ∨ s.copies 2 = r.1 := by
      match k, hk with
      | 0, hk => exact Or.inl hk.symm
      | 1, hk => exact Or.inr (Or.inl hk.symm)
      | 2, hk => exact Or.inr (Or.inr hk.symm)
    by_cases c0 : s.copies 0 = r.1 <;> by_cases c1 : s.copies 1 = r.1 <;> by_cases c2 : s.copies 2 = r.1 <;>
      simp only [c0, c1, c2, if_true, if_false] at this <;> first | omega | (exfalso; tauto)
  obtain ⟨_, _, g3, g4⟩ := get_frame (updateTracking s)
  unfold repair FlagOk
  simp only
  rw [g3, g4]; exact hut

/-- **C52 (stuck-bit reports).** Since the last `set`, a bit appears in `getStuckBitMask()` only if its error
counter is at least 3 and `repair()` has been called at least twice; `set` clears every report. -/
theorem C52_stuck_reports (v : BitVec w) (s : State w) (ops : List (Op w))
    (hops : ∀ op ∈ ops, isSet op = false) (b : Nat) :
    (Stuck.set v s).stuck b = false ∧
    ((run (Stuck.set v s) ops).stuck b = true →
      3 ≤ (run (Stuck.set v s) ops).counters b ∧ 2 ≤ ops.countP isRepair) := by
  refine ⟨rfl, ?_⟩
  have key : ∀ (ops : List (Op w)), (∀ op ∈ ops, isSet op = false) → ∀ n (t : State w), FlagOk n t →
      FlagOk (n + ops.countP isRepair) (run t ops) := by
    intro ops
    induction ops with
    | nil => intro _ n t ht; exact ht
    | cons op ops ih =>
      intro hops n t ht
      have ih' := ih (fun o ho => hops o (List.mem_cons_of_mem _ ho))
      have hop := hops op (by simp)
      cases op with
      | get =>
        rw [List.countP_cons_of_neg (by simp [isRepair])]
        refine ih' n _ ?_
        obtain ⟨_, _, g3, g4⟩ := get_frame t
        unfold FlagOk; simp only [step]; rw [g3, g4]; exact ht
      | set v' => simp [isSet] at hop
      | repair =>
        rw [List.countP_cons_of_pos (by simp [isRepair])]
        have := ih' (n + 1) _ (flag_repair n t ht)
        rw [show n + (ops.countP isRepair + 1) = n + 1 + ops.countP isRepair by omega]
        exact this
      | corrupt i x =>
        rw [List.countP_cons_of_neg (by simp [isRepair])]
        refine ih' n _ ?_
        unfold FlagOk; simp only [step, corruptCopy]
        split <;> exact ht
  have := key ops hops 0 (Stuck.set v s) ⟨by simp [Stuck.set], by simp [Stuck.set]⟩
  intro hb
  have h3 := this.1 b hb
  have h4 := this.2 b
  exact ⟨h3, by omega⟩

/-- Non-vacuity of C52: two repairs suffice when all three copies differ. -/
example : (run (Stuck.set 0#8 (new 0#8)) [.corrupt 1 1#8, .corrupt 2 3#8, .repair, .corrupt 1 1#8, .corrupt 2 3#8,
    .repair]).stuck 0 = true := by decide +kernel

end stuck

/-! ### C53: HybridRedundancy -/

section hybrid
variable {w : Nat}

theorem reads_confined {k : Fin 3} {v : BitVec w} : ∀ (n : Nat) (s : Stuck.State w), Confined k v s →
    (Hybrid.reads n s).1 = List.replicate n v ∧ Confined k v (Hybrid.reads n s).2 := by
  intro n
  induction n with
  | zero => intro s h; exact ⟨rfl, h⟩
  | succ n ih =>
    intro s h
    have h' : Confined k v (Stuck.get s).2 := confined_congr h (get_frame s).1 (get_frame s).2.1
    obtain ⟨h1, h2⟩ := ih _ h'
    refine ⟨?_, h2⟩
    simp only [Hybrid.reads, h1, get_confined h, List.replicate_succ]

theorem vote_replicate (n : Nat) (hn : 0 < n) (v : BitVec w) : Hybrid.vote (List.replicate n v) = .ok v := by
  unfold Hybrid.vote
  have := C19_deterministic n hn v.toNat
  unfold Temporal.execute at this
  have e : (List.range n).map (fun _ => v.toNat) = (List.replicate n v).map BitVec.toNat := by
    apply List.ext_getElem <;> simp
  rw [← e, this]
  simp

/-- Events of a `HybridRedundancy` object. -/
inductive HOp (w : Nat) where
  | get
  | set (v : BitVec w) (now : Int)
  | repair
  | rollback
  | checkpoint (now : Int)
  | environment (level : ℚ)
  | enable (max : Nat) (interval now : Int)
  | corrupt (i : Nat) (x : BitVec w)

/-- One event (`none` = undefined behaviour). -/
def hstep (s : Hybrid.State w) : HOp w → Option (Hybrid.State w)
  | .get => match Hybrid.get s with
    | (.ok _, s) => some s
    | (.ub, _) => none
  | .set v now => some (Hybrid.set v s now)
  | .repair => match Hybrid.repair s with
    | .ok (_, s) => some s
    | .ub => none
  | .rollback => some (Hybrid.rollback s).2
  | .checkpoint now => some (Hybrid.checkpoint s now)
  | .environment l => some (Hybrid.updateEnvironment s l)
  | .enable m i now => some (Hybrid.enableCheckpointing s m i now)
  | .corrupt i x => some { s with tmr := Stuck.corruptCopy s.tmr i x }

/-- A history (`none` once some step is undefined). -/
def hrun (s : Hybrid.State w) : List (HOp w) → Option (Hybrid.State w)
  | [] => some s
  | op :: ops => match hstep s op with
    | some t => hrun t ops
    | none => none

theorem reads_length : ∀ (n : Nat) (s : Stuck.State w), (Hybrid.reads n s).1.length = n := by
  intro n
  induction n with
  | zero => intro s; rfl
  | succ n ih => intro s; simp [Hybrid.reads, ih]

theorem vote_defined (l : List (BitVec w)) (h : 0 < l.length) : ∃ v, Hybrid.vote l = .ok v := by
  unfold Hybrid.vote
  have hd := C19_defined_iff l.length (fun i => (l.map BitVec.toNat).getD i 0)
  unfold Temporal.execute at hd
  have e : (List.range l.length).map (fun i => (l.map BitVec.toNat).getD i 0) = l.map BitVec.toNat := by
    apply List.ext_getElem
    · simp
    · intro i h1 h2
      simp at h1
      simp [h1]
  rw [e] at hd
  cases hf : Temporal.findMostCommonResult (l.map BitVec.toNat) with
  | ok n => exact ⟨_, rfl⟩
  | ub => rw [hf] at hd; have := hd.mp rfl; omega

theorem rollback_n (s : Hybrid.State w) : (Hybrid.rollback s).2.n = s.n := by
  unfold Hybrid.rollback
  split <;> rfl

/-- **C53 (safety).** No history of operations on a `HybridRedundancy` object has undefined behaviour: the
number of executions is 3, 4 or 5 in every reachable state. -/
theorem C53_never_undefined (v : BitVec w) (now : Int) (ops : List (HOp w)) :
    ∃ s, hrun (Hybrid.new v now) ops = some s ∧ (s.n = 3 ∨ s.n = 4 ∨ s.n = 5) := by
  have key : ∀ (ops : List (HOp w)) (s : Hybrid.State w), (s.n = 3 ∨ s.n = 4 ∨ s.n = 5) →
      ∃ t, hrun s ops = some t ∧ (t.n = 3 ∨ t.n = 4 ∨ t.n = 5) := by
    intro ops
    induction ops with
    | nil => intro s h; exact ⟨s, rfl, h⟩
    | cons op ops ih =>
      intro s h
      have hpos : 0 < s.n := by omega
      have hstep' : ∃ t, hstep s op = some t ∧ (t.n = 3 ∨ t.n = 4 ∨ t.n = 5) := by
        cases op with
        | get =>
          obtain ⟨r, hr⟩ := vote_defined (Hybrid.reads s.n s.tmr).1 (by rw [reads_length]; exact hpos)
          refine ⟨(Hybrid.get s).2, ?_, h⟩
          simp only [hstep, Hybrid.get, hr]
        | set v' now => exact ⟨_, rfl, h⟩
        | repair =>
          obtain ⟨r, hr⟩ := vote_defined (Hybrid.reads s.n (Stuck.get (Stuck.repair s.tmr)).2).1
            (by rw [reads_length]; exact hpos)
          simp only [hstep, Hybrid.repair, hr]
          by_cases hq : (Stuck.get (Stuck.repair s.tmr)).1 = r
          · rw [if_pos hq]; exact ⟨_, rfl, h⟩
          · rw [if_neg hq]
            refine ⟨(Hybrid.rollback { s with
              tmr := (Hybrid.reads s.n (Stuck.get (Stuck.repair s.tmr)).2).2 }).2, rfl, ?_⟩
            rw [rollback_n]; exact h
        | rollback =>
          refine ⟨(Hybrid.rollback s).2, rfl, ?_⟩
          rw [rollback_n]; exact h
        | checkpoint now => exact ⟨_, rfl, h⟩
        | environment l =>
          refine ⟨_, rfl, ?_⟩
          unfold Hybrid.updateEnvironment
          split
          · exact Or.inr (Or.inr rfl)
          · split
            · exact Or.inr (Or.inl rfl)
            · exact Or.inl rfl
        | enable m i now => exact ⟨_, rfl, h⟩
        | corrupt i x => exact ⟨_, rfl, h⟩
      obtain ⟨t, ht, hn⟩ := hstep'
      obtain ⟨u, hu, hun⟩ := ih t hn
      exact ⟨u, by simp only [hrun, ht]; exact hu, hun⟩
  exact key ops _ (Or.inl rfl)

/-- **C53 (masking).** After `set(v)`, an arbitrary corruption of one copy is masked by `get()`, and `repair()`
reports success. -/
theorem C53_one_copy_masked (k : Fin 3) (v x : BitVec w) (s : Hybrid.State w) (now : Int) (hn : 0 < s.n) :
    let s' := Hybrid.set v s now
    let t := { s' with tmr := Stuck.corruptCopy s'.tmr k.val x }
    (Hybrid.get t).1 = .ok v ∧ ∃ u, Hybrid.repair t = .ok (true, u) ∧ (Hybrid.get u).1 = .ok v := by
  intro s' t
  have hc : Confined k v s'.tmr := by
    have h0 : Confined k v (Stuck.set v s.tmr) := fun _ _ => ⟨rfl, fun _ => rfl⟩
    exact confined_congr h0 (get_frame _).1 (get_frame _).2.1
  have ht : Confined k v t.tmr := confined_corrupt hc k.val x (Or.inl rfl)
  have hn' : 0 < t.n := hn
  have hget : ∀ u : Hybrid.State w, 0 < u.n → Confined k v u.tmr → (Hybrid.get u).1 = .ok v := by
    intro u hu hcu
    unfold Hybrid.get
    simp only
    rw [(reads_confined u.n u.tmr hcu).1, vote_replicate _ hu]
  refine ⟨hget t hn' ht, ?_⟩
  have hr := confined_repair ht
  have hr2 : Confined k v (Stuck.get (Stuck.repair t.tmr)).2 :=
    confined_congr hr (get_frame _).1 (get_frame _).2.1
  obtain ⟨h1, h2⟩ := reads_confined t.n _ hr2
  refine ⟨{ t with tmr := (Hybrid.reads t.n (Stuck.get (Stuck.repair t.tmr)).2).2 }, ?_, hget _ hn' h2⟩
  unfold Hybrid.repair
  simp only
  rw [h1, vote_replicate _ hn']
  simp only
  rw [if_pos (get_confined hr)]

/-- **C53 (rollback).** `rollback()` succeeds exactly if the checkpoint store is non-empty, and then every read
gives the value of the newest stored checkpoint, whatever the copies held before. -/
theorem C53_rollback (s : Hybrid.State w) (hn : 0 < s.n) :
    ((Hybrid.rollback s).1 = true ↔ s.ckpt.store ≠ []) ∧
    ∀ c, s.ckpt.store.getLast? = some c →
      (Hybrid.rollback s).1 = true ∧ (Hybrid.get (Hybrid.rollback s).2).1 = .ok c.data := by
  unfold Hybrid.rollback Ckpt.getLatestCheckpoint
  refine ⟨?_, ?_⟩
  · cases h : s.ckpt.store.getLast? with
    | none =>
      rw [List.getLast?_eq_none_iff] at h
      simp [h]
    | some c =>
      have : s.ckpt.store ≠ [] := by
        intro he; rw [he] at h; simp at h
      simp [this]
  · intro c hc
    rw [hc]
    refine ⟨rfl, ?_⟩
    simp only [Option.map_some]
    have h0 : Confined 0 c.data (Stuck.set c.data s.tmr) := fun _ _ => ⟨rfl, fun _ => rfl⟩
    unfold Hybrid.get
    simp only
    rw [(reads_confined s.n _ h0).1, vote_replicate _ hn]

/-- **C53 (checkpointing) is violated.** `set()` is documented to create a checkpoint, but on an object younger
than the checkpoint interval nothing is stored: after `set(v)` within 30 seconds of construction `rollback()`
fails, for every value. -/
theorem C53_set_creates_checkpoint_violated (v₀ v : BitVec w) (t₀ now : Int) (h : now < t₀ + 30) :
    (Hybrid.rollback (Hybrid.set v (Hybrid.new v₀ t₀) now)).1 = false := by
  unfold Hybrid.set Hybrid.checkpoint Hybrid.new Ckpt.createCheckpoint Ckpt.new Hybrid.rollback
  simp only
  rw [if_pos (by omega)]
  rfl

/-- Non-vacuity: a history with a rollback to an older value. -/
example : (hrun (Hybrid.new 1#8 0) [.set 5#8 30, .set 6#8 40, .corrupt 0 9#8, .corrupt 1 9#8, .rollback]).map
    (fun s => (Hybrid.get s).1) = some (.ok 5#8) := by decide +kernel

end hybrid
end Verif.Props
