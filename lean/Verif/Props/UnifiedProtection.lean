import Verif.Props.UnifiedMemory
import Verif.Lemmas.Bits
/-!
Properties C39 and C65: protection of blocks and usable memory, unified memory manager.
-/
namespace Verif.Props.Unified
open Verif.Unified

/-! ### Lemmas -/

theorem find_update (s : State) (p : Nat) (b : Bool) {i : Info} (h : s.find p = some i) :
    (s.update p fun i => { i with prot := b }).find p = some { i with prot := b } := by
  unfold State.find at h ⊢
  unfold State.update
  simp only
  revert h
  generalize s.allocs = l0
  intro h
  induction l0 with
  | nil => simp at h
  | cons e l ih =>
    rw [List.map_cons]
    by_cases hp : e.1 = p
    · rw [if_pos hp]
      rw [List.find?_cons_of_pos (by simp [hp])] at h ⊢
      simp only [Option.map_some, Option.some.injEq] at h ⊢
      rw [h]
    · rw [if_neg hp]
      rw [List.find?_cons_of_neg (by simp [hp])] at h ⊢
      exact ih h

/-- What a successful `protectMemory` does. -/
theorem protect_true {s s' : State} {p : Nat} {l : Level} (h : s.protect p l = .ok true s') :
    p ≠ 0 ∧ ∃ i mem, s.find p = some i ∧ setup s.mem p i.size (s.cap p) l = some mem ∧ s'.mem = mem ∧
      s'.find p = some { i with prot := true } ∧ s'.blocks = s.blocks ∧
      s'.stats.protAllocs = (if i.prot then s.stats.protAllocs else s.stats.protAllocs + 1) ∧
      s'.stats.protBytes = (if i.prot then s.stats.protBytes else s.stats.protBytes + BitVec.ofNat 64 i.size) := by
  unfold State.protect at h
  cases hf : s.find p with
  | none => simp only [hf] at h; injection h with h; exact absurd h (by simp)
  | some i =>
    simp only [hf] at h
    by_cases hp : p = 0
    · rw [if_pos hp] at h; injection h with h; exact absurd h (by simp)
    · rw [if_neg hp] at h
      refine ⟨hp, i, ?_⟩
      by_cases hi : i.prot = true
      · simp only [State.removeProtection, hi, if_true] at h
        split at h
        · exact absurd h (by simp)
        · rename_i mem hm
          injection h with _ h
          refine ⟨mem, rfl, hm, by rw [← h], ?_, by rw [← h]; rfl, ?_, ?_⟩
          · rw [← h]
            have e := find_update s p false hf
            have e2 := find_update (s.update p fun i => { i with prot := false }) p true e
            exact e2
          · rw [← h, if_pos hi]
            show s.stats.protAllocs - 1 + 1 = _
            exact BitVec.sub_add_cancel _ _
          · rw [← h, if_pos hi]
            show s.stats.protBytes - _ + _ = _
            exact BitVec.sub_add_cancel _ _
      · simp only [hi, if_false, Bool.false_eq_true] at h
        split at h
        · exact absurd h (by simp)
        · rename_i mem hm
          injection h with _ h
          refine ⟨mem, rfl, hm, by rw [← h], ?_, by rw [← h]; rfl, ?_, ?_⟩
          · rw [← h]; exact find_update s p true hf
          · rw [← h, if_neg hi]
          · rw [← h, if_neg hi]

/-! ### C39 -/

/-- **C39 (violated: verification).** `verifyMemoryIntegrity(p)` never answers "intact": on every pointer of a tracked
block — in particular on every pointer just returned by `allocate` — it waits for a mutex it already holds, on all others
it returns false. -/
theorem C39_verify_violated (s s' : State) (size alignment m p q : Nat) (f : Flags) (l : Level)
    (h : s.allocate size f l alignment m = .ok p s') (hp : p ≠ 0) :
    s'.verify p = .deadlock ∧ (s.verify q = .deadlock ∨ s.verify q = .ok false s) := by
  constructor
  · rcases allocate_ok h with ⟨_, h0, _⟩ | ⟨_, _, cap, mem, mem0, _, _, rfl⟩
    · exact absurd h0 hp
    · unfold State.verify State.track
      simp
  · unfold State.verify
    split
    · exact Or.inl rfl
    · exact Or.inr rfl

/-- **C39 (violated: releasing a protected block).** After any successful `protectMemory(p, level)` — whatever the level —
`deallocate(p)` never returns. -/
theorem C39_deallocate_protected_violated {s s' : State} {p : Nat} {l : Level} (h : s.protect p l = .ok true s') :
    s'.deallocate p = .deadlock := by
  obtain ⟨hp, i, mem, _, _, _, hf, _⟩ := protect_true h
  unfold State.deallocate
  rw [if_neg hp, hf]
  rfl

/-- **C39 (violated: CANARY blocks cannot be released).** In every history the pointer `allocate` returns for a CANARY
block is rejected by `deallocate` (unless the heap has another block starting 8 bytes into this one), and the block stays
allocated. -/
theorem C39_canary_release_violated {s s' : State} {t : Trace} (hr : Run s t) {size alignment m p : Nat} {f : Flags}
    (h : s.allocate size f .canary alignment m = .ok p s') (hp : p ≠ 0) (hh : ∀ b ∈ live t, b.1 ≠ m + 8) :
    p = m + 8 ∧ s'.deallocate p = .ok false s' ∧ s'.isAllocated m = true := by
  rcases allocate_ok h with ⟨_, h0, _⟩ | ⟨hm, hpm, cap, mem, mem0, _, _, rfl⟩
  · exact absurd h0 hp
  · rw [if_pos rfl] at hpm
    refine ⟨hpm, ?_, ?_⟩
    · have hf : (State.track { s with blocks := (m, cap) :: s.blocks, mem := mem } m p size).find p = none := by
        unfold State.find
        rw [Option.map_eq_none_iff, List.find?_eq_none]
        intro e he
        simp only [State.track, List.mem_cons] at he
        rcases he with rfl | he
        · simp only [beq_iff_eq]; omega
        · simp only [beq_iff_eq]
          have := hh (key e) (by rw [← (inv_of_run hr).keys]; exact List.mem_map.mpr ⟨e, he, rfl⟩)
          rw [hpm]; exact this
      unfold State.deallocate
      rw [if_neg hp, hf]
    · rw [isAllocated_iff]
      exact ⟨_, List.mem_cons_self .., rfl⟩

/-- **C39 (violated: statistics underflow).** Protecting an unprotected block and unprotecting it again leaves
`protected_allocations` one *below* its previous value instead of restoring it; if nothing was protected before, it wraps
to `2^64 - 1`. -/
theorem C39_unprotect_violated {s s1 : State} {p : Nat} {l : Level} {i : Info} (hf : s.find p = some i)
    (hi : i.prot = false) (h : s.protect p l = .ok true s1) :
    ∃ s2, s1.unprotect p = .ok true s2 ∧ s2.stats.protAllocs = s.stats.protAllocs - 1 ∧
      s2.stats.protBytes = s.stats.protBytes - BitVec.ofNat 64 i.size ∧
      (s.stats.protAllocs = 0 → s2.stats.protAllocs.toNat = 2 ^ 64 - 1) := by
  obtain ⟨hp, j, mem, h1, _, _, h4, _, h6, h7⟩ := protect_true h
  rw [hf] at h1
  injection h1 with h1
  subst h1
  rw [hi] at h6 h7
  simp only [Bool.false_eq_true, if_false] at h6 h7
  have ha : s1.stats.protAllocs - 1 - 1 = s.stats.protAllocs - 1 := by rw [h6, BitVec.add_sub_cancel]
  have hb : s1.stats.protBytes - BitVec.ofNat 64 i.size - BitVec.ofNat 64 i.size = s.stats.protBytes - BitVec.ofNat 64 i.size := by
    rw [h7, BitVec.add_sub_cancel]
  obtain ⟨s2, e1, e2, e3⟩ : ∃ s2, s1.unprotect p = .ok true s2 ∧ s2.stats.protAllocs = s1.stats.protAllocs - 1 - 1 ∧
      s2.stats.protBytes = s1.stats.protBytes - BitVec.ofNat 64 i.size - BitVec.ofNat 64 i.size := by
    unfold State.unprotect
    rw [h4]
    simp only [Bool.not_true, Bool.false_eq_true, if_false, if_neg hp, State.removeProtection, if_true]
    exact ⟨_, rfl, rfl, rfl⟩
  refine ⟨s2, e1, by rw [e2, ha], by rw [e3, hb], ?_⟩
  intro h0
  rw [e2, ha, h0]
  decide

/-- **C39 (violated: ECC and TMR allocations).** Every allocation with level ECC or TMR and without the ALIGNED flag writes
past the end of the heap block: the set-up is given the already enlarged size. -/
theorem C39_ecc_tmr_violated (s : State) {size m : Nat} (alignment : Nat) (f : Flags) {l : Level}
    (hl : l = .ecc ∨ l = .tmr) (h0 : 0 < size) (hs : 3 * size < 2 ^ 64) (hf : f.aligned = false) (hm : m ≠ 0) :
    s.allocate size f l alignment m = .ub := by
  have hadj : ∀ mem, setup mem m (protectedSize size l) (protectedSize size l) l = none := by
    intro mem
    rcases hl with rfl | rfl
    · simp only [setup, protectedSize]
      have : w64 (size + size / 8) = size + size / 8 := Nat.mod_eq_of_lt (by omega)
      exact if_neg (by rw [this]; omega)
    · simp only [setup, protectedSize]
      have : w64 (size * 3) = size * 3 := Nat.mod_eq_of_lt (by omega)
      exact if_neg (by rw [this]; omega)
  have hne : l ≠ .none := by rcases hl with rfl | rfl <;> simp
  unfold State.allocate request
  simp only [hf, Bool.false_eq_true, if_false, if_pos hne, if_neg hm, hadj]
  split <;> rfl

/-- **C39 (violated: CANARY on an existing block destroys its content).** A successful `protectMemory(p, CANARY)` replaces
the first eight bytes of the caller's data by a constant, whatever they were. -/
theorem C39_canary_overwrites_violated {s s' : State} {p : Nat} (h : s.protect p .canary = .ok true s') (j : Nat) (hj : j < 8)
    (hlong : ∀ i, s.find p = some i → 16 ≤ i.size) : s'.mem (p + j) = canaryByte j := by
  obtain ⟨hp, i, mem, h1, h2, h3, _⟩ := protect_true h
  have := hlong i h1
  simp only [setup] at h2
  split at h2
  · injection h2 with h2
    rw [h3, ← h2]
    unfold store
    rw [if_neg (by omega), if_pos (by omega)]
    congr 1; omega
  · exact absurd h2 (by simp)

/-- **C39 (release; partial: levels NONE and CRC, blocks that are not protected afterwards, or were unprotected again).**
The pointer returned by `allocate` can be passed to `deallocate`, which succeeds and leaves the allocation counters as they
were before the allocation. -/
theorem C39_release_partial {s s' : State} {t : Trace} (hr : Run s t) {size alignment m p : Nat} {f : Flags} {l : Level}
    (hl : l = .none ∨ l = .crc) (hh : HeapOk t (.allocate size f l alignment m))
    (h : s.allocate size f l alignment m = .ok p s') (hp : p ≠ 0) :
    ∃ s'', s'.deallocate p = .ok true s'' ∧ s''.allocs = s.allocs ∧ s''.stats.curAllocs = s.stats.curAllocs ∧
      s''.stats.curBytes = s.stats.curBytes := by
  rcases allocate_ok h with ⟨_, h0, _⟩ | ⟨hm, hpm, cap, mem, mem0, _, _, rfl⟩
  · exact absurd h0 hp
  · have hne : l ≠ .canary := by rcases hl with rfl | rfl <;> simp
    rw [if_neg hne] at hpm
    subst hpm
    have hfresh := hh.resolve_left hm
    have hrest : s.allocs.filter (fun e => e.1 != p) = s.allocs := by
      rw [List.filter_eq_self]
      intro e he
      simp only [bne_iff_ne, ne_eq]
      exact hfresh (key e) (by rw [← (inv_of_run hr).keys]; exact List.mem_map.mpr ⟨e, he, rfl⟩)
    have hf : (State.track { s with blocks := (p, cap) :: s.blocks, mem := mem } p p size).find p = some ⟨p, p, size, false⟩ := by
      unfold State.find State.track
      simp
    unfold State.deallocate
    rw [if_neg hp, hf]
    simp only [Bool.false_eq_true, if_false]
    refine ⟨_, rfl, ?_, ?_, ?_⟩
    · show ((p, _) :: s.allocs).filter (fun e => e.1 != p) = _
      rw [List.filter_cons_of_neg (by simp), hrest]
    · show s.stats.curAllocs + 1 - 1 = _
      exact BitVec.add_sub_cancel _ _
    · show s.stats.curBytes + _ - _ = _
      exact BitVec.add_sub_cancel _ _

/-- **C39 (result of unprotecting).** `unprotectMemory` returns true exactly for tracked blocks; calling it for an untracked or
an unprotected block changes nothing. -/
theorem C39_unprotect_result (s : State) (p : Nat) (hp : p ≠ 0) :
    (s.find p = none → s.unprotect p = .ok false s) ∧
    (∀ i, s.find p = some i → i.prot = false → s.unprotect p = .ok true s) ∧
    (∀ i, s.find p = some i → ∃ s', s.unprotect p = .ok true s') := by
  unfold State.unprotect
  refine ⟨fun h => by rw [h], fun i h hi => by rw [h]; simp [hi], fun i h => ?_⟩
  rw [h]
  simp only
  cases i.prot
  · exact ⟨_, rfl⟩
  · simp only [Bool.not_true, Bool.false_eq_true, if_false, if_neg hp]
    exact ⟨_, rfl⟩

/-- Parity of a byte: whether its number of one bits is odd. -/
def oddOnes (b : Nat) : Bool := (List.range 8).countP (fun i => b.testBit i) % 2 = 1

theorem parity_spec : ∀ b : Fin 256, (parity b.val ≠ 0 ↔ oddOnes b.val = true) := by decide +kernel

theorem eccByte_bit (m : Nat → Nat) (p size j i : Nat) (hi : i < 8) :
    (eccByte m p size j).testBit i = (decide (8 * j + i < size) && decide (parity (m (p + (8 * j + i))) ≠ 0)) := by
  unfold eccByte
  have key : ∀ n, n ≤ 8 → ((List.range n).foldl (fun e i => if 8 * j + i < size ∧ parity (m (p + (8 * j + i))) ≠ 0 then e ||| (1 <<< i) else e) 0).testBit i =
      (decide (i < n) && (decide (8 * j + i < size) && decide (parity (m (p + (8 * j + i))) ≠ 0))) := by
    intro n
    induction n with
    | zero => intro _; simp
    | succ n ih =>
      intro hn
      rw [List.range_succ, List.foldl_append, List.foldl_cons, List.foldl_nil]
      have ih := ih (by omega)
      by_cases hc : 8 * j + n < size ∧ parity (m (p + (8 * j + n))) ≠ 0
      · rw [if_pos hc, Nat.testBit_or, ih, Nat.one_shiftLeft, Nat.testBit_two_pow]
        by_cases hin : n = i
        · subst hin; simp [hc.1, hc.2]
        · have : (i < n + 1) ↔ (i < n) := by omega
          simp [hin, this]
      · rw [if_neg hc, ih]
        by_cases hin : n = i
        · subst hin
          have : (decide (8 * j + n < size) && decide (parity (m (p + (8 * j + n))) ≠ 0)) = false := by
            rw [← Bool.not_eq_true, Bool.and_eq_true, decide_eq_true_eq, decide_eq_true_eq]; exact hc
          rw [this]; simp
        · have : (i < n + 1) ↔ (i < n) := by omega
          simp [this]
  have := key 8 (Nat.le_refl _)
  rw [this]; simp [hi]

/-- **C39 (parity area).** `protectMemory(p, ECC)` succeeding on a block of `n` bytes stores, behind these bytes, bit `i % 8` of
byte `i / 8` = parity of byte `i`, and leaves the bytes themselves alone; so a later flip of one bit of a protected
byte makes that byte's parity differ from the stored one. -/
theorem C39_parity_area {s s' : State} {p : Nat} {inf : Info} (hf : s.find p = some inf) (hb : ∀ a, s.mem a < 256)
    (h : s.protect p .ecc = .ok true s') (hu : inf.prot = false) :
    (∀ i, i < inf.size → s'.mem (p + i) = s.mem (p + i) ∧
      (s'.mem (p + inf.size + i / 8)).testBit (i % 8) = oddOnes (s'.mem (p + i))) ∧
    ∀ b k, b < 256 → k < 8 → oddOnes (b ^^^ 2 ^ k) = !oddOnes b := by
  constructor
  · intro i hi
    unfold State.protect at h
    rw [hf] at h
    simp only [hu, Bool.false_eq_true, if_false] at h
    by_cases hp : p = 0
    · rw [if_pos hp] at h; simp at h
    rw [if_neg hp] at h
    cases hs : setup s.mem p inf.size (s.cap p) .ecc with
    | none => rw [hs] at h; simp at h
    | some mem =>
      rw [hs] at h
      simp only [Res.ok.injEq, true_and] at h
      subst h
      unfold setup at hs
      simp only at hs
      split at hs
      · injection hs with hs
        subst hs
        simp only
        have e1 : store s.mem (p + inf.size) ((inf.size + 7) / 8) (eccByte s.mem p inf.size) (p + i) = s.mem (p + i) := by
          unfold store; rw [if_neg (by omega)]
        refine ⟨e1, ?_⟩
        rw [e1]
        have e2 : store s.mem (p + inf.size) ((inf.size + 7) / 8) (eccByte s.mem p inf.size) (p + inf.size + i / 8) =
            eccByte s.mem p inf.size (i / 8) := by
          unfold store; rw [if_pos (by omega)]; congr 1; omega
        rw [e2, eccByte_bit _ _ _ _ _ (by omega)]
        have e3 : 8 * (i / 8) + i % 8 = i := by omega
        rw [e3]
        have := parity_spec ⟨s.mem (p + i), hb _⟩
        simp only at this
        simp only [hi, decide_true, Bool.true_and]
        rw [Bool.eq_iff_iff, decide_eq_true_eq]
        exact this
      · exact absurd hs (by simp)
  · have key : ∀ (b : Fin 256) (k : Fin 8), oddOnes (b.val ^^^ 2 ^ k.val) = !oddOnes b.val := by decide +kernel
    intro b k hb hk
    exact key ⟨b, hb⟩ ⟨k, hk⟩

/-- Ten bytes allocated with alignment 64 leave room for the parity area. -/
example : ∃ s1 s2 i, State.allocate {} 10 { aligned := true } .none 64 4096 = .ok 4096 s1 ∧ s1.find 4096 = some i ∧
    (∀ a, s1.mem a < 256) ∧ i.prot = false ∧ s1.protect 4096 .ecc = .ok true s2 :=
  ⟨_, _, _, rfl, rfl, fun _ => by show (0 : Nat) < 256; omega, rfl, rfl⟩

/-- Specification: the blocks whose last protection request succeeded. -/
def protStep (l : List Nat) : Op × Ret → List Nat
  | (.protect p _, .bool true) => if p ∈ l then l else p :: l
  | _ => l

def protectedBlocks (t : Trace) : List Nat := t.foldl protStep []

theorem update_other (s : State) (p : Nat) (b : Bool) (q : Nat) (h : q ≠ p) :
    (s.update p fun i => { i with prot := b }).find q = s.find q := by
  unfold State.find State.update
  simp only
  induction s.allocs with
  | nil => rfl
  | cons e l ih =>
    rw [List.map_cons]
    by_cases he : e.1 = p
    · rw [if_pos he]
      rw [List.find?_cons_of_neg (by simp; omega), List.find?_cons_of_neg (by simp; omega)]
      exact ih
    · rw [if_neg he]
      by_cases hq : e.1 = q
      · rw [List.find?_cons_of_pos (by simp [hq]), List.find?_cons_of_pos (by simp [hq])]
      · rw [List.find?_cons_of_neg (by simp [hq]), List.find?_cons_of_neg (by simp [hq])]
        exact ih

theorem protect_other {s s' : State} {p : Nat} {l : Level} {b : Bool} (h : s.protect p l = .ok b s') (q : Nat) (hq : q ≠ p) :
    s'.find q = s.find q := by
  unfold State.protect at h
  cases hf : s.find p with
  | none => simp only [hf] at h; injection h with _ h; rw [← h]
  | some i =>
    simp only [hf] at h
    have hs : (if i.prot = true then s.removeProtection p i else s).find q = s.find q := by
      cases hi : i.prot with
      | false => rfl
      | true =>
        simp only [if_true, State.removeProtection, hi]
        exact update_other s p false q hq
    revert h
    generalize (if i.prot = true then s.removeProtection p i else s) = s1 at hs
    intro h
    by_cases hp : p = 0
    · rw [if_pos hp] at h; injection h with _ h; rw [← h]; exact hs
    · rw [if_neg hp] at h
      split at h
      · exact absurd h (by simp)
      · injection h with _ h
        rw [← h]
        exact (update_other s1 p true q hq).trans hs

theorem protectedBlocks_snoc (t : Trace) (e : Op × Ret) : protectedBlocks (t ++ [e]) = protStep (protectedBlocks t) e := by
  unfold protectedBlocks; rw [List.foldl_append]; rfl

/-- **C39 (protection counter; partial: histories without `unprotectMemory` and `resetStats`).** `protected_allocations`
is the number of distinct blocks for which `protectMemory` succeeded, and those are exactly the blocks flagged as
protected. -/
theorem C39_protected_count_partial {s : State} {t : Trace} (h : Run s t)
    (hno : ∀ e ∈ t, (∀ p, e.1 ≠ .unprotect p) ∧ e.1 ≠ .resetStats) :
    s.stats.protAllocs = BitVec.ofNat 64 (protectedBlocks t).length ∧
    ∀ p, p ∈ protectedBlocks t ↔ ∃ i, s.find p = some i ∧ i.prot = true := by
  induction h with
  | start => exact ⟨rfl, fun p => ⟨fun h => by simp [protectedBlocks] at h, fun ⟨i, h, _⟩ => by simp [State.find] at h⟩⟩
  | @call s s' t op r hrun hheap hstep ih =>
    obtain ⟨i1, i2⟩ := ih (fun e he => hno e (List.mem_append_left _ he))
    have hlast := hno (op, r) (List.mem_append_right _ (List.mem_singleton.mpr rfl))
    have same : ∀ s' : State, protStep (protectedBlocks t) (op, r) = protectedBlocks t →
        s'.stats.protAllocs = s.stats.protAllocs → (∀ p, (∃ i, s'.find p = some i ∧ i.prot = true) ↔
          ∃ i, s.find p = some i ∧ i.prot = true) →
        s'.stats.protAllocs = BitVec.ofNat 64 (protectedBlocks (t ++ [(op, r)])).length ∧
        ∀ p, p ∈ protectedBlocks (t ++ [(op, r)]) ↔ ∃ i, s'.find p = some i ∧ i.prot = true := by
      intro s' h1 h2 h3
      rw [protectedBlocks_snoc, h1, h2]
      exact ⟨i1, fun p => (i2 p).trans (h3 p).symm⟩
    cases op with
    | allocate size f l a m =>
      simp only [State.step] at hstep
      split at hstep
      · rename_i p s1 hs
        injection hstep with hstep; injection hstep with h1 h2
        subst h2
        rcases allocate_ok hs with ⟨_, _, rfl⟩ | ⟨hm, _, cap, mem, mem0, _, _, rfl⟩
        · exact same _ rfl rfl (fun _ => Iff.rfl)
        · refine same _ rfl rfl (fun q => ?_)
          have hfresh := hheap.resolve_left hm
          by_cases hq : m = q
          · subst hq
            constructor
            · rintro ⟨i, h1, h2⟩
              simp [State.find, State.track] at h1
              rw [← h1] at h2
              exact absurd h2 (by simp)
            · rintro ⟨i, h1, _⟩
              exact absurd rfl (hfresh (key (m, i)) (by
                rw [← (inv_of_run hrun).keys]; exact List.mem_map.mpr ⟨_, find_some h1, rfl⟩))
          · have e : (State.track { s with blocks := (m, cap) :: s.blocks, mem := mem } m p size).find q = s.find q := by
              unfold State.find State.track
              simp only
              rw [List.find?_cons_of_neg (by simpa using hq)]
            rw [e]
      · rename_i s1 hs
        injection hstep with hstep; injection hstep with h1 h2
        subst h2; subst h1
        rw [allocate_throws hs]
        exact same _ rfl rfl (fun _ => Iff.rfl)
      · exact absurd hstep (by simp)
      · exact absurd hstep (by simp)
    | deallocate p =>
      simp only [State.step] at hstep
      split at hstep
      · rename_i b s1 hs
        injection hstep with hstep; injection hstep with h1 h2
        subst h2; subst h1
        rcases deallocate_ok hs with ⟨_, rfl⟩ | ⟨_, _, i, hf, hip, rfl⟩
        · exact same _ rfl rfl (fun _ => Iff.rfl)
        · refine same _ rfl rfl (fun q => ?_)
          by_cases hq : q = p
          · subst hq
            constructor
            · rintro ⟨j, h1, _⟩
              have := find_some h1
              simp only [List.mem_filter, bne_iff_ne, ne_eq, not_true_eq_false, and_false] at this
            · rintro ⟨j, h1, h2⟩
              rw [hf] at h1
              injection h1 with h1
              rw [← h1, hip] at h2
              exact absurd h2 (by simp)
          · have e : (s.allocs.filter (fun e => e.1 != p)).find? (fun e => e.1 == q) = s.allocs.find? (fun e => e.1 == q) := by
              rw [List.find?_filter]
              congr 1
              funext e
              by_cases he : e.1 = q
              · simp [he, hq]
              · simp [he]
            unfold State.find
            simp only [e]
      · exact absurd hstep (by simp)
    | protect p l =>
      simp only [State.step] at hstep
      split at hstep
      · rename_i b s1 hs
        injection hstep with hstep; injection hstep with h1 h2
        subst h2; subst h1
        cases b with
        | false =>
          have : s1 = s := by
            unfold State.protect at hs
            cases hf : s.find p with
            | none => simp only [hf] at hs; injection hs with _ hs; exact hs.symm
            | some i =>
              simp only [hf] at hs
              have hp0 : p ≠ 0 := by
                have := (inv_of_run hrun).nonzero (key (p, i)) (by
                  rw [← (inv_of_run hrun).keys]; exact List.mem_map.mpr ⟨_, find_some hf, rfl⟩)
                exact this
              rw [if_neg hp0] at hs
              split at hs <;> exact absurd hs (by simp)
          rw [this]
          exact same _ rfl rfl (fun _ => Iff.rfl)
        | true =>
          obtain ⟨hp, i, mem, h1, h2, h3, h4, h5, h6, _⟩ := protect_true hs
          have hoth := protect_other hs
          rw [protectedBlocks_snoc]
          simp only [protStep]
          by_cases hmem : p ∈ protectedBlocks t
          · have hip : i.prot = true := by
              obtain ⟨j, j1, j2⟩ := (i2 p).mp hmem
              rw [h1] at j1; injection j1 with j1; rw [j1]; exact j2
            rw [if_pos hmem]
            rw [if_pos hip] at h6
            refine ⟨by rw [h6]; exact i1, fun q => ?_⟩
            by_cases hq : q = p
            · subst hq
              exact ⟨fun _ => ⟨_, h4, rfl⟩, fun _ => hmem⟩
            · rw [hoth q hq]; exact i2 q
          · have hip : i.prot = false := by
              cases hb : i.prot with
              | false => rfl
              | true => exact absurd ((i2 p).mpr ⟨i, h1, hb⟩) hmem
            rw [if_neg hmem]
            rw [hip] at h6
            simp only [Bool.false_eq_true, if_false] at h6
            refine ⟨?_, fun q => ?_⟩
            · rw [h6, i1, List.length_cons]
              exact (w_add _ 1).symm
            · by_cases hq : q = p
              · subst hq
                exact ⟨fun _ => ⟨_, h4, rfl⟩, fun _ => List.mem_cons_self ..⟩
              · rw [hoth q hq, List.mem_cons]
                exact ⟨fun h => (i2 q).mp (h.resolve_left hq), fun h => Or.inr ((i2 q).mpr h)⟩
      · exact absurd hstep (by simp)
    | unprotect p => exact absurd rfl (hlast.1 p)
    | verify p =>
      simp only [State.step] at hstep
      split at hstep
      · rename_i b s1 hs
        injection hstep with hstep; injection hstep with h1 h2
        subst h2; subst h1
        unfold State.verify at hs
        split at hs
        · exact absurd hs (by simp)
        · injection hs with _ hs
          rw [← hs]
          exact same _ rfl rfl (fun _ => Iff.rfl)
      · exact absurd hstep (by simp)
    | resetStats => exact absurd rfl hlast.2
    | checkForLeaks =>
      injection hstep with hstep; injection hstep with h1 h2
      subst h2; subst h1
      exact same _ rfl rfl (fun _ => Iff.rfl)
    | setLevel l =>
      injection hstep with hstep; injection hstep with h1 h2
      subst h2; subst h1
      exact same _ rfl rfl (fun _ => Iff.rfl)

/-- A history in which one block is protected (twice, with different levels) and another is not. -/
example : ∃ s t, exec {} [] [.allocate 100 {} .none 64 4096, .protect 4096 .crc, .allocate 24 {} .none 64 8192,
      .protect 4096 .canary, .protect 7 .crc] = some (s, t) ∧ Run s t ∧ protectedBlocks t = [4096] ∧
      s.stats.protAllocs = 1 ∧ s.deallocate 4096 = .deadlock ∧ s.verify 8192 = .deadlock := by
  obtain ⟨s, t, h1, h2⟩ := run_exec [.allocate 100 {} .none 64 4096, .protect 4096 .crc, .allocate 24 {} .none 64 8192,
      .protect 4096 .canary, .protect 7 .crc] {} [] Run.start (by decide)
  refine ⟨s, t, h1, h2, ?_⟩
  have e1 : (exec {} [] [.allocate 100 {} .none 64 4096, .protect 4096 .crc, .allocate 24 {} .none 64 8192,
      .protect 4096 .canary, .protect 7 .crc]).map (fun x => (protectedBlocks x.2, x.1.stats.protAllocs,
        (match x.1.deallocate 4096 with | .deadlock => true | _ => false),
        (match x.1.verify 8192 with | .deadlock => true | _ => false))) = some ([4096], 1, true, true) := by decide
  rw [h1] at e1
  simp only [Option.map_some, Option.some.injEq, Prod.mk.injEq] at e1
  refine ⟨e1.1, e1.2.1, ?_, ?_⟩
  · have := e1.2.2.1
    split at this
    · assumption
    · exact absurd this (by simp)
  · have := e1.2.2.2
    split at this
    · assumption
    · exact absurd this (by simp)

/-! ### C65 -/

/-- Bytes `allocate` adds for a protection level. -/
def overhead (size : Nat) : Level → Nat
  | .none => 0
  | .canary => 16
  | .crc => 4
  | .ecc => size / 8
  | .tmr => 2 * size

theorem adj_eq {size : Nat} {l : Level} (h : size + overhead size l < 2 ^ 64) :
    (if l ≠ .none then protectedSize size l else size) = size + overhead size l := by
  cases l with
  | none => rfl
  | canary => exact Nat.mod_eq_of_lt h
  | crc => exact Nat.mod_eq_of_lt h
  | ecc => exact Nat.mod_eq_of_lt h
  | tmr =>
    simp only [overhead] at h
    show w64 (size * 3) = size + 2 * size
    unfold w64
    rw [Nat.mod_eq_of_lt (by omega)]; omega

theorem setup_zero {mem0 mem : Nat → Nat} {m n cap : Nat} {l : Level}
    (h : setup (store mem0 m n (fun _ => 0)) m n cap l = some mem) (j : Nat)
    (hj : if l = .canary then 8 ≤ j ∧ j + 8 < n else j < n) : mem (m + j) = 0 := by
  cases l with
  | none =>
    simp only [reduceCtorEq, if_false] at hj
    simp only [setup, Option.some.injEq] at h
    rw [← h]; simp only [store]; rw [if_pos (by omega)]
  | crc =>
    simp only [reduceCtorEq, if_false] at hj
    simp only [setup] at h
    split at h
    · injection h with h
      rw [← h]; simp only [store]; rw [if_pos (by omega)]
    · exact absurd h (by simp)
  | canary =>
    rw [if_pos rfl] at hj
    simp only [setup] at h
    split at h
    · injection h with h
      rw [← h]; simp only [store]; rw [if_neg (by omega), if_neg (by omega), if_pos (by omega)]
    · exact absurd h (by simp)
  | ecc =>
    simp only [reduceCtorEq, if_false] at hj
    simp only [setup] at h
    split at h
    · injection h with h
      rw [← h]
      show (if _ then _ else _) = 0
      rw [if_neg (by omega)]
      simp only [store]; rw [if_pos (by omega)]
    · exact absurd h (by simp)
  | tmr =>
    simp only [reduceCtorEq, if_false] at hj
    simp only [setup] at h
    split at h
    · injection h with h
      rw [← h]
      show (if _ then _ else (if _ then _ else _)) = 0
      rw [if_neg (by omega), if_neg (by omega)]
      simp only [store]; rw [if_pos (by omega)]
    · exact absurd h (by simp)

theorem setup_canary {mem0 mem : Nat → Nat} {m n cap : Nat} (h : setup mem0 m n cap .canary = some mem) (hn : 16 ≤ n)
    (j : Nat) (hj : j < 8) : mem (m + j) = canaryByte j ∧ mem (m + n - 8 + j) = canaryByte j := by
  simp only [setup] at h
  split at h
  · injection h with h
    rw [← h]; simp only [store]
    constructor
    · rw [if_neg (by omega), if_pos (by omega)]; congr 1; omega
    · rw [if_pos (by omega)]; congr 1; omega
  · exact absurd h (by simp)

/-- **C65 (usable memory; partial: sizes for which size plus overhead plus alignment fits in `size_t`).** A non-null pointer
returned by `allocate` is followed by `size` bytes that lie inside the block obtained from the heap (whose capacity is a
multiple of the alignment if ALIGNED is given); with ZERO_INITIALIZED all of them are zero; and for CANARY the guard words
lie inside the block but outside those bytes. -/
theorem C65_usable_partial {s s' : State} {size alignment m p : Nat} {f : Flags} {l : Level}
    (hs : size + overhead size l + alignment < 2 ^ 64)
    (h : s.allocate size f l alignment m = .ok p s') (hp : p ≠ 0) :
    ∃ cap, s'.blocks = (m, cap) :: s.blocks ∧ m ≤ p ∧ p + size ≤ m + cap ∧
      (f.aligned = true → alignment ∣ cap) ∧
      (f.zero = true → ∀ j, j < size → s'.mem (p + j) = 0) ∧
      (l = .canary → m + 8 ≤ p ∧ p + size + 8 ≤ m + cap ∧
        (∀ j, j < 8 → s'.mem (m + j) = canaryByte j ∧ s'.mem (p + size + j) = canaryByte j)) := by
  have hadj := adj_eq (size := size) (l := l) (by omega)
  -- what the heap is asked for
  have hreq : ∀ cap, request size f l alignment = some cap →
      size + overhead size l ≤ cap ∧ (f.aligned = true → alignment ∣ cap) := by
    intro cap hr
    unfold request at hr
    simp only [hadj] at hr
    by_cases hal : f.aligned = true
    · rw [if_pos hal] at hr
      by_cases ha0 : alignment = 0
      · rw [if_pos ha0] at hr; exact absurd hr (by simp)
      · rw [if_neg ha0] at hr
        injection hr with hr
        have hw : w64 (size + overhead size l + alignment - 1) = size + overhead size l + alignment - 1 :=
          Nat.mod_eq_of_lt (by omega)
        rw [hw] at hr
        have hdm := Nat.div_add_mod (size + overhead size l + alignment - 1) alignment
        have hml := Nat.mod_lt (size + overhead size l + alignment - 1) (Nat.pos_of_ne_zero ha0)
        have hcomm : (size + overhead size l + alignment - 1) / alignment * alignment =
            alignment * ((size + overhead size l + alignment - 1) / alignment) := Nat.mul_comm _ _
        have hw2 : w64 ((size + overhead size l + alignment - 1) / alignment * alignment) =
            (size + overhead size l + alignment - 1) / alignment * alignment := Nat.mod_eq_of_lt (by omega)
        rw [hw2] at hr
        exact ⟨by omega, fun _ => ⟨_, by rw [← hr, hcomm]⟩⟩
    · rw [if_neg hal] at hr
      injection hr with hr
      exact ⟨by omega, fun h => absurd h hal⟩
  unfold State.allocate at h
  simp only [hadj] at h
  cases hr : request size f l alignment with
  | none => simp only [hr] at h; exact absurd h (by simp)
  | some cap =>
    obtain ⟨hc, hdiv⟩ := hreq cap hr
    simp only [hr] at h
    by_cases hm : m = 0
    · rw [if_pos hm] at h
      split at h
      · injection h with h1; exact absurd h1.symm hp
      · exact absurd h (by simp)
    · rw [if_neg hm, if_neg (by omega)] at h
      cases hset : setup (if f.zero then store s.mem m (size + overhead size l) (fun _ => 0) else s.mem) m
          (size + overhead size l) cap l with
      | none => simp only [hset] at h; exact absurd h (by simp)
      | some mem =>
        simp only [hset] at h
        injection h with h1 h2
        refine ⟨cap, by rw [← h2]; rfl, ?_, ?_, hdiv, ?_, ?_⟩
        · rw [← h1]; split <;> omega
        · rw [← h1]
          split
          · rename_i hl; subst hl; simp only [overhead] at hc; omega
          · omega
        · intro hz j hj
          rw [if_pos hz] at hset
          rw [← h2]
          show mem (p + j) = 0
          rw [← h1]
          by_cases hl : l = .canary
          · rw [if_pos hl, Nat.add_assoc]
            refine setup_zero hset (8 + j) ?_
            rw [if_pos hl, hl]
            simp only [overhead]; omega
          · rw [if_neg hl]
            refine setup_zero hset j ?_
            rw [if_neg hl]; omega
        · intro hl
          subst hl
          have hov : overhead size .canary = 16 := rfl
          rw [if_pos rfl] at h1
          refine ⟨by omega, by omega, fun j hj => ?_⟩
          obtain ⟨q1, q2⟩ := setup_canary hset (by omega) j hj
          rw [← h2]
          show mem (m + j) = _ ∧ mem (p + size + j) = _
          refine ⟨q1, ?_⟩
          rw [← q2]; congr 1; omega

/-- Witness: a zeroed, aligned, canary-protected block. -/
example : ∃ s', State.allocate {} 100 { zero := true, aligned := true } .canary 64 4096 = .ok 4104 s' ∧
    s'.blocks = [(4096, 128)] := by
  refine ⟨_, rfl, rfl⟩

/-- **C65 (violated: size overflow).** With CANARY protection a request of `2^64 - k` bytes (`1 ≤ k ≤ 8`) succeeds with a
non-null pointer, although the heap was asked for only `16 - k` bytes. -/
theorem C65_overflow_violated (s : State) {k m : Nat} (hk : 1 ≤ k ∧ k ≤ 8) (alignment : Nat) (hm : m ≠ 0) :
    ∃ s', s.allocate (2 ^ 64 - k) {} .canary alignment m = .ok (m + 8) s' ∧ s'.blocks = (m, 16 - k) :: s.blocks := by
  have hps : w64 (2 ^ 64 - k + 16) = 16 - k := by unfold w64; omega
  have hset : ∀ mem, ∃ mem', setup mem m (16 - k) (16 - k) .canary = some mem' := by
    intro mem
    simp only [setup]
    rw [if_pos (by omega)]
    exact ⟨_, rfl⟩
  obtain ⟨mem', hset⟩ := hset s.mem
  unfold State.allocate request
  simp only [ne_eq, reduceCtorEq, not_false_eq_true, if_true, protectedSize, Bool.false_eq_true, if_false, false_and,
    if_neg hm]
  rw [hps]
  simp only [hset]
  exact ⟨_, rfl, rfl⟩

/-- **C65 (violated: alignment).** An ALIGNED allocation with CANARY protection returns a pointer that is *not* aligned
whenever the requested alignment exceeds 8 — although the block obtained from the heap is. -/
theorem C65_alignment_violated {s s' : State} {size alignment m p : Nat} {f : Flags}
    (h : s.allocate size f .canary alignment m = .ok p s') (hp : p ≠ 0) (ha : 8 < alignment) (hm : alignment ∣ m) :
    ¬ alignment ∣ p := by
  rcases allocate_ok h with ⟨_, h0, _⟩ | ⟨_, hpm, _⟩
  · exact absurd h0 hp
  · rw [if_pos rfl] at hpm
    intro hd
    rw [hpm] at hd
    have := (Nat.dvd_add_right hm).mp hd
    exact absurd (Nat.le_of_dvd (by omega) this) (by omega)

end Verif.Props.Unified
