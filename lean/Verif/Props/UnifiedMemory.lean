import Verif.Model.UnifiedMemory
/-!
Properties C38, C39, C65: the unified memory manager.
-/
namespace Verif.Props.Unified
open Verif.Unified

/-! ### Specification: what a history of calls and their results amounts to -/

/-- A history: the calls made so far, oldest first, with what each returned. -/
abbrev Trace := List (Op × Ret)

/-- The heap blocks (start address and requested size) handed out and not yet given back: a block comes into being when
`allocate` returns a non-null pointer and ceases to exist when `deallocate` of its address returns true. -/
def liveStep (l : List (Nat × Nat)) : Op × Ret → List (Nat × Nat)
  | (.allocate size _ _ _ m, .ptr p) => if p = 0 then l else (m, size) :: l
  | (.deallocate p, .bool true) => l.filter fun b => b.1 != p
  | _ => l

def live (t : Trace) : List (Nat × Nat) := t.foldl liveStep []

/-- Number of successful allocations / deallocations in a history. -/
def allocCount (t : Trace) : Nat := t.countP fun e => match e with | (.allocate .., .ptr p) => p != 0 | _ => false
def freeCount (t : Trace) : Nat := t.countP fun e => match e with | (.deallocate _, .bool true) => true | _ => false

/-- Total requested size of a set of blocks. -/
def bytes (l : List (Nat × Nat)) : Nat := (l.map (·.2)).sum

/-- The heap never hands out the address of a block that is still alive. -/
def HeapOk (t : Trace) : Op → Prop
  | .allocate _ _ _ _ m => m = 0 ∨ ∀ b ∈ live t, b.1 ≠ m
  | _ => True

/-- All histories of calls that return, from the freshly constructed manager. -/
inductive Run : State → Trace → Prop
  | start : Run {} []
  | call {s s' t op r} : Run s t → HeapOk t op → s.step op = some (r, s') → Run s' (t ++ [(op, r)])

/-- No call of a given kind in the history. -/
def NoReset (t : Trace) : Prop := ∀ e ∈ t, e.1 ≠ .resetStats

def w (n : Nat) : Count := BitVec.ofNat 64 n

/-! ### Lemmas -/

theorem live_snoc (t : Trace) (e : Op × Ret) : live (t ++ [e]) = liveStep (live t) e := by
  unfold live; rw [List.foldl_append]; rfl

theorem w_add (a b : Nat) : w (a + b) = w a + w b := by
  unfold w; apply BitVec.eq_of_toNat_eq; simp

theorem w_sub {a b : Nat} (h : b ≤ a) : w (a - b) = w a - w b := by
  have e : w a = w (a - b) + w b := by rw [← w_add, Nat.sub_add_cancel h]
  rw [e, BitVec.add_sub_cancel]

def key (e : Nat × Info) : Nat × Nat := (e.1, e.2.size)

theorem find_none {s : State} {p : Nat} (h : s.find p = none) : ∀ e ∈ s.allocs, e.1 ≠ p := by
  intro e he hp
  unfold State.find at h
  rw [Option.map_eq_none_iff, List.find?_eq_none] at h
  exact h e he (by simpa using hp)

theorem find_some {s : State} {p : Nat} {i : Info} (h : s.find p = some i) : (p, i) ∈ s.allocs := by
  unfold State.find at h
  rw [Option.map_eq_some_iff] at h
  obtain ⟨e, h1, h2⟩ := h
  have hm := List.mem_of_find?_eq_some h1
  have hp := List.find?_some h1
  simp only [beq_iff_eq] at hp
  rw [← h2, ← hp]
  exact hm

theorem isAllocated_iff (s : State) (p : Nat) : s.isAllocated p = true ↔ ∃ e ∈ s.allocs, e.1 = p := by
  unfold State.isAllocated
  constructor
  · intro h
    rw [Option.isSome_iff_exists] at h
    obtain ⟨i, hi⟩ := h
    exact ⟨_, find_some hi, rfl⟩
  · rintro ⟨e, he, hp⟩
    cases h : s.find p with
    | none => exact absurd hp (find_none h e he)
    | some i => rfl

theorem sizeSum_eq (l : List (Nat × Info)) : sizeSum l = w (bytes (l.map key)) := by
  induction l with
  | nil => rfl
  | cons e l ih =>
    show sizeSum l + _ = _
    rw [ih]
    show _ = w (e.2.size + bytes (l.map key))
    rw [Nat.add_comm, w_add]; rfl

theorem bytes_filter (l : List (Nat × Nat)) (p : Nat) (hn : (l.map (·.1)).Nodup) (n : Nat) (hm : (p, n) ∈ l) :
    bytes (l.filter fun b => b.1 != p) + n = bytes l ∧ (l.filter fun b => b.1 != p).length + 1 = l.length := by
  induction l with
  | nil => simp at hm
  | cons b l ih =>
    rw [List.map_cons, List.nodup_cons] at hn
    by_cases e : b.1 = p
    · have hrest : l.filter (fun b => b.1 != p) = l := by
        rw [List.filter_eq_self]
        intro c hc
        simp only [bne_iff_ne, ne_eq]
        intro h
        exact hn.1 (List.mem_map.mpr ⟨c, hc, by rw [h, e]⟩)
      have hb : b = (p, n) := by
        rcases List.mem_cons.mp hm with h | h
        · exact h.symm
        · exact absurd (List.mem_map.mpr ⟨_, h, by rw [e]⟩) hn.1
      have hf : (b :: l).filter (fun b => b.1 != p) = l := by
        rw [List.filter_cons_of_neg (by simp [e]), hrest]
      rw [hf, hb]
      simp [bytes, Nat.add_comm]
    · have hf : (b :: l).filter (fun b => b.1 != p) = b :: l.filter (fun b => b.1 != p) :=
        List.filter_cons_of_pos (by simp [e])
      have hm' : (p, n) ∈ l := by
        rcases List.mem_cons.mp hm with h | h
        · exact absurd (by rw [← h]) e
        · exact h
      obtain ⟨i1, i2⟩ := ih hn.2 hm'
      rw [hf]
      simp only [bytes, List.map_cons, List.sum_cons, List.length_cons] at i1 ⊢
      omega

theorem allocate_ok {s s' : State} {size a m p : Nat} {f : Flags} {l : Level} (h : s.allocate size f l a m = .ok p s') :
    (m = 0 ∧ p = 0 ∧ s' = s) ∨
    (m ≠ 0 ∧ p = (if l = .canary then m + 8 else m) ∧ ∃ cap mem mem0, request size f l a = some cap ∧
      setup mem0 m (if l ≠ .none then protectedSize size l else size) cap l = some mem ∧
      s' = State.track { s with blocks := (m, cap) :: s.blocks, mem := mem } m p size) := by
  unfold State.allocate at h
  cases hr : request size f l a with
  | none => simp only [hr] at h; exact absurd h (by simp)
  | some cap =>
    simp only [hr] at h
    by_cases hm : m = 0
    · rw [if_pos hm] at h
      by_cases hn : f.noThrow = true
      · rw [if_pos hn] at h
        injection h with h1 h2
        exact Or.inl ⟨hm, h1.symm, h2.symm⟩
      · rw [if_neg hn] at h; exact absurd h (by simp)
    · rw [if_neg hm] at h
      refine Or.inr ⟨hm, ?_⟩
      by_cases hz : f.zero = true ∧ cap < (if l ≠ .none then protectedSize size l else size)
      · rw [if_pos hz] at h; exact absurd h (by simp)
      · rw [if_neg hz] at h
        split at h
        · exact absurd h (by simp)
        · rename_i mem hs
          injection h with h1 h2
          refine ⟨h1.symm, cap, mem, _, rfl, hs, ?_⟩
          rw [← h2, ← h1]

theorem allocate_throws {s s' : State} {size a m : Nat} {f : Flags} {l : Level} (h : s.allocate size f l a m = .throws s') :
    s' = s := by
  unfold State.allocate at h
  cases hr : request size f l a with
  | none => simp only [hr] at h; exact absurd h (by simp)
  | some cap =>
    simp only [hr] at h
    split at h
    · split at h
      · exact absurd h (by simp)
      · injection h with h; exact h.symm
    · by_cases hz : f.zero = true ∧ cap < (if l ≠ .none then protectedSize size l else size)
      · rw [if_pos hz] at h; cases h
      · rw [if_neg hz] at h
        split at h <;> cases h

theorem deallocate_ok {s s' : State} {p : Nat} {b : Bool} (h : s.deallocate p = .ok b s') :
    (b = false ∧ s' = s) ∨ (b = true ∧ p ≠ 0 ∧ ∃ i, s.find p = some i ∧ i.prot = false ∧ s' = { s with
        allocs := s.allocs.filter fun e => e.1 != p
        blocks := s.blocks.filter fun b => b.1 != p
        stats := { s.stats with
          totDeallocs := s.stats.totDeallocs + 1, curAllocs := s.stats.curAllocs - 1
          curBytes := s.stats.curBytes - BitVec.ofNat 64 i.size } }) := by
  unfold State.deallocate at h
  by_cases hp : p = 0
  · rw [if_pos hp] at h
    injection h with h1 h2
    exact Or.inl ⟨h1.symm, h2.symm⟩
  · rw [if_neg hp] at h
    cases hf : s.find p with
    | none =>
      simp only [hf] at h
      injection h with h1 h2
      exact Or.inl ⟨h1.symm, h2.symm⟩
    | some i =>
      simp only [hf] at h
      by_cases hi : i.prot = true
      · rw [if_pos hi] at h; exact absurd h (by simp)
      · rw [if_neg hi] at h
        injection h with h1 h2
        exact Or.inr ⟨h1.symm, hp, i, rfl, by simpa using hi, h2.symm⟩

/-- Calls that leave the set of tracked blocks and the allocation counters alone. -/
def SameBlocks (s s' : State) : Prop :=
  s'.allocs.map key = s.allocs.map key ∧ s'.stats.curAllocs = s.stats.curAllocs ∧ s'.stats.curBytes = s.stats.curBytes ∧
  s'.stats.totAllocs = s.stats.totAllocs ∧ s'.stats.totDeallocs = s.stats.totDeallocs ∧
  s'.stats.peakAllocs = s.stats.peakAllocs ∧ s'.stats.peakBytes = s.stats.peakBytes

theorem SameBlocks.refl (s : State) : SameBlocks s s := ⟨rfl, rfl, rfl, rfl, rfl, rfl, rfl⟩

theorem update_key (s : State) (p : Nat) (b : Bool) :
    (s.update p fun i => { i with prot := b }).allocs.map key = s.allocs.map key := by
  unfold State.update
  rw [List.map_map]
  apply List.map_congr_left
  intro e _
  simp only [Function.comp]
  split <;> rfl

theorem removeProtection_same (s : State) (p : Nat) (i : Info) : SameBlocks s (s.removeProtection p i) := by
  unfold State.removeProtection
  split
  · exact ⟨update_key s p false, rfl, rfl, rfl, rfl, rfl, rfl⟩
  · exact SameBlocks.refl s

theorem protect_same {s s' : State} {p : Nat} {l : Level} {b : Bool} (h : s.protect p l = .ok b s') : SameBlocks s s' := by
  unfold State.protect at h
  cases hf : s.find p with
  | none => simp only [hf] at h; injection h with _ h; rw [← h]; exact SameBlocks.refl s
  | some i =>
    simp only [hf] at h
    have hs : SameBlocks s (if i.prot = true then s.removeProtection p i else s) := by
      split
      · exact removeProtection_same s p i
      · exact SameBlocks.refl s
    revert h
    generalize (if i.prot = true then s.removeProtection p i else s) = s1 at hs
    intro h
    by_cases hp : p = 0
    · rw [if_pos hp] at h; injection h with _ h; rw [← h]; exact hs
    · rw [if_neg hp] at h
      split at h
      · exact absurd h (by simp)
      · injection h with _ h
        rw [← h]
        obtain ⟨h1, h2, h3, h4, h5, h6, h7⟩ := hs
        exact ⟨(update_key s1 p true).trans h1, h2, h3, h4, h5, h6, h7⟩

theorem unprotect_same {s s' : State} {p : Nat} {b : Bool} (h : s.unprotect p = .ok b s') : SameBlocks s s' := by
  unfold State.unprotect at h
  cases hf : s.find p with
  | none => simp only [hf] at h; injection h with _ h; rw [← h]; exact SameBlocks.refl s
  | some i =>
    simp only [hf] at h
    by_cases hi : (!i.prot) = true
    · rw [if_pos hi] at h; injection h with _ h; rw [← h]; exact SameBlocks.refl s
    · rw [if_neg hi] at h
      by_cases hp : p = 0
      · rw [if_pos hp] at h; injection h with _ h; rw [← h]; exact SameBlocks.refl s
      · rw [if_neg hp] at h
        injection h with _ h
        rw [← h]
        obtain ⟨h1, h2, h3, h4, h5, h6, h7⟩ := removeProtection_same s p i
        exact ⟨(update_key _ p false).trans h1, h2, h3, h4, h5, h6, h7⟩

theorem verify_same {s s' : State} {p : Nat} {b : Bool} (h : s.verify p = .ok b s') : SameBlocks s s' := by
  unfold State.verify at h
  split at h
  · exact absurd h (by simp)
  · injection h with _ h; rw [← h]; exact SameBlocks.refl s

/-- What a call does to the bookkeeping, by kind of call. -/
theorem step_cases {s s' : State} {op : Op} {r : Ret} (h : s.step op = some (r, s')) :
    (∃ size f l a m p, op = .allocate size f l a m ∧ r = .ptr p ∧ s.allocate size f l a m = .ok p s') ∨
    (∃ p, op = .deallocate p ∧ r = .bool true ∧ s.deallocate p = .ok true s') ∨
    (op = .resetStats ∧ s' = s.resetStats ∧ r = .unit) ∨
    (SameBlocks s s' ∧ op ≠ .resetStats ∧ (∀ l, liveStep l (op, r) = l) ∧ allocCount [(op, r)] = 0 ∧
      freeCount [(op, r)] = 0) := by
  cases op with
  | allocate size f l a m =>
    simp only [State.step] at h
    split at h
    · rename_i p s1 hs
      injection h with h; injection h with h1 h2
      exact Or.inl ⟨size, f, l, a, m, p, rfl, h1.symm, by rw [hs, h2]⟩
    · rename_i s1 hs
      injection h with h; injection h with h1 h2
      rw [← h2, allocate_throws hs, ← h1]
      exact Or.inr (Or.inr (Or.inr ⟨SameBlocks.refl s, by simp, fun _ => rfl, rfl, rfl⟩))
    · exact absurd h (by simp)
    · exact absurd h (by simp)
  | deallocate p =>
    simp only [State.step] at h
    split at h
    · rename_i b s1 hs
      injection h with h; injection h with h1 h2
      cases b with
      | true => exact Or.inr (Or.inl ⟨p, rfl, h1.symm, by rw [hs, h2]⟩)
      | false =>
        rcases deallocate_ok hs with ⟨_, h3⟩ | ⟨h3, _⟩
        · rw [← h2, h3, ← h1]
          exact Or.inr (Or.inr (Or.inr ⟨SameBlocks.refl s, by simp, fun _ => rfl, rfl, rfl⟩))
        · exact absurd h3 (by simp)
    · exact absurd h (by simp)
  | protect p l =>
    simp only [State.step] at h
    split at h
    · rename_i b s1 hs
      injection h with h; injection h with h1 h2
      rw [← h2, ← h1]
      exact Or.inr (Or.inr (Or.inr ⟨protect_same hs, by simp, fun _ => rfl, rfl, rfl⟩))
    · exact absurd h (by simp)
  | unprotect p =>
    simp only [State.step] at h
    split at h
    · rename_i b s1 hs
      injection h with h; injection h with h1 h2
      rw [← h2, ← h1]
      exact Or.inr (Or.inr (Or.inr ⟨unprotect_same hs, by simp, fun _ => rfl, rfl, rfl⟩))
    · exact absurd h (by simp)
  | verify p =>
    simp only [State.step] at h
    split at h
    · rename_i b s1 hs
      injection h with h; injection h with h1 h2
      rw [← h2, ← h1]
      exact Or.inr (Or.inr (Or.inr ⟨verify_same hs, by simp, fun _ => rfl, rfl, rfl⟩))
    · exact absurd h (by simp)
  | resetStats =>
    injection h with h; injection h with h1 h2
    exact Or.inr (Or.inr (Or.inl ⟨rfl, h2.symm, h1.symm⟩))
  | checkForLeaks =>
    injection h with h; injection h with h1 h2
    rw [← h2, ← h1]
    exact Or.inr (Or.inr (Or.inr ⟨⟨rfl, rfl, rfl, rfl, rfl, rfl, rfl⟩, by simp, fun _ => rfl, rfl, rfl⟩))
  | setLevel l =>
    injection h with h; injection h with h1 h2
    rw [← h2, ← h1]
    exact Or.inr (Or.inr (Or.inr ⟨⟨rfl, rfl, rfl, rfl, rfl, rfl, rfl⟩, by simp, fun _ => rfl, rfl, rfl⟩))

/-- The bookkeeping invariant. -/
structure Inv (s : State) (t : Trace) : Prop where
  keys : s.allocs.map key = live t
  nodup : ((live t).map (·.1)).Nodup
  nonzero : ∀ b ∈ live t, b.1 ≠ 0
  cur : s.stats.curAllocs = w (live t).length
  curB : s.stats.curBytes = w (bytes (live t))

theorem filter_key (l : List (Nat × Info)) (p : Nat) :
    (l.filter fun e => e.1 != p).map key = (l.map key).filter fun b => b.1 != p := by
  rw [List.filter_map]; rfl

theorem inv_of_run {s : State} {t : Trace} (h : Run s t) : Inv s t := by
  induction h with
  | start => exact ⟨rfl, List.nodup_nil, by simp [live], rfl, rfl⟩
  | @call s s' t op r _ hheap hstep ih =>
    rcases step_cases hstep with ⟨size, f, l, a, m, p, rfl, rfl, ha⟩ | ⟨p, rfl, rfl, hd⟩ | ⟨rfl, rfl, rfl⟩ | ⟨hs, _, hl, _, _⟩
    · rcases allocate_ok ha with ⟨_, rfl, rfl⟩ | ⟨hm, hp, cap, mem, mem0, _, _, rfl⟩
      · have e : live (t ++ [(.allocate size f l a m, .ptr 0)]) = live t := by rw [live_snoc]; rfl
        exact ⟨by rw [e]; exact ih.keys, by rw [e]; exact ih.nodup, by rw [e]; exact ih.nonzero,
          by rw [e]; exact ih.cur, by rw [e]; exact ih.curB⟩
      · have hp0 : p ≠ 0 := by rw [hp]; split <;> omega
        have e : live (t ++ [(.allocate size f l a m, .ptr p)]) = (m, size) :: live t := by
          rw [live_snoc]; simp only [liveStep]; rw [if_neg hp0]
        have hfresh : ∀ b ∈ live t, b.1 ≠ m := hheap.resolve_left hm
        refine ⟨?_, ?_, ?_, ?_, ?_⟩
        · rw [e, ← ih.keys]; rfl
        · rw [e, List.map_cons, List.nodup_cons]
          refine ⟨?_, ih.nodup⟩
          intro hmem
          obtain ⟨b, hb, hbm⟩ := List.mem_map.mp hmem
          exact hfresh b hb hbm
        · rw [e]
          intro b hb
          rcases List.mem_cons.mp hb with rfl | hb
          · exact hm
          · exact ih.nonzero b hb
        · rw [e, List.length_cons, w_add, ← ih.cur]; rfl
        · rw [e]
          show s.stats.curBytes + _ = w (size + bytes (live t))
          rw [ih.curB, Nat.add_comm, w_add]; rfl
    · rcases deallocate_ok hd with ⟨h, _⟩ | ⟨_, hp, i, hf, _, rfl⟩
      · exact absurd h (by simp)
      · have e : live (t ++ [(.deallocate p, .bool true)]) = (live t).filter fun b => b.1 != p := by rw [live_snoc]; rfl
        have hmem : (p, i.size) ∈ live t := by
          rw [← ih.keys]
          exact List.mem_map.mpr ⟨_, find_some hf, rfl⟩
        obtain ⟨b1, b2⟩ := bytes_filter (live t) p ih.nodup i.size hmem
        refine ⟨?_, ?_, ?_, ?_, ?_⟩
        · rw [e, ← ih.keys]; exact filter_key _ _
        · rw [e]; exact (List.filter_sublist.map _).nodup ih.nodup
        · rw [e]; intro b hb; exact ih.nonzero b (List.mem_filter.mp hb).1
        · rw [e]
          show s.stats.curAllocs - 1 = _
          rw [ih.cur, ← b2, w_add]
          exact BitVec.add_sub_cancel _ _
        · rw [e]
          show s.stats.curBytes - _ = _
          rw [ih.curB, ← b1, w_add]
          exact BitVec.add_sub_cancel _ _
    · have e : live (t ++ [(.resetStats, .unit)]) = live t := by rw [live_snoc]; rfl
      refine ⟨by rw [e]; exact ih.keys, by rw [e]; exact ih.nodup, by rw [e]; exact ih.nonzero, ?_, ?_⟩
      · rw [e]
        show w s.allocs.length = _
        rw [← ih.keys, List.length_map]
      · rw [e]
        show sizeSum s.allocs = _
        rw [sizeSum_eq, ih.keys]
    · have e : live (t ++ [(op, r)]) = live t := by rw [live_snoc]; exact hl _
      obtain ⟨h1, h2, h3, _⟩ := hs
      exact ⟨by rw [e, h1]; exact ih.keys, by rw [e]; exact ih.nodup, by rw [e]; exact ih.nonzero,
        by rw [e, h2]; exact ih.cur, by rw [e, h3]; exact ih.curB⟩

/-! ### C38 -/

/-- **C38 (current counters and queries).** After every history of calls (allocations with any flags and levels, failed
ones included, deallocations of any pointer, protection changes, statistics resets): `current_allocations` is the number
of live blocks, `current_bytes` the sum of their requested sizes (as `size_t`), `isAllocated(p)` holds exactly for the
live blocks and `checkForLeaks()` returns their number. -/
theorem C38_current {s : State} {t : Trace} (h : Run s t) :
    s.stats.curAllocs = BitVec.ofNat 64 (live t).length ∧ s.stats.curBytes = BitVec.ofNat 64 (bytes (live t)) ∧
    (∀ p, s.isAllocated p = true ↔ ∃ b ∈ live t, b.1 = p) ∧ s.checkForLeaks.1 = (live t).length := by
  have i := inv_of_run h
  refine ⟨i.cur, i.curB, ?_, ?_⟩
  · intro p
    rw [isAllocated_iff, ← i.keys]
    constructor
    · rintro ⟨e, he, hp⟩; exact ⟨key e, List.mem_map.mpr ⟨e, he, rfl⟩, hp⟩
    · rintro ⟨b, hb, hp⟩
      obtain ⟨e, he, rfl⟩ := List.mem_map.mp hb
      exact ⟨e, he, hp⟩
  · show s.allocs.length = _
    rw [← i.keys, List.length_map]

/-- **C38 (deallocation).** `deallocate(p)` returns true exactly for live blocks — every other pointer (null, never
allocated, already released) is rejected without changing anything — and then the block is no longer live. Protected
blocks are excluded: see C39. -/
theorem C38_deallocate {s : State} {t : Trace} (h : Run s t) (p : Nat) (hprot : ∀ i, s.find p = some i → i.prot = false) :
    ∃ b s', s.deallocate p = .ok b s' ∧ (b = true ↔ ∃ x ∈ live t, x.1 = p) ∧ (b = false → s' = s) ∧
      s'.isAllocated p = false := by
  have i := inv_of_run h
  have hq := (C38_current h).2.2.1
  by_cases hp : p = 0
  · have hnot : ¬ ∃ x ∈ live t, x.1 = p := by rintro ⟨x, hx, e⟩; exact i.nonzero x hx (e.trans hp)
    refine ⟨false, s, by simp [State.deallocate, hp], ⟨by simp, fun e => absurd e hnot⟩, fun _ => rfl, ?_⟩
    rw [Bool.eq_false_iff]
    exact fun e => hnot ((hq p).mp e)
  · cases hf : s.find p with
    | none =>
      have hna : s.isAllocated p = false := by unfold State.isAllocated; rw [hf]; rfl
      refine ⟨false, s, by simp [State.deallocate, hp, hf], ⟨by simp, fun e => ?_⟩, fun _ => rfl, hna⟩
      rw [← hq p, hna] at e
      exact absurd e (by simp)
    | some inf =>
      have ha : s.isAllocated p = true := by unfold State.isAllocated; rw [hf]; rfl
      obtain ⟨s', hd, hs'⟩ : ∃ s', s.deallocate p = .ok true s' ∧ s'.allocs = s.allocs.filter (fun e => e.1 != p) := by
        simp only [State.deallocate, if_neg hp, hf, hprot inf hf, Bool.false_eq_true, if_false]
        exact ⟨_, rfl, rfl⟩
      refine ⟨true, s', hd, ⟨fun _ => (hq p).mp ha, fun _ => rfl⟩, by simp, ?_⟩
      rw [Bool.eq_false_iff, ne_eq, isAllocated_iff]
      rintro ⟨e, he, hep⟩
      rw [hs'] at he
      have := (List.mem_filter.mp he).2
      simp [hep] at this

theorem count_snoc (t : Trace) (e : Op × Ret) :
    allocCount (t ++ [e]) = allocCount t + allocCount [e] ∧ freeCount (t ++ [e]) = freeCount t + freeCount [e] := by
  simp [allocCount, freeCount, List.countP_append]

/-- The peak counters are the maxima, over all moments of the history, of the current counters. -/
def IsPeak (t : Trace) (f : Trace → Nat) (peak : Count) : Prop :=
  (∀ t', t' <+: t → BitVec.ofNat 64 (f t') ≤ peak) ∧ ∃ t', t' <+: t ∧ peak = BitVec.ofNat 64 (f t')

theorem prefix_snoc {α : Type} {t u : List α} {e : α} (h : u <+: t ++ [e]) : u <+: t ∨ u = t ++ [e] := by
  rcases List.prefix_concat_iff.mp h with h | h
  · exact Or.inr h
  · exact Or.inl h

theorem isPeak_same {t : Trace} {f : Trace → Nat} {p : Count} (h : IsPeak t f p) (e : Op × Ret) (he : f (t ++ [e]) = f t) :
    IsPeak (t ++ [e]) f p := by
  refine ⟨fun u hu => ?_, ?_⟩
  · rcases prefix_snoc hu with hu | rfl
    · exact h.1 u hu
    · rw [he]; exact h.1 t (List.prefix_refl t)
  · obtain ⟨u, h1, h2⟩ := h.2
    exact ⟨u, h1.trans (List.prefix_append t [e]), h2⟩

theorem isPeak_max {t : Trace} {f : Trace → Nat} {p : Count} (h : IsPeak t f p) (e : Op × Ret) (c : Count)
    (he : BitVec.ofNat 64 (f (t ++ [e])) = c) : IsPeak (t ++ [e]) f (if p < c then c else p) := by
  by_cases hc : p < c
  · rw [if_pos hc]
    refine ⟨fun u hu => ?_, t ++ [e], List.prefix_refl _, he.symm⟩
    rcases prefix_snoc hu with hu | rfl
    · exact BitVec.le_trans (h.1 u hu) (BitVec.le_of_lt hc)
    · rw [he]; exact BitVec.le_refl _
  · rw [if_neg hc]
    refine ⟨fun u hu => ?_, ?_⟩
    · rcases prefix_snoc hu with hu | rfl
      · exact h.1 u hu
      · rw [he]; exact BitVec.not_lt.mp hc
    · obtain ⟨u, h1, h2⟩ := h.2
      exact ⟨u, h1.trans (List.prefix_append t [e]), h2⟩

theorem isPeak_le {t : Trace} {f : Trace → Nat} {p : Count} (h : IsPeak t f p) (e : Op × Ret)
    (hle : BitVec.ofNat 64 (f (t ++ [e])) ≤ p) : IsPeak (t ++ [e]) f p := by
  refine ⟨fun u hu => ?_, ?_⟩
  · rcases prefix_snoc hu with hu | rfl
    · exact h.1 u hu
    · exact hle
  · obtain ⟨u, h1, h2⟩ := h.2
    exact ⟨u, h1.trans (List.prefix_append t [e]), h2⟩

/-- **C38 (totals and peaks; partial: histories without `resetStats`, and whose live sizes always fit in `size_t`).**
`total_allocations` and `total_deallocations` count the successful calls, their difference is `current_allocations`, and
`peak_allocations`/`peak_bytes` are exactly the largest values the current counters ever had. -/
theorem C38_totals_and_peaks_partial {s : State} {t : Trace} (h : Run s t) (hr : NoReset t)
    (hfit : ∀ t', t' <+: t → bytes (live t') < 2 ^ 64 ∧ (live t').length < 2 ^ 64) :
    s.stats.totAllocs = BitVec.ofNat 64 (allocCount t) ∧ s.stats.totDeallocs = BitVec.ofNat 64 (freeCount t) ∧
    allocCount t = freeCount t + (live t).length ∧ s.stats.totAllocs - s.stats.totDeallocs = s.stats.curAllocs ∧
    IsPeak t (fun u => (live u).length) s.stats.peakAllocs ∧ IsPeak t (fun u => bytes (live u)) s.stats.peakBytes := by
  suffices hmain : s.stats.totAllocs = w (allocCount t) ∧ s.stats.totDeallocs = w (freeCount t) ∧
      allocCount t = freeCount t + (live t).length ∧
      IsPeak t (fun u => (live u).length) s.stats.peakAllocs ∧ IsPeak t (fun u => bytes (live u)) s.stats.peakBytes by
    obtain ⟨h1, h2, h3, h4, h5⟩ := hmain
    refine ⟨h1, h2, h3, ?_, h4, h5⟩
    rw [h1, h2, (inv_of_run h).cur, h3, ← w_sub (by omega)]
    congr 1; omega
  induction h with
  | start =>
    refine ⟨rfl, rfl, rfl, ⟨?_, [], List.prefix_refl _, rfl⟩, ⟨?_, [], List.prefix_refl _, rfl⟩⟩ <;>
    · intro u hu
      rw [List.prefix_nil.mp hu]
      exact BitVec.le_refl _
  | @call s s' t op r hrun hheap hstep ih =>
    have hi := inv_of_run hrun
    have hi' := inv_of_run (Run.call hrun hheap hstep)
    obtain ⟨i1, i2, i3, i4, i5⟩ := ih (fun e he => hr e (List.mem_append_left _ he))
      (fun u hu => hfit u (hu.trans (List.prefix_append t _)))
    obtain ⟨c1, c2⟩ := count_snoc t (op, r)
    rcases step_cases hstep with ⟨size, f, l, a, m, p, rfl, rfl, ha⟩ | ⟨p, rfl, rfl, hd⟩ | ⟨rfl, _⟩ | ⟨hs, _, hl, ha, hf⟩
    · rcases allocate_ok ha with ⟨_, rfl, rfl⟩ | ⟨hm, hp, cap, mem, mem0, _, _, rfl⟩
      · have e : live (t ++ [(.allocate size f l a m, .ptr 0)]) = live t := by rw [live_snoc]; rfl
        refine ⟨by rw [c1]; exact i1, by rw [c2]; exact i2, by rw [c1, c2, e]; exact i3,
          isPeak_same i4 _ (by simp only [e]), isPeak_same i5 _ (by simp only [e])⟩
      · have hp0 : p ≠ 0 := by rw [hp]; split <;> omega
        have e : live (t ++ [(.allocate size f l a m, .ptr p)]) = (m, size) :: live t := by
          rw [live_snoc]; simp only [liveStep]; rw [if_neg hp0]
        have ea : allocCount [(Op.allocate size f l a m, Ret.ptr p)] = 1 := by simp [allocCount, hp0]
        have ef : freeCount [(Op.allocate size f l a m, Ret.ptr p)] = 0 := rfl
        rw [ea] at c1; rw [ef] at c2
        refine ⟨?_, by rw [c2]; exact i2, ?_, ?_, ?_⟩
        · rw [c1, w_add, ← i1]; rfl
        · rw [c1, c2, e, List.length_cons]; omega
        · exact isPeak_max i4 _ _ hi'.cur.symm
        · exact isPeak_max i5 _ _ hi'.curB.symm
    · rcases deallocate_ok hd with ⟨h, _⟩ | ⟨_, hp, i, hf, _, rfl⟩
      · exact absurd h (by simp)
      · have e : live (t ++ [(.deallocate p, .bool true)]) = (live t).filter fun b => b.1 != p := by rw [live_snoc]; rfl
        have ea : allocCount [(Op.deallocate p, Ret.bool true)] = 0 := rfl
        have ef : freeCount [(Op.deallocate p, Ret.bool true)] = 1 := rfl
        rw [ea] at c1; rw [ef] at c2
        have hmem : (p, i.size) ∈ live t := by
          rw [← hi.keys]
          exact List.mem_map.mpr ⟨_, find_some hf, rfl⟩
        obtain ⟨b1, b2⟩ := bytes_filter (live t) p hi.nodup i.size hmem
        obtain ⟨f1, f2⟩ := hfit t (List.prefix_append t _)
        have hle : ∀ a b : Nat, a ≤ b → b < 2 ^ 64 → BitVec.ofNat 64 a ≤ BitVec.ofNat 64 b := by
          intro a b h1 h2
          rw [BitVec.le_def, BitVec.toNat_ofNat, BitVec.toNat_ofNat, Nat.mod_eq_of_lt (by omega), Nat.mod_eq_of_lt h2]
          exact h1
        refine ⟨by rw [c1]; exact i1, ?_, ?_, ?_, ?_⟩
        · rw [c2, w_add, ← i2]; rfl
        · rw [c1, c2, e]; omega
        · refine isPeak_le i4 _ (BitVec.le_trans (hle _ (live t).length ?_ f2) (i4.1 t (List.prefix_refl t)))
          rw [e]; omega
        · refine isPeak_le i5 _ (BitVec.le_trans (hle _ (bytes (live t)) ?_ f1) (i5.1 t (List.prefix_refl t)))
          rw [e]; omega
    · exact absurd rfl (hr (.resetStats, r) (List.mem_append_right _ (List.mem_singleton.mpr rfl)))
    · have e : live (t ++ [(op, r)]) = live t := by rw [live_snoc]; exact hl _
      obtain ⟨_, _, _, h4, h5, h6, h7⟩ := hs
      rw [ha] at c1; rw [hf] at c2
      exact ⟨by rw [c1, h4]; exact i1, by rw [c2, h5]; exact i2, by rw [c1, c2, e]; exact i3,
        by rw [h6]; exact isPeak_same i4 _ (by simp only [e]), by rw [h7]; exact isPeak_same i5 _ (by simp only [e])⟩

/-- A concrete history: two allocations (one failing), a release, an invalid release, a leak check. -/
def demo : List Op :=
  [.allocate 100 {} .none 64 4096, .allocate 50 { noThrow := true } .crc 64 0, .allocate 24 { zero := true } .crc 64 8192,
   .deallocate 4096, .deallocate 4096, .checkForLeaks]

/-- Execute a list of calls, collecting the history. -/
def exec : State → Trace → List Op → Option (State × Trace)
  | s, t, [] => some (s, t)
  | s, t, op :: ops => match s.step op with
    | some (r, s') => exec s' (t ++ [(op, r)]) ops
    | none => none

/-- Decidable form of `HeapOk`. -/
def heapOkB (t : Trace) : Op → Bool
  | .allocate _ _ _ _ m => m == 0 || (live t).all fun b => b.1 != m
  | _ => true

theorem heapOk_of {t : Trace} {op : Op} (h : heapOkB t op = true) : HeapOk t op := by
  cases op with
  | allocate size f l a m =>
    simp only [heapOkB, Bool.or_eq_true, beq_iff_eq, List.all_eq_true, bne_iff_ne] at h
    exact h
  | _ => trivial

/-- Execution in which the heap keeps its contract is a `Run`. -/
def execOk : State → Trace → List Op → Bool
  | _, _, [] => true
  | s, t, op :: ops => heapOkB t op && match s.step op with
    | some (r, s') => execOk s' (t ++ [(op, r)]) ops
    | none => false

theorem run_exec : ∀ (ops : List Op) (s : State) (t : Trace), Run s t → execOk s t ops = true →
    ∃ s' t', exec s t ops = some (s', t') ∧ Run s' t'
  | [], s, t, h, _ => ⟨s, t, rfl, h⟩
  | op :: ops, s, t, h, hok => by
    simp only [execOk, Bool.and_eq_true] at hok
    obtain ⟨h1, h2⟩ := hok
    simp only [exec]
    cases hst : s.step op with
    | none => simp [hst] at h2
    | some x =>
      obtain ⟨r, s'⟩ := x
      simp only [hst] at h2
      simp only
      exact run_exec ops s' _ (Run.call h (heapOk_of h1) hst) h2

example : ∃ s t, exec {} [] demo = some (s, t) ∧ Run s t ∧ s.stats.curAllocs = 1 ∧ s.stats.curBytes = 24 ∧
    s.stats.peakBytes = 124 ∧ live t = [(8192, 24)] := by
  obtain ⟨s, t, h1, h2⟩ := run_exec demo {} [] Run.start (by decide)
  refine ⟨s, t, h1, h2, ?_⟩
  have e1 : (exec {} [] demo).map (fun x => (x.1.stats.curAllocs, x.1.stats.curBytes, x.1.stats.peakBytes, live x.2)) =
      some (1, 24, 124, [(8192, 24)]) := by decide
  rw [h1] at e1
  simp only [Option.map_some, Option.some.injEq, Prod.mk.injEq] at e1
  exact e1

/-- **C38 (violated: peaks after `resetStats`).** For every reachable state with a live block, `resetStats()` leaves
`peak_allocations = 0` below `current_allocations` (and forgets the totals, so their difference is no longer the current
number). -/
theorem C38_reset_violated {s : State} {t : Trace} (h : Run s t) (hl : live t ≠ []) (hfit : (live t).length < 2 ^ 64) :
    ∃ s', s.step .resetStats = some (.unit, s') ∧ s'.stats.peakAllocs < s'.stats.curAllocs ∧
      s'.stats.totAllocs - s'.stats.totDeallocs ≠ s'.stats.curAllocs := by
  refine ⟨s.resetStats, rfl, ?_, ?_⟩
  all_goals
    have hc : s.resetStats.stats.curAllocs = w (live t).length := by
      show w s.allocs.length = _
      rw [← (inv_of_run h).keys, List.length_map]
    have hpos : 0 < (live t).length := List.length_pos_iff.mpr hl
    rw [hc]
  · show (0 : Count) < _
    rw [BitVec.lt_def]
    simp only [w, BitVec.toNat_ofNat, BitVec.ofNat_eq_ofNat, Nat.zero_mod]
    rw [Nat.mod_eq_of_lt hfit]; exact hpos
  · show (0 : Count) - 0 ≠ _
    intro e
    have := congrArg BitVec.toNat e
    simp only [w, BitVec.toNat_ofNat, BitVec.sub_zero, BitVec.ofNat_eq_ofNat, Nat.zero_mod] at this
    rw [Nat.mod_eq_of_lt hfit] at this
    omega

end Verif.Props.Unified
