import Verif.Props.UnifiedProtection
/-!
Property C66: ownership by `RadiationTolerantPtr`.
-/
namespace Verif.Props.Unified
open Verif.Unified

/-- The heap never hands out the address of a block that is still alive. -/
def PtrHeapOk (s : PtrState) : PtrOp → Prop
  | .make _ _ _ m _ => m = 0 ∨ ∀ e ∈ s.mgr.allocs, e.1 ≠ m
  | _ => True

/-- All histories of pointer operations whose objects are created with level NONE or CRC, starting with all pointers
null. -/
inductive PtrRun : PtrState → Prop
  | start : PtrRun {}
  | op {s s' o} : PtrRun s → PtrHeapOk s o → (∀ i size l m c, o = .make i size l m c → l = .none ∨ l = .crc) →
      s.step o = some s' → PtrRun s'

/-- The ownership discipline: every pointer held (or given away by `release`) is the address of a live block, no block has
two holders, every live block has a holder, nothing is flagged protected. -/
structure Owned (s : PtrState) : Prop where
  live : ∀ i, s.slot i ≠ 0 → s.mgr.isAllocated (s.slot i) = true
  liveGiven : ∀ p ∈ s.given, s.mgr.isAllocated p = true
  unique : ∀ i j, s.slot i ≠ 0 → s.slot i = s.slot j → i = j
  notGiven : ∀ i, s.slot i ≠ 0 → s.slot i ∉ s.given
  held : ∀ p, s.mgr.isAllocated p = true → (∃ i, s.slot i = p) ∨ p ∈ s.given
  nonzero : s.mgr.isAllocated 0 = false
  unprot : ∀ e ∈ s.mgr.allocs, e.2.prot = false
  rejected : s.rejected = 0

theorem isAllocated_zero_ne {s : PtrState} (h : Owned s) {p : Nat} (hp : s.mgr.isAllocated p = true) : p ≠ 0 := by
  rintro rfl
  rw [h.nonzero] at hp; exact absurd hp (by simp)

/-- Releasing a live, unprotected block succeeds and removes exactly that block. -/
theorem free_live {s : PtrState} {p : Nat} (hp : p ≠ 0) (ha : s.mgr.isAllocated p = true)
    (hu : ∀ e ∈ s.mgr.allocs, e.2.prot = false) :
    ∃ m, s.free p = some { s with mgr := m } ∧ (∀ q, m.isAllocated q = true ↔ s.mgr.isAllocated q = true ∧ q ≠ p) ∧
      (∀ e ∈ m.allocs, e.2.prot = false) := by
  unfold State.isAllocated at ha
  rw [Option.isSome_iff_exists] at ha
  obtain ⟨i, hi⟩ := ha
  have hprot := hu _ (find_some hi)
  simp only at hprot
  obtain ⟨m, hd, hm⟩ : ∃ m, s.mgr.deallocate p = .ok true m ∧ m.allocs = s.mgr.allocs.filter (fun e => e.1 != p) := by
    simp only [State.deallocate, if_neg hp, hi, hprot, Bool.false_eq_true, if_false]
    exact ⟨_, rfl, rfl⟩
  refine ⟨m, ?_, ?_, ?_⟩
  · unfold PtrState.free
    rw [hd]; rfl
  · intro q
    rw [isAllocated_iff, isAllocated_iff, hm]
    constructor
    · rintro ⟨e, he, rfl⟩
      obtain ⟨h1, h2⟩ := List.mem_filter.mp he
      exact ⟨⟨e, h1, rfl⟩, by simpa using h2⟩
    · rintro ⟨⟨e, he, rfl⟩, hq⟩
      exact ⟨e, List.mem_filter.mpr ⟨he, by simpa using hq⟩, rfl⟩
  · intro e he
    rw [hm] at he
    exact hu e (List.mem_filter.mp he).1

/-- `reset(p)` of pointer `i`, where `p` is null or a live block nobody else holds. -/
theorem reset_owned {s s' : PtrState} {i p : Nat} (h : s.reset i p = some s')
    (hlive : ∀ j, s.slot j ≠ 0 → s.mgr.isAllocated (s.slot j) = true)
    (hlg : ∀ q ∈ s.given, s.mgr.isAllocated q = true)
    (huniq : ∀ j k, s.slot j ≠ 0 → s.slot j = s.slot k → j = k)
    (hng : ∀ j, s.slot j ≠ 0 → s.slot j ∉ s.given)
    (hheld : ∀ q, s.mgr.isAllocated q = true → (∃ j, s.slot j = q) ∨ q ∈ s.given ∨ q = p)
    (hz : s.mgr.isAllocated 0 = false) (hu : ∀ e ∈ s.mgr.allocs, e.2.prot = false) (hrej : s.rejected = 0)
    (hp : p = 0 ∨ (s.mgr.isAllocated p = true ∧ (∀ j, s.slot j ≠ p) ∧ p ∉ s.given)) : Owned s' := by
  unfold PtrState.reset at h
  by_cases hi : s.slot i = 0
  · rw [if_neg (by simpa using hi)] at h
    injection h with h
    subst h
    refine ⟨?_, hlg, ?_, ?_, ?_, hz, hu, hrej⟩
    · intro j hj
      simp only [setSlot] at hj ⊢
      split at hj
      · rename_i e
        rw [if_pos e]
        rcases hp with hp | hp
        · exact absurd hp hj
        · exact hp.1
      · rename_i e
        rw [if_neg e]; exact hlive j hj
    · intro j k hj hjk
      simp only [setSlot] at hj hjk
      by_cases ej : j = i <;> by_cases ek : k = i
      · rw [ej, ek]
      · rw [if_pos ej] at hj hjk; rw [if_neg ek] at hjk
        rcases hp with hp | hp
        · exact absurd hp hj
        · exact absurd hjk.symm (hp.2.1 k)
      · rw [if_neg ej] at hj hjk; rw [if_pos ek] at hjk
        rcases hp with hp | hp
        · exact absurd (hjk.trans hp) hj
        · exact absurd hjk (hp.2.1 j)
      · rw [if_neg ej] at hj hjk; rw [if_neg ek] at hjk
        exact huniq j k hj hjk
    · intro j hj
      simp only [setSlot] at hj ⊢
      by_cases ej : j = i
      · rw [if_pos ej] at hj ⊢
        rcases hp with hp | hp
        · exact absurd hp hj
        · exact hp.2.2
      · rw [if_neg ej] at hj ⊢
        exact hng j hj
    · intro q hq
      rcases hheld q hq with ⟨j, hj⟩ | hq' | rfl
      · by_cases ej : j = i
        · rw [ej] at hj
          rw [hi] at hj
          rw [← hj, hz] at hq
          exact absurd hq (by simp)
        · exact Or.inl ⟨j, by simp only [setSlot]; rw [if_neg ej]; exact hj⟩
      · exact Or.inr hq'
      · exact Or.inl ⟨i, by simp [setSlot]⟩
  · rw [if_pos (by simpa using hi)] at h
    obtain ⟨m, hm, hq, hu'⟩ := free_live hi (hlive i hi) hu
    rw [hm] at h
    simp only [Option.map_some, Option.some.injEq] at h
    subst h
    have hpi : p ≠ 0 → p ≠ s.slot i := by
      intro h0
      rcases hp with hp | hp
      · exact absurd hp h0
      · exact (hp.2.1 i).symm
    refine ⟨?_, ?_, ?_, ?_, ?_, ?_, hu', hrej⟩
    · intro j hj
      show m.isAllocated _ = true
      rw [hq]
      simp only [setSlot] at hj ⊢
      by_cases ej : j = i
      · rw [if_pos ej] at hj ⊢
        rcases hp with hp' | hp'
        · exact absurd hp' hj
        · exact ⟨hp'.1, hpi hj⟩
      · rw [if_neg ej] at hj ⊢
        exact ⟨hlive j hj, fun e => ej (huniq j i hj e)⟩
    · intro q hqg
      show m.isAllocated _ = true
      rw [hq]
      exact ⟨hlg q hqg, fun e => hng i hi (by rw [← e]; exact hqg)⟩
    · intro j k hj hjk
      simp only [setSlot] at hj hjk
      by_cases ej : j = i <;> by_cases ek : k = i
      · rw [ej, ek]
      · rw [if_pos ej] at hj hjk; rw [if_neg ek] at hjk
        rcases hp with hp | hp
        · exact absurd hp hj
        · exact absurd hjk.symm (hp.2.1 k)
      · rw [if_neg ej] at hj hjk; rw [if_pos ek] at hjk
        rcases hp with hp | hp
        · exact absurd (hjk.trans hp) hj
        · exact absurd hjk (hp.2.1 j)
      · rw [if_neg ej] at hj hjk; rw [if_neg ek] at hjk
        exact huniq j k hj hjk
    · intro j hj
      simp only [setSlot] at hj ⊢
      by_cases ej : j = i
      · rw [if_pos ej] at hj ⊢
        rcases hp with hp | hp
        · exact absurd hp hj
        · exact hp.2.2
      · rw [if_neg ej] at hj ⊢
        exact hng j hj
    · intro q hqa
      have hqa' := (hq q).mp hqa
      rcases hheld q hqa'.1 with ⟨j, hj⟩ | hq' | rfl
      · by_cases ej : j = i
        · rw [ej] at hj; exact absurd hj.symm hqa'.2
        · exact Or.inl ⟨j, by simp only [setSlot]; rw [if_neg ej]; exact hj⟩
      · exact Or.inr hq'
      · exact Or.inl ⟨i, by simp [setSlot]⟩
    · cases hb : m.isAllocated 0 with
      | false => rfl
      | true => exact absurd ((hq 0).mp hb).1 (by rw [hz]; simp)

theorem owned_of_run {s : PtrState} (h : PtrRun s) : Owned s := by
  induction h with
  | start =>
    refine ⟨fun i hi => absurd rfl hi, by simp, fun i j hi => absurd rfl hi, by simp, ?_, rfl, by simp, rfl⟩
    intro p hp
    rw [isAllocated_iff] at hp
    simp at hp
  | @op s s' o _ hheap hlev hstep ih =>
    cases o with
    | make i size l m c =>
      have hl := hlev i size l m c rfl
      have hnc : l ≠ .canary := by rcases hl with rfl | rfl <;> simp
      simp only [PtrState.step, PtrState.make] at hstep
      split at hstep
      · rename_i p mgr ha
        rcases allocate_ok ha with ⟨_, rfl, rfl⟩ | ⟨hm, hpm, cap, mem, mem0, _, _, rfl⟩
        · rw [if_pos rfl] at hstep
          injection hstep with hstep
          subst hstep
          exact ⟨ih.live, ih.liveGiven, ih.unique, ih.notGiven, ih.held, ih.nonzero, ih.unprot, ih.rejected⟩
        · rw [if_neg hnc] at hpm
          subst hpm
          rw [if_neg hm] at hstep
          have hfresh : s.mgr.isAllocated p = false := by
            cases hb : s.mgr.isAllocated p with
            | false => rfl
            | true =>
              obtain ⟨e, he, hep⟩ := (isAllocated_iff _ _).mp hb
              exact absurd hep (hheap.resolve_left hm e he)
          have hal : ∀ q, (State.track { s.mgr with blocks := (p, cap) :: s.mgr.blocks, mem := mem } p p size).isAllocated q = true ↔
              q = p ∨ s.mgr.isAllocated q = true := by
            intro q
            rw [isAllocated_iff, isAllocated_iff]
            simp only [State.track, List.mem_cons]
            constructor
            · rintro ⟨e, rfl | he, rfl⟩
              · exact Or.inl rfl
              · exact Or.inr ⟨e, he, rfl⟩
            · rintro (rfl | ⟨e, he, rfl⟩)
              · exact ⟨_, Or.inl rfl, rfl⟩
              · exact ⟨e, Or.inr he, rfl⟩
          have hun : ∀ e ∈ (State.track { s.mgr with blocks := (p, cap) :: s.mgr.blocks, mem := mem } p p size).allocs,
              e.2.prot = false := by
            intro e he
            simp only [State.track, List.mem_cons] at he
            rcases he with rfl | he
            · rfl
            · exact ih.unprot e he
          have hslot : ∀ j, s.slot j ≠ p := by
            intro j hj
            have := ih.live j (by rw [hj]; exact hm)
            rw [hj, hfresh] at this
            exact absurd this (by simp)
          have hgiv : p ∉ s.given := by
            intro hg
            have := ih.liveGiven p hg
            rw [hfresh] at this
            exact absurd this (by simp)
          have hz : (State.track { s.mgr with blocks := (p, cap) :: s.mgr.blocks, mem := mem } p p size).isAllocated 0 = false := by
            cases hb : (State.track { s.mgr with blocks := (p, cap) :: s.mgr.blocks, mem := mem } p p size).isAllocated 0 with
            | false => rfl
            | true =>
              rcases (hal 0).mp hb with e | e
              · exact absurd e.symm hm
              · rw [ih.nonzero] at e; exact absurd e (by simp)
          cases c with
          | true =>
            simp only [if_true] at hstep
            obtain ⟨m', hf, hq, hu'⟩ := free_live (s := { s with mgr := State.track { s.mgr with blocks := (p, cap) :: s.mgr.blocks, mem := mem } p p size })
              hm ((hal p).mpr (Or.inl rfl)) hun
            rw [hf] at hstep
            injection hstep with hstep
            subst hstep
            have hq' : ∀ q, m'.isAllocated q = true ↔ s.mgr.isAllocated q = true := by
              intro q
              rw [hq q]
              constructor
              · rintro ⟨h1, h2⟩; exact ((hal q).mp h1).resolve_left h2
              · intro h1
                refine ⟨(hal q).mpr (Or.inr h1), ?_⟩
                rintro rfl
                rw [hfresh] at h1; exact absurd h1 (by simp)
            refine ⟨fun j hj => (hq' _).mpr (ih.live j hj), fun q hqg => (hq' _).mpr (ih.liveGiven q hqg), ih.unique,
              ih.notGiven, fun q hqa => ih.held q ((hq' q).mp hqa), ?_, hu', ih.rejected⟩
            cases hb : m'.isAllocated 0 with
            | false => rfl
            | true => exact absurd ((hq' 0).mp hb) (by rw [ih.nonzero]; simp)
          | false =>
            simp only [Bool.false_eq_true, if_false] at hstep
            refine reset_owned hstep (fun j hj => (hal _).mpr (Or.inr (ih.live j hj)))
              (fun q hqg => (hal _).mpr (Or.inr (ih.liveGiven q hqg))) ih.unique ih.notGiven ?_ hz hun ih.rejected
              (Or.inr ⟨(hal p).mpr (Or.inl rfl), hslot, hgiv⟩)
            intro q hqa
            rcases (hal q).mp hqa with e | e
            · exact Or.inr (Or.inr e)
            · rcases ih.held q e with e | e
              · exact Or.inl e
              · exact Or.inr (Or.inl e)
      · rename_i mgr ha
        injection hstep with hstep
        subst hstep
        have := allocate_throws ha
        subst this
        exact ⟨ih.live, ih.liveGiven, ih.unique, ih.notGiven, ih.held, ih.nonzero, ih.unprot, ih.rejected⟩
      · exact absurd hstep (by simp)
      · exact absurd hstep (by simp)
    | reset i =>
      refine reset_owned hstep ih.live ih.liveGiven ih.unique ih.notGiven ?_ ih.nonzero ih.unprot ih.rejected (Or.inl rfl)
      intro q hq
      rcases ih.held q hq with e | e
      · exact Or.inl e
      · exact Or.inr (Or.inl e)
    | release i =>
      simp only [PtrState.step, Option.some.injEq] at hstep
      subst hstep
      unfold PtrState.release
      have hoff : ∀ j, setSlot s.slot i 0 j ≠ 0 → j ≠ i ∧ setSlot s.slot i 0 j = s.slot j := by
        intro j hj
        simp only [setSlot] at hj ⊢
        by_cases ej : j = i
        · rw [if_pos ej] at hj; exact absurd rfl hj
        · rw [if_neg ej]; exact ⟨ej, rfl⟩
      refine ⟨?_, ?_, ?_, ?_, ?_, ih.nonzero, ih.unprot, ih.rejected⟩
      · intro j hj
        obtain ⟨_, e⟩ := hoff j hj
        show s.mgr.isAllocated (setSlot s.slot i 0 j) = true
        rw [e]
        exact ih.live j (by rw [← e]; exact hj)
      · intro q hq
        by_cases hi : s.slot i = 0
        · rw [if_neg (by simpa using hi)] at hq; exact ih.liveGiven q hq
        · rw [if_pos (by simpa using hi)] at hq
          rcases List.mem_cons.mp hq with rfl | hq
          · exact ih.live i hi
          · exact ih.liveGiven q hq
      · intro j k hj hjk
        obtain ⟨_, e1⟩ := hoff j hj
        have hk : setSlot s.slot i 0 k ≠ 0 := by
          have h2 : setSlot s.slot i 0 j = setSlot s.slot i 0 k := hjk
          rw [← h2]; exact hj
        obtain ⟨_, e2⟩ := hoff k hk
        refine ih.unique j k (by rw [← e1]; exact hj) ?_
        rw [← e1, ← e2]; exact hjk
      · intro j hj
        obtain ⟨hji, e⟩ := hoff j hj
        have hj' : s.slot j ≠ 0 := by rw [← e]; exact hj
        show setSlot s.slot i 0 j ∉ _
        rw [e]
        by_cases hi : s.slot i = 0
        · rw [if_neg (by simpa using hi)]; exact ih.notGiven j hj'
        · rw [if_pos (by simpa using hi), List.mem_cons, not_or]
          exact ⟨fun h => hji (ih.unique j i hj' h), ih.notGiven j hj'⟩
      · intro q hq
        rcases ih.held q hq with ⟨j, hj⟩ | hg
        · have hq0 : q ≠ 0 := isAllocated_zero_ne ih hq
          by_cases ej : j = i
          · rw [ej] at hj
            refine Or.inr ?_
            show q ∈ if s.slot i ≠ 0 then s.slot i :: s.given else s.given
            rw [if_pos (by rw [hj]; exact hq0), hj]
            exact List.mem_cons_self ..
          · exact Or.inl ⟨j, by simp only [setSlot]; rw [if_neg ej]; exact hj⟩
        · refine Or.inr ?_
          show q ∈ if s.slot i ≠ 0 then s.slot i :: s.given else s.given
          split
          · exact List.mem_cons_of_mem _ hg
          · exact hg
    | move i j =>
      simp only [PtrState.step, PtrState.moveAssign] at hstep
      by_cases hij : i = j
      · rw [if_pos hij] at hstep
        injection hstep with hstep
        subst hstep
        exact ih
      · rw [if_neg hij] at hstep
        have hoff : ∀ k, setSlot s.slot j 0 k ≠ 0 → k ≠ j ∧ setSlot s.slot j 0 k = s.slot k := by
          intro k hk
          simp only [setSlot] at hk ⊢
          by_cases ek : k = j
          · rw [if_pos ek] at hk; exact absurd rfl hk
          · rw [if_neg ek]; exact ⟨ek, rfl⟩
        refine reset_owned hstep ?_ ih.liveGiven ?_ ?_ ?_ ih.nonzero ih.unprot ih.rejected ?_
        · intro k hk
          obtain ⟨_, e⟩ := hoff k hk
          show s.mgr.isAllocated (setSlot s.slot j 0 k) = true
          rw [e]; exact ih.live k (by rw [← e]; exact hk)
        · intro k k' hk hkk
          obtain ⟨_, e1⟩ := hoff k hk
          have hk' : setSlot s.slot j 0 k' ≠ 0 := by
            have h2 : setSlot s.slot j 0 k = setSlot s.slot j 0 k' := hkk
            rw [← h2]; exact hk
          obtain ⟨_, e2⟩ := hoff k' hk'
          refine ih.unique k k' (by rw [← e1]; exact hk) ?_
          rw [← e1, ← e2]; exact hkk
        · intro k hk
          obtain ⟨_, e⟩ := hoff k hk
          show setSlot s.slot j 0 k ∉ s.given
          rw [e]; exact ih.notGiven k (by rw [← e]; exact hk)
        · intro q hq
          rcases ih.held q hq with ⟨k, hk⟩ | hg
          · by_cases ek : k = j
            · exact Or.inr (Or.inr (by rw [← hk, ek]))
            · exact Or.inl ⟨k, by simp only [setSlot]; rw [if_neg ek]; exact hk⟩
          · exact Or.inr (Or.inl hg)
        · by_cases hj : s.slot j = 0
          · exact Or.inl hj
          · refine Or.inr ⟨ih.live j hj, ?_, ih.notGiven j hj⟩
            intro k hk
            have hk' : setSlot s.slot j 0 k = s.slot j := hk
            obtain ⟨h1, e⟩ := hoff k (by rw [hk']; exact hj)
            rw [e] at hk'
            exact h1 (ih.unique k j (by rw [hk']; exact hj) hk')

/-! ### C66 -/

/-- **C66 (exclusive ownership; partial: objects created with level NONE or CRC).** After every history of
`make`/`reset`/`release`/move operations (constructors of `T` may throw, allocations may fail): every non-null pointer held
is a live block, two pointers never hold the same block, every live block is held by a pointer or was given away by
`release()`, and no `deallocate` call was ever rejected (no double release). -/
theorem C66_ownership_partial {s : PtrState} (h : PtrRun s) :
    (∀ i, s.slot i ≠ 0 → s.mgr.isAllocated (s.slot i) = true) ∧
    (∀ i j, s.slot i ≠ 0 → s.slot i = s.slot j → i = j) ∧
    (∀ p, s.mgr.isAllocated p = true → (∃ i, s.slot i = p) ∨ p ∈ s.given) ∧ s.rejected = 0 := by
  have := owned_of_run h
  exact ⟨this.live, this.unique, this.held, this.rejected⟩

/-- **C66 (no leaks; partial as above).** Once all pointers are null again and nothing was given away, the manager tracks
no block: `checkForLeaks()` returns 0. -/
theorem C66_no_leak_partial {s : PtrState} (h : PtrRun s) (hs : ∀ i, s.slot i = 0) (hg : s.given = []) :
    s.mgr.checkForLeaks.1 = 0 := by
  have o := owned_of_run h
  show s.mgr.allocs.length = 0
  rw [List.length_eq_zero_iff]
  cases ha : s.mgr.allocs with
  | nil => rfl
  | cons e l =>
    have he : s.mgr.isAllocated e.1 = true := by
      rw [isAllocated_iff, ha]; exact ⟨e, List.mem_cons_self .., rfl⟩
    rcases o.held _ he with ⟨i, hi⟩ | hi
    · rw [hs i] at hi
      rw [← hi, o.nonzero] at he
      exact absurd he (by simp)
    · rw [hg] at hi; simp at hi

/-- **C66 (every operation returns; partial as above).** -/
theorem C66_total_partial {s : PtrState} (h : PtrRun s) (o : PtrOp)
    (hlev : ∀ i size l m c, o = .make i size l m c → l = .none ∨ l = .crc) : ∃ s', s.step o = some s' := by
  have w := owned_of_run h
  have hreset : ∀ (s1 : PtrState) (i p : Nat), (s1.slot i ≠ 0 → s1.mgr.isAllocated (s1.slot i) = true) →
      (∀ e ∈ s1.mgr.allocs, e.2.prot = false) → ∃ s', s1.reset i p = some s' := by
    intro s1 i p h1 h2
    unfold PtrState.reset
    by_cases hi : s1.slot i = 0
    · rw [if_neg (by simpa using hi)]; exact ⟨_, rfl⟩
    · rw [if_pos (by simpa using hi)]
      obtain ⟨m, hm, _⟩ := free_live hi (h1 hi) h2
      rw [hm]; exact ⟨_, rfl⟩
  cases o with
  | make i size l m c =>
    have hl := hlev i size l m c rfl
    simp only [PtrState.step, PtrState.make]
    have hnc : l ≠ .canary := by rcases hl with rfl | rfl <;> simp
    by_cases hm : m = 0
    · have : s.mgr.allocate size {} l 64 m = .throws s.mgr := by
        unfold State.allocate request
        simp [hm]
      rw [this]; exact ⟨_, rfl⟩
    · have hal : ∃ mgr, s.mgr.allocate size {} l 64 m = .ok m mgr := by
        unfold State.allocate request
        rcases hl with rfl | rfl
        · simp only [Bool.false_eq_true, if_false, if_neg hm, false_and, setup]
          exact ⟨_, rfl⟩
        · simp only [Bool.false_eq_true, if_false, if_neg hm, false_and, setup, ne_eq, reduceCtorEq, not_false_eq_true,
            if_true, Nat.le_refl]
          exact ⟨_, rfl⟩
      obtain ⟨mgr, hmgr⟩ := hal
      rw [hmgr]
      simp only [if_neg hm]
      rcases allocate_ok hmgr with ⟨h0, _⟩ | ⟨_, _, cap, mem, mem0, _, _, rfl⟩
      · exact absurd h0 hm
      · have hun : ∀ e ∈ (State.track { s.mgr with blocks := (m, cap) :: s.mgr.blocks, mem := mem } m m size).allocs,
            e.2.prot = false := by
          intro e he
          simp only [State.track, List.mem_cons] at he
          rcases he with rfl | he
          · rfl
          · exact w.unprot e he
        have hal : ∀ q, s.mgr.isAllocated q = true →
            (State.track { s.mgr with blocks := (m, cap) :: s.mgr.blocks, mem := mem } m m size).isAllocated q = true := by
          intro q hq
          rw [isAllocated_iff] at hq ⊢
          obtain ⟨e, he, hq⟩ := hq
          exact ⟨e, List.mem_cons_of_mem _ he, hq⟩
        cases c with
        | true =>
          obtain ⟨m', hf, _⟩ := free_live (s := { s with mgr := State.track { s.mgr with blocks := (m, cap) :: s.mgr.blocks, mem := mem } m m size })
              hm (by rw [isAllocated_iff]; exact ⟨_, List.mem_cons_self .., rfl⟩) hun
          simp only [if_true]
          exact ⟨_, hf⟩
        | false =>
          simp only [Bool.false_eq_true, if_false]
          exact hreset _ i m (fun hi => hal _ (w.live i hi)) hun
  | reset i => exact hreset s i 0 (w.live i) w.unprot
  | release i => exact ⟨_, rfl⟩
  | move i j =>
    simp only [PtrState.step, PtrState.moveAssign]
    by_cases hij : i = j
    · rw [if_pos hij]; exact ⟨_, rfl⟩
    · rw [if_neg hij]
      refine hreset _ i _ ?_ w.unprot
      intro hi
      simp only [setSlot, if_neg hij] at hi ⊢
      exact w.live i hi

/-- **C66 (violated: CANARY).** An object created with `makeProtected(CANARY)` is never released: after the pointer is
reset the manager still tracks the block and the release was rejected. -/
theorem C66_canary_leak_violated {s : PtrState} (hs : s.slot 0 = 0) (halloc : s.mgr.allocs = []) {size m : Nat}
    (hsz : size + 16 < 2 ^ 64) (hm : m ≠ 0) :
    ∃ s1 s2, s.step (.make 0 size .canary m false) = some s1 ∧ s1.step (.reset 0) = some s2 ∧ s2.slot 0 = 0 ∧
      s2.mgr.checkForLeaks.1 = 1 ∧ s2.rejected = s.rejected + 1 := by
  have hps : w64 (size + 2 * 8) = size + 16 := Nat.mod_eq_of_lt hsz
  obtain ⟨mgr, ha, hma⟩ : ∃ mgr, s.mgr.allocate size {} .canary 64 m = .ok (m + 8) mgr ∧
      mgr.allocs = [(m, ⟨m + 8, m, size, false⟩)] := by
    have hset : ∃ mem, setup s.mgr.mem m (size + 16) (size + 16) .canary = some mem := by
      simp only [setup]
      rw [if_pos (by omega)]
      exact ⟨_, rfl⟩
    obtain ⟨mem, hset⟩ := hset
    unfold State.allocate request
    simp only [ne_eq, reduceCtorEq, not_false_eq_true, if_true, protectedSize, Bool.false_eq_true, if_false, false_and,
      if_neg hm]
    rw [hps]
    simp only [hset]
    refine ⟨_, rfl, ?_⟩
    simp [State.track, halloc]
  have h1 : s.step (.make 0 size .canary m false) =
      some { s with mgr := mgr, ctors := s.ctors + 1, slot := setSlot s.slot 0 (m + 8) } := by
    simp only [PtrState.step, PtrState.make, ha, Nat.add_eq_zero_iff, reduceCtorEq, and_false, if_false, Bool.false_eq_true]
    unfold PtrState.reset
    rw [if_neg (by simp [hs])]
  have hd : mgr.deallocate (m + 8) = .ok false mgr := by
    have hf : mgr.find (m + 8) = none := by
      unfold State.find
      rw [hma]
      simp
    unfold State.deallocate
    rw [if_neg (by omega), hf]
  refine ⟨_, ⟨mgr, setSlot (setSlot s.slot 0 (m + 8)) 0 0, s.given, s.ctors + 1, s.dtors, s.rejected + 1⟩, h1, ?_, by simp [setSlot], by simp [State.checkForLeaks, hma], rfl⟩
  simp only [PtrState.step, PtrState.reset]
  have hslot : setSlot s.slot 0 (m + 8) 0 = m + 8 := by simp [setSlot]
  rw [hslot, if_pos (by omega)]
  unfold PtrState.free
  simp only [hd, Bool.false_eq_true, if_false]
  rfl

/-- **C66 (violated: destructors).** No operation ever runs the destructor of a `T`: after any history the number of
destructor calls is what it was, so objects owning resources leak them. -/
theorem C66_destructor_violated {s s' : PtrState} {o : PtrOp} (h : s.step o = some s') : s'.dtors = s.dtors := by
  have hfree : ∀ (a b : PtrState) (p : Nat), a.free p = some b → b.dtors = a.dtors := by
    intro a b p h
    unfold PtrState.free at h
    split at h
    · injection h with h; rw [← h]
    · exact absurd h (by simp)
  have hreset : ∀ (a b : PtrState) (i p : Nat), a.reset i p = some b → b.dtors = a.dtors := by
    intro a b i p h
    unfold PtrState.reset at h
    by_cases hi : a.slot i ≠ 0
    · rw [if_pos hi, Option.map_eq_some_iff] at h
      obtain ⟨c, hc, rfl⟩ := h
      exact hfree a c _ hc
    · rw [if_neg hi] at h
      injection h with h; rw [← h]
  cases o with
  | make i size l m c =>
    simp only [PtrState.step, PtrState.make] at h
    split at h
    · rename_i p mgr _
      by_cases hp : p = 0
      · rw [if_pos hp] at h; injection h with h; rw [← h]
      · rw [if_neg hp] at h
        cases c with
        | true => exact (hfree { s with mgr := mgr } s' p h).trans rfl
        | false => exact (hreset { s with mgr := mgr, ctors := s.ctors + 1 } s' i p h).trans rfl
    · injection h with h; rw [← h]
    · exact absurd h (by simp)
    · exact absurd h (by simp)
  | reset i => exact hreset _ _ _ _ h
  | release i =>
    simp only [PtrState.step, Option.some.injEq] at h
    rw [← h]; rfl
  | move i j =>
    simp only [PtrState.step, PtrState.moveAssign] at h
    by_cases hij : i = j
    · rw [if_pos hij] at h; injection h with h; rw [h]
    · rw [if_neg hij] at h
      exact (hreset { s with slot := setSlot s.slot j 0 } s' i (s.slot j) h).trans rfl

/-- Witness: two objects made, one moved over the other, then everything reset. -/
example : ∃ s, PtrRun s ∧ s.ctors = 2 ∧ s.dtors = 0 ∧ s.mgr.checkForLeaks.1 = 0 ∧ s.slot 0 = 0 ∧ s.slot 1 = 0 := by
  obtain ⟨s1, h1⟩ := C66_total_partial PtrRun.start (.make 0 8 .none 4096 false) (by rintro _ _ _ _ _ ⟨⟩; exact Or.inl rfl)
  have r1 := PtrRun.op (o := .make 0 8 .none 4096 false) PtrRun.start (Or.inr (by simp)) (by rintro _ _ _ _ _ ⟨⟩; exact Or.inl rfl) h1
  have e1 : s1.mgr.allocs = [(4096, ⟨4096, 4096, 8, false⟩)] := by
    have : (PtrState.step {} (.make 0 8 .none 4096 false)).map (·.mgr.allocs) = some [(4096, ⟨4096, 4096, 8, false⟩)] := by decide
    rw [h1] at this; exact Option.some.inj this
  obtain ⟨s2, h2⟩ := C66_total_partial r1 (.make 1 24 .crc 8192 false) (by rintro _ _ _ _ _ ⟨⟩; exact Or.inr rfl)
  have r2 := PtrRun.op (o := .make 1 24 .crc 8192 false) r1 (Or.inr (by rw [e1]; simp)) (by rintro _ _ _ _ _ ⟨⟩; exact Or.inr rfl) h2
  obtain ⟨s3, h3⟩ := C66_total_partial r2 (.move 0 1) (by rintro _ _ _ _ _ ⟨⟩)
  have r3 := PtrRun.op (o := .move 0 1) r2 trivial (by rintro _ _ _ _ _ ⟨⟩) h3
  obtain ⟨s4, h4⟩ := C66_total_partial r3 (.reset 0) (by rintro _ _ _ _ _ ⟨⟩)
  have r4 := PtrRun.op (o := .reset 0) r3 trivial (by rintro _ _ _ _ _ ⟨⟩) h4
  refine ⟨s4, r4, ?_⟩
  have : ((PtrState.step {} (.make 0 8 .none 4096 false)).bind fun s => (s.step (.make 1 24 .crc 8192 false)).bind fun s =>
      (s.step (.move 0 1)).bind fun s => (s.step (.reset 0)).map fun s =>
        (s.ctors, s.dtors, s.mgr.checkForLeaks.1, s.slot 0, s.slot 1)) = some (2, 0, 0, 0, 0) := by decide
  rw [h1, Option.bind_some, h2, Option.bind_some, h3, Option.bind_some, h4] at this
  simpa using this

end Verif.Props.Unified
