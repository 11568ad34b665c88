import Verif.Model.Facade
import Verif.Props.ErrorResult
/-!
C284: the high-level memory and error functions.
-/
namespace Verif.Props.Facade
open Verif Verif.Facade
open Verif.Unified (Level)
open Verif.ErrorHandling (Severity ErrorInfo Handler)

/-! ### Specification -/

/-- A history: the calls made, oldest first, with what each returned. -/
abbrev History := List (Call × Ret)

/-- The pointers handed out and not given back yet: one more for each allocation that returned a pointer, one less for each release that said true. -/
def outStep (l : List Nat) : Call × Ret → List Nat
  | (.allocate _ _ _ _, .ptr p) => p :: l
  | (.deallocate p, .bool true) => l.filter (· != p)
  | _ => l

def outstanding (t : History) : List Nat := t.foldl outStep []

/-- Only unprotected memory is asked for, and the heap does not hand out a block twice. -/
def Fair (t : History) : Call → Prop
  | .allocate _ _ l m => l = .none ∧ m ∉ outstanding t
  | _ => True

/-- The histories from the start of the program. -/
inductive Run : Api → History → Prop
  | start : Run {} []
  | call {a a' t c r} : Run a t → Fair t c → a.step c = some (r, a') → Run a' (t ++ [(c, r)])

/-! ### Lemmas -/

theorem out_snoc (t : History) (e : Call × Ret) : outstanding (t ++ [e]) = outStep (outstanding t) e := by
  unfold outstanding; rw [List.foldl_append]; rfl

theorem alloc_none (s : Unified.State) (size m : Nat) : s.allocate size {} .none 64 m =
    if m = 0 then .throws s else .ok m ({ s with blocks := (m, size) :: s.blocks }.track m m size) := by
  simp [Unified.State.allocate, Unified.request, Unified.setup]

structure Inv (a : Api) (t : History) : Prop where
  keys : a.mgr.allocs.map (·.1) = outstanding t
  plain : ∀ e ∈ a.mgr.allocs, e.2.prot = false
  nonzero : ∀ p ∈ outstanding t, p ≠ 0
  nodup : (outstanding t).Nodup

theorem find_some {s : Unified.State} {p : Nat} {i : Unified.Info} (h : s.find p = some i) : (p, i) ∈ s.allocs := by
  unfold Unified.State.find at h
  rw [Option.map_eq_some_iff] at h
  obtain ⟨e, h1, h2⟩ := h
  have h3 := List.find?_some h1
  have h4 := List.mem_of_find?_eq_some h1
  simp only [beq_iff_eq] at h3
  rw [← h3, ← h2]
  exact h4

theorem find_none {s : Unified.State} {p : Nat} (h : s.find p = none) : p ∉ s.allocs.map (·.1) := by
  unfold Unified.State.find at h
  rw [Option.map_eq_none_iff, List.find?_eq_none] at h
  intro hm
  rw [List.mem_map] at hm
  obtain ⟨e, h1, h2⟩ := hm
  exact h e h1 (by simpa using h2)

theorem dealloc {a : Api} {t : History} (i : Inv a t) (p : Nat) : ∃ b a', a.deallocate p = some (b, a') ∧ (b = true ↔ p ∈ outstanding t) ∧
    a'.mgr.allocs = (if b then a.mgr.allocs.filter (fun e => e.1 != p) else a.mgr.allocs) ∧
    a'.mgr.blocks = (if b then a.mgr.blocks.filter (fun e => e.1 != p) else a.mgr.blocks) := by
  unfold Api.deallocate Unified.State.deallocate
  by_cases hp : p = 0
  · rw [if_pos hp]
    exact ⟨false, _, rfl, by simpa using fun h => i.nonzero p h hp, rfl, rfl⟩
  · rw [if_neg hp]
    cases hf : a.mgr.find p with
    | none => exact ⟨false, _, rfl, by simpa [← i.keys] using find_none hf, rfl, rfl⟩
    | some x =>
      have hx := find_some hf
      have hq := i.plain _ hx
      simp only at hq
      simp only [hq, Bool.false_eq_true, if_false]
      refine ⟨true, _, rfl, ?_, rfl, rfl⟩
      rw [← i.keys]
      exact ⟨fun _ => List.mem_map.2 ⟨_, hx, rfl⟩, fun _ => rfl⟩

theorem filter_keys (l : List (Nat × Unified.Info)) (p : Nat) : (l.filter (fun e => e.1 != p)).map (·.1) = (l.map (·.1)).filter (· != p) := by
  rw [List.filter_map]; rfl

theorem inv_of_run {a : Api} {t : History} (h : Run a t) : Inv a t := by
  induction h with
  | start => exact ⟨rfl, by simp, by simp [outstanding], by simp [outstanding]⟩
  | @call a a' t c r hr hf hs ih =>
    have same : ∀ {a' : Api} {r : Ret} {c : Call}, outStep (outstanding t) (c, r) = outstanding t → a'.mgr.allocs = a.mgr.allocs → Inv a' (t ++ [(c, r)]) := by
      intro a' r c h1 h2
      refine ⟨by rw [out_snoc, h1, h2]; exact ih.keys, by rw [h2]; exact ih.plain, by rw [out_snoc, h1]; exact ih.nonzero, by rw [out_snoc, h1]; exact ih.nodup⟩
    cases c with
    | init g l =>
      simp only [Api.step, Option.some.injEq, Prod.mk.injEq] at hs
      obtain ⟨rfl, rfl⟩ := hs
      exact same rfl rfl
    | shutdown c =>
      simp only [Api.step, Option.some.injEq, Prod.mk.injEq] at hs
      obtain ⟨rfl, rfl⟩ := hs
      exact same rfl (by unfold Api.shutdown; cases c <;> rfl)
    | allocate sz n l m =>
      obtain ⟨rfl, hm⟩ := hf
      simp only [Api.step, Api.allocate] at hs
      rw [alloc_none] at hs
      by_cases h0 : m = 0
      · rw [if_pos h0] at hs
        simp only [Option.some.injEq, Prod.mk.injEq] at hs
        obtain ⟨rfl, rfl⟩ := hs
        exact same rfl rfl
      · rw [if_neg h0] at hs
        simp only [Option.some.injEq, Prod.mk.injEq] at hs
        obtain ⟨rfl, rfl⟩ := hs
        refine ⟨?_, ?_, ?_, ?_⟩
        · rw [out_snoc]
          show m :: a.mgr.allocs.map (·.1) = m :: outstanding t
          rw [ih.keys]
        · intro e he
          rcases List.mem_cons.1 he with rfl | he
          · rfl
          · exact ih.plain e he
        · rw [out_snoc]
          intro p hp
          rcases List.mem_cons.1 hp with rfl | hp
          · exact h0
          · exact ih.nonzero p hp
        · rw [out_snoc]
          exact List.nodup_cons.2 ⟨hm, ih.nodup⟩
    | deallocate p =>
      obtain ⟨b, a2, h1, h2, h3, _⟩ := dealloc ih p
      simp only [Api.step, h1, Option.some.injEq, Prod.mk.injEq] at hs
      obtain ⟨rfl, rfl⟩ := hs
      cases b with
      | false => exact same rfl h3
      | true =>
        simp only [if_true] at h3
        have ho : outstanding (t ++ [(.deallocate p, .bool true)]) = (outstanding t).filter (· != p) := by rw [out_snoc]; rfl
        refine ⟨by rw [ho, h3, filter_keys, ih.keys], ?_, ?_, ?_⟩
        · intro e he
          rw [h3] at he
          exact ih.plain e (List.mem_filter.1 he).1
        · rw [ho]
          intro q hq
          exact ih.nonzero q (List.mem_filter.1 hq).1
        · rw [ho]
          exact ih.nodup.filter _
    | checkForLeaks r =>
      simp only [Api.step, Option.some.injEq, Prod.mk.injEq] at hs
      obtain ⟨rfl, rfl⟩ := hs
      exact same rfl rfl
    | setReportingLevel l =>
      simp only [Api.step, Option.some.injEq, Prod.mk.injEq] at hs
      obtain ⟨rfl, rfl⟩ := hs
      exact same rfl rfl
    | logError e =>
      simp only [Api.step, Option.some.injEq, Prod.mk.injEq] at hs
      obtain ⟨rfl, rfl⟩ := hs
      exact same rfl rfl

/-! ### C284 -/

/-- C284. After every history of calls for unprotected memory every further call returns; an allocation gives the heap's block or, when the heap is
exhausted, an exception; a release says true exactly for a pointer that is outstanding (so a second release is refused); the leak check counts exactly
the outstanding pointers. -/
theorem C284_history {a : Api} {t : History} (h : Run a t) :
    (∀ c, Fair t c → ∃ r a', a.step c = some (r, a')) ∧
    (∀ sz n m, ∃ a', a.step (.allocate sz n .none m) = some (if m = 0 then .exception else .ptr m, a')) ∧
    (∀ p, ∃ a', a.step (.deallocate p) = some (.bool (decide (p ∈ outstanding t)), a')) ∧
    (∀ r, ∃ a', a.step (.checkForLeaks r) = some (.count (outstanding t).length, a')) := by
  have i := inv_of_run h
  have hal : ∀ sz n m, ∃ a', a.step (.allocate sz n .none m) = some (if m = 0 then .exception else .ptr m, a') := by
    intro sz n m
    simp only [Api.step, Api.allocate]
    rw [alloc_none]
    by_cases h0 : m = 0
    · rw [if_pos h0, if_pos h0]; exact ⟨_, rfl⟩
    · rw [if_neg h0, if_neg h0]; exact ⟨_, rfl⟩
  have hde : ∀ p, ∃ a', a.step (.deallocate p) = some (.bool (decide (p ∈ outstanding t)), a') := by
    intro p
    obtain ⟨b, a2, h1, h2, _⟩ := dealloc i p
    refine ⟨a2, ?_⟩
    simp only [Api.step, h1]
    rw [show b = decide (p ∈ outstanding t) by
      rw [Bool.eq_iff_iff, h2]; simp]
  have hch : ∀ r, ∃ a', a.step (.checkForLeaks r) = some (.count (outstanding t).length, a') := by
    intro r
    refine ⟨(a.checkForLeaks r).2, ?_⟩
    simp only [Api.step]
    rw [show (a.checkForLeaks r).1 = (outstanding t).length by
      rw [← i.keys, List.length_map]; rfl]
  refine ⟨?_, hal, hde, hch⟩
  intro c hc
  cases c with
  | allocate sz n l m =>
    obtain ⟨rfl, _⟩ := hc
    obtain ⟨a', e⟩ := hal sz n m
    exact ⟨_, a', e⟩
  | deallocate p => obtain ⟨a', e⟩ := hde p; exact ⟨_, a', e⟩
  | init g l => exact ⟨_, _, rfl⟩
  | shutdown c => exact ⟨_, _, rfl⟩
  | checkForLeaks r => exact ⟨_, _, rfl⟩
  | setReportingLevel l => exact ⟨_, _, rfl⟩
  | logError e => exact ⟨_, _, rfl⟩

/-- A history with two blocks of which one is released. -/
example : ∃ a t, Run a t ∧ outstanding t = [64] :=
  ⟨_, _, .call (.call (.call .start (c := .allocate 4 3 .none 64) ⟨rfl, by simp [outstanding]⟩ rfl)
    (c := .allocate 8 1 .none 128) ⟨rfl, by simp [outstanding, outStep]⟩ rfl) (c := .deallocate 128) trivial rfl, rfl⟩

/-- C284. A block for `n` elements of `sz` bytes each has room for them, whenever `sz * n` bytes can be expressed in a `size_t`; its contents are what the
heap gave (nothing is constructed or cleared), and other blocks and all memory stay as they are. -/
theorem C284_room (a a' : Api) (sz n m : Nat) (h : sz * n < 2 ^ 64) (e : a.allocate sz n .none m = some (some m, a')) (hm : m ≠ 0) :
    a'.mgr.cap m = sz * n ∧ a'.mgr.mem = a.mgr.mem ∧ (∀ q, q ≠ m → a'.mgr.cap q = a.mgr.cap q) := by
  simp only [Api.allocate] at e
  rw [alloc_none, if_neg hm] at e
  simp only [Option.some.injEq, Prod.mk.injEq, true_and] at e
  subst e
  refine ⟨?_, rfl, ?_⟩
  · have : (if n = 1 then sz else Unified.w64 (sz * n)) = sz * n := by
      split
      · subst n; omega
      · exact Nat.mod_eq_of_lt h
    simp [Unified.State.cap, Unified.State.track, this]
  · intro q hq
    have : (m == q) = false := by simpa using fun e => hq e.symm
    simp [Unified.State.cap, Unified.State.track, this]

example : ∃ a', (({} : Api).allocate 4 10 .none 64) = some (some 64, a') := ⟨_, rfl⟩

/-- C284. `initialize` always succeeds, touches no block, and from then on (whatever errors are reported) the logger receives exactly those from INFO
upwards, or only from ERROR upwards if logging is switched off. -/
theorem C284_initialize (a : Api) (g : Bool) (l : Level) (es : List ErrorInfo) :
    (a.init g l).1 = true ∧ (a.init g l).2.mgr.allocs = a.mgr.allocs ∧ (a.init g l).2.mgr.mem = a.mgr.mem ∧ (a.init g l).2.mgr.blocks = a.mgr.blocks ∧
    (a.err.logger = true → (es.foldl Api.logError (a.init g l).2).err.out = a.err.out ++ es.filter (fun e => (if g then 1 else 3) ≤ e.severity)) := by
  refine ⟨rfl, rfl, rfl, rfl, ?_⟩
  intro hl
  have gen : ∀ (es : List ErrorInfo) (b : Api), (es.foldl Api.logError b).err = es.foldl Handler.logError b.err := by
    intro es
    induction es with
    | nil => intro b; rfl
    | cons e es ih => intro b; rw [List.foldl_cons, List.foldl_cons, ih]; rfl
  rw [gen, ErrorHandling.C63_reporting]
  simp only [Api.init, hl, if_true]

example : ({} : Api).err.logger = true := rfl

/-- C284 fails: the protection level given to `initialize` protects nothing. Whatever level is set, memory asked for without a level of its own has exactly
the bytes asked for, holds what the heap left there and is recorded as unprotected; everything but the remembered level is as if `initialize`
had been called with NONE. -/
theorem C284_default_level_violated (a : Api) (g : Bool) (l : Level) (sz n m : Nat) (hm : m ≠ 0) (h : sz * n < 2 ^ 64) :
    ∃ a', (a.init g l).2.allocate sz n .none m = some (some m, a') ∧ a'.mgr.level = l ∧ a'.mgr.cap m = sz * n ∧ a'.mgr.mem = a.mgr.mem ∧
      (∃ i, a'.mgr.find m = some i ∧ i.prot = false ∧ i.size = sz * n) ∧
      (a.init g .none).2.allocate sz n .none m = some (some m, { a' with mgr := { a'.mgr with level := .none } }) := by
  have hs : (if n = 1 then sz else Unified.w64 (sz * n)) = sz * n := by
    split
    · subst n; omega
    · exact Nat.mod_eq_of_lt h
  refine ⟨{ (a.init g l).2 with mgr := ({ (a.init g l).2.mgr with blocks := (m, sz * n) :: (a.init g l).2.mgr.blocks }).track m m (sz * n) }, ?_, rfl, ?_, rfl, ⟨⟨m, m, sz * n, false⟩, ?_, rfl, rfl⟩, ?_⟩
  · simp only [Api.allocate]
    rw [alloc_none, if_neg hm, hs]
  · simp [Unified.State.cap, Unified.State.track]
  · simp [Unified.State.find, Unified.State.track]
  · simp only [Api.allocate]
    rw [alloc_none, if_neg hm, hs]
    rfl

/-- C284 fails: `shutdown` reports success whatever is still allocated and releases nothing; after `initialize(false)` its leak check does not
even reach the logger, though the blocks are still there. -/
theorem C284_shutdown_violated (a : Api) (check : Bool) (l : Level) :
    (a.shutdown check).1 = true ∧ (a.shutdown check).2.mgr.allocs = a.mgr.allocs ∧ (a.shutdown check).2.mgr.blocks = a.mgr.blocks ∧
    ((a.init false l).2.shutdown check).2.err.out = a.err.out ∧
    (a.err.logger = true → a.mgr.allocs ≠ [] → ((a.init true l).2.shutdown true).2.err.out = a.err.out ++ [leakWarning]) := by
  refine ⟨rfl, by cases check <;> rfl, by cases check <;> rfl, ?_, ?_⟩
  · cases check
    · rfl
    · have hs : ∀ x : Api, (x.shutdown true).2.err = (if !x.mgr.allocs.isEmpty then x.err.logError leakWarning else x.err) := fun _ => rfl
      rw [hs]
      split
      · unfold Handler.logError
        simp [Api.init, leakWarning]
      · rfl
  · intro hl hne
    have hs : ∀ x : Api, (x.shutdown true).2.err = (if !x.mgr.allocs.isEmpty then x.err.logError leakWarning else x.err) := fun _ => rfl
    rw [hs]
    have : (!(a.init true l).2.mgr.allocs.isEmpty) = true := by
      simpa [Api.init, Unified.State.setLevel] using hne
    rw [if_pos this]
    unfold Handler.logError
    simp [Api.init, leakWarning, hl]

/-- C284 fails: when `sz * n` does not fit in a `size_t`, a pointer is returned all the same and the block is too small; for eight-byte elements
and n = 2⁶¹ it holds not even one element. -/
theorem C284_overflow_violated :
    (∀ (a : Api) (sz n m : Nat), m ≠ 0 → n ≠ 1 → 2 ^ 64 ≤ sz * n → ∃ a', a.allocate sz n .none m = some (some m, a') ∧ a'.mgr.cap m < sz * n ∧ a'.mgr.cap m < 2 ^ 64) ∧
    (∃ a', ({} : Api).allocate 8 (2 ^ 61) .none 64 = some (some 64, a') ∧ a'.mgr.cap 64 = 0) := by
  have key : ∀ (a : Api) (sz n m : Nat), m ≠ 0 → n ≠ 1 → ∃ a', a.allocate sz n .none m = some (some m, a') ∧ a'.mgr.cap m = sz * n % 2 ^ 64 := by
    intro a sz n m hm hn
    refine ⟨{ a with mgr := ({ a.mgr with blocks := (m, Unified.w64 (sz * n)) :: a.mgr.blocks }).track m m (Unified.w64 (sz * n)) }, ?_, ?_⟩
    · simp only [Api.allocate]
      rw [alloc_none, if_neg hm, if_neg hn]
    · simp [Unified.State.cap, Unified.State.track, Unified.w64]
  constructor
  · intro a sz n m hm hn h
    obtain ⟨a', e, hc⟩ := key a sz n m hm hn
    have := Nat.mod_lt (sz * n) (show 0 < 2 ^ 64 by decide)
    exact ⟨a', e, by rw [hc]; omega, by rw [hc]; exact this⟩
  · obtain ⟨a', e, hc⟩ := key {} 8 (2 ^ 61) 64 (by decide) (by decide)
    exact ⟨a', e, by rw [hc]⟩

/-- **C284 (messages).** `checkForLeaks(false)` logs nothing; `checkForLeaks(true)` logs one warning if there are allocations and nothing otherwise. Freeing a null pointer returns
false and changes nothing; freeing a pointer that is not allocated returns false and logs one error; neither kind of call changes the logger. -/
theorem C284_messages (a : Api) :
    (a.checkForLeaks false).2.err = a.err ∧
    (a.mgr.allocs = [] → (a.checkForLeaks true).2.err = a.err) ∧
    (a.mgr.allocs ≠ [] → (a.checkForLeaks true).2.err = a.err.logError leakWarning) ∧
    a.deallocate 0 = some (false, a) ∧
    (∀ p, p ≠ 0 → a.mgr.isAllocated p = false → a.deallocate p = some (false, { a with err := a.err.logError freeError })) ∧
    (∀ p b a', a.deallocate p = some (b, a') → b = true → a'.err = a.err) := by
  refine ⟨rfl, ?_, ?_, rfl, ?_, ?_⟩
  · intro h; simp [Api.checkForLeaks, h]
  · intro h; simp [Api.checkForLeaks, h]
  · intro p hp hn
    have hf : a.mgr.find p = none := by simpa [Unified.State.isAllocated] using hn
    have : a.mgr.deallocate p = .ok false a.mgr := by simp [Unified.State.deallocate, hp, hf]
    simp [Api.deallocate, this, hp]
  · intro p b a' h hb
    unfold Api.deallocate at h
    split at h
    · obtain ⟨rfl, rfl⟩ := Prod.mk.inj (Option.some.inj h)
      subst hb
      rfl
    · cases h

example : ({} : Api).mgr.allocs = [] ∧ ({} : Api).mgr.isAllocated 64 = false := ⟨rfl, rfl⟩

end Verif.Props.Facade
