import Verif.Lemmas.Crc
import Verif.Model.CoreScrubbing
/-!
Properties C09 and C36: CRC-32 and the memory scrubbing helpers built on it.
-/
namespace Verif.Props
open Verif Verif.Spec Verif.Crc

/-- **C09.** Two byte strings that differ only inside a window of at most 32 consecutive bits (anywhere,
any length, not necessarily byte-aligned) have different checksums. -/
theorem C09_crc_detects_bursts (x y : List (BitVec 8)) (h : BurstDiffer 32 x y) : crc32 x ≠ crc32 y :=
  crc32_burst h

/-- **C09 (byte form).** Replacing at most four consecutive bytes changes the checksum. -/
theorem C09_crc_detects_four_bytes (p w₁ w₂ s : List (BitVec 8)) (hl : w₁.length = w₂.length)
    (h4 : w₁.length ≤ 4) (hne : w₁ ≠ w₂) : crc32 (p ++ w₁ ++ s) ≠ crc32 (p ++ w₂ ++ s) :=
  crc32_burst (burst_of_bytes hl h4 hne)

/-- **C09 (values).** On types of at most four bytes the checksum of a value determines the value. -/
theorem C09_crc_injective_on_small_values (n : Nat) (hn : n ≤ 4) (x y : BitVec (8 * n)) :
    crcOfValue n x = crcOfValue n y ↔ x = y :=
  ⟨crcOfValue_inj hn, fun h => by rw [h]⟩

/-- **C09 (all implementations).** The bitwise, conditional, literal-table and generated-table
implementations in the code base compute the same checksum for every input. -/
theorem C09_implementations_agree (data : List (BitVec 8)) :
    crc32Unified data = crc32 data ∧ CoreScrub.computeCrc32 data = crc32 data ∧
    crc32Table generatedTable data = crc32 data :=
  ⟨crc32Unified_eq data, crc32Table_eq _ scrubbingTable_ok data, crc32Table_eq _ generatedTable_ok data⟩

/-- Non-vacuity of C09: the standard check value, and a burst that is not byte-aligned. -/
example : crc32 [0x31#8, 0x32#8, 0x33#8, 0x34#8, 0x35#8, 0x36#8, 0x37#8, 0x38#8, 0x39#8] = 0xCBF43926#32 := by
  decide +kernel
example : BurstDiffer 32 [0x80#8, 0x01#8, 0x55#8] [0x00#8, 0x00#8, 0x55#8] :=
  ⟨[false, false, false, false, false, false, false], [true, true], [false, false],
    [false, false, false, false, false, false, false, true, false, true, false, true, false, true, false],
    by decide, by decide, rfl, by decide, by decide⟩

/-- The number of index positions at which two equally long lists differ. -/
def countDiffer {α : Type _} [DecidableEq α] : List α → List α → Nat
  | a :: as, b :: bs => (if a = b then 0 else 1) + countDiffer as bs
  | _, _ => 0

/-- **C36 (CRC).** `verify_crc` accepts unmodified data with its own checksum, and rejects every
modification confined to 32 consecutive bits. -/
theorem C36_verify_crc (x y : List (BitVec 8)) :
    CoreScrub.verifyCrc x (CoreScrub.computeCrc32 x) = true ∧
    (BurstDiffer 32 x y → CoreScrub.verifyCrc y (CoreScrub.computeCrc32 x) = false) := by
  constructor
  · simp [CoreScrub.verifyCrc]
  · intro h
    have := crc32_burst h
    simp only [CoreScrub.verifyCrc, (C09_implementations_agree x).2.1, (C09_implementations_agree y).2.1,
      beq_eq_false_iff_ne]
    exact fun h => this h.symm

/-- **C36 (restore).** Whatever happened to the region after `backup_memory`, `restore_memory` of the same
extent reproduces exactly the saved contents, provided both buffers hold `n` elements. -/
theorem C36_backup_restore {α : Type _} (data buffer damaged : List α)
    (h₁ : buffer.length = data.length) (h₂ : damaged.length = data.length) :
    ∃ b, CoreScrub.backupMemory buffer data data.length = .ok b ∧
      CoreScrub.restoreMemory damaged b data.length = .ok data := by
  refine ⟨data, ?_, ?_⟩
  · simp [CoreScrub.backupMemory, CoreScrub.memcpy, h₁]
  · simp [CoreScrub.restoreMemory, CoreScrub.memcpy, h₂]

/-- **C36 (partial restore).** Restoring `n` elements leaves the elements beyond `n` untouched; asking for
more than either buffer holds is undefined behaviour. -/
theorem C36_restore_extent {α : Type _} (dest src : List α) (n : Nat) :
    (n ≤ dest.length → n ≤ src.length → ∃ r, CoreScrub.restoreMemory dest src n = .ok r ∧
      r.length = dest.length ∧ r.take n = src.take n ∧ r.drop n = dest.drop n) ∧
    ((dest.length < n ∨ src.length < n) → CoreScrub.restoreMemory dest src n = .ub) := by
  constructor
  · intro h1 h2
    refine ⟨_, by simp [CoreScrub.restoreMemory, CoreScrub.memcpy, h1, h2]; rfl, ?_, ?_, ?_⟩
    · simp; omega
    · simp [List.take_append, Nat.min_eq_left h2]
    · rw [List.drop_append]
      simp [Nat.min_eq_left h2]
  · intro h
    have : ¬(n ≤ dest.length ∧ n ≤ src.length) := by omega
    simp [CoreScrub.restoreMemory, CoreScrub.memcpy, this]

/-- **C36 (compare).** `compare_memory` returns exactly the number of differing positions. -/
theorem C36_compare_counts_differences {α : Type _} [DecidableEq α] (a b : List α)
    (h : a.length = b.length) :
    CoreScrub.compareMemory (fun x y => decide (x = y)) a b a.length = .ok (countDiffer a b) := by
  unfold CoreScrub.compareMemory
  rw [if_pos ⟨Nat.le_refl _, by omega⟩]
  have gen : ∀ (a b : List α) (n : Nat), a.length = b.length →
      ((a.zip b).take a.length).foldl
        (fun count p => if (decide (p.1 = p.2)) = true then count else count + 1) n = n + countDiffer a b := by
    intro a
    induction a with
    | nil => intro b n _; cases b <;> rfl
    | cons x xs ih =>
      intro b n hb
      cases b with
      | nil => simp at hb
      | cons y ys =>
        simp only [List.zip_cons_cons, List.length_cons, List.take_succ_cons, List.foldl_cons, countDiffer]
        rw [ih ys _ (by simpa using hb)]
        by_cases hxy : x = y
        · simp [hxy]
        · simp [hxy]; omega
  rw [gen a b 0 h]; simp

/-- Comparison reports zero differences exactly for equal regions. -/
theorem C36_compare_zero_iff_equal {α : Type _} [DecidableEq α] (a b : List α) (h : a.length = b.length) :
    CoreScrub.compareMemory (fun x y => decide (x = y)) a b a.length = .ok 0 ↔ a = b := by
  rw [C36_compare_counts_differences a b h]
  have : countDiffer a b = 0 ↔ a = b := by
    induction a generalizing b with
    | nil => cases b with
      | nil => simp [countDiffer]
      | cons => simp at h
    | cons x xs ih =>
      cases b with
      | nil => simp at h
      | cons y ys =>
        simp only [countDiffer, List.cons.injEq]
        rw [← ih ys (by simpa using h)]
        by_cases hxy : x = y
        · simp [hxy]
        · simp [hxy]
  constructor
  · intro h; injection h with h; exact this.mp h
  · intro h; rw [this.mpr h]

/-- Non-vacuity of C36. -/
example : CoreScrub.compareMemory (fun x y => decide (x = y)) [1, 2, 3, 4] [1, 9, 3, 8] 4 = .ok 2 := by decide
example : CoreScrub.verifyCrc [0x01#8, 0x02#8] (CoreScrub.computeCrc32 [0x01#8, 0x03#8]) = false := by
  decide +kernel

/-! ### The region registry -/

section registry
variable {ρ : Type _}
open CoreScrub

/-- Handles are unique and all below the next one to be issued. -/
def RegOk (r : Registry ρ) : Prop :=
  (r.regions.map (·.1)).Nodup ∧ ∀ e ∈ r.regions, e.1 < r.next

theorem eraseFirst_some {h : Nat} {l l' : List (Nat × ρ)} (hn : (l.map (·.1)).Nodup)
    (he : eraseFirst h l = some l') :
    l' = l.filter (fun e => e.1 ≠ h) ∧ h ∈ l.map (·.1) := by
  induction l generalizing l' with
  | nil => simp [eraseFirst] at he
  | cons e es ih =>
    simp only [List.map_cons, List.nodup_cons] at hn
    unfold eraseFirst at he
    split at he
    · rename_i heq
      injection he with he
      subst he
      constructor
      · simp only [List.filter_cons, heq]
        simp only [ne_eq, not_true_eq_false, decide_false, Bool.false_eq_true, if_false]
        symm
        rw [List.filter_eq_self]
        intro a ha
        have : a.1 ≠ h := by
          intro hah
          apply hn.1
          rw [heq, ← hah]
          exact List.mem_map_of_mem ha
        simp [this]
      · simp [heq]
    · rename_i hne
      cases hr : eraseFirst h es with
      | none => rw [hr] at he; simp at he
      | some r =>
        rw [hr] at he
        simp at he
        obtain ⟨h1, h2⟩ := ih hn.2 hr
        subst he
        constructor
        · rw [List.filter_cons, h1]; simp [hne]
        · simp only [List.map_cons, List.mem_cons]; right; exact h2

theorem eraseFirst_none {h : Nat} {l : List (Nat × ρ)} (he : eraseFirst h l = none) :
    h ∉ l.map (·.1) := by
  induction l with
  | nil => simp
  | cons e es ih =>
    unfold eraseFirst at he
    split at he
    · cases he
    · rename_i hne
      simp at he
      have := ih he
      simp only [List.map_cons, List.mem_cons, not_or]
      exact ⟨fun h => hne h.symm, this⟩

theorem regOk_step {r : Registry ρ} (hr : RegOk r) (op : Op ρ) : RegOk (step r op) := by
  obtain ⟨h1, h2⟩ := hr
  cases op with
  | register x =>
    simp only [step, register, RegOk]
    constructor
    · rw [List.map_append, List.nodup_append]
      refine ⟨h1, by simp, ?_⟩
      intro a ha b hb
      simp at hb
      subst hb
      obtain ⟨e, he, rfl⟩ := List.mem_map.mp ha
      have := h2 e he
      omega
    · intro e he
      rcases List.mem_append.mp he with he | he
      · have := h2 e he; omega
      · simp at he; subst he; simp
  | unregister h =>
    simp only [step, unregister]
    cases he : eraseFirst h r.regions with
    | none => exact ⟨h1, h2⟩
    | some rs =>
      obtain ⟨h3, _⟩ := eraseFirst_some h1 he
      subst h3
      refine ⟨?_, ?_⟩
      · exact List.Nodup.sublist (List.Sublist.map _ List.filter_sublist) h1
      · intro e he
        exact h2 e (List.mem_filter.mp he).1

theorem regOk_run (r : Registry ρ) (hr : RegOk r) (ops : List (Op ρ)) : RegOk (run r ops) := by
  induction ops generalizing r with
  | nil => exact hr
  | cons op ops ih => exact ih _ (regOk_step hr op)

/-- **C48.** For every history of register/unregister calls: a new registration gets a handle no live
region carries and is scrubbed by the next pass, exactly once and after the older regions; unregistering
removes exactly the region carrying the handle, and reports `false` without any effect if there is none. -/
theorem C48_registry (ops : List (Op ρ)) (x : ρ) (h : Nat) :
    let r := run ({} : Registry ρ) ops
    (∀ e ∈ r.regions, e.1 ≠ (register r x).1) ∧
    (∀ {μ : Type} (f : ρ → μ → μ) (m : μ), scrubOnce f (register r x).2 m = f x (scrubOnce f r m)) ∧
    (h ∈ r.regions.map (·.1) →
      (unregister r h).1 = true ∧ (unregister r h).2.regions = r.regions.filter (fun e => e.1 ≠ h)) ∧
    (h ∉ r.regions.map (·.1) → (unregister r h).1 = false ∧ (unregister r h).2 = r) := by
  intro r
  have hr : RegOk r := regOk_run _ (by simp [RegOk]) ops
  refine ⟨?_, ?_, ?_, ?_⟩
  · intro e he
    have := hr.2 e he
    simp only [register]; omega
  · intro μ f m
    simp [scrubOnce, register, List.foldl_append]
  · intro hm
    unfold unregister
    cases he : eraseFirst h r.regions with
    | none => exact absurd hm (eraseFirst_none he)
    | some rs => exact ⟨rfl, (eraseFirst_some hr.1 he).1⟩
  · intro hm
    unfold unregister
    cases he : eraseFirst h r.regions with
    | none => exact ⟨rfl, rfl⟩
    | some rs => exact absurd (eraseFirst_some hr.1 he).2 hm

/-- Non-vacuity of C48: register two, drop the first, scrub. -/
example : (run ({} : Registry Nat) [.register 10, .register 20, .unregister 0, .register 30]).regions
    = [(1, 20), (2, 30)] := by decide

end registry

end Verif.Props
