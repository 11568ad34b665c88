import Verif.Model.TemporalRedundancy
import Mathlib.Data.List.Count
import Mathlib.Order.Basic
import Mathlib.Order.Nat
import Mathlib.Algebra.BigOperators.Group.List.Basic
/-!
Property C19: TemporalRedundancy.
-/
namespace Verif.Props
open Verif Verif.Temporal

section temporal
variable {α : Type} [LinearOrder α]

/-- Keys strictly increasing. -/
def TSorted (m : List (α × Nat)) : Prop := m.Pairwise fun a b => a.1 < b.1

/-- The entry of a count table. -/
def tableCount (m : List (α × Nat)) (x : α) : Nat := (m.map fun e => if e.1 = x then e.2 else 0).sum

theorem tableCount_bump (k x : α) (m : List (α × Nat)) :
    tableCount (bump k m) x = tableCount m x + if k = x then 1 else 0 := by
  induction m with
  | nil => simp [bump, tableCount]
  | cons e r ih =>
    obtain ⟨k', n⟩ := e
    unfold bump
    split
    · simp only [tableCount, List.map_cons, List.sum_cons]; omega
    · split
      · rename_i h; subst h
        simp only [tableCount, List.map_cons, List.sum_cons]
        split <;> omega
      · simp only [tableCount, List.map_cons, List.sum_cons] at ih ⊢
        rw [ih]; omega

theorem mem_bump_t {k : α} {m : List (α × Nat)} {e : α × Nat} (h : e ∈ bump k m) :
    e.1 = k ∨ ∃ e' ∈ m, e'.1 = e.1 := by
  induction m with
  | nil => simp [bump] at h; left; rw [h]
  | cons e₀ r ih =>
    obtain ⟨k', n⟩ := e₀
    unfold bump at h
    split at h
    · rcases List.mem_cons.mp h with h | h
      · left; rw [h]
      · right; exact ⟨e, h, rfl⟩
    · split at h
      · rcases List.mem_cons.mp h with h | h
        · right; exact ⟨(k', n), by simp, by rw [h]⟩
        · right; exact ⟨e, List.mem_cons_of_mem _ h, rfl⟩
      · rcases List.mem_cons.mp h with h | h
        · right; exact ⟨(k', n), by simp, by rw [h]⟩
        · rcases ih h with h | ⟨e', h1, h2⟩
          · left; exact h
          · right; exact ⟨e', List.mem_cons_of_mem _ h1, h2⟩

theorem sorted_bump_t {k : α} {m : List (α × Nat)} (h : TSorted m) : TSorted (bump k m) := by
  induction m with
  | nil => simp [bump, TSorted]
  | cons e r ih =>
    obtain ⟨k', n⟩ := e
    have h' := List.pairwise_cons.mp h
    unfold bump
    split
    · rename_i hlt
      refine List.pairwise_cons.mpr ⟨?_, h⟩
      intro a ha
      rcases List.mem_cons.mp ha with ha | ha
      · rw [ha]; exact hlt
      · exact lt_trans hlt (h'.1 a ha)
    · split
      · exact List.pairwise_cons.mpr ⟨h'.1, h'.2⟩
      · rename_i h1 h2
        refine List.pairwise_cons.mpr ⟨?_, ih h'.2⟩
        intro a ha
        rcases mem_bump_t ha with ha | ⟨e', he', hee⟩
        · rw [ha]; exact lt_of_le_of_ne (not_lt.mp h1) (fun h => h2 h.symm)
        · rw [← hee]; exact h'.1 e' he'

theorem tableCount_mem {m : List (α × Nat)} (h : TSorted m) {e : α × Nat} (he : e ∈ m) :
    tableCount m e.1 = e.2 := by
  induction m with
  | nil => cases he
  | cons e₀ r ih =>
    have h' := List.pairwise_cons.mp h
    have hz : ∀ (l : List (α × Nat)) (x : α), (∀ a ∈ l, a.1 ≠ x) → tableCount l x = 0 := by
      intro l x hl
      induction l with
      | nil => rfl
      | cons a l ih =>
        simp only [tableCount, List.map_cons, List.sum_cons]
        rw [if_neg (hl a (by simp))]
        have := ih (fun b hb => hl b (List.mem_cons_of_mem _ hb))
        unfold tableCount at this
        rw [this]
    rcases List.mem_cons.mp he with he | he
    · subst he
      simp only [tableCount, List.map_cons, List.sum_cons, if_true]
      have := hz r e.1 (fun a ha => (h'.1 a ha).ne')
      unfold tableCount at this
      rw [this]; rfl
    · have hne : e₀.1 ≠ e.1 := (h'.1 e he).ne
      have := ih h'.2 he
      simp only [tableCount, List.map_cons, List.sum_cons, hne, if_false]
      unfold tableCount at this
      omega

theorem foldl_bump (l : List α) : ∀ m : List (α × Nat), TSorted m →
    TSorted (l.foldl (fun m r => bump r m) m) ∧
    ∀ x, tableCount (l.foldl (fun m r => bump r m) m) x = tableCount m x + l.count x := by
  induction l with
  | nil => intro m h; exact ⟨h, fun x => rfl⟩
  | cons a l ih =>
    intro m h
    obtain ⟨h1, h2⟩ := ih (bump a m) (sorted_bump_t h)
    refine ⟨h1, fun x => ?_⟩
    rw [List.foldl_cons, h2 x, tableCount_bump, List.count_cons]
    by_cases hax : a = x
    · simp [hax]; omega
    · simp [hax]

theorem maxElement_spec (r : List (α × Nat)) : ∀ b : α × Nat, TSorted (b :: r) →
    maxElement b r ∈ b :: r ∧ ∀ e ∈ b :: r, e.2 ≤ (maxElement b r).2 ∧
      (e.2 = (maxElement b r).2 → (maxElement b r).1 ≤ e.1) := by
  induction r with
  | nil => intro b _; simp [maxElement]
  | cons e r ih =>
    intro b hs
    have h' := List.pairwise_cons.mp hs
    have h'' := List.pairwise_cons.mp h'.2
    unfold maxElement
    by_cases hlt : b.2 < e.2
    · rw [if_pos hlt]
      obtain ⟨h1, h2⟩ := ih e h'.2
      refine ⟨List.mem_cons_of_mem _ h1, ?_⟩
      intro a ha
      rcases List.mem_cons.mp ha with ha | ha
      · subst ha
        have := (h2 e (by simp)).1
        refine ⟨by omega, fun h => by omega⟩
      · exact h2 a ha
    · rw [if_neg hlt]
      have hs' : TSorted (b :: r) :=
        List.pairwise_cons.mpr ⟨fun a ha => h'.1 a (List.mem_cons_of_mem _ ha), h''.2⟩
      obtain ⟨h1, h2⟩ := ih b hs'
      refine ⟨?_, ?_⟩
      · rcases List.mem_cons.mp h1 with h1 | h1
        · rw [h1]; simp
        · exact List.mem_cons_of_mem _ (List.mem_cons_of_mem _ h1)
      · intro a ha
        rcases List.mem_cons.mp ha with ha | ha
        · subst ha; exact h2 a (by simp)
        · rcases List.mem_cons.mp ha with ha | ha
          · subst ha
            have hb := h2 b (by simp)
            refine ⟨by omega, fun heq => ?_⟩
            have : b.2 = (maxElement b r).2 := by omega
            exact le_trans (hb.2 this) (h'.1 a (by simp)).le
          · exact h2 a (List.mem_cons_of_mem _ ha)

/-- **C19 (safety).** `execute` has undefined behaviour exactly for zero executions. -/
theorem C19_defined_iff (n : Nat) (run : Nat → α) : execute n run = .ub ↔ n = 0 := by
  constructor
  · intro h
    cases n with
    | zero => rfl
    | succ n =>
      exfalso
      unfold execute findMostCommonResult at h
      split at h
      · rename_i hm
        have := (foldl_bump ((List.range (n + 1)).map run) [] List.Pairwise.nil).2 (run 0)
        rw [hm] at this
        have hpos : 0 < List.count (run 0) ((List.range (n + 1)).map run) := by
          rw [List.count_pos_iff]
          exact List.mem_map.mpr ⟨0, by simp, rfl⟩
        simp only [tableCount, List.map_nil, List.sum_nil] at this
        omega
      · cases h
  · intro h; subst h; rfl

/-- **C19.** For every number `n ≥ 1` of executions and every sequence of results, `execute` returns one of
the results; no value occurs more often; among the most frequent values it returns the smallest. -/
theorem C19_most_common (n : Nat) (hn : 0 < n) (run : Nat → α) :
    ∃ r, execute n run = .ok r ∧ (∃ i, i < n ∧ run i = r) ∧
      ∀ x, ((List.range n).map run).count x ≤ ((List.range n).map run).count r ∧
        (((List.range n).map run).count x = ((List.range n).map run).count r → r ≤ x) := by
  obtain ⟨hs, hc⟩ := foldl_bump ((List.range n).map run) [] List.Pairwise.nil
  have hub := (C19_defined_iff n run)
  unfold execute findMostCommonResult at hub ⊢
  generalize (List.map run (List.range n)).foldl (fun m r => bump r m) [] = m at hs hc hub
  cases m with
  | nil => have := hub.mp rfl; omega
  | cons e r =>
    obtain ⟨h1, h2⟩ := maxElement_spec r e hs
    have hb := tableCount_mem hs h1
    have hb' := hc (maxElement e r).1
    rw [hb] at hb'
    simp only [tableCount, List.map_nil, List.sum_nil, Nat.zero_add] at hb'
    have hmem : ∀ x, 0 < ((List.range n).map run).count x →
        ∃ e' ∈ e :: r, e'.1 = x ∧ e'.2 = ((List.range n).map run).count x := by
      intro x hx
      have := hc x
      simp only [tableCount, List.map_nil, List.sum_nil, Nat.zero_add] at this
      by_contra hno
      have hz : ((e :: r).map fun e => if e.1 = x then e.2 else 0).sum = 0 := by
        apply List.sum_eq_zero
        intro q hq
        obtain ⟨e', he', rfl⟩ := List.mem_map.mp hq
        split
        · rename_i h
          exfalso; apply hno
          refine ⟨e', he', h, ?_⟩
          have := tableCount_mem hs he'
          rw [h, hc x] at this
          simpa [tableCount] using this.symm
        · rfl
      omega
    have hall : ∀ x, ((List.range n).map run).count x ≤ ((List.range n).map run).count (maxElement e r).1 ∧
        (((List.range n).map run).count x = ((List.range n).map run).count (maxElement e r).1 →
          0 < ((List.range n).map run).count x → (maxElement e r).1 ≤ x) := by
      intro x
      by_cases hx : 0 < ((List.range n).map run).count x
      · obtain ⟨e', he', h3, h4⟩ := hmem x hx
        obtain ⟨h5, h6⟩ := h2 e' he'
        refine ⟨by omega, fun heq _ => ?_⟩
        rw [← h3]
        apply h6; omega
      · refine ⟨by omega, fun _ h => absurd h hx⟩
    have h0 : 0 < ((List.range n).map run).count (run 0) := by
      rw [List.count_pos_iff]
      exact List.mem_map.mpr ⟨0, by simp; omega, rfl⟩
    have hpos : 0 < ((List.range n).map run).count (maxElement e r).1 :=
      Nat.lt_of_lt_of_le h0 (hall (run 0)).1
    refine ⟨(maxElement e r).1, rfl, ?_, fun x => ⟨(hall x).1, fun h => (hall x).2 h (by omega)⟩⟩
    rw [List.count_pos_iff, List.mem_map] at hpos
    obtain ⟨i, hi, h⟩ := hpos
    exact ⟨i, by simpa using hi, h⟩

/-- **C19 (masking).** If strictly more than half of the `n` executions give `v`, the result is `v`. -/
theorem C19_majority_masks (n : Nat) (run : Nat → α) (v : α)
    (h : n < 2 * ((List.range n).map run).count v) : execute n run = .ok v := by
  have hn : 0 < n := by
    by_contra hc
    have : n = 0 := by omega
    subst this; simp at h
  obtain ⟨r, h1, _, h3⟩ := C19_most_common n hn run
  rw [h1]
  congr 1
  by_contra hne
  have hsum : ∀ l : List α, l.count r + l.count v ≤ l.length := by
    intro l
    induction l with
    | nil => simp
    | cons a l ih =>
      simp only [List.count_cons, List.length_cons, beq_iff_eq]
      by_cases h1 : a = r
      · have : a ≠ v := fun h2 => hne (h1.symm.trans h2)
        simp [h1, hne]; omega
      · by_cases h2 : a = v
        · have : v ≠ r := fun h => hne h.symm
          simp [h2, this]; omega
        · simp [h1, h2]; omega
  have := hsum ((List.range n).map run)
  simp only [List.length_map, List.length_range] at this
  have := (h3 v).1
  omega

/-- **C19 (deterministic operation).** -/
theorem C19_deterministic (n : Nat) (hn : 0 < n) (v : α) : execute n (fun _ => v) = .ok v := by
  apply C19_majority_masks
  have : (List.range n).map (fun _ => v) = List.replicate n v := by
    apply List.ext_getElem <;> simp
  rw [this, List.count_replicate_self]
  omega

end temporal

/-- Non-vacuity: two of five runs are hit by different upsets. -/
example : execute 5 (fun i => if i = 1 then 99 else if i = 3 then (1 : Nat) else 7) = .ok 7 := by decide
/-- Ties go to the smallest value. -/
example : execute 3 (fun i => (3 - i : Nat)) = .ok 1 := by decide

end Verif.Props
