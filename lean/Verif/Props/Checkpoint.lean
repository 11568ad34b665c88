import Verif.Model.Checkpoint
/-!
Properties C20, C21: the checkpoint store.
-/
namespace Verif.Props
open Verif Verif.Ckpt

/-! ### Specification -/

/-- The requests the store is supposed to honour: each one that comes at least `interval` after the previous
honoured one (initially: after the construction time `last`). -/
def honoured {α : Type} (interval : Int) : Int → List (Checkpoint α) → List (Checkpoint α)
  | _, [] => []
  | last, c :: h => if c.time < last + interval then honoured interval last h
      else c :: honoured interval c.time h

/-- The last `n` elements of a list. -/
def newest {β : Type} (n : Nat) (l : List β) : List β := l.drop (l.length - n)

section ckpt
variable {α : Type}

theorem run_store (s : State α) (h : List (Checkpoint α)) (acc : List (Checkpoint α))
    (hs : s.store = newest s.max acc) :
    (run s h).store = newest s.max (acc ++ honoured s.interval s.last h) := by
  induction h generalizing s acc with
  | nil => simp [run, honoured, hs]
  | cons c h ih =>
    unfold honoured
    have hrun : run s (c :: h) = run (createCheckpoint s c.data c.version c.time) h := rfl
    rw [hrun]
    by_cases hc : c.time < s.last + s.interval
    · rw [if_pos hc]
      have : createCheckpoint s c.data c.version c.time = s := by
        unfold createCheckpoint; rw [if_pos (by omega)]
      rw [this]; exact ih s acc hs
    · rw [if_neg hc]
      have hcr : createCheckpoint s c.data c.version c.time =
          { s with store := newest s.max (acc ++ [c]), last := c.time } := by
        unfold createCheckpoint
        rw [if_neg (by omega)]
        simp only
        congr 1
        rw [hs]
        unfold newest
        by_cases hl : acc.length < s.max
        · have e1 : acc.length - s.max = 0 := by omega
          have e2 : (acc ++ [c]).length - s.max = 0 := by simp; omega
          rw [e1, e2]
          simp only [List.drop_zero]
          rw [if_neg (by simp; omega)]
        · have e2 : (acc ++ [c]).length - s.max = acc.length - s.max + 1 := by simp; omega
          have e3 : acc.drop (acc.length - s.max) ++ [c] = (acc ++ [c]).drop (acc.length - s.max) :=
            (List.drop_append_of_le_length (by omega)).symm
          rw [if_pos (by simp; omega), e2, e3, List.drop_drop]
      rw [hcr]
      have := ih { s with store := newest s.max (acc ++ [c]), last := c.time } (acc ++ [c]) rfl
      rw [this]
      simp

/-- **C20.** For every history of checkpoint requests with arbitrary clock readings, the store holds exactly
the newest `max` honoured requests, in order; in particular never more than `max` of them. -/
theorem C20_store (max : Nat) (interval t₀ : Int) (h : List (Checkpoint α)) :
    (run (new max interval t₀ : State α) h).store = newest max (honoured interval t₀ h) ∧
    (run (new max interval t₀ : State α) h).store.length ≤ max := by
  have := run_store (new max interval t₀ : State α) h [] (by simp [new, newest])
  simp only [List.nil_append] at this
  refine ⟨this, ?_⟩
  rw [this]
  simp [newest, new]; omega

theorem getLast?_newest {β : Type} (n : Nat) (hn : 0 < n) (l : List β) : (newest n l).getLast? = l.getLast? := by
  unfold newest
  rw [List.getLast?_drop]
  by_cases h : l.length ≤ l.length - n
  · have : l = [] := by
      apply List.eq_nil_of_length_eq_zero; omega
    subst this; rfl
  · rw [if_neg h]

/-- **C20 (latest).** With a positive capacity `getLatestCheckpoint` gives the data of the last honoured
request, and fails exactly if none was honoured. -/
theorem C20_latest (max : Nat) (hm : 0 < max) (interval t₀ : Int) (h : List (Checkpoint α)) :
    getLatestCheckpoint (run (new max interval t₀ : State α) h)
      = (honoured interval t₀ h).getLast?.map (·.data) := by
  unfold getLatestCheckpoint
  rw [(C20_store max interval t₀ h).1, getLast?_newest max hm]

/-- **C20 (spacing).** Consecutive honoured requests are at least `interval` apart and the first is at least
`interval` after construction; in particular a request made earlier than that is silently dropped. -/
theorem C20_spacing (interval : Int) (h : List (Checkpoint α)) :
    ∀ t₀ : Int, (∀ c, (honoured interval t₀ h).head? = some c → t₀ + interval ≤ c.time) ∧
      ∀ i (hi : i + 1 < (honoured interval t₀ h).length),
        ((honoured interval t₀ h)[i]).time + interval ≤ ((honoured interval t₀ h)[i + 1]).time := by
  induction h with
  | nil => intro t₀; simp [honoured]
  | cons c h ih =>
    intro t₀
    by_cases hc : c.time < t₀ + interval
    · simp only [honoured, if_pos hc]; exact ih t₀
    · simp only [honoured, if_neg hc]
      obtain ⟨h1, h2⟩ := ih c.time
      refine ⟨?_, ?_⟩
      · intro c' hc'
        simp only [List.head?_cons, Option.some.injEq] at hc'
        subst hc'; omega
      · intro i hi
        match i with
        | 0 =>
          simp only [List.getElem_cons_zero, List.getElem_cons_succ]
          apply h1
          simp only [List.length_cons] at hi
          rw [List.head?_eq_getElem?, List.getElem?_eq_getElem]
        | i + 1 =>
          simp only [List.getElem_cons_succ]
          exact h2 i (by simpa using hi)

/-- Non-vacuity of C20: capacity 2, interval 10, five requests of which one comes too early. -/
example : (run (new 2 10 0 : State Nat) [⟨1, 11, 10⟩, ⟨2, 12, 15⟩, ⟨3, 13, 20⟩, ⟨4, 14, 31⟩]).store
    = [⟨3, 13, 20⟩, ⟨4, 14, 31⟩] := by decide

/-- Newest-first search over a list, as a specification: there is an element satisfying `p` with only
non-satisfying elements after it. -/
def NewestSat {β : Type} (p : β → Bool) (l : List β) (x : β) : Prop :=
  ∃ pre post, l = pre ++ x :: post ∧ p x = true ∧ ∀ y ∈ post, p y = false

theorem find_reverse_spec {β : Type} (p : β → Bool) (l : List β) :
    (∀ x, l.reverse.find? p = some x ↔ NewestSat p l x) ∧
    (l.reverse.find? p = none ↔ ∀ x ∈ l, p x = false) := by
  constructor
  · intro x
    rw [List.find?_eq_some_iff_append]
    constructor
    · rintro ⟨hp, as, bs, h1, h2⟩
      refine ⟨bs.reverse, as.reverse, ?_, hp, ?_⟩
      · have := congrArg List.reverse h1
        simpa using this
      · intro y hy
        have := h2 y (by simpa using hy)
        simpa using this
    · rintro ⟨pre, post, h1, h2, h3⟩
      refine ⟨h2, post.reverse, pre.reverse, by simp [h1], ?_⟩
      intro y hy
      have := h3 y (by simpa using hy)
      simp [this]
  · rw [List.find?_eq_none]
    simp

/-- **C21.** After any history, `rollbackToValid` returns the data of the newest retained checkpoint that
satisfies the validator and fails exactly if no retained checkpoint satisfies it. -/
theorem C21_rollback_to_valid (max : Nat) (interval t₀ : Int) (h : List (Checkpoint α)) (valid : α → Bool) :
    let kept := newest max (honoured interval t₀ h)
    let s := run (new max interval t₀ : State α) h
    (∀ d, rollbackToValid s valid = some d ↔ ∃ c, NewestSat (fun c => valid c.data) kept c ∧ c.data = d) ∧
    (rollbackToValid s valid = none ↔ ∀ c ∈ kept, valid c.data = false) := by
  intro kept s
  have hst : s.store = kept := (C20_store max interval t₀ h).1
  obtain ⟨h1, h2⟩ := find_reverse_spec (fun c : Checkpoint α => valid c.data) kept
  unfold rollbackToValid
  rw [hst]
  constructor
  · intro d
    rw [Option.map_eq_some_iff]
    constructor
    · rintro ⟨c, hc, hd⟩; exact ⟨c, (h1 c).mp hc, hd⟩
    · rintro ⟨c, hc, hd⟩; exact ⟨c, (h1 c).mpr hc, hd⟩
  · rw [Option.map_eq_none_iff]; exact h2

/-- **C21 (versions).** `rollbackToVersion v` returns the data of the newest retained checkpoint with that
version and fails exactly if none is retained. -/
theorem C21_rollback_to_version (max : Nat) (interval t₀ : Int) (h : List (Checkpoint α)) (v : Nat) :
    let kept := newest max (honoured interval t₀ h)
    let s := run (new max interval t₀ : State α) h
    (∀ d, rollbackToVersion s v = some d ↔ ∃ c, NewestSat (fun c => c.version == v) kept c ∧ c.data = d) ∧
    (rollbackToVersion s v = none ↔ ∀ c ∈ kept, c.version ≠ v) := by
  intro kept s
  have hst : s.store = kept := (C20_store max interval t₀ h).1
  obtain ⟨h1, h2⟩ := find_reverse_spec (fun c : Checkpoint α => c.version == v) kept
  unfold rollbackToVersion
  rw [hst]
  constructor
  · intro d
    rw [Option.map_eq_some_iff]
    constructor
    · rintro ⟨c, hc, hd⟩; exact ⟨c, (h1 c).mp hc, hd⟩
    · rintro ⟨c, hc, hd⟩; exact ⟨c, (h1 c).mpr hc, hd⟩
  · rw [Option.map_eq_none_iff, h2]
    simp

/-- Non-vacuity of C21: the newest valid (even) checkpoint is not the newest one. -/
example : rollbackToValid (run (new 3 10 0 : State Nat) [⟨1, 11, 10⟩, ⟨2, 12, 20⟩, ⟨3, 13, 30⟩, ⟨4, 15, 41⟩])
    (fun d => d % 2 == 0) = some 12 := by decide

end ckpt
end Verif.Props
