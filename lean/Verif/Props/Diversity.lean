import Verif.Model.Diversity
import Mathlib.Tactic.Linarith
import Mathlib.Tactic.NormNum
import Mathlib.Tactic.Ring
import Mathlib.Tactic.FieldSimp
import Mathlib.Data.List.Basic
import Mathlib.Algebra.Order.Field.Basic
import Mathlib.Algebra.Order.Field.Rat
import Mathlib.Tactic.Positivity
import Mathlib.Data.String.Basic
import Mathlib.Algebra.BigOperators.Group.List.Basic
import Mathlib.Algebra.Order.BigOperators.Group.List
/-!
Properties of `AlgorithmicDiversity`: consensus (C105) and reliability scores (C106).
-/
namespace Verif.Props.DiversityP
open Verif Verif.Diversity

variable {R : Type} [LinearOrder R]

/-! Specification. -/

/-- Calls within the documentation: initial reliabilities from 0 to 1, at least one past execution to track. -/
def Good : Op R → Prop
  | .add _ i => 0 ≤ i ∧ i ≤ 1
  | .setSize n => 1 ≤ n
  | _ => True

/-- A state reached from construction by such calls. -/
def Reach (R : Type) [LinearOrder R] (s : State) : Prop := ∃ ops : List (Op R), (∀ o ∈ ops, Good o) ∧ State.run ({} : State) ops = .ok s

/-- Implementation `n` takes part: its reliability is not below 0.2. -/
def Active (s : State) (n : String) : Prop := s.has n = true ∧ 2 / 10 ≤ s.reliability n

/-- Does implementation `p` vote for `r`? -/
def votes (run : String → Option R) (r : R) (p : String × Entry) : Prop := 2 / 10 ≤ p.2.score ∧ run p.1 = some r

instance (run : String → Option R) (r : R) (p : String × Entry) : Decidable (votes run r p) := by unfold votes; infer_instance

/-- Summed reliability of the active implementations that return `r`. -/
def weight (s : State) (run : String → Option R) (r : R) : ℚ := ((s.entries.filter fun p => votes run r p).map (·.2.score)).sum

/-- Summed reliability of the active implementations that return something. -/
def totalWeight (s : State) (run : String → Option R) : ℚ := ((s.entries.filter fun p => 2 / 10 ≤ p.2.score ∧ (run p.1).isSome).map (·.2.score)).sum

/-! Votes. -/

/-- Weight of a key. -/
def valOf (v : List (R × ℚ)) (r : R) : ℚ := ((v.filter fun p => p.1 = r).map (·.2)).sum

theorem valOf_cons (x : R × ℚ) (v : List (R × ℚ)) (r : R) : valOf (x :: v) r = (if x.1 = r then x.2 else 0) + valOf v r := by
  unfold valOf
  by_cases h : x.1 = r <;> simp [h]

theorem valOf_addVote (v : List (R × ℚ)) (r : R) (w : ℚ) (r' : R) : valOf (addVote v r w) r' = valOf v r' + if r = r' then w else 0 := by
  induction v with
  | nil => unfold addVote; rw [valOf_cons]; simp [valOf]
  | cons x t ih =>
    obtain ⟨k, wk⟩ := x
    unfold addVote
    by_cases h1 : r < k
    · rw [if_pos h1, valOf_cons]; simp only; split <;> ring
    · rw [if_neg h1]
      by_cases h2 : k < r
      · rw [if_pos h2, valOf_cons, ih, valOf_cons]; ring
      · rw [if_neg h2, valOf_cons, valOf_cons]
        have : k = r := le_antisymm (not_lt.1 h1) (not_lt.1 h2)
        subst this
        simp only; split <;> ring

theorem keys_addVote (v : List (R × ℚ)) (r : R) (w : ℚ) (r' : R) : r' ∈ (addVote v r w).map (·.1) ↔ r' = r ∨ r' ∈ v.map (·.1) := by
  induction v with
  | nil => simp [addVote]
  | cons x t ih =>
    obtain ⟨k, wk⟩ := x
    unfold addVote
    by_cases h1 : r < k
    · rw [if_pos h1]; simp
    · rw [if_neg h1]
      by_cases h2 : k < r
      · rw [if_pos h2, List.map_cons, List.mem_cons, ih]; simp only [List.map_cons, List.mem_cons]; tauto
      · rw [if_neg h2]
        have : k = r := le_antisymm (not_lt.1 h1) (not_lt.1 h2)
        subst this
        simp

theorem sorted_addVote (v : List (R × ℚ)) (r : R) (w : ℚ) (h : (v.map (·.1)).Pairwise (· < ·)) : ((addVote v r w).map (·.1)).Pairwise (· < ·) := by
  induction v with
  | nil => simp [addVote]
  | cons x t ih =>
    obtain ⟨k, wk⟩ := x
    simp only [List.map_cons, List.pairwise_cons] at h
    unfold addVote
    by_cases h1 : r < k
    · rw [if_pos h1]
      simp only [List.map_cons, List.pairwise_cons]
      refine ⟨?_, h⟩
      intro a ha
      rcases List.mem_cons.1 ha with rfl | ha
      · exact h1
      · exact lt_trans h1 (h.1 a ha)
    · rw [if_neg h1]
      by_cases h2 : k < r
      · rw [if_pos h2]
        simp only [List.map_cons, List.pairwise_cons]
        refine ⟨?_, ih h.2⟩
        intro a ha
        rcases (keys_addVote t r w a).1 ha with rfl | ha
        · exact h2
        · exact h.1 a ha
      · rw [if_neg h2]
        simp only [List.map_cons, List.pairwise_cons]
        exact h

theorem valOf_mem (v : List (R × ℚ)) (h : (v.map (·.1)).Pairwise (· < ·)) (p : R × ℚ) (hp : p ∈ v) : valOf v p.1 = p.2 := by
  induction v with
  | nil => cases hp
  | cons x t ih =>
    simp only [List.map_cons, List.pairwise_cons] at h
    rw [valOf_cons]
    have hz : ∀ r, (∀ y ∈ t, y.1 ≠ r) → valOf t r = 0 := by
      intro r hr
      unfold valOf
      rw [List.filter_eq_nil_iff.2 (by intro a ha; simpa using hr a ha)]
      rfl
    rcases List.mem_cons.1 hp with rfl | hp
    · rw [if_pos rfl, hz]
      · ring
      · intro y hy; exact ne_of_gt (h.1 y.1 (List.mem_map_of_mem hy))
    · rw [if_neg (ne_of_lt (h.1 p.1 (List.mem_map_of_mem hp))), ih h.2 hp]; ring

theorem valOf_absent (v : List (R × ℚ)) (r : R) (h : r ∉ v.map (·.1)) : valOf v r = 0 := by
  unfold valOf
  rw [List.filter_eq_nil_iff.2]
  · rfl
  · intro a ha hk
    apply h
    have : a.1 = r := by simpa using hk
    rw [← this]; exact List.mem_map_of_mem ha

/-- `best`: a largest element, the first of them. -/
theorem best_fold {K : Type} (t : List (K × ℚ)) : ∀ x : K × ℚ,
    let m := t.foldl (fun m y => if m.2 < y.2 then y else m) x
    (m = x ∧ ∀ y ∈ t, y.2 ≤ x.2) ∨ (x.2 < m.2 ∧ ∃ a b, t = a ++ m :: b ∧ (∀ y ∈ a, y.2 < m.2) ∧ ∀ y ∈ b, y.2 ≤ m.2) := by
  induction t with
  | nil => intro x; left; simp
  | cons y t ih =>
    intro x
    simp only [List.foldl_cons]
    by_cases h : x.2 < y.2
    · rw [if_pos h]
      rcases ih y with ⟨h1, h2⟩ | ⟨h1, a, b, h2, h3, h4⟩
      · right
        rw [h1]
        exact ⟨h, [], t, rfl, by simp, h2⟩
      · right
        refine ⟨lt_trans h h1, y :: a, b, by rw [List.cons_append, ← h2], ?_, h4⟩
        intro z hz
        rcases List.mem_cons.1 hz with rfl | hz
        · exact h1
        · exact h3 z hz
    · rw [if_neg h]
      rcases ih x with ⟨h1, h2⟩ | ⟨h1, a, b, h2, h3, h4⟩
      · left
        refine ⟨h1, ?_⟩
        intro z hz
        rcases List.mem_cons.1 hz with rfl | hz
        · exact not_lt.1 h
        · exact h2 z hz
      · right
        refine ⟨h1, y :: a, b, by rw [List.cons_append, ← h2], ?_, h4⟩
        intro z hz
        rcases List.mem_cons.1 hz with rfl | hz
        · exact lt_of_le_of_lt (not_lt.1 h) h1
        · exact h3 z hz

theorem best_spec {K : Type} (l : List (K × ℚ)) (m : K × ℚ) (h : best l = some m) :
    ∃ a b, l = a ++ m :: b ∧ (∀ y ∈ a, y.2 < m.2) ∧ ∀ y ∈ b, y.2 ≤ m.2 := by
  cases l with
  | nil => cases h
  | cons x t =>
    simp only [best, Option.some.injEq] at h
    rcases best_fold t x with ⟨h1, h2⟩ | ⟨h1, a, b, h2, h3, h4⟩
    · rw [h] at h1
      subst h1
      exact ⟨[], t, rfl, by simp, h2⟩
    · rw [h] at h1 h2 h3 h4
      refine ⟨x :: a, b, by rw [List.cons_append, ← h2], ?_, h4⟩
      intro z hz
      rcases List.mem_cons.1 hz with rfl | hz
      · exact h1
      · exact h3 z hz

theorem best_none {K : Type} (l : List (K × ℚ)) : best l = none ↔ l = [] := by
  cases l <;> simp [best]

theorem best_sorted (v : List (R × ℚ)) (hs : (v.map (·.1)).Pairwise (· < ·)) (m : R × ℚ) (h : best v = some m) :
    m ∈ v ∧ ∀ y ∈ v, y.2 ≤ m.2 ∧ (y.2 = m.2 → m.1 ≤ y.1) := by
  obtain ⟨a, b, rfl, h1, h2⟩ := best_spec v m h
  refine ⟨by simp, ?_⟩
  intro y hy
  simp only [List.map_append, List.map_cons, List.pairwise_append, List.pairwise_cons] at hs
  rcases List.mem_append.1 hy with hy | hy
  · exact ⟨le_of_lt (h1 y hy), fun he => absurd he (ne_of_lt (h1 y hy))⟩
  · rcases List.mem_cons.1 hy with rfl | hy
    · exact ⟨le_refl _, fun _ => le_refl _⟩
    · exact ⟨h2 y hy, fun _ => le_of_lt (hs.2.1.1 y.1 (List.mem_map_of_mem hy))⟩

/-! The loop. -/

/-- What the loop does to one entry. -/
def After (run : String → Option R) (p q : String × Entry) : Prop :=
  p.1 = q.1 ∧ if 2 / 10 ≤ p.2.score ∧ run p.1 = none then p.2.update false = .ok q.2 else q.2 = p.2

theorem loop_spec (run : String → Option R) (es : List (String × Entry)) : ∀ v es' v', loop run es v = .ok (es', v') →
    List.Forall₂ (After run) es es' ∧ ((v.map (·.1)).Pairwise (· < ·) → (v'.map (·.1)).Pairwise (· < ·)) ∧
    (∀ r, valOf v' r = valOf v r + ((es.filter fun p => votes run r p).map (·.2.score)).sum) ∧
    (∀ r, r ∈ v'.map (·.1) ↔ r ∈ v.map (·.1) ∨ ∃ p ∈ es, votes run r p) := by
  induction es with
  | nil =>
    intro v es' v' h
    simp only [loop, Outcome.ok.injEq, Prod.mk.injEq] at h
    obtain ⟨rfl, rfl⟩ := h
    simp
  | cons p t ih =>
    obtain ⟨n, e⟩ := p
    intro v es' v' h
    unfold loop at h
    by_cases hs : e.score < 2 / 10
    · rw [if_pos hs] at h
      cases hl : loop run t v with
      | ub => rw [hl] at h; cases h
      | ok x =>
        rw [hl] at h
        simp only [Outcome.bind, Outcome.ok.injEq, Prod.mk.injEq] at h
        obtain ⟨rfl, rfl⟩ := h
        obtain ⟨h1, h2, h3, h4⟩ := ih v x.1 x.2 hl
        have hv : ∀ r, ¬ votes run r (n, e) := fun r hr => absurd hr.1 (not_le.2 hs)
        refine ⟨.cons ⟨rfl, ?_⟩ h1, h2, ?_, ?_⟩
        · rw [if_neg]; intro hh; exact absurd hh.1 (not_le.2 hs)
        · intro r; rw [h3, List.filter_cons_of_neg (by simpa using hv r)]
        · intro r; rw [h4]
          constructor
          · rintro (h | ⟨p, hp, hq⟩)
            · exact Or.inl h
            · exact Or.inr ⟨p, List.mem_cons_of_mem _ hp, hq⟩
          · rintro (h | ⟨p, hp, hq⟩)
            · exact Or.inl h
            · rcases List.mem_cons.1 hp with rfl | hp
              · exact absurd hq (hv r)
              · exact Or.inr ⟨p, hp, hq⟩
    · rw [if_neg hs] at h
      cases hr : run n with
      | some r0 =>
        rw [hr] at h
        simp only at h
        cases hl : loop run t (addVote v r0 e.score) with
        | ub => rw [hl] at h; cases h
        | ok x =>
          rw [hl] at h
          simp only [Outcome.bind, Outcome.ok.injEq, Prod.mk.injEq] at h
          obtain ⟨rfl, rfl⟩ := h
          obtain ⟨h1, h2, h3, h4⟩ := ih _ x.1 x.2 hl
          have hv : ∀ r, votes run r (n, e) ↔ r0 = r := by
            intro r; unfold votes; simp [hr, not_lt.1 hs]
          refine ⟨.cons ⟨rfl, ?_⟩ h1, fun hp => h2 (sorted_addVote v r0 _ hp), ?_, ?_⟩
          · rw [if_neg]; simp [hr]
          · intro r
            rw [h3, valOf_addVote]
            by_cases hq : r0 = r
            · rw [List.filter_cons_of_pos (by simpa using (hv r).2 hq), if_pos hq, List.map_cons, List.sum_cons]; ring
            · rw [List.filter_cons_of_neg (by simpa using fun hh => hq ((hv r).1 hh)), if_neg hq]; ring
          · intro r
            rw [h4, keys_addVote]
            constructor
            · rintro ((h | h) | ⟨p, hp, hq⟩)
              · exact Or.inr ⟨_, List.mem_cons_self, (hv r).2 h.symm⟩
              · exact Or.inl h
              · exact Or.inr ⟨p, List.mem_cons_of_mem _ hp, hq⟩
            · rintro (h | ⟨p, hp, hq⟩)
              · exact Or.inl (Or.inr h)
              · rcases List.mem_cons.1 hp with rfl | hp
                · exact Or.inl (Or.inl ((hv r).1 hq).symm)
                · exact Or.inr ⟨p, hp, hq⟩
      | none =>
        rw [hr] at h
        simp only at h
        cases hu : e.update false with
        | ub => rw [hu] at h; cases h
        | ok e' =>
          rw [hu] at h
          cases hl : loop run t v with
          | ub => rw [hl] at h; cases h
          | ok x =>
            rw [hl] at h
            simp only [Outcome.bind, Outcome.ok.injEq, Prod.mk.injEq] at h
            obtain ⟨rfl, rfl⟩ := h
            obtain ⟨h1, h2, h3, h4⟩ := ih v x.1 x.2 hl
            have hv : ∀ r, ¬ votes run r (n, e) := fun r hh => by have := hh.2; simp [hr] at this
            refine ⟨.cons ⟨rfl, ?_⟩ h1, h2, ?_, ?_⟩
            · rw [if_pos ⟨not_lt.1 hs, hr⟩]; exact hu
            · intro r; rw [h3, List.filter_cons_of_neg (by simpa using hv r)]
            · intro r; rw [h4]
              constructor
              · rintro (h | ⟨p, hp, hq⟩)
                · exact Or.inl h
                · exact Or.inr ⟨p, List.mem_cons_of_mem _ hp, hq⟩
              · rintro (h | ⟨p, hp, hq⟩)
                · exact Or.inl h
                · rcases List.mem_cons.1 hp with rfl | hp
                  · exact absurd hq (hv r)
                  · exact Or.inr ⟨p, hp, hq⟩

theorem loop_ok (run : String → Option R) (es : List (String × Entry)) (h : ∀ p ∈ es, p.2.hist ≠ []) : ∀ v, ∃ x, loop run es v = .ok x := by
  induction es with
  | nil => intro v; exact ⟨_, rfl⟩
  | cons p t ih =>
    obtain ⟨n, e⟩ := p
    intro v
    have ht := ih (fun p hp => h p (List.mem_cons_of_mem _ hp))
    unfold loop
    by_cases hs : e.score < 2 / 10
    · rw [if_pos hs]; obtain ⟨x, hx⟩ := ht v; rw [hx]; exact ⟨_, rfl⟩
    · rw [if_neg hs]
      cases run n with
      | some r => simp only; obtain ⟨x, hx⟩ := ht (addVote v r e.score); rw [hx]; exact ⟨_, rfl⟩
      | none =>
        simp only
        have hh : ∃ e', e.update false = .ok e' := by
          unfold Entry.update
          have := h _ List.mem_cons_self
          cases he : e.hist with
          | nil => exact absurd he this
          | cons a b => exact ⟨_, rfl⟩
        obtain ⟨e', he⟩ := hh
        obtain ⟨x, hx⟩ := ht v
        rw [he, hx]; exact ⟨_, rfl⟩

/-! Reachable states. -/

/-- What holds of an entry. -/
structure EInv (n : Nat) (e : Entry) : Prop where
  lo : 0 ≤ e.score
  hi : e.score ≤ 1
  len : e.hist.length = n

/-- What holds of a state. -/
structure Inv (s : State) : Prop where
  sorted : (s.entries.map (·.1)).Pairwise (· < ·)
  size : 1 ≤ s.size
  all : ∀ p ∈ s.entries, EInv s.size p.2

theorem update_eq (n : Nat) (hn : 1 ≤ n) (e : Entry) (h : EInv n e) (b : Bool) : ∃ e', e.update b = .ok e' ∧ e'.hist = e.hist.tail ++ [b] ∧
    e'.score = e.score * (9 / 10) + ((e.hist.tail ++ [b]).count true : ℚ) / n * (1 / 10) ∧ EInv n e' := by
  unfold Entry.update
  have hl := h.len
  cases he : e.hist with
  | nil => rw [he] at hl; simp at hl; omega
  | cons a t =>
    rw [he] at hl
    have hlen : (t ++ [b]).length = n := by simpa using hl
    simp only [List.tail_cons]
    have hc : ((t ++ [b]).count true : ℚ) ≤ n := by
      have := List.count_le_length (a := true) (l := t ++ [b])
      rw [hlen] at this; exact_mod_cast this
    have hc0 : (0 : ℚ) ≤ ((t ++ [b]).count true : ℚ) := by positivity
    have hn0 : (0 : ℚ) < n := by exact_mod_cast hn
    have hq1 : ((t ++ [b]).count true : ℚ) / n ≤ 1 := (div_le_one hn0).2 hc
    have hq0 : 0 ≤ ((t ++ [b]).count true : ℚ) / n := by positivity
    refine ⟨_, rfl, rfl, ?_, ?_, ?_, hlen⟩
    · simp only [hlen]; ring
    · simp only [hlen]; nlinarith [h.lo, h.hi]
    · simp only [hlen]; nlinarith [h.lo, h.hi]

theorem put_keys (es : List (String × Entry)) (n : String) (e : Entry) (k : String) : k ∈ (put es n e).map (·.1) ↔ k = n ∨ k ∈ es.map (·.1) := by
  induction es with
  | nil => simp [put]
  | cons x t ih =>
    obtain ⟨k', e'⟩ := x
    unfold put
    by_cases h1 : n < k'
    · rw [if_pos h1]; simp
    · rw [if_neg h1]
      by_cases h2 : k' < n
      · rw [if_pos h2, List.map_cons, List.mem_cons, ih]; simp only [List.map_cons, List.mem_cons]; tauto
      · rw [if_neg h2]
        have : k' = n := le_antisymm (not_lt.1 h1) (not_lt.1 h2)
        subst this
        simp

theorem put_sorted (es : List (String × Entry)) (n : String) (e : Entry) (h : (es.map (·.1)).Pairwise (· < ·)) : ((put es n e).map (·.1)).Pairwise (· < ·) := by
  induction es with
  | nil => simp [put]
  | cons x t ih =>
    obtain ⟨k, e'⟩ := x
    simp only [List.map_cons, List.pairwise_cons] at h
    unfold put
    by_cases h1 : n < k
    · rw [if_pos h1]
      simp only [List.map_cons, List.pairwise_cons]
      refine ⟨?_, h⟩
      intro a ha
      rcases List.mem_cons.1 ha with rfl | ha
      · exact h1
      · exact lt_trans h1 (h.1 a ha)
    · rw [if_neg h1]
      by_cases h2 : k < n
      · rw [if_pos h2]
        simp only [List.map_cons, List.pairwise_cons]
        refine ⟨?_, ih h.2⟩
        intro a ha
        rcases (put_keys t n e a).1 ha with rfl | ha
        · exact h2
        · exact h.1 a ha
      · rw [if_neg h2]
        simp only [List.map_cons, List.pairwise_cons]
        exact h

theorem put_mem (es : List (String × Entry)) (n : String) (e : Entry) (p : String × Entry) (h : p ∈ put es n e) : p = (n, e) ∨ p ∈ es := by
  induction es with
  | nil => left; simpa [put] using h
  | cons x t ih =>
    obtain ⟨k, e'⟩ := x
    unfold put at h
    by_cases h1 : n < k
    · rw [if_pos h1] at h; simpa using h
    · rw [if_neg h1] at h
      by_cases h2 : k < n
      · rw [if_pos h2] at h
        rcases List.mem_cons.1 h with rfl | h
        · right; exact List.mem_cons_self
        · rcases ih h with h | h
          · exact Or.inl h
          · exact Or.inr (List.mem_cons_of_mem _ h)
      · rw [if_neg h2] at h
        have : k = n := le_antisymm (not_lt.1 h1) (not_lt.1 h2)
        subst this
        rcases List.mem_cons.1 h with rfl | h
        · exact Or.inl rfl
        · exact Or.inr (List.mem_cons_of_mem _ h)

theorem find_put (es : List (String × Entry)) (hs : (es.map (·.1)).Pairwise (· < ·)) (n : String) (e : Entry) (k : String) :
    ((put es n e).find? (·.1 = k)).map (·.2) = if k = n then some e else (es.find? (·.1 = k)).map (·.2) := by
  induction es with
  | nil => unfold put; by_cases h : k = n <;> simp [h, eq_comm]
  | cons x t ih =>
    obtain ⟨k', e'⟩ := x
    simp only [List.map_cons, List.pairwise_cons] at hs
    unfold put
    by_cases h1 : n < k'
    · rw [if_pos h1]
      by_cases h : k = n
      · simp [h]
      · rw [if_neg h, List.find?_cons_of_neg (by simpa using fun hh => h hh.symm)]
    · rw [if_neg h1]
      by_cases h2 : k' < n
      · rw [if_pos h2]
        by_cases h : k' = k
        · rw [List.find?_cons_of_pos (by simpa using h), if_neg (by rw [← h]; exact ne_of_lt h2), List.find?_cons_of_pos (by simpa using h)]
        · rw [List.find?_cons_of_neg (by simpa using h), ih hs.2, List.find?_cons_of_neg (by simpa using h)]
      · rw [if_neg h2]
        have : k' = n := le_antisymm (not_lt.1 h1) (not_lt.1 h2)
        subst this
        by_cases h : k = k'
        · simp [h]
        · rw [if_neg h, List.find?_cons_of_neg (by simpa using fun hh => h hh.symm), List.find?_cons_of_neg (by simpa using fun hh => h hh.symm)]

omit [LinearOrder R] in
theorem forall2_keys (run : String → Option R) (es es' : List (String × Entry)) (h : List.Forall₂ (After run) es es') : es'.map (·.1) = es.map (·.1) := by
  induction h with
  | nil => rfl
  | cons h _ ih => simp [h.1, ih]

omit [LinearOrder R] in
theorem forall2_all (run : String → Option R) (n : Nat) (hn : 1 ≤ n) (es es' : List (String × Entry)) (h : List.Forall₂ (After run) es es') :
    (∀ p ∈ es, EInv n p.2) → ∀ p ∈ es', EInv n p.2 := by
  induction h with
  | nil => intro _ p hp; cases hp
  | @cons a b _ _ h _ ih =>
    intro ha p hp
    have h0 := ha a List.mem_cons_self
    rcases List.mem_cons.1 hp with rfl | hp
    · have h2 := h.2
      split at h2
      · obtain ⟨e', h1, _, _, h3⟩ := update_eq n hn _ h0 false
        rw [h1] at h2; injection h2 with h2; rw [← h2]; exact h3
      · rw [h2]; exact h0
    · exact ih (fun p hp => ha p (List.mem_cons_of_mem _ hp)) p hp

theorem find_sorted (es : List (String × Entry)) (hs : (es.map (·.1)).Pairwise (· < ·)) (p : String × Entry) (hp : p ∈ es) :
    (es.find? (·.1 = p.1)).map (·.2) = some p.2 := by
  induction es with
  | nil => cases hp
  | cons x t ih =>
    simp only [List.map_cons, List.pairwise_cons] at hs
    rcases List.mem_cons.1 hp with rfl | hp
    · simp
    · have : x.1 ≠ p.1 := ne_of_lt (hs.1 p.1 (List.mem_map_of_mem hp))
      rw [List.find?_cons_of_neg (by simpa using this)]
      exact ih hs.2 hp

theorem find_mem (s : State) (n : String) (e : Entry) (h : s.find n = some e) : (n, e) ∈ s.entries := by
  unfold State.find at h
  cases hf : s.entries.find? (·.1 = n) with
  | none => rw [hf] at h; cases h
  | some p =>
    rw [hf] at h
    simp only [Option.map_some, Option.some.injEq] at h
    have h1 : p.1 = n := by simpa using List.find?_some hf
    have h2 := List.mem_of_find?_eq_some hf
    rw [← h, ← h1]; exact h2

theorem mem_find (s : State) (hs : (s.entries.map (·.1)).Pairwise (· < ·)) (n : String) (e : Entry) : (n, e) ∈ s.entries ↔ s.find n = some e :=
  ⟨fun h => find_sorted s.entries hs (n, e) h, find_mem s n e⟩

theorem updateIn_spec (name : String) (b : Bool) (n : Nat) (hn : 1 ≤ n) (es : List (String × Entry)) (hs : (es.map (·.1)).Pairwise (· < ·)) (ha : ∀ p ∈ es, EInv n p.2) :
    ∃ es', updateIn name b es = .ok es' ∧ es'.map (·.1) = es.map (·.1) ∧ (∀ p ∈ es', EInv n p.2) ∧
      ∀ k, (es'.find? (·.1 = k)).map (·.2) = if k = name then
        ((es.find? (·.1 = k)).map (·.2)).bind fun e => match e.update b with | .ok e' => some e' | .ub => none else (es.find? (·.1 = k)).map (·.2) := by
  induction es with
  | nil => exact ⟨[], rfl, rfl, by simp, by simp⟩
  | cons x t ih =>
    obtain ⟨k', e⟩ := x
    simp only [List.map_cons, List.pairwise_cons] at hs
    unfold updateIn
    by_cases h : k' = name
    · rw [if_pos h]
      obtain ⟨e', h1, _, _, h3⟩ := update_eq n hn e (ha (k', e) List.mem_cons_self) b
      rw [h1]
      refine ⟨_, rfl, rfl, ?_, ?_⟩
      · intro p hp
        rcases List.mem_cons.1 hp with rfl | hp
        · exact h3
        · exact ha p (List.mem_cons_of_mem _ hp)
      · intro k
        by_cases hk : k' = k
        · rw [List.find?_cons_of_pos (by simpa using hk), List.find?_cons_of_pos (by simpa using hk), if_pos (by rw [← hk, h])]
          simp [h1]
        · rw [List.find?_cons_of_neg (by simpa using hk), List.find?_cons_of_neg (by simpa using hk), if_neg (by rw [← h]; exact fun hh => hk hh.symm)]
    · rw [if_neg h]
      obtain ⟨t', h1, h2, h3, h4⟩ := ih hs.2 (fun p hp => ha p (List.mem_cons_of_mem _ hp))
      rw [h1]
      refine ⟨_, rfl, by simp [h2], ?_, ?_⟩
      · intro p hp
        rcases List.mem_cons.1 hp with rfl | hp
        · exact ha _ List.mem_cons_self
        · exact h3 p hp
      · intro k
        by_cases hk : k' = k
        · rw [List.find?_cons_of_pos (by simpa using hk), List.find?_cons_of_pos (by simpa using hk), if_neg (by rw [← hk]; exact h)]
        · rw [List.find?_cons_of_neg (by simpa using hk), List.find?_cons_of_neg (by simpa using hk), h4]

/-- `execute` in a good state. -/
theorem execute_spec (s : State) (h : Inv s) (run again : String → Option R) : ∃ es' v, loop run s.entries [] = .ok (es', v) ∧
    List.Forall₂ (After run) s.entries es' ∧ (v.map (·.1)).Pairwise (· < ·) ∧ (∀ r, valOf v r = weight s run r) ∧
    (∀ r, r ∈ v.map (·.1) ↔ ∃ p ∈ s.entries, votes run r p) ∧ Inv { s with entries := es' } ∧
    ∃ res, s.execute run again = .ok (res, { s with entries := es' }) := by
  obtain ⟨⟨es', v⟩, hx⟩ := loop_ok run s.entries (fun p hp he => by have := (h.all p hp).len; rw [he] at this; have := h.size; simp at *; omega) []
  obtain ⟨h1, h2, h3, h4⟩ := loop_spec run s.entries [] es' v hx
  refine ⟨es', v, hx, h1, h2 .nil, ?_, ?_, ⟨?_, h.size, forall2_all run s.size h.size _ _ h1 h.all⟩, ?_⟩
  · intro r; rw [h3]; simp [valOf, weight]
  · intro r; rw [h4]; simp
  · rw [show ({ s with entries := es' } : State).entries = es' from rfl, forall2_keys run _ _ h1]; exact h.sorted
  · unfold State.execute
    rw [hx]
    simp only [Outcome.bind]
    cases best v with
    | some m => exact ⟨_, rfl⟩
    | none =>
      simp only
      split
      · split <;> exact ⟨_, rfl⟩
      · exact ⟨_, rfl⟩

theorem step_inv (s : State) (h : Inv s) (o : Op R) (ho : Good o) : ∃ s', s.step o = .ok s' ∧ Inv s' := by
  cases o with
  | add n i =>
    refine ⟨_, rfl, put_sorted _ _ _ h.sorted, h.size, ?_⟩
    intro p hp
    rcases put_mem _ _ _ _ hp with rfl | hp
    · exact ⟨ho.1, ho.2, by simp [State.add]⟩
    · exact h.all p hp
  | execute run again =>
    obtain ⟨es', v, h1, h2, h3, h4, h5, h6, res, h7⟩ := execute_spec s h run again
    exact ⟨_, by unfold State.step; simp only; rw [h7]; rfl, h6⟩
  | update n b =>
    obtain ⟨es', h1, h2, h3, h4⟩ := updateIn_spec n b s.size h.size s.entries h.sorted h.all
    refine ⟨{ s with entries := es' }, by unfold State.step State.update; simp only; rw [h1]; rfl, ?_, h.size, h3⟩
    simp only; rw [h2]; exact h.sorted
  | setSize n =>
    refine ⟨_, rfl, ?_, ho, ?_⟩
    · simp only [State.setSize, List.map_map]
      exact h.sorted
    · intro p hp
      simp only [State.setSize, List.mem_map] at hp
      obtain ⟨q, hq, rfl⟩ := hp
      have := h.all q hq
      refine ⟨this.lo, this.hi, ?_⟩
      simp only [State.setSize, resize, List.length_append, List.length_take, List.length_replicate]
      omega

theorem run_inv (ops : List (Op R)) : ∀ s : State, Inv s → (∀ o ∈ ops, Good o) → ∃ s', s.run ops = .ok s' ∧ Inv s' := by
  induction ops with
  | nil => intro s h _; exact ⟨s, rfl, h⟩
  | cons o t ih =>
    intro s h hg
    obtain ⟨s1, h1, h2⟩ := step_inv s h o (hg o List.mem_cons_self)
    obtain ⟨s2, h3, h4⟩ := ih s1 h2 (fun o ho => hg o (List.mem_cons_of_mem _ ho))
    refine ⟨s2, ?_, h4⟩
    unfold State.run
    rw [h1]; exact h3

theorem init_inv : Inv {} := ⟨by simp, by simp, by simp⟩

theorem reach_inv (s : State) (h : Reach R s) : Inv s := by
  obtain ⟨ops, hg, h⟩ := h
  obtain ⟨s', h1, h2⟩ := run_inv ops {} init_inv hg
  rw [h] at h1; injection h1 with h1; rw [h1]; exact h2

theorem active_iff (s : State) (hi : Inv s) (n : String) : Active s n ↔ ∃ e, (n, e) ∈ s.entries ∧ 2 / 10 ≤ e.score := by
  unfold Active State.has State.reliability
  constructor
  · rintro ⟨h1, h2⟩
    obtain ⟨e, he⟩ := Option.isSome_iff_exists.1 h1
    rw [he] at h2
    exact ⟨e, find_mem s n e he, h2⟩
  · rintro ⟨e, he, hs⟩
    rw [(mem_find s hi.sorted n e).1 he]
    exact ⟨rfl, hs⟩

/-- C105: after any history of documented calls `execute` is defined, and if an active implementation (reliability at least 0.2) returns, so does `execute`: the
result was returned by an active implementation, no other result has more summed reliability behind it, and of results with equally much the smallest is taken. -/
theorem C105_consensus (s : State) (h : Reach R s) (run again : String → Option R) (n : String) (hn : Active s n) (hr : (run n).isSome) :
    ∃ r s', s.execute run again = .ok (.value r, s') ∧ (∃ m, Active s m ∧ run m = some r) ∧
      ∀ r', weight s run r' ≤ weight s run r ∧ ((∃ m, Active s m ∧ run m = some r') → weight s run r' = weight s run r → r ≤ r') := by
  have hi := reach_inv s h
  obtain ⟨es', v, h1, h2, h3, h4, h5, h6, res, h7⟩ := execute_spec s hi run again
  obtain ⟨e, he, hs⟩ := (active_iff s hi n).1 hn
  obtain ⟨r0, hr0⟩ := Option.isSome_iff_exists.1 hr
  have hk : r0 ∈ v.map (·.1) := (h5 r0).2 ⟨_, he, hs, hr0⟩
  have hne : best v ≠ none := by
    intro hb; rw [best_none] at hb; subst hb; simp at hk
  obtain ⟨m, hm⟩ := Option.ne_none_iff_exists'.1 hne
  obtain ⟨hb1, hb2⟩ := best_sorted v h3 m hm
  have key : ∀ r', (∃ m, Active s m ∧ run m = some r') ↔ r' ∈ v.map (·.1) := by
    intro r'
    rw [h5]
    constructor
    · rintro ⟨k, hk, hkr⟩
      obtain ⟨e, he, hs⟩ := (active_iff s hi k).1 hk
      exact ⟨_, he, hs, hkr⟩
    · rintro ⟨p, hp, hs, hkr⟩
      exact ⟨p.1, (active_iff s hi p.1).2 ⟨p.2, hp, hs⟩, hkr⟩
  have hw : ∀ p ∈ v, weight s run p.1 = p.2 := fun p hp => by rw [← h4]; exact valOf_mem v h3 p hp
  refine ⟨m.1, { s with entries := es' }, ?_, (key m.1).2 (List.mem_map_of_mem hb1), ?_⟩
  · unfold State.execute
    rw [h1]
    simp only [Outcome.bind, hm]
  · intro r'
    rw [hw m hb1]
    by_cases hr' : r' ∈ v.map (·.1)
    · obtain ⟨p, hp, rfl⟩ := List.mem_map.1 hr'
      rw [hw p hp]
      exact ⟨(hb2 p hp).1, fun _ => (hb2 p hp).2⟩
    · refine ⟨?_, fun hh => absurd ((key r').1 hh) hr'⟩
      rw [← h4, valOf_absent v r' hr', ← hw m hb1]
      unfold weight
      apply List.sum_nonneg
      intro x hx
      obtain ⟨p, hp, rfl⟩ := List.mem_map.1 hx
      exact (hi.all p (List.mem_of_mem_filter hp)).lo

/-- C105: if the active implementations that return the right result have more summed reliability than those that return a wrong one, the right result is returned,
whatever the wrong results are and whoever throws. -/
theorem C105_right_wins (s : State) (h : Reach R s) (run again : String → Option R) (right : R)
    (hw : totalWeight s run < 2 * weight s run right) : ∃ s', s.execute run again = .ok (.value right, s') := by
  have hi := reach_inv s h
  have hpos : 0 < weight s run right := by
    have : 0 ≤ totalWeight s run := by
      unfold totalWeight
      apply List.sum_nonneg
      intro x hx
      obtain ⟨p, hp, rfl⟩ := List.mem_map.1 hx
      exact (hi.all p (List.mem_of_mem_filter hp)).lo
    linarith
  have hex : ∃ p ∈ s.entries, votes run right p := by
    by_contra hc
    push Not at hc
    unfold weight at hpos
    rw [List.filter_eq_nil_iff.2 (by intro a ha; simpa using hc a ha)] at hpos
    simp at hpos
  obtain ⟨p, hp, hs, hr⟩ := hex
  obtain ⟨r, s', h1, ⟨m, hm1, hm2⟩, h2⟩ := C105_consensus s h run again p.1 ((active_iff s hi p.1).2 ⟨p.2, hp, hs⟩) (by rw [hr]; rfl)
  refine ⟨s', ?_⟩
  by_cases hrr : r = right
  · rw [h1, hrr]
  · exfalso
    have hle := (h2 right).1
    have hsum : weight s run r + weight s run right ≤ totalWeight s run := by
      unfold weight totalWeight
      have : ∀ es : List (String × Entry), (∀ p ∈ es, 0 ≤ p.2.score) →
          ((es.filter fun p => votes run r p).map (·.2.score)).sum + ((es.filter fun p => votes run right p).map (·.2.score)).sum ≤
          ((es.filter fun p => 2 / 10 ≤ p.2.score ∧ (run p.1).isSome).map (·.2.score)).sum := by
        intro es
        induction es with
        | nil => simp
        | cons q t ih =>
          intro hq
          have ht := ih (fun p hp => hq p (List.mem_cons_of_mem _ hp))
          have hq0 := hq q List.mem_cons_self
          by_cases ha : votes run r q
          · have hb : ¬ votes run right q := by
              intro hb; apply hrr
              have := ha.2; rw [hb.2] at this; exact (Option.some.inj this).symm
            rw [List.filter_cons_of_pos (by simpa using ha), List.filter_cons_of_neg (by simpa using hb),
              List.filter_cons_of_pos (by simpa using ⟨ha.1, by rw [ha.2]; rfl⟩)]
            simp only [List.map_cons, List.sum_cons]; linarith
          · rw [List.filter_cons_of_neg (by simpa using ha)]
            by_cases hb : votes run right q
            · rw [List.filter_cons_of_pos (by simpa using hb), List.filter_cons_of_pos (by simpa using ⟨hb.1, by rw [hb.2]; rfl⟩)]
              simp only [List.map_cons, List.sum_cons]; linarith
            · rw [List.filter_cons_of_neg (by simpa using hb)]
              by_cases hc : 2 / 10 ≤ q.2.score ∧ (run q.1).isSome
              · rw [List.filter_cons_of_pos (by simpa using hc)]
                simp only [List.map_cons, List.sum_cons]; linarith
              · rw [List.filter_cons_of_neg (by simpa using hc)]; exact ht
      exact this s.entries (fun p hp => (hi.all p hp).lo)
    linarith

/-- Three implementations, the second of which has failed once. -/
def demo : State := { entries := [("a", ⟨1, List.replicate 10 true⟩), ("b", ⟨99 / 100, List.replicate 9 true ++ [false]⟩), ("c", ⟨1, List.replicate 10 true⟩)], size := 10 }

theorem demo_reach : Reach Int demo :=
  ⟨[.add "a" 1, .add "b" 1, .add "c" 1, .execute (fun n => if n = "b" then none else some 7) (fun _ => none)], by
    intro o ho
    simp only [List.mem_cons, List.not_mem_nil, or_false] at ho
    rcases ho with rfl | rfl | rfl | rfl <;> norm_num [Good], by decide +kernel⟩

/-- Non-vacuity: one wrong result is outvoted; with a result thrown the two others tie and the smaller result, here the wrong one, is returned. -/
example : Active demo "b" ∧
    demo.execute (fun n => if n = "a" then some (-5 : Int) else some 7) (fun _ => none) = .ok (.value 7, demo) ∧
    (demo.execute (fun n => if n = "a" then some (-5 : Int) else if n = "b" then none else some 7) (fun _ => none)).bind (fun x => .ok x.1) = .ok (.value (-5)) ∧
    totalWeight demo (fun n => if n = "a" then some (-5 : Int) else some 7) < 2 * weight demo (fun n => if n = "a" then some (-5 : Int) else some 7) 7 := by
  refine ⟨⟨by decide +kernel, by decide +kernel⟩, by decide +kernel, by decide +kernel, by decide +kernel⟩

end Verif.Props.DiversityP
