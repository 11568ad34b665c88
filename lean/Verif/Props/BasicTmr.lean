import Verif.Model.BasicTmr
import Mathlib.Tactic.Linarith
import Mathlib.Tactic.NormNum
import Mathlib.Tactic.Positivity
import Mathlib.Tactic.FieldSimp
import Mathlib.Tactic.IntervalCases
import Mathlib.Tactic.FinCases
import Mathlib.Tactic.Ring
import Mathlib.Data.List.Induction
import Mathlib.Data.List.Dedup
import Mathlib.Tactic.Tauto
/-!
C89-C90: `BasicTMR`, `EnhancedTMR` and `PhysicsDrivenProtection` of the header-only library /repo/rad_ml.
-/
namespace Verif.Props.BTmrP
open Verif Verif.BTmr

variable {α : Type}

/-! ### Specification -/

/-- `eq` is ordinary equality on the values used (true for every type but the floating point ones, and for those away from NaN). -/
def IsEq (eq : α → α → Bool) : Prop := ∀ a b, eq a b = true ↔ a = b

/-- A life of a replicated value: each round strikes one copy any number of times with any values and then repairs. -/
structure Round (n : Nat) (α : Type) where
  copy : Fin n
  values : List α

/-- The state after a sequence of rounds on a `BasicTMR`. -/
def livesBasic (eq : α → α → Bool) (s : Basic α) (rounds : List (Round 3 α)) : Basic α :=
  rounds.foldl (fun s r => (r.values.foldl (fun t v => t.strike r.copy v) s).repair eq) s

/-- The state after a sequence of rounds on an `EnhancedTMR`; `ord` chooses an iteration order of the hash map. -/
def livesQuad [DecidableEq α] (ord : Quad α → List α) (s : Quad α) (rounds : List (Round 4 α)) : Quad α :=
  rounds.foldl (fun s r => let t := r.values.foldl (fun t v => t.strike r.copy v) s; (t.repair (ord t)).2) s

/-! ### C89: replicated values -/

theorem strikes_basic (v : α) (k : Fin 3) (vs : List α) :
    ∃ w, vs.foldl (fun t x => t.strike k x) (Basic.set v) = (Basic.set v).strike k w := by
  induction vs using List.reverseRecOn with
  | nil => exact ⟨v, by fin_cases k <;> rfl⟩
  | append_singleton l x ih =>
    obtain ⟨w, hw⟩ := ih
    refine ⟨x, ?_⟩
    rw [List.foldl_append, hw]
    fin_cases k <;> rfl

theorem get_struck (eq : α → α → Bool) (h : IsEq eq) (v w : α) (k : Fin 3) : ((Basic.set v).strike k w).get eq = v := by
  have hr : eq v v = true := (h v v).2 rfl
  fin_cases k
  · by_cases e : eq w v = true
    · have := (h w v).1 e
      subst this
      simp [Basic.strike, Basic.set, Basic.get, hr]
    · simp [Basic.strike, Basic.set, Basic.get, hr, e]
  · simp [Basic.strike, Basic.set, Basic.get, hr]
  · simp [Basic.strike, Basic.set, Basic.get, hr]

/-- C89: whatever is written into one copy, any number of times, reading returns the stored value; with a repair between the rounds this
holds for ever, and the struck copy may be a different one each time. -/
theorem C89_basic_survives (eq : α → α → Bool) (h : IsEq eq) (v : α) (rounds : List (Round 3 α)) (k : Fin 3) (vs : List α) :
    (vs.foldl (fun t x => t.strike k x) (livesBasic eq (Basic.set v) rounds)).get eq = v ∧
    livesBasic eq (Basic.set v) rounds = Basic.set v := by
  have hl : livesBasic eq (Basic.set v) rounds = Basic.set v := by
    induction rounds with
    | nil => rfl
    | cons r l ih =>
      rw [livesBasic, List.foldl_cons]
      obtain ⟨w, hw⟩ := strikes_basic v r.copy r.values
      rw [hw]
      have : ((Basic.set v).strike r.copy w).repair eq = Basic.set v := by rw [Basic.repair, get_struck eq h]
      rw [this]
      exact ih
  rw [hl]
  obtain ⟨w, hw⟩ := strikes_basic v k vs
  rw [hw]
  exact ⟨get_struck eq h v w k, rfl⟩

/-- Non-vacuity: three rounds on different copies. -/
example : (livesBasic (fun a b => decide (a = b)) (Basic.set (7 : Nat)) [⟨0, [1, 2]⟩, ⟨2, [9]⟩, ⟨1, [0]⟩]) = Basic.set 7 := by decide

/-- C89: `hasErrors` holds exactly when the three copies are not all equal, `get` returns a value two copies hold if there is one, and
after `repair` all copies are the value `get` returned and no error is reported. -/
theorem C89_basic_vote (eq : α → α → Bool) (h : IsEq eq) (s : Basic α) :
    (s.hasErrors eq = true ↔ ¬ (s.c0 = s.c1 ∧ s.c1 = s.c2)) ∧
    (∀ v, (s.c0 = v ∧ s.c1 = v) ∨ (s.c0 = v ∧ s.c2 = v) ∨ (s.c1 = v ∧ s.c2 = v) → s.get eq = v) ∧
    (s.repair eq = ⟨s.get eq, s.get eq, s.get eq⟩ ∧ (s.repair eq).hasErrors eq = false ∧ (s.repair eq).get eq = s.get eq) := by
  have hr : ∀ x, eq x x = true := fun x => (h x x).2 rfl
  refine ⟨?_, ?_, rfl, ?_, ?_⟩
  · rw [Basic.hasErrors, ← h s.c0 s.c1, ← h s.c1 s.c2]
    cases eq s.c0 s.c1 <;> cases eq s.c1 s.c2 <;> simp
  · rintro v (⟨a, b⟩ | ⟨a, b⟩ | ⟨a, b⟩)
    · have : eq s.c0 s.c1 = true := (h _ _).2 (a.trans b.symm)
      rw [Basic.get, this, Bool.true_or, if_pos rfl, a]
    · have : eq s.c0 s.c2 = true := (h _ _).2 (a.trans b.symm)
      rw [Basic.get, this, Bool.or_true, if_pos rfl, a]
    · have : eq s.c1 s.c2 = true := (h _ _).2 (a.trans b.symm)
      rw [Basic.get]
      by_cases hc : (eq s.c0 s.c1 || eq s.c0 s.c2) = true
      · rw [if_pos hc]
        rcases Bool.or_eq_true _ _ ▸ hc with h1 | h1
        · rw [(h _ _).1 h1, a]
        · rw [(h _ _).1 h1, b]
      · rw [if_neg hc, if_pos this, a]
  · simp [Basic.repair, Basic.set, Basic.hasErrors, hr]
  · simp [Basic.repair, Basic.set, Basic.get, hr]

example : (⟨1, 5, 5⟩ : Basic Nat).get (fun a b => decide (a = b)) = 5 := by decide

/-- C89 (negation): if all three copies differ, `get` returns copy 0 and `repair` makes the copies agree on it, so nothing shows afterwards
that the value was lost; and for a value that is not equal to itself (NaN) an error is reported for ever, even right after a repair. -/
theorem C89_basic_silent_violated :
    (∀ (eq : α → α → Bool), IsEq eq → ∀ a b c : α, a ≠ b → a ≠ c → b ≠ c →
      (⟨a, b, c⟩ : Basic α).get eq = a ∧ (Basic.repair eq ⟨a, b, c⟩).hasErrors eq = false) ∧
    (∀ (eq : α → α → Bool) (v : α), eq v v = false → (Basic.set v).hasErrors eq = true ∧
      ((Basic.set v).repair eq).hasErrors eq = true) := by
  refine ⟨?_, ?_⟩
  · intro eq h a b c h1 h2 h3
    have e1 : eq a b = false := by rw [← Bool.not_eq_true, h]; exact h1
    have e2 : eq a c = false := by rw [← Bool.not_eq_true, h]; exact h2
    have e3 : eq b c = false := by rw [← Bool.not_eq_true, h]; exact h3
    have hr : eq a a = true := (h a a).2 rfl
    simp [Basic.get, Basic.repair, Basic.set, Basic.hasErrors, e1, e2, e3, hr]
  · intro eq v hv
    simp [Basic.repair, Basic.set, Basic.get, Basic.hasErrors, hv]

example : (⟨1, 2, 3⟩ : Basic Nat).get (fun a b => decide (a = b)) = 1 := by decide

section Quad
variable [DecidableEq α]

/-- What the scan over the hash map finds: a value of the list (or the start value) whose count is the largest. -/
theorem scan (copies : List α) (first : α) (keys : List α) :
    ((mostCommon copies first keys).1 ∈ keys ∧ (mostCommon copies first keys).2 = copies.count (mostCommon copies first keys).1 ∨
      (mostCommon copies first keys).1 = first ∧ (mostCommon copies first keys).2 = 0) ∧
    ∀ x ∈ keys, copies.count x ≤ (mostCommon copies first keys).2 := by
  induction keys using List.reverseRecOn with
  | nil => simp [mostCommon]
  | append_singleton l x ih =>
    have hs : mostCommon copies first (l ++ [x]) =
        (if copies.count x > (mostCommon copies first l).2 then (x, copies.count x) else mostCommon copies first l) := by
      simp [mostCommon, List.foldl_append]
    rw [hs]
    obtain ⟨i1, i2⟩ := ih
    by_cases hc : copies.count x > (mostCommon copies first l).2
    · rw [if_pos hc]
      refine ⟨Or.inl ⟨by simp, rfl⟩, ?_⟩
      intro y hy
      rcases List.mem_append.1 hy with hy | hy
      · exact le_trans (i2 y hy) (le_of_lt hc)
      · rw [List.mem_singleton.1 hy]
    · rw [if_neg hc]
      refine ⟨?_, ?_⟩
      · rcases i1 with ⟨a, b⟩ | a
        · exact Or.inl ⟨List.mem_append_left _ a, b⟩
        · exact Or.inr a
      · intro y hy
        rcases List.mem_append.1 hy with hy | hy
        · exact i2 y hy
        · rw [List.mem_singleton.1 hy]
          exact not_lt.1 hc

/-- C89: for every iteration order of the hash map, `get` returns a value some copy holds, and no value is held by more copies. -/
theorem C89_quad_plurality (s : Quad α) (keys : List α) (hk : s.Keys keys) :
    s.get keys ∈ s.copies ∧ ∀ x, s.copies.count x ≤ s.copies.count (s.get keys) := by
  have key : (mostCommon s.copies s.c0 keys).1 ∈ s.copies ∧
      ∀ x, s.copies.count x ≤ s.copies.count (mostCommon s.copies s.c0 keys).1 := by
    obtain ⟨h1, h2⟩ := scan s.copies s.c0 keys
    have h0 : s.c0 ∈ keys := (hk.2 _).2 (by simp [Quad.copies])
    have h3 := h2 _ h0
    have h4 : 0 < s.copies.count s.c0 := List.count_pos_iff.2 (by simp [Quad.copies])
    rcases h1 with ⟨a, b⟩ | ⟨a, b⟩
    · refine ⟨(hk.2 _).1 a, fun x => ?_⟩
      rw [← b]
      by_cases hx : x ∈ keys
      · exact h2 x hx
      · rw [List.count_eq_zero.2 (fun hm => hx ((hk.2 x).2 hm))]
        exact Nat.zero_le _
    · omega
  by_cases hall : s.c0 = s.c1 ∧ s.c1 = s.c2 ∧ s.c2 = s.c3
  · obtain ⟨e1, e2, e3⟩ := hall
    have hg : s.get keys = s.c0 := by rw [Quad.get, if_pos ⟨e1, e2, e3⟩]
    rw [hg]
    refine ⟨by simp [Quad.copies], fun x => ?_⟩
    have h4 : s.copies.count s.c0 = 4 := by simp [Quad.copies, ← e3, ← e2, ← e1]
    rw [h4]
    exact List.count_le_length
  · have hg : s.get keys = (mostCommon s.copies s.c0 keys).1 := by rw [Quad.get, if_neg hall]
    rw [hg]
    exact key

/-- C89: a value held by strictly more copies than every other value is returned, for every iteration order. -/
theorem C89_quad_unique_winner (s : Quad α) (keys : List α) (hk : s.Keys keys) (v : α)
    (hv : ∀ x, x ≠ v → s.copies.count x < s.copies.count v) : s.get keys = v := by
  by_contra hne
  have := (C89_quad_plurality s keys hk).2 v
  have := hv _ hne
  omega

/-- Non-vacuity: two copies of 4 against two different values win in every order. -/
example (keys : List Nat) (hk : (⟨9, 4, 3, 4, 0⟩ : Quad Nat).Keys keys) : (⟨9, 4, 3, 4, 0⟩ : Quad Nat).get keys = 4 := by
  refine C89_quad_unique_winner _ keys hk 4 ?_
  intro x hx
  have : List.count x [9, 4, 3, 4] ≤ 1 := by
    rcases Nat.lt_or_ge x 10 with h | h
    · interval_cases x <;> simp_all <;> decide
    · rw [List.count_eq_zero.2]
      · omega
      · simp; omega
  have h4 : List.count 4 [9, 4, 3, 4] = 2 := by decide
  simp only [Quad.copies]
  omega

theorem quad_struck_count (v w : α) (k : Fin 4) (e : Nat) (x : α) (hx : x ≠ v) :
    (({ Quad.set v with errors := e } : Quad α).strike k w).copies.count x < (({ Quad.set v with errors := e } : Quad α).strike k w).copies.count v := by
  fin_cases k <;> simp only [Quad.strike, Quad.set, Quad.copies, List.count_cons, List.count_nil, beq_iff_eq] <;>
    have h1 : ¬ v = x := fun h => hx h.symm <;> simp only [h1, if_false, if_true] <;> split <;> split <;> omega

theorem quad_strikes (v : α) (k : Fin 4) (e : Nat) (vs : List α) :
    ∃ w, vs.foldl (fun t x => t.strike k x) ({ Quad.set v with errors := e } : Quad α) = ({ Quad.set v with errors := e } : Quad α).strike k w := by
  induction vs using List.reverseRecOn with
  | nil => exact ⟨v, by fin_cases k <;> rfl⟩
  | append_singleton l x ih =>
    obtain ⟨w, hw⟩ := ih
    refine ⟨x, ?_⟩
    rw [List.foldl_append, hw]
    fin_cases k <;> rfl

/-- C89: `EnhancedTMR` survives any sequence of rounds, whatever order the hash map iterates in. -/
theorem C89_quad_survives (ord : Quad α → List α) (ho : ∀ s : Quad α, s.Keys (ord s)) (v : α) (rounds : List (Round 4 α)) (k : Fin 4) (vs : List α) :
    let t := vs.foldl (fun t x => t.strike k x) (livesQuad ord (Quad.set v) rounds)
    t.get (ord t) = v ∧ (livesQuad ord (Quad.set v) rounds).copies = [v, v, v, v] := by
  have hl : ∀ (rounds : List (Round 4 α)) e, ∃ e', livesQuad ord ({ Quad.set v with errors := e } : Quad α) rounds = { Quad.set v with errors := e' } := by
    intro rounds
    induction rounds with
    | nil => exact fun e => ⟨e, rfl⟩
    | cons r l ih =>
      intro e
      rw [livesQuad, List.foldl_cons]
      obtain ⟨w, hw⟩ := quad_strikes v r.copy e r.values
      simp only [hw]
      set t := ({ Quad.set v with errors := e } : Quad α).strike r.copy w with ht
      have hget : t.get (ord t) = v := C89_quad_unique_winner t _ (ho t) v (fun x hx => quad_struck_count v w r.copy e x hx)
      have : ∃ e', (t.repair (ord t)).2 = ({ Quad.set v with errors := e' } : Quad α) := by
        rw [Quad.repair]
        by_cases he : t.hasErrors = true
        · rw [he]
          simp only [hget]
          exact ⟨_, rfl⟩
        · have he' : t.hasErrors = false := by simpa using he
          rw [he']
          simp only [Quad.hasErrors, Bool.or_eq_false_iff, decide_eq_false_iff_not, not_not] at he'
          refine ⟨e, ?_⟩
          have hg2 : t.get (ord t) = t.c0 := by
            rw [Quad.get, if_pos ⟨he'.1.1, he'.1.1.symm.trans he'.1.2, he'.1.2.symm.trans he'.2⟩]
          have h0 : t.c0 = v := hg2.symm.trans hget
          have he : t.errors = e := by rw [ht]; generalize r.copy = k; fin_cases k <;> rfl
          show t = _
          have h1 : t.c1 = v := he'.1.1.symm.trans h0
          have h2 : t.c2 = v := he'.1.2.symm.trans h0
          have h3 : t.c3 = v := he'.2.symm.trans h0
          clear_value t
          cases t
          simp_all [Quad.set]
      obtain ⟨e', he'⟩ := this
      rw [he']
      exact ih e'
  obtain ⟨e', he'⟩ := hl rounds 0
  have h00 : ({ Quad.set v with errors := 0 } : Quad α) = Quad.set v := rfl
  rw [h00] at he'
  simp only [he']
  refine ⟨?_, rfl⟩
  obtain ⟨w, hw⟩ := quad_strikes v k e' vs
  rw [hw]
  exact C89_quad_unique_winner _ _ (ho _) v (fun x hx => quad_struck_count v w k e' x hx)

/-- Non-vacuity: iteration orders exist for every state. -/
example : ∀ s : Quad Nat, s.Keys s.copies.dedup := fun s => ⟨List.nodup_dedup _, fun x => List.mem_dedup⟩

/-- C89: `repair` returns true exactly when the copies are not all equal; afterwards all four are the value `get` returned (if they were
equal nothing changes) and no error is reported. -/
theorem C89_quad_repair (s : Quad α) (keys : List α) :
    ((s.repair keys).1 = true ↔ ¬ (s.c0 = s.c1 ∧ s.c0 = s.c2 ∧ s.c0 = s.c3)) ∧
    ((s.repair keys).1 = s.hasErrors) ∧
    (s.repair keys).2.copies = [s.get keys, s.get keys, s.get keys, s.get keys] ∧ (s.repair keys).2.hasErrors = false ∧
    (s.hasErrors = false → (s.repair keys).2 = s) := by
  by_cases he : s.hasErrors = true
  · have h1 : s.repair keys = (true, { Quad.set (s.get keys) with errors := 1 }) := by
      rw [Quad.repair, he]; rfl
    rw [h1, he]
    refine ⟨?_, rfl, rfl, ?_, by simp⟩
    · simp only [Quad.hasErrors, Bool.or_eq_true, decide_eq_true_eq] at he
      simp only [true_iff]
      tauto
    · simp [Quad.hasErrors, Quad.set]
  · have he' : s.hasErrors = false := by simpa using he
    have h1 : s.repair keys = (false, s) := by rw [Quad.repair, he']; rfl
    rw [h1, he']
    simp only [Quad.hasErrors, Bool.or_eq_false_iff, decide_eq_false_iff_not, not_not] at he'
    obtain ⟨⟨a, b⟩, c⟩ := he'
    refine ⟨by simp [← a, ← b, ← c], rfl, ?_, ?_, fun _ => rfl⟩
    · have hg : s.get keys = s.c0 := by rw [Quad.get, if_pos ⟨a, a.symm.trans b, b.symm.trans c⟩]
      rw [hg]
      simp [Quad.copies, ← a, ← b, ← c]
    · simp [Quad.hasErrors, ← a, ← b, ← c]

example : ((⟨9, 4, 3, 4, 0⟩ : Quad Nat).repair [9, 4, 3]) = (true, ⟨4, 4, 4, 4, 1⟩) := by decide

/-- C89 (negation): a two-to-two split is decided by the iteration order of the hash map: both values can come out. -/
theorem C89_quad_tie_violated (a b : α) (hab : a ≠ b) :
    ∃ k1 k2, (⟨a, a, b, b, 0⟩ : Quad α).Keys k1 ∧ (⟨a, a, b, b, 0⟩ : Quad α).Keys k2 ∧
      (⟨a, a, b, b, 0⟩ : Quad α).get k1 = a ∧ (⟨a, a, b, b, 0⟩ : Quad α).get k2 = b := by
  have hba : b ≠ a := hab.symm
  refine ⟨[a, b], [b, a], ⟨by simp [hab], by simp [Quad.copies]⟩, ⟨by simp [hba], ?_⟩, ?_, ?_⟩
  · intro x; simp [Quad.copies]; tauto
  · simp [Quad.get, mostCommon, Quad.copies, hab, hba]
  · simp [Quad.get, mostCommon, Quad.copies, hab, hba]

example : (1 : Nat) ≠ 2 := by decide

/-- The calls and faults of an `EnhancedTMR`. -/
inductive QOp (α : Type) where
  | set (v : α)
  | strike (k : Fin 4) (v : α)
  | repair (keys : List α)

/-- One event. -/
def qstep (s : Quad α) : QOp α → Quad α
  | .set v => Quad.set v
  | .strike k v => s.strike k v
  | .repair keys => (s.repair keys).2

/-- C89 (negation): "the number of errors detected and repaired" is reset by every repair before it is incremented, so after any
history, however many errors were repaired, it is at most one. -/
theorem C89_quad_error_count_violated (v : α) (h : List (QOp α)) : (h.foldl qstep (Quad.set v)).errors ≤ 1 := by
  induction h using List.reverseRecOn with
  | nil => simp [Quad.set]
  | append_singleton l x ih =>
    rw [List.foldl_append, List.foldl_cons, List.foldl_nil]
    generalize l.foldl qstep (Quad.set v) = s at ih
    cases x with
    | set v => simp [qstep, Quad.set]
    | strike k v => fin_cases k <;> simpa [qstep, Quad.strike] using ih
    | repair keys =>
      simp only [qstep, Quad.repair]
      split <;> simp_all [Quad.set]

/-- Two repaired errors, counted as one. -/
example : ((List.foldl qstep (Quad.set (5 : Nat)) [.strike 0 1, .repair [1, 5], .strike 2 1, .repair [1, 5]]).errors) = 1 := by decide

end Quad

/-! ### C90: physics-driven protection -/

/-- C90: a fault-free operation gives its result at every level, and no error is reported. -/
theorem C90_clean (eq : α → α → Bool) (h : IsEq eq) (level : Fin 6) (v : α) (lucky : Bool) :
    executeProtected eq level (fun _ => v) lucky = ⟨v, false, false⟩ := by
  have hr : eq v v = true := (h v v).2 rfl
  fin_cases level <;> simp [executeProtected, execBasic, execEnhanced, execAdvanced, hr]

example : executeProtected (fun a b => decide (a = b)) 4 (fun _ => (3 : Nat)) true = ⟨3, false, false⟩ := by decide

/-- C90: BASIC_TMR and ENHANCED_TMR mask one faulty execution, whichever it is and whatever it returned. -/
theorem C90_single_fault (eq : α → α → Bool) (h : IsEq eq) (level : Fin 6) (hl : level = 1 ∨ level = 2) (op : Nat → α) (v : α) (bad : Nat)
    (ho : ∀ i, i ≠ bad → op i = v) (lucky : Bool) : (executeProtected eq level op lucky).value = v := by
  have hr : eq v v = true := (h v v).2 rfl
  have hw : ∀ w, eq w v = true → w = v := fun w => (h w v).1
  have hw' : ∀ w, eq v w = true → w = v := fun w e => ((h v w).1 e).symm
  rcases hl with rfl | rfl
  · show (execBasic eq (op 0) (op 1) (op 2)).value = v
    by_cases b0 : bad = 0
    · rw [ho 1 (by omega), ho 2 (by omega), execBasic]
      by_cases e : eq (op 0) v = true
      · rw [e, Bool.true_or, if_pos rfl]; exact hw _ e
      · simp [e, hr]
    · rw [ho 0 (by omega), execBasic]
      by_cases b1 : bad = 1
      · rw [ho 2 (by omega)]; simp [hr]
      · rw [ho 1 (by omega)]; simp [hr]
  · show (execEnhanced eq (op 0) (op 1) (op 2) (op 3)).value = v
    by_cases b0 : bad = 0
    · rw [ho 1 (by omega), ho 2 (by omega), ho 3 (by omega), execEnhanced]
      by_cases e : eq (op 0) v = true
      · rw [hw _ e]; simp [hr]
      · simp [e, hr]
    · by_cases b1 : bad = 1
      · rw [ho 0 (by omega), ho 2 (by omega), ho 3 (by omega), execEnhanced]
        by_cases e : eq v (op 1) = true
        · simp [hw' _ e, hr]
        · simp [e, hr]
      · by_cases b2 : bad = 2
        · rw [ho 0 (by omega), ho 1 (by omega), ho 3 (by omega), execEnhanced]
          cases e : eq v (op 2) <;> simp [hr, e]
        · rw [ho 0 (by omega), ho 1 (by omega), ho 2 (by omega), execEnhanced]
          simp [hr]

example : (executeProtected (fun a b => decide (a = b)) 2 (fun i => if i = 1 then (9 : Nat) else 3) false).value = 3 := by decide

/-- C90: the two flags. `error_corrected` implies `error_detected`; at ENHANCED_TMR an error is reported exactly when the first three
executions are not all equal; at the higher levels exactly when the five are not all equal. -/
theorem C90_flags_partial (eq : α → α → Bool) (h : IsEq eq) (op : Nat → α) (lucky : Bool) :
    (∀ level, (executeProtected eq level op lucky).corrected = true → (executeProtected eq level op lucky).detected = true) ∧
    ((executeProtected eq 2 op lucky).detected = true ↔ ¬ (op 0 = op 1 ∧ op 1 = op 2)) ∧
    (∀ level : Fin 6, 3 ≤ level.val → ((executeProtected eq level op lucky).detected = true ↔ ¬ ∀ i, i < 5 → op i = op 0)) := by
  refine ⟨?_, ?_, ?_⟩
  · intro level
    fin_cases level <;> simp only [executeProtected, execBasic, execEnhanced, execAdvanced] <;> (repeat' split) <;> simp
  · show (execEnhanced eq (op 0) (op 1) (op 2) (op 3)).detected = true ↔ _
    rw [← h (op 0) (op 1), ← h (op 1) (op 2), ← Bool.and_eq_true, execEnhanced]
    by_cases e : (eq (op 0) (op 1) && eq (op 1) (op 2)) = true
    · rw [if_pos e]; simp [e]
    · rw [if_neg e]
      refine iff_of_true ?_ e
      (repeat' split) <;> rfl
  · intro level hl
    have : executeProtected eq level op lucky = execAdvanced eq (op 0) (op 1) (op 2) (op 3) (op 4) lucky := by
      fin_cases level <;> first | rfl | (exfalso; revert hl; decide)
    rw [this, execAdvanced]
    by_cases e : (eq (op 1) (op 0) && eq (op 2) (op 0) && eq (op 3) (op 0) && eq (op 4) (op 0)) = true
    · rw [e]
      simp only [Bool.and_eq_true, h _ _] at e
      simp only [Bool.not_true, Bool.false_eq_true, if_false, false_iff, not_not]
      intro i hi
      interval_cases i
      · rfl
      · exact e.1.1.1
      · exact e.1.1.2
      · exact e.1.2
      · exact e.2
    · have e' : (eq (op 1) (op 0) && eq (op 2) (op 0) && eq (op 3) (op 0) && eq (op 4) (op 0)) = false := by simpa using e
      rw [e']
      have hn : ¬ ∀ i, i < 5 → op i = op 0 := by
        intro hall
        apply e
        simp only [Bool.and_eq_true, h _ _]
        exact ⟨⟨⟨hall 1 (by omega), hall 2 (by omega)⟩, hall 3 (by omega)⟩, hall 4 (by omega)⟩
      simp only [hn, not_false_eq_true, iff_true]
      cases lucky <;> rfl

example : (executeProtected (fun a b => decide (a = b)) 5 (fun i => if i = 1 then (9 : Nat) else 3) true).detected = true := by decide

/-- Without a majority (no two of three equal at BASIC, no three of four equal at ENHANCED) the error is reported as uncorrected, and the value is that
of the first execution at BASIC and of the last one at ENHANCED. -/
theorem C90_no_majority (eq : α → α → Bool) (h : IsEq eq) (op : Nat → α) (lucky : Bool) :
    ((op 0 ≠ op 1 ∧ op 0 ≠ op 2 ∧ op 1 ≠ op 2) → executeProtected eq 1 op lucky = ⟨op 0, true, false⟩) ∧
    ((∀ i j k, i < j → j < k → k < 4 → ¬(op i = op j ∧ op j = op k)) → executeProtected eq 2 op lucky = ⟨op 3, true, false⟩) := by
  have hn : ∀ {a b : α}, a ≠ b → eq a b = false := fun hab => Bool.eq_false_iff.2 fun e => hab ((h _ _).1 e)
  constructor
  · rintro ⟨h1, h2, h3⟩
    show execBasic eq (op 0) (op 1) (op 2) = _
    simp [execBasic, hn h1, hn h2, hn h3]
  · intro hm
    have c : ∀ a b c d : α, ¬(a = b ∧ c = d) → (eq a b && eq c d) = false := by
      intro a b c d hab
      rw [Bool.eq_false_iff]; intro e; rw [Bool.and_eq_true] at e; exact hab ⟨(h _ _).1 e.1, (h _ _).1 e.2⟩
    show execEnhanced eq (op 0) (op 1) (op 2) (op 3) = _
    unfold execEnhanced
    rw [c _ _ _ _ (fun e => hm 0 1 2 (by omega) (by omega) (by omega) e), c _ _ _ _ (fun e => hm 0 1 3 (by omega) (by omega) (by omega) ⟨e.1, e.1 ▸ e.2⟩),
      c _ _ _ _ (fun e => hm 0 2 3 (by omega) (by omega) (by omega) ⟨e.1, e.1 ▸ e.2⟩), c _ _ _ _ (fun e => hm 1 2 3 (by omega) (by omega) (by omega) ⟨e.1, e.1 ▸ e.2⟩)]
    simp

/-- Non-vacuity: two pairs. -/
example : executeProtected (· == ·) 2 (fun i => if i < 2 then 5 else 7) true = ⟨7, true, false⟩ := by decide

/-- C90 (negation): at BASIC_TMR an error is reported only when the first execution disagrees with both others, so a disagreeing second or
third execution is masked without a trace; a disagreeing fourth execution at ENHANCED_TMR likewise. -/
theorem C90_unreported_violated (eq : α → α → Bool) (h : IsEq eq) (op : Nat → α) (lucky : Bool) :
    ((executeProtected eq 1 op lucky).detected = true ↔ op 0 ≠ op 1 ∧ op 0 ≠ op 2) ∧
    (op 0 = op 1 → op 1 ≠ op 2 → (executeProtected eq 1 op lucky).detected = false) ∧
    (op 0 = op 1 → op 1 = op 2 → op 3 ≠ op 2 → (executeProtected eq 2 op lucky).detected = false) := by
  have hm : (executeProtected eq 1 op lucky).detected = true ↔ op 0 ≠ op 1 ∧ op 0 ≠ op 2 := by
    show (execBasic eq (op 0) (op 1) (op 2)).detected = true ↔ _
    rw [Ne, Ne, ← h (op 0) (op 1), ← h (op 0) (op 2), execBasic]
    cases eq (op 0) (op 1) <;> cases eq (op 0) (op 2) <;> cases eq (op 1) (op 2) <;> simp
  refine ⟨hm, ?_, ?_⟩
  · intro h1 _
    rw [← Bool.not_eq_true, hm]
    exact fun hh => hh.1 h1
  · intro h1 h2 _
    have h3 := (C90_flags_partial eq h op lucky).2.1
    rw [← Bool.not_eq_true, h3]
    exact fun hh => hh ⟨h1, h2⟩

example : ((fun i => if i = 2 then (9 : Nat) else 3) 0) = 3 ∧ ((fun i => if i = 2 then (9 : Nat) else 3) 2) = 9 := by decide

/-- C90 (negation): the three highest levels are weaker than BASIC_TMR: one faulty execution among five, the last, is returned and
reported as corrected in the lucky case; a faulty first execution is returned in the unlucky one. -/
theorem C90_high_levels_violated (eq : α → α → Bool) (h : IsEq eq) (level : Fin 6) (hl : 3 ≤ level.val) (v w : α) (hvw : w ≠ v) :
    executeProtected eq level (fun i => if i = 4 then w else v) true = ⟨w, true, true⟩ ∧
    executeProtected eq level (fun i => if i = 0 then w else v) false = ⟨w, true, false⟩ ∧
    (executeProtected eq 1 (fun i => if i = 4 then w else v) true).value = v ∧
    (executeProtected eq 1 (fun i => if i = 0 then w else v) false).value = v := by
  have hr : ∀ x, eq x x = true := fun x => (h x x).2 rfl
  have e1 : eq w v = false := by rw [← Bool.not_eq_true, h]; exact hvw
  have e2 : eq v w = false := by rw [← Bool.not_eq_true, h]; exact hvw.symm
  have ha : ∀ op lucky, executeProtected eq level op lucky = execAdvanced eq (op 0) (op 1) (op 2) (op 3) (op 4) lucky := by
    intro op lucky
    fin_cases level <;> first | rfl | (exfalso; revert hl; decide)
  rw [ha, ha]
  refine ⟨by simp [execAdvanced, hr, e1], by simp [execAdvanced, hr, e2], ?_, ?_⟩
  · exact C90_single_fault eq h 1 (Or.inl rfl) _ v 4 (fun i hi => by simp [hi]) true
  · exact C90_single_fault eq h 1 (Or.inl rfl) _ v 0 (fun i hi => by simp [hi]) false

example : (9 : Nat) ≠ 3 := by decide

/-! ### C90: the level -/

/-- C90: the published factors stay in the intervals the code intends: radiation in [1,5], temperature in [1,3], synergy in [1/3,2]. -/
theorem C90_factors (e : Env) :
    (1 ≤ radFactor e ∧ radFactor e ≤ 5) ∧ (1 ≤ tempFactor e ∧ tempFactor e ≤ 3) ∧ (1 / 3 ≤ synergyFactor e ∧ synergyFactor e ≤ 2) ∧
    (radFactor e * tempFactor e ≤ 6 → 3 * synergyFactor e = radFactor e * tempFactor e) ∧ (6 ≤ radFactor e * tempFactor e → synergyFactor e = 2) := by
  have hr : 1 ≤ radFactor e ∧ radFactor e ≤ 5 := ⟨le_min (by norm_num) (le_max_left _ _), min_le_left _ _⟩
  have ht : 1 ≤ tempFactor e ∧ tempFactor e ≤ 3 := ⟨le_min (by norm_num) (le_max_left _ _), min_le_left _ _⟩
  refine ⟨hr, ht, ⟨le_min (by norm_num) ?_, min_le_left _ _⟩, fun h => ?_, fun h => ?_⟩
  rotate_left
  · rw [synergyFactor, min_eq_right (by linarith)]; ring
  · rw [synergyFactor, min_eq_left (by linarith)]
  have : 1 * 1 ≤ radFactor e * tempFactor e := mul_le_mul hr.1 ht.1 (by norm_num) (by linarith [hr.1])
  linarith

/-- Non-vacuity: a hot environment with strong flux. -/
example : radFactor { proton := 10 ^ 12, tmax := 493 } = 3 ∧ tempFactor { proton := 10 ^ 12, tmax := 493 } = 19 / 10 ∧
    synergyFactor { proton := 10 ^ 12, tmax := 493 } = 19 / 10 := by
  refine ⟨?_, ?_, ?_⟩ <;> simp only [synergyFactor, radFactor, tempFactor] <;> norm_num [abs_of_nonneg]

theorem base_bounds (e : Env) :
    0 < radFactor e * (1 / 2) + tempFactor e * (3 / 10) + synergyFactor e * (1 / 5) ∧
    radFactor e * (1 / 2) + tempFactor e * (3 / 10) + synergyFactor e * (1 / 5) ≤ 19 / 5 := by
  obtain ⟨⟨a, b⟩, ⟨c, d⟩, ⟨f, g⟩, -⟩ := C90_factors e
  constructor <;> linarith

theorem threat_eq (e : Env) (tol : ℚ) (p : String) :
    threat e tol p = (radFactor e * (1 / 2) + tempFactor e * (3 / 10) + synergyFactor e * (1 / 5)) * (1 - tol / 100) *
      (if p = "SAA_CROSSING" then 3 / 2 else if p = "SOLAR_STORM" then 2 else 1) := by
  unfold threat
  split
  · rfl
  · split
    · rfl
    · ring

theorem phase_pos (p : String) : (0 : ℚ) < (if p = "SAA_CROSSING" then 3 / 2 else if p = "SOLAR_STORM" then 2 else 1) := by
  split
  · norm_num
  · split <;> norm_num

theorem select_mono (s t : ℚ) (h : s ≤ t) : (select s).1 ≤ (select t).1 ∧ (select t).2 ≤ (select s).2 := by
  unfold select
  split_ifs <;> first | (exfalso; linarith) | (constructor <;> first | decide | norm_num)

theorem radFactor_mono (e f : Env) (hp : e.proton ≤ f.proton) (he : e.electron ≤ f.electron) : radFactor e ≤ radFactor f := by
  unfold radFactor
  refine min_le_min le_rfl (max_le_max le_rfl ?_)
  have h1 : e.proton * (2 / 10 ^ 12) ≤ f.proton * (2 / 10 ^ 12) := mul_le_mul_of_nonneg_right hp (by norm_num)
  have h2 : e.electron * (5 / 10 ^ 13) ≤ f.electron * (5 / 10 ^ 13) := mul_le_mul_of_nonneg_right he (by norm_num)
  linarith

theorem tempFactor_mono (e f : Env) (ht : |(e.tmin + e.tmax) / 2 - 293| ≤ |(f.tmin + f.tmax) / 2 - 293|) : tempFactor e ≤ tempFactor f := by
  unfold tempFactor
  refine min_le_min le_rfl (max_le_max le_rfl ?_)
  have : |(e.tmin + e.tmax) / 2 - 293| / 100 ≤ |(f.tmin + f.tmax) / 2 - 293| / 100 := by
    apply div_le_div_of_nonneg_right ht; norm_num
  linarith

/-- C90: more flux, a mean temperature further from 293 K, a material of lower tolerance or a more dangerous phase never lower the level
nor lengthen the checkpoint interval (for materials of tolerance at most 100). -/
theorem C90_level_monotone (s t : State) (hp : s.env.proton ≤ t.env.proton) (he : s.env.electron ≤ t.env.electron)
    (ht : |(s.env.tmin + s.env.tmax) / 2 - 293| ≤ |(t.env.tmin + t.env.tmax) / 2 - 293|) (h0 : t.tolerance ≤ s.tolerance)
    (h1 : s.tolerance ≤ 100)
    (hph : t.phase = s.phase ∨ t.phase = "SOLAR_STORM" ∨ (s.phase ≠ "SAA_CROSSING" ∧ s.phase ≠ "SOLAR_STORM")) :
    s.update.level ≤ t.update.level ∧ t.update.interval ≤ s.update.interval := by
  apply select_mono
  rw [threat_eq, threat_eq]
  have hr := radFactor_mono _ _ hp he
  have htt := tempFactor_mono _ _ ht
  obtain ⟨⟨a, b⟩, ⟨c, d⟩, ⟨f, g⟩, -⟩ := C90_factors s.env
  obtain ⟨⟨a', b'⟩, ⟨c', d'⟩, ⟨f', g'⟩, -⟩ := C90_factors t.env
  have hs : synergyFactor s.env ≤ synergyFactor t.env := by
    unfold synergyFactor
    refine min_le_min le_rfl ?_
    have := mul_le_mul hr htt (by linarith) (by linarith)
    linarith
  have hbase : radFactor s.env * (1 / 2) + tempFactor s.env * (3 / 10) + synergyFactor s.env * (1 / 5) ≤
      radFactor t.env * (1 / 2) + tempFactor t.env * (3 / 10) + synergyFactor t.env * (1 / 5) := by linarith
  have hphase : (if s.phase = "SAA_CROSSING" then (3 : ℚ) / 2 else if s.phase = "SOLAR_STORM" then 2 else 1) ≤
      (if t.phase = "SAA_CROSSING" then 3 / 2 else if t.phase = "SOLAR_STORM" then 2 else 1) := by
    rcases hph with h | h | ⟨h, h'⟩
    · rw [h]
    · rw [h]
      simp only [show ("SOLAR_STORM" = "SAA_CROSSING") = False from by simp, if_false, if_true]
      split
      · norm_num
      · split <;> norm_num
    · rw [if_neg h, if_neg h']
      split
      · norm_num
      · split <;> norm_num
  have hp1 := phase_pos s.phase
  refine mul_le_mul ?_ hphase hp1.le ?_
  · refine mul_le_mul hbase (by linarith) (by linarith) (by linarith [(base_bounds t.env).1])
  · exact mul_nonneg (base_bounds t.env).1.le (by linarith)

/-- Non-vacuity: entering a solar storm at the quiet environment raises the level from BASIC to ENHANCED. -/
example : (({ State.new 0 with phase := "" } : State).update.level, ({ State.new 0 with phase := "SOLAR_STORM" } : State).update.level) = (1, 2) := by
  decide +kernel

/-- C90: after any history of environment reports and phase changes the level and the interval are the ones selected for the last
environment and the last phase (nothing else of the history matters), the level is never NONE, and level and interval correspond. -/
theorem C90_history (tol : ℚ) (h : List Op) :
    let s := (State.new tol).run h
    (h = [] ∧ s.level = 1 ∧ s.interval = 10 ∨ h ≠ [] ∧ s.level = (select (threat s.env tol s.phase)).1 ∧ s.interval = (select (threat s.env tol s.phase)).2) ∧
    s.env = (h.reverse.findSome? (fun o => match o with | .env e => some e | .phase _ => none)).getD {} ∧
    s.phase = (h.reverse.findSome? (fun o => match o with | .env _ => none | .phase p => some p)).getD "" ∧
    s.tolerance = tol ∧ s.level ≠ 0 ∧
    (h ≠ [] → ((s.level = 1 ∧ s.interval = 30) ∨ (s.level = 2 ∧ s.interval = 15) ∨ (s.level = 3 ∧ s.interval = 10) ∨ (s.level = 4 ∧ s.interval = 5) ∨
      (s.level = 5 ∧ s.interval = 2))) := by
  have sel : ∀ t, ((select t).1 = 1 ∧ (select t).2 = 30) ∨ ((select t).1 = 2 ∧ (select t).2 = 15) ∨ ((select t).1 = 3 ∧ (select t).2 = 10) ∨
      ((select t).1 = 4 ∧ (select t).2 = 5) ∨ ((select t).1 = 5 ∧ (select t).2 = 2) := by
    intro t; unfold select; split_ifs <;> simp
  have main : ∀ h : List Op, let s := (State.new tol).run h
      (h = [] ∧ s.level = 1 ∧ s.interval = 10 ∨ h ≠ [] ∧ s.level = (select (threat s.env tol s.phase)).1 ∧ s.interval = (select (threat s.env tol s.phase)).2) ∧
      s.env = (h.reverse.findSome? (fun o => match o with | .env e => some e | .phase _ => none)).getD {} ∧
      s.phase = (h.reverse.findSome? (fun o => match o with | .env _ => none | .phase p => some p)).getD "" ∧
      s.tolerance = tol := by
    intro h
    induction h using List.reverseRecOn with
    | nil => exact ⟨Or.inl ⟨rfl, rfl, rfl⟩, rfl, rfl, rfl⟩
    | append_singleton l x ih =>
      simp only [State.run, List.foldl_append, List.foldl_cons, List.foldl_nil] at ih ⊢
      obtain ⟨_, i2, i3, i4⟩ := ih
      cases x with
      | env e =>
        refine ⟨Or.inr ⟨by simp, ?_, ?_⟩, ?_, ?_, ?_⟩
        · simp [State.step, State.update, i4]
        · simp [State.step, State.update, i4]
        · simp [State.step, State.update]
        · simpa [State.step, State.update] using i3
        · simpa [State.step, State.update] using i4
      | phase p =>
        refine ⟨Or.inr ⟨by simp, ?_, ?_⟩, ?_, ?_, ?_⟩
        · simp [State.step, State.update, i4]
        · simp [State.step, State.update, i4]
        · simpa [State.step, State.update] using i2
        · simp [State.step, State.update]
        · simpa [State.step, State.update] using i4
  intro s
  obtain ⟨m1, m2, m3, m4⟩ := main h
  refine ⟨m1, m2, m3, m4, ?_, ?_⟩
  · rcases m1 with ⟨_, hl, _⟩ | ⟨_, hl, _⟩
    · rw [show s.level = 1 from hl]; decide
    · rw [show s.level = _ from hl]
      rcases sel (threat s.env tol s.phase) with a | a | a | a | a <;> rw [a.1] <;> decide
  · intro hne
    rcases m1 with ⟨h0, _⟩ | ⟨_, hl, hi⟩
    · exact absurd h0 hne
    · rw [show s.level = _ from hl, show s.interval = _ from hi]
      exact sel _

/-- Non-vacuity: the last environment counts. -/
example : ((State.new 0).run [.env { proton := 10 ^ 13 }, .phase "SOLAR_STORM", .env {}]).level = 2 := by decide +kernel

/-- C90 (negation): the highest level, HYBRID_REDUNDANCY, is never selected for a material of non-negative tolerance, whatever the
environment and the phase; outside the two named phases not even HEALTH_WEIGHTED_TMR is. -/
theorem C90_unreachable_levels_violated (s : State) (ht : 0 ≤ s.tolerance) :
    s.update.level ≠ 5 ∧ (s.phase ≠ "SAA_CROSSING" → s.phase ≠ "SOLAR_STORM" → s.update.level ≤ 3) := by
  obtain ⟨b1, b2⟩ := base_bounds s.env
  have hm : (radFactor s.env * (1 / 2) + tempFactor s.env * (3 / 10) + synergyFactor s.env * (1 / 5)) * (1 - s.tolerance / 100) ≤ 19 / 5 := by
    have : (radFactor s.env * (1 / 2) + tempFactor s.env * (3 / 10) + synergyFactor s.env * (1 / 5)) * (1 - s.tolerance / 100) ≤
        (radFactor s.env * (1 / 2) + tempFactor s.env * (3 / 10) + synergyFactor s.env * (1 / 5)) * 1 :=
      mul_le_mul_of_nonneg_left (by linarith) b1.le
    linarith
  have hle : ∀ p, threat s.env s.tolerance p < 8 := by
    intro p
    unfold threat
    dsimp only
    split
    · linarith
    · split <;> linarith
  refine ⟨?_, ?_⟩
  · show (select (threat s.env s.tolerance s.phase)).1 ≠ 5
    have := hle s.phase
    unfold select
    split_ifs <;> decide
  · intro h1 h2
    show (select (threat s.env s.tolerance s.phase)).1 ≤ 3
    have : threat s.env s.tolerance s.phase < 5 := by
      rw [threat_eq, if_neg h1, if_neg h2]; linarith
    unfold select
    split_ifs <;> decide

/-- Even the worst environment in a solar storm gets level 4. -/
example : ((State.new 0).run [.env { proton := 10 ^ 15, tmax := 2000 }, .phase "SOLAR_STORM"]).level = 4 := by decide +kernel

/-- C90 (negation): a material whose tolerance exceeds 100 reverses the order: the threat is negative, the level is always BASIC_TMR, so
even the worst environment gets the least protection. -/
theorem C90_tolerance_violated (s : State) (h : 100 < s.tolerance) : threat s.env s.tolerance s.phase < 0 ∧ s.update.level = 1 ∧ s.update.interval = 30 := by
  have ht : threat s.env s.tolerance s.phase < 0 := by
    rw [threat_eq]
    exact mul_neg_of_neg_of_pos (mul_neg_of_pos_of_neg (base_bounds s.env).1 (by linarith)) (phase_pos _)
  have : select (threat s.env s.tolerance s.phase) = (1, 30) := by rw [select, if_pos (by linarith)]
  exact ⟨ht, by show (select _).1 = 1; rw [this], by show (select _).2 = 30; rw [this]⟩

example : (100 : ℚ) < (State.new 150).tolerance := by decide +kernel

end Verif.Props.BTmrP
