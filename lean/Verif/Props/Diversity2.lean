import Verif.Props.Diversity
/-!
Properties of `AlgorithmicDiversity`, continued: fallback (C105), reliability scores (C106).
-/
namespace Verif.Props.DiversityP
open Verif Verif.Diversity

variable {R : Type} [LinearOrder R]

theorem most_spec (es : List (String × Entry)) (hne : es ≠ []) (hs : (es.map (·.1)).Pairwise (· < ·)) :
    ∃ e, (mostReliable es, e) ∈ es ∧ ∀ p ∈ es, p.2.score ≤ e.score ∧ (p.2.score = e.score → mostReliable es ≤ p.1) := by
  unfold mostReliable
  have hb : best (es.map fun p => (p.1, p.2.score)) ≠ none := by
    intro h; rw [best_none] at h; exact hne (List.map_eq_nil_iff.1 h)
  obtain ⟨m, hm⟩ := Option.ne_none_iff_exists'.1 hb
  have hs' : ((es.map fun p => (p.1, p.2.score)).map (·.1)).Pairwise (· < ·) := by rw [List.map_map]; exact hs
  obtain ⟨h1, h2⟩ := best_sorted _ hs' m hm
  obtain ⟨p, hp, hpm⟩ := List.mem_map.1 h1
  rw [hm]
  simp only [Option.map_some, Option.getD_some]
  refine ⟨p.2, ?_, ?_⟩
  · rw [← hpm]; exact hp
  · intro q hq
    have := h2 _ (List.mem_map_of_mem hq)
    rw [← hpm] at this ⊢
    exact this

/-- C105: if no active implementation returns a result, the most reliable one — after the ones that just threw have been marked down — is called once more, and its
result, or its exception, is the outcome; without implementations `execute` throws. -/
theorem C105_fallback (s : State) (h : Reach R s) (run again : String → Option R) (hn : ∀ n, Active s n → run n = none) :
    ∃ s', (s.entries = [] → s.execute run again = .ok (.noReliable, s')) ∧
      (s.entries ≠ [] → ∃ n, s'.has n = true ∧ (∀ m, s'.has m = true → s'.reliability m ≤ s'.reliability n ∧ (s'.reliability m = s'.reliability n → n ≤ m)) ∧
        (n ≠ "" → s.execute run again = .ok ((match again n with | some r => .value r | none => .implThrew), s'))) := by
  have hi := reach_inv s h
  obtain ⟨es', v, h1, h2, h3, h4, h5, h6, res, h7⟩ := execute_spec s hi run again
  have hv : best v = none := by
    rw [best_none]
    cases v with
    | nil => rfl
    | cons x t =>
      obtain ⟨p, hp, hs, hr⟩ := (h5 x.1).1 (by simp)
      have := hn p.1 ((active_iff s hi p.1).2 ⟨p.2, hp, hs⟩)
      rw [hr] at this; cases this
  have hex : s.execute run again = (if mostReliable es' ≠ "" then
        match again (mostReliable es') with
        | some r => .ok (.value r, { s with entries := es' })
        | none => .ok (.implThrew, { s with entries := es' })
      else .ok (.noReliable, { s with entries := es' })) := by
    unfold State.execute
    rw [h1]
    simp only [Outcome.bind, hv]
    split <;> [(cases again (mostReliable es') <;> rfl); rfl]
  refine ⟨{ s with entries := es' }, ?_, ?_⟩
  · intro he
    have : es' = [] := by rw [he] at h2; cases h2; rfl
    subst this
    rw [hex]
    rfl
  · intro he
    have hne : es' ≠ [] := by rintro rfl; have := h2.length_eq; exact he (List.length_eq_zero_iff.1 this)
    obtain ⟨e, hm1, hm2⟩ := most_spec es' hne h6.sorted
    have hf := (mem_find { s with entries := es' } h6.sorted _ _).1 hm1
    refine ⟨mostReliable es', ?_, ?_, ?_⟩
    · unfold State.has; rw [hf]; rfl
    · intro m hm
      obtain ⟨e', he'⟩ := Option.isSome_iff_exists.1 hm
      have := hm2 _ (find_mem _ _ _ he')
      unfold State.reliability
      rw [hf, he']
      exact this
    · intro hnn
      rw [hex, if_pos hnn]
      cases again (mostReliable es') <;> rfl

/-- Non-vacuity: all three throw; the first, marked down no more than the third, is asked again. -/
example : (demo.execute (fun _ => (none : Option Int)) (fun n => if n = "a" then some 1 else none)).bind (fun x => .ok x.1) = .ok (.value 1) := by decide +kernel

/-- C105 (limit): the name must not be empty: an implementation registered under the empty name is not used as the fallback. -/
theorem C105_empty_name_limit (again : String → Option R) :
    (({} : State).add "").execute (fun _ => none) again = .ok (.noReliable, { entries := [("", ⟨99 / 100, List.replicate 9 true ++ [false]⟩)], size := 10 }) := by
  have h : loop (fun _ => (none : Option R)) (({} : State).add "").entries [] = .ok ([("", ⟨99 / 100, List.replicate 9 true ++ [false]⟩)], []) := by
    have e : (({} : State).add "").entries = [("", ⟨1, List.replicate 10 true⟩)] := by decide +kernel
    have u : (⟨1, List.replicate 10 true⟩ : Entry).update false = .ok ⟨99 / 100, List.replicate 9 true ++ [false]⟩ := by decide +kernel
    rw [e]
    unfold loop
    rw [if_neg (by norm_num)]
    simp only
    rw [u]
    rfl
  unfold State.execute
  rw [h]
  rfl

/-- C105: the order in which the implementations are added does not matter. -/
theorem C105_order_irrelevant (s : State) (h : Reach R s) (n m : String) (hnm : n ≠ m) (i j : ℚ) : (s.add n i).add m j = (s.add m j).add n i := by
  have hi := reach_inv s h
  unfold State.add
  simp only
  congr 1
  have hs := hi.sorted
  generalize s.entries = es at hs
  generalize (⟨i, List.replicate s.size true⟩ : Entry) = a
  generalize (⟨j, List.replicate s.size true⟩ : Entry) = b
  -- two sorted lists with the same entries are equal
  have ext : ∀ l l' : List (String × Entry), (l.map (·.1)).Pairwise (· < ·) → (l'.map (·.1)).Pairwise (· < ·) →
      (∀ k, (l.find? (·.1 = k)).map (·.2) = (l'.find? (·.1 = k)).map (·.2)) → l = l' := by
    intro l
    induction l with
    | nil =>
      intro l' _ _ hf
      cases l' with
      | nil => rfl
      | cons x t => have := hf x.1; simp at this
    | cons x t ih =>
      intro l' h1 h2 hf
      cases l' with
      | nil => have := hf x.1; simp at this
      | cons y t' =>
        simp only [List.map_cons, List.pairwise_cons] at h1 h2
        have mem : ∀ (l : List (String × Entry)) (k : String) (e : Entry), (l.find? (·.1 = k)).map (·.2) = some e → (k, e) ∈ l := by
          intro l k e he
          exact find_mem ⟨l, 0⟩ k e he
        have hx := mem _ _ _ ((hf x.1).symm.trans (by simp : ((x :: t).find? (·.1 = x.1)).map (·.2) = some x.2))
        have hy := mem _ _ _ ((hf y.1).trans (by simp : ((y :: t').find? (·.1 = y.1)).map (·.2) = some y.2))
        have hxy : x = y := by
          rcases List.mem_cons.1 hx with hx | hx
          · exact hx
          · rcases List.mem_cons.1 hy with hy | hy
            · exact hy.symm
            · have a1 := h2.1 x.1 (List.mem_map_of_mem (f := (·.1)) hx)
              have a2 := h1.1 y.1 (List.mem_map_of_mem (f := (·.1)) hy)
              exact absurd a1 (not_lt.2 (le_of_lt a2))
        subst hxy
        congr 1
        apply ih t' h1.2 h2.2
        intro k
        by_cases hk : x.1 = k
        · have none' : ∀ l : List (String × Entry), (∀ z ∈ l.map (·.1), x.1 < z) → (l.find? (·.1 = k)).map (·.2) = none := by
            intro l hl
            cases hh : (l.find? (·.1 = k)).map (·.2) with
            | none => rfl
            | some e =>
              have := hl k (List.mem_map_of_mem (f := (·.1)) (mem l k e hh))
              rw [hk] at this; exact absurd this (lt_irrefl _)
          rw [none' t h1.1, none' t' h2.1]
        · have := hf k
          rw [List.find?_cons_of_neg (by simpa using hk), List.find?_cons_of_neg (by simpa using hk)] at this
          exact this
  apply ext
  · exact put_sorted _ _ _ (put_sorted _ _ _ hs)
  · exact put_sorted _ _ _ (put_sorted _ _ _ hs)
  · intro k
    rw [find_put _ (put_sorted _ _ _ hs), find_put _ hs, find_put _ (put_sorted _ _ _ hs), find_put _ hs]
    by_cases h1 : k = m
    · by_cases h2 : k = n
      · exact absurd (h2.symm.trans h1) hnm
      · simp [h1]; intro hh; exact absurd hh.symm hnm
    · simp [h1]

/-- Non-vacuity. -/
example : (({} : State).add "nav" 1).add "img" (1 / 2) = (({} : State).add "img" (1 / 2)).add "nav" 1 := by decide +kernel

/-! C106 -/

/-- C106: after any history of documented calls every reliability is a number from 0 to 1, and that of an unknown name is 0. -/
theorem C106_range (s : State) (h : Reach R s) (n : String) :
    0 ≤ s.reliability n ∧ s.reliability n ≤ 1 ∧ (s.has n = false → s.reliability n = 0) ∧
    ∀ m (i : ℚ), (s.add m i).has m = true ∧ (s.add m i).reliability m = i ∧ (n ≠ m → (s.add m i).has n = s.has n ∧ (s.add m i).reliability n = s.reliability n) := by
  have hi := reach_inv s h
  have hf : ∀ m (i : ℚ) k, (s.add m i).find k = if k = m then some ⟨i, List.replicate s.size true⟩ else s.find k := by
    intro m i k
    exact find_put s.entries hi.sorted m _ k
  have hfirst : 0 ≤ s.reliability n ∧ s.reliability n ≤ 1 ∧ (s.has n = false → s.reliability n = 0) := by
    unfold State.reliability State.has
    cases he : s.find n with
    | none => simp
    | some e =>
      have := hi.all _ (find_mem s n e he)
      exact ⟨this.lo, this.hi, by simp⟩
  refine ⟨hfirst.1, hfirst.2.1, hfirst.2.2, ?_⟩
  intro m i
  unfold State.has State.reliability
  rw [hf, hf, if_pos rfl]
  refine ⟨rfl, rfl, ?_⟩
  intro hnm
  rw [if_neg hnm]
  exact ⟨rfl, rfl⟩

/-- Non-vacuity. -/
example : demo.reliability "b" = 99 / 100 ∧ demo.reliability "x" = 0 := by decide +kernel

omit [LinearOrder R] in
theorem after_find (run : String → Option R) (es es' : List (String × Entry)) (h : List.Forall₂ (After run) es es') (k : String) :
    match (es.find? (·.1 = k)).map (·.2) with
    | none => (es'.find? (·.1 = k)).map (·.2) = none
    | some e => ∃ e', (es'.find? (·.1 = k)).map (·.2) = some e' ∧ if 2 / 10 ≤ e.score ∧ run k = none then e.update false = .ok e' else e' = e := by
  induction h with
  | nil => simp
  | @cons p q t t' h _ ih =>
    by_cases hk : p.1 = k
    · rw [List.find?_cons_of_pos (by simpa using hk), List.find?_cons_of_pos (by rw [← h.1]; simpa using hk)]
      simp only [Option.map_some]
      refine ⟨_, rfl, ?_⟩
      have := h.2
      rw [hk] at this
      exact this
    · rw [List.find?_cons_of_neg (by simpa using hk), List.find?_cons_of_neg (by rw [← h.1]; simpa using hk)]
      exact ih

/-- The reliability after one more observed outcome: nine tenths of the old one and a tenth of the share of successes among the last `size` outcomes. -/
def marked (size : Nat) (e : Entry) (success : Bool) : Entry :=
  ⟨e.score * (9 / 10) + (((e.hist.tail ++ [success]).count true : ℚ) / size) * (1 / 10), e.hist.tail ++ [success]⟩

theorem update_marked (s : State) (hi : Inv s) (n : String) (e : Entry) (h : s.find n = some e) (b : Bool) : e.update b = .ok (marked s.size e b) := by
  obtain ⟨e', h1, h2, h3, _⟩ := update_eq s.size hi.size e (hi.all _ (find_mem s n e h)) b
  rw [h1]
  congr 1
  cases e'
  simp only [marked, Entry.mk.injEq]
  exact ⟨h3, h2⟩

/-- C106: `execute` marks down exactly the active implementations that threw and touches no other; `updateReliability` changes exactly the one named and ignores an
unknown name. -/
theorem C106_updates (s : State) (h : Reach R s) :
    (∀ (run again : String → Option R), ∃ res s', s.execute run again = .ok (res, s') ∧
      ∀ n, s'.find n = (s.find n).map fun e => if 2 / 10 ≤ e.score ∧ run n = none then marked s.size e false else e) ∧
    (∀ m b, ∃ s', s.update m b = .ok s' ∧ ∀ n, s'.find n = if n = m then (s.find n).map fun e => marked s.size e b else s.find n) := by
  have hi := reach_inv s h
  refine ⟨?_, ?_⟩
  · intro run again
    obtain ⟨es', v, h1, h2, h3, h4, h5, h6, res, h7⟩ := execute_spec s hi run again
    refine ⟨res, _, h7, ?_⟩
    intro n
    have := after_find run _ _ h2 n
    change match s.find n with | none => _ | some e => _ at this
    unfold State.find at this ⊢
    cases he : (s.entries.find? (·.1 = n)).map (·.2) with
    | none => rw [he] at this; simp only at this; simpa using this
    | some e =>
      rw [he] at this
      simp only at this
      obtain ⟨e', h8, h9⟩ := this
      simp only [Option.map_some]
      rw [h8]
      by_cases hc : 2 / 10 ≤ e.score ∧ run n = none
      · rw [if_pos hc] at h9 ⊢
        rw [update_marked s hi n e he] at h9
        injection h9 with h9
        rw [h9]
      · rw [if_neg hc] at h9 ⊢
        rw [h9]
  · intro m b
    obtain ⟨es', h1, h2, h3, h4⟩ := updateIn_spec m b s.size hi.size s.entries hi.sorted hi.all
    refine ⟨{ s with entries := es' }, by unfold State.update; rw [h1]; rfl, ?_⟩
    intro n
    have := h4 n
    change State.find { s with entries := es' } n = if n = m then (s.find n).bind _ else s.find n at this
    rw [this]
    by_cases hn : n = m
    · rw [if_pos hn, if_pos hn]
      cases he : s.find n with
      | none => rfl
      | some e =>
        simp only [Option.bind_some, Option.map_some]
        rw [update_marked s hi n e he]
    · rw [if_neg hn, if_neg hn]

/-- Non-vacuity: the one that throws is marked down, and an update of an unknown name changes nothing. -/
example : (demo.execute (fun n => if n = "c" then none else some (4 : Int)) (fun _ => none)).bind (fun x => .ok (x.2.reliability "a", x.2.reliability "c")) = .ok (1, 99 / 100) ∧
    demo.update "x" false = .ok demo := by decide +kernel

/-- Outcomes observed one after the other. -/
def marks (size : Nat) (e : Entry) : List Bool → Entry
  | [] => e
  | b :: t => marks size (marked size e b) t

theorem marks_append (size : Nat) (a b : List Bool) : ∀ e, marks size e (a ++ b) = marks size (marks size e a) b := by
  induction a with
  | nil => intro e; rfl
  | cons x t ih => intro e; exact ih _

theorem marked_inv (n : Nat) (hn : 1 ≤ n) (e : Entry) (h : EInv n e) (b : Bool) : EInv n (marked n e b) := by
  obtain ⟨e', h1, h2, h3, h4⟩ := update_eq n hn e h b
  have : e' = marked n e b := by cases e'; simp only [marked, Entry.mk.injEq]; exact ⟨h3, h2⟩
  rw [← this]; exact h4

theorem marks_inv (n : Nat) (hn : 1 ≤ n) (l : List Bool) : ∀ e, EInv n e → EInv n (marks n e l) := by
  induction l with
  | nil => intro e h; exact h
  | cons b t ih => intro e h; exact ih _ (marked_inv n hn e h b)

theorem marks_hist (n : Nat) (b : Bool) (k : Nat) : ∀ e : Entry, e.hist.length = n → k ≤ n → (marks n e (List.replicate k b)).hist = e.hist.drop k ++ List.replicate k b := by
  induction k with
  | zero => intro e _ _; simp [marks]
  | succ k ih =>
    intro e hl hk
    rw [List.replicate_succ]
    unfold marks
    rw [ih (marked n e b) (by simp [marked, hl]; omega) (by omega)]
    have hne : e.hist ≠ [] := by intro hh; rw [hh] at hl; simp at hl; omega
    simp only [marked]
    rw [List.drop_append_of_le_length (by simp [hl]; omega), ← List.drop_one, List.drop_drop, List.append_assoc, ← List.replicate_succ]
    congr 2
    omega

/-- A history of equal outcomes. -/
theorem marks_const (n : Nat) (hn : 1 ≤ n) (b : Bool) (k : Nat) : ∀ e : Entry, EInv n e → e.hist = List.replicate n b →
    (marks n e (List.replicate k b)).score = (if b then 1 else 0) + (9 / 10) ^ k * (e.score - if b then 1 else 0) := by
  have hn0 : (n : ℚ) ≠ 0 := by exact_mod_cast (by omega : n ≠ 0)
  induction k with
  | zero => intro e _ _; simp [marks]
  | succ k ih =>
    intro e he hh
    rw [List.replicate_succ]
    unfold marks
    have hm : (marked n e b).hist = List.replicate n b := by
      simp only [marked]
      rw [hh, List.tail_replicate, ← List.replicate_succ']
      congr 1
      omega
    rw [ih _ (marked_inv n hn e he b) hm]
    have hs : (marked n e b).score = e.score * (9 / 10) + (if b then 1 else 0) * (1 / 10) := by
      have h1 : (marked n e b).score = e.score * (9 / 10) + (((marked n e b).hist.count true : ℚ) / n) * (1 / 10) := rfl
      rw [h1, hm]
      cases b
      · simp [List.count_replicate]
      · simp [hn0]
    rw [hs, pow_succ]
    ring

/-- Repeated calls of `updateReliability` with the same outcome. -/
def repeatUpdate (s : State) (n : String) (b : Bool) : Nat → Outcome State
  | 0 => .ok s
  | k + 1 => (s.update n b).bind fun s' => repeatUpdate s' n b k

theorem repeat_find (n : String) (b : Bool) (k : Nat) : ∀ s : State, Reach R s → ∃ s', repeatUpdate s n b k = .ok s' ∧ Reach R s' ∧ s'.size = s.size ∧
    s'.find n = (s.find n).map fun e => marks s.size e (List.replicate k b) := by
  induction k with
  | zero => intro s h; exact ⟨s, rfl, h, rfl, by cases s.find n <;> rfl⟩
  | succ k ih =>
    intro s h
    obtain ⟨s1, h1, h2⟩ := (C106_updates s h).2 n b
    have hr : Reach R s1 := by
      obtain ⟨ops, hg, ho⟩ := h
      refine ⟨ops ++ [.update n b], ?_, ?_⟩
      · intro o ho
        rcases List.mem_append.1 ho with ho | ho
        · exact hg o ho
        · simp only [List.mem_singleton] at ho; subst ho; trivial
      · have run_app : ∀ (a c : List (Op R)) (s : State), s.run (a ++ c) = (s.run a).bind fun s' => s'.run c := by
          intro a
          induction a with
          | nil => intro c s; rfl
          | cons o t ih =>
            intro c s
            simp only [List.cons_append, State.run]
            cases s.step o with
            | ub => rfl
            | ok s' => exact ih c s'
        rw [run_app, ho]
        simp only [Outcome.bind, State.run, State.step, h1]
    have hsz : s1.size = s.size := by
      unfold State.update at h1
      cases hu : updateIn n b s.entries with
      | ub => rw [hu] at h1; cases h1
      | ok es => rw [hu] at h1; injection h1 with h1; rw [← h1]
    obtain ⟨s2, h3, h4, h5, h6⟩ := ih s1 hr
    refine ⟨s2, ?_, h4, by rw [h5, hsz], ?_⟩
    · unfold repeatUpdate; rw [h1]; exact h3
    · rw [h6, h2 n, if_pos rfl, hsz, Option.map_map]
      congr 1

/-- C106: reliability follows behaviour: after `size` + k outcomes in a row that were right (wrong) it is within 0.9^k of 1 (of 0), whatever happened before. So an
implementation that keeps failing is no longer active after `size` + 16 failures, and one that then does well is active again after at most three more than `size` successes. -/
theorem C106_follows (s : State) (h : Reach R s) (n : String) (hn : s.has n = true) (k : Nat) :
    (∃ s', repeatUpdate s n true (s.size + k) = .ok s' ∧ 1 - (9 / 10) ^ k ≤ s'.reliability n ∧ (3 ≤ k → Active s' n)) ∧
    (∃ s', repeatUpdate s n false (s.size + k) = .ok s' ∧ s'.reliability n ≤ (9 / 10) ^ k ∧ (16 ≤ k → ¬ Active s' n)) := by
  have hi := reach_inv s h
  obtain ⟨e, he⟩ := Option.isSome_iff_exists.1 hn
  have hei := hi.all _ (find_mem s n e he)
  have key : ∀ b, ∃ s', repeatUpdate s n b (s.size + k) = .ok s' ∧ s'.has n = true ∧ ∃ q, 0 ≤ q ∧ q ≤ 1 ∧
      s'.reliability n = (if b then 1 else 0) + (9 / 10) ^ k * (q - if b then 1 else 0) := by
    intro b
    obtain ⟨s', h1, h2, h3, h4⟩ := repeat_find (R := R) n b (s.size + k) s h
    refine ⟨s', h1, by unfold State.has; rw [h4, he]; rfl, (marks s.size e (List.replicate s.size b)).score, ?_⟩
    have hm := marks_inv s.size hi.size (List.replicate s.size b) e hei
    refine ⟨hm.lo, hm.hi, ?_⟩
    unfold State.reliability
    rw [h4, he]
    simp only [Option.map_some, Option.getD_some]
    rw [List.replicate_add, marks_append]
    apply marks_const s.size hi.size b k _ hm
    rw [marks_hist s.size b s.size e hei.len (le_refl _), ← hei.len, List.drop_length, List.nil_append]
  have hp : (0 : ℚ) < (9 / 10) ^ k := by positivity
  have mono : ∀ j, j ≤ k → ((9 : ℚ) / 10) ^ k ≤ (9 / 10) ^ j := fun j hj => pow_le_pow_of_le_one (by norm_num) (by norm_num) hj
  refine ⟨?_, ?_⟩
  · obtain ⟨s', h1, h2, q, hq0, hq1, h3⟩ := key true
    simp only [if_true] at h3
    have hge : 1 - (9 / 10) ^ k ≤ s'.reliability n := by rw [h3]; nlinarith
    refine ⟨s', h1, hge, ?_⟩
    intro hk
    refine ⟨h2, ?_⟩
    have := mono 3 hk
    norm_num at this ⊢
    linarith
  · obtain ⟨s', h1, h2, q, hq0, hq1, h3⟩ := key false
    simp only [Bool.false_eq_true, if_false] at h3
    have hle : s'.reliability n ≤ (9 / 10) ^ k := by rw [h3]; nlinarith
    refine ⟨s', h1, hle, ?_⟩
    intro hk hact
    have := mono 16 hk
    have h5 := hact.2
    norm_num at this h5
    linarith

/-- Non-vacuity: 26 failures in a row. -/
example : ((repeatUpdate demo "a" false 26).bind fun s => .ok (decide (s.reliability "a" < 2 / 10))) = .ok true ∧ 2 / 10 ≤ demo.reliability "a" := by decide +kernel

/-- C106 (limit): an implementation that is outvoted keeps its reliability (only the caller can mark it down), and one below 0.2 is never run again, so `execute` alone
never restores it. -/
theorem C106_outvoted_limit (s : State) (h : Reach R s) (run again : String → Option R) (n : String) (hn : (run n).isSome ∨ ¬ Active s n) :
    ∃ res s', s.execute run again = .ok (res, s') ∧ s'.reliability n = s.reliability n := by
  obtain ⟨res, s', h1, h2⟩ := (C106_updates s h).1 run again
  refine ⟨res, s', h1, ?_⟩
  unfold State.reliability
  rw [h2 n]
  cases he : s.find n with
  | none => rfl
  | some e =>
    simp only [Option.map_some, Option.getD_some]
    rw [if_neg]
    rintro ⟨h3, h4⟩
    rcases hn with hn | hn
    · rw [h4] at hn; cases hn
    · apply hn
      unfold Active State.has State.reliability
      rw [he]
      exact ⟨rfl, h3⟩

/-- Non-vacuity: "a" is wrong ten times and still has reliability 1. -/
example : (demo.execute (fun n => if n = "a" then some (-5 : Int) else some 7) (fun _ => none)).bind (fun x => .ok (x.2.reliability "a")) = .ok 1 := by decide +kernel

/-- C106 (negation): "number of past executions to track": shrinking the history keeps the oldest outcomes and forgets the most recent: whatever the last outcomes
were, they have no effect on any later reliability. -/
theorem C106_shrink_violated (s : State) (n : String) (e : Entry) (old recent : List Bool) (he : s.find n = some e) (hh : e.hist = old ++ recent) :
    (s.setSize old.length).find n = some { e with hist := old } := by
  unfold State.find State.setSize at *
  simp only
  have : ∀ es : List (String × Entry), ((es.map fun p => (p.1, { p.2 with hist := resize p.2.hist old.length })).find? (·.1 = n)).map (·.2) =
      ((es.find? (·.1 = n)).map (·.2)).map fun e => { e with hist := resize e.hist old.length } := by
    intro es
    induction es with
    | nil => rfl
    | cons x t ih =>
      rw [List.map_cons]
      by_cases hx : x.1 = n
      · rw [List.find?_cons_of_pos (by simpa using hx), List.find?_cons_of_pos (by simpa using hx)]; rfl
      · rw [List.find?_cons_of_neg (by simpa using hx), List.find?_cons_of_neg (by simpa using hx)]; exact ih
  rw [this, he]
  simp only [Option.map_some, Option.some.injEq]
  have hr : resize e.hist old.length = old := by
    unfold resize
    rw [hh]
    simp
  rw [hr]

/-- Non-vacuity: five failures after five successes are forgotten: the next success yields the full bonus. -/
example : ((repeatUpdate (({} : State).add "a" (1 / 2)) "a" false 5).bind fun s => (s.setSize 5).update "a" true).bind (fun s => .ok (s.find "a" |>.map (·.hist))) =
    .ok (some [true, true, true, true, true]) := by decide +kernel

/-- C106: growing the history keeps all outcomes and the score of every implementation and fills up with its last outcome, so the share of successes moves towards what it did last. -/
theorem C106_grow (s : State) (n : String) (e : Entry) (l : List Bool) (b : Bool) (k : Nat) (he : s.find n = some e) (hh : e.hist = l ++ [b]) :
    (s.setSize (e.hist.length + k)).find n = some { e with hist := e.hist ++ List.replicate k b } ∧ (s.setSize (e.hist.length + k)).size = e.hist.length + k := by
  refine ⟨?_, rfl⟩
  unfold State.find State.setSize at *
  simp only
  have : ∀ (es : List (String × Entry)) (m : Nat), ((es.map fun p => (p.1, { p.2 with hist := resize p.2.hist m })).find? (·.1 = n)).map (·.2) =
      ((es.find? (·.1 = n)).map (·.2)).map fun e => { e with hist := resize e.hist m } := by
    intro es m
    induction es with
    | nil => rfl
    | cons x t ih =>
      rw [List.map_cons]
      by_cases hx : x.1 = n
      · rw [List.find?_cons_of_pos (by simpa using hx), List.find?_cons_of_pos (by simpa using hx)]; rfl
      · rw [List.find?_cons_of_neg (by simpa using hx), List.find?_cons_of_neg (by simpa using hx)]; exact ih
  rw [this, he]
  simp only [Option.map_some, Option.some.injEq]
  have hr : resize e.hist (e.hist.length + k) = e.hist ++ List.replicate k b := by
    unfold resize
    rw [List.take_of_length_le (by omega), Nat.add_sub_cancel_left, hh]
    simp
  rw [hr]

/-- Non-vacuity: after a failure the history grows by failures. -/
example : ((({} : State).add "a" (1 / 2)).update "a" false).bind (fun s => .ok (((s.setSize 12).find "a").map (·.hist.count false))) = .ok (some 3) := by decide +kernel

/-- C106 (negation): a history of size 0 can be set, after which recording an outcome, or an implementation that throws, is undefined behaviour. -/
theorem C106_size_zero_violated (s : State) (h : Reach R s) (n : String) (hn : Active s n) :
    (∀ b, (s.setSize 0).update n b = .ub) ∧ ∀ run again : String → Option R, run n = none → (s.setSize 0).execute run again = .ub := by
  have hi := reach_inv s h
  obtain ⟨e, he, hs⟩ := (active_iff s hi n).1 hn
  have hempty : ∀ (e : Entry) b, ({ e with hist := resize e.hist 0 } : Entry).update b = .ub := by
    intro e b
    unfold Entry.update resize
    simp
  refine ⟨?_, ?_⟩
  · intro b
    unfold State.update State.setSize
    simp only
    have : ∀ es : List (String × Entry), (n, e) ∈ es → updateIn n b (es.map fun p => (p.1, { p.2 with hist := resize p.2.hist 0 })) = .ub := by
      intro es
      induction es with
      | nil => intro h; cases h
      | cons x t ih =>
        intro hm
        rw [List.map_cons]
        unfold updateIn
        by_cases hx : x.1 = n
        · rw [if_pos hx, hempty]; rfl
        · rw [if_neg hx]
          rcases List.mem_cons.1 hm with rfl | hm
          · exact absurd rfl hx
          · rw [ih hm]; rfl
    rw [this _ he]; rfl
  · intro run again hr
    unfold State.execute State.setSize
    simp only
    have : ∀ es : List (String × Entry), (n, e) ∈ es → ∀ v, loop run (es.map fun p => (p.1, { p.2 with hist := resize p.2.hist 0 })) v = .ub := by
      intro es
      induction es with
      | nil => intro h; cases h
      | cons x t ih =>
        intro hm v
        rw [List.map_cons]
        unfold loop
        rcases List.mem_cons.1 hm with rfl | hm
        · simp only
          rw [if_neg (not_lt.2 hs), hr]
          simp only
          rw [hempty]; rfl
        · simp only
          split
          · rw [ih hm]; rfl
          · cases run x.1 with
            | some r => simp only; rw [ih hm]; rfl
            | none =>
              simp only
              rw [hempty]; rfl
    rw [this _ he]; rfl

/-- Non-vacuity. -/
example : Active demo "a" := ⟨by decide +kernel, by decide +kernel⟩

end Verif.Props.DiversityP
