import Verif.Model.HealthTmr
import Verif.Lemmas.Crc
import Mathlib.Tactic.Linarith
import Mathlib.Tactic.Ring
import Mathlib.Tactic.FieldSimp
import Mathlib.Tactic.NormNum
import Mathlib.Algebra.Order.Field.Basic
/-!
Properties C16, C17, C49: HealthWeightedTMR.
-/
namespace Verif.Props
open Verif Verif.Spec Verif.Crc

section health
variable {α : Type} [LinearOrder α]

/-- Bounds promised for one copy. -/
def CopyOk (c : HTmr.Copy α) : Prop :=
  (1 / 20 : ℚ) ≤ c.health ∧ c.health ≤ 1 ∧ c.hist.length ≤ 10

/-- Bounds for the whole object. -/
def HealthOk (s : HTmr.State α) : Prop := ∀ i, CopyOk (s.at i)

omit [LinearOrder α] in
theorem healthOk_iff (s : HTmr.State α) : HealthOk s ↔ CopyOk s.c0 ∧ CopyOk s.c1 ∧ CopyOk s.c2 := by
  constructor
  · intro h; exact ⟨h 0, h 1, h 2⟩
  · rintro ⟨h0, h1, h2⟩ i
    match i with
    | 0 => exact h0
    | 1 => exact h1
    | 2 => exact h2

omit [LinearOrder α] in
theorem copyOk_update (b : Bool) (c : HTmr.Copy α) (h : CopyOk c) : CopyOk (HTmr.updateHealthScore b c) := by
  obtain ⟨h1, h2, h3⟩ := h
  have hl : ((if c.hist.length ≥ 10 then c.hist.drop 1 else c.hist) ++ [b]).length ≤ 10 := by
    split <;> simp <;> omega
  unfold HTmr.updateHealthScore
  simp only
  generalize (if c.hist.length ≥ 10 then c.hist.drop 1 else c.hist) ++ [b] = hist at hl
  cases b
  · simp only [Bool.false_eq_true, if_false]
    have e1 : (1 / 20 : ℚ) ≤ max (1 / 10) (c.health - 1 / 5) :=
      le_trans (by norm_num) (le_max_left _ _)
    have e2 : max (1 / 10) (c.health - 1 / 5) ≤ 1 := max_le (by norm_num) (by linarith)
    repeat' split
    · exact ⟨le_max_left _ _, max_le (by norm_num) (by linarith), hl⟩
    · exact ⟨e1, e2, hl⟩
    · exact ⟨e1, e2, hl⟩
  · simp only [if_true]
    have e1 : (1 / 20 : ℚ) ≤ min 1 (c.health + 1 / 20) := le_min (by norm_num) (by linarith)
    have e2 : min 1 (c.health + 1 / 20) ≤ 1 := min_le_left _ _
    repeat' split
    · exact ⟨le_max_left _ _, max_le (by norm_num) (by linarith), hl⟩
    · exact ⟨e1, e2, hl⟩
    · exact ⟨e1, e2, hl⟩

omit [LinearOrder α] in
theorem at_modify (s : HTmr.State α) (i j : Fin 3) (f : HTmr.Copy α → HTmr.Copy α) :
    (s.modify i f).at j = if j = i then f (s.at j) else s.at j := by
  match i, j with
  | 0, 0 => rfl
  | 0, 1 => rfl
  | 0, 2 => rfl
  | 1, 0 => rfl
  | 1, 1 => rfl
  | 1, 2 => rfl
  | 2, 0 => rfl
  | 2, 1 => rfl
  | 2, 2 => rfl

omit [LinearOrder α] in
theorem healthOk_modify (s : HTmr.State α) (i : Fin 3) (f : HTmr.Copy α → HTmr.Copy α)
    (hf : ∀ c, CopyOk c → CopyOk (f c)) (h : HealthOk s) : HealthOk (s.modify i f) := by
  intro j
  rw [at_modify]
  split
  · exact hf _ (h j)
  · exact h j

omit [LinearOrder α] in
theorem healthOk_mapAll (s : HTmr.State α) (f : HTmr.Copy α → HTmr.Copy α)
    (hf : ∀ c, CopyOk c → CopyOk (f c)) (h : HealthOk s) : HealthOk (s.mapAll f) := by
  rw [healthOk_iff] at *
  exact ⟨hf _ h.1, hf _ h.2.1, hf _ h.2.2⟩

omit [LinearOrder α] in
theorem healthOk_penalised (crc : α → BitVec 32) (s : HTmr.State α) (h : HealthOk s) :
    HealthOk (HTmr.penalised crc s) := by
  have hpen : ∀ v (i : Fin 3) (t : HTmr.State α), HealthOk t → HealthOk (HTmr.penalise v i t) := by
    intro v i t ht
    unfold HTmr.penalise
    split
    · exact ht
    · exact healthOk_modify _ _ _ (fun c hc => copyOk_update _ _ hc) ht
  exact hpen _ _ _ (hpen _ _ _ (hpen _ _ _ h))

theorem healthOk_get (crc : α → BitVec 32) (s : HTmr.State α) (h : HealthOk s) :
    HealthOk (HTmr.get crc s).2 := by
  have hupd : ∀ v s' x (i : Fin 3) (t : HTmr.State α), HealthOk t → HealthOk (HTmr.credit v s' x i t) := by
    intro v s' x i t ht
    unfold HTmr.credit
    split
    · exact healthOk_modify _ _ _ (fun c hc => copyOk_update _ _ hc) ht
    · exact ht
  have ht := healthOk_penalised crc s h
  unfold HTmr.get
  generalize HTmr.penalised crc s = t at ht ⊢
  simp only
  split
  · unfold HTmr.performWeightedVoting
    split
    · exact healthOk_mapAll _ _ (fun c hc => copyOk_update _ _ hc) ht
    · exact hupd _ _ _ _ _ (hupd _ _ _ _ _ (hupd _ _ _ _ _ ht))
  · split
    · exact ht
    · split
      · exact ht
      · split
        · exact ht
        · exact healthOk_modify _ _ _ (fun c hc => hc) ht

theorem healthOk_step (crc : α → BitVec 32) (s : HTmr.State α) (h : HealthOk s) (op : HTmr.Op α) :
    HealthOk (HTmr.step crc s op) := by
  cases op with
  | get => exact healthOk_get crc s h
  | set v =>
    exact healthOk_mapAll _ _ (fun c hc => ⟨by norm_num, by norm_num, hc.2.2⟩) h
  | repair => exact healthOk_mapAll _ _ (fun c hc => hc) (healthOk_get crc s h)
  | regenerate => exact healthOk_mapAll _ _ (fun c hc => hc) h
  | upset i x c => exact healthOk_modify _ _ _ (fun c hc => hc) h

theorem healthOk_run (crc : α → BitVec 32) (s : HTmr.State α) (h : HealthOk s) (ops : List (HTmr.Op α)) :
    HealthOk (HTmr.run crc s ops) := by
  induction ops generalizing s with
  | nil => exact h
  | cons op ops ih => exact ih _ (healthOk_step crc s h op)

omit [LinearOrder α] in
theorem healthOk_new (crc : α → BitVec 32) (v : α) : HealthOk (HTmr.new crc v) := by
  rw [healthOk_iff]
  refine ⟨?_, ?_, ?_⟩ <;> exact ⟨by norm_num [HTmr.new], by norm_num [HTmr.new], by simp [HTmr.new]⟩

/-- **C16.** For every history of reads, writes, repairs, regenerations and upsets, every health score is
in [0.05, 1] and no vote history is longer than ten. -/
theorem C16_health_bounds (crc : α → BitVec 32) (v : α) (ops : List (HTmr.Op α)) (i : Fin 3) :
    let c := (HTmr.run crc (HTmr.new crc v) ops).at i
    (1 / 20 : ℚ) ≤ c.health ∧ c.health ≤ 1 ∧ c.hist.length ≤ 10 :=
  healthOk_run crc _ (healthOk_new crc v) ops i

omit [LinearOrder α] in
/-- **C16 (regeneration).** In every state, `regenerateCopies` writes to all three copies the value of one copy whose
health score is maximal, with matching checksums, and keeps all health scores. -/
theorem C16_regenerate_uses_healthiest (crc : α → BitVec 32) (s : HTmr.State α) :
    ∃ b, (∀ j, (s.at j).health ≤ (s.at b).health) ∧
      ∀ i, ((HTmr.regenerateCopies crc s).at i).val = (s.at b).val ∧
        ((HTmr.regenerateCopies crc s).at i).crc = crc (s.at b).val ∧
        ((HTmr.regenerateCopies crc s).at i).health = (s.at i).health := by
  refine ⟨HTmr.bestIndex s, ?_, ?_⟩
  · have h : s.c0.health ≤ (s.at (HTmr.bestIndex s)).health ∧ s.c1.health ≤ (s.at (HTmr.bestIndex s)).health ∧
        s.c2.health ≤ (s.at (HTmr.bestIndex s)).health := by
      unfold HTmr.bestIndex
      simp only
      by_cases h1 : s.c1.health > s.c0.health
      · rw [if_pos h1]
        by_cases h2 : s.c2.health > (s.at 1).health
        · rw [if_pos h2]
          change s.c2.health > s.c1.health at h2
          exact ⟨le_of_lt (lt_trans h1 h2), le_of_lt h2, le_refl _⟩
        · rw [if_neg h2]
          exact ⟨le_of_lt h1, le_refl _, not_lt.mp h2⟩
      · rw [if_neg h1]
        by_cases h2 : s.c2.health > (s.at 0).health
        · rw [if_pos h2]
          change s.c2.health > s.c0.health at h2
          exact ⟨le_of_lt h2, le_trans (not_lt.mp h1) (le_of_lt h2), le_refl _⟩
        · rw [if_neg h2]
          exact ⟨le_refl _, not_lt.mp h1, not_lt.mp h2⟩
    intro j
    match j with
    | 0 => exact h.1
    | 1 => exact h.2.1
    | 2 => exact h.2.2
  · intro i
    match i with
    | 0 => exact ⟨rfl, rfl, rfl⟩
    | 1 => exact ⟨rfl, rfl, rfl⟩
    | 2 => exact ⟨rfl, rfl, rfl⟩

/-! Error counters -/

omit [LinearOrder α] in
theorem errors_update (b : Bool) (c : HTmr.Copy α) :
    (HTmr.updateHealthScore b c).errors = c.errors + (if b then 0 else 1) := by
  unfold HTmr.updateHealthScore
  simp only
  cases b <;> simp only [Bool.false_eq_true, if_true, if_false] <;> repeat' split
  all_goals rfl

omit [LinearOrder α] in
theorem errors_mono_modify (s : HTmr.State α) (i j : Fin 3) (f : HTmr.Copy α → HTmr.Copy α)
    (hf : ∀ c, c.errors ≤ (f c).errors) : (s.at j).errors ≤ ((s.modify i f).at j).errors := by
  rw [at_modify]
  split
  · exact hf _
  · exact Nat.le_refl _

omit [LinearOrder α] in
theorem errors_mono_mapAll (s : HTmr.State α) (j : Fin 3) (f : HTmr.Copy α → HTmr.Copy α)
    (hf : ∀ c, c.errors ≤ (f c).errors) : (s.at j).errors ≤ ((s.mapAll f).at j).errors := by
  match j with
  | 0 => exact hf _
  | 1 => exact hf _
  | 2 => exact hf _

theorem errors_mono_get (crc : α → BitVec 32) (s : HTmr.State α) (j : Fin 3) :
    (s.at j).errors ≤ ((HTmr.get crc s).2.at j).errors := by
  have hu : ∀ b (c : HTmr.Copy α), c.errors ≤ (HTmr.updateHealthScore b c).errors := by
    intro b c; rw [errors_update]; omega
  have hpen : ∀ v (i : Fin 3) (t : HTmr.State α),
      (t.at j).errors ≤ ((HTmr.penalise v i t).at j).errors := by
    intro v i t
    unfold HTmr.penalise
    split
    · exact Nat.le_refl _
    · exact errors_mono_modify _ _ _ _ (hu false)
  have hupd : ∀ v s' x (i : Fin 3) (t : HTmr.State α),
      (t.at j).errors ≤ ((HTmr.credit v s' x i t).at j).errors := by
    intro v s' x i t
    unfold HTmr.credit
    split
    · exact errors_mono_modify _ _ _ _ (hu _)
    · exact Nat.le_refl _
  have ht : (s.at j).errors ≤ ((HTmr.penalised crc s).at j).errors :=
    Nat.le_trans (Nat.le_trans (hpen _ 0 s) (hpen _ 1 _)) (hpen _ 2 _)
  unfold HTmr.get
  generalize HTmr.penalised crc s = t at ht ⊢
  simp only
  split
  · unfold HTmr.performWeightedVoting
    split
    · exact Nat.le_trans ht (errors_mono_mapAll _ _ _ (hu true))
    · exact Nat.le_trans ht (Nat.le_trans (Nat.le_trans (hupd _ _ _ 0 _) (hupd _ _ _ 1 _)) (hupd _ _ _ 2 _))
  · split
    · exact ht
    · split
      · exact ht
      · split
        · exact ht
        · exact Nat.le_trans ht (errors_mono_modify _ _ _ _ (fun c => by simp))

/-- **C16 (counters).** No event ever decreases an error counter. -/
theorem C16_error_counters_monotone (crc : α → BitVec 32) (s : HTmr.State α) (ops : List (HTmr.Op α))
    (i : Fin 3) : (s.at i).errors ≤ ((HTmr.run crc s ops).at i).errors := by
  induction ops generalizing s with
  | nil => exact Nat.le_refl _
  | cons op ops ih =>
    refine Nat.le_trans ?_ (ih (HTmr.step crc s op))
    cases op with
    | get => exact errors_mono_get crc s i
    | set v => exact errors_mono_mapAll _ _ _ (fun c => Nat.le_refl _)
    | repair => exact Nat.le_trans (errors_mono_get crc s i) (errors_mono_mapAll _ _ _ (fun c => Nat.le_refl _))
    | regenerate => exact errors_mono_mapAll _ _ _ (fun c => Nat.le_refl _)
    | upset j x c => exact errors_mono_modify _ _ _ _ (fun c => Nat.le_refl _)

/-- Non-vacuity of C16: four reads of a corrupted copy drive its health to the floor. -/
example : ((HTmr.run (fun x : Nat => BitVec.ofNat 32 x) (HTmr.new (fun x : Nat => BitVec.ofNat 32 x) 7)
    [.upset 0 9 1#32, .get, .get, .get, .get, .get, .get, .get]).at 0).health = 1 / 20 := by
  decide +kernel

/-! ### The weighted vote -/

/-- Total health of the valid copies holding `x`. -/
def support (valid : Fin 3 → Bool) (s : HTmr.State α) (x : α) : ℚ :=
  ((List.finRange 3).map fun i => if valid i && decide ((s.at i).val = x) then (s.at i).health else 0).sum

/-- Sum of the entries of an association list under `k`. -/
def lookupSum (k : α) (m : List (α × ℚ)) : ℚ := (m.map fun e => if e.1 = k then e.2 else 0).sum

theorem lookupSum_bump (k x : α) (w : ℚ) (m : List (α × ℚ)) :
    lookupSum x (HTmr.bump k w m) = lookupSum x m + (if k = x then w else 0) := by
  induction m with
  | nil => simp [HTmr.bump, lookupSum]
  | cons e r ih =>
    obtain ⟨k', w'⟩ := e
    unfold HTmr.bump
    split
    · simp only [lookupSum, List.map_cons, List.sum_cons]; ring
    · split
      · rename_i h; subst h
        simp only [lookupSum, List.map_cons, List.sum_cons]
        split <;> ring
      · simp only [lookupSum, List.map_cons, List.sum_cons] at ih ⊢
        rw [ih]; ring

/-- Strictly increasing keys. -/
def SortedKeys (m : List (α × ℚ)) : Prop := m.Pairwise fun a b => a.1 < b.1

theorem mem_bump {k : α} {w : ℚ} {m : List (α × ℚ)} {e : α × ℚ} (h : e ∈ HTmr.bump k w m) :
    e.1 = k ∨ ∃ e' ∈ m, e'.1 = e.1 := by
  induction m with
  | nil => simp [HTmr.bump] at h; left; rw [h]
  | cons e₀ r ih =>
    obtain ⟨k', w'⟩ := e₀
    unfold HTmr.bump at h
    split at h
    · rcases List.mem_cons.mp h with h | h
      · left; rw [h]
      · right; exact ⟨e, h, rfl⟩
    · split at h
      · rcases List.mem_cons.mp h with h | h
        · right; exact ⟨(k', w'), by simp, by rw [h]⟩
        · right; exact ⟨e, List.mem_cons_of_mem _ h, rfl⟩
      · rcases List.mem_cons.mp h with h | h
        · right; exact ⟨(k', w'), by simp, by rw [h]⟩
        · rcases ih h with h | ⟨e', h1, h2⟩
          · left; exact h
          · right; exact ⟨e', List.mem_cons_of_mem _ h1, h2⟩

theorem sorted_bump {k : α} {w : ℚ} {m : List (α × ℚ)} (h : SortedKeys m) : SortedKeys (HTmr.bump k w m) := by
  induction m with
  | nil => simp [HTmr.bump, SortedKeys]
  | cons e r ih =>
    obtain ⟨k', w'⟩ := e
    have h' := List.pairwise_cons.mp h
    unfold HTmr.bump
    split
    · rename_i hlt
      refine List.pairwise_cons.mpr ⟨?_, h⟩
      intro a ha
      rcases List.mem_cons.mp ha with ha | ha
      · rw [ha]; exact hlt
      · exact lt_trans hlt (h'.1 a ha)
    · split
      · exact List.pairwise_cons.mpr ⟨h'.1, h'.2⟩
      · rename_i h1 h2
        refine List.pairwise_cons.mpr ⟨?_, ih h'.2⟩
        intro a ha
        rcases mem_bump ha with ha | ⟨e', he', hee⟩
        · rw [ha]; exact lt_of_le_of_ne (not_lt.mp h1) (fun h => h2 h.symm)
        · rw [← hee]; exact h'.1 e' he'

theorem pos_bump {k : α} {w : ℚ} {m : List (α × ℚ)} (hw : 0 < w) (h : ∀ e ∈ m, 0 < e.2) :
    ∀ e ∈ HTmr.bump k w m, 0 < e.2 := by
  induction m with
  | nil => intro e he; simp [HTmr.bump] at he; rw [he]; exact hw
  | cons e₀ r ih =>
    obtain ⟨k', w'⟩ := e₀
    have h0 : 0 < w' := h (k', w') (by simp)
    have hr : ∀ e ∈ r, 0 < e.2 := fun e he => h e (List.mem_cons_of_mem _ he)
    intro e he
    unfold HTmr.bump at he
    split at he
    · rcases List.mem_cons.mp he with he | he
      · rw [he]; exact hw
      · exact h e he
    · split at he
      · rcases List.mem_cons.mp he with he | he
        · rw [he]; simp only; linarith
        · exact hr e he
      · rcases List.mem_cons.mp he with he | he
        · rw [he]; exact h0
        · exact ih hr e he

theorem lookupSum_mem {m : List (α × ℚ)} (h : SortedKeys m) {e : α × ℚ} (he : e ∈ m) :
    lookupSum e.1 m = e.2 := by
  induction m with
  | nil => cases he
  | cons e₀ r ih =>
    have h' := List.pairwise_cons.mp h
    have hz : ∀ (l : List (α × ℚ)) (x : α), (∀ a ∈ l, a.1 ≠ x) → lookupSum x l = 0 := by
      intro l x hl
      induction l with
      | nil => rfl
      | cons a l ih =>
        simp only [lookupSum, List.map_cons, List.sum_cons]
        rw [if_neg (hl a (by simp))]
        have := ih (fun b hb => hl b (List.mem_cons_of_mem _ hb))
        unfold lookupSum at this
        rw [this]; simp
    rcases List.mem_cons.mp he with he | he
    · subst he
      simp only [lookupSum, List.map_cons, List.sum_cons, if_true]
      have := hz r e.1 (fun a ha => (h'.1 a ha).ne')
      unfold lookupSum at this
      rw [this]; simp
    · have hne : e₀.1 ≠ e.1 := (h'.1 e he).ne
      have := ih h'.2 he
      simp only [lookupSum, List.map_cons, List.sum_cons, hne, if_false, zero_add]
      exact this

theorem best_spec (m : List (α × ℚ)) (hs : SortedKeys m) :
    ∀ b₀ : α × ℚ, let b := m.foldl (fun (b : α × ℚ) e => if e.2 > b.2 then e else b) b₀
      b₀.2 ≤ b.2 ∧ (b = b₀ ∨ (b ∈ m ∧ b₀.2 < b.2)) ∧
      (∀ e ∈ m, e.2 ≤ b.2 ∧ (e.2 = b.2 → b = b₀ ∨ b.1 ≤ e.1)) := by
  induction m with
  | nil => intro b₀; simp
  | cons e r ih =>
    intro b₀
    have h' := List.pairwise_cons.mp hs
    simp only [List.foldl_cons]
    obtain ⟨h1, h2, h3⟩ := ih h'.2 (if e.2 > b₀.2 then e else b₀)
    generalize hb : r.foldl (fun (b : α × ℚ) e => if e.2 > b.2 then e else b)
      (if e.2 > b₀.2 then e else b₀) = b at h1 h2 h3 ⊢
    by_cases hgt : e.2 > b₀.2
    · rw [if_pos hgt] at h1 h2 h3
      refine ⟨by linarith, ?_, ?_⟩
      · right
        rcases h2 with h2 | ⟨h2, h4⟩
        · rw [h2]; exact ⟨by simp, hgt⟩
        · exact ⟨List.mem_cons_of_mem _ h2, by linarith⟩
      · intro a ha
        rcases List.mem_cons.mp ha with ha | ha
        · subst ha
          refine ⟨h1, fun heq => ?_⟩
          right
          rcases h2 with h2 | ⟨h2, h4⟩
          · rw [h2]
          · exact absurd heq (ne_of_lt h4)
        · obtain ⟨h5, h6⟩ := h3 a ha
          refine ⟨h5, fun heq => ?_⟩
          right
          rcases h6 heq with h6 | h6
          · rw [h6]; exact (h'.1 a ha).le
          · exact h6
    · rw [if_neg hgt] at h1 h2 h3
      refine ⟨h1, ?_, ?_⟩
      · rcases h2 with h2 | ⟨h2, h4⟩
        · left; exact h2
        · right; exact ⟨List.mem_cons_of_mem _ h2, h4⟩
      · intro a ha
        rcases List.mem_cons.mp ha with ha | ha
        · subst ha
          have hle : a.2 ≤ b₀.2 := not_lt.mp hgt
          refine ⟨le_trans hle h1, fun heq => ?_⟩
          left
          rcases h2 with h2 | ⟨_, h4⟩
          · exact h2
          · exact absurd heq (ne_of_lt (lt_of_le_of_lt hle h4))
        · exact h3 a ha

/-- The vote: with all health scores positive and at least one valid copy, the value returned by the
weighted vote is held by a valid copy, no other value has more support, and ties go to the smallest. -/
theorem weighted_vote_spec (valid : Fin 3 → Bool) (s : HTmr.State α) (hp : ∀ i, 0 < (s.at i).health)
    (hne : ∃ i, valid i = true) (hd : ¬ (s.c0.val = s.c1.val ∧ s.c1.val = s.c2.val)) :
    let r := (HTmr.performWeightedVoting valid s).1
    (∃ i, valid i = true ∧ (s.at i).val = r) ∧
    ∀ j, valid j = true → support valid s (s.at j).val ≤ support valid s r ∧
      (support valid s (s.at j).val = support valid s r → r ≤ (s.at j).val) := by
  intro r
  have hr : r = (HTmr.bestOf s.c0.val (HTmr.votes valid s)).1 := by
    show (HTmr.performWeightedVoting valid s).1 = _
    unfold HTmr.performWeightedVoting
    rw [if_neg hd]
  have htot : HTmr.totalWeight valid s = (if valid 0 = true then s.c0.health else 0)
      + (if valid 1 = true then s.c1.health else 0) + (if valid 2 = true then s.c2.health else 0) := rfl
  unfold HTmr.votes HTmr.vote at hr
  generalize HTmr.totalWeight valid s = total at htot hr
  have hp0 := hp 0; have hp1 := hp 1; have hp2 := hp 2
  have htp : 0 < total := by
    obtain ⟨i, hi⟩ := hne
    simp only [HTmr.State.at] at hp0 hp1 hp2
    rw [htot]
    match i, hi with
    | 0, hi => rw [hi]; simp only [if_true]; split <;> split <;> linarith
    | 1, hi => rw [hi]; simp only [if_true]; split <;> split <;> linarith
    | 2, hi => rw [hi]; simp only [if_true]; split <;> split <;> linarith
  let vote (i : Fin 3) (m : List (α × ℚ)) : List (α × ℚ) :=
    if valid i = true then HTmr.bump (s.at i).val ((s.at i).health / total) m else m
  have hvs : ∀ i m, SortedKeys m → SortedKeys (vote i m) := by
    intro i m hm; simp only [vote]; split
    · exact sorted_bump hm
    · exact hm
  have hvp : ∀ i m, (∀ e ∈ m, 0 < e.2) → ∀ e ∈ vote i m, 0 < e.2 := by
    intro i m hm; simp only [vote]; split
    · exact pos_bump (div_pos (hp i) htp) hm
    · exact hm
  have hvl : ∀ i m x, lookupSum x (vote i m) = lookupSum x m +
      (if (valid i && decide ((s.at i).val = x)) = true then (s.at i).health else 0) / total := by
    intro i m x; simp only [vote]
    cases valid i
    · simp
    · simp only [if_true, lookupSum_bump, Bool.true_and, decide_eq_true_eq]
      split <;> simp
  have hvk : ∀ i m, ∀ e ∈ vote i m, (valid i = true ∧ (s.at i).val = e.1) ∨ ∃ e' ∈ m, e'.1 = e.1 := by
    intro i m e he
    simp only [vote] at he
    split at he
    · rename_i hv
      rcases mem_bump he with h | h
      · left; exact ⟨hv, h.symm⟩
      · right; exact h
    · right; exact ⟨e, he, rfl⟩
  let votes := vote 2 (vote 1 (vote 0 []))
  have hsorted : SortedKeys votes := hvs 2 _ (hvs 1 _ (hvs 0 _ List.Pairwise.nil))
  have hpos : ∀ e ∈ votes, 0 < e.2 := hvp 2 _ (hvp 1 _ (hvp 0 _ (by simp)))
  have hlook : ∀ x, lookupSum x votes = support valid s x / total := by
    intro x
    have l : List.finRange 3 = [0, 1, 2] := by decide
    simp only [votes, hvl, support, l, List.map_cons, List.map_nil, List.sum_cons, List.sum_nil]
    simp only [lookupSum, List.map_nil, List.sum_nil]
    ring
  have hkeys : ∀ e ∈ votes, ∃ i, valid i = true ∧ (s.at i).val = e.1 := by
    intro e he
    rcases hvk 2 _ e he with h | ⟨e', h1, h2⟩
    · exact ⟨2, h⟩
    · rcases hvk 1 _ e' h1 with h | ⟨e'', h3, h4⟩
      · exact ⟨1, h.1, by rw [h.2, h2]⟩
      · rcases hvk 0 _ e'' h3 with h | ⟨_, h5, _⟩
        · exact ⟨0, h.1, by rw [h.2, h4, h2]⟩
        · cases h5
  have hsup : ∀ j, valid j = true → 0 < support valid s (s.at j).val := by
    intro j hj
    have l : List.finRange 3 = [0, 1, 2] := by decide
    unfold support
    rw [l]
    simp only [List.map_cons, List.map_nil, List.sum_cons, List.sum_nil]
    have hnn : ∀ i x, (0 : ℚ) ≤ (if (valid i && decide ((s.at i).val = x)) = true then (s.at i).health else 0) := by
      intro i x; split
      · exact (hp i).le
      · exact le_refl _
    have hthis : (if (valid j && decide ((s.at j).val = (s.at j).val)) = true then (s.at j).health else 0)
        = (s.at j).health := by simp [hj]
    have a0 := hnn 0 (s.at j).val; have a1 := hnn 1 (s.at j).val; have a2 := hnn 2 (s.at j).val
    have hj' := hp j
    match j, hthis with
    | 0, h => rw [h]; linarith
    | 1, h => rw [h]; linarith
    | 2, h => rw [h]; linarith
  have hin : ∀ j, valid j = true → ∃ e ∈ votes, e.1 = (s.at j).val := by
    intro j hj
    by_contra hno
    have hz : lookupSum (s.at j).val votes = 0 := by
      unfold lookupSum
      apply List.sum_eq_zero
      intro q hq
      obtain ⟨e, he, rfl⟩ := List.mem_map.mp hq
      rw [if_neg]
      intro h; exact hno ⟨e, he, h⟩
    rw [hlook] at hz
    have := div_pos (hsup j hj) htp
    linarith
  obtain ⟨h1, h2, h3⟩ := best_spec votes hsorted (s.c0.val, 0)
  generalize hb : votes.foldl (fun (b : α × ℚ) e => if e.2 > b.2 then e else b) (s.c0.val, 0) = b at h1 h2 h3
  have hrb : r = b.1 := by rw [hr]; exact congrArg Prod.fst hb
  -- some valid vote exists and has positive weight, so `b` is a real entry
  obtain ⟨i₀, hi₀⟩ := hne
  obtain ⟨e₀, he₀, _⟩ := hin i₀ hi₀
  have hbpos : 0 < b.2 := lt_of_lt_of_le (hpos e₀ he₀) (h3 e₀ he₀).1
  have hbm : b ∈ votes := by
    rcases h2 with h2 | h2
    · rw [h2] at hbpos; exact absurd hbpos (lt_irrefl _)
    · exact h2.1
  have hbne : b ≠ (s.c0.val, 0) := by
    intro h; rw [h] at hbpos; exact absurd hbpos (lt_irrefl _)
  have hbs : support valid s b.1 = b.2 * total := by
    have := lookupSum_mem hsorted hbm
    rw [hlook] at this
    rw [← this]; field_simp
  rw [hrb]
  refine ⟨hkeys b hbm, ?_⟩
  intro j hj
  obtain ⟨e, he, hej⟩ := hin j hj
  have hes : support valid s (s.at j).val = e.2 * total := by
    have := lookupSum_mem hsorted he
    rw [hej, hlook] at this
    rw [← this]; field_simp
  obtain ⟨h4, h5⟩ := h3 e he
  rw [hes, hbs]
  refine ⟨mul_le_mul_of_nonneg_right h4 htp.le, fun heq => ?_⟩
  have : e.2 = b.2 := mul_right_cancel₀ htp.ne' heq
  rcases h5 this with h | h
  · exact absurd h hbne
  · rw [← hej]; exact h

omit [LinearOrder α] in
theorem update_val (b : Bool) (c : HTmr.Copy α) :
    (HTmr.updateHealthScore b c).val = c.val ∧ (HTmr.updateHealthScore b c).crc = c.crc := by
  unfold HTmr.updateHealthScore
  simp only
  cases b <;> simp only [Bool.false_eq_true, if_true, if_false] <;> repeat' split
  all_goals exact ⟨rfl, rfl⟩

omit [LinearOrder α] in
theorem penalised_val (crc : α → BitVec 32) (s : HTmr.State α) (j : Fin 3) :
    ((HTmr.penalised crc s).at j).val = (s.at j).val := by
  have h : ∀ v i t, ((HTmr.penalise v i t).at j).val = (HTmr.State.at t j : HTmr.Copy α).val := by
    intro v i t
    unfold HTmr.penalise
    split
    · rfl
    · rw [at_modify]; split
      · exact (update_val _ _).1
      · rfl
  unfold HTmr.penalised
  simp only
  rw [h, h, h]

omit [LinearOrder α] in
theorem penalised_health (crc : α → BitVec 32) (s : HTmr.State α) (hp : ∀ j, 0 < (s.at j).health) (j : Fin 3) :
    0 < ((HTmr.penalised crc s).at j).health := by
  have h : ∀ v i t, 0 < (HTmr.State.at t j : HTmr.Copy α).health → 0 < ((HTmr.penalise v i t).at j).health := by
    intro v i t ht
    unfold HTmr.penalise
    split
    · exact ht
    · rw [at_modify]; split
      · unfold HTmr.updateHealthScore
        simp only [Bool.false_eq_true, if_false]
        repeat' split
        all_goals exact lt_of_lt_of_le (by norm_num) (le_max_left _ _)
      · exact ht
  exact h _ _ _ (h _ _ _ (h _ _ _ (hp j)))

omit [LinearOrder α] in
theorem penalised_id (crc : α → BitVec 32) (s : HTmr.State α) (h : ∀ i, HTmr.verifyChecksum crc s i = true) :
    HTmr.penalised crc s = s := by
  unfold HTmr.penalised HTmr.penalise
  simp only [h, if_true]

/-- **C17.** In any state reachable by any history, if every copy whose stored checksum matches its value
holds `v`, and at least one such copy exists, `get()` returns `v` — whatever the health scores are. -/
theorem C17_valid_copies_win (crc : α → BitVec 32) (v₀ v : α) (ops : List (HTmr.Op α))
    (hall : ∀ i, ((HTmr.run crc (HTmr.new crc v₀) ops).at i).crc = crc ((HTmr.run crc (HTmr.new crc v₀) ops).at i).val →
      ((HTmr.run crc (HTmr.new crc v₀) ops).at i).val = v)
    (hone : ∃ i, ((HTmr.run crc (HTmr.new crc v₀) ops).at i).crc
      = crc ((HTmr.run crc (HTmr.new crc v₀) ops).at i).val) :
    (HTmr.get crc (HTmr.run crc (HTmr.new crc v₀) ops)).1 = v := by
  have hok := healthOk_run crc _ (healthOk_new crc v₀) ops
  generalize HTmr.run crc (HTmr.new crc v₀) ops = s at hall hone hok
  have hall' : ∀ i, HTmr.verifyChecksum crc s i = true → (s.at i).val = v := by
    intro i hi; apply hall; simpa [HTmr.verifyChecksum] using hi
  have hone' : ∃ i, HTmr.verifyChecksum crc s i = true := by
    obtain ⟨i, hi⟩ := hone
    exact ⟨i, by simpa [HTmr.verifyChecksum] using hi⟩
  have hpv := penalised_val crc s
  have ht := healthOk_penalised crc s hok
  unfold HTmr.get
  generalize HTmr.penalised crc s = t at hpv ht ⊢
  simp only
  split
  · skip
    by_cases hd : t.c0.val = t.c1.val ∧ t.c1.val = t.c2.val
    · unfold HTmr.performWeightedVoting
      rw [if_pos hd]
      obtain ⟨i, hi⟩ := hone'
      have h1 := hall' i hi
      rw [← hpv i] at h1
      simp only
      match i, h1 with
      | 0, h1 => exact h1
      | 1, h1 => rw [hd.1]; exact h1
      | 2, h1 => rw [hd.1, hd.2]; exact h1
    · have hp : ∀ i, 0 < (t.at i).health := fun i => lt_of_lt_of_le (by norm_num) (ht i).1
      obtain ⟨⟨i, h1, h2⟩, _⟩ := weighted_vote_spec (HTmr.verifyChecksum crc s) t hp hone' hd
      rw [← h2, hpv i]
      exact hall' i h1
  · split
    · rename_i h; exact hall' 0 h
    · split
      · rename_i h; exact hall' 1 h
      · split
        · rename_i h; exact hall' 2 h
        · rename_i h0 h1 h2
          obtain ⟨i, hi⟩ := hone'
          match i, hi with
          | 0, hi => exact absurd hi h0
          | 1, hi => exact absurd hi h1
          | 2, hi => exact absurd hi h2

theorem two_valid (f : Fin 3 → Bool) (i j : Fin 3) (hij : i ≠ j) (h1 : f i = true) (h2 : f j = true) :
    (f 0).toNat + (f 1).toNat + (f 2).toNat ≥ 2 := by
  match i, j, hij, h1, h2 with
  | 0, 0, h, _, _ => exact absurd rfl h
  | 0, 1, _, h1, h2 => rw [h1, h2]; simp
  | 0, 2, _, h1, h2 => rw [h1, h2]; simp
  | 1, 0, _, h1, h2 => rw [h1, h2]; simp
  | 1, 1, h, _, _ => exact absurd rfl h
  | 1, 2, _, h1, h2 => rw [h1, h2]; simp
  | 2, 0, _, h1, h2 => rw [h1, h2]; simp
  | 2, 1, _, h1, h2 => rw [h1, h2]; simp
  | 2, 2, h, _, _ => exact absurd rfl h

/-- **C17 (vote).** Otherwise the result is a genuine health-weighted vote over the copies with valid
checksums: in every reachable state with at least two valid checksums and not all values equal, the result is
held by a copy with a valid checksum, no value held by a valid copy has more support (measured with the scores
after penalising the invalid copies), and equal support is resolved towards the smaller value. -/
theorem C17_weighted_vote (crc : α → BitVec 32) (v₀ : α) (ops : List (HTmr.Op α)) :
    let s := HTmr.run crc (HTmr.new crc v₀) ops
    let valid : Fin 3 → Bool := fun i => decide ((s.at i).crc = crc (s.at i).val)
    (∃ i j, i ≠ j ∧ valid i = true ∧ valid j = true) →
    ¬ (∀ i j, (s.at i).val = (s.at j).val) →
    let t := HTmr.penalised crc s
    let r := (HTmr.get crc s).1
    (∃ i, valid i = true ∧ (s.at i).val = r) ∧
    ∀ j, valid j = true → support valid t (s.at j).val ≤ support valid t r ∧
      (support valid t (s.at j).val = support valid t r → r ≤ (s.at j).val) := by
  intro s valid htwo hd t r
  have hok : HealthOk s := healthOk_run crc _ (healthOk_new crc v₀) ops
  have hv : valid = HTmr.verifyChecksum crc s := by
    funext i
    simp only [valid, HTmr.verifyChecksum]
    rw [Bool.eq_iff_iff]; simp
  have hcount : HTmr.validCount crc s ≥ 2 := by
    unfold HTmr.validCount
    rw [← hv]
    obtain ⟨i, j, hij, hi, hj⟩ := htwo
    exact two_valid valid i j hij hi hj
  have hpv : ∀ j, (t.at j).val = (s.at j).val := penalised_val crc s
  have ht : HealthOk t := healthOk_penalised crc s hok
  have hd' : ¬ (t.c0.val = t.c1.val ∧ t.c1.val = t.c2.val) := by
    rintro ⟨h1, h2⟩
    apply hd
    have e0 := hpv 0; have e1 := hpv 1; have e2 := hpv 2
    have a01 : (s.at 0).val = (s.at 1).val := by rw [← e0, ← e1]; exact h1
    have a12 : (s.at 1).val = (s.at 2).val := by rw [← e1, ← e2]; exact h2
    have all : ∀ i, (s.at i).val = (s.at 0).val := by
      intro i
      match i with
      | 0 => rfl
      | 1 => exact a01.symm
      | 2 => exact (a01.trans a12).symm
    intro i j; rw [all i, all j]
  have hr : r = (HTmr.performWeightedVoting valid t).1 := by
    show (HTmr.get crc s).1 = _
    unfold HTmr.get
    simp only
    rw [if_pos hcount, hv]
  obtain ⟨⟨i, h1, h2⟩, h3⟩ := weighted_vote_spec valid t
    (fun i => lt_of_lt_of_le (by norm_num) (ht i).1) ⟨htwo.choose, by
      obtain ⟨_, _, h, _⟩ := htwo.choose_spec; exact h⟩ hd'
  rw [hr]
  refine ⟨⟨i, h1, by rw [← hpv i]; exact h2⟩, fun j hj => ?_⟩
  have := h3 j hj
  rw [hpv j] at this
  exact this

/-- Non-vacuity of C17: two corrupted copies with bad checksums. -/
example : (HTmr.get (fun x : Nat => BitVec.ofNat 32 x)
    (HTmr.run (fun x : Nat => BitVec.ofNat 32 x) (HTmr.new (fun x : Nat => BitVec.ofNat 32 x) 7)
      [.upset 0 9 1#32, .get, .upset 2 9 1#32, .get])).1 = 7 := by decide +kernel

/-! ### C49: masking of one replica whose checksum is forged as well -/

/-- **C49 (what holds).** Directly after `set(v)` an arbitrary upset of one copy, value and checksum, is
masked by the next `get()`. Missing: the same after an arbitrary history (false, see below). -/
theorem C49_forged_copy_masked_after_set_partial (crc : α → BitVec 32) (v x : α) (c : BitVec 32) (k : Fin 3)
    (s : HTmr.State α) : (HTmr.get crc (HTmr.upset k x c (HTmr.set crc v s))).1 = v := by
  have hv : ∀ i, i ≠ k → ((HTmr.upset k x c (HTmr.set crc v s)).at i).val = v ∧
      ((HTmr.upset k x c (HTmr.set crc v s)).at i).crc = crc v := by
    intro i hi
    unfold HTmr.upset
    rw [at_modify, if_neg hi]
    match i with
    | 0 => exact ⟨rfl, rfl⟩
    | 1 => exact ⟨rfl, rfl⟩
    | 2 => exact ⟨rfl, rfl⟩
  have hh : ∀ i, ((HTmr.upset k x c (HTmr.set crc v s)).at i).health = 1 := by
    intro i
    unfold HTmr.upset
    rw [at_modify]
    split
    all_goals
      match i with
      | 0 => rfl
      | 1 => rfl
      | 2 => rfl
  generalize HTmr.upset k x c (HTmr.set crc v s) = t at hv hh
  have hok : ∀ i, i ≠ k → HTmr.verifyChecksum crc t i = true := by
    intro i hi
    obtain ⟨h1, h2⟩ := hv i hi
    simp [HTmr.verifyChecksum, h1, h2]
  by_cases hk : HTmr.verifyChecksum crc t k = true
  · have hall : ∀ i, HTmr.verifyChecksum crc t i = true := by
      intro i; by_cases h : i = k
      · rw [h]; exact hk
      · exact hok i h
    have hcount : HTmr.validCount crc t ≥ 2 := by
      unfold HTmr.validCount; rw [hall 0, hall 1, hall 2]; decide
    unfold HTmr.get
    rw [penalised_id crc t hall]
    simp only
    rw [if_pos hcount]
    by_cases hd : t.c0.val = t.c1.val ∧ t.c1.val = t.c2.val
    · unfold HTmr.performWeightedVoting
      rw [if_pos hd]
      simp only
      match k, hv with
      | 0, hv => rw [hd.1]; exact (hv 1 (by decide)).1
      | 1, hv => exact (hv 0 (by decide)).1
      | 2, hv => exact (hv 0 (by decide)).1
    · obtain ⟨⟨i, h1, h2⟩, h3⟩ := weighted_vote_spec (HTmr.verifyChecksum crc t) t
        (fun i => by rw [hh i]; norm_num) ⟨0, hall 0⟩ hd
      by_cases hik : i = k
      · exfalso
        -- the damaged copy won: then its support (1) would have to be at least 2
        obtain ⟨j, hj⟩ : ∃ j : Fin 3, j ≠ k := by
          match k with
          | 0 => exact ⟨1, by decide⟩
          | 1 => exact ⟨0, by decide⟩
          | 2 => exact ⟨0, by decide⟩
        have hle := (h3 j (hall j)).1
        rw [← h2, hik] at hle
        have l : List.finRange 3 = [0, 1, 2] := by decide
        unfold support at hle
        rw [l] at hle
        simp only [hall, hh, List.map_cons, List.map_nil, List.sum_cons, List.sum_nil, Bool.true_and,
          decide_eq_true_eq] at hle
        rw [(hv j hj).1] at hle
        have hkv : (t.at k).val ≠ v := by
          intro h
          apply hd
          have all : ∀ i, (t.at i).val = v := by
            intro i; by_cases h' : i = k
            · rw [h']; exact h
            · exact (hv i h').1
          exact ⟨(all 0).trans (all 1).symm, (all 1).trans (all 2).symm⟩
        match k, hv, hkv with
        | 0, hv, hkv =>
          rw [(hv 1 (by decide)).1, (hv 2 (by decide)).1] at hle
          simp only [hkv, Ne.symm hkv, if_true, if_false] at hle
          norm_num at hle
        | 1, hv, hkv =>
          rw [(hv 0 (by decide)).1, (hv 2 (by decide)).1] at hle
          simp only [hkv, Ne.symm hkv, if_true, if_false] at hle
          norm_num at hle
        | 2, hv, hkv =>
          rw [(hv 0 (by decide)).1, (hv 1 (by decide)).1] at hle
          simp only [hkv, Ne.symm hkv, if_true, if_false] at hle
          norm_num at hle
      · rw [← h2]; exact (hv i hik).1
  · -- the damaged copy fails its checksum: only copies holding v vote
    have hkf : HTmr.verifyChecksum crc t k = false := by simpa using hk
    have hcount : HTmr.validCount crc t ≥ 2 := by
      unfold HTmr.validCount
      match k, hok, hkf with
      | 0, hok, hkf => rw [hok 1 (by decide), hok 2 (by decide)]; simp
      | 1, hok, hkf => rw [hok 0 (by decide), hok 2 (by decide)]; simp
      | 2, hok, hkf => rw [hok 0 (by decide), hok 1 (by decide)]; simp
    have hpv := penalised_val crc t
    have hp3 := penalised_health crc t (fun i => by rw [hh i]; norm_num)
    unfold HTmr.get
    simp only
    rw [if_pos hcount]
    generalize HTmr.penalised crc t = u at hpv hp3 ⊢
    by_cases hd : u.c0.val = u.c1.val ∧ u.c1.val = u.c2.val
    · unfold HTmr.performWeightedVoting
      rw [if_pos hd]
      simp only
      match k, hv with
      | 0, hv => rw [hd.1]; exact (hpv 1).trans (hv 1 (by decide)).1
      | 1, hv => exact (hpv 0).trans (hv 0 (by decide)).1
      | 2, hv => exact (hpv 0).trans (hv 0 (by decide)).1
    · obtain ⟨j, hj⟩ : ∃ j : Fin 3, j ≠ k := by
        match k with
        | 0 => exact ⟨1, by decide⟩
        | 1 => exact ⟨0, by decide⟩
        | 2 => exact ⟨0, by decide⟩
      obtain ⟨⟨i, h1, h2⟩, _⟩ := weighted_vote_spec (HTmr.verifyChecksum crc t) u hp3 ⟨j, hok j hj⟩ hd
      have hik : i ≠ k := by intro h; rw [h, hkf] at h1; cases h1
      rw [← h2, hpv i]; exact (hv i hik).1

end health

/-- **C49 is violated.** Copies 0 and 1 are hit (bad checksums) for a few reads, then `repair()` restores
all three copies to 7.  Now two intact copies hold 7, and a single upset forges copy 2 (value 9 with matching
checksum): `get()` returns 9, because the two intact copies have been down-weighted and `repair()` does not
restore their health. -/
theorem C49_forged_copy_violated :
    let crc : Nat → BitVec 32 := fun x => crcOfValue 4 (BitVec.ofNat 32 x)
    let s := HTmr.run crc (HTmr.new crc 7)
      [.upset 0 1 0#32, .upset 1 2 0#32, .get, .get, .get, .get, .get, .get, .get, .repair]
    (∀ i, (s.at i).val = 7 ∧ (s.at i).crc = crc 7) ∧
    (HTmr.get crc (HTmr.upset 2 9 (crc 9) s)).1 = 9 := by
  decide +kernel

end Verif.Props
