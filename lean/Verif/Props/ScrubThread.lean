import Mathlib.Data.Fintype.Basic
import Mathlib.Tactic.FinCases
import Verif.Model.ScrubThread
import Verif.Props.ConvLayer
/-!
C98: the scrubbing thread of `MemoryScrubber`; C99: automatic scrubbing of a model.
-/
namespace Verif.Props.ScrubTP
open Verif Verif.Conv Verif.ScrubT Verif.Props.ConvP

/-! ### C98: start, stop and the scrubbing thread -/

/-- Only thread 0 calls the scrubber. -/
def Single (l : List Act) : Prop := ∀ a ∈ l, a = .callStart 0 ∨ a = .callStop 0 ∨ a = .go 0 ∨ a = .work

/-- The rest of a call: steps of the caller and of the scrubbing thread, no new call. -/
def Rest (l : List Act) : Prop := ∀ a ∈ l, a = .go 0 ∨ a = .work

/-- Invariant of executions in which only thread 0 calls. -/
def Inv (s : St) : Prop :=
  s.crashed = false ∧
  match s.pc 0 with
  | .idle => (s.running = false ∧ s.worker = none) ∨ (s.running = true ∧ ∃ w, s.worker = some w ∧ w ≠ .finished)
  | .start1 => s.running = false ∧ s.worker = none
  | .start2 => s.running = true ∧ s.worker = none
  | .stop1 => s.running = true ∧ ∃ w, s.worker = some w ∧ w ≠ .finished
  | .stop2 => s.running = false ∧ ∃ w, s.worker = some w
  | .stop3 => s.running = false ∧ ∃ w, s.worker = some w

theorem inv_step (s t : St) (a : Act) (ha : a = .callStart 0 ∨ a = .callStop 0 ∨ a = .go 0 ∨ a = .work) (hi : Inv s) (h : s.step a = some t) :
    Inv t := by
  obtain ⟨hc, hp⟩ := hi
  rcases ha with rfl | rfl | rfl | rfl
  · simp only [St.step] at h
    split at h
    · rename_i e
      injection h with h
      rw [e] at hp
      dsimp only at hp
      rcases hp with ⟨h1, h2⟩ | ⟨h1, h2⟩
      · rw [h1] at h; subst h
        exact ⟨hc, by simp [St.to, h1, h2]⟩
      · rw [h1] at h; subst h
        exact ⟨hc, by rw [if_pos rfl, e]; exact Or.inr ⟨h1, h2⟩⟩
    · cases h
  · simp only [St.step] at h
    split at h
    · rename_i e
      injection h with h
      rw [e] at hp
      dsimp only at hp
      rcases hp with ⟨h1, h2⟩ | ⟨h1, h2⟩
      · rw [h1] at h; subst h
        exact ⟨hc, by rw [if_neg (by simp), e]; exact Or.inl ⟨h1, h2⟩⟩
      · rw [h1] at h; subst h
        exact ⟨hc, by simpa [St.to, h1] using h2⟩
    · cases h
  · simp only [St.step] at h
    cases e : s.pc 0 with
    | idle => rw [e] at h; cases h
    | start1 =>
      rw [e] at h hp; injection h with h; subst h
      exact ⟨hc, by simpa [St.to] using hp.2⟩
    | start2 =>
      rw [e] at h hp; injection h with h
      rw [hp.2] at h
      subst h
      exact ⟨hc, by simp [St.to, hp.1]⟩
    | stop1 =>
      rw [e] at h hp; injection h with h; subst h
      obtain ⟨-, w, hw, -⟩ := hp
      exact ⟨hc, by simp [St.to, hw]⟩
    | stop2 =>
      rw [e] at h hp; injection h with h
      obtain ⟨h1, w, hw⟩ := hp
      rw [hw] at h; subst h
      exact ⟨hc, by simp [St.to, h1, hw]⟩
    | stop3 =>
      rw [e] at h hp
      obtain ⟨h1, w, hw⟩ := hp
      rw [hw] at h
      cases w <;> simp only at h
      all_goals first | (injection h with h; subst h; exact ⟨hc, by simp [St.to, h1]⟩) | cases h
  · simp only [St.step] at h
    cases hw : s.worker with
    | none => rw [hw] at h; cases h
    | some w =>
      rw [hw] at h
      have : ∃ w', t = { s with worker := some w', passes := t.passes } ∧ (s.running = true → w' ≠ .finished) := by
        cases w <;> simp only at h
        · injection h with h; subst h
          refine ⟨_, rfl, ?_⟩
          intro hr; simp [Worker.step, hr]
        · injection h with h; subst h
          exact ⟨_, rfl, by intro _; simp [Worker.step]⟩
        · injection h with h; subst h
          exact ⟨_, rfl, by intro _; simp [Worker.step]⟩
        · exact absurd h (by simp)
      obtain ⟨w', ht, hf⟩ := this
      rw [ht]
      refine ⟨hc, ?_⟩
      dsimp only
      cases e : s.pc 0 <;> rw [e] at hp <;> dsimp only at hp ⊢
      · rcases hp with ⟨h1, h2⟩ | ⟨h1, -⟩
        · rw [hw] at h2; cases h2
        · exact Or.inr ⟨h1, w', rfl, hf h1⟩
      · rw [hw] at hp; cases hp.2
      · rw [hw] at hp; cases hp.2
      · exact ⟨hp.1, w', rfl, hf hp.1⟩
      · exact ⟨hp.1, w', rfl⟩
      · exact ⟨hp.1, w', rfl⟩

theorem inv_exec (l : List Act) : ∀ (s t : St), Single l → Inv s → s.exec l = some t → Inv t := by
  induction l with
  | nil => intro s t _ hi h; simp only [St.exec] at h; injection h with h; exact h ▸ hi
  | cons a l ih =>
    intro s t hl hi h
    simp only [St.exec] at h
    cases hs : s.step a with
    | none => rw [hs] at h; cases h
    | some u =>
      rw [hs] at h
      exact ih u t (fun b hb => hl b (List.mem_cons_of_mem _ hb)) (inv_step s u a (hl a (List.mem_cons_self ..)) hi hs) h

theorem inv_init : Inv {} := ⟨rfl, Or.inl ⟨rfl, rfl⟩⟩

theorem rest_single {l : List Act} (h : Rest l) : Single l := fun a ha => (h a ha).elim (fun e => Or.inr (Or.inr (Or.inl e))) (fun e => Or.inr (Or.inr (Or.inr e)))

/-- Started and stopped from one thread, the scrubber never terminates the program, in every interleaving with the scrubbing thread. -/
theorem C98_no_crash (l : List Act) (hl : Single l) (s : St) (h : ({} : St).exec l = some s) : s.crashed = false :=
  (inv_exec l _ _ hl inv_init h).1

/-- In a quiescent stopped state nothing but a new `start` can make a pass happen. -/
theorem quiet (l : List Act) : ∀ (s t : St), Single l → .callStart 0 ∉ l → s.pc 0 = .idle → s.running = false → s.worker = none →
    s.exec l = some t → t.passes = s.passes ∧ t.worker = none := by
  induction l with
  | nil => intro s t _ _ _ _ hw h; simp only [St.exec] at h; injection h with h; subst h; exact ⟨rfl, hw⟩
  | cons a l ih =>
    intro s t hl hn hp hr hw h
    simp only [St.exec] at h
    rcases hl a (List.mem_cons_self ..) with rfl | rfl | rfl | rfl
    · exact absurd (List.mem_cons_self ..) hn
    · have : s.step (.callStop 0) = some s := by simp [St.step, hp, hr]
      rw [this] at h
      exact ih s t (fun b hb => hl b (List.mem_cons_of_mem _ hb)) (fun hb => hn (List.mem_cons_of_mem _ hb)) hp hr hw h
    · have : s.step (.go 0) = none := by simp [St.step, hp]
      rw [this] at h; cases h
    · have : s.step .work = none := by simp [St.step, hw]
      rw [this] at h; cases h

/-- How a call from thread 0 ends. -/
theorem stop_ends (l : List Act) : ∀ (s t : St), Rest l → Inv s → (s.pc 0 = .stop1 ∨ s.pc 0 = .stop2 ∨ s.pc 0 = .stop3) → s.exec l = some t →
    t.pc 0 = .idle → ∃ l1 l2 u, l = l1 ++ l2 ∧ s.exec l1 = some u ∧ u.exec l2 = some t ∧ u.pc 0 = .idle ∧ u.running = false ∧ u.worker = none := by
  induction l with
  | nil => intro s t _ _ hp h hi; simp only [St.exec] at h; injection h with h; subst h; rw [hi] at hp; rcases hp with hp | hp | hp <;> cases hp
  | cons a l ih =>
    intro s t hl hinv hp h hi
    have hra := hl a (List.mem_cons_self ..)
    simp only [St.exec] at h
    cases hs : s.step a with
    | none => rw [hs] at h; cases h
    | some u =>
      rw [hs] at h
      have hu := inv_step s u a (rest_single (l := [a]) (by intro b hb; rw [List.mem_singleton] at hb; subst hb; exact hra) a (List.mem_singleton.2 rfl)) hinv hs
      by_cases hidle : u.pc 0 = .idle
      · refine ⟨[a], l, u, rfl, by simp [St.exec, hs], h, hidle, ?_⟩
        rcases hra with rfl | rfl
        · rcases hp with e | e | e
          · simp only [St.step, e] at hs; injection hs with hs; subst hs; simp [St.to] at hidle
          · have hinv2 := hinv.2
            rw [e] at hinv2
            obtain ⟨h1, w, hw⟩ := hinv2
            simp only [St.step, e, hw] at hs; injection hs with hs; subst hs; simp [St.to] at hidle
          · have hinv2 := hinv.2
            rw [e] at hinv2
            obtain ⟨h1, w, hw⟩ := hinv2
            cases w <;> simp only [St.step, e, hw] at hs
            all_goals first | (injection hs with hs; subst hs; exact ⟨h1, rfl⟩) | cases hs
        · have : u.pc 0 = s.pc 0 := by
            simp only [St.step] at hs
            cases hw : s.worker with
            | none => rw [hw] at hs; cases hs
            | some w =>
              rw [hw] at hs
              cases w <;> simp only at hs <;> first | (injection hs with hs; subst hs; rfl) | cases hs
          rw [this] at hidle; rw [hidle] at hp; rcases hp with hp | hp | hp <;> cases hp
      · have hp' : u.pc 0 = .stop1 ∨ u.pc 0 = .stop2 ∨ u.pc 0 = .stop3 := by
          rcases hra with rfl | rfl
          · rcases hp with e | e | e
            · simp only [St.step, e] at hs; injection hs with hs; subst hs; simp [St.to]
            · have hinv2 := hinv.2
              rw [e] at hinv2
              obtain ⟨h1, w, hw⟩ := hinv2
              simp only [St.step, e, hw] at hs; injection hs with hs; subst hs; simp [St.to]
            · have hinv2 := hinv.2
              rw [e] at hinv2
              obtain ⟨h1, w, hw⟩ := hinv2
              cases w <;> simp only [St.step, e, hw] at hs
              all_goals first | (injection hs with hs; subst hs; exact absurd (by simp [St.to]) hidle) | cases hs
          · have : u.pc 0 = s.pc 0 := by
              simp only [St.step] at hs
              cases hw : s.worker with
              | none => rw [hw] at hs; cases hs
              | some w =>
                rw [hw] at hs
                cases w <;> simp only at hs <;> first | (injection hs with hs; subst hs; rfl) | cases hs
            rw [this]; exact hp
        obtain ⟨l1, l2, v, e, h1, h2, h3⟩ := ih u t (fun b hb => hl b (List.mem_cons_of_mem _ hb)) hu hp' h hi
        exact ⟨a :: l1, l2, v, by rw [e]; rfl, by simp only [St.exec]; rw [hs]; exact h1, h2, h3⟩

/-- For every history of calls from one thread and every interleaving: once a call of `stop` has returned, no scrubbing thread exists, and no pass
begins until `start` is called again. -/
theorem C98_stop (l r m : List Act) (hl : Single l) (hr : Rest r) (hm : Single m) (hn : .callStart 0 ∉ m) (s t u : St)
    (h1 : ({} : St).exec l = some s) (h2 : s.exec (.callStop 0 :: r) = some t) (h3 : t.pc 0 = .idle) (h4 : t.exec m = some u) :
    t.worker = none ∧ u.worker = none ∧ u.passes = t.passes := by
  have hs := inv_exec l _ _ hl inv_init h1
  have ht : t.pc 0 = .idle ∧ t.running = false ∧ t.worker = none := by
    simp only [St.exec] at h2
    by_cases hp : s.pc 0 = .idle
    · have hs2 := hs.2
      rw [hp] at hs2
      rcases hs2 with ⟨e1, e2⟩ | ⟨e1, e2⟩
      · have : s.step (.callStop 0) = some s := by simp [St.step, hp, e1]
        rw [this] at h2
        cases r with
        | nil => simp only [St.exec, Option.bind] at h2; injection h2 with h2; subst h2; exact ⟨h3, e1, e2⟩
        | cons a r =>
          exfalso
          simp only [Option.bind, St.exec] at h2
          rcases hr a (List.mem_cons_self ..) with rfl | rfl
          · have : s.step (.go 0) = none := by simp [St.step, hp]
            rw [this] at h2; cases h2
          · have : s.step .work = none := by simp [St.step, e2]
            rw [this] at h2; cases h2
      · have hst : s.step (.callStop 0) = some (s.to 0 .stop1) := by simp [St.step, hp, e1]
        rw [hst] at h2
        have hi := inv_step s _ _ (Or.inr (Or.inl rfl)) hs hst
        obtain ⟨l1, l2, v, e, g1, g2, g3, g4, g5⟩ := stop_ends r _ t hr hi (Or.inl (by simp [St.to])) h2 h3
        have hl2 : l2 = [] := by
          cases l2 with
          | nil => rfl
          | cons a l2 =>
            exfalso
            simp only [St.exec] at g2
            rcases hr a (by rw [e]; simp) with rfl | rfl
            · have : v.step (.go 0) = none := by simp [St.step, g3]
              rw [this] at g2; cases g2
            · have : v.step .work = none := by simp [St.step, g5]
              rw [this] at g2; cases g2
        subst hl2
        simp only [St.exec] at g2; injection g2 with g2; subst g2
        exact ⟨g3, g4, g5⟩
    · have : s.step (.callStop 0) = none := by simp [St.step, hp]
      rw [this] at h2; cases h2
  obtain ⟨q1, q2⟩ := quiet m t u hm hn ht.1 ht.2.1 ht.2.2 h4
  exact ⟨ht.2.2, q2, q1⟩

/-- Non-vacuity: start, a pass, and a stop while the thread sleeps. -/
def demo : List Act := [.callStart 0, .go 0, .go 0, .work, .work]

example : ∃ s t, ({} : St).exec demo = some s ∧ s.passes = 1 ∧ s.worker = some .sleep ∧
    s.exec (.callStop 0 :: [.go 0, .go 0, .work, .work, .go 0]) = some t ∧ t.pc 0 = .idle ∧ t.worker = none ∧ t.passes = 1 :=
  ⟨_, _, rfl, rfl, rfl, rfl, rfl, rfl, rfl⟩

/-- A call of `stop` waiting in `join` is released after at most three steps of the scrubbing thread, none of which begins a pass. -/
theorem C98_stop_returns (l : List Act) (hl : Single l) (s : St) (h : ({} : St).exec l = some s) (hp : s.pc 0 = .stop3) :
    ∃ n t, n ≤ 3 ∧ s.exec (List.replicate n .work ++ [.go 0]) = some t ∧ t.pc 0 = .idle ∧ t.passes = s.passes := by
  have hi := (inv_exec l _ _ hl inv_init h).2
  rw [hp] at hi
  obtain ⟨hr, w, hw⟩ := hi
  cases w
  · exact ⟨1, _, by omega, by simp [St.exec, St.step, hw, hp, Worker.step, hr, Option.bind]; rfl, by simp [St.to], by simp [St.to]⟩
  · exact ⟨3, _, by omega, by simp [List.replicate, St.exec, St.step, hw, hp, Worker.step, hr, Option.bind]; rfl, by simp [St.to], by simp [St.to]⟩
  · exact ⟨2, _, by omega, by simp [List.replicate, St.exec, St.step, hw, hp, Worker.step, hr, Option.bind]; rfl, by simp [St.to], by simp [St.to]⟩
  · exact ⟨0, _, by omega, by simp [St.exec, St.step, hw, hp, Option.bind]; rfl, by simp [St.to], by simp [St.to]⟩

example : ∃ s, ({} : St).exec (demo ++ [.callStop 0, .go 0, .go 0]) = some s ∧ s.pc 0 = .stop3 := ⟨_, rfl, rfl⟩

/-- While the scrubber runs (a `start` has returned and no `stop` was called since), the next pass is at most three steps of the scrubbing thread away; and exactly
the calls decide whether it runs. -/
theorem C98_keeps_scrubbing (l r : List Act) (hl : Single l) (hr : Rest r) (s t : St) (h1 : ({} : St).exec l = some s)
    (h2 : s.exec (.callStart 0 :: r) = some t) (h3 : t.pc 0 = .idle) :
    t.running = true ∧ ∃ n u, n ≤ 3 ∧ t.exec (List.replicate n .work) = some u ∧ u.passes = t.passes + 1 := by
  have hs := inv_exec l _ _ hl inv_init h1
  have ht := inv_exec (.callStart 0 :: r) s t (by
    intro a ha
    rcases List.mem_cons.1 ha with rfl | ha
    · exact Or.inl rfl
    · exact rest_single hr a ha) hs h2
  -- `running` is true after the call's first step that matters and stays so
  have stays : ∀ (r : List Act) (s t : St), Rest r → Inv s → (s.pc 0 = .start1 ∨ s.pc 0 = .start2 ∨ (s.pc 0 = .idle ∧ s.running = true)) → s.exec r = some t →
      (t.pc 0 = .start1 ∨ t.pc 0 = .start2 ∨ (t.pc 0 = .idle ∧ t.running = true)) := by
    intro r
    induction r with
    | nil => intro s t _ _ hp h; simp only [St.exec] at h; injection h with h; subst h; exact hp
    | cons a r ih =>
      intro s t hr hi hp h
      simp only [St.exec] at h
      cases hst : s.step a with
      | none => rw [hst] at h; cases h
      | some u =>
        rw [hst] at h
        have hu := inv_step s u a (rest_single hr a (List.mem_cons_self ..)) hi hst
        refine ih u t (fun b hb => hr b (List.mem_cons_of_mem _ hb)) hu ?_ h
        rcases hr a (List.mem_cons_self ..) with rfl | rfl
        · rcases hp with e | e | ⟨e, -⟩
          · simp only [St.step, e] at hst; injection hst with hst; subst hst; simp [St.to]
          · have hi2 := hi.2
            rw [e] at hi2
            simp only [St.step, e, hi2.2] at hst; injection hst with hst; subst hst
            simp [St.to, hi2.1]
          · simp [St.step, e] at hst
        · have : u.pc 0 = s.pc 0 ∧ u.running = s.running := by
            simp only [St.step] at hst
            cases hw : s.worker with
            | none => rw [hw] at hst; cases hst
            | some w =>
              rw [hw] at hst
              cases w <;> simp only at hst <;> first | (injection hst with hst; subst hst; exact ⟨rfl, rfl⟩) | cases hst
          rw [this.1, this.2]; exact hp
  have hrun : t.running = true := by
    simp only [St.exec] at h2
    by_cases hp : s.pc 0 = .idle
    · cases e : s.running with
      | true =>
        have hst : s.step (.callStart 0) = some s := by simp [St.step, hp, e]
        rw [hst] at h2
        rcases stays r s t hr hs (Or.inr (Or.inr ⟨hp, e⟩)) h2 with g | g | g
        · rw [h3] at g; cases g
        · rw [h3] at g; cases g
        · exact g.2
      | false =>
        have hst : s.step (.callStart 0) = some (s.to 0 .start1) := by simp [St.step, hp, e]
        rw [hst] at h2
        rcases stays r _ t hr (inv_step s _ _ (Or.inl rfl) hs hst) (Or.inl (by simp [St.to])) h2 with g | g | g
        · rw [h3] at g; cases g
        · rw [h3] at g; cases g
        · exact g.2
    · have : s.step (.callStart 0) = none := by simp [St.step, hp]
      rw [this] at h2; cases h2
  refine ⟨hrun, ?_⟩
  have ht2 := ht.2
  rw [h3] at ht2
  rcases ht2 with ⟨e, -⟩ | ⟨-, w, hw, hf⟩
  · rw [hrun] at e; cases e
  · cases w
    · exact ⟨1, _, by omega, by simp [St.exec, St.step, hw, Worker.step, hrun, Option.bind]; rfl, by simp⟩
    · exact ⟨3, _, by omega, by simp [List.replicate, St.exec, St.step, hw, Worker.step, hrun, Option.bind]; rfl, by simp⟩
    · exact ⟨2, _, by omega, by simp [List.replicate, St.exec, St.step, hw, Worker.step, hrun, Option.bind]; rfl, by simp⟩
    · exact absurd rfl hf

example : ∃ t, ({} : St).exec (.callStart 0 :: [.go 0, .go 0]) = some t ∧ t.pc 0 = .idle := ⟨_, rfl, rfl⟩

/-- Two threads calling `start` at the same time terminate the program. -/
theorem C98_two_starts_limit : ∃ l s, ({} : St).exec l = some s ∧ s.crashed = true ∧ ∀ a ∈ l, a ≠ .callStop 0 ∧ a ≠ .callStop 1 :=
  ⟨[.callStart 0, .callStart 1, .go 0, .go 1, .go 0, .go 1], _, rfl, rfl, by decide⟩

/-- A `start` that overlaps a `stop` of another thread terminates the program. -/
theorem C98_restart_limit : ∃ l s, ({} : St).exec l = some s ∧ s.crashed = true ∧ l.count (.callStart 0) = 1 ∧ l.count (.callStop 0) = 1 ∧ l.count (.callStart 1) = 1 :=
  ⟨[.callStart 0, .go 0, .go 0, .callStop 0, .go 0, .callStart 1, .go 1, .go 1], _, rfl, rfl, by decide, by decide, by decide⟩

/-- With two threads calling `stop`, one call can return while a pass is still under way; if both wait, one of them joins a thread that is gone. -/
theorem C98_two_stops_limit :
    (∃ l s, ({} : St).exec (l ++ [.callStop 1]) = some s ∧ s.pc 1 = .idle ∧ s.worker = some .scrub) ∧
    (∃ l s, ({} : St).exec l = some s ∧ s.crashed = true ∧ Act.callStart 1 ∉ l) :=
  ⟨⟨[.callStart 0, .go 0, .go 0, .work, .callStop 0, .go 0], _, rfl, rfl, rfl⟩,
   ⟨[.callStart 0, .go 0, .go 0, .callStop 0, .callStop 1, .go 0, .go 1, .go 0, .go 1, .work, .go 0, .go 1], _, rfl, rfl, by decide⟩⟩

/-! ### C99: automatic scrubbing of a model -/

/-- The last call of `enableAutoScrubbing` / `disableAutoScrubbing` is `enable`. -/
def lastEnable (l : List MAct) : Bool := (l.filter fun a => a = .enable ∨ a = .disable).getLast? = some .enable

/-- Invariant. -/
def MInv (on : Bool) (s : MSt) : Prop :=
  (s.wait = none → s.phase = .alive → ((s.worker.isSome = true ↔ on = true) ∧ s.worker ≠ some .finished)) ∧
  (s.wait = some .enable → s.phase = .alive ∧ s.worker.isSome = true ∧ on = true) ∧
  (s.wait = some .disable → s.phase = .alive ∧ s.worker.isSome = true ∧ on = false) ∧
  (s.wait = some .destroy → s.phase = .derivedGone ∧ s.worker.isSome = true) ∧
  (s.phase = .alive → s.crashed = false) ∧
  (s.phase = .gone → s.worker = none)

/-- Effect of one step on `lastEnable`. -/
def onStep (on : Bool) : MAct → Bool
  | .enable => true
  | .disable => false
  | _ => on

theorem minv_step (on : Bool) (s t : MSt) (a : MAct) (hi : MInv on s) (h : s.step a = some t) : MInv (onStep on a) t := by
  obtain ⟨i1, i2, i3, i4, i5, i6⟩ := hi
  cases a with
  | enable =>
    simp only [MSt.step] at h
    split at h
    · rename_i hc
      injection h with h
      have j := i1 hc.2 hc.1
      split at h
      · rename_i hw; subst h
        refine ⟨by simp, by simp [hc.1, hw, onStep], by simp, by simp, fun _ => i5 hc.1, ?_⟩
        intro hg; rw [hc.1] at hg; cases hg
      · subst h
        refine ⟨fun _ _ => ⟨by simp [onStep], by simp⟩, by simp [hc.2], by simp [hc.2], by simp [hc.2], fun _ => i5 hc.1, ?_⟩
        intro hg; rw [hc.1] at hg; cases hg
    · cases h
  | disable =>
    simp only [MSt.step] at h
    split at h
    · rename_i hc
      injection h with h
      split at h
      · rename_i hw; subst h
        refine ⟨by simp, by simp, by simp [hc.1, hw, onStep], by simp, fun _ => i5 hc.1, ?_⟩
        intro hg; rw [hc.1] at hg; cases hg
      · rename_i hw; subst h
        refine ⟨fun _ _ => ⟨by simp [onStep, hw], (i1 hc.2 hc.1).2⟩, by simp [hc.2], by simp [hc.2], by simp [hc.2], i5, i6⟩
    · cases h
  | destroyDerived =>
    simp only [MSt.step] at h
    split at h
    · rename_i hc
      injection h with h; subst h
      refine ⟨by simp, by simp [hc.2], by simp [hc.2], by simp [hc.2], by simp, by simp⟩
    · cases h
  | destroyBase =>
    simp only [MSt.step] at h
    split at h
    · rename_i hc
      injection h with h
      split at h
      · rename_i hw; subst h
        refine ⟨by simp, by simp, by simp, by simp [hc.1, hw], by simp [hc.1], ?_⟩
        intro hg; rw [hc.1] at hg; cases hg
      · rename_i hw; subst h
        refine ⟨by simp, by simp [hc.2], by simp [hc.2], by simp [hc.2], by simp, ?_⟩
        intro _; simpa using hw
    · cases h
  | join =>
    simp only [MSt.step] at h
    split at h
    · cases hw : s.wait with
      | none => rw [hw] at h; cases h
      | some n =>
        rw [hw] at h
        cases n with
        | enable =>
          injection h with h; subst h
          have j := i2 hw
          refine ⟨fun _ _ => ⟨by simp [onStep, j.2.2], by simp⟩, by simp, by simp, by simp, fun _ => i5 j.1, ?_⟩
          intro hg; rw [j.1] at hg; cases hg
        | disable =>
          injection h with h; subst h
          have j := i3 hw
          refine ⟨fun _ _ => ⟨by simp [onStep, j.2.2], by simp⟩, by simp, by simp, by simp, fun _ => i5 j.1, ?_⟩
          intro _; rfl
        | destroy =>
          injection h with h; subst h
          refine ⟨by simp, by simp, by simp, by simp, by simp, fun _ => rfl⟩
    · cases h
  | work =>
    simp only [MSt.step] at h
    cases hw : s.worker with
    | none => rw [hw] at h; cases h
    | some w =>
      rw [hw] at h
      have hne : w ≠ .finished := by rintro rfl; simp at h
      have : ∃ w' c, t = { s with worker := some w', repairs := t.repairs, crashed := c } ∧ (s.phase = .alive → c = s.crashed) ∧ (s.wait = none → w' ≠ .finished) := by
        cases w <;> simp only at h
        · injection h with h
          split at h
          · subst h; refine ⟨_, _, rfl, by intro hp; simp [hp], ?_⟩
            rename_i e; intro _; rw [e]; simp
          · subst h
            refine ⟨_, s.crashed, rfl, fun _ => rfl, ?_⟩
            intro hn; rename_i e; simp [Worker.step, hn] at e
        · injection h with h; simp only [Worker.step] at h; subst h
          exact ⟨_, s.crashed, rfl, fun _ => rfl, by simp⟩
        · injection h with h; simp only [Worker.step] at h; subst h
          exact ⟨_, s.crashed, rfl, fun _ => rfl, by simp⟩
        · exact absurd rfl hne
      obtain ⟨w', c, ht, hc, hf⟩ := this
      rw [ht]
      rw [hw] at i1 i2 i3 i4 i6
      refine ⟨?_, ?_, ?_, ?_, ?_, ?_⟩ <;> dsimp only [onStep]
      · intro a b; have := (i1 a b).1; exact ⟨by simpa using this, by simpa using hf a⟩
      · intro a; have := i2 a; simpa using this
      · intro a; have := i3 a; simpa using this
      · intro a; have := i4 a; simpa using this
      · intro a; rw [hc a]; exact i5 a
      · intro a; have := i6 a; cases this

theorem lastEnable_append (l : List MAct) (a : MAct) : lastEnable (l ++ [a]) = onStep (lastEnable l) a := by
  unfold lastEnable
  rw [List.filter_append]
  cases a <;> simp [onStep]

theorem exec_append (l m : List MAct) : ∀ s : MSt, s.exec (l ++ m) = (s.exec l).bind fun t => t.exec m := by
  induction l with
  | nil => intro s; rfl
  | cons a l ih =>
    intro s
    simp only [List.cons_append, MSt.exec]
    cases s.step a with
    | none => rfl
    | some t => simp only [Option.bind]; exact ih t

theorem minv_exec (l : List MAct) (s : MSt) (h : ({} : MSt).exec l = some s) : MInv (lastEnable l) s := by
  induction l using List.reverseRecOn generalizing s with
  | nil => simp only [MSt.exec] at h; injection h with h; subst h; simp [MInv, lastEnable]
  | append_singleton l a ih =>
    rw [exec_append] at h
    cases hl : ({} : MSt).exec l with
    | none => rw [hl] at h; cases h
    | some u =>
      rw [hl] at h
      simp only [Option.bind, MSt.exec] at h
      cases hs : u.step a with
      | none => rw [hs] at h; cases h
      | some v =>
        rw [hs] at h; injection h with h; subst h
        rw [lastEnable_append]
        exact minv_step _ u v a (ih u hl) hs

/-- While the model lives, the scrubbing thread exists exactly if the last of the two calls was `enableAutoScrubbing`, and then the next repair is at most three steps
of that thread away. Enabling twice leaves one scrubber. -/
theorem C99_enabled (l : List MAct) (s : MSt) (h : ({} : MSt).exec l = some s) (hp : s.phase = .alive) (hw : s.wait = none) :
    s.crashed = false ∧ (s.worker.isSome = true ↔ lastEnable l = true) ∧
    (lastEnable l = true → ∃ n t, n ≤ 3 ∧ s.exec (List.replicate n .work) = some t ∧ t.repairs = s.repairs + 1 ∧ t.crashed = false) ∧
    (lastEnable l = false → s.step .work = none) := by
  obtain ⟨i1, -, -, -, i5, -⟩ := minv_exec l s h
  obtain ⟨j1, j2⟩ := i1 hw hp
  have hc := i5 hp
  refine ⟨hc, j1, ?_, ?_⟩
  · intro hl
    have := j1.2 hl
    cases hs : s.worker with
    | none => rw [hs] at this; cases this
    | some w =>
      cases w
      · exact ⟨1, _, by omega, by simp [MSt.exec, MSt.step, hs, Worker.step, hw, Option.bind]; rfl, by simp, by simp [hc, hp]⟩
      · exact ⟨3, _, by omega, by simp [List.replicate, MSt.exec, MSt.step, hs, Worker.step, hw, Option.bind]; rfl, by simp, by simp [hc, hp]⟩
      · exact ⟨2, _, by omega, by simp [List.replicate, MSt.exec, MSt.step, hs, Worker.step, hw, Option.bind]; rfl, by simp, by simp [hc, hp]⟩
      · exact absurd hs j2
  · intro hl
    cases hs : s.worker with
    | none => simp [MSt.step, hs]
    | some w => rw [hs] at j1; have := j1.1 rfl; rw [hl] at this; cases this

example : ∃ s, ({} : MSt).exec [.enable, .work, .enable, .work, .work, .work, .join] = some s ∧ s.phase = .alive ∧ s.wait = none ∧ s.repairs = 1 :=
  ⟨_, rfl, rfl, rfl, rfl⟩

/-- A model whose scrubbing was disabled (or never enabled) is destroyed safely: afterwards nothing calls `repair()`. -/
theorem C99_disable_then_destroy (l m : List MAct) (s t : MSt) (h : ({} : MSt).exec l = some s) (hp : s.phase = .alive) (hl : lastEnable l = false)
    (ht : s.exec (.destroyDerived :: m) = some t) : t.crashed = false ∧ t.repairs = s.repairs := by
  obtain ⟨i1, -, -, -, i5, -⟩ := minv_exec l s h
  simp only [MSt.exec] at ht
  by_cases hw : s.wait = none
  · have hs : s.worker = none := by
      cases hs : s.worker with
      | none => rfl
      | some w => have := (i1 hw hp).1; rw [hs, hl] at this; simp at this
    have hst : s.step .destroyDerived = some { s with phase := .derivedGone } := by simp [MSt.step, hp, hw]
    rw [hst] at ht
    have key : ∀ (m : List MAct) (u : MSt), u.phase ≠ .alive → u.worker = none → u.exec m = some t → t.crashed = u.crashed ∧ t.repairs = u.repairs := by
      intro m
      induction m with
      | nil => intro u _ _ h; simp only [MSt.exec] at h; injection h with h; subst h; exact ⟨rfl, rfl⟩
      | cons a m ih =>
        intro u hu hwk h
        simp only [MSt.exec] at h
        cases hsa : u.step a with
        | none => rw [hsa] at h; cases h
        | some v =>
          rw [hsa] at h
          have : v.phase ≠ .alive ∧ v.worker = none ∧ v.crashed = u.crashed ∧ v.repairs = u.repairs := by
            cases a with
            | enable => simp [MSt.step, hu] at hsa
            | disable => simp [MSt.step, hu] at hsa
            | destroyDerived => simp [MSt.step, hu] at hsa
            | destroyBase =>
              simp only [MSt.step] at hsa
              split at hsa
              · rw [if_neg (by simp [hwk])] at hsa; injection hsa with hsa; subst hsa; exact ⟨by simp, hwk, rfl, rfl⟩
              · cases hsa
            | join => simp [MSt.step, hwk] at hsa
            | work => simp [MSt.step, hwk] at hsa
          obtain ⟨q1, q2⟩ := ih v this.1 this.2.1 h
          exact ⟨q1.trans this.2.2.1, q2.trans this.2.2.2⟩
    have := key m { s with phase := .derivedGone } (by simp) hs ht
    exact ⟨this.1.trans (i5 hp), this.2⟩
  · have : s.step .destroyDerived = none := by simp [MSt.step, hw]
    rw [this] at ht; cases ht

example : ∃ s t, ({} : MSt).exec [.enable, .work, .disable, .work, .work, .work, .join] = some s ∧ s.phase = .alive ∧
    lastEnable [.enable, .work, .disable, .work, .work, .work, .join] = false ∧ s.exec [.destroyDerived, .destroyBase] = some t :=
  ⟨_, _, rfl, rfl, by decide, rfl⟩

/-- A model destroyed with scrubbing enabled can crash, whatever its history: the derived part is gone while the thread still runs and calls the pure virtual
`repair()`. -/
theorem C99_destroy_violated (l : List MAct) (s : MSt) (h : ({} : MSt).exec l = some s) (hp : s.phase = .alive) (hw : s.wait = none) (hl : lastEnable l = true) :
    ∃ m t, s.exec (.destroyDerived :: m) = some t ∧ t.crashed = true := by
  obtain ⟨i1, -⟩ := minv_exec l s h
  obtain ⟨j1, j2⟩ := i1 hw hp
  have := j1.2 hl
  cases hs : s.worker with
  | none => rw [hs] at this; cases this
  | some w =>
    cases w
    · exact ⟨[.work], _, by simp [MSt.exec, MSt.step, hs, hp, Worker.step, hw, Option.bind]; rfl, by simp⟩
    · exact ⟨[.work, .work, .work], _, by simp [MSt.exec, MSt.step, hs, hp, Worker.step, hw, Option.bind]; rfl, by simp⟩
    · exact ⟨[.work, .work], _, by simp [MSt.exec, MSt.step, hs, hp, Worker.step, hw, Option.bind]; rfl, by simp⟩
    · exact absurd hs j2

example : ∃ s, ({} : MSt).exec [.enable] = some s ∧ s.phase = .alive ∧ s.wait = none ∧ lastEnable [.enable] = true := ⟨_, rfl, rfl, rfl, by decide⟩

/-! #### Repair concurrent with reads and updates -/

variable {α : Type}

/-- A read of a parameter with at most one struck copy is right whatever the repair has done in between: the reads see the struck state up to some moment and the
repaired one afterwards. -/
theorem C99_read_during_repair (eq : α → α → Bool) (heq : IsEq eq) (v x : α) (k : Fin 3) (t0 : Nat) (m : Nat → Tri α)
    (hm : ∀ i, m i = if i < t0 then (Tri.set v).strike k x else Tri.set v) : getReads eq m = v := by
  have hr : ∀ a : α, eq a a = true := fun a => (heq a a).2 rfl
  by_cases hx : x = v
  · subst hx
    have : ∀ i, m i = Tri.set x := by
      intro i; rw [hm i]; split
      · fin_cases k <;> rfl
      · rfl
    simp [getReads, this, Tri.set, hr]
  · have h1 : eq x v = false := Bool.eq_false_iff.2 fun e => hx ((heq _ _).1 e)
    have h2 : eq v x = false := Bool.eq_false_iff.2 fun e => hx ((heq _ _).1 e).symm
    unfold getReads
    simp only [hm]
    fin_cases k
    · have a0 : (if 0 < t0 then (Tri.set v).strike 0 x else Tri.set v).v0 = if 0 < t0 then x else v := by split <;> rfl
      have b : ∀ i, (if i < t0 then (Tri.set v).strike 0 x else Tri.set v).v0 = if i < t0 then x else v := by intro i; split <;> rfl
      have c : ∀ i, (if i < t0 then (Tri.set v).strike 0 x else Tri.set v).v1 = v := by intro i; split <;> rfl
      have e : ∀ i, (if i < t0 then (Tri.set v).strike 0 x else Tri.set v).v2 = v := by intro i; split <;> rfl
      show (if eq (if 0 < t0 then (Tri.set v).strike 0 x else Tri.set v).v0 (if 1 < t0 then (Tri.set v).strike 0 x else Tri.set v).v1 = true then
        (if 2 < t0 then (Tri.set v).strike 0 x else Tri.set v).v0 else if eq (if 2 < t0 then (Tri.set v).strike 0 x else Tri.set v).v0
        (if 3 < t0 then (Tri.set v).strike 0 x else Tri.set v).v2 = true then (if 4 < t0 then (Tri.set v).strike 0 x else Tri.set v).v0 else
        if eq (if 4 < t0 then (Tri.set v).strike 0 x else Tri.set v).v1 (if 5 < t0 then (Tri.set v).strike 0 x else Tri.set v).v2 = true then
        (if 6 < t0 then (Tri.set v).strike 0 x else Tri.set v).v1 else (if 6 < t0 then (Tri.set v).strike 0 x else Tri.set v).v0) = v
      rw [b, c, b, b, e, c, e, c, hr v]
      by_cases g0 : 0 < t0
      · rw [if_pos g0, h1]
        by_cases g2 : 2 < t0
        · rw [if_pos g2, h1]; simp
        · rw [if_neg g2, hr v, if_neg (by omega : ¬ 4 < t0)]; simp
      · rw [if_neg g0, hr v, if_neg (by omega : ¬ 2 < t0)]; simp
    · have b : ∀ i, (if i < t0 then (Tri.set v).strike 1 x else Tri.set v).v0 = v := by intro i; split <;> rfl
      have e : ∀ i, (if i < t0 then (Tri.set v).strike 1 x else Tri.set v).v2 = v := by intro i; split <;> rfl
      show (if eq (if 0 < t0 then (Tri.set v).strike 1 x else Tri.set v).v0 _ = true then
        (if 2 < t0 then (Tri.set v).strike 1 x else Tri.set v).v0 else if eq (if 2 < t0 then (Tri.set v).strike 1 x else Tri.set v).v0
        (if 3 < t0 then (Tri.set v).strike 1 x else Tri.set v).v2 = true then (if 4 < t0 then (Tri.set v).strike 1 x else Tri.set v).v0 else _) = v
      rw [b, b, e, b, hr v]; simp
    · have b : ∀ i, (if i < t0 then (Tri.set v).strike 2 x else Tri.set v).v0 = v := by intro i; split <;> rfl
      have c : ∀ i, (if i < t0 then (Tri.set v).strike 2 x else Tri.set v).v1 = v := by intro i; split <;> rfl
      show (if eq (if 0 < t0 then (Tri.set v).strike 2 x else Tri.set v).v0 (if 1 < t0 then (Tri.set v).strike 2 x else Tri.set v).v1 = true then
        (if 2 < t0 then (Tri.set v).strike 2 x else Tri.set v).v0 else _) = v
      rw [b, c, b, hr v]; simp

/-- Such snapshots are what a running repair produces: struck, then repaired. -/
theorem C99_repair_snapshots (eq : α → α → Bool) (heq : IsEq eq) (v x w : α) (k : Fin 3) :
    ∃ n0, ∀ n, ((⟨(Tri.set v).strike k x, none, 0, 0⟩ : Race α).exec eq w (List.replicate n true)).mem =
      if n < n0 then (Tri.set v).strike k x else Tri.set v := by
  have hg : ((Tri.set v).strike k x).get eq = v := get_strike eq heq v x k
  refine ⟨k.val + 2, ?_⟩
  have key : ∀ n, (⟨(Tri.set v).strike k x, none, 0, 0⟩ : Race α).exec eq w (List.replicate n true) =
      ⟨if n < k.val + 2 then (Tri.set v).strike k x else Tri.set v, if n = 0 then none else some v, min n 4, 0⟩ := by
    intro n
    induction n with
    | zero => simp [Race.exec]
    | succ n ih =>
      rw [show List.replicate (n + 1) true = List.replicate n true ++ [true] from List.replicate_succ' ..]
      unfold Race.exec at ih ⊢
      rw [List.foldl_append, ih]
      simp only [List.foldl, Race.step, if_true]
      have hk := k.isLt
      rcases Nat.lt_or_ge n 4 with h | h
      · have : n = 0 ∨ n = 1 ∨ n = 2 ∨ n = 3 := by omega
        rcases this with rfl | rfl | rfl | rfl <;> fin_cases k <;> simp [put, Tri.strike, Tri.set, Tri.get, (heq v v).2 rfl] at hg ⊢ <;> try exact hg
      · have e : min n 4 = 4 := by omega
        have e' : min (n + 1) 4 = 4 := by omega
        rw [e, e', if_neg (by omega), if_neg (by omega), if_neg (by omega), if_neg (by omega), if_neg (by omega), if_neg (by omega)]
  intro n
  rw [key n]

/-- A scrubbing pass that overlaps an update can undo it completely: the new value is gone from all three copies, and nothing is reported. -/
theorem C99_lost_update_violated (eq : α → α → Bool) (heq : IsEq eq) (v w : α) :
    let r := (⟨Tri.set v, none, 0, 0⟩ : Race α).exec eq w [true, false, false, false, true, true, true]
    r.rpc = 4 ∧ r.upc = 3 ∧ r.mem = Tri.set v := by
  simp [Race.exec, Race.step, put, Tri.set, Tri.get, (heq v v).2 rfl]

example : ((⟨Tri.set 1, none, 0, 0⟩ : Race Nat).exec (· == ·) 2 [true, false, false, false, true, true, true]).mem = Tri.set 1 :=
  (C99_lost_update_violated _ (fun a b => by simp) 1 2).2.2

/-- In no interleaving does a value appear that is neither the old nor the new one; if the update is not overlapped it takes effect. -/
theorem C99_race_values (eq : α → α → Bool) (v w : α) (l : List Bool) :
    let r := (⟨Tri.set v, none, 0, 0⟩ : Race α).exec eq w l
    (r.mem.v0 = v ∨ r.mem.v0 = w) ∧ (r.mem.v1 = v ∨ r.mem.v1 = w) ∧ (r.mem.v2 = v ∨ r.mem.v2 = w) ∧ (r.mem.get eq = v ∨ r.mem.get eq = w) := by
  have gin : ∀ t : Tri α, (t.v0 = v ∨ t.v0 = w) → (t.v1 = v ∨ t.v1 = w) → (t.v2 = v ∨ t.v2 = w) → (t.get eq = v ∨ t.get eq = w) := by
    intro t h0 h1 h2
    unfold Tri.get
    split
    · exact h0
    · split
      · exact h0
      · split
        · exact h1
        · exact h0
  have key : ∀ l : List Bool, let r := (⟨Tri.set v, none, 0, 0⟩ : Race α).exec eq w l
      (r.mem.v0 = v ∨ r.mem.v0 = w) ∧ (r.mem.v1 = v ∨ r.mem.v1 = w) ∧ (r.mem.v2 = v ∨ r.mem.v2 = w) ∧ (∀ c, r.correct = some c → c = v ∨ c = w) := by
    intro l
    induction l using List.reverseRecOn with
    | nil => simp [Race.exec, Tri.set]
    | append_singleton l b ih =>
      dsimp only at ih ⊢
      rw [show Race.exec eq w ⟨Tri.set v, none, 0, 0⟩ (l ++ [b]) = Race.step eq w (Race.exec eq w ⟨Tri.set v, none, 0, 0⟩ l) b by simp [Race.exec]]
      generalize Race.exec eq w ⟨Tri.set v, none, 0, 0⟩ l = r at ih
      obtain ⟨h0, h1, h2, hc⟩ := ih
      have hput : ∀ n c, (c = v ∨ c = w) → ((put r.mem n c).v0 = v ∨ (put r.mem n c).v0 = w) ∧ ((put r.mem n c).v1 = v ∨ (put r.mem n c).v1 = w) ∧
          ((put r.mem n c).v2 = v ∨ (put r.mem n c).v2 = w) := by
        intro n c hcc
        unfold put
        split
        · exact ⟨hcc, h1, h2⟩
        · split
          · exact ⟨h0, hcc, h2⟩
          · split
            · exact ⟨h0, h1, hcc⟩
            · exact ⟨h0, h1, h2⟩
      cases b with
      | true =>
        simp only [Race.step, if_true]
        split
        · exact ⟨h0, h1, h2, by intro c e; injection e with e; subst e; exact gin _ h0 h1 h2⟩
        · split
          · cases e : r.correct with
            | none => exact ⟨h0, h1, h2, fun c e' => hc c (by simp [e] at e')⟩
            | some c =>
              obtain ⟨p0, p1, p2⟩ := hput (r.rpc - 1) c (hc c e)
              exact ⟨p0, p1, p2, by intro c' e'; exact hc c' (by simpa [e] using e')⟩
          · exact ⟨h0, h1, h2, hc⟩
      | false =>
        simp only [Race.step, Bool.false_eq_true, if_false]
        split
        · obtain ⟨p0, p1, p2⟩ := hput r.upc w (Or.inr rfl)
          exact ⟨p0, p1, p2, hc⟩
        · exact ⟨h0, h1, h2, hc⟩
  obtain ⟨h0, h1, h2, -⟩ := key l
  exact ⟨h0, h1, h2, gin _ h0 h1 h2⟩

/-- One after the other, repair and update leave the new value in all copies, in either order. -/
theorem C99_sequential (eq : α → α → Bool) (heq : IsEq eq) (v w : α) :
    ((⟨Tri.set v, none, 0, 0⟩ : Race α).exec eq w ([true, true, true, true] ++ [false, false, false])).mem = Tri.set w ∧
    ((⟨Tri.set v, none, 0, 0⟩ : Race α).exec eq w ([false, false, false] ++ [true, true, true, true])).mem = Tri.set w := by
  simp [Race.exec, Race.step, put, Tri.set, Tri.get, (heq v v).2 rfl, (heq w w).2 rfl]

example : (1 : Nat) ≠ 2 ∧ IsEq (fun a b : Nat => a == b) := ⟨by decide, fun a b => by simp⟩

end Verif.Props.ScrubTP
