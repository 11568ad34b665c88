import Verif.Model.AdaptiveFramework
import Mathlib.Tactic.Linarith
import Mathlib.Tactic.NormNum
import Mathlib.Tactic.Positivity
import Mathlib.Tactic.ByContra
import Mathlib.Tactic.FinCases
/-!
Property C43: environment detection, hysteresis, notification and settings of the adaptive framework.
-/
namespace Verif.Props.Adaptive
open Verif.Adaptive

/-! ### Specification -/

/-- The severity level of a score: how many of the six thresholds it has reached. -/
def level (score : ℚ) : Nat := [1 / 100, 1 / 10, 1 / 2, 1, 5, 20].countP (fun t : ℚ => t ≤ score)

/-- `a` protects at least as strongly as `b`. -/
def Stronger (a b : Settings) : Prop :=
  a.scrubMs ≤ b.scrubMs ∧ a.errorThreshold ≤ b.errorThreshold ∧ (b.weightedVoting → a.weightedVoting) ∧ (b.ecc → a.ecc) ∧
  b.redundancy ≤ a.redundancy ∧ b.checkpoint ≤ a.checkpoint

instance (a b : Settings) : Decidable (Stronger a b) := by unfold Stronger; infer_instance

/-- The notifications received by listener `i`, oldest first. -/
def received (s : State) (i : Nat) : List Env := (s.log.filter (fun x => x.1 = i)).map (·.2)

/-- The environment an automatic check asks for. -/
def wanted (r : Report) : Nat := if r.rate > 10 then 6 else level (severity r)

/-- Levels apart. -/
def apart (a b : Nat) : Nat := max a b - min a b

/-! ### Detection -/

theorem detect_level (x : ℚ) : (detect x).val = level x := by
  unfold detect level
  simp only [List.countP_cons, List.countP_nil, decide_eq_true_eq]
  split
  · rw [if_neg (by linarith), if_neg (by linarith), if_neg (by linarith), if_neg (by linarith), if_neg (by linarith), if_neg (by linarith)]; rfl
  split
  · rw [if_neg (by linarith), if_neg (by linarith), if_neg (by linarith), if_neg (by linarith), if_neg (by linarith), if_pos (by linarith)]; rfl
  split
  · rw [if_neg (by linarith), if_neg (by linarith), if_neg (by linarith), if_neg (by linarith), if_pos (by linarith), if_pos (by linarith)]; rfl
  split
  · rw [if_neg (by linarith), if_neg (by linarith), if_neg (by linarith), if_pos (by linarith), if_pos (by linarith), if_pos (by linarith)]; rfl
  split
  · rw [if_neg (by linarith), if_neg (by linarith), if_pos (by linarith), if_pos (by linarith), if_pos (by linarith), if_pos (by linarith)]; rfl
  split
  · rw [if_neg (by linarith), if_pos (by linarith), if_pos (by linarith), if_pos (by linarith), if_pos (by linarith), if_pos (by linarith)]; rfl
  · rw [if_pos (by linarith), if_pos (by linarith), if_pos (by linarith), if_pos (by linarith), if_pos (by linarith), if_pos (by linarith)]; rfl

theorem level_le (x : ℚ) : level x ≤ 6 := by rw [← detect_level]; have := (detect x).isLt; omega

theorem updateStrategy_fields (s : State) : (updateStrategy s).env = s.env ∧ (updateStrategy s).mode = s.mode ∧
    (updateStrategy s).table = s.table ∧ (updateStrategy s).listeners = s.listeners ∧
    (updateStrategy s).lastCheck = s.lastCheck ∧ (updateStrategy s).lastChange = s.lastChange ∧
    (updateStrategy s).errors = s.errors ∧ (updateStrategy s).nextId = s.nextId ∧ (updateStrategy s).log = s.log := by
  unfold updateStrategy
  cases s.table s.env with
  | some x => exact ⟨rfl, rfl, rfl, rfl, rfl, rfl, rfl, rfl, rfl⟩
  | none =>
    cases s.table 6 with
    | some x => exact ⟨rfl, rfl, rfl, rfl, rfl, rfl, rfl, rfl, rfl⟩
    | none => exact ⟨rfl, rfl, rfl, rfl, rfl, rfl, rfl, rfl, rfl⟩

theorem setEnv_env (s : State) (e : Env) : (setEnvironment s e).env = e := by
  unfold setEnvironment
  by_cases h : s.env ≠ e
  · rw [if_pos h]; simp only; exact (updateStrategy_fields _).1
  · rw [if_neg h]; simpa using h

theorem setEnv_fields (s : State) (e : Env) : (setEnvironment s e).mode = s.mode ∧ (setEnvironment s e).table = s.table ∧
    (setEnvironment s e).listeners = s.listeners ∧ (setEnvironment s e).lastCheck = s.lastCheck ∧
    (setEnvironment s e).lastChange = s.lastChange ∧ (setEnvironment s e).errors = s.errors ∧
    (setEnvironment s e).nextId = s.nextId ∧
    (setEnvironment s e).log = s.log ++ (if s.env ≠ e then s.listeners.map (fun i => (i, e)) else []) := by
  unfold setEnvironment
  by_cases h : s.env ≠ e
  · rw [if_pos h, if_pos h]
    obtain ⟨_, h2, h3, h4, h5, h6, h7, h8, h9⟩ := updateStrategy_fields { s with env := e }
    simp only
    exact ⟨h2, h3, h4, h5, h6, h7, h8, by rw [h9, h4]⟩
  · rw [if_neg h, if_neg h]; simp

/-- Outcome of an automatic check: the environment afterwards. -/
theorem autoDetect_env (s : State) (r : Report) : ((autoDetect s r).env).val =
    if s.mode = true ∧ 10000000000 ≤ r.now - s.lastCheck ∧
       (r.rate > 10 ∨ 2 ≤ apart (wanted r) s.env.val ∨ 300000000000 < r.now - s.lastChange)
    then wanted r else s.env.val := by
  unfold autoDetect
  cases hm : s.mode with
  | false => simp
  | true =>
    simp only [Bool.not_true, Bool.false_eq_true, if_false, true_and]
    by_cases hc : r.now - s.lastCheck < 10000000000
    · rw [if_pos hc, if_neg (by omega)]
    · rw [if_neg hc]
      by_cases hr : r.rate > 10
      · rw [if_pos hr, if_pos ⟨by omega, Or.inl hr⟩, setEnv_env]
        unfold wanted; rw [if_pos hr]; rfl
      · rw [if_neg hr]
        have hw : wanted r = (detect (severity r)).val := by unfold wanted; rw [if_neg hr, detect_level]
        rw [hw]
        generalize detect (severity r) = d
        by_cases hd : d ≠ s.env
        · rw [if_pos hd]
          have hap : apart d.val s.env.val = levelDiff d s.env := by unfold apart levelDiff; omega
          rw [hap]
          by_cases hh : levelDiff d s.env ≥ 2 ∨ r.now - s.lastChange > 300000000000
          · rw [if_pos hh, if_pos ⟨by omega, Or.inr hh⟩]
            simp only [setEnv_env]
          · rw [if_neg hh, if_neg]
            rintro ⟨_, h | h⟩
            · exact hr h
            · exact hh h
        · rw [if_neg hd]
          have hd' : d = s.env := by simpa using hd
          simp [hd']

/-- **C43 (when the environment changes automatically).** In every state and for every report, an automatic check moves to
the wanted environment (EXTREME above ten errors per second, else the severity level) exactly if adaptive mode is on, at
least 10 s have passed since the last check, and either the rate is above ten, or the wanted level is at least two levels
away, or the last detected change is more than five minutes ago; otherwise the environment stays. -/
theorem C43_transition (s : State) (r : Report) :
    ((autoDetect s r).env).val =
      if s.mode = true ∧ 10000000000 ≤ r.now - s.lastCheck ∧
         (r.rate > 10 ∨ 2 ≤ apart (wanted r) s.env.val ∨ 300000000000 < r.now - s.lastChange)
      then wanted r else s.env.val := autoDetect_env s r

/-- **C43 (severity of the error patterns).** For reports below eleven errors per second: if all errors are of one kind, the
wanted level is that of the rate times 1 (single bit), 2 (adjacent), 3 (row/column), 4 (word), 5 (multi-word), 2.5 (unknown). -/
theorem C43_pattern_weights (now : Int) (rate : ℚ) (hr : rate ≤ 10) (p : Fin 6) :
    wanted ⟨now, rate, fun i => if i = p then 1 else 0⟩ = level (rate * ([1, 2, 3, 4, 5, 5 / 2].getD p.val 0)) := by
  unfold wanted
  rw [if_neg (by simpa using hr)]
  congr 1
  fin_cases p <;> simp [severity, weight] <;> linarith

/-- **C43 (severity is monotone).** With the same non-negative pattern distribution, a higher error rate never asks for a
milder environment. -/
theorem C43_monotone (r r' : Report) (hd : r.dist = r'.dist) (hn : ∀ i, 0 ≤ r.dist i) (hr : r.rate ≤ r'.rate) :
    wanted r ≤ wanted r' := by
  unfold wanted
  by_cases h' : r'.rate > 10
  · rw [if_pos h']; split
    · exact Nat.le_refl _
    · exact level_le _
  · rw [if_neg h', if_neg (by linarith)]
    have hs : severity r ≤ severity r' := by
      unfold severity
      rw [← hd]
      apply mul_le_mul_of_nonneg_left hr
      have h0 := hn 0; have h1 := hn 1; have h2 := hn 2; have h3 := hn 3; have h4 := hn 4; have h5 := hn 5
      simp only [weight]
      linarith
    unfold level
    apply List.countP_mono_left
    intro t _ ht
    simp only [decide_eq_true_eq] at ht ⊢
    exact le_trans ht hs

/-- **C43 (default settings get stronger).** Among the shipped settings, a harsher environment never has weaker
protection in any respect. -/
theorem C43_settings_monotone : ∀ a b : Env, a ≤ b → Stronger (defaults b) (defaults a) := by
  intro a b h
  fin_cases a <;> fin_cases b <;> first
    | (exfalso; revert h; decide)
    | (simp only [Stronger, defaults]; norm_num)

/-! ### Reachable states -/

/-- Invariant of histories. -/
structure Inv (s : State) : Prop where
  table : ∀ e, (s.table e).isSome
  current : s.table s.env = some s.current
  nodup : s.listeners.Nodup
  fresh : ∀ i ∈ s.listeners, i < s.nextId

theorem inv_strategy {s : State} (ht : ∀ e, (s.table e).isSome) (hn : s.listeners.Nodup) (hf : ∀ i ∈ s.listeners, i < s.nextId) :
    Inv (updateStrategy s) := by
  obtain ⟨h1, h2, h3, h4, h5, h6, h7, h8, h9⟩ := updateStrategy_fields s
  refine ⟨by rw [h3]; exact ht, ?_, by rw [h4]; exact hn, by rw [h4, h8]; exact hf⟩
  rw [h3, h1]
  unfold updateStrategy
  cases e : s.table s.env with
  | some x => rfl
  | none => have := ht s.env; rw [e] at this; simp at this

theorem inv_log {s : State} (h : Inv s) (l : List (Nat × Env)) : Inv { s with log := l } := ⟨h.table, h.current, h.nodup, h.fresh⟩

theorem inv_setEnv {s : State} (h : Inv s) (e : Env) : Inv (setEnvironment s e) := by
  unfold setEnvironment
  by_cases hh : s.env ≠ e
  · rw [if_pos hh]
    exact inv_log (inv_strategy (s := { s with env := e }) h.table h.nodup h.fresh) _
  · rw [if_neg hh]; exact h

theorem inv_auto {s : State} (h : Inv s) (r : Report) : Inv (autoDetect s r) := by
  unfold autoDetect
  have h1 : Inv { s with lastCheck := r.now } := ⟨h.table, h.current, h.nodup, h.fresh⟩
  split
  · exact h
  split
  · exact h
  simp only
  split
  · exact inv_setEnv h1 6
  split
  · split
    · have h2 := inv_setEnv h1 (detect (severity r))
      exact ⟨h2.table, h2.current, h2.nodup, h2.fresh⟩
    · exact h1
  · exact h1

theorem inv_apply {s : State} (h : Inv s) (o : Op) : Inv (apply s o) := by
  cases o with
  | setEnv e => exact inv_setEnv h e
  | setMode b r =>
    have h1 : Inv { s with mode := b } := ⟨h.table, h.current, h.nodup, h.fresh⟩
    simp only [apply, setMode]
    split
    · exact inv_auto h1 r
    · exact h1
  | register =>
    refine ⟨h.table, h.current, ?_, ?_⟩
    · simp only [apply, register]
      rw [List.nodup_append]
      refine ⟨h.nodup, by simp, ?_⟩
      intro a ha b hb
      have := h.fresh a ha
      simp only [List.mem_singleton] at hb
      omega
    · intro i hi
      simp only [apply, register, List.mem_append, List.mem_singleton] at hi ⊢
      rcases hi with hi | rfl
      · have := h.fresh i hi; omega
      · omega
  | unregister i =>
    refine ⟨h.table, h.current, h.nodup.filter _, ?_⟩
    intro j hj
    simp only [apply, unregister] at hj ⊢
    exact h.fresh j (List.mem_of_mem_filter hj)
  | detect r => exact inv_auto h r
  | logError r =>
    have h1 : Inv { s with errors := s.errors + 1 } := ⟨h.table, h.current, h.nodup, h.fresh⟩
    simp only [apply, logError]
    split
    · have h2 := inv_auto h1 r
      exact ⟨h2.table, h2.current, h2.nodup, h2.fresh⟩
    · exact h1
  | customize e x =>
    have ht : ∀ k, (if k = e then some x else s.table k).isSome := by
      intro k
      by_cases hk : k = e
      · simp [hk]
      · rw [if_neg hk]; exact h.table k
    simp only [apply, customize]
    split
    · exact inv_strategy (s := { s with table := fun k => if k = e then some x else s.table k }) ht h.nodup h.fresh
    · next hne =>
      refine ⟨ht, ?_, h.nodup, h.fresh⟩
      simp only
      rw [if_neg (fun q => hne q.symm)]; exact h.current

theorem inv_run (now : Int) (ops : List Op) : Inv (run (init now) ops) := by
  have gen : ∀ (ops : List Op) s, Inv s → Inv (run s ops) := by
    intro ops
    induction ops with
    | nil => intro s h; exact h
    | cons o ops ih => intro s h; exact ih _ (inv_apply h o)
  apply gen
  exact inv_strategy (s := ⟨0, true, ⟨0, 0, false, false, 0, 0⟩, fun e => some (defaults e), [], now, 0, 0, 0, []⟩)
    (fun e => rfl) List.nodup_nil (by simp)

/-- Effect of one call on the table of settings. -/
def custStep (t : Env → Settings) : Op → Env → Settings
  | .customize e x => fun k => if k = e then x else t k
  | _ => t

/-- The settings customised by a history: the last `customize` for an environment, else the default. -/
def customised (ops : List Op) : Env → Settings := ops.foldl custStep defaults

theorem auto_table (s : State) (r : Report) : (autoDetect s r).table = s.table := by
  unfold autoDetect
  split
  · rfl
  split
  · rfl
  simp only
  split
  · exact (setEnv_fields _ _).2.1
  split
  · split
    · simp only; exact (setEnv_fields _ _).2.1
    · rfl
  · rfl

/-- **C43 (settings in force).** After every history the current settings are those of the current environment, as last
customised or else as shipped. -/
theorem C43_settings_in_force (now : Int) (ops : List Op) :
    (run (init now) ops).current = customised ops (run (init now) ops).env := by
  have gen : ∀ (ops : List Op) (s : State) (t : Env → Settings), (∀ e, s.table e = some (t e)) →
      ∀ e, (run s ops).table e = some (ops.foldl custStep t e) := by
    intro ops
    induction ops with
    | nil => intro s t h; exact h
    | cons o ops ih =>
      intro s t h
      have key : ∀ t', (∀ e, (apply s o).table e = some (t' e)) → ∀ e, (run (apply s o) ops).table e = some (ops.foldl custStep t' e) := fun t' h' => ih (apply s o) t' h'
      cases o with
      | setEnv e => exact key t (by simp only [apply]; rw [(setEnv_fields s e).2.1]; exact h)
      | setMode b r =>
        refine key t ?_
        simp only [apply, setMode]
        split
        · rw [auto_table]; exact h
        · exact h
      | register => exact key t h
      | unregister i => exact key t h
      | detect r => exact key t (by simp only [apply]; rw [auto_table]; exact h)
      | logError r =>
        refine key t ?_
        simp only [apply, logError]
        split
        · simp only; rw [auto_table]; exact h
        · exact h
      | customize e x =>
        refine key (fun k => if k = e then x else t k) ?_
        intro k
        have : (customize s e x).table k = if k = e then some x else s.table k := by
          unfold customize
          simp only
          split
          · rw [(updateStrategy_fields _).2.2.1]
          · rfl
        simp only [apply]
        rw [this]
        by_cases hk : k = e
        · simp [hk]
        · simp [hk, h k]
  have hi := (inv_run now ops).current
  have ht := gen ops (init now) defaults (by
    intro e; unfold init; rw [(updateStrategy_fields _).2.2.1]) (run (init now) ops).env
  rw [hi] at ht
  exact Option.some.inj ht

/-! ### Notification -/

theorem auto_log (s : State) (r : Report) : (autoDetect s r).log = s.log ++
    (if (autoDetect s r).env ≠ s.env then s.listeners.map (fun i => (i, (autoDetect s r).env)) else []) := by
  unfold autoDetect
  split
  · simp
  split
  · simp
  simp only
  split
  · rw [(setEnv_fields _ _).2.2.2.2.2.2.2, setEnv_env]
    congr 1
    by_cases h : s.env = 6
    · simp [h]
    · simp [h, Ne.symm h]
  split
  · next hd =>
    split
    · simp only
      rw [(setEnv_fields _ _).2.2.2.2.2.2.2, setEnv_env, if_pos hd, if_pos (Ne.symm hd)]
    · simp
  · simp

theorem received_map (l : List Nat) (hn : l.Nodup) (i : Nat) (e : Env) :
    (((l.map (fun j => (j, e))).filter (fun x => decide (x.1 = i))).map (·.2)) = if i ∈ l then [e] else [] := by
  induction l with
  | nil => simp
  | cons j l ih =>
    have hn' := List.nodup_cons.mp hn
    rw [List.map_cons]
    by_cases hj : j = i
    · subst hj
      rw [List.filter_cons_of_pos (by simp), List.map_cons, ih hn'.2, if_neg hn'.1]
      simp
    · rw [List.filter_cons_of_neg (by simpa using hj), ih hn'.2]
      simp [List.mem_cons, Ne.symm hj]

/-- **C43 (notification).** In every history, each call notifies each registered listener exactly once with the new
environment if the call changed the environment, and nobody otherwise. -/
theorem C43_notification (now : Int) (ops : List Op) (o : Op) (i : Nat) :
    let s := run (init now) ops
    let s' := apply s o
    received s' i = received s i ++ (if s'.env ≠ s.env ∧ i ∈ s.listeners then [s'.env] else []) := by
  intro s s'
  have hi : Inv s := inv_run now ops
  have key : s'.log = s.log ++ (if s'.env ≠ s.env then s.listeners.map (fun i => (i, s'.env)) else []) := by
    change (apply s o).log = _ ++ (if (apply s o).env ≠ s.env then _ else _)
    cases o with
    | setEnv e =>
      simp only [apply]
      rw [(setEnv_fields s e).2.2.2.2.2.2.2]
      congr 1
      simp only [setEnv_env]
      by_cases h : s.env = e
      · simp [h]
      · simp [h, Ne.symm h, s', apply, setEnv_env]
    | setMode b r =>
      simp only [apply, setMode, s']
      split
      · have := auto_log { s with mode := b } r
        exact this
      · simp
    | register => simp [apply, register]
    | unregister i => simp [apply, unregister]
    | detect r => exact auto_log s r
    | logError r =>
      simp only [apply, logError, s']
      split
      · have := auto_log { s with errors := s.errors + 1 } r
        exact this
      · simp
    | customize e x =>
      have h1 : (customize s e x).log = s.log := by
        unfold customize; simp only; split
        · rw [(updateStrategy_fields _).2.2.2.2.2.2.2.2]
        · rfl
      have h2 : (customize s e x).env = s.env := by
        unfold customize; simp only; split
        · rw [(updateStrategy_fields _).1]
        · rfl
      have h2' : (apply s (.customize e x)).env = s.env := h2
      simp only [h2', ne_eq, not_true_eq_false, if_false, List.append_nil]
      exact h1
  unfold received
  rw [key, List.filter_append, List.map_append]
  congr 1
  by_cases h : s'.env ≠ s.env
  · rw [if_pos h, received_map _ hi.nodup]
    simp [h]
  · rw [if_neg h, if_neg (fun q => h q.1)]; rfl

/-- **C43 (listener ids).** Registering returns an id different from those of all registered listeners; unregistering
reports whether the id was registered and removes exactly it. -/
theorem C43_listeners (now : Int) (ops : List Op) (i : Nat) :
    let s := run (init now) ops
    (register s).2 ∉ s.listeners ∧
    ((unregister s i).2 = true ↔ i ∈ s.listeners) ∧ (∀ j, j ∈ (unregister s i).1.listeners ↔ j ∈ s.listeners ∧ j ≠ i) := by
  intro s
  have hi : Inv s := inv_run now ops
  refine ⟨?_, by simp [unregister], by simp [unregister]⟩
  intro h
  have := hi.fresh _ h
  simp only [register] at this
  omega

/-! ### Timing of automatic changes -/

/-- The reports of a sequence of automatic checks at which the environment changed. -/
def changes (s : State) : List Report → List Report
  | [] => []
  | r :: rs => if (autoDetect s r).env ≠ s.env then r :: changes (autoDetect s r) rs else changes (autoDetect s r) rs

theorem auto_lastCheck (s : State) (r : Report) :
    (autoDetect s r).lastCheck = if s.mode = true ∧ 10000000000 ≤ r.now - s.lastCheck then r.now else s.lastCheck := by
  unfold autoDetect
  cases hm : s.mode with
  | false => simp
  | true =>
    simp only [Bool.not_true, Bool.false_eq_true, if_false, true_and]
    by_cases hc : r.now - s.lastCheck < 10000000000
    · rw [if_pos hc, if_neg (by omega)]
    · rw [if_neg hc, if_pos (show 10000000000 ≤ r.now - s.lastCheck by omega)]
      split
      · rw [(setEnv_fields _ _).2.2.2.1]
      split
      · split
        · simp only; rw [(setEnv_fields _ _).2.2.2.1]
        · rfl
      · rfl

/-- **C43 (changes are at least 10 s apart).** In every sequence of automatic checks, at arbitrary clock values, any two
moments at which the environment changes are at least 10 s apart, and the first is at least 10 s after construction. -/
theorem C43_spacing (s : State) (rs : List Report) :
    (changes s rs).Pairwise (fun a b => 10000000000 ≤ b.now - a.now) ∧
    (∀ r ∈ changes s rs, 10000000000 ≤ r.now - s.lastCheck) := by
  induction rs generalizing s with
  | nil => exact ⟨List.Pairwise.nil, by simp [changes]⟩
  | cons r rs ih =>
    obtain ⟨i1, i2⟩ := ih (autoDetect s r)
    unfold changes
    have hl := auto_lastCheck s r
    by_cases hc : (autoDetect s r).env ≠ s.env
    · rw [if_pos hc]
      have hcond : s.mode = true ∧ 10000000000 ≤ r.now - s.lastCheck := by
        by_contra hne
        have he := autoDetect_env s r
        rw [if_neg (fun q => hne ⟨q.1, q.2.1⟩)] at he
        exact hc (Fin.ext he)
      rw [if_pos hcond] at hl
      refine ⟨List.pairwise_cons.mpr ⟨?_, i1⟩, ?_⟩
      · intro b hb; have := i2 b hb; rw [hl] at this; exact this
      · intro x hx
        rcases List.mem_cons.mp hx with rfl | hx
        · exact hcond.2
        · have := i2 x hx; rw [hl] at this; have := hcond.2; omega
    · rw [if_neg hc]
      refine ⟨i1, ?_⟩
      intro x hx
      have := i2 x hx
      rw [hl] at this
      split at this
      · next h => have := h.2; omega
      · exact this

/-- **C43 (response to extreme rates).** With adaptive mode on and at least 10 s since the last check, a rate above ten
leads to EXTREME at once, from every environment. -/
theorem C43_extreme (s : State) (r : Report) (hm : s.mode = true) (ht : 10000000000 ≤ r.now - s.lastCheck) (hr : r.rate > 10) :
    (autoDetect s r).env = 6 := by
  apply Fin.ext
  rw [autoDetect_env, if_pos ⟨hm, ht, Or.inl hr⟩]
  unfold wanted; rw [if_pos hr]; rfl

/-- **C43 (manual mode).** With adaptive mode off, checks, logged errors and maintenance change nothing but the error
count. -/
theorem C43_manual (s : State) (r : Report) (hm : s.mode = false) :
    autoDetect s r = s ∧ (logError s r).env = s.env ∧ (logError s r).current = s.current := by
  have h : ∀ s : State, s.mode = false → autoDetect s r = s := by
    intro s hm; unfold autoDetect; rw [hm]; rfl
  refine ⟨h s hm, ?_, ?_⟩
  · unfold logError; simp only; split
    · rw [h { s with errors := s.errors + 1 } hm]
    · rfl
  · unfold logError; simp only; split
    · rw [h { s with errors := s.errors + 1 } hm]
    · rfl

/-! ### What fails -/

/-- A report in which all errors are single-bit. -/
def single (now : Int) (rate : ℚ) : Report := ⟨now, rate, fun i => if i = 0 then 1 else 0⟩

theorem severity_single (now : Int) (q : ℚ) : severity (single now q) = q := by
  simp [severity, single, weight, show (2 : Fin 6) ≠ 0 by decide, show (3 : Fin 6) ≠ 0 by decide,
    show (4 : Fin 6) ≠ 0 by decide, show (5 : Fin 6) ≠ 0 by decide]

/-- **C43 (oscillation, violated).** The hysteresis does not prevent oscillation: a rate alternating between 0 and 0.2 at
checks 10 s apart switches between BENIGN and MEO every time, for any number of rounds. -/
theorem C43_oscillation_violated (n : Nat) : ∃ rs : List Report, rs.length = 2 * n ∧
    (changes (init 0) rs).length = 2 * n := by
  have osc : ∀ (n : Nat) (s : State), s.mode = true → s.env = 0 → ∃ rs : List Report, rs.length = 2 * n ∧ (changes s rs).length = 2 * n := by
    intro n
    induction n with
    | zero => intro s _ _; exact ⟨[], rfl, rfl⟩
    | succ n ih =>
      intro s hm he
      have hmode : ∀ (s : State) r, (autoDetect s r).mode = s.mode := by
        intro s r
        unfold autoDetect
        split
        · rfl
        split
        · rfl
        simp only
        split
        · exact (setEnv_fields _ _).1
        split
        · split
          · simp only; exact (setEnv_fields _ _).1
          · rfl
        · rfl
      let r1 := single (s.lastCheck + 10000000000) (2 / 10)
      let r2 := single (s.lastCheck + 20000000000) 0
      have w1 : wanted r1 = 2 := by
        simp only [wanted, r1, severity_single, level, List.countP_cons, List.countP_nil]; simp only [single]; norm_num
      have w2 : wanted r2 = 0 := by
        simp only [wanted, r2, severity_single, level, List.countP_cons, List.countP_nil]; simp only [single]; norm_num
      have e1 : (autoDetect s r1).env = 2 := by
        apply Fin.ext
        rw [autoDetect_env, if_pos, w1]; rfl
        refine ⟨hm, ?_, Or.inr (Or.inl ?_)⟩
        · simp only [r1, single]; omega
        · rw [w1, he]; decide
      have l1 : (autoDetect s r1).lastCheck = s.lastCheck + 10000000000 := by
        rw [auto_lastCheck, if_pos]
        · rfl
        · refine ⟨hm, ?_⟩; simp only [r1, single]; omega
      have e2 : (autoDetect (autoDetect s r1) r2).env = 0 := by
        apply Fin.ext
        rw [autoDetect_env, if_pos, w2]; rfl
        refine ⟨by rw [hmode]; exact hm, ?_, Or.inr (Or.inl ?_)⟩
        · rw [l1]; simp only [r2, single]; omega
        · rw [w2, e1]; decide
      obtain ⟨rs, h1, h2⟩ := ih (autoDetect (autoDetect s r1) r2) (by rw [hmode, hmode]; exact hm) e2
      refine ⟨r1 :: r2 :: rs, by simp only [List.length_cons]; omega, ?_⟩
      unfold changes
      rw [if_pos (by rw [e1, he]; decide)]
      unfold changes
      rw [if_pos (by rw [e1, e2]; decide)]
      simp only [List.length_cons]
      omega
  exact osc n (init 0) rfl rfl

/-- **C43 (leaving EXTREME, violated).** The emergency switch does not restart the five-minute clock: EXTREME entered at
second 1000 is left by one level at second 1010. -/
theorem C43_extreme_not_sticky_violated :
    let s1 := autoDetect (init 0) (single 1000000000000 11)
    let s2 := autoDetect s1 (single 1010000000000 10)
    s1.env = 6 ∧ s2.env = 5 := by
  have e1 : (autoDetect (init 0) (single 1000000000000 11)).env = 6 :=
    C43_extreme _ _ rfl (by simp [single, init, updateStrategy]) (by simp [single]; norm_num)
  refine ⟨e1, ?_⟩
  apply Fin.ext
  have hw : wanted (single 1010000000000 10) = 5 := by
    simp only [wanted, severity_single, level, List.countP_cons, List.countP_nil]; simp only [single]; norm_num
  rw [autoDetect_env, if_pos, hw]; rfl
  have hl : (autoDetect (init 0) (single 1000000000000 11)).lastCheck = 1000000000000 := by
    rw [auto_lastCheck, if_pos]; rfl; exact ⟨rfl, by simp [single, init, updateStrategy]⟩
  have hc : (autoDetect (init 0) (single 1000000000000 11)).lastChange = 0 := by
    unfold autoDetect
    rw [if_neg (by simp [init, updateStrategy]), if_neg (by simp [single, init, updateStrategy])]
    simp only
    rw [if_pos (by simp [single]; norm_num), (setEnv_fields _ _).2.2.2.2.1]; rfl
  have hm : (autoDetect (init 0) (single 1000000000000 11)).mode = true := by
    unfold autoDetect
    rw [if_neg (by simp [init, updateStrategy]), if_neg (by simp [single, init, updateStrategy])]
    simp only
    rw [if_pos (by simp [single]; norm_num), (setEnv_fields _ _).1]; rfl
  refine ⟨hm, ?_, Or.inr (Or.inr ?_)⟩
  · rw [hl]; simp [single]
  · rw [hc]; simp [single]

/-- **C43 (immediate check, violated).** The check that `logError` announces as immediate after ten errors, and the one
`setAdaptiveMode(true)` announces, do nothing within 10 s of the previous check, even at a thousand errors per second. -/
theorem C43_spike_violated :
    let r := single 5000000000 1000
    (run (init 0) (List.replicate 10 (.logError r))).env = 0 ∧ (run (init 0) (List.replicate 10 (.logError r))).errors = 0 ∧
    (setMode (init 0) true r).env = 0 := by
  have h : ∀ s : State, s.lastCheck = 0 → autoDetect s (single 5000000000 1000) = s := by
    intro s hs; unfold autoDetect; rw [hs]
    split
    · rfl
    · rw [if_pos (by simp [single])]
  refine ⟨?_, ?_, ?_⟩
  · simp [List.replicate, run, apply, logError, init, updateStrategy, h]
  · simp [List.replicate, run, apply, logError, init, updateStrategy]
  · simp [setMode, init, updateStrategy, h]

example : (autoDetect (init 0) (single 20000000000 50)).env = 6 :=
  C43_extreme (init 0) (single 20000000000 50) rfl (by simp [single, init, updateStrategy]) (by simp [single]; norm_num)

example : received (run (init 0) [.register, .setEnv 3, .setEnv 3, .register, .setEnv 5]) 0 = [3, 5] := by
  decide

end Verif.Props.Adaptive
