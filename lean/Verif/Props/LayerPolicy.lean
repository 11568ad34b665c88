import Verif.Model.LayerPolicy
import Verif.Props.Topology
import Mathlib.Tactic.NormNum
import Mathlib.Tactic.Linarith
import Mathlib.Tactic.Positivity
import Mathlib.Tactic.FieldSimp
import Mathlib.Tactic.Ring
import Mathlib.Algebra.Order.Archimedean.Basic
import Mathlib.Tactic.IntervalCases
/-!
C218-C222: protection policies of layers.
-/
namespace Verif.LayerPolicy
open Classical
open Verif.Topology (Text joined)
open Verif.Hardening (Level)

/-! ### C218: the registry -/

/-- What one operation does to the policy of a layer, for the operations that treat layers separately. -/
noncomputable def effect (n : Text) : Op → Option Config → Option Config
  | .add k c, p => if k = n then some c else p
  | .remove k, p => if k = n then none else p
  | .setLevel k l, p => if k = n then p.map fun c => { c with level := l } else p
  | .setAllocation k a, p => if k = n then p.map fun c => { c with allocation := max 0 (min 1 a) } else p
  | .setDynamic k b, p => if k = n then p.map fun c => { c with dynamic := b } else p
  | .setMission k x, p => if k = n then p.map fun c => c.setMission x else p
  | .enableDynamic, p => p.map fun c => { c with dynamic := true }
  | _, p => p

/-- Operations that treat layers separately. -/
def Separate : Op → Prop
  | .create _ _ _ => False
  | .decay _ _ => False
  | .normalize => False
  | .configure _ _ => False
  | .ensureInput _ => False
  | _ => True

theorem get_cons (e : Text × Config) (m : Manager) (n : Text) : get (e :: m) n = if e.1 = n then some e.2 else get m n := by
  unfold get
  rw [List.find?_cons]
  by_cases h : e.1 = n <;> simp [h]

theorem get_nil (n : Text) : get [] n = none := rfl

theorem get_add (k : Text) (c : Config) (m : Manager) (n : Text) : get (add k c m) n = if k = n then some c else get m n := by
  induction m with
  | nil => simp only [add, get_cons]
  | cons e t ih =>
    simp only [add]
    split
    · rename_i h
      rw [get_cons, get_cons]
      by_cases hk : k = n <;> simp [hk, h]
    · rename_i h
      rw [get_cons, get_cons, ih]
      by_cases hk : k = n
      · have : ¬ e.1 = n := fun e' => h (e'.trans hk.symm)
        simp [hk, this]
      · simp [hk]

theorem get_update (f : Text → Config → Config) (m : Manager) (n : Text) : get (update f m) n = (get m n).map (f n) := by
  induction m with
  | nil => rfl
  | cons e t ih =>
    show get ((e.1, f e.1 e.2) :: update f t) n = _
    rw [get_cons, get_cons, ih]
    by_cases h : e.1 = n <;> simp [h]

theorem get_one (k : Text) (f : Config → Config) (m : Manager) (n : Text) : get (one k f m) n = if k = n then (get m n).map f else get m n := by
  unfold one
  rw [get_update]
  by_cases h : n = k
  · subst h; simp
  · have h' : ¬ k = n := fun e => h e.symm
    simp [h, h']

theorem get_filter (k : Text) (m : Manager) (n : Text) : get (m.filter fun e => decide (e.1 ≠ k)) n = if k = n then none else get m n := by
  induction m with
  | nil => simp [get_nil]
  | cons e t ih =>
    rw [List.filter_cons]
    by_cases h : e.1 = k
    · simp only [h, ne_eq, not_true_eq_false, decide_false, Bool.false_eq_true, if_false]
      rw [get_cons]
      simp only [ne_eq] at ih
      rw [ih]
      by_cases hk : k = n
      · simp [hk]
      · have : ¬ e.1 = n := fun e' => hk (h.symm.trans e')
        simp [hk, this]
    · simp only [h, ne_eq, not_false_eq_true, decide_true, if_true]
      rw [get_cons, get_cons]
      simp only [ne_eq] at ih
      rw [ih]
      by_cases hk : k = n
      · have : ¬ e.1 = n := fun e' => h (e'.trans hk.symm)
        simp [hk, this]
      · simp [hk]

theorem has_iff (m : Manager) (n : Text) : has m n = (get m n).isSome := by
  unfold has get; simp

theorem get_remove (m : Manager) (k n : Text) : get (remove m k).2 n = if k = n then none else get m n := by
  unfold remove
  by_cases h : has m k = true
  · rw [if_pos h]; exact get_filter k m n
  · rw [if_neg h]
    by_cases hk : k = n
    · subst hk
      rw [has_iff] at h
      simpa using h
    · simp [hk]

theorem clampAllocation (c : Config) (a : ℝ) : c.setAllocation a = { c with allocation := max 0 (min 1 a) } := by
  show ({ c with allocation := if 1 < (if a < 0 then 0 else a) then 1 else (if a < 0 then 0 else a) } : Config) = _
  congr 1
  by_cases h : a < 0
  · rw [if_pos h, if_neg (by norm_num), min_eq_right (by linarith), max_eq_left h.le]
  · rw [if_neg h]
    by_cases h1 : 1 < a
    · rw [if_pos h1, min_eq_left h1.le, max_eq_right (by norm_num)]
    · rw [if_neg h1, min_eq_right (not_lt.mp h1), max_eq_right (not_lt.mp h)]

theorem get_step (m : Manager) (op : Op) (h : Separate op) (n : Text) : get (step m op) n = effect n op (get m n) := by
  cases op with
  | add k c => exact get_add k c m n
  | remove k => exact get_remove m k n
  | setLevel k l => exact get_one _ _ _ _
  | setAllocation k a =>
    show get (one k (fun c => c.setAllocation a) m) n = _
    rw [get_one]; simp only [clampAllocation]; rfl
  | setDynamic k b => exact get_one _ _ _ _
  | setMission k x => exact get_one _ _ _ _
  | create r b s => exact absurd h id
  | decay d ds => exact absurd h id
  | normalize => exact absurd h id
  | configure x ps => exact absurd h id
  | ensureInput l => exact absurd h id
  | enableDynamic => exact get_update (fun _ c => { c with dynamic := true }) m n

/-- **C218.** After every history of operations on single layers the policy of a layer is what its own operations make of it: the last one added, with the later changes, or none if it was removed; operations on other layers leave it alone. -/
theorem C218_policy (ops : List Op) (h : ∀ op ∈ ops, Separate op) (n : Text) : get (run ops) n = ops.foldl (fun p op => effect n op p) none := by
  unfold run
  have : ∀ (m : Manager), get (ops.foldl step m) n = ops.foldl (fun p op => effect n op p) (get m n) := by
    induction ops with
    | nil => intro m; rfl
    | cons op t ih =>
      intro m
      rw [List.foldl_cons, List.foldl_cons, ih (fun o ho => h o (by simp [ho])), get_step m op (h op (by simp))]
  rw [this []]; rfl

theorem layers_update (f : Text → Config → Config) (m : Manager) : layers (update f m) = layers m := by
  unfold layers update; rw [List.map_map]; rfl

theorem layers_add (n : Text) (c : Config) (m : Manager) : layers (add n c m) = if n ∈ layers m then layers m else layers m ++ [n] := by
  induction m with
  | nil => simp [add, layers]
  | cons e t ih =>
    simp only [add]
    split
    · rename_i h; simp [layers, h]
    · rename_i h
      have h' : ¬ n = e.1 := fun e' => h e'.symm
      simp only [layers, List.map_cons, List.mem_cons, h', false_or] at ih ⊢
      rw [ih]; split <;> simp_all

theorem nodup_add {n : Text} {c : Config} {m : Manager} (h : (layers m).Nodup) : (layers (add n c m)).Nodup := by
  rw [layers_add]
  split
  · exact h
  · rename_i hn
    rw [List.nodup_append]
    exact ⟨h, by simp, by intro a ha b hb; simp at hb; subst hb; exact fun e => hn (e ▸ ha)⟩

theorem nodup_foldl_add (f : Text × ℝ → Config) (es : List (Text × ℝ)) (m : Manager) (h : (layers m).Nodup) : (layers (es.foldl (fun m e => add e.1 (f e) m) m)).Nodup := by
  induction es generalizing m with
  | nil => exact h
  | cons e t ih => exact ih _ (nodup_add h)

theorem layers_normalize (m : Manager) : layers (normalize m) = layers m := by
  unfold normalize; split
  · rfl
  · exact layers_update _ _

theorem layers_applyDecay (d : ℤ) (ds : Text → Option ℤ) (m : Manager) : layers (applyDecay d ds m) = layers m := by
  unfold applyDecay; split
  · rfl
  · rw [layers_normalize, layers_update]

theorem layers_configure (x : Mission) (ps : Option (List Text)) (m : Manager) : layers (configure x ps m) = layers m := by
  cases x <;> simp only [configure, ensureInput, enableDynamic, layers_update]
  cases ps with
  | none => simp only [layers_update]
  | some ps => simp only [layers_applyDecay, layers_update]

theorem nodup_step {m : Manager} (h : (layers m).Nodup) (op : Op) : (layers (step m op)).Nodup := by
  cases op with
  | add k c => exact nodup_add h
  | remove k =>
    show (layers (remove m k).2).Nodup
    unfold remove
    split
    · exact h.sublist (List.filter_sublist.map _)
    · exact h
  | setLevel k l => simpa only [step, one, layers_update] using h
  | setAllocation k l => simpa only [step, one, layers_update] using h
  | setDynamic k l => simpa only [step, one, layers_update] using h
  | setMission k l => simpa only [step, one, layers_update] using h
  | create r b s =>
    show (layers (create r b s)).Nodup
    unfold create
    split
    · exact List.nodup_nil
    · exact nodup_foldl_add _ _ _ List.nodup_nil
  | decay d ds => simpa only [step, layers_applyDecay] using h
  | normalize => simpa only [step, layers_normalize] using h
  | configure x ps => simpa only [step, layers_configure] using h
  | ensureInput l => simpa only [step, ensureInput, layers_update] using h
  | enableDynamic => simpa only [step, enableDynamic, layers_update] using h

theorem get_isSome (m : Manager) (n : Text) : (get m n).isSome = true ↔ n ∈ layers m := by
  induction m with
  | nil => simp [get_nil, layers]
  | cons e t ih =>
    rw [get_cons]
    by_cases h : e.1 = n
    · simp [h, layers]
    · have h' : ¬ n = e.1 := fun e' => h e'.symm
      simp only [h, if_false, ih]
      simp [layers, h']

/-- **C218 (list).** After every history `getPolicyLayers` lists exactly the layers for which `getPolicy` finds a policy and `hasPolicy` holds, each once; `removePolicy` tells whether there was one, and afterwards there is none. -/
theorem C218_layers (ops : List Op) (n : Text) :
    (layers (run ops)).Nodup ∧ (n ∈ layers (run ops) ↔ (get (run ops) n).isSome = true) ∧ has (run ops) n = (get (run ops) n).isSome ∧
    (remove (run ops) n).1 = has (run ops) n ∧ get (remove (run ops) n).2 n = none := by
  refine ⟨?_, (get_isSome _ _).symm, has_iff _ _, ?_, by simp [get_remove]⟩
  · unfold run
    have : ∀ m : Manager, (layers m).Nodup → (layers (ops.foldl step m)).Nodup := by
      induction ops with
      | nil => exact fun m h => h
      | cons op t ih => exact fun m h => ih _ (nodup_step h op)
    exact this [] List.nodup_nil
  · unfold remove
    cases h : has (run ops) n <;> simp

/-! ### C219: missions -/

/-- The level a mission asks for at least. -/
def floor : Mission → Level
  | .earthOrbit => .none
  | .deepSpace => .health
  | .lunar => .selective
  | .mars => .selective
  | .jupiter => .full
  | .solar => .full

theorem ord_le_full (l : Level) : ord l ≤ 6 := by cases l <;> decide

theorem atLeast_ord (c : Config) (l : Level) : ord (c.atLeast l).level = max (ord c.level) (ord l) := by
  unfold Config.atLeast
  split
  · rename_i h; simp only []; omega
  · rename_i h; omega

theorem atLeast_rest (c : Config) (l : Level) : (c.atLeast l).allocation = c.allocation ∧ (c.atLeast l).dynamic = c.dynamic ∧ (c.atLeast l).strategy = c.strategy ∧ (c.atLeast l).mission = c.mission := by
  unfold Config.atLeast; split <;> simp

/-- **C219.** A policy set to a mission has that mission and the higher of its level and the level of the mission: protection never falls.  Dynamic adjustment is switched on for deep space, Jupiter and the sun and never off; the strategy changes only for the sun; an allocation between 0 and 1 stays there and never falls. -/
theorem C219_mission (c : Config) (m : Mission) :
    (c.setMission m).mission = m ∧ ord (c.setMission m).level = max (ord c.level) (ord (floor m)) ∧
    (c.setMission m).dynamic = (c.dynamic || decide (m = .deepSpace ∨ m = .jupiter ∨ m = .solar)) ∧
    (c.setMission m).strategy = (if m = .solar then "solar_optimized".toList else c.strategy) ∧
    (0 ≤ c.allocation → c.allocation ≤ 1 → c.allocation ≤ (c.setMission m).allocation ∧ (c.setMission m).allocation ≤ 1) := by
  have h6 := ord_le_full c.level
  cases m with
  | earthOrbit => simp [Config.setMission, floor, ord]
  | deepSpace =>
    have h := atLeast_rest { c with mission := .deepSpace } .health
    refine ⟨h.2.2.2, atLeast_ord _ _, by simp [Config.setMission], by simpa [Config.setMission] using h.2.2.1, ?_⟩
    intro h0 h1
    have : (c.setMission .deepSpace).allocation = c.allocation := h.1
    rw [this]; exact ⟨le_refl _, h1⟩
  | lunar =>
    have h := atLeast_rest { c with mission := .lunar } .selective
    refine ⟨h.2.2.2, atLeast_ord _ _, by simpa [Config.setMission] using h.2.1, by simpa [Config.setMission] using h.2.2.1, ?_⟩
    intro h0 h1
    have : (c.setMission .lunar).allocation = c.allocation := h.1
    rw [this]; exact ⟨le_refl _, h1⟩
  | mars =>
    have h := atLeast_rest { c with mission := .mars } .selective
    refine ⟨h.2.2.2, atLeast_ord _ _, by simpa [Config.setMission] using h.2.1, by simpa [Config.setMission] using h.2.2.1, ?_⟩
    intro h0 h1
    have : (c.setMission .mars).allocation = min 1 (c.allocation * (12 / 10)) := by
      show min 1 ((Config.atLeast _ _).allocation * _) = _
      rw [h.1]
    rw [this]
    exact ⟨le_min h1 (by linarith), min_le_left _ _⟩
  | jupiter =>
    refine ⟨rfl, by simp only [Config.setMission, floor]; have : ord .full = 6 := rfl; omega, by simp [Config.setMission], by simp [Config.setMission], ?_⟩
    intro h0 h1
    exact ⟨le_min h1 (by linarith), min_le_left _ _⟩
  | solar =>
    refine ⟨rfl, by simp only [Config.setMission, floor]; have : ord .full = 6 := rfl; omega, by simp [Config.setMission], (if_pos rfl).symm, ?_⟩
    intro h0 h1
    exact ⟨le_refl _, h1⟩

theorem mars_times (c : Config) (k : ℕ) (h0 : 0 ≤ c.allocation) (h1 : c.allocation ≤ 1) :
    ((List.replicate k Mission.mars).foldl Config.setMission c).allocation = min 1 (c.allocation * (6 / 5) ^ k) := by
  induction k generalizing c with
  | zero => simp [h1]
  | succ k ih =>
    rw [List.replicate_succ, List.foldl_cons]
    have h := atLeast_rest { c with mission := .mars } .selective
    have hm : (c.setMission .mars).allocation = min 1 (c.allocation * (12 / 10)) := by
      show min 1 ((Config.atLeast _ _).allocation * _) = _
      rw [h.1]
    have hr := (C219_mission c .mars).2.2.2.2 h0 h1
    rw [ih _ (by linarith [hr.1]) hr.2, hm]
    have hp : (1:ℝ) ≤ (6 / 5) ^ k := one_le_pow₀ (by norm_num)
    rcases le_total 1 (c.allocation * (12 / 10)) with h | h
    · rw [min_eq_left h, one_mul, min_eq_left hp, min_eq_left]
      rw [pow_succ]; nlinarith
    · rw [min_eq_right h]; congr 1; rw [pow_succ]; ring

/-- **C219, violated: not repeatable.** Setting the same mission again changes the policy again: on Mars every call raises the allocation by a fifth, until it takes everything; Earth orbit does not undo it. -/
theorem C219_repeat_violated (c : Config) (h0 : 0 < c.allocation) (h1 : c.allocation ≤ 1) :
    (∀ k, ((List.replicate k Mission.mars).foldl Config.setMission c).allocation = min 1 (c.allocation * (6 / 5) ^ k)) ∧
    (∃ k, ((List.replicate k Mission.mars).foldl Config.setMission c).allocation = 1) ∧
    ∀ c' : Config, (c'.setMission .earthOrbit).allocation = c'.allocation ∧ (c'.setMission .earthOrbit).level = c'.level := by
  refine ⟨fun k => mars_times c k h0.le h1, ?_, fun c' => ⟨rfl, rfl⟩⟩
  obtain ⟨k, hk⟩ := pow_unbounded_of_one_lt (1 / c.allocation) (show (1:ℝ) < 6 / 5 by norm_num)
  refine ⟨k, ?_⟩
  rw [mars_times c k h0.le h1]
  apply min_eq_left
  have := (div_lt_iff₀ h0).mp hk
  linarith

/-! ### C220: policies from an analysis -/

theorem add_new (n : Text) (c : Config) (m : Manager) (h : n ∉ layers m) : add n c m = m ++ [(n, c)] := by
  induction m with
  | nil => rfl
  | cons e t ih =>
    simp only [layers, List.map_cons, List.mem_cons, not_or] at h
    have : ¬ e.1 = n := fun e' => h.1 e'.symm
    simp only [add, if_neg this, List.cons_append, ih h.2]

theorem add_all (f : Text × ℝ → Config) (es : List (Text × ℝ)) (m : Manager) (h : (layers m ++ es.map Prod.fst).Nodup) :
    es.foldl (fun m e => add e.1 (f e) m) m = m ++ es.map fun e => (e.1, f e) := by
  induction es generalizing m with
  | nil => simp
  | cons a t ih =>
    have hn : a.1 ∉ layers m := by
      rw [List.map_cons, List.nodup_append] at h
      exact fun hm => (h.2.2 a.1 hm a.1 (by simp)) rfl
    rw [List.foldl_cons, add_new _ _ _ hn, ih _ (by simpa [layers] using h)]
    simp

theorem create_eq (r : Result) (b : ℝ) (s : Strategy) (h : (r.crit.map Prod.fst).Nodup) (ht : 0 < (r.crit.map Prod.snd).sum) :
    create r b s = r.crit.map fun e => (e.1, configFor r b s e) := by
  unfold create
  rw [if_neg (not_le.mpr (show 0 < totalCrit r from ht)), add_all (configFor r b s) r.crit [] (by simpa [layers] using h)]
  simp

/-- **C220.** Policies made from an analysis with some positive criticality replace all others: one for every layer, whose allocation is its share of the criticality times the budget, so that the allocations add up to the budget. -/
theorem C220_shares (ops : List Op) (r : Result) (b : ℝ) (s : Strategy) (h : (r.crit.map Prod.fst).Nodup) (ht : 0 < (r.crit.map Prod.snd).sum) :
    layers (run (ops ++ [.create r b s])) = r.crit.map Prod.fst ∧
    (∀ e ∈ r.crit, ∃ c, get (run (ops ++ [.create r b s])) e.1 = some c ∧ c.allocation = e.2 / (r.crit.map Prod.snd).sum * b ∧ c.dynamic = decide (7 / 10 < e.2) ∧ c.mission = .earthOrbit) ∧
    ((run (ops ++ [.create r b s])).map fun e => e.2.allocation).sum = b := by
  have hr : run (ops ++ [.create r b s]) = r.crit.map fun e => (e.1, configFor r b s e) := by
    unfold run
    rw [List.foldl_append]
    exact create_eq r b s h ht
  rw [hr]
  refine ⟨by simp [layers], ?_, ?_⟩
  · intro e he
    refine ⟨configFor r b s e, ?_, rfl, rfl, rfl⟩
    clear hr ht
    have : ∀ f : Text × ℝ → Config, ∀ es : List (Text × ℝ), (es.map Prod.fst).Nodup → e ∈ es → get (es.map fun e => (e.1, f e)) e.1 = some (f e) := by
      intro f es hn he
      induction es with
      | nil => simp at he
      | cons a t ih =>
        rw [List.map_cons, get_cons]
        simp only [List.map_cons, List.nodup_cons] at hn
        rcases List.mem_cons.mp he with rfl | he
        · simp
        · have : ¬ a.1 = e.1 := fun e' => hn.1 (List.mem_map.mpr ⟨e, he, e'.symm⟩)
          simp only [this, if_false]
          exact ih hn.2 he
    exact this _ _ h he
  · rw [List.map_map]
    have : ((fun e : Text × Config => e.2.allocation) ∘ fun e => (e.1, configFor r b s e)) = fun e : Text × ℝ => e.2 * (b / (r.crit.map Prod.snd).sum) := by
      funext e; simp only [Function.comp, configFor, totalCrit]; ring
    rw [this]
    have hs : ∀ (k : ℝ) (es : List (Text × ℝ)), (es.map fun e => e.2 * k).sum = (es.map Prod.snd).sum * k := by
      intro k es
      induction es with
      | nil => simp
      | cons a t ih => simp only [List.map_cons, List.sum_cons, ih]; ring
    rw [hs]; field_simp

/-- Without any positive criticality no policy is left. -/
theorem C220_none (ops : List Op) (r : Result) (b : ℝ) (s : Strategy) (ht : (r.crit.map Prod.snd).sum ≤ 0) : run (ops ++ [.create r b s]) = [] := by
  unfold run
  rw [List.foldl_append]
  show create r b s = []
  unfold create
  rw [if_pos (show totalCrit r ≤ 0 from ht)]

/-- **C220 (levels).** The level never falls when criticality rises, whatever the strategy; from 0.9 on all is triplicated under the resource constrained and the fixed threshold strategy. -/
theorem C220_monotone (s : Strategy) (x y : ℝ) (h : x ≤ y) : ord (levelFor x s) ≤ ord (levelFor y s) := by
  cases s <;> (unfold levelFor; simp only []; split_ifs <;> first | (simp only [ord]; omega) | (exfalso; linarith))

/-- **C220, violated.** The strategy that protects all leaves layers unprotected: a criticality up to 0.2 gets no protection, and no criticality more than a checksum with recovery. -/
theorem C220_all_violated (c : ℝ) : (c ≤ 1 / 5 → levelFor c .protectAll = .none) ∧ ord (levelFor c .protectAll) ≤ ord .recovery := by
  constructor
  · intro h
    unfold levelFor; simp only []
    rw [if_neg (by linarith), if_neg (by linarith)]
  · unfold levelFor; simp only []; split_ifs <;> decide

/-- **C220 (variant).** The strategy variant: bottleneck first, then wide fan-out, then a critical path, and criticality only if none of these applies. -/
theorem C220_variant (r : Result) (n : Text) (c : ℝ) :
    ((∃ b, r.bottleneck n = some b ∧ 1 / 2 < b) → variant r n c = "bottleneck_protection".toList) ∧
    ((∀ b, r.bottleneck n = some b → b ≤ 1 / 2) → (∃ k, r.fanOut n = some k ∧ 3 ≤ k) → variant r n c = "fanout_isolation".toList) ∧
    ((∀ b, r.bottleneck n = some b → b ≤ 1 / 2) → (∀ k, r.fanOut n = some k → k ≤ 2) → (∃ p ∈ r.paths, n <:+: p) → variant r n c = "critical_path_protection".toList) ∧
    ((∀ b, r.bottleneck n = some b → b ≤ 1 / 2) → (∀ k, r.fanOut n = some k → k ≤ 2) → (∀ p ∈ r.paths, ¬ n <:+: p) →
      variant r n c = if 4 / 5 < c then "high_criticality".toList else if 1 / 2 < c then "medium_criticality".toList else "low_criticality".toList) := by
  have nb : (∀ b, r.bottleneck n = some b → b ≤ 1 / 2) → ¬ ∃ b, r.bottleneck n = some b ∧ (5:ℝ) / 10 < b := by
    rintro h ⟨b, hb, hl⟩; have := h b hb; linarith
  have nk : (∀ k, r.fanOut n = some k → k ≤ 2) → ¬ ∃ k, r.fanOut n = some k ∧ 2 < k := by
    rintro h ⟨b, hb, hl⟩; have := h b hb; omega
  refine ⟨?_, ?_, ?_, ?_⟩
  · rintro ⟨b, hb, h⟩
    unfold variant
    rw [if_pos ⟨b, hb, by linarith⟩]
  · rintro h1 ⟨k, hk, h⟩
    unfold variant
    rw [if_neg (nb h1), if_pos ⟨k, hk, by omega⟩]
  · intro h1 h2 h3
    unfold variant
    rw [if_neg (nb h1), if_neg (nk h2), if_pos h3]
  · intro h1 h2 h3
    unfold variant
    rw [if_neg (nb h1), if_neg (nk h2), if_neg (by rintro ⟨p, hp, h⟩; exact h3 p hp h)]
    norm_num only

/-- Three layers, one of them on a path. -/
noncomputable def sample : Result where
  crit := [(['a'], 1 / 2), (['b'], 1 / 4), (['c'], 1 / 4)]
  paths := [['a']]
  bottleneck n := if n = ['b'] then some 1 else none
  fanOut _ := some 1

example : (sample.crit.map Prod.fst).Nodup ∧ 0 < (sample.crit.map Prod.snd).sum := by
  constructor
  · simp [sample]
  · norm_num [sample]
example : variant sample ['b'] 0 = "bottleneck_protection".toList := (C220_variant sample ['b'] 0).1 ⟨1, by simp [sample], by norm_num⟩
example : variant sample ['a'] 1 = "critical_path_protection".toList :=
  (C220_variant sample ['a'] 1).2.2.1 (by simp [sample]) (by simp [sample]) ⟨['a'], by simp [sample], List.infix_rfl⟩
example : levelFor (95 / 100) .resourceConstrained = .full ∧ levelFor (65 / 100) .resourceConstrained = .selective := by norm_num [levelFor]

/-! ### C221: decay with depth -/

/-- Allocations between 0 and 1. -/
def Within (m : Manager) : Prop := ∀ e ∈ m, 0 ≤ e.2.allocation ∧ e.2.allocation ≤ 1

theorem total_nonneg {m : Manager} (h : Within m) : 0 ≤ total m := by
  apply List.sum_nonneg
  intro x hx; obtain ⟨e, he, rfl⟩ := List.mem_map.mp hx; exact (h e he).1

theorem le_total {m : Manager} (h : Within m) {e : Text × Config} (he : e ∈ m) : e.2.allocation ≤ total m := by
  unfold total
  apply List.single_le_sum
  · intro x hx; obtain ⟨k, hk, rfl⟩ := List.mem_map.mp hx; exact (h k hk).1
  · exact List.mem_map.mpr ⟨e, he, rfl⟩

theorem setAllocation_in (c : Config) (a : ℝ) (h0 : 0 ≤ a) (h1 : a ≤ 1) : c.setAllocation a = { c with allocation := a } := by
  rw [clampAllocation, min_eq_right h1, max_eq_right h0]

theorem normalize_eq {m : Manager} (h : Within m) (ht : 0 < total m) : normalize m = m.map fun e => (e.1, { e.2 with allocation := e.2.allocation / total m }) := by
  unfold normalize update
  rw [if_neg (not_le.mpr ht)]
  refine List.map_congr_left fun e he => ?_
  beta_reduce
  rw [setAllocation_in _ _ (div_nonneg (h e he).1 ht.le) ((div_le_one ht).mpr (le_total h he))]

theorem normalize_total {m : Manager} (h : Within m) (ht : 0 < total m) : total (normalize m) = 1 := by
  rw [normalize_eq h ht]
  unfold total
  rw [List.map_map]
  have hs : ∀ (k : ℝ) (es : Manager), (es.map ((fun e : Text × Config => e.2.allocation) ∘ fun e => (e.1, { e.2 with allocation := e.2.allocation / k }))).sum = (es.map fun e => e.2.allocation).sum / k := by
    intro k es
    induction es with
    | nil => simp
    | cons a t ih => simp only [List.map_cons, List.sum_cons, ih, Function.comp]; ring
  rw [hs]
  exact div_self ht.ne'

/-- The factor of a layer: 1 at the input, falling exponentially with depth; 1 for layers without a depth. -/
noncomputable def factor (networkDepth : ℤ) (d : Option ℤ) : ℝ :=
  match d with
  | some d => Real.exp (-(2 * (d : ℝ) / networkDepth))
  | none => 1

theorem factor_pos (D : ℤ) (d : Option ℤ) : 0 < factor D d := by
  cases d with
  | none => exact one_pos
  | some d => exact Real.exp_pos _

theorem factor_le {D : ℤ} (hD : 0 < D) {d : Option ℤ} (hd : ∀ k, d = some k → 0 ≤ k) : factor D d ≤ 1 := by
  cases d with
  | none => exact le_refl _
  | some d =>
    apply Real.exp_le_one_iff.mpr
    have h1 : (0:ℝ) ≤ d := by exact_mod_cast hd d rfl
    have h2 : (0:ℝ) < D := by exact_mod_cast hD
    have : 0 ≤ 2 * (d:ℝ) / D := by positivity
    linarith

theorem decayed_eq {m : Manager} (h : Within m) {D : ℤ} (hD : 0 < D) {ds : Text → Option ℤ} (hd : ∀ n k, ds n = some k → 0 ≤ k) :
    update (decayOne D ds) m = m.map fun e => (e.1, { e.2 with allocation := e.2.allocation * factor D (ds e.1) }) := by
  unfold update
  refine List.map_congr_left fun e he => ?_
  have h0 := h e he
  have hf := factor_le hD (hd e.1)
  have hp := factor_pos D (ds e.1)
  unfold decayOne
  cases hn : ds e.1 with
  | none => simp [factor]
  | some d =>
    have hx : decay D d = factor D (some d) := by unfold decay factor; congr 1; ring
    simp only [hx]
    rw [hn] at hf hp
    rw [setAllocation_in _ _ (mul_nonneg h0.1 hp.le) (by nlinarith [h0.1, h0.2])]

theorem decayed_within {m : Manager} (h : Within m) {D : ℤ} (hD : 0 < D) {ds : Text → Option ℤ} (hd : ∀ n k, ds n = some k → 0 ≤ k) :
    Within (m.map fun e => (e.1, { e.2 with allocation := e.2.allocation * factor D (ds e.1) })) := by
  intro e he
  obtain ⟨k, hk, rfl⟩ := List.mem_map.mp he
  have h0 := h k hk
  have hf := factor_le hD (hd k.1)
  have hp := factor_pos D (ds k.1)
  exact ⟨mul_nonneg h0.1 hp.le, by simp only []; nlinarith [h0.1, h0.2]⟩

/-- **C221.** Decay multiplies every allocation by a factor that is 1 at the input and falls exponentially with the depth of the layer, and divides by the new total: between two layers of equal allocation the deeper one gets less, by the quotient of the factors. -/
theorem C221_decay (m : Manager) (h : Within m) (D : ℤ) (hD : 0 < D) (ds : Text → Option ℤ) (hd : ∀ n k, ds n = some k → 0 ≤ k) (ht : ∃ e ∈ m, 0 < e.2.allocation) :
    ∃ t : ℝ, 0 < t ∧ applyDecay D ds m = (m.map fun e => (e.1, { e.2 with allocation := e.2.allocation * factor D (ds e.1) / t })) ∧ (m.map fun e => e.2.allocation * factor D (ds e.1)).sum = t := by
  have hw := decayed_within h hD hd
  have htot : 0 < total (m.map fun e => (e.1, { e.2 with allocation := e.2.allocation * factor D (ds e.1) })) := by
    obtain ⟨e, he, h0⟩ := ht
    exact lt_of_lt_of_le (mul_pos h0 (factor_pos D (ds e.1))) (le_total hw (List.mem_map.mpr ⟨e, he, rfl⟩))
  refine ⟨_, htot, ?_, by unfold total; rw [List.map_map]; rfl⟩
  unfold applyDecay
  rw [if_neg (not_le.mpr hD), decayed_eq h hD hd, normalize_eq hw htot, List.map_map]
  rfl

/-- **C221 (depth).** The factor falls strictly with depth, and a network without depth is left as it is. -/
theorem C221_depth (D : ℤ) (hD : 0 < D) (x y : ℤ) (h : x < y) : factor D (some y) < factor D (some x) ∧ factor D (some 0) = 1 ∧ ∀ (m : Manager) (ds : Text → Option ℤ), applyDecay 0 ds m = m := by
  refine ⟨?_, by simp [factor], fun m ds => by simp [applyDecay]⟩
  apply Real.exp_lt_exp.mpr
  have h1 : (x:ℝ) < y := by exact_mod_cast h
  have h2 : (0:ℝ) < D := by exact_mod_cast hD
  have : 2 * (x:ℝ) / D < 2 * y / D := by apply div_lt_div_of_pos_right _ h2; linarith
  linarith

/-- **C221, violated.** "Renormalize allocations to maintain the same total resource usage": the total after decay is 1, whatever it was — a budget of 0.3 becomes everything. -/
theorem C221_total_violated (m : Manager) (h : Within m) (D : ℤ) (hD : 0 < D) (ds : Text → Option ℤ) (hd : ∀ n k, ds n = some k → 0 ≤ k) (ht : ∃ e ∈ m, 0 < e.2.allocation) :
    ((applyDecay D ds m).map fun e => e.2.allocation).sum = 1 := by
  have hw := decayed_within h hD hd
  have htot : 0 < total (m.map fun e => (e.1, { e.2 with allocation := e.2.allocation * factor D (ds e.1) })) := by
    obtain ⟨e, he, h0⟩ := ht
    exact lt_of_lt_of_le (mul_pos h0 (factor_pos D (ds e.1))) (le_total hw (List.mem_map.mpr ⟨e, he, rfl⟩))
  unfold applyDecay
  rw [if_neg (not_le.mpr hD), decayed_eq h hD hd]
  exact normalize_total hw htot

theorem within_update {f : Text → Config → Config} {m : Manager} (h : Within m) (hf : ∀ n c, 0 ≤ c.allocation → c.allocation ≤ 1 → 0 ≤ (f n c).allocation ∧ (f n c).allocation ≤ 1) : Within (update f m) := by
  intro e he
  obtain ⟨k, hk, rfl⟩ := List.mem_map.mp he
  exact hf _ _ (h k hk).1 (h k hk).2

theorem within_set (c : Config) (a : ℝ) : 0 ≤ (c.setAllocation a).allocation ∧ (c.setAllocation a).allocation ≤ 1 := by
  rw [clampAllocation]; exact ⟨le_max_left _ _, max_le (by norm_num) (min_le_left _ _)⟩

theorem within_mission (c : Config) (x : Mission) (h0 : 0 ≤ c.allocation) (h1 : c.allocation ≤ 1) : 0 ≤ (c.setMission x).allocation ∧ (c.setMission x).allocation ≤ 1 := by
  have := (C219_mission c x).2.2.2.2 h0 h1
  exact ⟨h0.trans this.1, this.2⟩

theorem within_atLeast (c : Config) (l : Level) (h0 : 0 ≤ c.allocation) (h1 : c.allocation ≤ 1) : 0 ≤ (c.atLeast l).allocation ∧ (c.atLeast l).allocation ≤ 1 := by
  rw [(atLeast_rest c l).1]; exact ⟨h0, h1⟩

theorem within_normalize {m : Manager} (h : Within m) : Within (normalize m) := by
  unfold normalize
  split
  · exact h
  · exact within_update h fun _ c _ _ => within_set _ _

theorem within_applyDecay {m : Manager} (h : Within m) (D : ℤ) (ds : Text → Option ℤ) : Within (applyDecay D ds m) := by
  unfold applyDecay
  split
  · exact h
  · refine within_normalize (within_update h fun n c h0 h1 => ?_)
    unfold decayOne
    cases ds n with
    | none => exact ⟨h0, h1⟩
    | some d => exact within_set _ _

theorem within_one {k : Text} {f : Config → Config} {m : Manager} (h : Within m) (hf : ∀ c, 0 ≤ c.allocation → c.allocation ≤ 1 → 0 ≤ (f c).allocation ∧ (f c).allocation ≤ 1) : Within (one k f m) := by
  unfold one
  refine within_update h fun n c h0 h1 => ?_
  split
  · exact hf c h0 h1
  · exact ⟨h0, h1⟩

theorem within_ensure {m : Manager} (h : Within m) (l : Level) : Within (ensureInput l m) := by
  unfold ensureInput
  refine within_update h fun n c h0 h1 => ?_
  split
  · exact within_atLeast c l h0 h1
  · exact ⟨h0, h1⟩

theorem within_dynamic {m : Manager} (h : Within m) : Within (enableDynamic m) := by
  unfold enableDynamic
  exact within_update h fun n c h0 h1 => ⟨h0, h1⟩

/-- Values the interface asks for: allocations and budgets from 0 to 1, criticalities that are not negative. -/
def Proper : Op → Prop
  | .add _ c => 0 ≤ c.allocation ∧ c.allocation ≤ 1
  | .create r b _ => (∀ e ∈ r.crit, 0 ≤ e.2) ∧ 0 ≤ b ∧ b ≤ 1
  | _ => True

theorem within_step {m : Manager} (h : Within m) (op : Op) (hp : Proper op) : Within (step m op) := by
  cases op with
  | add k c =>
    show Within (add k c m)
    induction m with
    | nil => intro e he; simp only [add, List.mem_singleton] at he; subst he; exact hp
    | cons a t ih =>
      simp only [add]
      split
      · intro e he
        rcases List.mem_cons.mp he with rfl | he
        · exact hp
        · exact h e (by simp [he])
      · intro e he
        rcases List.mem_cons.mp he with rfl | he
        · exact h e (by simp)
        · exact ih (fun e he => h e (by simp [he])) e he
  | remove k =>
    show Within (remove m k).2
    unfold remove
    split
    · intro e he; exact h e (List.mem_filter.mp he).1
    · exact h
  | setLevel k l => exact within_one (f := fun c => { c with level := l }) h fun c h0 h1 => ⟨h0, h1⟩
  | setAllocation k a => exact within_one (f := fun c => c.setAllocation a) h fun c h0 h1 => within_set _ _
  | setDynamic k b => exact within_one (f := fun c => { c with dynamic := b }) h fun c h0 h1 => ⟨h0, h1⟩
  | setMission k x => exact within_one (f := fun c => c.setMission x) h fun c h0 h1 => within_mission c x h0 h1
  | create r b s =>
    show Within (create r b s)
    obtain ⟨hc, hb0, hb1⟩ := hp
    unfold create
    split
    · intro e he; simp at he
    · rename_i ht
      have ht : 0 < totalCrit r := not_le.mp ht
      have key : ∀ es : List (Text × ℝ), (∀ e ∈ es, e ∈ r.crit) → ∀ m : Manager, Within m → Within (es.foldl (fun m e => add e.1 (configFor r b s e) m) m) := by
        intro es
        induction es with
        | nil => exact fun _ m h => h
        | cons a t ih =>
          intro hes m hm
          rw [List.foldl_cons]
          refine ih (fun e he => hes e (by simp [he])) _ ?_
          have ha : 0 ≤ (configFor r b s a).allocation ∧ (configFor r b s a).allocation ≤ 1 := by
            have h1 := hc a (hes a (by simp))
            have h2 : a.2 ≤ totalCrit r := by
              unfold totalCrit
              apply List.single_le_sum
              · intro x hx; obtain ⟨k, hk, rfl⟩ := List.mem_map.mp hx; exact hc k hk
              · exact List.mem_map.mpr ⟨a, hes a (by simp), rfl⟩
            have h3 : 0 ≤ a.2 / totalCrit r := div_nonneg h1 ht.le
            have h4 : a.2 / totalCrit r ≤ 1 := (div_le_one ht).mpr h2
            show 0 ≤ a.2 / totalCrit r * b ∧ a.2 / totalCrit r * b ≤ 1
            exact ⟨mul_nonneg h3 hb0, by nlinarith⟩
          clear ih
          induction m with
          | nil => intro e he; simp only [add, List.mem_singleton] at he; subst he; exact ha
          | cons e' t' ih' =>
            simp only [add]
            split
            · intro e he
              rcases List.mem_cons.mp he with rfl | he
              · exact ha
              · exact hm e (by simp [he])
            · intro e he
              rcases List.mem_cons.mp he with rfl | he
              · exact hm e (by simp)
              · exact ih' (fun e he => hm e (by simp [he])) e he
      exact key r.crit (fun e he => he) [] (by intro e he; simp at he)
  | decay d ds => exact within_applyDecay h d ds
  | normalize => exact within_normalize h
  | configure x ps =>
    show Within (configure x ps m)
    have hm : Within (update (fun _ c => c.setMission x) m) := within_update h fun _ c h0 h1 => within_mission c x h0 h1
    cases x with
    | earthOrbit => exact hm
    | lunar => exact hm
    | mars => exact hm
    | jupiter => exact within_ensure hm _
    | solar => exact within_dynamic hm
    | deepSpace =>
      cases ps with
      | none => exact hm
      | some ps => exact within_applyDecay hm _ _
  | ensureInput l => exact within_ensure h l
  | enableDynamic => exact within_dynamic h

/-- **C221 (range).** After every history of operations with values in their ranges every allocation lies between 0 and 1. -/
theorem C221_range (ops : List Op) (h : ∀ op ∈ ops, Proper op) (n : Text) (c : Config) (hc : get (run ops) n = some c) : 0 ≤ c.allocation ∧ c.allocation ≤ 1 := by
  have key : ∀ ops : List Op, (∀ op ∈ ops, Proper op) → ∀ m : Manager, Within m → Within (ops.foldl step m) := by
    intro ops
    induction ops with
    | nil => exact fun _ m h => h
    | cons op t ih => exact fun h m hm => ih (fun o ho => h o (by simp [ho])) _ (within_step hm op (h op (by simp)))
  have hw : Within (run ops) := key ops h [] (by intro e he; simp at he)
  unfold get at hc
  cases hf : (run ops).find? fun e => decide (e.1 = n) with
  | none => rw [hf] at hc; simp at hc
  | some e =>
    rw [hf] at hc
    simp only [Option.map_some, Option.some.injEq] at hc
    subst hc
    exact hw e (List.mem_of_find?_eq_some hf)

/-- A manager with two layers at different depths. -/
noncomputable def two : Manager := [(['a'], ⟨.none, 1 / 10, false, [], .earthOrbit⟩), (['b'], ⟨.none, 2 / 10, false, [], .earthOrbit⟩)]

theorem two_within : Within two := by
  intro e he
  rcases List.mem_cons.mp he with rfl | he
  · norm_num
  · rcases List.mem_cons.mp he with rfl | he
    · norm_num
    · simp at he

example : total two = 3 / 10 ∧ total (applyDecay 2 (fun n => if n = ['b'] then some 2 else some 0) two) = 1 :=
  ⟨by norm_num [total, two], C221_total_violated two two_within 2 (by norm_num) _ (by intro n k h; split at h <;> simp at h <;> omega) ⟨_, List.mem_cons_self, by norm_num⟩⟩
example : ∀ op ∈ [Op.add ['a'] ⟨.none, 1 / 10, false, [], .earthOrbit⟩, .setMission ['a'] .jupiter, .setAllocation ['a'] 7], Proper op := by
  intro op h
  simp only [List.mem_cons, List.not_mem_nil, or_false] at h
  rcases h with rfl | rfl | rfl <;> norm_num [Proper]

/-! ### C222: configuration for a mission -/

theorem get_normalize_rest (m : Manager) (n : Text) : (get (normalize m) n).map (fun c => (c.level, c.dynamic, c.strategy, c.mission)) = (get m n).map fun c => (c.level, c.dynamic, c.strategy, c.mission) := by
  unfold normalize
  split
  · rfl
  · rw [get_update, Option.map_map]; congr 1

theorem get_applyDecay_rest (D : ℤ) (ds : Text → Option ℤ) (m : Manager) (n : Text) : (get (applyDecay D ds m) n).map (fun c => (c.level, c.dynamic, c.strategy, c.mission)) = (get m n).map fun c => (c.level, c.dynamic, c.strategy, c.mission) := by
  unfold applyDecay
  split
  · rfl
  · rw [get_normalize_rest, get_update, Option.map_map]
    congr 1
    funext c
    simp only [Function.comp, decayOne]
    cases ds n <;> rfl

/-- **C222.** After `configureForMission` every policy there was, and no other, is set to the mission, at the higher of its level and the level of the mission, with dynamic adjustment for deep space, Jupiter and the sun. -/
theorem C222_mission (x : Mission) (ps : Option (List Text)) (m : Manager) (n : Text) :
    (get (configure x ps m) n).map (fun c => (ord c.level, c.dynamic, c.mission)) =
      (get m n).map fun c => (max (ord c.level) (ord (floor x)), c.dynamic || decide (x = .deepSpace ∨ x = .jupiter ∨ x = .solar), x) := by
  have base : (get (update (fun _ c => c.setMission x) m) n).map (fun c => (ord c.level, c.dynamic, c.mission)) =
      (get m n).map fun c => (max (ord c.level) (ord (floor x)), c.dynamic || decide (x = .deepSpace ∨ x = .jupiter ∨ x = .solar), x) := by
    rw [get_update, Option.map_map]
    congr 1
    funext c
    obtain ⟨h1, h2, h3, _⟩ := C219_mission c x
    simp only [Function.comp, h1, h2, h3]
  cases x with
  | earthOrbit => exact base
  | lunar => exact base
  | mars => exact base
  | solar =>
    show (get (enableDynamic (update (fun _ c => c.setMission .solar) m)) n).map _ = _
    unfold enableDynamic
    rw [get_update, get_update, Option.map_map, Option.map_map]
    congr 1
    funext c
    obtain ⟨h1, h2, h3, _⟩ := C219_mission c .solar
    simp [Function.comp, h1, h2]
  | jupiter =>
    show (get (ensureInput .health (update (fun _ c => c.setMission .jupiter) m)) n).map _ = _
    unfold ensureInput
    rw [get_update, get_update, Option.map_map, Option.map_map]
    congr 1
    funext c
    obtain ⟨h1, h2, h3, _⟩ := C219_mission c .jupiter
    have h6 := ord_le_full c.level
    have hf : ord (floor .jupiter) = 6 := rfl
    have hh : ord .health = 5 := rfl
    simp only [Function.comp]
    split
    · rw [atLeast_ord, (atLeast_rest _ _).2.1, (atLeast_rest _ _).2.2.2, h1, h2, h3]
      congr 1
      omega
    · simp only [h1, h2, h3]
  | deepSpace =>
    cases ps with
    | none => exact base
    | some ps =>
      show (get (applyDecay _ _ (update (fun _ c => c.setMission .deepSpace) m)) n).map _ = _
      have h := get_applyDecay_rest (maxDepth ps (layers (update (fun _ c => c.setMission .deepSpace) m))) (fun n => if n ∈ layers (update (fun _ c => c.setMission .deepSpace) m) then some (depthOf ps n : ℤ) else none) (update (fun _ c => c.setMission .deepSpace) m) n
      rw [← base]
      have h' := congrArg (Option.map fun q : Level × Bool × Text × Mission => (ord q.1, q.2.1, q.2.2.2)) h
      simp only [Option.map_map] at h'
      exact h'

/-- **C222, violated: budget.** Configuring for Jupiter raises every allocation by a half, so that layers that share a budget together exceed it: the total grows by a half, and above 1. -/
theorem C222_budget_violated (ps : Option (List Text)) (m : Manager) (h : ∀ e ∈ m, e.2.allocation ≤ 2 / 3) : total (configure .jupiter ps m) = 3 / 2 * total m := by
  have hmap : (configure .jupiter ps m).map (fun e => e.2.allocation) = m.map fun e => 3 / 2 * e.2.allocation := by
    show (ensureInput .health (update (fun _ c => c.setMission .jupiter) m)).map _ = _
    unfold ensureInput update
    rw [List.map_map, List.map_map]
    refine List.map_congr_left fun e he => ?_
    simp only [Function.comp]
    have : (e.2.setMission .jupiter).allocation = 3 / 2 * e.2.allocation := by
      show min 1 (e.2.allocation * (15 / 10)) = _
      rw [min_eq_right (by linarith [h e he])]; ring
    split
    · rw [(atLeast_rest _ _).1, this]
    · exact this
  unfold total
  rw [hmap]
  induction m with
  | nil => simp
  | cons a t ih =>
    simp only [List.map_cons, List.sum_cons]
    rw [ih (fun e he => h e (by simp [he])) (by
      show (ensureInput .health (update (fun _ c => c.setMission .jupiter) t)).map _ = _
      unfold ensureInput update
      rw [List.map_map, List.map_map]
      refine List.map_congr_left fun e he => ?_
      simp only [Function.comp]
      have : (e.2.setMission .jupiter).allocation = 3 / 2 * e.2.allocation := by
        show min 1 (e.2.allocation * (15 / 10)) = _
        rw [min_eq_right (by linarith [h e (by simp [he])])]; ring
      split
      · rw [(atLeast_rest _ _).1, this]
      · exact this)]
    ring

/-- A name without the characters of the separator. -/
def Plain (n : Text) : Prop := n ≠ [] ∧ ∀ c ∈ n, c ≠ ' ' ∧ c ≠ '-' ∧ c ≠ '>'

theorem firstPos_some {n t : Text} {i : ℕ} (h1 : n <+: t.drop i) (h2 : ∀ j < i, ¬ n <+: t.drop j) (h3 : i ≤ t.length) : firstPos n t = some i := by
  unfold firstPos
  rw [List.find?_range_eq_some]
  exact ⟨by simpa using h1, by simp; omega, fun j hj => by simpa using h2 j hj⟩

theorem firstPos_none {n t : Text} (h : ∀ j, ¬ n <+: t.drop j) : firstPos n t = none := by
  unfold firstPos
  rw [List.find?_eq_none]
  intro j _; simpa using h j

theorem no_prefix {n a T : Text} (hn : Plain n) (ha : ¬ n <:+: a) {i : ℕ} (hi : i < a.length + 4) : ¬ n <+: (a ++ Topology.arrow ++ T).drop i := by
  intro hp
  by_cases h : i < a.length
  · have hd : (a ++ Topology.arrow ++ T).drop i = a.drop i ++ (Topology.arrow ++ T) := by
      rw [List.append_assoc, List.drop_append_of_le_length h.le]
    rw [hd] at hp
    have hpre : a.drop i <+: a.drop i ++ (Topology.arrow ++ T) := List.prefix_append _ _
    rcases Nat.le_total n.length (a.drop i).length with hl | hl
    · have := List.prefix_of_prefix_length_le hp hpre hl
      exact ha (this.isInfix.trans (List.drop_suffix i a).isInfix)
    · have hq := List.prefix_of_prefix_length_le hpre hp hl
      obtain ⟨s, rfl⟩ := hq
      rw [List.prefix_append_right_inj] at hp
      cases s with
      | nil =>
        simp only [List.append_nil] at ha
        exact ha (List.drop_suffix i a).isInfix
      | cons c s' =>
        have : c = ' ' := by
          obtain ⟨z, hz⟩ := hp
          simp [Topology.arrow] at hz
          exact hz.1
        exact (hn.2 c (by simp)).1 this
  · have hd : (a ++ Topology.arrow ++ T).drop i = (Topology.arrow ++ T).drop (i - a.length) := by
      rw [List.append_assoc, List.drop_append, List.drop_eq_nil_of_le (not_lt.mp h), List.nil_append]
    rw [hd] at hp
    have h4 : i - a.length < 4 := by omega
    obtain ⟨hne, hc⟩ := hn
    cases n with
    | nil => exact hne rfl
    | cons c n' =>
      have hcc := hc c (by simp)
      obtain ⟨z, hz⟩ := hp
      generalize i - a.length = k at hz h4
      interval_cases k <;> simp [Topology.arrow] at hz <;> simp_all

theorem drop_next (a T : Text) (k : ℕ) : (a ++ Topology.arrow ++ T).drop (a.length + 4 + k) = T.drop k := by
  have : a.length + 4 = (a ++ Topology.arrow).length := by simp [Topology.arrow]
  rw [this, List.drop_append]
  simp

/-- Where the name after `q` begins in the text of a path. -/
def offset (q : List Text) : ℕ := (q.map fun a => a.length + 4).sum

theorem joined_cons' (a : Text) (q : List Text) (h : q ≠ []) : joined (a :: q) = a ++ Topology.arrow ++ joined q := Topology.joined_cons a q h

theorem firstPos_joined {n : Text} (hn : Plain n) (q r : List Text) (hq : ∀ a ∈ q, ¬ n <:+: a) :
    firstPos n (joined (q ++ n :: r)) = some (offset q) ∧ offset q ≤ (joined (q ++ n :: r)).length := by
  have key : n <+: (joined (q ++ n :: r)).drop (offset q) ∧ (∀ j < offset q, ¬ n <+: (joined (q ++ n :: r)).drop j) ∧ offset q ≤ (joined (q ++ n :: r)).length := by
    induction q with
    | nil =>
      refine ⟨?_, by simp [offset], by simp [offset]⟩
      simp only [offset, List.map_nil, List.sum_nil, List.drop_zero, List.nil_append]
      cases r with
      | nil => exact List.prefix_rfl
      | cons b r => rw [joined_cons' _ _ (by simp), List.append_assoc]; exact List.prefix_append _ _
    | cons a q ih =>
      obtain ⟨h1, h2, h3⟩ := ih (fun b hb => hq b (by simp [hb]))
      have ho : offset (a :: q) = a.length + 4 + offset q := by simp [offset]
      rw [List.cons_append, joined_cons' a _ (by simp), ho]
      refine ⟨by rw [drop_next]; exact h1, ?_, by simp [Topology.arrow]; omega⟩
      intro j hj
      by_cases hl : j < a.length + 4
      · exact no_prefix hn (hq a (by simp)) hl
      · obtain ⟨k, rfl⟩ := Nat.exists_eq_add_of_le (not_lt.mp hl)
        rw [drop_next]
        exact h2 k (by omega)
  exact ⟨firstPos_some key.1 key.2.1 key.2.2, key.2.2⟩

theorem firstPos_absent {n : Text} (hn : Plain n) (p : List Text) (hp : ∀ a ∈ p, ¬ n <:+: a) : firstPos n (joined p) = none := by
  apply firstPos_none
  induction p with
  | nil =>
    intro j hj
    simp only [joined, List.drop_nil, List.prefix_nil] at hj
    exact hn.1 hj
  | cons a q ih =>
    intro j hj
    by_cases hq : q = []
    · subst hq
      exact hp a (by simp) (hj.isInfix.trans (List.drop_suffix j a).isInfix)
    · rw [joined_cons' a q hq] at hj
      by_cases hl : j < a.length + 4
      · exact no_prefix hn (hp a (by simp)) hl hj
      · obtain ⟨k, rfl⟩ := Nat.exists_eq_add_of_le (not_lt.mp hl)
        rw [drop_next] at hj
        exact ih (fun b hb => hp b (by simp [hb])) k hj

theorem joined_head {a : Text} (ha : Plain a) (q : List Text) : ∃ c t, joined (a :: q) = c :: t ∧ c ≠ '-' := by
  obtain ⟨hne, hc⟩ := ha
  cases a with
  | nil => exact absurd rfl hne
  | cons c a' =>
    have := (hc c (by simp)).2.1
    cases q with
    | nil => exact ⟨c, a', rfl, this⟩
    | cons b r => exact ⟨c, _, by rw [joined_cons' _ _ (by simp)]; rfl, this⟩

theorem arrows_shift {a T : Text} (ha : Plain a) (hT : ∃ c t, T = c :: t ∧ c ≠ '-') (k : ℕ) : arrowsBefore (a ++ Topology.arrow ++ T) (a.length + 4 + k) = 1 + arrowsBefore T k := by
  unfold arrowsBefore
  rw [List.range_add, List.range_add, List.filter_append, List.filter_append, List.length_append, List.length_append]
  have h1 : ((List.range a.length).filter fun i => decide (((a ++ Topology.arrow ++ T).drop i).take 4 = Topology.arrow)) = [] := by
    rw [List.filter_eq_nil_iff]
    intro i hi
    simp only [List.mem_range] at hi
    simp only [decide_eq_true_eq]
    intro he
    rw [List.append_assoc, List.drop_append_of_le_length hi.le, List.drop_eq_getElem_cons hi] at he
    have hh := congrArg List.head? he
    simp only [List.cons_append, List.take_succ_cons, List.head?_cons, Topology.arrow, Option.some.injEq] at hh
    exact (ha.2 _ (List.getElem_mem hi)).1 hh
  have h2 : (((List.range 4).map (a.length + ·)).filter fun i => decide (((a ++ Topology.arrow ++ T).drop i).take 4 = Topology.arrow)) = [a.length] := by
    obtain ⟨c, t, rfl, hc⟩ := hT
    have hd : ∀ i, (a ++ Topology.arrow ++ (c :: t)).drop (a.length + i) = (Topology.arrow ++ (c :: t)).drop i := by
      intro i; rw [List.append_assoc, List.drop_append, List.drop_eq_nil_of_le (by omega), List.nil_append]; congr 1; omega
    have hr : List.range 4 = [0, 1, 2, 3] := rfl
    rw [hr]
    simp only [List.map_cons, List.map_nil, List.filter_cons, List.filter_nil, hd]
    simp [Topology.arrow, hc]
  have h3 : (((List.range k).map (a.length + 4 + ·)).filter fun i => decide (((a ++ Topology.arrow ++ T).drop i).take 4 = Topology.arrow)).length = ((List.range k).filter fun i => decide ((T.drop i).take 4 = Topology.arrow)).length := by
    rw [List.filter_map, List.length_map]
    congr 2
    funext i
    simp only [Function.comp, drop_next]
  rw [h1, h2, h3]
  simp

theorem arrows_joined {n : Text} (hn : Plain n) (q r : List Text) (hq : ∀ a ∈ q, Plain a) : arrowsBefore (joined (q ++ n :: r)) (offset q) = q.length := by
  induction q with
  | nil => simp [offset, arrowsBefore]
  | cons a q ih =>
    have ho : offset (a :: q) = a.length + 4 + offset q := by simp [offset]
    rw [List.cons_append, joined_cons' a _ (by simp), ho, arrows_shift (hq a (by simp)), ih (fun b hb => hq b (by simp [hb])), List.length_cons]
    · omega
    · cases q with
      | nil => exact joined_head hn r
      | cons b q' => exact joined_head (hq b (by simp)) _

theorem depth_path {n : Text} (hn : Plain n) (p : List Text) (hp : ∀ a ∈ p, Plain a ∧ (n <:+: a → a = n)) :
    (match firstPos n (joined p) with | some pos => some (arrowsBefore (joined p) pos) | none => none) = if n ∈ p then some (p.idxOf n) else none := by
  by_cases h : n ∈ p
  · have hi : p.idxOf n < p.length := List.idxOf_lt_length_of_mem h
    have hs : p = p.take (p.idxOf n) ++ n :: p.drop (p.idxOf n + 1) := by
      conv_lhs => rw [← List.take_append_drop (p.idxOf n) p, List.drop_eq_getElem_cons hi, List.getElem_idxOf hi]
    have hno : n ∉ p.take (p.idxOf n) := by
      intro hm
      have := List.idxOf_lt_length_of_mem hm
      have e : (p.take (p.idxOf n) ++ n :: p.drop (p.idxOf n + 1)).idxOf n = (p.take (p.idxOf n)).idxOf n := List.idxOf_append_of_mem hm
      rw [← hs] at e
      rw [List.length_take] at this
      omega
    have hlen : (p.take (p.idxOf n)).length = p.idxOf n := by rw [List.length_take]; omega
    have hq1 : ∀ a ∈ p.take (p.idxOf n), Plain a := fun a ha => (hp a (List.mem_of_mem_take ha)).1
    have hq2 : ∀ a ∈ p.take (p.idxOf n), ¬ n <:+: a := fun a ha hx => hno ((hp a (List.mem_of_mem_take ha)).2 hx ▸ ha)
    have e1 := (firstPos_joined hn (p.take (p.idxOf n)) (p.drop (p.idxOf n + 1)) hq2).1
    have e2 := arrows_joined hn (p.take (p.idxOf n)) (p.drop (p.idxOf n + 1)) hq1
    rw [← hs] at e1 e2
    rw [e1, if_pos h]
    simp only [e2, hlen]
  · rw [firstPos_absent hn p (fun a ha hx => h ((hp a ha).2 hx ▸ ha)), if_neg h]

/-- **C222 (depth).** For deep space the depth of a layer is found from the texts of the paths.  If the names do not contain the characters of the arrow and no other name contains the name of the layer, it is the largest position of the layer on a path, counted from 0. -/
theorem C222_depth (ps : List (List Text)) (n : Text) (hn : Plain n) (h : ∀ p ∈ ps, ∀ a ∈ p, Plain a ∧ (n <:+: a → a = n)) :
    depthOf (ps.map joined) n = (ps.map fun p => if n ∈ p then p.idxOf n else 0).foldr max 0 := by
  unfold depthOf
  have key : ∀ d : ℕ, (ps.map joined).foldl (fun d p => match firstPos n p with
    | some pos => max d (arrowsBefore p pos)
    | none => d) d = max d ((ps.map fun p => if n ∈ p then p.idxOf n else 0).foldr max 0) := by
    induction ps with
    | nil => intro d; simp
    | cons p t ih =>
      intro d
      rw [List.map_cons, List.foldl_cons, ih (fun q hq => h q (by simp [hq]))]
      rw [List.map_cons, List.foldr_cons]
      have hd := depth_path hn p (h p (by simp))
      cases hf : firstPos n (joined p) with
      | none =>
        rw [hf] at hd
        have : n ∉ p := by intro hm; rw [if_pos hm] at hd; simp at hd
        simp [this]
      | some pos =>
        rw [hf] at hd
        by_cases hm : n ∈ p
        · rw [if_pos hm] at hd
          simp only [Option.some.injEq] at hd
          simp only [hd, hm, if_true]
          omega
        · rw [if_neg hm] at hd; simp at hd
  exact (key 0).trans (by simp)

/-- **C222, violated: names.** A layer whose name begins the name of an earlier one is taken for that: `f1` is the third layer of `in -> f10 -> f1`, but its depth is found to be 1. -/
theorem C222_name_violated : depthOf [joined [['i'], ['f', '1', '0'], ['f', '1']]] ['f', '1'] = 1 ∧ [['i'], ['f', '1', '0'], ['f', '1']].idxOf (['f', '1'] : Text) = 2 := by
  constructor
  · have hf : firstPos ['f', '1'] (joined [['i'], ['f', '1', '0'], ['f', '1']]) = some 5 := by decide +kernel
    have ha : arrowsBefore (joined [['i'], ['f', '1', '0'], ['f', '1']]) 5 = 1 := by decide +kernel
    simp only [depthOf, List.foldl_cons, List.foldl_nil, hf, ha]
    rfl
  · decide

example : Plain ['f', 'c', '1'] := by simp [Plain]
example : depthOf ([[['i'], ['a']], [['i'], ['b'], ['a']]].map joined) ['a'] = 2 := by
  rw [C222_depth _ ['a'] (by simp [Plain]) (by
    intro p hp a ha
    refine ⟨?_, ?_⟩
    · simp at hp; rcases hp with rfl | rfl <;> simp at ha <;> rcases ha with rfl | rfl | rfl <;> simp [Plain]
    · simp at hp; rcases hp with rfl | rfl <;> simp at ha <;> rcases ha with rfl | rfl | rfl <;> decide)]
  decide
example : ∀ e ∈ two, e.2.allocation ≤ 2 / 3 := by
  intro e he
  rcases List.mem_cons.mp he with rfl | he
  · norm_num
  · rcases List.mem_cons.mp he with rfl | he
    · norm_num
    · simp at he

/-- **C220 (thresholds).** The level each strategy assigns, exactly; every boundary value gets the lower level. -/
theorem C220_levels (c : ℝ) :
    ((levelFor c .fixedThreshold = .full ↔ 0.8 < c) ∧ (levelFor c .fixedThreshold = .approximate ↔ 0.6 < c ∧ c ≤ 0.8) ∧ (levelFor c .fixedThreshold = .recovery ↔ 0.4 < c ∧ c ≤ 0.6) ∧
      (levelFor c .fixedThreshold = .checksum ↔ 0.2 < c ∧ c ≤ 0.4) ∧ (levelFor c .fixedThreshold = .none ↔ c ≤ 0.2)) ∧
    ((levelFor c .resourceConstrained = .full ↔ 0.9 < c) ∧ (levelFor c .resourceConstrained = .approximate ↔ 0.75 < c ∧ c ≤ 0.9) ∧
      (levelFor c .resourceConstrained = .selective ↔ 0.6 < c ∧ c ≤ 0.75) ∧ (levelFor c .resourceConstrained = .recovery ↔ 0.4 < c ∧ c ≤ 0.6) ∧
      (levelFor c .resourceConstrained = .checksum ↔ 0.2 < c ∧ c ≤ 0.4) ∧ (levelFor c .resourceConstrained = .none ↔ c ≤ 0.2)) ∧
    (∀ s, s ≠ .fixedThreshold → s ≠ .resourceConstrained →
      (levelFor c s = .recovery ↔ 0.5 < c) ∧ (levelFor c s = .checksum ↔ 0.2 < c ∧ c ≤ 0.5) ∧ (levelFor c s = .none ↔ c ≤ 0.2)) := by
  refine ⟨⟨?_, ?_, ?_, ?_, ?_⟩, ⟨?_, ?_, ?_, ?_, ?_, ?_⟩, ?_⟩
  all_goals first
    | (simp only [levelFor]; norm_num; split_ifs <;> simp <;> first | linarith | (intros; linarith) | (refine ⟨?_, ?_⟩ <;> linarith))
    | skip
  intro s h1 h2
  have : levelFor c s = if 5 / 10 < c then .recovery else if 2 / 10 < c then .checksum else .none := by
    cases s <;> first | rfl | contradiction
  rw [this]
  refine ⟨?_, ?_, ?_⟩ <;> norm_num <;> split_ifs <;> simp <;> first | linarith | (intros; linarith) | (refine ⟨?_, ?_⟩ <;> linarith)

end Verif.LayerPolicy
