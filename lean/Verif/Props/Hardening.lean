import Verif.Model.Hardening
import Mathlib.Tactic.NormNum
import Mathlib.Tactic.Linarith
import Mathlib.Tactic.Positivity
import Mathlib.Tactic.FieldSimp
import Mathlib.Tactic.Ring
import Mathlib.Tactic.IntervalCases
import Mathlib.Algebra.BigOperators.Group.List.Basic
import Mathlib.Algebra.Order.BigOperators.Group.List
/-!
C203-C209: selective hardening.
-/
namespace Verif.Hardening
open Classical

/-! ### Specification -/

/-- The weights in effect: the default where the map has no entry. -/
noncomputable def Weights.values (w : Weights) : List ℝ :=
  [w.sensitivity.getD (35 / 100), w.frequency.getD (2 / 10), w.influence.getD (3 / 10), w.complexity.getD (1 / 10), w.memory.getD (5 / 100)]

/-- The metrics in the same order. -/
def Metrics.values (m : Metrics) : List ℝ := [m.sensitivity, m.frequency, m.influence, m.complexity, m.memory]

/-- The weighted mean of metrics. -/
noncomputable def mean (m w : List ℝ) : ℝ := (List.zipWith (· * ·) m w).sum / w.sum

/-- Rank of a level: how much it protects. -/
def Level.rank : Level → ℕ
  | .none => 0
  | .checksum => 1
  | .recovery => 2
  | .selective => 3
  | .approximate => 4
  | .health => 5
  | .full => 6

/-- Usable metrics. -/
def Metrics.Usable (m : Metrics) : Prop := ∀ x ∈ m.values, 0 ≤ x ∧ x ≤ 1

/-! ### C203: score -/

theorem values_sum (w : Weights) : w.values.sum = w.sum := by simp [Weights.values, Weights.sum]; ring

theorem score_fin (m : Metrics) (w : Weights) (h : w.sum ≠ 0) : m.score w = .fin (mean m.values w.values) := by
  unfold Metrics.score
  simp only [XD.div_fin _ _ h, XD.mul_fin, XD.add_fin]
  congr 1
  unfold mean
  rw [values_sum]
  simp only [Metrics.values, Weights.values, List.zipWith_cons_cons, List.zipWith_nil_right, List.sum_cons, List.sum_nil]
  field_simp
  ring

/-- **C203.** The score is the mean of the five metrics, weighted by the given weights and by 0.35, 0.2, 0.3, 0.1 and 0.05 where none is given, whenever the weights do not sum to 0. -/
theorem C203_mean (m : Metrics) (w : Weights) (h : w.values.sum ≠ 0) : m.score w = .fin (mean m.values w.values) :=
  score_fin m w (by rwa [values_sum] at h)

/-- **C203 (range).** With weights that are not negative and not all 0 the score of metrics between 0 and 1 lies between 0 and 1. -/
theorem C203_range (m : Metrics) (w : Weights) (hm : m.Usable) (hw : ∀ x ∈ w.values, 0 ≤ x) (h : w.values.sum ≠ 0) :
    ∃ s, m.score w = .fin s ∧ 0 ≤ s ∧ s ≤ 1 := by
  refine ⟨_, C203_mean m w h, ?_⟩
  have hp : 0 < w.values.sum := lt_of_le_of_ne (List.sum_nonneg hw) (Ne.symm h)
  simp only [Metrics.Usable, Metrics.values, List.mem_cons, List.not_mem_nil, or_false, forall_eq_or_imp, forall_eq] at hm
  simp only [Weights.values, List.mem_cons, List.not_mem_nil, or_false, forall_eq_or_imp, forall_eq] at hw
  obtain ⟨m1, m2, m3, m4, m5⟩ := hm
  obtain ⟨w1, w2, w3, w4, w5⟩ := hw
  unfold mean
  constructor
  · refine div_nonneg ?_ hp.le
    simp only [Metrics.values, Weights.values, List.zipWith_cons_cons, List.zipWith_nil_right, List.sum_cons, List.sum_nil]
    have a1 := mul_nonneg m1.1 w1
    have a2 := mul_nonneg m2.1 w2
    have a3 := mul_nonneg m3.1 w3
    have a4 := mul_nonneg m4.1 w4
    have a5 := mul_nonneg m5.1 w5
    linarith
  · rw [div_le_one hp]
    simp only [Metrics.values, Weights.values, List.zipWith_cons_cons, List.zipWith_nil_right, List.sum_cons, List.sum_nil]
    have a1 := mul_le_of_le_one_left w1 m1.2
    have a2 := mul_le_of_le_one_left w2 m2.2
    have a3 := mul_le_of_le_one_left w3 m3.2
    have a4 := mul_le_of_le_one_left w4 m4.2
    have a5 := mul_le_of_le_one_left w5 m5.2
    linarith

/-- **C203 (scale).** Multiplying all weights by the same number leaves every score as it is. -/
theorem C203_scale (m : Metrics) (a b c d e k : ℝ) (hk : k ≠ 0) (h : a + b + c + d + e ≠ 0) :
    m.score ⟨some (k * a), some (k * b), some (k * c), some (k * d), some (k * e)⟩ = m.score ⟨some a, some b, some c, some d, some e⟩ := by
  have e1 : (⟨some a, some b, some c, some d, some e⟩ : Weights).sum = a + b + c + d + e := by simp [Weights.sum]
  have e2 : (⟨some (k * a), some (k * b), some (k * c), some (k * d), some (k * e)⟩ : Weights).sum = k * (a + b + c + d + e) := by simp [Weights.sum]; ring
  rw [score_fin _ _ (by rw [e2]; exact mul_ne_zero hk h), score_fin _ _ (by rw [e1]; exact h)]
  congr 1
  unfold mean
  rw [values_sum, values_sum, e2, e1]
  simp only [Metrics.values, Weights.values, Option.getD_some, List.zipWith_cons_cons, List.zipWith_nil_right, List.sum_cons, List.sum_nil]
  rw [show m.sensitivity * (k * a) + (m.frequency * (k * b) + (m.influence * (k * c) + (m.complexity * (k * d) + (m.memory * (k * e) + 0)))) =
    k * (m.sensitivity * a + (m.frequency * b + (m.influence * c + (m.complexity * d + (m.memory * e + 0))))) by ring]
  exact mul_div_mul_left _ _ hk

/-- **C203 (monotone).** With weights that are not negative and not all 0 raising metrics never lowers the score. -/
theorem C203_monotone (m n : Metrics) (w : Weights) (hw : ∀ x ∈ w.values, 0 ≤ x) (h : w.values.sum ≠ 0) (h1 : m.sensitivity ≤ n.sensitivity)
    (h2 : m.frequency ≤ n.frequency) (h3 : m.influence ≤ n.influence) (h4 : m.complexity ≤ n.complexity) (h5 : m.memory ≤ n.memory) :
    XD.le (m.score w) (n.score w) := by
  rw [C203_mean m w h, C203_mean n w h, XD.le_fin]
  have hp : 0 < w.values.sum := lt_of_le_of_ne (List.sum_nonneg hw) (Ne.symm h)
  simp only [Weights.values, List.mem_cons, List.not_mem_nil, or_false, forall_eq_or_imp, forall_eq] at hw
  obtain ⟨w1, w2, w3, w4, w5⟩ := hw
  unfold mean
  refine div_le_div_of_nonneg_right ?_ hp.le
  simp only [Metrics.values, Weights.values, List.zipWith_cons_cons, List.zipWith_nil_right, List.sum_cons, List.sum_nil]
  have a1 := mul_le_mul_of_nonneg_right h1 w1
  have a2 := mul_le_mul_of_nonneg_right h2 w2
  have a3 := mul_le_mul_of_nonneg_right h3 w3
  have a4 := mul_le_mul_of_nonneg_right h4 w4
  have a5 := mul_le_mul_of_nonneg_right h5 w5
  linarith

/-- **C203 (weights 0, violated).** If all five weights are given as 0 every score is not a number, and no component is protected by a threshold, however critical it is. -/
theorem C203_zero_violated (m : Metrics) (t : ℝ) : m.score ⟨some 0, some 0, some 0, some 0, some 0⟩ = .nan ∧ levelFor t (m.score ⟨some 0, some 0, some 0, some 0, some 0⟩) = .none := by
  have e : m.score ⟨some 0, some 0, some 0, some 0, some 0⟩ = .nan := by
    have hs : (⟨some 0, some 0, some 0, some 0, some 0⟩ : Weights).sum = 0 := by simp [Weights.sum]
    unfold Metrics.score
    simp only [hs, Option.getD_some, XD.div_zero_zero, XD.mul_nan, XD.nan_add]
  refine ⟨e, ?_⟩
  rw [e]
  simp [levelFor]

/-- The default weights sum to 1. -/
theorem default_sum : Config.default.weights.sum = 1 := by norm_num [Config.default, Weights.sum]

example : (⟨1, 1, 1, 1, 1⟩ : Metrics).score {} = .fin 1 := by
  rw [score_fin _ _ (by norm_num [Weights.sum])]
  norm_num [mean, Metrics.values, Weights.values]

/-! ### C204: ranking and layers -/

/-- **C204.** With weights that do not sum to 0 the components can be ranked, and a ranking contains each component as often as given, the scores never rising. -/
theorem C204_ranking (w : Weights) (h : w.values.sum ≠ 0) (cs : List Component) :
    (∃ r, Ranked w cs r) ∧ ∀ r, Ranked w cs r → (∀ c, r.count c = cs.count c) ∧
      ∀ i j (hi : i < r.length) (hj : j < r.length), i < j → mean r[j].crit.values w.values ≤ mean r[i].crit.values w.values := by
  constructor
  · let le : Component → Component → Bool := fun a b => decide (mean b.crit.values w.values ≤ mean a.crit.values w.values)
    refine ⟨cs.mergeSort le, List.mergeSort_perm _ _, ?_⟩
    have hs := List.pairwise_mergeSort (le := le) (by
      intro a b c h1 h2
      simp only [le, decide_eq_true_eq] at h1 h2 ⊢
      exact h2.trans h1) (by
      intro a b
      simp only [le, Bool.or_eq_true, decide_eq_true_eq]
      exact le_total _ _) cs
    refine hs.imp ?_
    intro a b hab
    simp only [le, decide_eq_true_eq] at hab
    unfold Component.score
    rw [C203_mean _ _ h, C203_mean _ _ h, XD.lt_fin]
    exact not_lt.2 hab
  · rintro r ⟨h1, h2⟩
    refine ⟨fun c => h1.count_eq c, fun i j hi hj hij => ?_⟩
    have := List.pairwise_iff_getElem.1 h2 i j hi hj hij
    unfold Component.score at this
    rw [C203_mean _ _ h, C203_mean _ _ h, XD.lt_fin] at this
    exact not_lt.1 this

theorem total_fin (w : Weights) (h : w.values.sum ≠ 0) (cs : List Component) : ∀ a : ℝ,
    cs.foldl (fun s c => XD.add s (c.score w)) (.fin a) = .fin (a + (cs.map fun c => mean c.crit.values w.values).sum) := by
  induction cs with
  | nil => intro a; simp
  | cons c cs ih =>
    intro a
    simp only [List.foldl_cons, List.map_cons, List.sum_cons]
    rw [show XD.add (.fin a) (c.score w) = .fin (a + mean c.crit.values w.values) by unfold Component.score; rw [C203_mean _ _ h]; rfl, ih]
    congr 1; ring

/-- **C204 (layers).** A layer has a criticality exactly if it has components, and it is the average of their scores. -/
theorem C204_layers (w : Weights) (h : w.values.sum ≠ 0) (cs : List Component) (l : String) :
    (layerCriticality w cs l = none ↔ ∀ c ∈ cs, c.layer ≠ l) ∧
    ∀ x, layerCriticality w cs l = some x →
      x = .fin (((cs.filter fun c => c.layer = l).map fun c => mean c.crit.values w.values).sum / (cs.filter fun c => c.layer = l).length) := by
  unfold layerCriticality
  simp only []
  by_cases he : cs.filter (fun c => decide (c.layer = l)) = []
  · rw [if_pos he]
    refine ⟨⟨fun _ c hc e => ?_, fun _ => rfl⟩, fun x hx => by cases hx⟩
    have : c ∈ cs.filter fun c => decide (c.layer = l) := List.mem_filter.2 ⟨hc, by simpa using e⟩
    rw [he] at this; cases this
  · rw [if_neg he]
    refine ⟨⟨fun e => (by cases e), fun hn => absurd (List.filter_eq_nil_iff.2 fun c hc => by simpa using hn c hc) he⟩, fun x hx => ?_⟩
    have hl : ((cs.filter fun c => decide (c.layer = l)).length : ℝ) ≠ 0 := by
      intro e
      exact he (List.length_eq_zero_iff.1 (by exact_mod_cast e))
    rw [← Option.some.inj hx]
    unfold total
    rw [total_fin w h, XD.div_fin _ _ hl, zero_add]

/-! ### C205: fixed threshold -/

theorem fold_set (f : Component → Level) (r : List Component) : ∀ (m : Map) (i : String), i ∉ r.map Component.id →
    (r.foldl (fun m c => Map.set m c.id (f c)) m) i = m i := by
  induction r with
  | nil => intro m i _; rfl
  | cons c r ih =>
    intro m i hi
    simp only [List.map_cons, List.mem_cons, not_or] at hi
    show (r.foldl _ (Map.set m c.id (f c))) i = _
    rw [ih _ i hi.2]
    exact Function.update_of_ne hi.1 _ _

theorem fold_mem (f : Component → Level) (r : List Component) (hn : (r.map Component.id).Nodup) : ∀ (m : Map) (c : Component), c ∈ r →
    (r.foldl (fun m c => Map.set m c.id (f c)) m) c.id = some (f c) := by
  induction r with
  | nil => intro m c h; cases h
  | cons d r ih =>
    intro m c hc
    simp only [List.map_cons, List.nodup_cons] at hn
    show (r.foldl _ (Map.set m d.id (f d))) c.id = _
    rcases List.mem_cons.1 hc with rfl | hc
    · rw [fold_set f r _ _ hn.1]
      exact Function.update_self _ _ _
    · exact ih hn.2 _ c hc

/-- **C205.** Under the fixed threshold `t > 0`, with unique identifiers and weights that do not sum to 0: a component of score `s` gets full TMR exactly if `s ≥ t`, health-weighted
exactly if `0.8 t ≤ s < t`, approximate exactly if `0.6 t ≤ s < 0.8 t`, a checksum exactly if `0.4 t ≤ s < 0.6 t`, otherwise nothing; no other entry exists. -/
theorem C205_threshold (cfg : Config) (h : cfg.weights.values.sum ≠ 0) (ht : 0 < cfg.threshold) (r : List Component) (hn : (r.map Component.id).Nodup) :
    (∀ i, i ∉ r.map Component.id → fixedThreshold cfg r i = none) ∧
    ∀ c ∈ r, ∃ l, fixedThreshold cfg r c.id = some l ∧
      (l = .full ↔ cfg.threshold ≤ mean c.crit.values cfg.weights.values) ∧
      (l = .health ↔ 8 / 10 * cfg.threshold ≤ mean c.crit.values cfg.weights.values ∧ mean c.crit.values cfg.weights.values < cfg.threshold) ∧
      (l = .approximate ↔ 6 / 10 * cfg.threshold ≤ mean c.crit.values cfg.weights.values ∧ mean c.crit.values cfg.weights.values < 8 / 10 * cfg.threshold) ∧
      (l = .checksum ↔ 4 / 10 * cfg.threshold ≤ mean c.crit.values cfg.weights.values ∧ mean c.crit.values cfg.weights.values < 6 / 10 * cfg.threshold) ∧
      (l = .none ↔ mean c.crit.values cfg.weights.values < 4 / 10 * cfg.threshold) := by
  refine ⟨fun i hi => fold_set _ r _ i hi, fun c hc => ⟨_, fold_mem _ r hn _ c hc, ?_⟩⟩
  unfold Component.score
  rw [C203_mean _ _ h]
  generalize mean c.crit.values cfg.weights.values = s
  unfold levelFor
  simp only [XD.le_fin]
  by_cases h1 : cfg.threshold ≤ s
  · rw [if_pos h1]
    refine ⟨by simp [h1], ?_, ?_, ?_, ?_⟩ <;> simp <;> intros <;> linarith
  · by_cases h2 : cfg.threshold * (8 / 10) ≤ s
    · rw [if_neg h1, if_pos h2]
      refine ⟨by simp [h1], ?_, ?_, ?_, ?_⟩ <;> simp <;> first | (constructor <;> linarith) | (intros; linarith) | linarith
    · by_cases h3 : cfg.threshold * (6 / 10) ≤ s
      · rw [if_neg h1, if_neg h2, if_pos h3]
        refine ⟨by simp [h1], ?_, ?_, ?_, ?_⟩ <;> simp <;> first | (constructor <;> linarith) | (intros; linarith) | linarith
      · by_cases h4 : cfg.threshold * (4 / 10) ≤ s
        · rw [if_neg h1, if_neg h2, if_neg h3, if_pos h4]
          refine ⟨by simp [h1], ?_, ?_, ?_, ?_⟩ <;> simp <;> first | (constructor <;> linarith) | (intros; linarith) | linarith
        · rw [if_neg h1, if_neg h2, if_neg h3, if_neg h4]
          refine ⟨by simp [h1], ?_, ?_, ?_, ?_⟩ <;> simp <;> first | (constructor <;> linarith) | (intros; linarith) | linarith

/-- **C205 (order).** Of two components the one with the higher score is never protected less, for thresholds that are not negative. -/
theorem C205_order (t a b : ℝ) (ht : 0 ≤ t) (h : a ≤ b) : (levelFor t (.fin a)).rank ≤ (levelFor t (.fin b)).rank := by
  unfold levelFor
  simp only [XD.le_fin]
  split_ifs <;> first | (exfalso; linarith) | decide

/-- **C205 (negative thresholds, limit).** With a negative threshold the steps are reversed: a component just below the threshold gets nothing at all. -/
theorem C205_negative_limit (t s : ℝ) (ht : t < 0) (hs : s < t) : levelFor t (.fin s) = .none := by
  unfold levelFor
  simp only [XD.le_fin]
  rw [if_neg (by linarith), if_neg (by linarith), if_neg (by linarith), if_neg (by linarith)]

/-! ### C206: resource budget -/

/-- The components at their level: what a map costs, one entry per component. -/
noncomputable def bill (r : List Component) (m : Map) : ℝ := (r.map fun c => match m c.id with | some l => price c l | none => 0).sum

theorem find_self (r : List Component) (hn : (r.map Component.id).Nodup) (c : Component) (hc : c ∈ r) : r.find? (fun d => decide (d.id = c.id)) = some c := by
  induction r with
  | nil => cases hc
  | cons d r ih =>
    simp only [List.map_cons, List.nodup_cons] at hn
    rcases List.mem_cons.1 hc with rfl | hc
    · simp
    · have hne : d.id ≠ c.id := fun e => hn.1 (e ▸ List.mem_map_of_mem hc)
      rw [List.find?_cons_of_neg (by simpa using hne)]
      exact ih hn.2 hc

/-- With unique identifiers the reported usage is what the components cost at their levels. -/
theorem usage_eq (r : List Component) (hn : (r.map Component.id).Nodup) (m : Map) : usage r m = bill r m := by
  unfold usage bill
  rw [hn.dedup, List.map_map]
  congr 1
  apply List.map_congr_left
  intro c hc
  simp only [Function.comp]
  rw [find_self r hn c hc]
  cases m c.id <;> rfl

theorem bill_set (r : List Component) (m : Map) (i : String) (l : Level) (h : i ∉ r.map Component.id) : bill r (m.set i l) = bill r m := by
  unfold bill
  congr 1
  apply List.map_congr_left
  intro c hc
  have : c.id ≠ i := fun e => h (e ▸ List.mem_map_of_mem hc)
  simp only [Map.set, Function.update_of_ne this]

theorem affordable_some {b u : ℝ} {c : Component} {l : Level} (h : affordable b u c = some l) : u + price c l ≤ b ∧ l ∈ [Level.full, .health, .approximate, .checksum] := by
  unfold affordable at h
  exact ⟨by simpa using List.find?_some h, List.mem_of_find?_eq_some h⟩

theorem allocate_keeps (b : ℝ) (r : List Component) : ∀ (m : Map) (u : ℝ) (i : String), i ∉ r.map Component.id → (allocate b r m u).1 i = m i := by
  induction r with
  | nil => intro m u i _; rfl
  | cons c r ih =>
    intro m u i hi
    simp only [List.map_cons, List.mem_cons, not_or] at hi
    have hs : ∀ l, (Map.set m c.id l) i = m i := fun l => Function.update_of_ne hi.1 _ _
    unfold allocate
    split
    · split
      · exact hs _
      · rw [ih _ _ i hi.2, hs]
    · split
      · rfl
      · exact ih _ _ i hi.2

/-- Running the loop over components without a protection yet: usage is what they cost and stays within the budget. -/
theorem allocate_bill (b : ℝ) (r : List Component) (hn : (r.map Component.id).Nodup) : ∀ (m : Map) (u : ℝ), (∀ c ∈ r, m c.id = some .none) → u ≤ b →
    (allocate b r m u).2 = u + bill r (allocate b r m u).1 ∧ (allocate b r m u).2 ≤ b := by
  induction r with
  | nil => intro m u _ hu; exact ⟨by simp [allocate, bill], hu⟩
  | cons c r ih =>
    intro m u hm hu
    simp only [List.map_cons, List.nodup_cons] at hn
    have hz : ∀ m' : Map, (∀ d ∈ r, m' d.id = some .none) → bill r m' = 0 := by
      intro m' h'
      unfold bill
      apply List.sum_eq_zero
      intro x hx
      obtain ⟨d, hd, rfl⟩ := List.mem_map.1 hx
      rw [h' d hd]; simp [price, cost]
    have hkeep : ∀ l, ∀ d ∈ r, (Map.set m c.id l) d.id = some .none := by
      intro l d hd
      have : d.id ≠ c.id := fun e => hn.1 (e ▸ List.mem_map_of_mem hd)
      show Function.update m c.id (some l) d.id = _
      rw [Function.update_of_ne this]
      exact hm d (List.mem_cons_of_mem _ hd)
    have hc : m c.id = some .none := hm c List.mem_cons_self
    have hbill : ∀ m' : Map, bill (c :: r) m' = (match m' c.id with | some l => price c l | none => 0) + bill r m' := fun m' => by
      simp [bill]
    cases ha : affordable b u c with
    | some l =>
      obtain ⟨h1, _⟩ := affordable_some ha
      by_cases hb : b ≤ u + price c l
      · have e : allocate b (c :: r) m u = (m.set c.id l, u + price c l) := by
          rw [allocate, ha]; simp only [if_pos hb]
        rw [e]
        refine ⟨?_, h1⟩
        rw [hbill, hz _ (hkeep l)]
        simp [Map.set]
      · have e : allocate b (c :: r) m u = allocate b r (m.set c.id l) (u + price c l) := by
          rw [allocate, ha]; simp only [if_neg hb]
        rw [e]
        obtain ⟨i1, i2⟩ := ih hn.2 (m.set c.id l) (u + price c l) (hkeep l) h1
        refine ⟨?_, i2⟩
        rw [hbill, allocate_keeps b r _ _ c.id hn.1]
        rw [i1]
        simp [Map.set, add_assoc]
    | none =>
      by_cases hb : b ≤ u
      · have e : allocate b (c :: r) m u = (m, u) := by rw [allocate, ha]; simp only [if_pos hb]
        rw [e]
        refine ⟨?_, hu⟩
        rw [hbill, hz m (fun d hd => hm d (List.mem_cons_of_mem _ hd))]
        simp [hc, price, cost]
      · have e : allocate b (c :: r) m u = allocate b r m u := by rw [allocate, ha]; simp only [if_neg hb]
        rw [e]
        obtain ⟨i1, i2⟩ := ih hn.2 m u (fun d hd => hm d (List.mem_cons_of_mem _ hd)) hu
        refine ⟨?_, i2⟩
        rw [hbill, allocate_keeps b r _ _ c.id hn.1, hc, i1]
        simp [price, cost]

theorem init_none (r : List Component) (hn : (r.map Component.id).Nodup) (c : Component) (hc : c ∈ r) :
    (r.foldl (fun m c => Map.set m c.id .none) fun _ => none) c.id = some .none := fold_mem (fun _ => .none) r hn _ c hc

/-- **C206.** For every network with unique identifiers and every budget that is not negative the resource usage reported after the constrained strategy is what the components cost at
their levels, and it is within the budget. -/
theorem C206_budget (cfg : Config) (hb : 0 ≤ cfg.budget) (r : List Component) (hn : (r.map Component.id).Nodup) :
    usage r (constrained cfg r).1 = bill r (constrained cfg r).1 ∧ usage r (constrained cfg r).1 ≤ cfg.budget ∧ (constrained cfg r).2 = usage r (constrained cfg r).1 := by
  obtain ⟨h1, h2⟩ := allocate_bill cfg.budget r hn _ 0 (fun c hc => init_none r hn c hc) hb
  rw [zero_add] at h1
  refine ⟨usage_eq r hn _, ?_, ?_⟩
  · rw [usage_eq r hn]
    show bill r (allocate _ _ _ _).1 ≤ _
    rw [← h1]; exact h2
  · rw [usage_eq r hn]; exact h1

/-- **C206 (entries).** Every component gets a level, one of none, checksum, approximate, health-weighted and full; nothing else is entered. -/
theorem C206_entries (cfg : Config) (r : List Component) (hn : (r.map Component.id).Nodup) :
    (∀ i, i ∉ r.map Component.id → (constrained cfg r).1 i = none) ∧
    ∀ c ∈ r, ∃ l, (constrained cfg r).1 c.id = some l ∧ l ∈ [Level.none, .checksum, .approximate, .health, .full] := by
  constructor
  · intro i hi
    show (allocate _ r _ _).1 i = none
    rw [allocate_keeps _ r _ _ i hi, fold_set (fun _ => .none) r _ i hi]
  · have key : ∀ (r : List Component) (m : Map) (u : ℝ) (i : String), (∃ l, m i = some l ∧ l ∈ [Level.none, .checksum, .approximate, .health, .full]) →
        ∃ l, (allocate cfg.budget r m u).1 i = some l ∧ l ∈ [Level.none, .checksum, .approximate, .health, .full] := by
      intro r
      induction r with
      | nil => intro m u i h; exact h
      | cons c r ih =>
        intro m u i h
        have hs : ∀ l, affordable cfg.budget u c = some l → ∃ l', (Map.set m c.id l) i = some l' ∧ l' ∈ [Level.none, .checksum, .approximate, .health, .full] := by
          intro l hl
          have := (affordable_some hl).2
          by_cases e : i = c.id
          · subst e
            exact ⟨l, Function.update_self _ _ _, by revert this; cases l <;> simp⟩
          · obtain ⟨l', h1, h2⟩ := h
            exact ⟨l', by show Function.update _ _ _ _ = _; rw [Function.update_of_ne e]; exact h1, h2⟩
        unfold allocate
        split
        · next l hl =>
          split
          · exact hs l hl
          · exact ih _ _ i (hs l hl)
        · split
          · exact h
          · exact ih _ _ i h
    intro c hc
    exact key r _ 0 c.id ⟨.none, init_none r hn c hc, by simp⟩

/-- **C206 (best possible).** The most critical component gets the highest level that fits the whole budget, and none if none does. -/
theorem C206_first (cfg : Config) (c : Component) (r : List Component) (hn : ((c :: r).map Component.id).Nodup) :
    (constrained cfg (c :: r)).1 c.id = some ((affordable cfg.budget 0 c).getD .none) ∧
    (∀ l, affordable cfg.budget 0 c = some l → price c l ≤ cfg.budget ∧ ∀ l' ∈ [Level.checksum, .approximate, .health, .full], l.rank < l'.rank → cfg.budget < price c l') ∧
    (affordable cfg.budget 0 c = none → ∀ l' ∈ [Level.checksum, .approximate, .health, .full], cfg.budget < price c l') := by
  have hnn := hn
  simp only [List.map_cons, List.nodup_cons] at hn
  refine ⟨?_, ?_, ?_⟩
  · show (allocate _ (c :: r) _ 0).1 c.id = _
    have hi := init_none (c :: r) hnn c List.mem_cons_self
    rw [allocate]
    cases ha : affordable cfg.budget 0 c with
    | some l =>
      simp only []
      split
      · exact Function.update_self _ _ _
      · rw [allocate_keeps _ r _ _ _ hn.1]; exact Function.update_self _ _ _
    | none =>
      simp only []
      split
      · exact hi
      · rw [allocate_keeps _ r _ _ _ hn.1]; exact hi
  · intro l hl
    refine ⟨by simpa using (affordable_some hl).1, ?_⟩
    unfold affordable at hl
    simp only [zero_add, List.find?_cons, List.find?_nil] at hl
    by_cases p1 : price c .full ≤ cfg.budget
    · simp only [p1, decide_true] at hl
      cases hl
      intro l' hl' hr
      revert hr hl'; cases l' <;> simp [Level.rank]
    · simp only [decide_eq_false p1] at hl
      have q1 := not_le.1 p1
      by_cases p2 : price c .health ≤ cfg.budget
      · simp only [p2, decide_true] at hl
        cases hl
        intro l' hl' hr
        revert hr hl'; cases l' <;> simp [Level.rank, q1]
      · simp only [decide_eq_false p2] at hl
        have q2 := not_le.1 p2
        by_cases p3 : price c .approximate ≤ cfg.budget
        · simp only [p3, decide_true] at hl
          cases hl
          intro l' hl' hr
          revert hr hl'; cases l' <;> simp [Level.rank, q1, q2]
        · simp only [decide_eq_false p3] at hl
          have q3 := not_le.1 p3
          by_cases p4 : price c .checksum ≤ cfg.budget
          · simp only [p4, decide_true] at hl
            cases hl
            intro l' hl' hr
            revert hr hl'; cases l' <;> simp [Level.rank, q1, q2, q3]
          · simp only [decide_eq_false p4] at hl
            cases hl
  · intro ha l' hl'
    unfold affordable at ha
    rw [List.find?_eq_none] at ha
    have := ha l' (by simp at hl' ⊢; tauto)
    simp only [zero_add, decide_eq_true_eq, not_le] at this
    exact this

/-- How many components have a protection. -/
noncomputable def protectedCount (r : List Component) (m : Map) : ℕ := (r.filter fun c => decide (∃ l, m c.id = some l ∧ l ≠ .none)).length

theorem cost_le_bill (r : List Component) (m : Map) (hc : ∀ c ∈ r, 0 ≤ c.crit.complexity)
    (hl : ∀ c ∈ r, ∃ l, m c.id = some l ∧ l ∈ [Level.none, .checksum, .approximate, .health, .full]) : (protectedCount r m : ℝ) * (5 / 100) ≤ bill r m := by
  induction r with
  | nil => simp [protectedCount, bill]
  | cons c r ih =>
    have i := ih (fun d hd => hc d (List.mem_cons_of_mem _ hd)) (fun d hd => hl d (List.mem_cons_of_mem _ hd))
    obtain ⟨l, h1, h2⟩ := hl c List.mem_cons_self
    have h3 := hc c List.mem_cons_self
    have hb : bill (c :: r) m = price c l + bill r m := by simp [bill, h1]
    rw [hb]
    by_cases hn : l = .none
    · have : protectedCount (c :: r) m = protectedCount r m := by
        unfold protectedCount
        rw [List.filter_cons_of_neg (by simp [h1, hn])]
      rw [this, hn]
      simp [price, cost]; linarith
    · have : protectedCount (c :: r) m = protectedCount r m + 1 := by
        unfold protectedCount
        rw [List.filter_cons_of_pos (by simp [h1, hn])]; rfl
      rw [this]
      have hp : 5 / 100 ≤ price c l := by
        unfold price
        have hcost : 5 / 100 ≤ cost l := by
          revert h2 hn; cases l <;> simp [cost] <;> norm_num
        nlinarith
      push_cast
      linarith

/-- **C206 (default budget, violated).** The budget is a share of the resources, but costs are counted per component: in the default configuration no network of any size gets more than six
protected components, and none ever gets full TMR. -/
theorem C206_default_violated (r : List Component) (hn : (r.map Component.id).Nodup) (hc : ∀ c ∈ r, 0 ≤ c.crit.complexity) :
    protectedCount r (constrained .default r).1 ≤ 6 ∧ ∀ c ∈ r, (constrained .default r).1 c.id ≠ some .full := by
  have hb := C206_budget .default (by norm_num [Config.default]) r hn
  have he := (C206_entries .default r hn).2
  rw [hb.1] at hb
  have hbud : Config.default.budget = 3 / 10 := rfl
  rw [hbud] at hb
  constructor
  · have := (cost_le_bill r _ hc he).trans hb.2.1
    have : (protectedCount r (constrained .default r).1 : ℝ) ≤ 6 := by linarith
    exact_mod_cast this
  · intro c hmem hf
    have hpos : ∀ x ∈ r.map (fun c => match (constrained .default r).1 c.id with | some l => price c l | none => 0), 0 ≤ x := by
      intro x hx
      obtain ⟨d, hd, rfl⟩ := List.mem_map.1 hx
      have h3 := hc d hd
      obtain ⟨l, h1, h2⟩ := he d hd
      rw [h1]
      show 0 ≤ price d l
      unfold price
      have : 0 ≤ cost l := by cases l <;> norm_num [cost]
      exact mul_nonneg this (by linarith)
    have := List.single_le_sum hpos _ (List.mem_map_of_mem hmem)
    rw [hf] at this
    have h3 := hc c hmem
    have hfull : price c .full ≤ bill r (constrained .default r).1 := this
    have : (33:ℝ) / 100 ≤ price c .full := by unfold price cost; nlinarith
    linarith [hb.2.1]

/-- **C206 (order, violated).** The more critical of two components may go without protection while the less critical one gets a checksum: complexity raises both score and cost. -/
theorem C206_order_violated : ∃ a b : Component, a.id ≠ b.id ∧ Ranked {} [b, a] [a, b] ∧ XD.lt (b.score {}) (a.score {}) ∧
    (constrained ⟨.constrained, 1, 33 / 100, {}⟩ [a, b]).1 a.id = some .health ∧
    ∃ c : Config, c.weights = {} ∧ (constrained c [a, b]).1 a.id = some .none ∧ (constrained c [a, b]).1 b.id = some .checksum := by
  let a : Component := ⟨"a", "x", ⟨1, 1, 1, 3 / 10, 1⟩⟩
  let b : Component := ⟨"b", "x", ⟨0, 0, 0, 0, 0⟩⟩
  have hs : ({} : Weights).values.sum ≠ 0 := by norm_num [Weights.values]
  have sa : a.score {} = .fin (93 / 100) := by
    unfold Component.score; rw [C203_mean _ _ hs]; norm_num [mean, Weights.values, Metrics.values, a]
  have sb : b.score {} = .fin 0 := by
    unfold Component.score; rw [C203_mean _ _ hs]; norm_num [mean, Weights.values, Metrics.values, b]
  have pa : ∀ l, price a l = cost l * (13 / 10) := fun l => by unfold price; norm_num [a]
  have pb : ∀ l, price b l = cost l := fun l => by unfold price; norm_num [b]
  have hnd : ([a, b].map Component.id).Nodup := by simp [a, b]
  refine ⟨a, b, by simp [a, b], ⟨List.Perm.swap _ _ _, ?_⟩, ?_, ?_, ⟨.constrained, 1, 6 / 100, {}⟩, rfl, ?_, ?_⟩
  · refine List.Pairwise.cons ?_ (List.pairwise_singleton _ _)
    intro c hc
    rw [List.mem_singleton.1 hc, sa, sb, XD.lt_fin]; norm_num
  · rw [sa, sb, XD.lt_fin]; norm_num
  · have h1 : affordable (33 / 100) 0 a = some .health := by
      unfold affordable
      simp only [pa, cost, List.find?_cons]
      norm_num
    have := (C206_first ⟨.constrained, 1, 33 / 100, {}⟩ a [b] hnd).1
    rw [this]
    show some ((affordable (33 / 100) 0 a).getD .none) = _
    rw [h1]; rfl
  · have h1 : affordable (6 / 100) 0 a = none := by
      unfold affordable
      simp only [pa, cost, List.find?_cons, List.find?_nil]
      norm_num
    have := (C206_first ⟨.constrained, 1, 6 / 100, {}⟩ a [b] hnd).1
    rw [this]
    show some ((affordable (6 / 100) 0 a).getD .none) = _
    rw [h1]; rfl
  · have h1 : affordable (6 / 100) 0 a = none := by
      unfold affordable
      simp only [pa, cost, List.find?_cons, List.find?_nil]
      norm_num
    have h2 : affordable (6 / 100) 0 b = some .checksum := by
      unfold affordable
      simp only [pb, cost, List.find?_cons, List.find?_nil]
      norm_num
    show (allocate (6 / 100) [a, b] _ 0).1 b.id = _
    rw [allocate, h1]
    simp only []
    rw [if_neg (by norm_num), allocate, h2]
    simp only []
    split
    · simp [Map.set]
    · simp [allocate, Map.set]

/-! Cases for the hypotheses of C204-C206. -/

/-- Two components in one layer. -/
noncomputable def sample : List Component := [⟨"a", "x", ⟨1, 1, 1, 0, 1⟩⟩, ⟨"b", "x", ⟨1 / 2, 0, 0, 0, 0⟩⟩]

example : ({} : Weights).values.sum ≠ 0 ∧ (sample.map Component.id).Nodup ∧ (0:ℝ) ≤ Config.default.budget ∧ ∀ c ∈ sample, 0 ≤ c.crit.complexity := by
  refine ⟨by norm_num [Weights.values], by simp [sample], by norm_num [Config.default], ?_⟩
  intro c hc
  simp only [sample, List.mem_cons, List.not_mem_nil, or_false] at hc
  rcases hc with rfl | rfl <;> simp

example : layerCriticality {} sample "y" = none := (C204_layers {} (by norm_num [Weights.values]) sample "y").1.2 (by simp [sample])

/-! ### C207: layer importance -/

/-- The levels at their price without complexity: what the layerwise strategy compares with the budget. -/
noncomputable def levelBill (r : List Component) (m : Map) : ℝ := (r.map fun c => cost ((m c.id).getD .none)).sum

theorem cost_nonneg (l : Level) : 0 ≤ cost l := by cases l <;> norm_num [cost]

theorem assign_keeps (cfg : Config) (ls : List String) (r : List Component) : ∀ (m : Map) (u : ℝ) (i : String), i ∉ r.map Component.id → (assign cfg ls r m u).1 i = m i := by
  induction r with
  | nil => intro m u i _; rfl
  | cons c r ih =>
    intro m u i hi
    simp only [List.map_cons, List.mem_cons, not_or] at hi
    have hs : ∀ l, (Map.set m c.id l) i = m i := fun l => Function.update_of_ne hi.1 _ _
    unfold assign
    split
    · simp only []
      split
      · rw [ih _ _ i hi.2, hs]
      · rw [ih _ _ i hi.2, hs]
    · exact ih _ _ i hi.2

/-- One step of the loop for a component whose layer is listed. -/
theorem assign_cons (cfg : Config) (ls : List String) (c : Component) (r : List Component) (m : Map) (u : ℝ) (h : c.layer ∈ ls) :
    assign cfg ls (c :: r) m u =
      if u + cost (wanted cfg.weights (ls.idxOf c.layer) ls.length c) ≤ cfg.budget
      then assign cfg ls r (m.set c.id (wanted cfg.weights (ls.idxOf c.layer) ls.length c)) (u + cost (wanted cfg.weights (ls.idxOf c.layer) ls.length c))
      else assign cfg ls r (m.set c.id .none) u := by
  rw [assign, if_pos h]

theorem assign_spec (cfg : Config) (ls : List String) (r : List Component) (hn : (r.map Component.id).Nodup) (hl : ∀ c ∈ r, c.layer ∈ ls) : ∀ (m : Map) (u : ℝ), u ≤ cfg.budget →
    (assign cfg ls r m u).2 = u + levelBill r (assign cfg ls r m u).1 ∧ (assign cfg ls r m u).2 ≤ cfg.budget ∧
    ∀ c ∈ r, (assign cfg ls r m u).1 c.id = some (wanted cfg.weights (ls.idxOf c.layer) ls.length c) ∨
      ((assign cfg ls r m u).1 c.id = some .none ∧ cfg.budget < (assign cfg ls r m u).2 + cost (wanted cfg.weights (ls.idxOf c.layer) ls.length c)) := by
  induction r with
  | nil => intro m u hu; exact ⟨by simp [assign, levelBill], hu, fun c hc => by cases hc⟩
  | cons c r ih =>
    intro m u hu
    simp only [List.map_cons, List.nodup_cons] at hn
    have hcl := hl c List.mem_cons_self
    have hbill : ∀ m' : Map, levelBill (c :: r) m' = cost ((m' c.id).getD .none) + levelBill r m' := fun m' => by simp [levelBill]
    have grow : ∀ m' : Map, 0 ≤ levelBill r m' := by
      intro m'
      apply List.sum_nonneg
      intro x hx
      obtain ⟨d, _, rfl⟩ := List.mem_map.1 hx
      exact cost_nonneg _
    rw [assign_cons cfg ls c r m u hcl]
    by_cases hb : u + cost (wanted cfg.weights (ls.idxOf c.layer) ls.length c) ≤ cfg.budget
    · rw [if_pos hb]
      obtain ⟨i1, i2, i3⟩ := ih hn.2 (fun d hd => hl d (List.mem_cons_of_mem _ hd)) (m.set c.id (wanted cfg.weights (ls.idxOf c.layer) ls.length c)) _ hb
      have hk : (assign cfg ls r (m.set c.id (wanted cfg.weights (ls.idxOf c.layer) ls.length c)) (u + cost (wanted cfg.weights (ls.idxOf c.layer) ls.length c))).1 c.id =
          some (wanted cfg.weights (ls.idxOf c.layer) ls.length c) := by
        rw [assign_keeps cfg ls r _ _ _ hn.1]; exact Function.update_self _ _ _
      refine ⟨?_, i2, ?_⟩
      · rw [hbill, hk, Option.getD_some, i1, add_assoc]
      · intro d hd
        rcases List.mem_cons.1 hd with rfl | hd
        · exact Or.inl hk
        · exact i3 d hd
    · rw [if_neg hb]
      obtain ⟨i1, i2, i3⟩ := ih hn.2 (fun d hd => hl d (List.mem_cons_of_mem _ hd)) (m.set c.id .none) u hu
      have hk : (assign cfg ls r (m.set c.id .none) u).1 c.id = some .none := by
        rw [assign_keeps cfg ls r _ _ _ hn.1]; exact Function.update_self _ _ _
      refine ⟨?_, i2, ?_⟩
      · rw [hbill, hk, Option.getD_some, i1]; simp [cost]
      · intro d hd
        rcases List.mem_cons.1 hd with rfl | hd
        · refine Or.inr ⟨hk, ?_⟩
          rw [i1]
          have := grow (assign cfg ls r (m.set d.id .none) u).1
          linarith [not_le.1 hb]
        · exact i3 d hd

/-- **C207.** For every network with unique identifiers and every budget that is not negative: every component gets an entry, its level is the one wanted for it or none, none only if what the
others got leaves too little of the budget for it, and the levels' prices (without complexity) stay within the budget. -/
theorem C207_budget (cfg : Config) (hb : 0 ≤ cfg.budget) (cs r : List Component) (ls : List String) (hr : r.Perm cs) (hl : Layers cfg.weights cs ls) (hn : (r.map Component.id).Nodup) :
    levelBill r (layerwise cfg ls r).1 ≤ cfg.budget ∧
    (∀ i, i ∉ r.map Component.id → (layerwise cfg ls r).1 i = none) ∧
    ∀ c ∈ r, (layerwise cfg ls r).1 c.id = some (wanted cfg.weights (ls.idxOf c.layer) ls.length c) ∨
      ((layerwise cfg ls r).1 c.id = some .none ∧ cfg.budget < levelBill r (layerwise cfg ls r).1 + cost (wanted cfg.weights (ls.idxOf c.layer) ls.length c)) := by
  have hmem : ∀ c ∈ r, c.layer ∈ ls := fun c hc => (hl.2.1 _).2 ⟨c, hr.mem_iff.1 hc, rfl⟩
  obtain ⟨h1, h2, h3⟩ := assign_spec cfg ls r hn hmem (fun _ => none) 0 hb
  rw [zero_add] at h1
  refine ⟨?_, fun i hi => assign_keeps cfg ls r _ _ i hi, fun c hc => ?_⟩
  · show levelBill r (assign cfg ls r _ 0).1 ≤ _
    rw [← h1]; exact h2
  · rcases h3 c hc with h | ⟨h, h'⟩
    · exact Or.inl h
    · refine Or.inr ⟨h, ?_⟩
      show _ < levelBill r (assign cfg ls r _ 0).1 + _
      rw [← h1]; exact h'

/-- **C207 (levels).** The level wanted for a component follows the place of its layer: among the top fifth of the layers full TMR, in the next fifths health-weighted, approximate, checksum and
nothing, one step more if the component's own score exceeds 0.8.  `pos` is the number of layers that come before; places on a boundary are left out. -/
theorem C207_levels (w : Weights) (h : w.values.sum ≠ 0) (pos n : ℕ) (hp : pos < n) (c : Component) :
    (5 * pos < n → wanted w pos n c = .full) ∧
    (n < 5 * pos → 5 * pos < 2 * n → wanted w pos n c = if 8 / 10 < mean c.crit.values w.values then .full else .health) ∧
    (2 * n < 5 * pos → 5 * pos < 3 * n → wanted w pos n c = if 8 / 10 < mean c.crit.values w.values then .health else .approximate) ∧
    (3 * n < 5 * pos → 5 * pos < 4 * n → wanted w pos n c = if 8 / 10 < mean c.crit.values w.values then .approximate else .checksum) ∧
    (4 * n < 5 * pos → wanted w pos n c = if 8 / 10 < mean c.crit.values w.values then .checksum else .none) := by
  have hn : (0:ℝ) < n := by exact_mod_cast (Nat.zero_le _).trans_lt hp
  have hlt : ∀ k : ℕ, (5 * pos < k * n → (pos:ℝ) / n < k / 5) ∧ (k * n < 5 * pos → (k:ℝ) / 5 < pos / n) := by
    intro k
    constructor
    · intro h
      rw [div_lt_div_iff₀ hn (by norm_num)]
      have : (5 * pos : ℝ) < k * n := by exact_mod_cast h
      linarith
    · intro h
      rw [div_lt_div_iff₀ (by norm_num) hn]
      have : (k * n : ℝ) < 5 * pos := by exact_mod_cast h
      linarith
  have hs : XD.lt (.fin (8 / 10)) (c.score w) ↔ 8 / 10 < mean c.crit.values w.values := by
    unfold Component.score; rw [C203_mean _ _ h, XD.lt_fin]
  have lvl : ∀ l, layerLevel pos n = l → wanted w pos n c = if 8 / 10 < mean c.crit.values w.values then upgrade l else l := by
    intro l hl
    unfold wanted
    rw [hl]
    by_cases hc : 8 / 10 < mean c.crit.values w.values
    · rw [if_pos hc, if_pos (hs.2 hc)]
    · rw [if_neg hc, if_neg (fun h => hc (hs.1 h))]
  refine ⟨fun a => ?_, fun a b => ?_, fun a b => ?_, fun a b => ?_, fun a => ?_⟩
  · have a' := (hlt 1).1 (by omega)
    push_cast at a'
    rw [lvl .full (by unfold layerLevel; simp only []; rw [if_pos (by linarith)])]
    simp [upgrade]
  · have a' := (hlt 1).2 (by omega)
    have b' := (hlt 2).1 (by omega)
    push_cast at a' b'
    rw [lvl .health (by unfold layerLevel; simp only []; rw [if_neg (by linarith), if_pos (by linarith)])]
    rfl
  · have a' := (hlt 2).2 (by omega)
    have b' := (hlt 3).1 (by omega)
    push_cast at a' b'
    rw [lvl .approximate (by unfold layerLevel; simp only []; rw [if_neg (by linarith), if_neg (by linarith), if_pos (by linarith)])]
    rfl
  · have a' := (hlt 3).2 (by omega)
    have b' := (hlt 4).1 (by omega)
    push_cast at a' b'
    rw [lvl .checksum (by unfold layerLevel; simp only []; rw [if_neg (by linarith), if_neg (by linarith), if_neg (by linarith), if_pos (by linarith)])]
    rfl
  · have a' := (hlt 4).2 (by omega)
    push_cast at a'
    rw [lvl .none (by unfold layerLevel; simp only []; rw [if_neg (by linarith), if_neg (by linarith), if_neg (by linarith), if_neg (by linarith)])]
    rfl

theorem levelBill_le (r : List Component) (m : Map) (f : Component → Level) (h : ∀ c ∈ r, m c.id = some (f c) ∨ m c.id = some .none) : levelBill r m ≤ (r.map fun c => cost (f c)).sum := by
  unfold levelBill
  apply List.sum_le_sum
  intro c hc
  rcases h c hc with e | e <;> rw [e]
  · exact le_refl _
  · exact cost_nonneg _

/-- **C207 (enough budget).** If the budget covers the wanted levels of all components, every component gets the wanted one. -/
theorem C207_enough (cfg : Config) (cs r : List Component) (ls : List String) (hr : r.Perm cs) (hl : Layers cfg.weights cs ls) (hn : (r.map Component.id).Nodup)
    (he : (r.map fun c => cost (wanted cfg.weights (ls.idxOf c.layer) ls.length c)).sum ≤ cfg.budget) :
    ∀ c ∈ r, (layerwise cfg ls r).1 c.id = some (wanted cfg.weights (ls.idxOf c.layer) ls.length c) := by
  have h0 : 0 ≤ cfg.budget := le_trans (List.sum_nonneg (fun x hx => by
    obtain ⟨d, _, rfl⟩ := List.mem_map.1 hx
    exact cost_nonneg _)) he
  obtain ⟨-, -, h3⟩ := C207_budget cfg h0 cs r ls hr hl hn
  intro c hc
  rcases h3 c hc with h | ⟨h, h'⟩
  · exact h
  · by_cases hw : wanted cfg.weights (ls.idxOf c.layer) ls.length c = .none
    · rw [h, hw]
    · exfalso
      obtain ⟨s, t, rfl⟩ := List.append_of_mem hc
      have hst : ∀ (q : List Component), (∀ d ∈ q, d ∈ s ++ c :: t) → levelBill q (layerwise cfg ls (s ++ c :: t)).1 ≤ (q.map fun c => cost (wanted cfg.weights (ls.idxOf c.layer) ls.length c)).sum := by
        intro q hq
        apply levelBill_le
        intro d hd
        rcases h3 d (hq d hd) with e | e
        · exact Or.inl e
        · exact Or.inr e.1
      have e1 := hst s (fun d hd => by simp [hd])
      have e2 := hst t (fun d hd => by simp [hd])
      have e3 : levelBill (s ++ c :: t) (layerwise cfg ls (s ++ c :: t)).1 =
          levelBill s (layerwise cfg ls (s ++ c :: t)).1 + levelBill t (layerwise cfg ls (s ++ c :: t)).1 := by
        simp only [levelBill, List.map_append, List.map_cons, List.sum_append, List.sum_cons]
        rw [h]
        simp [cost]
      simp only [List.map_append, List.map_cons, List.sum_append, List.sum_cons] at he
      rw [e3] at h'
      linarith

/-- **C207 (default budget, violated).** In the default configuration no component of the most critical layer gets any protection: full TMR exceeds the budget, and no lower level is tried. -/
theorem C207_default_violated (cs r : List Component) (ls : List String) (hr : r.Perm cs) (hl : Layers Config.default.weights cs ls) (hn : (r.map Component.id).Nodup)
    (c : Component) (hc : c ∈ r) (hf : ls.idxOf c.layer = 0) : (layerwise { Config.default with strategy := .layerwise } ls r).1 c.id = some .none := by
  have hcl : c.layer ∈ ls := (hl.2.1 _).2 ⟨c, hr.mem_iff.1 hc, rfl⟩
  have hpos : 0 < ls.length := List.length_pos_of_mem hcl
  obtain ⟨h1, -, h3⟩ := C207_budget { Config.default with strategy := .layerwise } (by norm_num [Config.default]) cs r ls hr hl hn
  have hw : wanted Config.default.weights (ls.idxOf c.layer) ls.length c = .full :=
    (C207_levels Config.default.weights (by rw [values_sum, default_sum]; norm_num) _ _ (by rw [hf]; exact hpos) c).1 (by omega)
  rcases h3 c hc with h | h
  · exfalso
    have hb : (33:ℝ) / 100 ≤ levelBill r (layerwise { Config.default with strategy := .layerwise } ls r).1 := by
      have := List.single_le_sum (l := r.map fun c => cost (((layerwise { Config.default with strategy := .layerwise } ls r).1 c.id).getD .none)) (by
        intro x hx
        obtain ⟨d, _, rfl⟩ := List.mem_map.1 hx
        exact cost_nonneg _) _ (List.mem_map_of_mem hc)
      rw [h] at this
      rw [show wanted ({ Config.default with strategy := .layerwise } : Config).weights (ls.idxOf c.layer) ls.length c = .full from hw] at this
      exact this
    have : levelBill r (layerwise { Config.default with strategy := .layerwise } ls r).1 ≤ 3 / 10 := h1
    linarith
  · exact h.1

/-- **C207 (reported usage, violated).** The usage reported afterwards counts complexity, which the strategy does not: it can be twice the budget. -/
theorem C207_usage_violated : ∃ (cfg : Config) (r : List Component) (ls : List String), 0 ≤ cfg.budget ∧ Ranked cfg.weights r r ∧ Layers cfg.weights r ls ∧ (r.map Component.id).Nodup ∧
    (∀ c ∈ r, c.crit.Usable) ∧ usage r (layerwise cfg ls r).1 = 2 * cfg.budget ∧ 0 < cfg.budget := by
  let c : Component := ⟨"a", "x", ⟨0, 0, 0, 1, 0⟩⟩
  let cfg : Config := ⟨.layerwise, 0, 33 / 100, {}⟩
  have hL : Layers cfg.weights [c] ["x"] := by
    refine ⟨by simp, by intro l; simp [c, eq_comm], by simp⟩
  refine ⟨cfg, [c], ["x"], by norm_num [cfg], ⟨List.Perm.refl _, by simp⟩, hL, by simp, ?_, ?_, by norm_num [cfg]⟩
  · intro d hd
    rw [List.mem_singleton.1 hd]
    simp [Metrics.Usable, Metrics.values, c]
  · have hw : wanted cfg.weights (["x"].idxOf c.layer) ["x"].length c = .full :=
      (C207_levels {} (by norm_num [Weights.values]) _ _ (by simp [c]) c).1 (by simp [c])
    have h := C207_enough cfg [c] [c] ["x"] (List.Perm.refl _) hL (by simp) (by
      simp only [List.map_cons, List.map_nil, List.sum_cons, List.sum_nil, hw]
      norm_num [cost, cfg]) c (by simp)
    rw [hw] at h
    rw [usage_eq _ (by simp)]
    simp only [bill, List.map_cons, List.map_nil, List.sum_cons, List.sum_nil, h, price, cost]
    norm_num [c, cfg]

/-! ### C208: adaptive update -/

/-- The five levels the strategies hand out, in order. -/
def ladder : List Level := [.none, .checksum, .approximate, .health, .full]

/-- **C208.** A component with errors of which less than four fifths were corrected moves up one step of none, checksum, approximate, health-weighted, full, and full stays full; one with at most
two errors, more than 95 % of them corrected, moves down one step, and none stays none; every other entry, and every entry without errors, stays as it is. -/
theorem C208_step (cfg : Config) (hs : cfg.strategy = .adaptive) (r : Result) (errors fixed : String → Option ℤ) (i : String) (k : ℕ) (hk : k < ladder.length)
    (hi : (r.map i).getD .none = ladder[k]) :
    ((errors i = none ∨ errors i = some 0) → (update cfg r errors fixed).map i = r.map i) ∧
    (∀ e : ℤ, errors i = some e → 0 < e → ((fixed i).getD 0 : ℝ) < 8 / 10 * e → ((update cfg r errors fixed).map i).getD .none = ladder[min (k + 1) 4]'(by simp [ladder])) ∧
    (∀ e : ℤ, errors i = some e → 0 < e → e ≤ 2 → (95 / 100 * e : ℝ) < (fixed i).getD 0 → ((update cfg r errors fixed).map i).getD .none = ladder[k - 1]'(by omega)) ∧
    (∀ e : ℤ, errors i = some e → 0 < e → 8 / 10 * (e : ℝ) ≤ (fixed i).getD 0 → (2 < e ∨ ((fixed i).getD 0 : ℝ) ≤ 95 / 100 * e) → (update cfg r errors fixed).map i = r.map i) := by
  have hu : (update cfg r errors fixed).map i = match errors i with
      | none => r.map i
      | some e => match adjust (r.map i) e ((fixed i).getD 0) with
        | some l => some l
        | none => r.map i := by
    unfold update; rw [if_neg (by simp [hs])]; rfl
  rw [hu]
  have hk5 : k < 5 := by simpa [ladder] using hk
  have hrate : ∀ e : ℤ, 0 < e → (0:ℝ) < e := fun e he => by exact_mod_cast he
  refine ⟨?_, ?_, ?_, ?_⟩
  · rintro (h | h) <;> rw [h]
    simp [adjust]
  · intro e he hpos hlow
    rw [he]
    simp only []
    have h1 : ((fixed i).getD 0 : ℝ) / e < 8 / 10 := by rw [div_lt_iff₀ (hrate e hpos)]; exact hlow
    unfold adjust
    simp only [if_neg hpos.ne', if_pos hpos, hi, h1, true_and]
    interval_cases k
    · simp [ladder, up]
    · simp [ladder, up]
    · simp [ladder, up]
    · simp [ladder, up]
    · have h2 : ¬ (95 / 100 < ((fixed i).getD 0 : ℝ) / e) := by linarith
      simp only [h2, false_and, if_false]
      simpa [ladder] using hi
  · intro e he hpos h2 hhigh
    rw [he]
    simp only []
    have h1 : 95 / 100 < ((fixed i).getD 0 : ℝ) / e := by rw [lt_div_iff₀ (hrate e hpos)]; exact hhigh
    have h3 : ¬ ((fixed i).getD 0 : ℝ) / e < 8 / 10 := by linarith
    have h4 : e < 3 := by omega
    unfold adjust
    simp only [if_neg hpos.ne', if_pos hpos, hi, h1, h3, h4, true_and, false_and, if_false]
    interval_cases k
    · simp only [ladder] at hi ⊢
      simpa using hi
    · simp [ladder, down]
    · simp [ladder, down]
    · simp [ladder, down]
    · simp [ladder, down]
  · intro e he hpos hmid hor
    rw [he]
    simp only []
    have h3 : ¬ ((fixed i).getD 0 : ℝ) / e < 8 / 10 := by rw [not_lt, le_div_iff₀ (hrate e hpos)]; exact hmid
    have h4 : ¬ (95 / 100 < ((fixed i).getD 0 : ℝ) / e ∧ e < 3 ∧ (r.map i).getD .none ≠ .none) := by
      rintro ⟨a, b, -⟩
      rcases hor with h | h
      · omega
      · rw [lt_div_iff₀ (hrate e hpos)] at a; linarith
    have : adjust (r.map i) e ((fixed i).getD 0) = none := by
      unfold adjust
      simp only [if_neg hpos.ne', if_pos hpos]
      rw [if_neg (fun h => h3 h.1), if_neg h4]
    rw [this]

/-- **C208 (figures).** After an update the reported usage and error rates are those of the new levels; a framework that is not adaptive leaves the whole result as it is. -/
theorem C208_figures (cfg : Config) (r : Result) (errors fixed : String → Option ℤ) :
    (cfg.strategy ≠ .adaptive → update cfg r errors fixed = r) ∧
    (cfg.strategy = .adaptive → (update cfg r errors fixed).ranked = r.ranked ∧ (update cfg r errors fixed).layers = r.layers ∧
      (update cfg r errors fixed).usage = usage r.ranked (update cfg r errors fixed).map ∧ (update cfg r errors fixed).expected = expected r.ranked (update cfg r errors fixed).map ∧
      (update cfg r errors fixed).baseline = baseline r.ranked) := by
  constructor
  · intro h; unfold update; rw [if_pos h]
  · intro h; unfold update; rw [if_neg (by simp [h])]; exact ⟨rfl, rfl, rfl, rfl, rfl⟩

/-- Updates one after another with the same counts. -/
noncomputable def updates (cfg : Config) (r : Result) (errors fixed : String → Option ℤ) : ℕ → Result
  | 0 => r
  | n + 1 => update cfg (updates cfg r errors fixed n) errors fixed

/-- **C208 (convergence).** A component whose errors keep being corrected too rarely has full TMR after four updates at the latest and keeps it, whichever of the five levels it had. -/
theorem C208_converges (cfg : Config) (hs : cfg.strategy = .adaptive) (r : Result) (errors fixed : String → Option ℤ) (i : String) (hi : (r.map i).getD .none ∈ ladder)
    (e : ℤ) (he : errors i = some e) (hpos : 0 < e) (hlow : ((fixed i).getD 0 : ℝ) < 8 / 10 * e) : ∀ n, 4 ≤ n → (updates cfg r errors fixed n).map i = some .full := by
  obtain ⟨k, hk, hk'⟩ := List.getElem_of_mem hi
  have hk5 : k < 5 := by simpa [ladder] using hk
  have main : ∀ n, ((updates cfg r errors fixed n).map i).getD .none = ladder[min (k + n) 4]'(by simp [ladder]) := by
    intro n
    induction n with
    | zero => show (r.map i).getD .none = _; rw [← hk']; congr 1; omega
    | succ n ih =>
      have := (C208_step cfg hs (updates cfg r errors fixed n) errors fixed i _ _ ih).2.1 e he hpos hlow
      show ((update cfg (updates cfg r errors fixed n) errors fixed).map i).getD .none = _
      rw [this]
      congr 1; omega
  intro n hn
  have h := main n
  have : min (k + n) 4 = 4 := by omega
  simp only [this] at h
  have h4 : ladder[4] = Level.full := rfl
  rw [h4] at h
  cases hm : (updates cfg r errors fixed n).map i with
  | none => rw [hm] at h; cases h
  | some l => rw [hm] at h; exact congrArg some h

/-- **C208 (budget, violated).** The adaptive update ignores the resource budget: there is a configuration, and a network within its budget, that four updates take beyond it. -/
theorem C208_budget_violated : ∃ (cfg : Config) (c : Component) (r : Result) (errors fixed : String → Option ℤ), cfg.strategy = .adaptive ∧ 0 < cfg.budget ∧
    r = analyze cfg [c] [c] [c.layer] ∧ r.usage ≤ cfg.budget ∧ cfg.budget < (updates cfg r errors fixed 4).usage := by
  let c : Component := ⟨"a", "x", ⟨0, 0, 0, 0, 0⟩⟩
  let cfg : Config := { Config.default with strategy := .adaptive }
  refine ⟨cfg, c, _, fun _ => some 1, fun _ => none, rfl, by norm_num [cfg, Config.default], rfl, ?_, ?_⟩
  · exact (C206_budget cfg (by norm_num [cfg, Config.default]) [c] (by simp)).2.1
  · have hmem : ((analyze cfg [c] [c] [c.layer]).map "a").getD .none ∈ ladder := by
      obtain ⟨l, h1, h2⟩ := (C206_entries cfg [c] (by simp)).2 c (by simp)
      have : (analyze cfg [c] [c] [c.layer]).map "a" = some l := h1
      rw [this]; exact h2
    have h4 := C208_converges cfg rfl (analyze cfg [c] [c] [c.layer]) (fun _ => some 1) (fun _ => none) "a" hmem 1 rfl (by norm_num) (by norm_num) 4 (le_refl _)
    have hf := ((C208_figures cfg (updates cfg (analyze cfg [c] [c] [c.layer]) (fun _ => some 1) (fun _ => none) 3) (fun _ => some 1) (fun _ => none)).2 rfl)
    have hrk : ∀ n, (updates cfg (analyze cfg [c] [c] [c.layer]) (fun _ => some 1) (fun _ => none) n).ranked = [c] := by
      intro n
      induction n with
      | zero => rfl
      | succ n ih => exact ((C208_figures cfg _ _ _).2 rfl).1.trans ih
    have hu : (updates cfg (analyze cfg [c] [c] [c.layer]) (fun _ => some 1) (fun _ => none) 4).usage =
        usage [c] (updates cfg (analyze cfg [c] [c] [c.layer]) (fun _ => some 1) (fun _ => none) 4).map := by
      have := hf.2.2.1
      rw [hrk 3] at this
      exact this
    rw [hu, usage_eq _ (by simp)]
    have h4' : (updates cfg (analyze cfg [c] [c] [c.layer]) (fun _ => some 1) (fun _ => none) 4).map c.id = some .full := h4
    simp only [bill, List.map_cons, List.map_nil, List.sum_cons, List.sum_nil, h4', price, cost]
    norm_num [c, cfg, Config.default]

/-- **C208 (other levels, violated).** Two of the seven levels are off the ladder: a component at recovery or selective protection is never moved up, however badly it fares. -/
theorem C208_stuck_violated (cfg : Config) (r : Result) (errors fixed : String → Option ℤ) (i : String) (hi : r.map i = some .recovery ∨ r.map i = some .selective) :
    ∀ n, (updates cfg r errors fixed n).map i = r.map i := by
  intro n
  induction n with
  | zero => rfl
  | succ n ih =>
    show (update cfg _ _ _).map i = _
    rw [← ih]
    rw [← ih] at hi
    generalize updates cfg r errors fixed n = q at hi ⊢
    unfold update
    split
    · rfl
    · show (match errors i with
        | none => q.map i
        | some e => match adjust (q.map i) e ((fixed i).getD 0) with
          | some l => some l
          | none => q.map i) = q.map i
      cases errors i with
      | none => rfl
      | some e =>
        have : ∀ l, adjust (q.map i) e ((fixed i).getD 0) = some l → some l = q.map i := by
          intro l hl
          unfold adjust at hl
          rcases hi with h | h <;> rw [h] at hl ⊢ <;> simp only [Option.getD_some, up, down] at hl <;> split_ifs at hl <;> exact hl.symm
        cases ha : adjust (q.map i) e ((fixed i).getD 0) with
        | none => simp only [ha]
        | some l => simp only [ha]; exact this l ha

/-! ### C209: estimates -/

/-- **C209.** The expected error rate is the sum of one hundredth of the sensitivities, each reduced by 30, 70, 90 or 99 % at checksum, approximate, health-weighted or full protection; with
sensitivities that are not negative it lies between one hundredth of the baseline and the baseline. -/
theorem C209_range (r : List Component) (m : Map) (hs : ∀ c ∈ r, 0 ≤ c.crit.sensitivity) :
    baseline r / 100 ≤ expected r m ∧ expected r m ≤ baseline r := by
  have hr : ∀ l, 0 ≤ reduction l ∧ reduction l ≤ 99 / 100 := by intro l; cases l <;> norm_num [reduction]
  unfold baseline expected
  induction r with
  | nil => simp
  | cons c r ih =>
    have h0 := hs c List.mem_cons_self
    obtain ⟨i1, i2⟩ := ih fun d hd => hs d (List.mem_cons_of_mem _ hd)
    simp only [List.map_cons, List.sum_cons]
    obtain ⟨a, b⟩ := hr ((m c.id).getD .none)
    constructor
    · have : c.crit.sensitivity * (1 / 100) / 100 ≤ c.crit.sensitivity * (1 / 100) * (1 - reduction ((m c.id).getD .none)) := by nlinarith
      linarith
    · have : c.crit.sensitivity * (1 / 100) * (1 - reduction ((m c.id).getD .none)) ≤ c.crit.sensitivity * (1 / 100) := by nlinarith
      linarith

/-- **C209 (better protection).** Moving components up among none, checksum, approximate, health-weighted and full never raises the expected error rate, and with complexities that are not negative
never lowers the usage. -/
theorem C209_monotone (r : List Component) (m n : Map) (hn : (r.map Component.id).Nodup) (hs : ∀ c ∈ r, 0 ≤ c.crit.sensitivity ∧ 0 ≤ c.crit.complexity)
    (h : ∀ c ∈ r, (m c.id).getD .none ∈ ladder ∧ (n c.id).getD .none ∈ ladder ∧ ((m c.id).getD .none).rank ≤ ((n c.id).getD .none).rank) :
    expected r n ≤ expected r m ∧ usage r m ≤ usage r n := by
  have key : ∀ a b : Level, a ∈ ladder → b ∈ ladder → a.rank ≤ b.rank → reduction a ≤ reduction b ∧ cost a ≤ cost b := by
    intro a b ha hb hab
    simp only [ladder, List.mem_cons, List.not_mem_nil, or_false] at ha hb
    rcases ha with rfl | rfl | rfl | rfl | rfl <;> rcases hb with rfl | rfl | rfl | rfl | rfl <;> simp [Level.rank] at hab <;> norm_num [reduction, cost]
  have hb : ∀ (q : Map), bill r q = (r.map fun c => price c ((q c.id).getD .none)).sum := by
    intro q
    unfold bill
    congr 1
    apply List.map_congr_left
    intro c _
    cases q c.id <;> simp [price, cost]
  constructor
  · unfold expected
    apply List.sum_le_sum
    intro c hc
    obtain ⟨a, b, d⟩ := h c hc
    have := (key _ _ a b d).1
    have h0 := (hs c hc).1
    exact mul_le_mul_of_nonneg_left (by linarith) (by linarith)
  · rw [usage_eq r hn, usage_eq r hn, hb, hb]
    apply List.sum_le_sum
    intro c hc
    obtain ⟨a, b, d⟩ := h c hc
    have := (key _ _ a b d).2
    have h0 := (hs c hc).2
    unfold price
    exact mul_le_mul_of_nonneg_right this (by linarith)

/-- **C209 (formulas).** With no entry for any component the expected rate is the baseline and the usage 0; with full TMR for every component the expected rate is one hundredth of the baseline. -/
theorem C209_extremes (r : List Component) (hn : (r.map Component.id).Nodup) (m : Map) :
    ((∀ c ∈ r, m c.id = none) → expected r m = baseline r ∧ usage r m = 0) ∧
    ((∀ c ∈ r, m c.id = some .full) → expected r m = baseline r / 100 ∧ usage r m = (r.map fun c => 33 / 100 * (1 + c.crit.complexity)).sum) ∧
    ((∀ c ∈ r, m c.id = some .health) → expected r m = baseline r / 10 ∧ usage r m = (r.map fun c => 25 / 100 * (1 + c.crit.complexity)).sum) ∧
    ((∀ c ∈ r, m c.id = some .approximate) → expected r m = baseline r * (3 / 10) ∧ usage r m = (r.map fun c => 15 / 100 * (1 + c.crit.complexity)).sum) ∧
    ((∀ c ∈ r, m c.id = some .checksum) → expected r m = baseline r * (7 / 10) ∧ usage r m = (r.map fun c => 5 / 100 * (1 + c.crit.complexity)).sum) := by
  have hexp : ∀ (l : Option Level), (∀ c ∈ r, m c.id = l) → expected r m = baseline r * (1 - reduction (l.getD .none)) := by
    intro l hl
    unfold expected baseline
    have aux : ∀ q : List Component, (∀ c ∈ q, m c.id = l) → (q.map fun c => c.crit.sensitivity * (1 / 100) * (1 - reduction ((m c.id).getD .none))).sum =
        (q.map fun c => c.crit.sensitivity * (1 / 100)).sum * (1 - reduction (l.getD .none)) := by
      intro q
      induction q with
      | nil => intro _; simp
      | cons c q ih =>
        intro hq
        simp only [List.map_cons, List.sum_cons]
        rw [ih fun d hd => hq d (List.mem_cons_of_mem _ hd), hq c List.mem_cons_self]
        ring
    exact aux r hl
  have huse : ∀ (l : Level), (∀ c ∈ r, m c.id = some l) → usage r m = (r.map fun c => cost l * (1 + c.crit.complexity)).sum := by
    intro l hl
    rw [usage_eq r hn]
    unfold bill
    congr 1
    apply List.map_congr_left
    intro c hc
    rw [hl c hc]; rfl
  refine ⟨fun h => ⟨?_, ?_⟩, fun h => ⟨?_, huse _ h⟩, fun h => ⟨?_, huse _ h⟩, fun h => ⟨?_, huse _ h⟩, fun h => ⟨?_, huse _ h⟩⟩
  · rw [hexp _ h]; norm_num [reduction]
  · rw [usage_eq r hn]
    apply List.sum_eq_zero
    intro x hx
    obtain ⟨d, hd, rfl⟩ := List.mem_map.1 hx
    rw [h d hd]
  all_goals rw [hexp _ h]; norm_num [reduction]; try ring

/-- **C209 (two levels, violated).** Recovery and selective protection count as no protection at all: with either at every component the expected error rate is the baseline and the usage 0. -/
theorem C209_unlisted_violated (r : List Component) (hn : (r.map Component.id).Nodup) (m : Map) (h : ∀ c ∈ r, m c.id = some .recovery ∨ m c.id = some .selective) :
    expected r m = baseline r ∧ usage r m = 0 := by
  constructor
  · unfold expected baseline
    congr 1
    apply List.map_congr_left
    intro c hc
    rcases h c hc with e | e <;> rw [e] <;> simp [reduction]
  · rw [usage_eq r hn]
    apply List.sum_eq_zero
    intro x hx
    obtain ⟨d, hd, rfl⟩ := List.mem_map.1 hx
    rcases h d hd with e | e <;> rw [e] <;> simp [price, cost]

/-- **C209 (analysis).** The figures of an analysis are those of its own map, for every strategy. -/
theorem C209_analysis (cfg : Config) (cs r : List Component) (ls : List String) :
    (analyze cfg cs r ls).usage = usage r (analyze cfg cs r ls).map ∧ (analyze cfg cs r ls).expected = expected r (analyze cfg cs r ls).map ∧
    (analyze cfg cs r ls).baseline = baseline r ∧ (analyze cfg cs r ls).layers = layerCriticality cfg.weights cs ∧
    (cfg.strategy = .fixed → (analyze cfg cs r ls).map = fixedThreshold cfg r) ∧ (cfg.strategy = .layerwise → (analyze cfg cs r ls).map = (layerwise cfg ls r).1) ∧
    ((cfg.strategy = .constrained ∨ cfg.strategy = .adaptive) → (analyze cfg cs r ls).map = (constrained cfg r).1) := by
  refine ⟨rfl, rfl, rfl, rfl, fun h => ?_, fun h => ?_, fun h => ?_⟩
  · simp [analyze, strategyMap, h]
  · simp [analyze, strategyMap, h]
  · rcases h with h | h <;> simp [analyze, strategyMap, h]

example : expected sample (fun _ => some .full) = baseline sample / 100 ∧ 0 < baseline sample := by
  constructor
  · exact ((C209_extremes sample (by simp [sample]) _).2.1 fun _ _ => rfl).1
  · norm_num [baseline, sample]

end Verif.Hardening
