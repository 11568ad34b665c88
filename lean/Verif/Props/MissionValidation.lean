import Verif.Model.MissionValidation
import Verif.Props.Industry
import Mathlib.Tactic.IntervalCases
/-!
C291, C292: the space mission validation program.
-/
namespace Verif.Props.MissionValidation
open Verif Verif.MissionValidation
open Verif.Topology (xmin xlog10)
open Verif.Props.Industry (xmin_fin xmax_fin sub_fin)

theorem factor_low (flux : ℝ) (h : flux + 1 / 10 ^ 15 ≤ 0) : factor (some flux) = .fin 0 := by
  unfold factor xlog10
  dsimp only
  rw [if_neg (not_lt.2 h)]
  by_cases h0 : flux + 1 / 10 ^ 15 = 0
  · rw [if_pos h0]
    have : XD.max (.fin 0) (XD.add .ninf (.fin 15)) = .fin 0 := by
      unfold XD.max
      rw [if_neg (by intro hh; exact hh)]
    rw [this, XD.div_fin _ _ (by norm_num), xmin_fin]
    norm_num
  · rw [if_neg h0]
    have : XD.max (.fin 0) (XD.add .nan (.fin 15)) = .fin 0 := by
      unfold XD.max
      rw [XD.nan_add, if_neg (XD.not_lt_nan_right _)]
    rw [this, XD.div_fin _ _ (by norm_num), xmin_fin]
    norm_num

theorem factor_high (flux : ℝ) (h : 0 < flux + 1 / 10 ^ 15) : factor (some flux) = .fin (min 1 (max 0 (Real.logb 10 (flux + 1 / 10 ^ 15) + 15) / 10)) := by
  unfold factor xlog10
  dsimp only
  rw [if_pos h, XD.add_fin, xmax_fin, XD.div_fin _ _ (by norm_num), xmin_fin]

theorem log15 : Real.logb 10 (1 / 10 ^ 15) = -15 := by
  rw [one_div, Real.logb_inv, Real.logb_pow, Real.logb_self_eq_one (by norm_num)]
  norm_num

/-- The factor as a real number. -/
noncomputable def fr (flux : Option ℝ) : ℝ := match factor flux with | .fin r => r | _ => 0

theorem factor_fr (flux : Option ℝ) : factor flux = .fin (fr flux) ∧ 0 ≤ fr flux ∧ fr flux ≤ 1 := by
  unfold fr
  cases flux with
  | none => exact ⟨rfl, by show (0 : ℝ) ≤ 1 / 2; norm_num, by show (1 / 2 : ℝ) ≤ 1; norm_num⟩
  | some f =>
    by_cases h : 0 < f + 1 / 10 ^ 15
    · rw [factor_high f h]
      exact ⟨rfl, le_min (by norm_num) (div_nonneg (le_max_left _ _) (by norm_num)), min_le_left _ _⟩
    · rw [factor_low f (not_lt.1 h)]
      exact ⟨rfl, le_rfl, zero_le_one⟩

theorem fr_mono (f g : ℝ) (h : f ≤ g) : fr (some f) ≤ fr (some g) := by
  by_cases hf : 0 < f + 1 / 10 ^ 15
  · have hg : 0 < g + 1 / 10 ^ 15 := by linarith
    unfold fr
    rw [factor_high f hf, factor_high g hg]
    apply min_le_min le_rfl
    apply div_le_div_of_nonneg_right _ (by norm_num)
    apply max_le_max le_rfl
    have := Real.logb_le_logb_of_le (b := 10) (by norm_num) hf (by linarith : f + 1 / 10 ^ 15 ≤ g + 1 / 10 ^ 15)
    linarith
  · have : fr (some f) = 0 := by
      unfold fr
      rw [factor_low f (not_lt.1 hf)]
    rw [this]
    exact (factor_fr _).2.1

/-- C291. The flux factor is a number between 0 and 1 for every environment (also for a negative flux), never falls with the flux, is 0 without flux, 1 from 1e-5 on, and one
half without an environment; between, it is the number of decades above 1e-15, divided by ten. -/
theorem C291_factor :
    (∀ flux : Option ℝ, ∃ r, factor flux = .fin r ∧ 0 ≤ r ∧ r ≤ 1) ∧
    (∀ f g r s : ℝ, f ≤ g → factor (some f) = .fin r → factor (some g) = .fin s → r ≤ s) ∧
    (∀ f : ℝ, f ≤ 0 → factor (some f) = .fin 0) ∧ (∀ f : ℝ, 1 / 10 ^ 5 ≤ f → factor (some f) = .fin 1) ∧ factor none = .fin (1 / 2) ∧
    (∀ x : ℝ, 0 ≤ x → x ≤ 10 → factor (some ((10 : ℝ) ^ (x - 15) - 1 / 10 ^ 15)) = .fin (x / 10)) := by
  refine ⟨fun flux => ⟨_, factor_fr flux⟩, ?_, ?_, ?_, rfl, ?_⟩
  · intro f g r s h hr hs
    have := fr_mono f g h
    rw [(factor_fr _).1] at hr hs
    rw [← XD.fin.inj hr, ← XD.fin.inj hs]
    exact this
  · intro f hf
    by_cases h : 0 < f + 1 / 10 ^ 15
    · rw [factor_high f h]
      have := Real.logb_le_logb_of_le (b := 10) (by norm_num) h (by linarith : f + 1 / 10 ^ 15 ≤ 1 / 10 ^ 15)
      rw [log15] at this
      rw [max_eq_left (by linarith)]
      norm_num
    · exact factor_low f (not_lt.1 h)
  · intro f hf
    have h5 : Real.logb 10 (1 / 10 ^ 5) = -5 := by
      rw [one_div, Real.logb_inv, Real.logb_pow, Real.logb_self_eq_one (by norm_num)]
      norm_num
    have hp : (0 : ℝ) < 1 / 10 ^ 15 := by norm_num
    rw [factor_high f (by linarith [(by norm_num : (0 : ℝ) < 1 / 10 ^ 5)])]
    have := Real.logb_le_logb_of_le (b := 10) (by norm_num) (by norm_num : (0 : ℝ) < 1 / 10 ^ 5) (by linarith : (1 : ℝ) / 10 ^ 5 ≤ f + 1 / 10 ^ 15)
    rw [h5] at this
    rw [max_eq_right (by linarith), min_eq_left]
    rw [le_div_iff₀ (by norm_num)]
    linarith
  · intro x h0 h1
    have : (10 : ℝ) ^ (x - 15) - 1 / 10 ^ 15 + 1 / 10 ^ 15 = (10 : ℝ) ^ (x - 15) := by ring
    rw [factor_high _ (by rw [this]; positivity), this, Real.logb_rpow (by norm_num) (by norm_num), max_eq_right (by linarith), min_eq_right]
    · congr 1
      ring
    · rw [div_le_iff₀ (by norm_num)]
      linarith

example : factor (some (2 / 10 ^ 5)) = .fin 1 := C291_factor.2.2.2.1 _ (by norm_num)

/-- The score of a layer: its own, by type and criticality, scaled by the environment, between 0 and 1. -/
noncomputable def Score (f : ℝ) (l : Layer) : ℝ :=
  min 1 (max 0 (l.score * (if l.type = "dense" then 12 / 10 else if l.type = "pool" then 7 / 10 else 1) * (if l.critical then 13 / 10 else 1) * ((1 + f) / 2)))

theorem typeFactor_eq (t : String) : typeFactor t = if t = "dense" then 12 / 10 else if t = "pool" then 7 / 10 else 1 := by
  unfold typeFactor
  by_cases h1 : t = "dense"
  · rw [if_pos h1, if_pos h1]
  · rw [if_neg h1, if_neg h1]
    by_cases h2 : t = "conv"
    · rw [if_pos h2, if_neg (by rw [h2]; decide)]
    · rw [if_neg h2]

theorem score_eq (flux : Option ℝ) (l : Layer) : xmin (.fin 1) (XD.max (.fin 0) (finalScore (factor flux) l)) = .fin (Score (fr flux) l) := by
  have h : finalScore (factor flux) l = .fin (l.score * (if l.type = "dense" then 12 / 10 else if l.type = "pool" then 7 / 10 else 1) * (if l.critical then 13 / 10 else 1) *
      ((1 + fr flux) / 2)) := by
    unfold finalScore
    rw [(factor_fr flux).1, typeFactor_eq]
    simp only [XD.mul_fin, XD.add_fin]
    congr 1
    generalize (if l.type = "dense" then (12 / 10 : ℝ) else if l.type = "pool" then 7 / 10 else 1) = t
    cases l.critical <;> simp only [Bool.false_eq_true, if_true, if_false] <;> ring
  rw [h, xmax_fin, xmin_fin]
  rfl

theorem put_mem {β : Type} (m : List (String × β)) (k : String) (v : β) (p : String × β) : p ∈ put m k v ↔ (p ∈ m ∧ p.1 ≠ k) ∨ p = (k, v) := by
  unfold put
  simp [List.mem_filter]

theorem put_nodup {β : Type} (m : List (String × β)) (k : String) (v : β) (h : (m.map Prod.fst).Nodup) : ((put m k v).map Prod.fst).Nodup := by
  unfold put
  rw [List.map_append, List.nodup_append]
  refine ⟨?_, by simp, ?_⟩
  · exact h.sublist (List.Sublist.map _ List.filter_sublist)
  · intro a ha b hb
    simp only [List.map_cons, List.map_nil, List.mem_singleton] at hb
    subst hb
    rw [List.mem_map] at ha
    obtain ⟨p, hp, rfl⟩ := ha
    have := (List.mem_filter.1 hp).2
    simpa using this

theorem fold_put (g : Layer → XD) (ls : List Layer) :
    ∀ m : List (String × XD), (m.map Prod.fst).Nodup →
      ((ls.foldl (fun m l => put m l.name (g l)) m).map Prod.fst).Nodup ∧
      (∀ p, p ∈ ls.foldl (fun m l => put m l.name (g l)) m ↔
        (p ∈ m ∧ ∀ l ∈ ls, l.name ≠ p.1) ∨ ∃ pre l post, ls = pre ++ l :: post ∧ (∀ k ∈ post, k.name ≠ l.name) ∧ p = (l.name, g l)) := by
  induction ls with
  | nil => intro m h; exact ⟨h, fun p => by simp⟩
  | cons a as ih =>
    intro m h
    obtain ⟨h1, h2⟩ := ih (put m a.name (g a)) (put_nodup _ _ _ h)
    refine ⟨h1, fun p => ?_⟩
    rw [List.foldl_cons, h2 p, put_mem]
    constructor
    · rintro (⟨⟨hp, hne⟩ | rfl, hall⟩ | ⟨pre, l, post, rfl, hpost, rfl⟩)
      · left
        refine ⟨hp, fun l hl => ?_⟩
        rcases List.mem_cons.1 hl with rfl | hl
        · exact fun hh => hne hh.symm
        · exact hall l hl
      · right
        exact ⟨[], a, as, rfl, hall, rfl⟩
      · right
        exact ⟨a :: pre, l, post, rfl, hpost, rfl⟩
    · rintro (⟨hp, hall⟩ | ⟨pre, l, post, he, hpost, rfl⟩)
      · left
        exact ⟨Or.inl ⟨hp, fun hh => hall a (List.mem_cons_self ..) hh.symm⟩, fun l hl => hall l (List.mem_cons_of_mem _ hl)⟩
      · cases pre with
        | nil =>
          rw [List.nil_append] at he
          cases he
          left
          exact ⟨Or.inr rfl, hpost⟩
        | cons b bs =>
          rw [List.cons_append] at he
          cases he
          right
          exact ⟨bs, l, post, rfl, hpost, rfl⟩

/-- C291. For every list of layers the analysis has one entry for every name, that of the last layer with the name: a number between 0 and 1, the layer's own score raised by
a fifth for dense layers, lowered to 70 % for pooling, raised by 30 % for critical ones, scaled by half of one plus the flux factor. -/
theorem C291_vulnerability (flux : Option ℝ) (ls : List Layer) :
    ((analyze flux ls).map Prod.fst).Nodup ∧
    (∀ n v, (n, v) ∈ analyze flux ls ↔ ∃ pre l post, ls = pre ++ l :: post ∧ (∀ k ∈ post, k.name ≠ l.name) ∧ n = l.name ∧
      ∃ r, factor flux = .fin r ∧ v = .fin (Score r l)) ∧
    ∀ n v, (n, v) ∈ analyze flux ls → ∃ r, v = .fin r ∧ 0 ≤ r ∧ r ≤ 1 := by
  have h := fold_put (fun l => xmin (.fin 1) (XD.max (.fin 0) (finalScore (factor flux) l))) ls [] (by simp)
  have h2 : ∀ n v, (n, v) ∈ analyze flux ls ↔ ∃ pre l post, ls = pre ++ l :: post ∧ (∀ k ∈ post, k.name ≠ l.name) ∧ n = l.name ∧
      ∃ r, factor flux = .fin r ∧ v = .fin (Score r l) := by
    intro n v
    have := h.2 (n, v)
    unfold analyze
    rw [this]
    constructor
    · rintro (⟨hh, _⟩ | ⟨pre, l, post, he, hp, hv⟩)
      · simp at hh
      · refine ⟨pre, l, post, he, hp, (Prod.mk.inj hv).1, _, (factor_fr flux).1, ?_⟩
        rw [(Prod.mk.inj hv).2, score_eq]
    · rintro ⟨pre, l, post, he, hp, rfl, r, hr, rfl⟩
      right
      refine ⟨pre, l, post, he, hp, ?_⟩
      rw [score_eq, ← XD.fin.inj ((factor_fr flux).1.symm.trans hr)]
  refine ⟨h.1, h2, ?_⟩
  intro n v hv
  obtain ⟨_, l, _, _, _, _, r, _, rfl⟩ := (h2 n v).1 hv
  exact ⟨_, rfl, le_min zero_le_one (le_max_left _ _), min_le_left _ _⟩

/-- C291. The score never falls with the layer's own score, with criticality or with the flux factor; a dense layer never scores below another, a pooling layer never above. -/
theorem C291_score_monotone (f g : ℝ) (hf : 0 ≤ f) (hg : f ≤ g) (l k : Layer) (h0 : 0 ≤ l.score) (hs : l.score ≤ k.score) (hc : l.critical = true → k.critical = true)
    (ht : l.type = k.type ∨ k.type = "dense" ∨ l.type = "pool") : Score f l ≤ Score g k := by
  unfold Score
  apply min_le_min le_rfl
  apply max_le_max le_rfl
  have t : (if l.type = "dense" then (12 / 10 : ℝ) else if l.type = "pool" then 7 / 10 else 1) ≤ (if k.type = "dense" then 12 / 10 else if k.type = "pool" then 7 / 10 else 1) := by
    rcases ht with h | h | h
    · rw [h]
    · rw [if_pos h]
      split <;> [skip; split] <;> norm_num
    · rw [h]
      simp only [if_true]
      rw [if_neg (by decide)]
      split <;> [skip; split] <;> norm_num
  have t0 : (0 : ℝ) ≤ (if l.type = "dense" then (12 / 10 : ℝ) else if l.type = "pool" then 7 / 10 else 1) := by
    split <;> [skip; split] <;> norm_num
  have c : (if l.critical then (13 / 10 : ℝ) else 1) ≤ if k.critical then 13 / 10 else 1 := by
    cases hl : l.critical
    · cases k.critical <;> norm_num
    · rw [hc hl]
  have c0 : (0 : ℝ) ≤ if l.critical then (13 / 10 : ℝ) else 1 := by split <;> norm_num
  apply mul_le_mul _ (by linarith) (by linarith) (mul_nonneg (mul_nonneg (h0.trans hs) (t0.trans t)) (c0.trans c))
  apply mul_le_mul _ c c0 (mul_nonneg (h0.trans hs) (t0.trans t))
  exact mul_le_mul hs t t0 (h0.trans hs)

example : ∃ l k : Layer, l.score < k.score ∧ l.type ≠ k.type ∧ k.type = "dense" := ⟨⟨"a", "conv", false, 1, 1 / 2⟩, ⟨"b", "dense", true, 1, 3 / 4⟩, by norm_num, by decide, rfl⟩

/-- Strength of a level. -/
def rank : Level → ℕ
  | .none => 0
  | .checksum => 1
  | .recovery => 2
  | .approximate => 3
  | .selective => 4
  | .health => 5
  | .full => 6

/-- C291. The level follows the score 0.7·vulnerability + 0.3·factor by the thresholds 0.8, 0.6, 0.4, 0.2, for all numbers; so it never falls when either grows. -/
theorem C291_level (v f : ℝ) :
    (levelOf (.fin v) (.fin f) = .full ↔ 8 / 10 < 7 / 10 * v + 3 / 10 * f) ∧
    (levelOf (.fin v) (.fin f) = .health ↔ 6 / 10 < 7 / 10 * v + 3 / 10 * f ∧ 7 / 10 * v + 3 / 10 * f ≤ 8 / 10) ∧
    (levelOf (.fin v) (.fin f) = .selective ↔ 4 / 10 < 7 / 10 * v + 3 / 10 * f ∧ 7 / 10 * v + 3 / 10 * f ≤ 6 / 10) ∧
    (levelOf (.fin v) (.fin f) = .recovery ↔ 2 / 10 < 7 / 10 * v + 3 / 10 * f ∧ 7 / 10 * v + 3 / 10 * f ≤ 4 / 10) ∧
    (levelOf (.fin v) (.fin f) = .checksum ↔ 7 / 10 * v + 3 / 10 * f ≤ 2 / 10) ∧
    ∀ v' f', v ≤ v' → f ≤ f' → rank (levelOf (.fin v) (.fin f)) ≤ rank (levelOf (.fin v') (.fin f')) := by
  have key : ∀ c : ℝ, ∀ L : Level, L = (open Classical in if (8 / 10 : ℝ) < c then Level.full else if (6 / 10 : ℝ) < c then .health else if (4 / 10 : ℝ) < c then .selective
      else if (2 / 10 : ℝ) < c then .recovery else .checksum) →
      (8 / 10 < c ∧ L = .full) ∨ (6 / 10 < c ∧ c ≤ 8 / 10 ∧ L = .health) ∨ (4 / 10 < c ∧ c ≤ 6 / 10 ∧ L = .selective) ∨ (2 / 10 < c ∧ c ≤ 4 / 10 ∧ L = .recovery) ∨
        (c ≤ 2 / 10 ∧ L = .checksum) := by
    intro c L hL
    by_cases h1 : (8 / 10 : ℝ) < c
    · rw [if_pos h1] at hL; exact Or.inl ⟨h1, hL⟩
    · rw [if_neg h1] at hL
      have h1 := not_lt.1 h1
      by_cases h2 : (6 / 10 : ℝ) < c
      · rw [if_pos h2] at hL; exact Or.inr (Or.inl ⟨h2, h1, hL⟩)
      · rw [if_neg h2] at hL
        have h2 := not_lt.1 h2
        by_cases h3 : (4 / 10 : ℝ) < c
        · rw [if_pos h3] at hL; exact Or.inr (Or.inr (Or.inl ⟨h3, h2, hL⟩))
        · rw [if_neg h3] at hL
          have h3 := not_lt.1 h3
          by_cases h4 : (2 / 10 : ℝ) < c
          · rw [if_pos h4] at hL; exact Or.inr (Or.inr (Or.inr (Or.inl ⟨h4, h3, hL⟩)))
          · rw [if_neg h4] at hL; exact Or.inr (Or.inr (Or.inr (Or.inr ⟨not_lt.1 h4, hL⟩)))
  have hk : ∀ v f : ℝ, _ := fun v f => key (7 / 10 * v + 3 / 10 * f) (levelOf (.fin v) (.fin f)) (by unfold levelOf; simp only [XD.mul_fin, XD.add_fin, XD.lt_fin])
  refine ⟨?_, ?_, ?_, ?_, ?_, ?_⟩
  · rcases hk v f with ⟨h, e⟩ | ⟨h, h', e⟩ | ⟨h, h', e⟩ | ⟨h, h', e⟩ | ⟨h, e⟩ <;> rw [e] <;> simp <;> linarith
  · rcases hk v f with ⟨h, e⟩ | ⟨h, h', e⟩ | ⟨h, h', e⟩ | ⟨h, h', e⟩ | ⟨h, e⟩ <;> rw [e] <;> simp only [reduceCtorEq, true_iff, false_iff, not_and, not_le] <;>
      first | exact ⟨h, h'⟩ | (intros; linarith)
  · rcases hk v f with ⟨h, e⟩ | ⟨h, h', e⟩ | ⟨h, h', e⟩ | ⟨h, h', e⟩ | ⟨h, e⟩ <;> rw [e] <;> simp only [reduceCtorEq, true_iff, false_iff, not_and, not_le] <;>
      first | exact ⟨h, h'⟩ | (intros; linarith)
  · rcases hk v f with ⟨h, e⟩ | ⟨h, h', e⟩ | ⟨h, h', e⟩ | ⟨h, h', e⟩ | ⟨h, e⟩ <;> rw [e] <;> simp only [reduceCtorEq, true_iff, false_iff, not_and, not_le] <;>
      first | exact ⟨h, h'⟩ | (intros; linarith)
  · rcases hk v f with ⟨h, e⟩ | ⟨h, h', e⟩ | ⟨h, h', e⟩ | ⟨h, h', e⟩ | ⟨h, e⟩ <;> rw [e] <;> simp only [reduceCtorEq, true_iff, false_iff, not_le] <;> linarith
  · intro v' f' hv hf
    rcases hk v f with ⟨h, e⟩ | ⟨h, h', e⟩ | ⟨h, h', e⟩ | ⟨h, h', e⟩ | ⟨h, e⟩ <;>
      rcases hk v' f' with ⟨g, e'⟩ | ⟨g, g', e'⟩ | ⟨g, g', e'⟩ | ⟨g, g', e'⟩ | ⟨g, e'⟩ <;> rw [e, e'] <;> simp only [rank] <;>
      first | decide | (exfalso; linarith)

/-- The number of layers protected in the way named. -/
def votes (ls : List Level) (t : String) : ℕ :=
  if t = "Full TMR" then ls.countP (· = .full) else if t = "Health-Weighted TMR" then ls.countP (· = .health)
  else if t = "Selective TMR" then ls.countP (fun l => l = .selective ∨ l = .approximate) else ls.countP (fun l => l = .recovery ∨ l = .checksum)

theorem count_eq (ls : List Level) : count ls = ⟨ls.countP (· = .full), ls.countP (· = .health), ls.countP (fun l => l = .selective ∨ l = .approximate),
    ls.countP (fun l => l = .recovery ∨ l = .checksum)⟩ := by
  have gen : ∀ (ls : List Level) (c : Counts), ls.foldl Counts.add c = ⟨c.full + ls.countP (· = .full), c.health + ls.countP (· = .health),
      c.selective + ls.countP (fun l => l = .selective ∨ l = .approximate), c.checksum + ls.countP (fun l => l = .recovery ∨ l = .checksum)⟩ := by
    intro ls
    induction ls with
    | nil => intro c; rfl
    | cons a as ih =>
      intro c
      rw [List.foldl_cons, ih]
      cases a <;> simp [Counts.add, List.countP_cons] <;> omega
  have := gen ls ⟨0, 0, 0, 0⟩
  simpa [count] using this

/-- C291. The predominant type is one of the four, no type has more layers, and every stronger type has fewer (ties go to the stronger type). -/
theorem C291_predominant (ls : List Level) :
    let types := ["Full TMR", "Health-Weighted TMR", "Selective TMR", "Checksum"]
    ∃ k : ℕ, types[k]? = some (predominant (count ls)) ∧ (∀ t ∈ types, votes ls t ≤ votes ls (predominant (count ls))) ∧
      ∀ j < k, ∀ t, types[j]? = some t → votes ls t < votes ls (predominant (count ls)) := by
  intro types
  rw [count_eq]
  generalize ha : ls.countP (· = .full) = a
  generalize hb : ls.countP (· = .health) = b
  generalize hc : ls.countP (fun l => l = .selective ∨ l = .approximate) = c
  generalize hd : ls.countP (fun l => l = .recovery ∨ l = .checksum) = d
  have v1 : votes ls "Full TMR" = a := by unfold votes; rw [if_pos rfl, ha]
  have v2 : votes ls "Health-Weighted TMR" = b := by unfold votes; rw [if_neg (by decide), if_pos rfl, hb]
  have v3 : votes ls "Selective TMR" = c := by unfold votes; rw [if_neg (by decide), if_neg (by decide), if_pos rfl, hc]
  have v4 : votes ls "Checksum" = d := by unfold votes; rw [if_neg (by decide), if_neg (by decide), if_neg (by decide), hd]
  unfold predominant
  dsimp only
  by_cases h1 : b ≤ a ∧ c ≤ a ∧ d ≤ a
  · rw [if_pos h1, v1]
    refine ⟨0, rfl, ?_, by intro j hj; omega⟩
    simp [types, v1, v2, v3, v4]
    omega
  · rw [if_neg h1]
    by_cases h2 : c ≤ b ∧ d ≤ b
    · rw [if_pos h2, v2]
      refine ⟨1, rfl, ?_, ?_⟩
      · simp [types, v1, v2, v3, v4]
        omega
      · intro j hj t ht
        interval_cases j
        simp [types] at ht
        subst ht
        omega
    · rw [if_neg h2]
      by_cases h3 : d ≤ c
      · rw [if_pos h3, v3]
        refine ⟨2, rfl, ?_, ?_⟩
        · simp [types, v1, v2, v3, v4]
          omega
        · intro j hj t ht
          interval_cases j <;> simp [types] at ht <;> subst ht <;> omega
      · rw [if_neg h3, v4]
        refine ⟨3, rfl, ?_, ?_⟩
        · simp [types, v1, v2, v3, v4]
          omega
        · intro j hj t ht
          interval_cases j <;> simp [types] at ht <;> subst ht <;> omega

example : predominant (count [.full, .health, .health, .checksum]) = "Health-Weighted TMR" := by decide +kernel

theorem foldl_cost (ls : List Level) (a : ℚ) : ls.foldl (fun a l => a + cost l) a = a + (ls.map cost).sum := by
  induction ls generalizing a with
  | nil => simp
  | cons x xs ih => rw [List.foldl_cons, ih, List.map_cons, List.sum_cons]; ring

/-- C291. The resource usage is the mean cost of the levels over three; it lies between one third (checksums only) and one (full redundancy everywhere, and only then). -/
theorem C291_resource (ls : List Level) (h : ls ≠ []) :
    resource ls = (ls.map cost).sum / (3 * ls.length) ∧ 1 / 3 ≤ resource ls ∧ resource ls ≤ 1 ∧ (resource ls = 1 ↔ ∀ l ∈ ls, l = .full) := by
  have hl : (0 : ℚ) < ls.length := by exact_mod_cast List.length_pos_iff.2 h
  have he : resource ls = (ls.map cost).sum / (3 * ls.length) := by
    unfold resource
    rw [if_neg h, foldl_cost, zero_add, div_div, mul_comm]
  have hc : ∀ l : Level, 1 ≤ cost l ∧ cost l ≤ 3 ∧ (cost l = 3 ↔ l = .full) := by
    intro l
    cases l <;> simp [cost] <;> norm_num
  have hs : ∀ ls : List Level, (ls.length : ℚ) ≤ (ls.map cost).sum ∧ (ls.map cost).sum ≤ 3 * ls.length ∧ ((ls.map cost).sum = 3 * ls.length ↔ ∀ l ∈ ls, l = .full) := by
    intro ls
    induction ls with
    | nil => simp
    | cons x xs ih =>
      obtain ⟨a, b, c⟩ := ih
      obtain ⟨p, q, r⟩ := hc x
      rw [List.map_cons, List.sum_cons, List.length_cons]
      push_cast
      refine ⟨by linarith, by linarith, ?_⟩
      rw [List.forall_mem_cons, ← c, ← r]
      constructor
      · intro hh
        exact ⟨by linarith, by linarith⟩
      · rintro ⟨h1, h2⟩
        linarith
  obtain ⟨a, b, c⟩ := hs ls
  rw [he]
  refine ⟨rfl, ?_, ?_, ?_⟩
  · rw [le_div_iff₀ (by positivity)]
    linarith
  · rw [div_le_one (by positivity)]
    exact b
  · rw [div_eq_one_iff_eq (by positivity)]
    exact c

example : resource [.full, .checksum, .health, .recovery] = 77 / 120 := by decide +kernel

/-- A sample is damaged if the draw for one of the layers lies below its probability: the given one, half as much again for a critical layer, times the layer's score. -/
def Damaged (net : List Layer) (p : ℝ) (u : ℕ → ℝ) : Prop := ∃ j l, net[j]? = some l ∧ u j < p * (if l.critical then 3 / 2 else 1) * l.score

theorem hasError_iff (p : ℝ) (u : ℕ → ℝ) (net : List Layer) (k : ℕ) :
    hasError (.fin p) u net k = true ↔ ∃ j l, net[j]? = some l ∧ u (k + j) < p * (if l.critical then 3 / 2 else 1) * l.score := by
  induction net generalizing k with
  | nil => simp [hasError]
  | cons a as ih =>
    have hp : layerProb (.fin p) a = .fin (p * (if a.critical then 3 / 2 else 1) * a.score) := by
      unfold layerProb
      cases a.critical <;> simp
    unfold hasError
    rw [hp, XD.lt_fin]
    by_cases h : u k < p * (if a.critical then 3 / 2 else 1) * a.score
    · rw [if_pos h]
      simp only [true_iff]
      exact ⟨0, a, rfl, h⟩
    · rw [if_neg h, ih (k + 1)]
      constructor
      · rintro ⟨j, l, h1, h2⟩
        exact ⟨j + 1, l, by simpa using h1, by rwa [show k + (j + 1) = k + 1 + j by omega]⟩
      · rintro ⟨j, l, h1, h2⟩
        cases j with
        | zero =>
          simp only [List.getElem?_cons_zero, Option.some.injEq] at h1
          subst h1
          exact absurd h2 h
        | succ j => exact ⟨j, l, by simpa using h1, by rwa [show k + 1 + j = k + (j + 1) by omega]⟩

open Classical in
theorem errors_eq (p : ℝ) (u : ℕ → ℕ → ℝ) (net : List Layer) (n : ℕ) :
    forN n (fun i c => if hasError (.fin p) (u i) net 0 then c + 1 else c) (0 : ℕ) = ((List.range n).filter fun i => decide (Damaged net p (u i))).length := by
  induction n with
  | zero => rfl
  | succ n ih =>
    have hd : hasError (.fin p) (u n) net 0 = true ↔ Damaged net p (u n) := by
      rw [hasError_iff]
      simp only [Nat.zero_add]
      rfl
    rw [List.range_succ, List.filter_append, List.length_append, ← ih]
    show (if hasError (.fin p) (u n) net 0 then _ else _) = _
    by_cases h : Damaged net p (u n)
    · rw [if_pos (hd.2 h)]
      simp [h]
    · rw [if_neg (fun hh => h (hd.1 hh))]
      simp [h]

open Classical in
/-- C292. For every network, probability, number of samples and all draws: the rate measured is the share of the samples that are damaged, between 0 and 1. -/
theorem C292_rate (net : List Layer) (p : ℝ) (n : ℤ) (hn : 0 < n) (u : ℕ → ℕ → ℝ) :
    ∃ r : ℝ, errorRate net (.fin p) n u = .fin r ∧ r = (((List.range n.toNat).filter fun i => decide (Damaged net p (u i))).length : ℝ) / n ∧ 0 ≤ r ∧ r ≤ 1 := by
  have hn' : (0 : ℝ) < (n : ℝ) := by exact_mod_cast hn
  refine ⟨_, ?_, rfl, ?_, ?_⟩
  · unfold errorRate
    simp only [errors_eq]
    rw [XD.div_fin _ _ hn'.ne']
  · positivity
  · rw [div_le_one hn']
    have h1 := List.length_filter_le (fun i => decide (Damaged net p (u i))) (List.range n.toNat)
    rw [List.length_range] at h1
    have h2 : ((n.toNat : ℤ) : ℝ) = (n : ℝ) := by rw [Int.toNat_of_nonneg hn.le]
    have h3 : (((List.range n.toNat).filter fun i => decide (Damaged net p (u i))).length : ℝ) ≤ ((n.toNat : ℕ) : ℝ) := by exact_mod_cast h1
    have h4 : ((n.toNat : ℕ) : ℝ) = (n : ℝ) := by exact_mod_cast h2
    linarith

/-- C292. With the same draws a higher probability never lowers the rate, and a probability of 0 gives the rate 0 (scores and draws not negative). -/
theorem C292_rate_monotone (net : List Layer) (hs : ∀ l ∈ net, 0 ≤ l.score) (p q : ℝ) (hpq : p ≤ q) (n : ℤ) (hn : 0 < n) (u : ℕ → ℕ → ℝ) :
    (∃ r s, errorRate net (.fin p) n u = .fin r ∧ errorRate net (.fin q) n u = .fin s ∧ r ≤ s) ∧
    ((∀ i j, 0 ≤ u i j) → p ≤ 0 → errorRate net (.fin p) n u = .fin 0) := by
  classical
  have hn' : (0 : ℝ) < (n : ℝ) := by exact_mod_cast hn
  have w : ∀ l ∈ net, (0 : ℝ) ≤ (if l.critical then 3 / 2 else 1) * l.score := by
    intro l hl
    exact mul_nonneg (by split <;> norm_num) (hs l hl)
  obtain ⟨r, h1, h2, h3, h4⟩ := C292_rate net p n hn u
  obtain ⟨s, k1, k2, _, _⟩ := C292_rate net q n hn u
  refine ⟨⟨r, s, h1, k1, ?_⟩, ?_⟩
  · rw [h2, k2]
    apply div_le_div_of_nonneg_right _ hn'.le
    have : ((List.range n.toNat).filter fun i => decide (Damaged net p (u i))).length ≤ ((List.range n.toNat).filter fun i => decide (Damaged net q (u i))).length := by
      rw [← List.countP_eq_length_filter, ← List.countP_eq_length_filter]
      apply List.countP_mono_left
      intro i _ hi
      rw [decide_eq_true_iff] at hi ⊢
      obtain ⟨j, l, hl, hu⟩ := hi
      refine ⟨j, l, hl, lt_of_lt_of_le hu ?_⟩
      have := mul_le_mul_of_nonneg_right hpq (w l (List.mem_of_getElem? hl))
      rw [mul_assoc, mul_assoc]
      exact this
    exact_mod_cast this
  · intro hu hp
    rw [h1]
    congr 1
    rw [h2]
    have : (List.range n.toNat).filter (fun i => decide (Damaged net p (u i))) = [] := by
      rw [List.filter_eq_nil_iff]
      intro i _ hi
      rw [decide_eq_true_iff] at hi
      obtain ⟨j, l, hl, hlt⟩ := hi
      have := mul_nonneg_of_nonpos_of_nonpos hp (neg_nonpos.2 (w l (List.mem_of_getElem? hl)))
      have := hu i j
      rw [mul_assoc] at hlt
      nlinarith
    rw [this]
    simp

example : ∃ u : ℕ → ℕ → ℝ, ∀ i j, 0 ≤ u i j ∧ u i j < 1 := ⟨fun _ _ => 1 / 2, fun _ _ => by norm_num⟩

/-- The share of the errors removed. -/
noncomputable def Removed (a b : ℝ) : ℝ := if 0 < a then 1 - b / a else 0

theorem judge_eq (target : SpaceMission.Target) (type : String) (ls : List Level) (a b : ℝ) :
    (judge target type ls (.fin a) (.fin b)).efficiency = .fin (Removed a b) ∧
    (judge target type ls (.fin a) (.fin b)).nasaMatch = .fin (100 * (1 - |Removed a b - reference target type|)) ∧
    ((judge target type ls (.fin a) (.fin b)).passed ↔ b < 5 / 100 ∧ |Removed a b - reference target type| < 15 / 100) := by
  classical
  have he : (judge target type ls (.fin a) (.fin b)).efficiency = .fin (Removed a b) := by
    show (if XD.lt (.fin 0) (.fin a) then (XD.fin 1).sub (XD.div (.fin b) (.fin a)) else .fin 0) = _
    unfold Removed
    by_cases h : 0 < a
    · rw [if_pos (by simpa using h), if_pos h, XD.div_fin _ _ h.ne', sub_fin]
    · rw [if_neg (by simpa using h), if_neg h]
  have hm : (judge target type ls (.fin a) (.fin b)).nasaMatch = .fin (100 * (1 - |Removed a b - reference target type|)) := by
    have : (judge target type ls (.fin a) (.fin b)).nasaMatch =
        XD.mul ((XD.fin 1).sub (((judge target type ls (.fin a) (.fin b)).efficiency.sub (.fin (reference target type : ℝ))).abs)) (.fin 100) := rfl
    rw [this, he, sub_fin]
    show XD.mul ((XD.fin 1).sub (.fin |Removed a b - (reference target type : ℝ)|)) (.fin 100) = _
    rw [sub_fin, XD.mul_fin]
    congr 1
    ring
  refine ⟨he, hm, ?_⟩
  have : (judge target type ls (.fin a) (.fin b)).passed = (XD.lt (.fin b) (.fin (5 / 100)) ∧ XD.lt (.fin 85) (judge target type ls (.fin a) (.fin b)).nasaMatch) := rfl
  rw [this, hm, XD.lt_fin, XD.lt_fin]
  constructor
  · rintro ⟨h1, h2⟩
    exact ⟨h1, by linarith⟩
  · rintro ⟨h1, h2⟩
    exact ⟨h1, by linarith⟩

open Classical in
/-- C292. For every network, environment, target, positive number of samples and all draws: the efficiency is the share of the error rate removed (0 without errors), and a phase
passes exactly if its error rate is below 5 % and the efficiency within 0.15 of the reference. -/
theorem C292_verdict (net : List Layer) (target : SpaceMission.Target) (flux : Option ℝ) (n : ℤ) (hn : 0 < n) (u w : ℕ → ℕ → ℝ) :
    ∃ f a b : ℝ, factor flux = .fin f ∧
      a = (((List.range n.toNat).filter fun i => decide (Damaged net (f / 10) (u i))).length : ℝ) / n ∧
      b = (((List.range n.toNat).filter fun i => decide (Damaged net (f / 10 * (1 - reduction (testPhase net target flux n u w).type)) (w i))).length : ℝ) / n ∧
      (testPhase net target flux n u w).error = .fin b ∧ (testPhase net target flux n u w).efficiency = .fin (Removed a b) ∧
      (testPhase net target flux n u w).power = 12 / 10 * (testPhase net target flux n u w).resource ∧
      ((testPhase net target flux n u w).passed ↔ b < 5 / 100 ∧ |Removed a b - reference target (testPhase net target flux n u w).type| < 15 / 100) := by
  have hf := (factor_fr flux).1
  obtain ⟨ls, hls⟩ : ∃ ls, ls = (recommend flux (analyze flux net)).map Prod.snd := ⟨_, rfl⟩
  have ht : testPhase net target flux n u w = judge target (predominant (count ls)) ls (errorRate net (.fin (fr flux / 10)) n u)
      (errorRate net (.fin (fr flux / 10 * (1 - (reduction (predominant (count ls)) : ℝ)))) n w) := by
    unfold testPhase
    simp only [← hls, hf, XD.mul_fin]
    rw [show fr flux * (1 / 10) = fr flux / 10 by ring]
  obtain ⟨a, a1, a2, _, _⟩ := C292_rate net (fr flux / 10) n hn u
  obtain ⟨b, b1, b2, _, _⟩ := C292_rate net (fr flux / 10 * (1 - (reduction (predominant (count ls)) : ℝ))) n hn w
  rw [a1, b1] at ht
  have hty : (testPhase net target flux n u w).type = predominant (count ls) := by rw [ht]; rfl
  have j := judge_eq target (predominant (count ls)) ls a b
  refine ⟨fr flux, a, b, hf, a2, ?_, ?_, ?_, ?_, ?_⟩
  · rw [hty]; exact b2
  · rw [ht]; rfl
  · rw [ht]; exact j.1
  · rw [ht]; exact mul_comm _ _
  · rw [hty, ht]; exact j.2.2

example : (judge .leo "Full TMR" [] (.fin (1 / 10)) (.fin (1 / 100))).passed := by
  rw [(judge_eq .leo "Full TMR" [] _ _).2.2]
  have : reference .leo "Full TMR" = 88 / 100 := by decide +kernel
  rw [this]
  unfold Removed
  refine ⟨by norm_num, ?_⟩
  rw [if_pos (by norm_num), abs_lt]
  push_cast
  constructor <;> norm_num

theorem sampleFrom_mem (n step : ℕ) (h : 0 < step) (m : ℕ) : ∀ i, n - i ≤ m → ∀ x, x ∈ sampleFrom n step h i ↔ x < n ∧ ∃ k, x = i + k * step := by
  induction m with
  | zero =>
    intro i hi x
    unfold sampleFrom
    rw [if_neg (by omega)]
    simp only [List.not_mem_nil, false_iff, not_and, not_exists]
    intro hx k hk
    have := Nat.zero_le (k * step)
    omega
  | succ m ih =>
    intro i hi x
    unfold sampleFrom
    by_cases hlt : i < n
    · rw [if_pos hlt, List.mem_cons, ih (i + step) (by omega)]
      constructor
      · rintro (rfl | ⟨hx, k, rfl⟩)
        · exact ⟨hlt, 0, by omega⟩
        · exact ⟨hx, k + 1, by rw [Nat.succ_mul]; omega⟩
      · rintro ⟨hx, k, rfl⟩
        cases k with
        | zero => left; omega
        | succ k => right; exact ⟨hx, k, by rw [Nat.succ_mul]; omega⟩
    · rw [if_neg hlt]
      simp only [List.not_mem_nil, false_iff, not_and, not_exists]
      intro hx k hk
      have := Nat.zero_le (k * step)
      omega

theorem sampleFrom_length (n step : ℕ) (h : 0 < step) (m : ℕ) : ∀ i, n - i ≤ m → (sampleFrom n step h i).length = (n - i + step - 1) / step := by
  induction m with
  | zero =>
    intro i hi
    unfold sampleFrom
    rw [if_neg (by omega), List.length_nil, Nat.div_eq_of_lt (by omega)]
  | succ m ih =>
    intro i hi
    unfold sampleFrom
    by_cases hlt : i < n
    · rw [if_pos hlt, List.length_cons, ih (i + step) (by omega)]
      by_cases h2 : step ≤ n - i
      · rw [show n - i + step - 1 = (n - (i + step) + step - 1) + step by omega, Nat.add_div_right _ h]
      · rw [show n - (i + step) + step - 1 = step - 1 by omega, Nat.div_eq_of_lt (by omega : step - 1 < step),
          show n - i + step - 1 = (n - i - 1) + step by omega, Nat.add_div_right _ h, Nat.div_eq_of_lt (by omega)]
    · rw [if_neg hlt, List.length_nil, Nat.div_eq_of_lt (by omega)]

/-- C292. Of a mission with any number of phases, the phases tested are those at the multiples of a third of the number (at least 1): the first is always tested, none is
outside the mission, all are for fewer than six phases, and three to five are for three or more. -/
theorem C292_phases (n : ℕ) :
    (∀ i, i ∈ sampled n ↔ i < n ∧ max 1 (n / 3) ∣ i) ∧ (0 < n → 0 ∈ sampled n) ∧ (n < 6 → ∀ i < n, i ∈ sampled n) ∧ (3 ≤ n → 3 ≤ (sampled n).length ∧ (sampled n).length ≤ 5) := by
  have hm : ∀ i, i ∈ sampled n ↔ i < n ∧ max 1 (n / 3) ∣ i := by
    intro i
    unfold sampled
    rw [sampleFrom_mem n _ (by omega) n 0 (by omega)]
    constructor
    · rintro ⟨h, k, rfl⟩
      exact ⟨h, ⟨k, by rw [Nat.zero_add, Nat.mul_comm]⟩⟩
    · rintro ⟨h, k, rfl⟩
      exact ⟨h, k, by rw [Nat.zero_add, Nat.mul_comm]⟩
  refine ⟨hm, fun h => (hm 0).2 ⟨h, dvd_zero _⟩, fun h i hi => (hm i).2 ⟨hi, ?_⟩, fun h => ?_⟩
  · have : max 1 (n / 3) = 1 := by omega
    rw [this]
    exact one_dvd _
  · unfold sampled
    rw [sampleFrom_length n _ (by omega) n 0 (by omega)]
    obtain ⟨s, hs⟩ : ∃ s, s = n / 3 := ⟨_, rfl⟩
    have hs1 : max 1 (n / 3) = s := by omega
    have hspos : 0 < s := by omega
    rw [hs1]
    have h1 : 3 * s ≤ n := by omega
    have h2 : n ≤ 3 * s + 2 := by omega
    constructor
    · rw [Nat.le_div_iff_mul_le hspos]
      omega
    · rw [← Nat.lt_succ_iff, Nat.div_lt_iff_lt_mul hspos]
      omega

example : sampled 6 = [0, 2, 4] ∧ sampled 4 = [0, 1, 2, 3] := by decide +kernel

/-- C292. Of each of the six standard missions the most exposed phase, or one exposed as much, is among those tested. -/
theorem C292_worst (t : SpaceMission.Target) (ht : t ∈ targets) :
    ∃ i ∈ sampled (SpaceMission.standard t).phases.length, ∃ p f, (SpaceMission.standard t).phases[i]? = some p ∧ (SpaceMission.standard t).flux p = some f ∧
      ∀ q ∈ (SpaceMission.standard t).phases, ∃ g, (SpaceMission.standard t).flux q = some g ∧ g ≤ f := by
  have m := fun n => (C292_phases n).1
  simp only [targets, List.mem_cons, List.not_mem_nil, or_false] at ht
  rcases ht with rfl | rfl | rfl | rfl | rfl | rfl
  · refine ⟨1, (m _ _).2 (by decide), _, _, rfl, rfl, ?_⟩
    simp [SpaceMission.standard, SpaceMission.plan, SpaceMission.leoPlan, SpaceMission.Mission.flux, SpaceMission.create, SpaceMission.stdFlux]
    norm_num
  · refine ⟨3, (m _ _).2 (by decide), _, _, rfl, rfl, ?_⟩
    simp [SpaceMission.standard, SpaceMission.plan, SpaceMission.geoPlan, SpaceMission.Mission.flux, SpaceMission.create, SpaceMission.stdFlux, SpaceMission.Env.setFlux]
    norm_num
  · refine ⟨2, (m _ _).2 (by decide), _, _, rfl, rfl, ?_⟩
    simp [SpaceMission.standard, SpaceMission.plan, SpaceMission.lunarPlan, SpaceMission.Mission.flux, SpaceMission.create, SpaceMission.stdFlux, SpaceMission.Env.setFlux]
    norm_num
  · refine ⟨4, (m _ _).2 (by decide), _, _, rfl, rfl, ?_⟩
    simp [SpaceMission.standard, SpaceMission.plan, SpaceMission.marsPlan, SpaceMission.Mission.flux, SpaceMission.create, SpaceMission.stdFlux, SpaceMission.Env.setFlux, SpaceMission.Env.new]
    norm_num
  · refine ⟨3, (m _ _).2 (by decide), _, _, rfl, rfl, ?_⟩
    simp [SpaceMission.standard, SpaceMission.plan, SpaceMission.jupiterPlan, SpaceMission.Mission.flux, SpaceMission.create, SpaceMission.stdFlux, SpaceMission.Env.setFlux, SpaceMission.Env.new]
    norm_num
  · refine ⟨4, (m _ _).2 (by decide), _, _, rfl, rfl, ?_⟩
    simp [SpaceMission.standard, SpaceMission.plan, SpaceMission.solarPlan, SpaceMission.Mission.flux, SpaceMission.create, SpaceMission.stdFlux, SpaceMission.Env.setFlux, SpaceMission.Env.new]
    norm_num

theorem reference_ge (target : SpaceMission.Target) (type : String) : (45 / 100 : ℚ) ≤ reference target type := by
  cases target <;> simp only [reference, pick] <;> (split <;> [skip; split <;> [skip; split]]) <;> norm_num

/-- C292, defect. A phase in which no error occurs fails: without an error without protection the efficiency counts as 0, far from every reference value.  So does every phase
when the number of samples is 0 or negative. -/
theorem C292_clean_violated (net : List Layer) (target : SpaceMission.Target) (flux : Option ℝ) (n : ℤ) (u w : ℕ → ℕ → ℝ)
    (h : n ≤ 0 ∨ ∀ i f, factor flux = .fin f → ¬ Damaged net (f / 10) (u i)) : ¬ (testPhase net target flux n u w).passed := by
  classical
  have zero : ∀ type ls (a b : ℝ), ¬ 0 < a → ¬ (judge target type ls (.fin a) (.fin b)).passed := by
    intro type ls a b ha hp
    have := ((judge_eq target type ls a b).2.2.1 hp).2
    unfold Removed at this
    rw [if_neg ha, abs_lt] at this
    have hr : ((45 / 100 : ℚ) : ℝ) ≤ (reference target type : ℝ) := Rat.cast_le.2 (reference_ge target type)
    push_cast at hr
    linarith [this.1]
  by_cases hn : 0 < n
  · rcases h with h | h
    · omega
    · intro hp
      obtain ⟨f, a, b, hf, ha, _, _, _, _, hv⟩ := C292_verdict net target flux n hn u w
      have ha0 : a = 0 := by
        rw [ha]
        have : (List.range n.toNat).filter (fun i => decide (Damaged net (f / 10) (u i))) = [] := by
          rw [List.filter_eq_nil_iff]
          intro i _ hi
          exact h i f hf (by simpa using hi)
        rw [this]
        simp
      have := (hv.1 hp).2
      unfold Removed at this
      rw [ha0, if_neg (lt_irrefl _), abs_lt] at this
      have hr : ((45 / 100 : ℚ) : ℝ) ≤ (reference target (testPhase net target flux n u w).type : ℝ) := Rat.cast_le.2 (reference_ge target _)
      push_cast at hr
      linarith [this.1]
  · have hz : n.toNat = 0 := by omega
    have he : ∀ p v, errorRate net p n v = XD.div (.fin ((0 : ℕ) : ℝ)) (.fin (n : ℝ)) := by
      intro p v
      unfold errorRate
      rw [hz]
      rfl
    unfold testPhase
    simp only [he]
    push_cast
    by_cases h0 : n = 0
    · subst h0
      push_cast
      rw [XD.div_zero_zero]
      rintro ⟨hh, _⟩
      exact XD.not_lt_nan_left _ hh
    · rw [XD.div_fin _ _ (by exact_mod_cast h0), zero_div]
      exact zero _ _ 0 0 (lt_irrefl _)

example : ∃ u : ℕ → ℕ → ℝ, ∀ i f, factor (some (1 / 10 ^ 7)) = .fin f → ¬ Damaged network (f / 10) (u i) := by
  refine ⟨fun _ _ => 999 / 1000, fun i f hf => ?_⟩
  rintro ⟨j, l, hl, hu⟩
  have hf1 : f ≤ 1 := by
    have := factor_fr (some (1 / 10 ^ 7))
    rw [hf] at this
    rw [XD.fin.inj this.1]
    exact this.2.2
  have hf0 : 0 ≤ f := by
    have := factor_fr (some (1 / 10 ^ 7))
    rw [hf] at this
    rw [XD.fin.inj this.1]
    exact this.2.1
  have hmem := List.mem_of_getElem? hl
  simp only [network, List.mem_cons, List.not_mem_nil, or_false] at hmem
  rcases hmem with rfl | rfl | rfl | rfl | rfl | rfl <;> simp at hu <;> linarith

/-- C292, defect. The rates with and without protection come from different draws: in every environment with a flux factor above 0 there are draws between 0 and 1 for which the
protected network fails in both of two samples and the unprotected one in one: efficiency -1. -/
theorem C292_negative_violated (target : SpaceMission.Target) (flux : Option ℝ) (f : ℝ) (hf : factor flux = .fin f) (h0 : 0 < f) :
    ∃ u w : ℕ → ℕ → ℝ, (∀ i j, 0 ≤ u i j ∧ u i j < 1 ∧ 0 ≤ w i j ∧ w i j < 1) ∧ (testPhase network target flux 2 u w).efficiency = .fin (-1) := by
  classical
  have hf1 : f ≤ 1 := by
    have := factor_fr flux
    rw [hf] at this
    rw [XD.fin.inj this.1]
    exact this.2.2
  refine ⟨fun i _ => if i = 0 then 0 else 1 / 2, fun _ _ => 0, fun i j => ⟨by beta_reduce; split <;> norm_num, by beta_reduce; split <;> norm_num, le_rfl, one_pos⟩, ?_⟩
  obtain ⟨g, a, b, hg, ha, hb, _, he, _, _⟩ := C292_verdict network target flux 2 (by norm_num) (fun i _ => if i = 0 then 0 else 1 / 2) (fun _ _ => 0)
  have hgf : g = f := XD.fin.inj (hg.symm.trans hf)
  subst hgf
  have d : ∀ p : ℝ, 0 < p → Damaged network p (fun _ => 0) := by
    intro p hp
    refine ⟨0, _, rfl, ?_⟩
    simp
    positivity
  have nd : ¬ Damaged network (g / 10) (fun _ => 1 / 2) := by
    rintro ⟨j, l, hl, hu⟩
    have hmem := List.mem_of_getElem? hl
    simp only [network, List.mem_cons, List.not_mem_nil, or_false] at hmem
    rcases hmem with rfl | rfl | rfl | rfl | rfl | rfl <;> simp at hu <;> linarith
  have ha' : a = 1 / 2 := by
    rw [ha]
    have h1 : Damaged network (g / 10) ((fun i _ => if i = 0 then 0 else 1 / 2 : ℕ → ℕ → ℝ) 0) := d _ (by positivity)
    have h2 : ¬ Damaged network (g / 10) ((fun i _ => if i = 0 then 0 else 1 / 2 : ℕ → ℕ → ℝ) 1) := nd
    have : (List.range (2 : ℤ).toNat).filter (fun i => decide (Damaged network (g / 10) ((fun i _ => if i = 0 then 0 else 1 / 2 : ℕ → ℕ → ℝ) i))) = [0] := by
      show [0, 1].filter _ = _
      rw [List.filter_cons_of_pos (by simpa using h1), List.filter_cons_of_neg (by simpa using h2)]
      rfl
    rw [this]
    simp
  have hred : ∀ t, (0 : ℝ) < 1 - (reduction t : ℝ) := by
    intro t
    unfold reduction
    split <;> [skip; split <;> [skip; split]] <;> push_cast <;> norm_num
  have hb' : b = 1 := by
    rw [hb]
    have h1 := d (g / 10 * (1 - (reduction (testPhase network target flux 2 (fun i _ => if i = 0 then 0 else 1 / 2) fun _ _ => 0).type : ℝ)))
      (mul_pos (by positivity) (hred _))
    rw [List.filter_eq_self.2 (fun i _ => by simpa using h1), List.length_range]
    show ((2 : ℕ) : ℝ) / ((2 : ℤ) : ℝ) = 1
    norm_num
  rw [he, ha', hb']
  unfold Removed
  congr 1
  norm_num

example : factor (some (1 / 10 ^ 4)) = .fin 1 ∧ (0 : ℝ) < 1 := ⟨C291_factor.2.2.2.1 _ (by norm_num), one_pos⟩

theorem clamp (x : ℝ) (h0 : 0 ≤ x) (h1 : x ≤ 1) : min 1 (max 0 x) = x := by rw [max_eq_right h0, min_eq_right h1]

theorem e1 (f : ℝ) (h : 8 / 10 ≤ f) (hf1 : f ≤ 1) : levelOf (.fin (Score f ⟨"input", "input", false, 0, 1 / 10⟩)) (.fin f) = .recovery := by
  rw [(C291_level _ _).2.2.2.1]
  unfold Score
  simp only [Bool.false_eq_true, if_false]
  rw [if_neg (by decide), if_neg (by decide), clamp _ (by linarith) (by linarith)]
  constructor <;> linarith

theorem e2 (f : ℝ) (h : 8 / 10 ≤ f) (hf1 : f ≤ 1) : levelOf (.fin (Score f ⟨"hidden1", "dense", false, 60, 5 / 10⟩)) (.fin f) = .health := by
  rw [(C291_level _ _).2.1]
  unfold Score
  simp only [Bool.false_eq_true, if_false, if_true]
  rw [clamp _ (by linarith) (by linarith)]
  constructor <;> linarith

theorem e3 (f : ℝ) (h : 8 / 10 ≤ f) : levelOf (.fin (Score f ⟨"hidden2", "dense", true, 80, 7 / 10⟩)) (.fin f) = .full := by
  rw [(C291_level _ _).1]
  unfold Score
  simp only [if_true]
  have : (9 / 10 : ℝ) ≤ min 1 (max 0 (7 / 10 * (12 / 10) * (13 / 10) * ((1 + f) / 2))) := le_min (by norm_num) (le_max_of_le_right (by linarith))
  linarith

theorem e4 (f : ℝ) (h : 8 / 10 ≤ f) (hf1 : f ≤ 1) : levelOf (.fin (Score f ⟨"conv1", "conv", false, 128, 6 / 10⟩)) (.fin f) = .health := by
  rw [(C291_level _ _).2.1]
  unfold Score
  simp only [Bool.false_eq_true, if_false]
  rw [if_neg (by decide), if_neg (by decide), clamp _ (by linarith) (by linarith)]
  constructor <;> linarith

theorem e5 (f : ℝ) (h : 8 / 10 ≤ f) (hf1 : f ≤ 1) : levelOf (.fin (Score f ⟨"pool1", "pool", false, 0, 3 / 10⟩)) (.fin f) = .recovery ∨
    levelOf (.fin (Score f ⟨"pool1", "pool", false, 0, 3 / 10⟩)) (.fin f) = .selective := by
  rw [(C291_level _ _).2.2.2.1, (C291_level _ _).2.2.1]
  have : Score f ⟨"pool1", "pool", false, 0, 3 / 10⟩ = 3 / 10 * (7 / 10) * ((1 + f) / 2) := by
    unfold Score
    simp only [Bool.false_eq_true, if_false, if_true]
    rw [if_neg (by decide), clamp _ (by linarith) (by linarith)]
    ring
  rw [this]
  by_cases hc : 7 / 10 * (3 / 10 * (7 / 10) * ((1 + f) / 2)) + 3 / 10 * f ≤ 4 / 10
  · left; exact ⟨by linarith, hc⟩
  · right; exact ⟨not_le.1 hc, by linarith⟩

theorem e6 (f : ℝ) (h : 8 / 10 ≤ f) : levelOf (.fin (Score f ⟨"output", "dense", true, 40, 8 / 10⟩)) (.fin f) = .full := by
  rw [(C291_level _ _).1]
  unfold Score
  simp only [if_true]
  have : (9 / 10 : ℝ) ≤ min 1 (max 0 (8 / 10 * (12 / 10) * (13 / 10) * ((1 + f) / 2))) := le_min (by norm_num) (le_max_of_le_right (by linarith))
  linarith

theorem fold_put_new (g : Layer → XD) (ls : List Layer) : ∀ m : List (String × XD), (∀ p ∈ m, ∀ l ∈ ls, l.name ≠ p.1) → (ls.map Layer.name).Nodup →
    ls.foldl (fun m l => put m l.name (g l)) m = m ++ ls.map fun l => (l.name, g l) := by
  induction ls with
  | nil => intro m _ _; simp
  | cons a as ih =>
    intro m hm hn
    rw [List.map_cons, List.nodup_cons] at hn
    have hput : put m a.name (g a) = m ++ [(a.name, g a)] := by
      unfold put
      rw [List.filter_eq_self.2]
      intro p hp
      simpa using fun hh => hm p hp a (List.mem_cons_self ..) hh.symm
    rw [List.foldl_cons, hput, ih, List.map_cons, List.append_assoc]
    · rfl
    · intro p hp l hl
      rcases List.mem_append.1 hp with hp | hp
      · exact hm p hp l (List.mem_cons_of_mem _ hl)
      · rw [List.mem_singleton] at hp
        subst hp
        intro hh
        have hh' : l.name = a.name := hh
        exact hn.1 (hh' ▸ List.mem_map_of_mem hl)
    · exact hn.2

theorem analyze_network (flux : Option ℝ) : analyze flux network = network.map fun l => (l.name, XD.fin (Score (fr flux) l)) := by
  unfold analyze
  rw [fold_put_new _ _ [] (by simp) (by simp [network]), List.nil_append]
  apply List.map_congr_left
  intro l _
  rw [score_eq]

/-- C291, limit. In every environment with a flux factor of at least 0.8 the network of the program counts as "Full TMR" protected: two of its six layers are, by the rule for
ties. -/
theorem C291_full_limit (flux : Option ℝ) (f : ℝ) (hf : factor flux = .fin f) (h : 8 / 10 ≤ f) (target : SpaceMission.Target) (n : ℤ) (u w : ℕ → ℕ → ℝ) :
    (testPhase network target flux n u w).type = "Full TMR" ∧ ((recommend flux (analyze flux network)).map Prod.snd).countP (· = .full) = 2 ∧
      ((recommend flux (analyze flux network)).map Prod.snd).length = 6 := by
  have hfr : fr flux = f := XD.fin.inj ((factor_fr flux).1.symm.trans hf)
  have hf1 : f ≤ 1 := hfr ▸ (factor_fr flux).2.2
  have L : (recommend flux (analyze flux network)).map Prod.snd = [.recovery, .health, .full, .health, levelOf (.fin (Score f ⟨"pool1", "pool", false, 0, 3 / 10⟩)) (.fin f), .full] := by
    rw [analyze_network]
    unfold recommend
    rw [hf, hfr]
    simp only [network, List.map_cons, List.map_nil]
    rw [e1 f h hf1, e2 f h hf1, e3 f h, e4 f h hf1, e6 f h]
  have ht : (testPhase network target flux n u w).type = predominant (count ((recommend flux (analyze flux network)).map Prod.snd)) := by
    unfold testPhase
    dsimp only [judge]
  rw [ht, L]
  rcases e5 f h hf1 with h5 | h5 <;> rw [h5] <;> decide +kernel

example : ∃ f : ℝ, factor (some (1 / 10 ^ 4)) = .fin f ∧ 8 / 10 ≤ f := ⟨1, C291_factor.2.2.2.1 _ (by norm_num), by norm_num⟩

/-- C292. The whole run tests 20 phases; the percentage is the share that passes, between 0 and 100, and decides the assessment.  With no or a negative number of samples it is 0,
whatever the draws. -/
theorem C292_run (n : ℤ) (u w : ℕ → ℕ → ℕ → ℝ) :
    (runAll n u w).length = 20 ∧ (open Classical in percentage (runAll n u w) = 5 * ((runAll n u w).filter fun r => decide r.passed).length) ∧
      0 ≤ percentage (runAll n u w) ∧ percentage (runAll n u w) ≤ 100 ∧
      (n ≤ 0 → percentage (runAll n u w) = 0 ∧ assessment (percentage (runAll n u w)) = "NEEDS IMPROVEMENT") := by
  classical
  have hl : (runAll n u w).length = 20 := by
    unfold runAll
    rw [List.length_mapIdx]
    have : cases.length = ((targets.map fun t => (sampled (SpaceMission.standard t).phases.length).length)).sum := by
      unfold cases
      rw [List.length_flatMap]
      simp only [List.length_map]
    rw [this]
    show (sampled 2).length + ((sampled 4).length + ((sampled 6).length + ((sampled 6).length + ((sampled 5).length + ((sampled 6).length + 0))))) = 20
    decide +kernel
  have hp : percentage (runAll n u w) = 5 * ((runAll n u w).filter fun r => decide r.passed).length := by
    unfold percentage
    rw [hl, if_pos (by norm_num), List.countP_eq_length_filter]
    push_cast
    ring
  refine ⟨hl, hp, ?_, ?_, ?_⟩
  · rw [hp]; positivity
  · rw [hp]
    have h1 := List.length_filter_le (fun r => decide (Result.passed r)) (runAll n u w)
    rw [hl] at h1
    have : (((runAll n u w).filter fun r => decide (Result.passed r)).length : ℝ) ≤ 20 := by exact_mod_cast h1
    linarith
  · intro hn
    have h0 : percentage (runAll n u w) = 0 := by
      rw [hp]
      have : (runAll n u w).filter (fun r => decide r.passed) = [] := by
        rw [List.filter_eq_nil_iff]
        intro r hr
        unfold runAll at hr
        obtain ⟨k, hk, rfl⟩ := List.mem_mapIdx.1 hr
        simpa using C292_clean_violated network _ _ n (u k) (w k) (Or.inl hn)
      rw [this]
      simp
    rw [h0]
    refine ⟨rfl, ?_⟩
    unfold assessment
    norm_num

/-- C292. The share of errors each protection is assumed to avoid, and the reference efficiencies the results are compared with, by target and protection. -/
theorem C292_tables :
    ["Full TMR", "Health-Weighted TMR", "Selective TMR", "Checksum"].map reduction = [90 / 100, 85 / 100, 70 / 100, 50 / 100] ∧
    [SpaceMission.Target.leo, .meo, .geo, .moon, .mars, .jupiter, .solarProbe].map (fun t => ["Full TMR", "Health-Weighted TMR", "Selective TMR", "Checksum"].map fun p => reference t p * 100) =
      [[88, 84, 72, 52], [88, 84, 72, 52], [88, 84, 72, 52], [87, 83, 71, 51], [86, 82, 70, 49], [85, 80, 68, 47], [84, 79, 66, 45]] := by
  decide +kernel

/-- C292. The assessment for every percentage. -/
theorem C292_assessment (x : ℝ) :
    (assessment x = "EXCELLENT" ↔ 80 ≤ x) ∧ (assessment x = "GOOD" ↔ 60 ≤ x ∧ x < 80) ∧ (assessment x = "FAIR" ↔ 40 ≤ x ∧ x < 60) ∧ (assessment x = "NEEDS IMPROVEMENT" ↔ x < 40) := by
  unfold assessment
  by_cases h1 : 80 ≤ x
  · rw [if_pos h1]
    refine ⟨by simp [h1], ⟨fun h => absurd h (by decide), fun h => by linarith [h.2]⟩, ⟨fun h => absurd h (by decide), fun h => by linarith [h.2]⟩, ⟨fun h => absurd h (by decide), fun h => by linarith⟩⟩
  · rw [if_neg h1]
    have h1 := not_le.1 h1
    by_cases h2 : 60 ≤ x
    · rw [if_pos h2]
      refine ⟨⟨fun h => absurd h (by decide), fun h => by linarith⟩, by simp [h1, h2], ⟨fun h => absurd h (by decide), fun h => by linarith [h.2]⟩, ⟨fun h => absurd h (by decide), fun h => by linarith⟩⟩
    · rw [if_neg h2]
      have h2 := not_le.1 h2
      by_cases h3 : 40 ≤ x
      · rw [if_pos h3]
        refine ⟨⟨fun h => absurd h (by decide), fun h => by linarith⟩, ⟨fun h => absurd h (by decide), fun h => by linarith [h.1]⟩, by simp [h2, h3], ⟨fun h => absurd h (by decide), fun h => by linarith⟩⟩
      · rw [if_neg h3]
        have h3 := not_le.1 h3
        refine ⟨⟨fun h => absurd h (by decide), fun h => by linarith⟩, ⟨fun h => absurd h (by decide), fun h => by linarith [h.1]⟩, ⟨fun h => absurd h (by decide), fun h => by linarith [h.1]⟩, by simp [h3]⟩

end Verif.Props.MissionValidation
