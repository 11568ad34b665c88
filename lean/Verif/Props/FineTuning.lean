import Verif.Model.FineTuning
import Mathlib.Tactic
/-!
Properties of fine tuning: C223 sensitivities, C224 protection profile, C225 layers, C226 adaptive Reed-Solomon selection, C227 learning from errors, C228 memory layout, C229 the optimizer and its validation.
-/
namespace Verif.FineTuning
open Classical

/-! ### C223: sensitivities -/

theorem addAbs_ok (s g : List ℝ) (h : g.length ≤ s.length) :
    ∃ r, addAbs s g = .ok r ∧ r.length = s.length ∧ ∀ i < s.length, r.getD i 0 = s.getD i 0 + |g.getD i 0| := by
  induction s generalizing g with
  | nil =>
    cases g with
    | nil => exact ⟨[], rfl, rfl, by simp⟩
    | cons a t => simp at h
  | cons a s ih =>
    cases g with
    | nil => exact ⟨a :: s, rfl, rfl, by simp⟩
    | cons x g =>
      obtain ⟨r, h1, h2, h3⟩ := ih g (by simpa using h)
      refine ⟨(a + |x|) :: r, by simp [addAbs, h1, Outcome.bind], by simp [h2], ?_⟩
      intro i hi
      cases i with
      | zero => simp
      | succ i => simpa using h3 i (by simpa using hi)

theorem samplesLoop_ok (gs : List (List ℝ)) : ∀ (c : ℕ) (s : List ℝ), c < 1000 → (∀ g ∈ gs.take (1000 - c), g.length ≤ s.length) →
    ∃ r, samplesLoop c s gs = .ok r ∧ r.length = s.length ∧ ∀ i < s.length, r.getD i 0 = s.getD i 0 + ((gs.take (1000 - c)).map fun g => |g.getD i 0|).sum := by
  induction gs with
  | nil => intro c s _ _; exact ⟨s, rfl, rfl, by simp⟩
  | cons g gs ih =>
    intro c s hc hg
    obtain ⟨k, hk⟩ : ∃ k, 1000 - c = k + 1 := ⟨999 - c, by omega⟩
    rw [hk] at hg ⊢
    obtain ⟨s', h1, h2, h3⟩ := addAbs_ok s g (hg g (by simp))
    by_cases hlast : c + 1 ≥ 1000
    · have : k = 0 := by omega
      subst this
      refine ⟨s', by simp only [samplesLoop, h1, Outcome.bind, if_pos hlast], h2, ?_⟩
      intro i hi; simpa using h3 i hi
    · have hk' : 1000 - (c + 1) = k := by omega
      obtain ⟨r, e1, e2, e3⟩ := ih (c + 1) s' (by omega) (by
        rw [hk', h2]; intro x hx; exact hg x (by simp [hx]))
      refine ⟨r, by simp only [samplesLoop, h1, Outcome.bind, if_neg hlast, e1], e2.trans h2, ?_⟩
      intro i hi
      rw [e3 i (h2 ▸ hi), h3 i hi, hk']
      simp only [List.take_succ_cons, List.map_cons, List.sum_cons]; ring

theorem samplesLoop_take (gs more : List (List ℝ)) : ∀ (c : ℕ) (s : List ℝ), 1000 ≤ c + gs.length → c < 1000 → samplesLoop c s (gs ++ more) = samplesLoop c s gs := by
  induction gs with
  | nil => intro c s h1 h2; simp at h1; omega
  | cons g gs ih =>
    intro c s h1 h2
    simp only [List.cons_append, samplesLoop]
    congr 1; funext s'
    by_cases h : c + 1 ≥ 1000
    · rw [if_pos h, if_pos h]
    · rw [if_neg h, if_neg h, ih (c + 1) s' (by simp at h1; omega) (by omega)]

theorem foldl_max (l : List ℝ) : ∀ a : ℝ, (∀ x ∈ a :: l, x ≤ l.foldl (fun m x => if m < x then x else m) a) ∧ l.foldl (fun m x => if m < x then x else m) a ∈ a :: l := by
  induction l with
  | nil => intro a; simp
  | cons b l ih =>
    intro a
    obtain ⟨h1, h2⟩ := ih (if a < b then b else a)
    simp only [List.foldl_cons]
    constructor
    · intro x hx
      have hh := h1 (if a < b then b else a) (by simp)
      rcases List.mem_cons.mp hx with rfl | hx
      · refine le_trans ?_ hh; split <;> linarith
      · rcases List.mem_cons.mp hx with rfl | hx
        · refine le_trans ?_ hh; split <;> linarith
        · exact h1 x (by simp [hx])
    · rcases List.mem_cons.mp h2 with h | h
      · rw [h]; split <;> simp
      · simp [h]

/-- What the first thousand samples contribute to weight `i`. -/
noncomputable def contribution (gradients : List (List ℝ)) (i : ℕ) : ℝ := ((gradients.take 1000).map fun g => |g.getD i 0|).sum

theorem contribution_nonneg (gs : List (List ℝ)) (i : ℕ) : 0 ≤ contribution gs i := by
  unfold contribution
  apply List.sum_nonneg
  intro x hx
  obtain ⟨g, _, rfl⟩ := List.mem_map.mp hx
  exact abs_nonneg _

theorem getD_mem {l : List ℝ} {i : ℕ} (h : i < l.length) : l.getD i 0 ∈ l := by
  rw [List.getD_eq_getElem?_getD, List.getElem?_eq_getElem h]; simp

theorem mem_getD {l : List ℝ} {x : ℝ} (h : x ∈ l) : ∃ i < l.length, l.getD i 0 = x := by
  obtain ⟨i, hi, rfl⟩ := List.mem_iff_getElem.mp h
  exact ⟨i, hi, by rw [List.getD_eq_getElem?_getD, List.getElem?_eq_getElem hi]; simp⟩

theorem getD_map_div {l : List ℝ} {m : ℝ} {i : ℕ} : (l.map (· / m)).getD i 0 = l.getD i 0 / m := by
  rw [List.getD_eq_getElem?_getD, List.getD_eq_getElem?_getD, List.getElem?_map]
  cases l[i]? <;> simp

/-- **C223.** The sensitivity of a weight is the sum of the magnitudes of its gradients over the first thousand samples, relative to the largest such sum: all lie between 0 and 1, the largest is exactly 1, unless all gradients are 0: then all are 0 (0 / 0 is 0 here). -/
theorem C223_sensitivity (n : ℕ) (hn : 0 < n) (gradients : List (List ℝ)) (h : ∀ g ∈ gradients.take 1000, g.length ≤ n) :
    ∃ s, analyze n gradients = .ok s ∧ s.length = n ∧
      (∃ m, (∀ i < n, contribution gradients i ≤ m) ∧ (∃ i < n, contribution gradients i = m) ∧ ∀ i < n, s.getD i 0 = contribution gradients i / m) ∧
      (∀ i < n, 0 ≤ s.getD i 0 ∧ s.getD i 0 ≤ 1) ∧
      ((∀ i < n, s.getD i 0 = 0 ∧ contribution gradients i = 0) ∨ ∃ i < n, s.getD i 0 = 1) := by
  obtain ⟨r, h1, h2, h3⟩ := samplesLoop_ok gradients 0 (List.replicate n 0) (by omega) (by simpa using h)
  have h2' : r.length = n := by simpa using h2
  have h3' : ∀ i < n, r.getD i 0 = contribution gradients i := by
    intro i hi
    have := h3 i (by simpa using hi)
    rw [this]; simp [contribution, List.getD_eq_getElem?_getD, hi]
  cases r with
  | nil => simp at h2'; omega
  | cons a l =>
    obtain ⟨hmax, hmem⟩ := foldl_max l a
    set m := l.foldl (fun m x => if m < x then x else m) a with hm
    have hme : maxElement (a :: l) = .ok m := rfl
    have hle : ∀ i < n, contribution gradients i ≤ m := by
      intro i hi; rw [← h3' i hi]; exact hmax _ (getD_mem (h2' ▸ hi))
    obtain ⟨k, hk, hkm⟩ := mem_getD hmem
    rw [h2'] at hk
    have hk' : contribution gradients k = m := by rw [← h3' k hk, hkm]
    have h0 : 0 ≤ m := hk' ▸ contribution_nonneg _ _
    have key : ∀ s : List ℝ, (∀ i < n, s.getD i 0 = contribution gradients i / m) →
        (∀ i < n, 0 ≤ s.getD i 0 ∧ s.getD i 0 ≤ 1) ∧ ((∀ i < n, s.getD i 0 = 0 ∧ contribution gradients i = 0) ∨ ∃ i < n, s.getD i 0 = 1) := by
      intro s hs
      refine ⟨fun i hi => ?_, ?_⟩
      · rw [hs i hi]
        exact ⟨div_nonneg (contribution_nonneg _ _) h0, div_le_one_of_le₀ (hle i hi) h0⟩
      · rcases h0.eq_or_lt with hz | hz
        · left; intro i hi
          have : contribution gradients i = 0 := le_antisymm (hz ▸ hle i hi) (contribution_nonneg _ _)
          rw [hs i hi, this]; simp
        · right; exact ⟨k, hk, by rw [hs k hk, hk', div_self hz.ne']⟩
    by_cases hp : 0 < m
    · refine ⟨(a :: l).map (· / m), by simp only [analyze, h1, Outcome.bind, hme, if_pos hp], by rw [List.length_map, h2'], ?_⟩
      have hs : ∀ i < n, ((a :: l).map (· / m)).getD i 0 = contribution gradients i / m := by
        intro i hi; rw [getD_map_div, h3' i hi]
      exact ⟨⟨m, hle, ⟨k, hk, hk'⟩, hs⟩, key _ hs⟩
    · have hz : m = 0 := le_antisymm (not_lt.mp hp) h0
      refine ⟨a :: l, by simp only [analyze, h1, Outcome.bind, hme, if_neg hp], h2', ?_⟩
      have hs : ∀ i < n, (a :: l).getD i 0 = contribution gradients i / m := by
        intro i hi
        rw [h3' i hi, hz, div_zero]
        exact le_antisymm (hz ▸ hle i hi) (contribution_nonneg _ _)
      exact ⟨⟨m, hle, ⟨k, hk, hk'⟩, hs⟩, key _ hs⟩

/-- **C223, violated.** "Minimum 1000 samples per weight": a thousand is the maximum — whatever follows is ignored — and any smaller number is accepted, even none, which declares every weight insensitive. -/
theorem C223_minimum_violated (n : ℕ) (gs more : List (List ℝ)) :
    (1000 ≤ gs.length → analyze n (gs ++ more) = analyze n gs) ∧ (0 < n → analyze n [] = .ok (List.replicate n 0)) := by
  constructor
  · intro h
    unfold analyze
    rw [samplesLoop_take gs more 0 _ (by omega) (by omega)]
  · intro hn
    obtain ⟨s, h1, h2, _, _, h3⟩ := C223_sensitivity n hn [] (by simp)
    rw [h1]
    congr 1
    apply List.ext_getElem (by simp [h2])
    intro i hi _
    rw [List.getElem_replicate]
    rcases h3 with h3 | ⟨k, hk, h3⟩
    · have := (h3 i (h2 ▸ hi)).1
      rwa [List.getD_eq_getElem?_getD, List.getElem?_eq_getElem hi] at this
    · exfalso
      have hs : analyze n [] = .ok (List.replicate n 0) := by
        have hm : maxElement (List.replicate n (0 : ℝ)) = .ok 0 := by
          obtain ⟨k, rfl⟩ : ∃ k, n = k + 1 := ⟨n - 1, by omega⟩
          have hz := (foldl_max (List.replicate k (0 : ℝ)) 0).2
          rw [List.replicate_succ]
          show Outcome.ok _ = _
          congr 1
          rcases List.mem_cons.mp hz with h | h
          · exact h
          · exact List.eq_of_mem_replicate h
        simp [analyze, samplesLoop, Outcome.bind, hm]
      rw [hs] at h1
      simp only [Outcome.ok.injEq] at h1
      rw [← h1] at h3
      simp [List.getD_eq_getElem?_getD, hk] at h3

/-- **C223 (limit).** Without weights, or with more gradients than weights in a sample that is looked at, the behaviour is undefined. -/
theorem C223_empty_limit (gs : List (List ℝ)) : analyze 0 gs = .ub := by
  have : ∀ c : ℕ, samplesLoop c [] gs = .ok [] ∨ samplesLoop c [] gs = .ub := by
    induction gs with
    | nil => intro c; left; rfl
    | cons g gs ih =>
      intro c
      cases g with
      | nil =>
        simp only [samplesLoop, addAbs, Outcome.bind]
        split
        · left; rfl
        · exact ih _
      | cons a t => right; rfl
  unfold analyze
  rcases this 0 with h | h <;> simp only [List.replicate_zero, h] <;> rfl

example : ∀ g ∈ ([[1, -2], [0, 1]] : List (List ℝ)).take 1000, g.length ≤ 2 := by simp

/-! ### C224: profile -/

/-- Protection levels in increasing order. -/
def ord : Level → ℕ
  | .none => 0
  | .minimal => 1
  | .moderate => 2
  | .high => 3
  | .veryHigh => 4
  | .adaptive => 5

theorem floor_lt {n : ℕ} (hn : 0 < n) {q : ℝ} (h0 : 0 ≤ q) (h1 : q < 1) : ⌊q * n⌋₊ < n := by
  rw [Nat.floor_lt (by positivity)]
  have : (0 : ℝ) < n := by exact_mod_cast hn
  nlinarith

theorem threshold_ok (q : ℝ) (s : List ℝ) (hs : s ≠ []) (h0 : 0 ≤ q) (h1 : q < 1) :
    ∃ t, threshold q s = .ok t ∧ t ∈ s ∧ s.length - ⌊q * s.length⌋₊ ≤ s.countP (fun x => decide (t ≤ x)) ∧
      (s.Nodup → s.countP (fun x => decide (t ≤ x)) = s.length - ⌊q * s.length⌋₊) := by
  have hl : 0 < s.length := List.length_pos_iff.mpr hs
  have hk := floor_lt hl h0 h1
  set k := ⌊q * s.length⌋₊ with hkd
  set o := s.insertionSort (· ≤ ·) with ho
  have hp : o.Perm s := List.perm_insertionSort _ s
  have hol : o.length = s.length := hp.length_eq
  have hk' : k < o.length := hol ▸ hk
  have hsorted : o.Pairwise (· ≤ ·) := List.pairwise_insertionSort (· ≤ ·) s
  refine ⟨o[k], ?_, hp.mem_iff.mp (List.getElem_mem hk'), ?_, ?_⟩
  · unfold threshold; rw [← ho, ← hkd, List.getElem?_eq_getElem hk']
  · rw [← hp.countP_eq]
    have hsplit : o.countP (fun x => decide (o[k] ≤ x)) = (o.take k).countP (fun x => decide (o[k] ≤ x)) + (o.drop k).countP (fun x => decide (o[k] ≤ x)) := by
      rw [← List.countP_append, List.take_append_drop]
    rw [hsplit]
    have : (o.drop k).countP (fun x => decide (o[k] ≤ x)) = (o.drop k).length := by
      rw [List.countP_eq_length]
      intro x hx
      rw [List.drop_eq_getElem_cons hk'] at hx
      have hd : (o.drop k).Pairwise (· ≤ ·) := hsorted.sublist (List.drop_sublist k o)
      rw [List.drop_eq_getElem_cons hk', List.pairwise_cons] at hd
      rcases List.mem_cons.mp hx with rfl | hx
      · simp
      · simpa using hd.1 x hx
    rw [this, List.length_drop, hol]; omega
  · intro hnd
    rw [← hp.countP_eq]
    have hndo : o.Nodup := hp.nodup_iff.mpr hnd
    have hsplit : o.countP (fun x => decide (o[k] ≤ x)) = (o.take k).countP (fun x => decide (o[k] ≤ x)) + (o.drop k).countP (fun x => decide (o[k] ≤ x)) := by
      rw [← List.countP_append, List.take_append_drop]
    rw [hsplit]
    have e1 : (o.drop k).countP (fun x => decide (o[k] ≤ x)) = (o.drop k).length := by
      rw [List.countP_eq_length]
      intro x hx
      rw [List.drop_eq_getElem_cons hk'] at hx
      have hd : (o.drop k).Pairwise (· ≤ ·) := hsorted.sublist (List.drop_sublist k o)
      rw [List.drop_eq_getElem_cons hk', List.pairwise_cons] at hd
      rcases List.mem_cons.mp hx with rfl | hx
      · simp
      · simpa using hd.1 x hx
    have e2 : (o.take k).countP (fun x => decide (o[k] ≤ x)) = 0 := by
      rw [List.countP_eq_zero]
      intro x hx
      obtain ⟨j, hj, rfl⟩ := List.mem_iff_getElem.mp hx
      rw [List.length_take] at hj
      rw [List.getElem_take]
      have hle : o[j]'(by omega) ≤ o[k] := List.pairwise_iff_getElem.mp hsorted j k (by omega) hk' (by omega)
      have hne : o[j]'(by omega) ≠ o[k] := by
        intro h
        have := (List.Nodup.getElem_inj_iff hndo).mp h
        omega
      simpa using lt_of_le_of_ne hle hne
    rw [e1, e2, List.length_drop, hol]; omega

/-- The levels for two thresholds. -/
noncomputable def grades (s : List ℝ) (t u : ℝ) : List Level := s.map fun x => if t ≤ x then Level.high else if u ≤ x then Level.moderate else Level.minimal

theorem grades_all (s : List ℝ) (t u : ℝ) : (grades s t u).count .high + (grades s t u).count .moderate + (grades s t u).count .minimal = s.length := by
  induction s with
  | nil => simp [grades]
  | cons a s ih =>
    unfold grades at ih ⊢
    simp only [List.map_cons, List.length_cons]
    by_cases h : t ≤ a
    · simp only [if_pos h, List.count_cons]; simp; omega
    · by_cases h' : u ≤ a
      · simp only [if_neg h, if_pos h', List.count_cons]; simp; omega
      · simp only [if_neg h, if_neg h', List.count_cons]; simp; omega

/-- **C224.** Every weight gets a level, a more sensitive one never a lower one; at least the top fifth of the weights get HIGH, at least the top half HIGH or MODERATE, no weight less than MINIMAL. -/
theorem C224_profile (s : List ℝ) (hs : s ≠ []) :
    ∃ r, profile s = .ok r ∧ r.length = s.length ∧
      (∀ (i j : ℕ) (hi : i < s.length) (hj : j < s.length) (a b : Level), r[i]? = some a → r[j]? = some b → s[i] ≤ s[j] → ord a ≤ ord b) ∧
      (∀ l ∈ r, l = .high ∨ l = .moderate ∨ l = .minimal) ∧
      s.length - ⌊8 / 10 * (s.length : ℝ)⌋₊ ≤ r.count .high ∧ r.count .minimal ≤ ⌊5 / 10 * (s.length : ℝ)⌋₊ ∧
      (s.Nodup → r.count .high = s.length - ⌊8 / 10 * (s.length : ℝ)⌋₊ ∧ r.count .minimal = ⌊5 / 10 * (s.length : ℝ)⌋₊ ∧
        r.count .moderate = ⌊8 / 10 * (s.length : ℝ)⌋₊ - ⌊5 / 10 * (s.length : ℝ)⌋₊) := by
  obtain ⟨t, h1, _, h3, h4⟩ := threshold_ok (8 / 10) s hs (by norm_num) (by norm_num)
  obtain ⟨u, k1, _, k3, k4⟩ := threshold_ok (5 / 10) s hs (by norm_num) (by norm_num)
  have hl : 0 < s.length := List.length_pos_iff.mpr hs
  have f8 := floor_lt hl (q := 8 / 10) (by norm_num) (by norm_num)
  have f5 := floor_lt hl (q := 5 / 10) (by norm_num) (by norm_num)
  have f58 : ⌊5 / 10 * (s.length : ℝ)⌋₊ ≤ ⌊8 / 10 * (s.length : ℝ)⌋₊ := Nat.floor_mono (by
    have : (0 : ℝ) ≤ s.length := by positivity
    linarith)
  have cHigh : (grades s t u).count .high = s.countP (fun x => decide (t ≤ x)) := by
    rw [grades, List.count, List.countP_map]
    congr 1; funext x
    simp only [Function.comp]
    by_cases h : t ≤ x
    · simp [h]
    · by_cases h' : u ≤ x <;> simp [h, h']
  have cMin : (grades s t u).count .minimal ≤ s.length - s.countP (fun x => decide (u ≤ x)) := by
    rw [grades, List.count, List.countP_map]
    have e := List.length_eq_countP_add_countP (fun x => decide (u ≤ x)) (l := s)
    have : s.countP ((fun x => x == Level.minimal) ∘ fun x => if t ≤ x then Level.high else if u ≤ x then Level.moderate else Level.minimal) ≤ s.countP (fun a => decide ¬(decide (u ≤ a) = true)) := by
      apply List.countP_mono_left
      intro x _ hx
      simp only [Function.comp] at hx
      by_cases h : t ≤ x
      · simp [h] at hx
      · by_cases h' : u ≤ x
        · simp [h, h'] at hx
        · simpa using not_le.mp h'
    omega
  have cAll := grades_all s t u
  refine ⟨grades s t u, by simp only [profile, h1, k1, Outcome.bind, grades], by simp [grades], ?_, ?_, ?_, ?_, ?_⟩
  · intro i j hi hj a b ha hb hij
    simp only [grades, List.getElem?_map, List.getElem?_eq_getElem hi, List.getElem?_eq_getElem hj, Option.map_some, Option.some.injEq] at ha hb
    subst ha hb
    by_cases c1 : t ≤ s[i]
    · rw [if_pos c1, if_pos (c1.trans hij)]
    · rw [if_neg c1]
      by_cases c2 : u ≤ s[i]
      · rw [if_pos c2]
        by_cases c3 : t ≤ s[j]
        · rw [if_pos c3]; simp [ord]
        · rw [if_neg c3, if_pos (c2.trans hij)]
      · rw [if_neg c2]
        split
        · simp [ord]
        · split <;> simp [ord]
  · intro l hl
    unfold grades at hl
    obtain ⟨x, _, rfl⟩ := List.mem_map.mp hl
    split
    · simp
    · split <;> simp
  · rw [cHigh]; exact h3
  · refine cMin.trans ?_; omega
  · intro hnd
    have e1 := h4 hnd
    have e2 := k4 hnd
    -- with different values the two thresholds are in order
    have hut : u ≤ t := by
      by_contra hc
      have hlt : s.countP (fun x => decide (u ≤ x)) ≤ s.countP (fun x => decide (t ≤ x)) := by
        apply List.countP_mono_left
        intro x _ hx
        simp only [decide_eq_true_eq] at hx ⊢
        linarith [not_le.mp hc]
      have hst : s.countP (fun x => decide (u ≤ x)) < s.countP (fun x => decide (t ≤ x)) := by
        have ht : t ∈ s := by assumption
        obtain ⟨p, r, rfl⟩ := List.append_of_mem ht
        have a1 : p.countP (fun x => decide (u ≤ x)) ≤ p.countP (fun x => decide (t ≤ x)) := by
          apply List.countP_mono_left
          intro x _ hx
          simp only [decide_eq_true_eq] at hx ⊢
          linarith [not_le.mp hc]
        have a2 : r.countP (fun x => decide (u ≤ x)) ≤ r.countP (fun x => decide (t ≤ x)) := by
          apply List.countP_mono_left
          intro x _ hx
          simp only [decide_eq_true_eq] at hx ⊢
          linarith [not_le.mp hc]
        rw [List.countP_append, List.countP_append, List.countP_cons, List.countP_cons, if_neg (by simpa using not_le.mp hc), if_pos (by simp)]
        omega
      omega
    have cMin' : (grades s t u).count .minimal = s.length - s.countP (fun x => decide (u ≤ x)) := by
      rw [grades, List.count, List.countP_map]
      have e := List.length_eq_countP_add_countP (fun x => decide (u ≤ x)) (l := s)
      have : s.countP ((fun x => x == Level.minimal) ∘ fun x => if t ≤ x then Level.high else if u ≤ x then Level.moderate else Level.minimal) = s.countP (fun a => decide ¬(decide (u ≤ a) = true)) := by
        congr 1; funext x
        simp only [Function.comp]
        by_cases h' : u ≤ x
        · by_cases h : t ≤ x <;> simp [h, h']
        · have h : ¬ t ≤ x := fun h => h' (hut.trans h)
          simp [h, h']
      omega
    refine ⟨by rw [cHigh, e1], by rw [cMin', e2]; omega, ?_⟩
    rw [cMin', e2, cHigh, e1] at cAll
    omega

/-- **C224, violated.** "Top 20 % HIGH, middle 30 % MODERATE, bottom 50 % MINIMAL" fails for equal sensitivities: if all are the same, every weight gets HIGH. -/
theorem C224_equal_violated (n : ℕ) (hn : 0 < n) (x : ℝ) : profile (List.replicate n x) = .ok (List.replicate n .high) := by
  obtain ⟨t, h1, h2, _⟩ := threshold_ok (8 / 10) (List.replicate n x) (by simp; omega) (by norm_num) (by norm_num)
  obtain ⟨u, k1, _⟩ := threshold_ok (5 / 10) (List.replicate n x) (by simp; omega) (by norm_num) (by norm_num)
  have := List.eq_of_mem_replicate h2
  simp only [profile, h1, k1, Outcome.bind, this]
  simp

/-- **C224 (limit).** Without sensitivities the behaviour is undefined. -/
theorem C224_empty_limit : profile [] = .ub := by simp [profile, threshold, Outcome.bind]

example : ([0.1, 0.9, 0.4] : List ℝ) ≠ [] ∧ ([0.1, 0.9, 0.4] : List ℝ).Nodup := by
  refine ⟨by simp, ?_⟩
  simp only [List.nodup_cons, List.mem_cons, List.not_mem_nil, or_false, not_or, List.nodup_nil]
  norm_num

/-! ### C225: layers -/

/-- The number of the level of middle layers: 3 from a rate of 1e-4 on, 2 from 1e-5 on, else 1. -/
noncomputable def baseLevel (rate : ℝ) : ℕ := if 1 / 10 ^ 4 ≤ rate then 3 else if 1 / 10 ^ 5 ≤ rate then 2 else 1

theorem ord_forKind (rate : ℝ) (k : Kind) : ord (forKind rate k) = (match k with | .convolutional => baseLevel rate + 1 | .batchNorm => baseLevel rate - 1 | .other => baseLevel rate) := by
  unfold baseLevel
  cases k <;> simp only [forKind, middle] <;> (split_ifs <;> rfl)

theorem middleLoop_ok (rate : ℝ) (kinds : List Kind) : ∀ (k i : ℕ) (ls : List Level), i + k ≤ ls.length → ls.length = kinds.length →
    ∃ r, middleLoop rate kinds k i ls = .ok r ∧ r.length = ls.length ∧
      ∀ j, r[j]? = if i ≤ j ∧ j < i + k then kinds[j]?.map (forKind rate) else ls[j]? := by
  intro k
  induction k with
  | zero => intro i ls _ _; exact ⟨ls, rfl, rfl, fun j => by rw [if_neg (by omega)]⟩
  | succ k ih =>
    intro i ls h1 h2
    have hi : i < kinds.length := by omega
    obtain ⟨r, e1, e2, e3⟩ := ih (i + 1) (ls.set i (forKind rate kinds[i])) (by simp; omega) (by simp [h2])
    refine ⟨r, ?_, by simpa using e2, ?_⟩
    · simp only [middleLoop, List.getElem?_eq_getElem hi]
      rw [setLayer, if_pos (by omega)]
      exact e1
    · intro j
      rw [e3 j]
      by_cases hj : j = i
      · subst hj
        rw [if_neg (by omega), if_pos (by omega), List.getElem?_set_self (by omega), List.getElem?_eq_getElem hi]; rfl
      · by_cases hr : i + 1 ≤ j ∧ j < i + 1 + k
        · rw [if_pos hr, if_pos (by omega)]
        · rw [if_neg hr, if_neg (by omega), List.getElem?_set_ne (by omega)]

/-- **C225.** In every network with at least one layer the first and the last layer get HIGH, every other layer the level for the error rate, convolutional layers one more and batch normalisation one less. -/
theorem C225_layers (rate : ℝ) (kinds : List Kind) (ls : List Level) (h : ls.length = kinds.length) (hn : 0 < kinds.length) :
    ∃ r, layers rate kinds ls = .ok r ∧ r.length = kinds.length ∧ r[0]? = some .high ∧ r[kinds.length - 1]? = some .high ∧
      ∀ i k, 0 < i → i + 1 < kinds.length → kinds[i]? = some k → ∃ l, r[i]? = some l ∧
        ord l = (match k with | .convolutional => baseLevel rate + 1 | .batchNorm => baseLevel rate - 1 | .other => baseLevel rate) := by
  have h0 : setLayer 0 .high ls = .ok (ls.set 0 .high) := by rw [setLayer, if_pos (by omega)]
  have h1 : setLayer ((ls.set 0 .high).length - 1) .high (ls.set 0 .high) = .ok ((ls.set 0 .high).set ((ls.set 0 .high).length - 1) .high) := by
    rw [setLayer, if_pos (by simp; omega)]
  set l2 := (ls.set 0 .high).set ((ls.set 0 .high).length - 1) Level.high with hl2
  have len2 : l2.length = kinds.length := by simp [hl2, h]
  by_cases hs : kinds.length = 1
  · have : l2.length - 2 = 0 := by omega
    refine ⟨l2, ?_, len2, ?_, ?_, by intro i k a b; omega⟩
    · simp only [layers, h0, Outcome.bind, h1]
      have : (ls.set 0 Level.high).length - 2 = 0 := by simp [h, hs]
      rw [this]; rfl
    · rw [hl2, List.getElem?_set]; simp [h, hs]
    · rw [hl2, List.getElem?_set]; simp [h, hs]
  · obtain ⟨r, e1, e2, e3⟩ := middleLoop_ok rate kinds (l2.length - 2) 1 l2 (by omega) len2
    refine ⟨r, ?_, e2.trans len2, ?_, ?_, ?_⟩
    · simp only [layers, h0, Outcome.bind, h1]
      have : (ls.set 0 Level.high).length - 2 = l2.length - 2 := by simp [hl2]
      rw [this]; exact e1
    · rw [e3, if_neg (by omega), hl2, List.getElem?_set, if_neg (by simp; omega), List.getElem?_set_self (by omega)]
    · rw [e3, if_neg (by omega), hl2]
      have : (ls.set 0 Level.high).length - 1 = kinds.length - 1 := by simp [h]
      rw [this, List.getElem?_set_self (by simp; omega)]
    · intro i k a b hk
      refine ⟨forKind rate k, ?_, ord_forKind rate k⟩
      rw [e3, if_pos (by omega), hk]; rfl

/-- **C225 (monotone).** The level of a middle layer never falls when the error rate rises. -/
theorem C225_monotone (k : Kind) (r r' : ℝ) (h : r ≤ r') : ord (forKind r k) ≤ ord (forKind r' k) := by
  rw [ord_forKind, ord_forKind]
  have : baseLevel r ≤ baseLevel r' := by
    unfold baseLevel
    have : (1 : ℝ) / 10 ^ 5 ≤ 1 / 10 ^ 4 := by norm_num
    split_ifs <;> first | omega | (exfalso; linarith)
  cases k <;> simp only <;> omega

/-- **C225, violated.** "First and last layers require full protection": from a rate of 1e-4 on a convolutional layer in the middle is protected better than they are; below 1e-5 batch normalisation is not protected at all. -/
theorem C225_first_violated (rate : ℝ) : (1 / 10 ^ 4 ≤ rate → ord .high < ord (forKind rate .convolutional)) ∧ (rate < 1 / 10 ^ 5 → forKind rate .batchNorm = .none) := by
  constructor
  · intro h
    rw [ord_forKind]
    simp only [baseLevel, if_pos h, ord]; omega
  · intro h
    have h1 : ¬ (1 : ℝ) / 10 ^ 4 ≤ rate := by
      have : (1 : ℝ) / 10 ^ 5 ≤ 1 / 10 ^ 4 := by norm_num
      intro h'; linarith
    simp only [forKind, middle, if_neg h1, if_neg (not_le.mpr h), decrease]

/-- **C225 (limit).** A network without layers: undefined. -/
theorem C225_empty_limit (rate : ℝ) : layers rate [] [] = .ub := rfl

example : ([Level.none, .none, .none]).length = [Kind.other, .convolutional, .other].length ∧ 0 < [Kind.other, .convolutional, .other].length := by decide

/-! ### C226: adaptive Reed-Solomon selection -/

/-- Strength of the codes. -/
def strength : Code → ℕ
  | .light => 0
  | .standard => 1
  | .heavy => 2

/-- **C226 (selection).** More important data, or a higher error rate, never get a weaker code. -/
theorem C226_monotone (i i' r r' : ℝ) (hi : i ≤ i') (hr : r ≤ r') : strength (select i r) ≤ strength (select i' r') := by
  unfold select
  by_cases h1 : 8 / 10 < i ∨ 5 / 10 ^ 5 < r
  · rw [if_pos h1, if_pos (h1.imp (fun h => lt_of_lt_of_le h hi) (fun h => lt_of_lt_of_le h hr))]
  · rw [if_neg h1]
    by_cases h2 : 4 / 10 < i ∨ 1 / 10 ^ 5 < r
    · rw [if_pos h2]
      split
      · simp [strength]
      · rw [if_pos (h2.imp (fun h => lt_of_lt_of_le h hi) (fun h => lt_of_lt_of_le h hr))]
    · rw [if_neg h2]; simp [strength]

theorem toBytes_length (w : ℕ) (data : List (List UInt8)) (h : ∀ v ∈ data, v.length = w) : (toBytes data).length = data.length * w := by
  induction data with
  | nil => simp [toBytes]
  | cons v t ih => rw [toBytes, List.length_append, ih (fun x hx => h x (by simp [hx])), h v (by simp), List.length_cons]; ring

theorem toBytes_getD (w : ℕ) (data : List (List UInt8)) (h : ∀ v ∈ data, v.length = w) (i j : ℕ) (hi : i < data.length) (hj : j < w) :
    (toBytes data).getD (i * w + j) 0 = data[i].getD j 0 := by
  induction data generalizing i with
  | nil => simp at hi
  | cons v t ih =>
    have hv : v.length = w := h v (by simp)
    rw [toBytes, List.getD_eq_getElem?_getD]
    cases i with
    | zero => rw [List.getElem?_append_left (by omega)]; simp [List.getD_eq_getElem?_getD]
    | succ i =>
      rw [List.getElem?_append_right (by rw [hv]; nlinarith)]
      have : (i + 1) * w + j - v.length = i * w + j := by rw [hv, Nat.succ_mul]; omega
      rw [this, ← List.getD_eq_getElem?_getD, ih (fun x hx => h x (by simp [hx])) i (by simpa using hi)]
      simp

/-- **C226 (bytes).** Values turned into bytes and back are the same values, also if further bytes follow. -/
theorem C226_bytes (w : ℕ) (data : List (List UInt8)) (h : ∀ v ∈ data, v.length = w) (more : List UInt8) : fromBytes w (toBytes data ++ more) data.length = data := by
  apply List.ext_getElem (by simp [fromBytes])
  intro i hi _
  have hi' : i < data.length := by simpa [fromBytes] using hi
  simp only [fromBytes, List.getElem_map, List.getElem_range]
  apply List.ext_getElem (by simp [h _ (List.getElem_mem hi')])
  intro j hj _
  have hj' : j < w := by simpa using hj
  have hlt : i * w + j < (toBytes data).length := by rw [toBytes_length w data h]; nlinarith
  simp only [List.getElem_map, List.getElem_range]
  rw [List.getD_eq_getElem?_getD, List.getElem?_append_left hlt, ← List.getD_eq_getElem?_getD, toBytes_getD w data h i j hi' hj', List.getD_eq_getElem?_getD, List.getElem?_eq_getElem (by rw [h _ (List.getElem_mem hi')]; exact hj')]
  rfl

/-- **C226.** Decoding with the importance and the error rate of the encoding returns the data, from every received word that the code selected decodes to what was encoded: damage the code repairs does no harm. -/
theorem C226_roundtrip (c : Codecs) (w : ℕ) (data : List (List UInt8)) (h : ∀ v ∈ data, v.length = w) (importance rate : ℝ) :
    (∀ received, c.decode (select importance rate) received = some (toBytes data) → decode c w received data.length importance rate = some data) ∧
    (c.decode (select importance rate) (c.encode (select importance rate) (toBytes data)) = some (toBytes data) → decode c w (encode c data importance rate) data.length importance rate = some data) := by
  have key : ∀ received, c.decode (select importance rate) received = some (toBytes data) → decode c w received data.length importance rate = some data := by
    intro received hr
    unfold decode
    rw [hr, Option.map_some]
    have := C226_bytes w data h []
    rw [List.append_nil] at this
    rw [this]
  exact ⟨key, fun he => key _ he⟩

/-- **C226, violated.** The decoder selects by the error rate of the moment, not by that of the encoding, and what was encoded does not tell: when the rate crosses a threshold in between, words of one code go to the decoder of another. -/
theorem C226_environment_violated (c : Codecs) (w n : ℕ) (data : List (List UInt8)) (importance r r' : ℝ) (hi : importance ≤ 4 / 10) (hr : r ≤ 1 / 10 ^ 5) (hr' : 5 / 10 ^ 5 < r') :
    encode c data importance r = c.encode .light (toBytes data) ∧ decode c w (encode c data importance r) n importance r' = (c.decode .heavy (c.encode .light (toBytes data))).map (fromBytes w · n) := by
  have h1 : select importance r = .light := by
    have : (1 : ℝ) / 10 ^ 5 ≤ 5 / 10 ^ 5 := by norm_num
    unfold select
    rw [if_neg (by rintro (h | h) <;> linarith), if_neg (by rintro (h | h) <;> linarith)]
  have h2 : select importance r' = .heavy := by unfold select; rw [if_pos (Or.inr hr')]
  exact ⟨by rw [encode, h1], by rw [decode, encode, h1, h2]⟩

/-- **C226 (limit).** If fewer bytes come back than the values need, the rest is silently 0. -/
theorem C226_short_limit (w n : ℕ) : fromBytes w [] n = List.replicate n (List.replicate w 0) := by
  unfold fromBytes
  apply List.ext_getElem (by simp)
  intro i _ _
  simp only [List.getElem_map, List.getElem_replicate]
  apply List.ext_getElem (by simp)
  intro j _ _
  simp

example : ∀ v ∈ ([[1, 2, 3, 4], [5, 6, 7, 8]] : List (List UInt8)), v.length = 4 := by decide

/-! ### C227: learning -/

theorem learn_sum {P : Type} [DecidableEq P] (order errors : List P) (ho : order.Nodup) (hc : ∀ p ∈ errors, p ∈ order) :
    (((order.filter (· ∈ errors)).map fun p => (p, errors.count p)).map Prod.snd).sum = errors.length := by
  rw [List.map_map]
  show ((order.filter (· ∈ errors)).map fun p => errors.count p).sum = _
  have h2 : ∀ l : List P, l.Nodup → (∀ p ∈ errors, p ∈ l) → (l.map fun p => errors.count p).sum = errors.length := by
    intro l hl hm
    induction errors with
    | nil => simp
    | cons e t ih =>
      have e1 : (l.map fun p => (e :: t).count p).sum = (l.map fun p => t.count p).sum + (l.map fun p => if p = e then 1 else 0).sum := by
        rw [← List.sum_map_add]
        congr 1
        apply List.map_congr_left
        intro p _
        rw [List.count_cons]
        by_cases h : p = e
        · subst h; simp
        · simp [h, Ne.symm h]
      have e2 : (l.map fun p => if p = e then 1 else 0).sum = l.count e := by
        clear ih e1 hm hl
        induction l with
        | nil => simp
        | cons a l ihl =>
          rw [List.map_cons, List.sum_cons, ihl, List.count_cons]
          by_cases h : a = e
          · subst h; simp; omega
          · simp [h]
      rw [e1, e2, ih (fun p hp => hc p (by simp [hp])) (fun p hp => hm p (by simp [hp])), List.count_eq_one_of_mem hl (hm e (by simp)), List.length_cons]
  exact h2 _ (ho.filter _) (fun p hp => by simp [hc p hp, hp])

/-- **C227 (learning).** After learning from errors the patterns recorded are exactly those that occurred, each once, each with its relative frequency; the frequencies add up to 1.  `order` lists the patterns in the order of the map. -/
theorem C227_learn {P : Type} [DecidableEq P] (order errors : List P) (ho : order.Nodup) (hc : ∀ p ∈ errors, p ∈ order) (rate : ℝ) :
    ((learn order errors rate).weights.map Prod.fst).Nodup ∧ (∀ p, p ∈ (learn order errors rate).weights.map Prod.fst ↔ p ∈ errors) ∧
    (∀ e ∈ (learn order errors rate).weights, e.2 = (errors.count e.1 : ℝ) / errors.length) ∧
    (errors ≠ [] → ((learn order errors rate).weights.map Prod.snd).sum = 1) ∧ (learn order errors rate).rate = some rate := by
  have hs := learn_sum order errors ho hc
  by_cases he : errors = []
  · subst he
    simp [learn]
  · have hpos : 0 < errors.length := List.length_pos_iff.mpr he
    have hw : (learn order errors rate).weights = (order.filter (· ∈ errors)).map fun p => (p, (errors.count p : ℝ) / errors.length) := by
      simp only [learn]
      rw [hs, if_pos hpos, List.map_map]
      rfl
    rw [hw]
    have hf : ((order.filter (· ∈ errors)).map fun p => (p, (errors.count p : ℝ) / errors.length)).map Prod.fst = order.filter (· ∈ errors) := by
      rw [List.map_map]; exact List.map_id' _
    refine ⟨?_, ?_, ?_, ?_, rfl⟩
    · rw [hf]; exact ho.filter _
    · intro p; rw [hf]; simp only [List.mem_filter, decide_eq_true_eq]
      exact ⟨fun h => h.2, fun h => ⟨hc p h, h⟩⟩
    · intro e hmem
      obtain ⟨p, _, rfl⟩ := List.mem_map.mp hmem
      rfl
    · intro _
      rw [List.map_map]
      have e1 : ((order.filter (· ∈ errors)).map (Prod.snd ∘ fun p => (p, (errors.count p : ℝ) / errors.length))).sum = ((order.filter (· ∈ errors)).map fun p => (errors.count p : ℝ)).sum / errors.length := by
        generalize order.filter (· ∈ errors) = l
        induction l with
        | nil => simp
        | cons a l ih => simp only [List.map_cons, List.sum_cons, ih, Function.comp]; ring
      rw [e1]
      have e2 : ((order.filter (· ∈ errors)).map fun p => (errors.count p : ℝ)).sum = errors.length := by
        rw [List.map_map] at hs
        have := congrArg (Nat.cast (R := ℝ)) hs
        rw [← this, Nat.cast_list_sum, List.map_map]
        rfl
      rw [e2, div_self (by positivity)]

theorem estimate_range (r : ℝ) : 1 / 10 ≤ estimate r ∧ estimate r ≤ 1 := by
  unfold estimate
  split_ifs with h1 h2
  · norm_num
  · norm_num
  · have hr : (0 : ℝ) < r := lt_trans (by norm_num) (not_le.mp h2)
    have l6 : Real.logb 10 (1 / 10 ^ 6) = -6 := by
      rw [one_div, Real.logb_inv, Real.logb_pow, Real.logb_self_eq_one (by norm_num)]; norm_num
    have l4 : Real.logb 10 (1 / 10 ^ 4) = -4 := by
      rw [one_div, Real.logb_inv, Real.logb_pow, Real.logb_self_eq_one (by norm_num)]; norm_num
    have a1 : Real.logb 10 (1 / 10 ^ 6) ≤ Real.logb 10 r := Real.logb_le_logb_of_le (by norm_num) (by norm_num) (not_le.mp h2).le
    have a2 : Real.logb 10 r ≤ Real.logb 10 (1 / 10 ^ 4) := Real.logb_le_logb_of_le (by norm_num) hr (not_le.mp h1).le
    rw [l6] at a1 ⊢
    rw [l4] at a2 ⊢
    constructor <;> linarith

theorem logb4 : Real.logb 10 (1 / 10 ^ 4) = -4 := by rw [one_div, Real.logb_inv, Real.logb_pow, Real.logb_self_eq_one (by norm_num)]; norm_num
theorem logb6 : Real.logb 10 (1 / 10 ^ 6) = -6 := by rw [one_div, Real.logb_inv, Real.logb_pow, Real.logb_self_eq_one (by norm_num)]; norm_num

theorem estimate_mono {r r' : ℝ} (h : r ≤ r') : estimate r ≤ estimate r' := by
  by_cases h1 : 1 / 10 ^ 4 ≤ r'
  · have : estimate r' = 1 := by unfold estimate; rw [if_pos h1]
    rw [this]; exact (estimate_range r).2
  · have h1' : ¬ 1 / 10 ^ 4 ≤ r := fun hh => h1 (hh.trans h)
    by_cases h2 : r ≤ 1 / 10 ^ 6
    · have : estimate r = 1 / 10 := by unfold estimate; rw [if_neg h1', if_pos h2]
      rw [this]; exact (estimate_range r').1
    · have h2' : ¬ r' ≤ 1 / 10 ^ 6 := fun hh => h2 (h.trans hh)
      have hr : (0 : ℝ) < r := lt_trans (by norm_num) (not_le.mp h2)
      have := Real.logb_le_logb_of_le (b := 10) (by norm_num) hr h
      unfold estimate
      rw [if_neg h1, if_neg h1', if_neg h2, if_neg h2', logb4, logb6]
      linarith

/-- Urgency of the strategies. -/
def urgency : Strategy → ℕ
  | .standard => 0
  | .wordError => 1
  | .bitLevel => 2
  | .patternBased => 3

theorem recommend_fin {P : Type} (l : Learner P) (b : List ℝ) (c : ℝ) (s : ℝ) (h : susceptibility l b c = .fin s) :
    recommend l b c = if 75 / 100 < s then .patternBased else if 5 / 10 < s then .bitLevel else if 25 / 100 < s then .wordError else .standard := by
  unfold recommend
  rw [h]
  simp only [XD.lt_fin]

/-- **C227 (before learning).** As long as nothing was learned the susceptibility depends on the error rate alone, lies between 0.1 and 1, is 1 from 1e-4 on, and a higher rate never leads to a weaker recommendation. -/
theorem C227_estimate {P : Type} (l : Learner P) (h : l.weights = []) (b : List ℝ) (r r' : ℝ) (hr : r ≤ r') :
    (∃ s, susceptibility l b r = .fin s ∧ 1 / 10 ≤ s ∧ s ≤ 1 ∧ (1 / 10 ^ 4 ≤ r → s = 1)) ∧ urgency (recommend l b r) ≤ urgency (recommend l b r') := by
  have hs : ∀ c, susceptibility l b c = .fin (estimate c) := by intro c; unfold susceptibility; rw [if_pos (Or.inl h)]
  refine ⟨⟨estimate r, hs r, (estimate_range r).1, (estimate_range r).2, fun hh => by unfold estimate; rw [if_pos hh]⟩, ?_⟩
  rw [recommend_fin l b r _ (hs r), recommend_fin l b r' _ (hs r')]
  have := estimate_mono hr
  split_ifs <;> simp only [urgency] <;> first | omega | (exfalso; linarith)

theorem features_bounds (b : List ℝ) : 0 ≤ (features b).1 ∧ (features b).1 ≤ (features b).2.1 ∧ 0 ≤ (features b).2.2 ∧ (features b).2.2 ≤ 1 := by
  have key : ∀ (l : List ℝ) (s : ℝ × ℝ × ℝ) (k : ℕ), 0 ≤ s.1 → 0 ≤ s.2.1 → s.1 ≤ k * s.2.1 → 0 ≤ s.2.2 → s.2.2 ≤ k →
      let t := l.foldl (fun (s : ℝ × ℝ × ℝ) v => (s.1 + |v|, max s.2.1 |v|, if |v| < 1 / 10 ^ 6 then s.2.2 + 1 else s.2.2)) s
      0 ≤ t.1 ∧ 0 ≤ t.2.1 ∧ t.1 ≤ (k + l.length : ℕ) * t.2.1 ∧ 0 ≤ t.2.2 ∧ t.2.2 ≤ (k + l.length : ℕ) := by
    intro l
    induction l with
    | nil => intro s k a b c d e; exact ⟨a, b, by simpa using c, d, by simpa using e⟩
    | cons v l ih =>
      intro s k a b c d e
      have hk : (0 : ℝ) ≤ k := by positivity
      have m1 : s.2.1 ≤ max s.2.1 |v| := le_max_left _ _
      have m2 : |v| ≤ max s.2.1 |v| := le_max_right _ _
      have := ih (s.1 + |v|, max s.2.1 |v|, if |v| < 1 / 10 ^ 6 then s.2.2 + 1 else s.2.2) (k + 1) (by have := abs_nonneg v; simp only; linarith) (by simp only; linarith [abs_nonneg v])
        (by simp only; push_cast; nlinarith) (by simp only; split <;> linarith) (by simp only; push_cast; split <;> linarith)
      simp only [List.foldl_cons, List.length_cons]
      have hh : k + (l.length + 1) = k + 1 + l.length := by ring
      rw [hh]
      exact this
  have h := key b (0, 0, 0) 0 (by simp) (by simp) (by simp) (by simp) (by simp)
  simp only [zero_add] at h
  obtain ⟨h1, h2, h3, h4, h5⟩ := h
  by_cases hb : b = []
  · subst hb; simp [features]
  · have hl : (0 : ℝ) < b.length := by exact_mod_cast List.length_pos_iff.mpr hb
    simp only [features, if_neg hb]
    refine ⟨div_nonneg h1 hl.le, ?_, div_nonneg h4 hl.le, ?_⟩
    · rw [div_le_iff₀ hl]; linarith
    · rw [div_le_one hl]; exact h5

/-- **C227 (range).** Every susceptibility is a number between 0 and 1, except that it may be "not a number"; it is a number whenever the rates are positive and the environment learned in has a rate other than 1. -/
theorem C227_range {P : Type} (l : Learner P) (b : List ℝ) (c : ℝ) :
    (susceptibility l b c = .nan ∨ ∃ s, susceptibility l b c = .fin s ∧ 0 ≤ s ∧ s ≤ 1) ∧
    (0 < c → (∀ r, l.rate = some r → r ≠ 1) → ∃ s, susceptibility l b c = .fin s) := by
  by_cases h : l.weights = [] ∨ l.rate = none
  · have hs : susceptibility l b c = .fin (estimate c) := by unfold susceptibility; rw [if_pos h]
    obtain ⟨h1, h2⟩ := estimate_range c
    exact ⟨Or.inr ⟨_, hs, by linarith, h2⟩, fun _ _ => ⟨_, hs⟩⟩
  · have clamp_cases : ∀ x : XD, clamp01 x = .nan ∨ ∃ s, clamp01 x = .fin s ∧ 0 ≤ s ∧ s ≤ 1 := by
      intro x
      unfold clamp01
      split_ifs with h1 h2
      · right; exact ⟨0, rfl, by norm_num, by norm_num⟩
      · right; exact ⟨1, rfl, by norm_num, by norm_num⟩
      · cases x with
        | fin a => right; exact ⟨a, rfl, by simpa using h1, by simpa using h2⟩
        | pinf => exact absurd trivial h2
        | ninf => exact absurd trivial h1
        | nan => left; rfl
    have hs : susceptibility l b c = clamp01 (XD.add (.fin (4 / 10 * ((features b).1 / ((features b).2.1 + 1 / 10 ^ 6)) + 3 / 10 * (features b).2.2)) (XD.mul (.fin (3 / 10)) (ratio l.rate c))) := by
      unfold susceptibility; rw [if_neg h]
    rw [hs]
    refine ⟨clamp_cases _, ?_⟩
    intro hc hl
    have hr : ∃ q, ratio l.rate c = .fin q := by
      cases hlr : l.rate with
      | none => exact ⟨1, rfl⟩
      | some r =>
        unfold ratio
        simp only
        by_cases h0 : r ≤ 0
        · exact ⟨1, by rw [if_pos h0]⟩
        · rw [if_neg h0]
          have hne : Real.logb 10 r ≠ 0 := by
            intro hz
            rcases (Real.logb_eq_zero.mp hz) with h | h | h | h | h | h
            · norm_num at h
            · norm_num at h
            · norm_num at h
            · linarith
            · exact hl r hlr h
            · linarith
          have hd : (log10 c).div (log10 r) = .fin (Real.logb 10 c / Real.logb 10 r) := by
            rw [log10, log10, if_pos hc, if_pos (not_le.mp h0), XD.div_fin _ _ hne]
          rw [hd]
          split
          · exact ⟨0, rfl⟩
          · split
            · exact ⟨1, rfl⟩
            · refine ⟨(Real.logb 10 c / Real.logb 10 r + -(1 / 10)) / (99 / 10), ?_⟩
              show XD.div (.fin _) (.fin _) = _
              rw [XD.div_fin _ _ (by norm_num)]
    obtain ⟨q, hq⟩ := hr
    rw [hq, XD.mul_fin, XD.add_fin]
    unfold clamp01
    simp only [XD.lt_fin]
    split
    · exact ⟨_, rfl⟩
    · split
      · exact ⟨_, rfl⟩
      · exact ⟨_, rfl⟩

/-- **C227, violated: patterns.** What was learned is never used: two learners that learned different, but some, patterns in the same environment recommend the same for every block. -/
theorem C227_patterns_violated {P : Type} (l l' : Learner P) (h : l.weights ≠ []) (h' : l'.weights ≠ []) (hr : l.rate = l'.rate) (b : List ℝ) (c : ℝ) : recommend l b c = recommend l' b c := by
  have : susceptibility l b c = susceptibility l' b c := by
    unfold susceptibility
    by_cases hn : l.rate = none
    · rw [if_pos (Or.inr hn), if_pos (Or.inr (hr ▸ hn))]
    · have n1 : ¬ (l.weights = [] ∨ l.rate = none) := fun x => x.elim h hn
      have n2 : ¬ (l'.weights = [] ∨ l'.rate = none) := fun x => x.elim h' (hr ▸ hn)
      rw [if_neg n1, if_neg n2, hr]
  unfold recommend
  rw [this]

/-- **C227, violated: environment.** After learning at a rate of 1e-6, the harsher the environment the less susceptible are the weights: from a rate of 0.3 on the environment contributes nothing at all, in a benign one (1e-60) the maximum. -/
theorem C227_environment_violated (c c' : ℝ) (h0 : 0 < c) (h : c ≤ c') (h1 : c' ≤ 1) :
    (∃ x x', ratio (some (1 / 10 ^ 6)) c = .fin x ∧ ratio (some (1 / 10 ^ 6)) c' = .fin x' ∧ x' ≤ x) ∧
    (3 / 10 ≤ c → ratio (some (1 / 10 ^ 6)) c = .fin 0) ∧ ratio (some (1 / 10 ^ 6)) (1 / 10 ^ 60) = .fin 1 := by
  have form : ∀ d : ℝ, 0 < d → ratio (some (1 / 10 ^ 6)) d = if Real.logb 10 d / -6 ≤ 1 / 10 then .fin 0 else if 10 ≤ Real.logb 10 d / -6 then .fin 1 else .fin ((Real.logb 10 d / -6 - 1 / 10) / (99 / 10)) := by
    intro d hd
    have hdv : (log10 d).div (log10 (1 / 10 ^ 6)) = .fin (Real.logb 10 d / -6) := by
      rw [log10, log10, if_pos hd, if_pos (by norm_num), logb6, XD.div_fin _ _ (by norm_num)]
    have hn : ¬ (1 : ℝ) / 10 ^ 6 ≤ 0 := by norm_num
    simp only [ratio, if_neg hn, hdv, XD.le_fin]
    have : (XD.sub (.fin (Real.logb 10 d / -6)) (.fin (1 / 10))).div (.fin (99 / 10)) = .fin ((Real.logb 10 d / -6 - 1 / 10) / (99 / 10)) := by
      show XD.div (.fin (Real.logb 10 d / -6 + -(1 / 10))) (.fin (99 / 10)) = _
      rw [XD.div_fin _ _ (by norm_num)]; rfl
    rw [this]
  have hc' : 0 < c' := lt_of_lt_of_le h0 h
  have hl := Real.logb_le_logb_of_le (b := 10) (by norm_num) h0 h
  refine ⟨?_, ?_, ?_⟩
  · rw [form c h0, form c' hc']
    have hq : Real.logb 10 c' / -6 ≤ Real.logb 10 c / -6 := by linarith
    generalize Real.logb 10 c' / -6 = x' at hq
    generalize Real.logb 10 c / -6 = x at hq
    by_cases a1 : x ≤ 1 / 10
    · rw [if_pos a1, if_pos (hq.trans a1)]; exact ⟨0, 0, rfl, rfl, le_refl _⟩
    · rw [if_neg a1]
      by_cases a2 : 10 ≤ x
      · rw [if_pos a2]
        by_cases b1 : x' ≤ 1 / 10
        · rw [if_pos b1]; exact ⟨1, 0, rfl, rfl, by norm_num⟩
        · rw [if_neg b1]
          by_cases b2 : 10 ≤ x'
          · rw [if_pos b2]; exact ⟨1, 1, rfl, rfl, le_refl _⟩
          · rw [if_neg b2]; exact ⟨1, _, rfl, rfl, by rw [div_le_one (by norm_num)]; linarith [not_le.mp b2]⟩
      · rw [if_neg a2]
        by_cases b1 : x' ≤ 1 / 10
        · rw [if_pos b1]; exact ⟨_, 0, rfl, rfl, div_nonneg (by linarith [not_le.mp a1]) (by norm_num)⟩
        · rw [if_neg b1, if_neg (by linarith [not_le.mp a2])]
          exact ⟨_, _, rfl, rfl, by apply div_le_div_of_nonneg_right (by linarith) (by norm_num)⟩
  · intro hc
    have h3 : -(6 / 10 : ℝ) ≤ Real.logb 10 c := by
      rw [Real.le_logb_iff_rpow_le (by norm_num) h0]
      refine le_trans ?_ hc
      have : ((10 : ℝ) ^ (-(6 / 10) : ℝ)) ^ (5 : ℕ) ≤ (3 / 10) ^ (5 : ℕ) := by
        rw [← Real.rpow_natCast, ← Real.rpow_mul (by norm_num)]
        have : (-(6 / 10) : ℝ) * (5 : ℕ) = ((-3 : ℤ) : ℝ) := by norm_num
        rw [this, Real.rpow_intCast]; norm_num
      exact le_of_pow_le_pow_left₀ (by norm_num) (by norm_num) this
    rw [form c h0, if_pos (by linarith)]
  · have l60 : Real.logb 10 (1 / 10 ^ 60) = -60 := by
      rw [one_div, Real.logb_inv, Real.logb_pow, Real.logb_self_eq_one (by norm_num)]; norm_num
    rw [form _ (by norm_num), l60]
    norm_num

/-- **C227, violated: not a number.** Learned at the rate 1 and asked at the rate 1, the worst there is, the quotient of logarithms is 0 / 0, the susceptibility not a number and the recommendation the weakest. -/
theorem C227_nan_violated {P : Type} (p : P) (b : List ℝ) : recommend ⟨[(p, 1)], some 1⟩ b 1 = .standard := by
  have hr : ratio (some 1) 1 = .nan := by
    have : (log10 1).div (log10 1) = .nan := by
      rw [log10, if_pos (by norm_num), Real.logb_one, XD.div_zero_zero]
    have hn : ¬ (1 : ℝ) ≤ 0 := by norm_num
    simp only [ratio, if_neg hn, this, XD.not_le_nan_left, XD.not_le_nan_right, if_false]
    rfl
  unfold recommend susceptibility
  simp only [hr, XD.mul_nan, XD.add_nan, clamp01, XD.not_lt_nan_left, XD.not_lt_nan_right, if_false]
  simp

example : ([0, 1, 2] : List ℕ).Nodup ∧ ∀ p ∈ ([1, 1, 2] : List ℕ), p ∈ ([0, 1, 2] : List ℕ) := by decide

/-! ### C228: memory layout -/

theorem block_ok (weights : List ℝ) (is : List ℕ) (h : ∀ i ∈ is, i < weights.length) :
    ∃ b, block weights is = .ok b ∧ b.map Prod.fst = is ∧ ∀ e ∈ b, weights[e.1]? = some e.2 := by
  induction is with
  | nil => exact ⟨[], rfl, rfl, by simp⟩
  | cons i is ih =>
    obtain ⟨b, h1, h2, h3⟩ := ih (fun j hj => h j (by simp [hj]))
    have hi := h i (by simp)
    refine ⟨(i, weights[i]) :: b, ?_, by simp [h2], ?_⟩
    · simp only [block, List.getElem?_eq_getElem hi, h1, Outcome.bind]
    · intro e he
      rcases List.mem_cons.mp he with rfl | he
      · simp [hi]
      · exact h3 e he

theorem blocks_ok (weights : List ℝ) (order : List ℕ) (h : ∀ i ∈ order, i < weights.length) : ∀ fuel i, order.length ≤ i + fuel →
    ∃ bs, blocks weights order fuel i = .ok bs ∧ bs.flatten.map Prod.fst = order.drop i ∧ (∀ e ∈ bs.flatten, weights[e.1]? = some e.2) ∧
      bs.length = (order.length - i + 63) / 64 ∧ ∀ k b, bs[k]? = some b → b.map Prod.fst = (order.drop (i + 64 * k)).take 64 := by
  intro fuel
  induction fuel with
  | zero =>
    intro i hi
    refine ⟨[], rfl, ?_, by simp, ?_, by simp⟩
    · rw [List.drop_eq_nil_of_le (by omega)]; rfl
    · simp; omega
  | succ f ih =>
    intro i hi
    by_cases hl : i < order.length
    · have ht : (order.drop i).take (min (i + 64) order.length - i) = (order.drop i).take 64 := by
        by_cases hm : i + 64 ≤ order.length
        · rw [min_eq_left hm]; congr 1; omega
        · rw [min_eq_right (by omega), List.take_of_length_le (by simp), List.take_of_length_le (by simp; omega)]
      obtain ⟨b, b1, b2, b3⟩ := block_ok weights ((order.drop i).take 64) (fun j hj => h j (List.mem_of_mem_drop (List.mem_of_mem_take hj)))
      obtain ⟨bs, e1, e2, e3, e4, e5⟩ := ih (i + 64) (by omega)
      refine ⟨b :: bs, ?_, ?_, ?_, ?_, ?_⟩
      · simp only [blocks, if_pos hl, ht, b1, e1, Outcome.bind]
      · rw [List.flatten_cons, List.map_append, b2, e2, ← List.drop_drop, List.take_append_drop]
      · intro e he
        rw [List.flatten_cons, List.mem_append] at he
        exact he.elim (b3 e) (e3 e)
      · rw [List.length_cons, e4]; omega
      · intro k c hk
        cases k with
        | zero => simp only [List.getElem?_cons_zero, Option.some.injEq] at hk; subst hk; simpa using b2
        | succ k =>
          rw [List.getElem?_cons_succ] at hk
          rw [e5 k c hk]; congr 2; ring
    · refine ⟨[], by simp only [blocks, if_neg hl], ?_, by simp, ?_, by simp⟩
      · rw [List.drop_eq_nil_of_le (by omega)]; rfl
      · simp; omega

/-- **C228.** For every result of the sort the new storage holds every weight that has a sensitivity exactly once, with its value, in blocks of 64 (the last one may be smaller), along which sensitivities never rise. -/
theorem C228_layout (weights s : List ℝ) (order : List ℕ) (ho : IsSort s order) (hl : s.length ≤ weights.length) :
    ∃ bs, layout weights order = .ok bs ∧ (bs.flatten.map Prod.fst).Perm (List.range s.length) ∧ (∀ e ∈ bs.flatten, weights[e.1]? = some e.2) ∧
      bs.flatten.Pairwise (fun a b => s.getD b.1 0 ≤ s.getD a.1 0) ∧
      bs.length = (s.length + 63) / 64 ∧ ∀ k b, bs[k]? = some b → b.length = min 64 (s.length - 64 * k) := by
  have hlen : order.length = s.length := by simpa using ho.perm.length_eq
  have hin : ∀ i ∈ order, i < weights.length := by
    intro i hi
    have := ho.perm.mem_iff.mp hi
    rw [List.mem_range] at this; omega
  obtain ⟨bs, e1, e2, e3, e4, e5⟩ := blocks_ok weights order hin order.length 0 (by omega)
  rw [List.drop_zero] at e2
  refine ⟨bs, e1, e2 ▸ ho.perm, e3, ?_, by simpa [hlen] using e4, ?_⟩
  · have := ho.falling
    rw [← e2, List.pairwise_map] at this
    exact this
  · intro k b hk
    have := congrArg List.length (e5 k b hk)
    simpa [hlen] using this

/-- **C228, violated: interleaving.** "Follow JESD89A standard for interleaving": nothing is interleaved — neighbouring cells hold weights that follow each other in the order of sensitivity, and all of the most sensitive weights lie together in the first block, where one burst reaches them all. -/
theorem C228_interleave_violated (weights s : List ℝ) (order : List ℕ) (ho : IsSort s order) (hl : s.length ≤ weights.length) (bs : List Block) (h : layout weights order = .ok bs) :
    bs.flatten.map Prod.fst = order ∧ ∀ b rest, bs = b :: rest → ∀ e ∈ b, ∀ f ∈ rest.flatten, s.getD f.1 0 ≤ s.getD e.1 0 := by
  have hlen : order.length = s.length := by simpa using ho.perm.length_eq
  have hin : ∀ i ∈ order, i < weights.length := by
    intro i hi
    have := ho.perm.mem_iff.mp hi
    rw [List.mem_range] at this; omega
  obtain ⟨bs', e1, e2, _⟩ := blocks_ok weights order hin order.length 0 (by omega)
  obtain ⟨bs'', f1, _, _, f4, _⟩ := C228_layout weights s order ho hl
  rw [h] at f1
  unfold layout at h
  rw [h] at e1
  simp only [Outcome.ok.injEq] at e1 f1
  subst e1; subst f1
  refine ⟨by simpa using e2, ?_⟩
  rintro b rest rfl e he f hf
  rw [List.flatten_cons, List.pairwise_append] at f4
  exact f4.2.2 e he f hf

/-- **C228, violated: lost weights.** Weights without a sensitivity are not in the new storage. -/
theorem C228_lost_violated (weights s : List ℝ) (order : List ℕ) (ho : IsSort s order) (hl : s.length ≤ weights.length) (bs : List Block) (h : layout weights order = .ok bs) (i : ℕ) (hi : s.length ≤ i) :
    ∀ e ∈ bs.flatten, e.1 ≠ i := by
  intro e he hc
  have h1 := (C228_interleave_violated weights s order ho hl bs h).1
  have : e.1 ∈ order := h1 ▸ List.mem_map_of_mem he
  have := ho.perm.mem_iff.mp this
  rw [List.mem_range] at this
  omega

/-- There is a result of the sort for all sensitivities. -/
theorem sort_exists (s : List ℝ) : ∃ order, IsSort s order := by
  let r : ℕ → ℕ → Prop := fun a b => s.getD b 0 ≤ s.getD a 0
  haveI : Std.Total r := ⟨fun a b => le_total _ _⟩
  haveI : IsTrans ℕ r := ⟨fun a b c h1 h2 => le_trans h2 h1⟩
  exact ⟨(List.range s.length).insertionSort r, ⟨List.perm_insertionSort _ _, List.pairwise_insertionSort _ _⟩⟩

example : IsSort [0.5, 1, 0.2] [1, 0, 2] := by
  refine ⟨by decide, ?_⟩
  simp [List.getD]
  norm_num

/-! ### C229: the optimizer -/

/-- **C229 (result).** `optimizeNetwork` returns true exactly if there is an environment and, from level 3 on, some error was reported; without environment nothing changes. -/
theorem C229_result {P : Type} [DecidableEq P] (keys : List P) (o : Optimizer P) (kinds : List Kind) (weights : List ℝ) (weight : ℕ → ℝ) (gradients : List (List ℝ)) (order : List ℕ) (level : ℤ) (net net' : Net) (o' : Optimizer P) (r : Bool)
    (h : optimize keys o kinds weights weight gradients order level net = .ok (net', o', r)) :
    (r = true ↔ o.environment ≠ none ∧ (3 ≤ level → o.history ≠ [])) ∧ (o.environment = none → net' = net ∧ o' = o) ∧
    (level < 1 → net'.layerLevels = net.layerLevels) ∧ (level < 2 → net'.storage = net.storage ∧ net'.rs = net.rs) ∧ (level < 3 → net'.strategies = net.strategies ∧ o' = o) := by
  unfold optimize at h
  cases he : o.environment with
  | none =>
    rw [he] at h
    simp only [Outcome.ok.injEq, Prod.mk.injEq] at h
    obtain ⟨rfl, rfl, rfl⟩ := h
    simp
  | some rate =>
    rw [he] at h
    simp only at h
    cases ha : analyze weights.length gradients with
    | ub => rw [ha] at h; simp [Outcome.bind] at h
    | ok s =>
      rw [ha] at h
      simp only [Outcome.bind] at h
      cases hp : profile s with
      | ub => rw [hp] at h; simp at h
      | ok p =>
        rw [hp] at h
        simp only at h
        by_cases h1 : 1 ≤ level
        · rw [if_pos h1] at h
          cases hls : layers rate kinds net.layerLevels with
          | ub => rw [hls] at h; simp at h
          | ok ls =>
            rw [hls] at h
            simp only at h
            by_cases h2 : 2 ≤ level
            · rw [if_pos h2] at h
              cases hly : layout weights order with
              | ub => rw [hly] at h; simp at h
              | ok b =>
                rw [hly] at h
                simp only at h
                cases hrs : rsWeights s with
                | ub => rw [hrs] at h; simp at h
                | ok q =>
                  rw [hrs] at h
                  simp only at h
                  by_cases h3 : 3 ≤ level
                  · rw [if_pos h3] at h
                    by_cases hh : o.history ≠ []
                    · rw [if_pos hh] at h
                      simp only [Outcome.ok.injEq, Prod.mk.injEq] at h
                      obtain ⟨rfl, rfl, rfl⟩ := h
                      refine ⟨by simp [hh], by simp, by intro; omega, by intro; omega, by intro; omega⟩
                    · rw [if_neg hh] at h
                      simp only [Outcome.ok.injEq, Prod.mk.injEq] at h
                      obtain ⟨rfl, rfl, rfl⟩ := h
                      refine ⟨by simp [h3]; simpa using hh, by simp, by intro; omega, by intro; omega, by intro; omega⟩
                  · rw [if_neg h3] at h
                    simp only [Outcome.ok.injEq, Prod.mk.injEq] at h
                    obtain ⟨rfl, rfl, rfl⟩ := h
                    refine ⟨by simp [h3], by simp, by intro; omega, by intro; omega, by simp⟩
            · have h3 : ¬ 3 ≤ level := by omega
              rw [if_neg h2] at h
              simp only [if_neg h3, Outcome.ok.injEq, Prod.mk.injEq] at h
              obtain ⟨rfl, rfl, rfl⟩ := h
              refine ⟨by simp [h3], by simp, by intro; omega, by simp, by simp⟩
        · have h2 : ¬ 2 ≤ level := by omega
          have h3 : ¬ 3 ≤ level := by omega
          rw [if_neg h1] at h
          simp only [if_neg h2, if_neg h3, Outcome.ok.injEq, Prod.mk.injEq] at h
          obtain ⟨rfl, rfl, rfl⟩ := h
          refine ⟨by simp [h3], by simp, by simp, by simp, by simp⟩

/-- **C229.** With an environment, weights, layers and gradients for no more than the weights, the optimizer is defined at every level and does what the level promises: at every level the profile of the sensitivities, from 1 on the layers, from 2 on the new layout and Reed-Solomon for exactly the weights with HIGH level, from 3 on, if errors were reported, the strategies of what was learned from all of them. -/
theorem C229_optimize {P : Type} [DecidableEq P] (keys : List P) (o : Optimizer P) (rate : ℝ) (he : o.environment = some rate) (kinds : List Kind) (weights : List ℝ) (weight : ℕ → ℝ) (gradients : List (List ℝ)) (order : List ℕ) (level : ℤ) (net : Net)
    (hw : weights ≠ []) (hk : kinds ≠ []) (hn : net.layerLevels.length = kinds.length) (hg : ∀ g ∈ gradients.take 1000, g.length ≤ weights.length)
    (ho : ∀ s, analyze weights.length gradients = .ok s → IsSort s order) :
    ∃ net' o' r s, optimize keys o kinds weights weight gradients order level net = .ok (net', o', r) ∧
      analyze weights.length gradients = .ok s ∧ profile s = .ok net'.weightLevels ∧
      (1 ≤ level → layers rate kinds net.layerLevels = .ok net'.layerLevels) ∧
      (2 ≤ level → (∃ bs, layout weights order = .ok bs ∧ net'.storage = some bs) ∧ ∀ i < weights.length, i ∈ net'.rs ↔ net'.weightLevels[i]? = some .high) ∧
      (3 ≤ level → o.history ≠ [] → o'.learner = learn keys o.history rate ∧ ∃ st, net'.strategies = some st ∧ st.length = weights.length ∧
        ∀ j, j < weights.length → st[j]? = some (recommend o'.learner ((List.range' (j / 64 * 64) (min 64 (weights.length - j / 64 * 64))).map weight) rate)) := by
  have hwl : 0 < weights.length := List.length_pos_iff.mpr hw
  obtain ⟨s, ha, hsl, _⟩ := C223_sensitivity weights.length hwl gradients hg
  have hs : s ≠ [] := by rintro rfl; simp at hsl; omega
  obtain ⟨t, t1, _, _, _⟩ := threshold_ok (8 / 10) s hs (by norm_num) (by norm_num)
  obtain ⟨u, u1, _, _, _⟩ := threshold_ok (5 / 10) s hs (by norm_num) (by norm_num)
  have hp : profile s = .ok (grades s t u) := by simp only [profile, t1, u1, Outcome.bind, grades]
  obtain ⟨ls, l1, _⟩ := C225_layers rate kinds net.layerLevels hn (List.length_pos_iff.mpr hk)
  obtain ⟨bs, b1, _⟩ := C228_layout weights s order (ho s ha) (by omega)
  have hrs : rsWeights s = .ok ((List.range s.length).filter fun i => decide (t ≤ s.getD i 0)) := by simp only [rsWeights, t1, Outcome.bind]
  have hmem : ∀ i < weights.length, i ∈ ((List.range s.length).filter fun i => decide (t ≤ s.getD i 0)) ↔ (grades s t u)[i]? = some .high := by
    intro i hi
    have hi' : i < s.length := by omega
    rw [List.mem_filter, List.mem_range]
    simp only [grades, List.getElem?_map, List.getElem?_eq_getElem hi', Option.map_some, Option.some.injEq, decide_eq_true_eq, hi', true_and, List.getD_eq_getElem?_getD, Option.getD_some]
    by_cases h1 : t ≤ s[i]
    · simp [h1]
    · by_cases h2 : u ≤ s[i] <;> simp [h1, h2]
  by_cases h1 : 1 ≤ level
  · by_cases h2 : 2 ≤ level
    · by_cases h3 : 3 ≤ level
      · by_cases hh : o.history ≠ []
        · refine ⟨⟨grades s t u, ls, some bs, _, some (patterns (learn keys o.history rate) s.length weight rate)⟩, { o with learner := learn keys o.history rate }, true, s, ?_, ha, hp, fun _ => l1, fun _ => ⟨⟨bs, b1, rfl⟩, hmem⟩, fun _ _ => ⟨rfl, _, rfl, by simp [patterns, hsl], ?_⟩⟩
          · simp only [optimize, he, ha, hp, l1, b1, hrs, Outcome.bind, if_pos h1, if_pos h2, if_pos h3, if_pos hh]
          · intro j hj
            simp only [patterns, hsl, List.getElem?_map, List.getElem?_range hj, Option.map_some]
        · refine ⟨⟨grades s t u, ls, some bs, _, net.strategies⟩, o, false, s, ?_, ha, hp, fun _ => l1, fun _ => ⟨⟨bs, b1, rfl⟩, hmem⟩, fun _ h => absurd h hh⟩
          simp only [optimize, he, ha, hp, l1, b1, hrs, Outcome.bind, if_pos h1, if_pos h2, if_pos h3, if_neg hh]
      · refine ⟨⟨grades s t u, ls, some bs, _, net.strategies⟩, o, true, s, ?_, ha, hp, fun _ => l1, fun _ => ⟨⟨bs, b1, rfl⟩, hmem⟩, fun h => absurd h h3⟩
        simp only [optimize, he, ha, hp, l1, b1, hrs, Outcome.bind, if_pos h1, if_pos h2, if_neg h3]
    · have h3 : ¬ 3 ≤ level := by omega
      refine ⟨⟨grades s t u, ls, net.storage, net.rs, net.strategies⟩, o, true, s, ?_, ha, hp, fun _ => l1, fun h => absurd h h2, fun h => absurd h h3⟩
      simp only [optimize, he, ha, hp, l1, Outcome.bind, if_pos h1, if_neg h2, if_neg h3]
  · have h2 : ¬ 2 ≤ level := by omega
    have h3 : ¬ 3 ≤ level := by omega
    refine ⟨⟨grades s t u, net.layerLevels, net.storage, net.rs, net.strategies⟩, o, true, s, ?_, ha, hp, fun h => absurd h h1, fun h => absurd h h2, fun h => absurd h h3⟩
    simp only [optimize, he, ha, hp, Outcome.bind, if_neg h1, if_neg h2, if_neg h3]

/-- Operations between optimisations. -/
inductive Op (P : Type) where
  | environment (rate : Option ℝ)
  | errors (es : List P)

/-- A history of operations. -/
noncomputable def runOps {P : Type} [DecidableEq P] (keys : List P) (o : Optimizer P) : List (Op P) → Optimizer P
  | [] => o
  | .environment r :: ops => runOps keys (setEnvironment r o) ops
  | .errors es :: ops => runOps keys (updateHistory keys es o) ops

/-- The errors reported in a history. -/
def reported {P : Type} : List (Op P) → List P
  | [] => []
  | .environment _ :: ops => reported ops
  | .errors es :: ops => es ++ reported ops

theorem runOps_append {P : Type} [DecidableEq P] (keys : List P) (a b : List (Op P)) : ∀ o : Optimizer P, runOps keys o (a ++ b) = runOps keys (runOps keys o a) b := by
  induction a with
  | nil => intro o; rfl
  | cons x a ih => intro o; cases x <;> exact ih _

theorem runOps_history {P : Type} [DecidableEq P] (keys : List P) (ops : List (Op P)) : ∀ o : Optimizer P, (runOps keys o ops).history = o.history ++ reported ops := by
  induction ops with
  | nil => intro o; simp [runOps, reported]
  | cons x ops ih =>
    intro o
    cases x with
    | environment r => simp only [runOps, reported]; rw [ih]; rfl
    | errors es =>
      simp only [runOps, reported]
      rw [ih]
      have : (updateHistory keys es o).history = o.history ++ es := by
        unfold updateHistory; cases o.environment <;> rfl
      rw [this, List.append_assoc]

/-- **C229 (history).** After every history the optimizer remembers all errors reported, in order; after a report made with an environment it has learned from all of them, and without environment, or by a change of environment, what was learned stays. -/
theorem C229_history {P : Type} [DecidableEq P] (keys : List P) (start : Option ℝ) (ops : List (Op P)) :
    let o := runOps keys (.new start) ops
    o.history = reported ops ∧
    (∀ es rate, o.environment = some rate → (runOps keys (.new start) (ops ++ [.errors es])).learner = learn keys (reported ops ++ es) rate) ∧
    (∀ es, o.environment = none → (runOps keys (.new start) (ops ++ [.errors es])).learner = o.learner) ∧
    ∀ r, (runOps keys (.new start) (ops ++ [.environment r])).learner = o.learner ∧ (runOps keys (.new start) (ops ++ [.environment r])).environment = r := by
  have hh : (runOps keys (.new start) ops).history = reported ops := by rw [runOps_history]; rfl
  refine ⟨hh, ?_, ?_, ?_⟩
  · intro es rate hr
    rw [runOps_append]
    simp only [runOps, updateHistory, hr, hh]
  · intro es hr
    rw [runOps_append]
    simp only [runOps, updateHistory, hr]
  · intro r
    rw [runOps_append]
    exact ⟨rfl, rfl⟩

/-- **C229, violated: failure.** At level 3 without errors the optimizer reports failure, although by then it has changed the levels, the layout and the weight protection of the network. -/
theorem C229_failure_violated {P : Type} [DecidableEq P] (keys : List P) (o : Optimizer P) (rate : ℝ) (he : o.environment = some rate) (hh : o.history = []) (kinds : List Kind) (weights : List ℝ) (weight : ℕ → ℝ) (gradients : List (List ℝ)) (order : List ℕ) (net : Net)
    (hw : weights ≠ []) (hk : kinds ≠ []) (hn : net.layerLevels.length = kinds.length) (hg : ∀ g ∈ gradients.take 1000, g.length ≤ weights.length)
    (ho : ∀ s, analyze weights.length gradients = .ok s → IsSort s order) :
    ∃ net', optimize keys o kinds weights weight gradients order 3 net = .ok (net', o, false) ∧ net'.storage ≠ none ∧ net'.layerLevels[0]? = some .high ∧ net'.weightLevels.length = weights.length := by
  obtain ⟨net', o', r, s, h1, h2, h3, h4, h5, _⟩ := C229_optimize keys o rate he kinds weights weight gradients order 3 net hw hk hn hg ho
  obtain ⟨hr, -, -, -, -⟩ := C229_result keys o kinds weights weight gradients order 3 net net' o' r h1
  have hrf : r = false := by
    cases r with
    | false => rfl
    | true => exact absurd hh ((hr.mp rfl).2 (by norm_num))
  have hoo : o' = o := by
    have := h1
    obtain ⟨bs, b1, _⟩ := (h5 (by norm_num)).1
    have h4' := h4 (by norm_num)
    have hs : s ≠ [] := by
      rintro rfl
      obtain ⟨s', ha, hsl, _⟩ := C223_sensitivity weights.length (List.length_pos_iff.mpr hw) gradients hg
      rw [h2] at ha; simp only [Outcome.ok.injEq] at ha
      subst ha; simp at hsl
      exact hw (List.length_eq_zero_iff.mp hsl.symm)
    obtain ⟨t, t1, _⟩ := threshold_ok (8 / 10) s hs (by norm_num) (by norm_num)
    have hrs : rsWeights s = .ok ((List.range s.length).filter fun i => decide (t ≤ s.getD i 0)) := by simp only [rsWeights, t1, Outcome.bind]
    simp only [optimize, he, h2, h3, h4', b1, hrs, Outcome.bind, hh] at this
    norm_num at this
    exact this.2.1.symm
  subst hrf; subst hoo
  obtain ⟨bs, b1, b2⟩ := (h5 (by norm_num)).1
  refine ⟨net', h1, by simp [b2], ?_, ?_⟩
  · obtain ⟨ls, l1, _, l3, _⟩ := C225_layers rate kinds net.layerLevels hn (List.length_pos_iff.mpr hk)
    rw [h4 (by norm_num)] at l1
    simp only [Outcome.ok.injEq] at l1
    rw [l1]; exact l3
  · obtain ⟨s', ha, hsl, _⟩ := C223_sensitivity weights.length (List.length_pos_iff.mpr hw) gradients hg
    rw [h2] at ha; simp only [Outcome.ok.injEq] at ha
    subst ha
    have hs : s ≠ [] := by rintro rfl; simp at hsl; exact hw (List.length_eq_zero_iff.mp hsl.symm)
    obtain ⟨q, q1, q2, _⟩ := C224_profile s hs
    rw [h3] at q1; simp only [Outcome.ok.injEq] at q1
    rw [q1, q2, hsl]

/-- **C229, violated: validation.** The validation measures nothing: for every pair of networks and every list of environments all its figures are "not a number" and the improvement is never significant. -/
theorem C229_validation_violated {N E : Type} (baseline optimized : N) (envs : List E) :
    compare baseline optimized envs = ⟨.nan, .nan, .nan, False⟩ := by
  have hm : ∀ (net : N) (f : ℝ × ℝ × ℝ → ℝ), f (0, 0, 0) = 0 → mean net envs f = .nan ∨ mean net envs f = .fin 0 := by
    intro net f hf
    have hs : (envs.map fun e => f (simulate net e)).sum = 0 := by
      have : (envs.map fun e => f (simulate net e)) = envs.map fun _ => (0 : ℝ) := List.map_congr_left fun e _ => hf
      rw [this]; simp
    unfold mean
    rw [hs]
    by_cases h0 : (envs.length : ℝ) = 0
    · left; rw [h0]; exact XD.div_zero_zero
    · right; rw [XD.div_fin _ _ h0, zero_div]
  have hdiv : ∀ x y : XD, (x = .nan ∨ x = .fin 0) → (y = .nan ∨ y = .fin 0) → (x.sub y).div x = .nan ∧ (x.sub y).div y = .nan := by
    rintro x y (rfl | rfl) (rfl | rfl)
    · exact ⟨rfl, rfl⟩
    · exact ⟨rfl, rfl⟩
    · exact ⟨rfl, rfl⟩
    · have : XD.sub (.fin 0) (.fin 0) = .fin 0 := by show XD.fin (0 + -0) = _; simp
      rw [this, XD.div_zero_zero]; exact ⟨rfl, rfl⟩
  have e1 := (hdiv _ _ (hm baseline (·.1) rfl) (hm optimized (·.1) rfl)).1
  have e2 := (hdiv _ _ (hm optimized (·.2.1) rfl) (hm baseline (·.2.1) rfl)).2
  have e3 := (hdiv _ _ (hm baseline (·.2.2) rfl) (hm optimized (·.2.2) rfl)).1
  unfold compare
  simp only [e1, e2, e3]
  simp

example : ∃ order, ∀ s, analyze 2 [[1, 2]] = .ok s → IsSort s order := by
  obtain ⟨s, h, _⟩ := C223_sensitivity 2 (by norm_num) [[1, 2]] (by simp)
  obtain ⟨order, ho⟩ := sort_exists s
  exact ⟨order, fun s' hs' => by rw [h] at hs'; simp only [Outcome.ok.injEq] at hs'; exact hs' ▸ ho⟩

end Verif.FineTuning
