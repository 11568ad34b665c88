import Verif.Model.AutoSearch
import Verif.Props.ArchTester2
/-!
C125: configurations of the grid; C126: configurations as keys; C127: grid search.
-/
namespace Verif.AutoSearch
open Verif.ArchTester (Env Prot Result)
open Classical

/-! ### Specification -/

/-- A configuration made of the options of a search: one or more hidden layers with offered widths between input and output, an offered dropout and protection level, residual connections only if enabled. -/
def Offered (s : Search) (c : Config) : Prop :=
  ∃ h : List ℕ, h ≠ [] ∧ (∀ w ∈ h, w ∈ s.widths) ∧ c.layers = s.input :: h ++ [s.output] ∧ c.dropout ∈ s.dropouts ∧ c.prot ∈ s.prots ∧ (c.residual = true → s.residual = true)

/-- Usable options: positive 32-bit sizes, dropouts between 0 and 1, at least one option of each kind. -/
structure Valid (s : Search) : Prop where
  input : 0 < s.input ∧ s.input < 2 ^ 32
  output : 0 < s.output ∧ s.output < 2 ^ 32
  widths : ∀ w ∈ s.widths, 0 < w ∧ w < 2 ^ 32
  dropouts : ∀ d ∈ s.dropouts, 0 ≤ d ∧ d ≤ 1
  someWidth : s.widths ≠ []
  someDropout : s.dropouts ≠ []
  someProt : s.prots ≠ []

/-- Different dropout rates are at least 10⁻⁶ apart. -/
def Apart (d : List ℝ) : Prop := ∀ a ∈ d, ∀ b ∈ d, a = b ∨ 1 / 10 ^ 6 ≤ |a - b|

/-! ### C125 -/

theorem mem_combos (ws : List ℕ) (n : ℕ) (cur l : List ℕ) : l ∈ combos ws n cur ↔ ∃ h : List ℕ, h.length = n ∧ (∀ w ∈ h, w ∈ ws) ∧ l = cur ++ h := by
  induction n generalizing cur with
  | zero =>
    simp only [combos, List.mem_singleton]
    constructor
    · rintro rfl; exact ⟨[], rfl, by simp, by simp⟩
    · rintro ⟨h, h1, -, rfl⟩; rw [List.length_eq_zero_iff.mp h1]; simp
  | succ n ih =>
    simp only [combos, List.mem_flatMap, ih]
    constructor
    · rintro ⟨w, hw, h, h1, h2, rfl⟩
      exact ⟨w :: h, by simp [h1], by simp only [List.mem_cons]; rintro x (rfl | hx); exacts [hw, h2 x hx], by simp⟩
    · rintro ⟨h, h1, h2, rfl⟩
      match h, h1 with
      | w :: h, h1 => exact ⟨w, h2 w (by simp), h, by simpa using h1, fun x hx => h2 x (by simp [hx]), by simp⟩

theorem length_combos (ws : List ℕ) (n : ℕ) (cur : List ℕ) : (combos ws n cur).length = ws.length ^ n := by
  induction n generalizing cur with
  | zero => simp [combos]
  | succ n ih =>
    simp only [combos, List.length_flatMap, ih]
    simp [pow_succ, mul_comm]

theorem mem_allConfigs (s : Search) (c : Config) : c ∈ s.allConfigs ↔ c.layers ∈ s.patterns ∧ c.dropout ∈ s.dropouts ∧ c.prot ∈ s.prots ∧ (c.residual = true → s.residual = true ∧ 4 ≤ c.layers.length) := by
  simp only [Search.allConfigs, List.mem_flatMap]
  constructor
  · rintro ⟨l, hl, d, hd, p, hp, hc⟩
    rcases List.mem_cons.mp hc with rfl | hc
    · exact ⟨hl, hd, hp, by simp⟩
    · split at hc
      · rename_i h
        simp only [List.mem_singleton] at hc
        subst hc
        exact ⟨hl, hd, hp, fun _ => h⟩
      · cases hc
  · rintro ⟨h1, h2, h3, h4⟩
    refine ⟨_, h1, _, h2, _, h3, ?_⟩
    cases hr : c.residual with
    | false => exact List.mem_cons.mpr (Or.inl (by cases c; simp_all))
    | true =>
      refine List.mem_cons.mpr (Or.inr ?_)
      rw [if_pos (h4 hr)]
      simp only [List.mem_singleton]
      cases c; simp_all

/-- C125, fixed depth: with `k` hidden layers set, the grid consists of exactly the configurations with `k` offered hidden widths, an offered dropout and level, without residual connections and, if enabled and k ≥ 2, also with them. -/
theorem C125_fixed (s : Search) (hk : 0 < s.hidden) (c : Config) : c ∈ s.allConfigs ↔
    ∃ h : List ℕ, h.length = s.hidden ∧ (∀ w ∈ h, w ∈ s.widths) ∧ c.layers = s.input :: h ++ [s.output] ∧ c.dropout ∈ s.dropouts ∧ c.prot ∈ s.prots ∧ (c.residual = true → s.residual = true ∧ 2 ≤ s.hidden) := by
  rw [mem_allConfigs]
  simp only [Search.patterns, if_neg (by omega : ¬ s.hidden = 0), List.mem_map, mem_combos, List.nil_append]
  constructor
  · rintro ⟨⟨h, ⟨_, h1, h2, rfl⟩, h3⟩, h4, h5, h6⟩
    refine ⟨h, h1, h2, h3.symm, h4, h5, fun hr => ?_⟩
    obtain ⟨h7, h8⟩ := h6 hr
    rw [← h3] at h8
    simp at h8
    exact ⟨h7, by omega⟩
  · rintro ⟨h, h1, h2, h3, h4, h5, h6⟩
    refine ⟨⟨h, ⟨h, h1, h2, rfl⟩, h3.symm⟩, h4, h5, fun hr => ?_⟩
    obtain ⟨h7, h8⟩ := h6 hr
    refine ⟨h7, ?_⟩
    rw [h3]; simp; omega

theorem sum_const {α : Type} (l : List α) (f : α → ℕ) (c : ℕ) (h : ∀ x ∈ l, f x = c) : (l.map f).sum = l.length * c := by
  induction l with
  | nil => simp
  | cons a l ih => rw [List.map_cons, List.sum_cons, h a (by simp), ih fun x hx => h x (by simp [hx]), List.length_cons]; ring

/-- C125, size: the grid has widths^k · dropouts · levels configurations, twice that with residual connections. -/
theorem C125_size (s : Search) (hk : 0 < s.hidden) :
    s.allConfigs.length = s.widths.length ^ s.hidden * s.dropouts.length * s.prots.length * (if s.residual = true ∧ 2 ≤ s.hidden then 2 else 1) := by
  have hp : ∀ l ∈ s.patterns, l.length = s.hidden + 2 := by
    intro l hl
    simp only [Search.patterns, if_neg (by omega : ¬ s.hidden = 0), List.mem_map, mem_combos, List.nil_append] at hl
    obtain ⟨_, ⟨h, h1, -, rfl⟩, rfl⟩ := hl
    simp [h1]
  have hl : s.patterns.length = s.widths.length ^ s.hidden := by
    simp only [Search.patterns, if_neg (by omega : ¬ s.hidden = 0), List.length_map, length_combos]
  unfold Search.allConfigs
  rw [List.length_flatMap, sum_const _ _ (s.dropouts.length * (s.prots.length * (if s.residual = true ∧ 2 ≤ s.hidden then 2 else 1)))]
  · rw [hl]; ring
  · intro l hmem
    rw [List.length_flatMap, sum_const _ _ (s.prots.length * (if s.residual = true ∧ 2 ≤ s.hidden then 2 else 1))]
    intro d _
    rw [List.length_flatMap, sum_const _ _ (if s.residual = true ∧ 2 ≤ s.hidden then 2 else 1)]
    intro p _
    have := hp l hmem
    by_cases h : s.residual = true ∧ 2 ≤ s.hidden
    · rw [if_pos h, if_pos ⟨h.1, by omega⟩]; rfl
    · rw [if_neg h, if_neg fun h' => h ⟨h'.1, by omega⟩]; rfl

/-- C125, free depth: without a fixed depth the grid consists of one offered hidden width without residual connections, or two different ones. -/
theorem C125_free (s : Search) (hk : s.hidden = 0) (c : Config) : c ∈ s.allConfigs ↔ c.dropout ∈ s.dropouts ∧ c.prot ∈ s.prots ∧
    ((∃ w ∈ s.widths, c.layers = [s.input, w, s.output] ∧ c.residual = false) ∨
     ∃ w1 ∈ s.widths, ∃ w2 ∈ s.widths, w1 ≠ w2 ∧ c.layers = [s.input, w1, w2, s.output] ∧ (c.residual = true → s.residual = true)) := by
  rw [mem_allConfigs]
  simp only [Search.patterns, if_pos hk, List.mem_append, List.mem_map, List.mem_flatMap]
  constructor
  · rintro ⟨h1 | h1, h2, h3, h4⟩
    · obtain ⟨w, hw, h5⟩ := h1
      refine ⟨h2, h3, Or.inl ⟨w, hw, h5.symm, ?_⟩⟩
      by_contra hr
      have := (h4 (by simpa using hr)).2
      rw [← h5] at this; simp at this
    · obtain ⟨w1, hw1, w2, hw2, h5⟩ := h1
      split at h5
      · rename_i hne
        simp only [List.mem_singleton] at h5
        exact ⟨h2, h3, Or.inr ⟨w1, hw1, w2, hw2, hne, h5, fun hr => (h4 hr).1⟩⟩
      · cases h5
  · rintro ⟨h2, h3, h4⟩
    rcases h4 with ⟨w, hw, h5, h6⟩ | ⟨w1, hw1, w2, hw2, hne, h5, h6⟩
    · exact ⟨Or.inl ⟨w, hw, h5.symm⟩, h2, h3, fun hr => by rw [h6] at hr; cases hr⟩
    · refine ⟨Or.inr ⟨w1, hw1, w2, hw2, ?_⟩, h2, h3, fun hr => ⟨h6 hr, by rw [h5]; simp⟩⟩
      rw [if_pos hne]; simp [h5]

/-- Put a number in front of a stream. -/
noncomputable def Rng.cons (x : ℝ) (h0 : 0 ≤ x) (h1 : x < 1) (g : Rng) : Rng :=
  ⟨fun i => match i with
    | 0 => x
    | i + 1 => g.seq i, fun i => by cases i; exacts [h0, g.lo _], fun i => by cases i; exacts [h1, g.hi _]⟩

theorem pick_any {α : Type} {l : List α} {x : α} (hx : x ∈ l) (g : Rng) : ∃ g0, pick l g0 = .ok (x, g) := by
  obtain ⟨i, hi, rfl⟩ := List.getElem_of_mem hx
  have hn : (0 : ℝ) < l.length := by exact_mod_cast (by omega : 0 < l.length)
  refine ⟨Rng.cons ((i : ℝ) / l.length) (by positivity) (by rw [div_lt_one hn]; exact_mod_cast hi) g, ?_⟩
  unfold pick
  have : ⌊(Rng.cons ((i : ℝ) / l.length) (by positivity) (by rw [div_lt_one hn]; exact_mod_cast hi) g).seq 0 * l.length⌋₊ = i := by
    simp only [Rng.cons]
    rw [div_mul_cancel₀ _ hn.ne', Nat.floor_natCast]
  rw [this, List.getElem?_eq_getElem hi]
  rfl

theorem randLayers_any {ws : List ℕ} : ∀ (h : List ℕ), (∀ w ∈ h, w ∈ ws) → ∀ g, ∃ g0, randLayers ws h.length g0 = .ok (h, g)
  | [], _, g => ⟨g, rfl⟩
  | w :: h, hw, g => by
    obtain ⟨g1, h1⟩ := randLayers_any h (fun x hx => hw x (by simp [hx])) g
    obtain ⟨g0, h0⟩ := pick_any (hw w (by simp)) g1
    exact ⟨g0, by simp only [List.length_cons, randLayers, h0, Outcome.bind, h1]⟩

/-- C125, random configurations: every configuration made of the options, with the depth set or with one to three hidden layers, is drawn for some state of the random engine. -/
theorem C125_random_reaches (s : Search) {c : Config} (h : List ℕ) (hw : ∀ w ∈ h, w ∈ s.widths) (hl : c.layers = s.input :: h ++ [s.output]) (hd : c.dropout ∈ s.dropouts) (hp : c.prot ∈ s.prots) (hr : c.residual = true → s.residual = true)
    (hk : if s.hidden = 0 then 1 ≤ h.length ∧ h.length ≤ 3 else h.length = s.hidden) (g : Rng) : ∃ g0, s.randomConfig g0 = .ok (c, g) := by
  obtain ⟨g1, h1⟩ := pick_any hp g
  have : ∃ g2, (if s.residual then pick [false, true] g2 else .ok (false, g2) : Outcome (Bool × Rng)) = .ok (c.residual, g1) := by
    by_cases hs : s.residual = true
    · obtain ⟨g2, h2⟩ := pick_any (l := [false, true]) (x := c.residual) (by cases c.residual <;> simp) g1
      exact ⟨g2, by rw [if_pos hs, h2]⟩
    · refine ⟨g1, ?_⟩
      rw [if_neg hs]
      cases hc : c.residual with
      | false => rfl
      | true => exact absurd (hr hc) hs
  obtain ⟨g2, h2⟩ := this
  obtain ⟨g3, h3⟩ := pick_any hd g2
  obtain ⟨g4, h4⟩ := randLayers_any h hw g3
  have : ∃ g5, (if s.hidden > 0 then .ok (s.hidden, g5) else pick [1, 2, 3] g5 : Outcome (ℕ × Rng)) = .ok (h.length, g4) := by
    by_cases hs : s.hidden = 0
    · rw [if_pos hs] at hk
      obtain ⟨g5, h5⟩ := pick_any (l := [1, 2, 3]) (x := h.length) (by simp; omega) g4
      exact ⟨g5, by rw [if_neg (by omega), h5]⟩
    · rw [if_neg hs] at hk
      exact ⟨g4, by rw [if_pos (by omega), hk]⟩
  obtain ⟨g5, h5⟩ := this
  refine ⟨g5, ?_⟩
  unfold Search.randomConfig
  rw [h5]; simp only [Outcome.bind]
  rw [h4]; simp only [Outcome.bind]
  rw [h3]; simp only [Outcome.bind]
  rw [h2]; simp only [Outcome.bind]
  rw [h1]; simp only [Outcome.bind]
  rw [← hl]

/-- C125, violated: "Generate all possible configs for grid search": without a fixed depth the grid leaves out two hidden layers of equal width, three hidden layers, and residual connections with one hidden layer, all of which the random search draws. -/
theorem C125_missing_violated (s : Search) (hk : s.hidden = 0) {w d : _} {p : Prot} (hw : w ∈ s.widths) (hd : d ∈ s.dropouts) (hp : p ∈ s.prots) (g : Rng) :
    ((⟨[s.input, w, w, s.output], d, false, p⟩ : Config) ∉ s.allConfigs ∧ ∃ g0, s.randomConfig g0 = .ok (⟨[s.input, w, w, s.output], d, false, p⟩, g)) ∧
    ((⟨[s.input, w, w, w, s.output], d, false, p⟩ : Config) ∉ s.allConfigs ∧ ∃ g0, s.randomConfig g0 = .ok (⟨[s.input, w, w, w, s.output], d, false, p⟩, g)) ∧
    (s.residual = true → (⟨[s.input, w, s.output], d, true, p⟩ : Config) ∉ s.allConfigs ∧ ∃ g0, s.randomConfig g0 = .ok (⟨[s.input, w, s.output], d, true, p⟩, g)) := by
  refine ⟨⟨?_, ?_⟩, ⟨?_, ?_⟩, fun hr => ⟨?_, ?_⟩⟩
  · rw [C125_free s hk]
    rintro ⟨-, -, ⟨w', -, h, -⟩ | ⟨w1, -, w2, -, h1, h2, -⟩⟩
    · simp at h
    · simp only [List.cons.injEq, and_true, true_and] at h2
      exact h1 (h2.1 ▸ h2.2)
  · exact C125_random_reaches s [w, w] (by simp [hw]) rfl hd hp (by simp) (by simp [hk]) g
  · rw [C125_free s hk]
    rintro ⟨-, -, ⟨w', -, h, -⟩ | ⟨w1, -, w2, -, h1, h2, -⟩⟩
    · simp at h
    · simp at h2
  · exact C125_random_reaches s [w, w, w] (by simp [hw]) rfl hd hp (by simp) (by simp [hk]) g
  · rw [C125_free s hk]
    rintro ⟨-, -, ⟨w', -, -, h⟩ | ⟨w1, -, w2, -, h1, h2, -⟩⟩
    · simp at h
    · simp at h2
  · exact C125_random_reaches s [w] (by simp [hw]) rfl hd hp (fun _ => hr) (by simp [hk]) g

/-! ### C126 -/

theorem toNat_inj : ∀ p q : Prot, p.toNat = q.toNat → p = q := by intro p q h; cases p <;> cases q <;> first | rfl | (simp [Prot.toNat] at h)

/-- C126, equality: two configurations are the same key of the map exactly if they are equal by the class's own comparison (dropout up to 10⁻⁶). -/
theorem C126_equality (a b : Config) : a.same b ↔ a.eqv b := by
  unfold Config.same Config.eqv Config.lt
  by_cases h1 : a.layers = b.layers
  · rw [if_neg (not_not.mpr h1), if_neg (not_not.mpr h1.symm)]
    by_cases h2 : |a.dropout - b.dropout| ≥ 1 / 10 ^ 6
    · rw [if_pos h2, abs_sub_comm b.dropout, if_pos h2]
      constructor
      · rintro ⟨h3, h4⟩
        have : a.dropout = b.dropout := le_antisymm (not_lt.mp h4) (not_lt.mp h3)
        rw [this] at h2; norm_num at h2
      · rintro ⟨-, h3, -⟩; exact absurd h2 (not_le.mpr h3)
    · rw [if_neg h2, abs_sub_comm b.dropout, if_neg h2]
      by_cases h3 : a.residual = b.residual
      · rw [if_neg (not_not.mpr h3), if_neg (not_not.mpr h3.symm)]
        constructor
        · rintro ⟨h4, h5⟩
          exact ⟨h1, not_le.mp h2, h3, toNat_inj _ _ (by omega)⟩
        · rintro ⟨-, -, -, h4⟩; rw [h4]; exact ⟨lt_irrefl _, lt_irrefl _⟩
      · rw [if_pos h3, if_pos fun h => h3 h.symm]
        constructor
        · rintro ⟨h4, h5⟩
          exfalso
          cases ha : a.residual <;> cases hb : b.residual <;> simp_all
        · rintro ⟨-, -, h4, -⟩; exact absurd h4 h3
  · rw [if_pos h1, if_pos fun h => h1 h.symm]
    constructor
    · rintro ⟨h2, h3⟩
      exact absurd (le_antisymm (not_lt.mp h3) (not_lt.mp h2)) h1
    · rintro ⟨h2, -⟩; exact absurd h2 h1

/-- C126, order: if different dropout rates are at least 10⁻⁶ apart, the order of the map is a strict total order on configurations: nothing precedes itself, precedence is transitive, and of two different configurations one precedes the other. -/
theorem C126_order {ds : List ℝ} (hs : Apart ds) {a b c : Config} (ha : a.dropout ∈ ds) (hb : b.dropout ∈ ds) (hc : c.dropout ∈ ds) :
    ¬ a.lt a ∧ (a.lt b → b.lt c → a.lt c) ∧ (a.same b ↔ a = b) := by
  have hd : ∀ x ∈ ds, ∀ y ∈ ds, (|x - y| ≥ 1 / 10 ^ 6 ↔ x ≠ y) := by
    intro x hx y hy
    constructor
    · rintro h rfl; norm_num at h
    · intro h; exact (hs x hx y hy).resolve_left h
  have lt_iff : ∀ x y : Config, x.dropout ∈ ds → y.dropout ∈ ds → (x.lt y ↔ x.layers < y.layers ∨ x.layers = y.layers ∧ (x.dropout < y.dropout ∨ x.dropout = y.dropout ∧
      ((x.residual = false ∧ y.residual = true) ∨ x.residual = y.residual ∧ x.prot.toNat < y.prot.toNat))) := by
    intro x y hx hy
    unfold Config.lt
    by_cases h1 : x.layers = y.layers
    · rw [if_neg (not_not.mpr h1)]
      by_cases h2 : x.dropout = y.dropout
      · rw [if_neg (by rw [hd _ hx _ hy]; exact not_not.mpr h2)]
        by_cases h3 : x.residual = y.residual
        · rw [if_neg (not_not.mpr h3)]
          have : ¬ (x.residual = false ∧ y.residual = true) := by rintro ⟨e1, e2⟩; rw [e1, e2] at h3; cases h3
          simp [h1, h2, h3]
        · rw [if_pos h3]; simp [h1, h2, h3]
      · rw [if_pos (by rw [hd _ hx _ hy]; exact h2)]; simp [h1, h2]
    · rw [if_pos h1]; simp [h1]
  refine ⟨?_, ?_, ?_⟩
  · rw [lt_iff a a ha ha]
    rintro (h | ⟨-, h | ⟨-, h | ⟨-, h⟩⟩⟩)
    · exact lt_irrefl _ h
    · exact lt_irrefl _ h
    · rw [h.1] at h; cases h.2
    · exact lt_irrefl _ h
  · rw [lt_iff a b ha hb, lt_iff b c hb hc, lt_iff a c ha hc]
    rintro (h | ⟨e1, h⟩) (k | ⟨e2, k⟩)
    · exact Or.inl (lt_trans h k)
    · exact Or.inl (e2 ▸ h)
    · exact Or.inl (e1 ▸ k)
    · refine Or.inr ⟨e1.trans e2, ?_⟩
      rcases h with h | ⟨f1, h⟩
      · rcases k with k | ⟨f2, k⟩
        · exact Or.inl (lt_trans h k)
        · exact Or.inl (f2 ▸ h)
      · rcases k with k | ⟨f2, k⟩
        · exact Or.inl (f1 ▸ k)
        · refine Or.inr ⟨f1.trans f2, ?_⟩
          rcases h with h | ⟨g1, h⟩
          · rcases k with k | ⟨g2, k⟩
            · rw [h.2] at k; cases k.1
            · exact Or.inl ⟨h.1, g2 ▸ h.2⟩
          · rcases k with k | ⟨g2, k⟩
            · exact Or.inl ⟨g1 ▸ k.1, k.2⟩
            · exact Or.inr ⟨g1.trans g2, lt_trans h k⟩
  · rw [C126_equality]
    constructor
    · rintro ⟨h1, h2, h3, h4⟩
      have : a.dropout = b.dropout := (hs _ ha _ hb).resolve_right (not_le.mpr h2)
      exact Config.ext h1 this h3 h4
    · rintro rfl
      exact ⟨rfl, by norm_num, rfl, rfl⟩

/-- C126, violated: with dropout rates less than 10⁻⁶ apart being the same is not transitive, so the order does not meet the requirements of a map's key. -/
theorem C126_tolerance_violated (l : List ℕ) (r : Bool) (p : Prot) :
    let a : Config := ⟨l, 0, r, p⟩
    let b : Config := ⟨l, 6 / 10 ^ 7, r, p⟩
    let c : Config := ⟨l, 12 / 10 ^ 7, r, p⟩
    a.same b ∧ b.same c ∧ a.lt c := by
  refine ⟨(C126_equality _ _).mpr ⟨rfl, ?_, rfl, rfl⟩, (C126_equality _ _).mpr ⟨rfl, ?_, rfl, rfl⟩, ?_⟩
  · rw [abs_lt]; constructor <;> norm_num
  · rw [abs_lt]; constructor <;> norm_num
  · unfold Config.lt
    rw [if_neg (by simp), if_pos (by simp only; rw [ge_iff_le, le_abs]; norm_num)]
    norm_num

/-- The map as a function, if keys are apart. -/
theorem get_set {ds : List ℝ} (hs : Apart ds) {m : Tested} (hm : ∀ q ∈ m, q.1.dropout ∈ ds) {c c' : Config} (hc : c.dropout ∈ ds) (hc' : c'.dropout ∈ ds) (r : Result) :
    Tested.get (Tested.set m c r) c' = if c = c' then some r else Tested.get m c' := by
  induction m with
  | nil =>
    simp only [Tested.set, Tested.get, (C126_order hs hc hc' hc').2.2]
  | cons q t ih =>
    have hq := hm q (by simp)
    have iht := ih fun x hx => hm x (by simp [hx])
    simp only [Tested.set, (C126_order hs hq hc hc').2.2]
    by_cases h1 : q.1 = c
    · rw [if_pos h1]
      simp only [Tested.get, (C126_order hs hq hc' hc').2.2]
      by_cases h2 : c = c'
      · rw [if_pos (h1.trans h2), if_pos h2]
      · rw [if_neg (fun h => h2 (h1.symm.trans h)), if_neg h2]
        rw [if_neg (fun h => h2 (h1.symm.trans h))]
    · rw [if_neg h1]
      simp only [Tested.get, (C126_order hs hq hc' hc').2.2, iht]
      by_cases h3 : q.1 = c'
      · rw [if_pos h3, if_pos h3, if_neg fun h => h1 (h3.trans h.symm)]
      · rw [if_neg h3, if_neg h3]

theorem set_keys {m : Tested} {c : Config} {r : Result} {ds : List ℝ} (hm : ∀ q ∈ m, q.1.dropout ∈ ds) (hc : c.dropout ∈ ds) : ∀ q ∈ Tested.set m c r, q.1.dropout ∈ ds := by
  induction m with
  | nil => simp only [Tested.set, List.mem_singleton]; rintro q rfl; exact hc
  | cons p t ih =>
    simp only [Tested.set]
    split
    · intro q hq
      rcases List.mem_cons.mp hq with rfl | hq
      · exact hm p (by simp)
      · exact hm q (by simp [hq])
    · intro q hq
      rcases List.mem_cons.mp hq with rfl | hq
      · exact hm q (by simp)
      · exact ih (fun x hx => hm x (by simp [hx])) q hq

theorem set_length_new {m : Tested} {c : Config} {r : Result} (h : Tested.get m c = none) : (Tested.set m c r).length = m.length + 1 := by
  induction m with
  | nil => rfl
  | cons p t ih =>
    simp only [Tested.get] at h
    split at h
    · cases h
    · rename_i hp
      simp only [Tested.set, if_neg hp, List.length_cons, ih h]

end Verif.AutoSearch
