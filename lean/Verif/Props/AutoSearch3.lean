import Verif.Props.AutoSearch2
import Mathlib.Data.List.GetD
/-!
C129: evolutionary search.
-/
namespace Verif.AutoSearch
open Verif.ArchTester (Env Prot Result)
open Classical

/-! ### Lemmas -/

theorem drawn_dropout {s : Search} {c : Config} (h : Drawn s c) : c.dropout ∈ s.dropouts := dropout_offered h.1

theorem choose_or {α : Type} (a b : α) (g : Rng) : (choose a b g).1 = a ∨ (choose a b g).1 = b := by
  unfold choose
  split
  · exact Or.inl rfl
  · exact Or.inr rfl

theorem crossLayers_ok {ws : List ℕ} : ∀ (a b : List ℕ) (g : Rng), a.length = b.length → (∀ w ∈ a, w ∈ ws) → (∀ w ∈ b, w ∈ ws) →
    (crossLayers a b g).1.length = a.length ∧ ∀ w ∈ (crossLayers a b g).1, w ∈ ws
  | [], [], g, _, _, _ => by simp [crossLayers]
  | x :: a, y :: b, g, h, ha, hb => by
    obtain ⟨h1, h2⟩ := crossLayers_ok a b (choose x y g).2 (by simpa using h) (fun w hw => ha w (by simp [hw])) (fun w hw => hb w (by simp [hw]))
    simp only [crossLayers, List.length_cons, h1, true_and]
    intro w hw
    rcases List.mem_cons.mp hw with rfl | hw
    · rcases choose_or x y g with e | e <;> rw [e]
      · exact ha x (by simp)
      · exact hb y (by simp)
    · exact h2 w hw
  | [], _ :: _, _, h, _, _ => by simp at h
  | _ :: _, [], _, h, _, _ => by simp at h

/-- The child of two configurations that can be drawn can be drawn; each attribute other than the layers comes from a parent. -/
theorem cross_ok {s : Search} {a b : Config} (ha : Drawn s a) (hb : Drawn s b) (g : Rng) :
    Drawn s (s.cross a b g).1 ∧ ((s.cross a b g).1.dropout = a.dropout ∨ (s.cross a b g).1.dropout = b.dropout) ∧
      ((s.cross a b g).1.residual = a.residual ∨ (s.cross a b g).1.residual = b.residual) ∧ ((s.cross a b g).1.prot = a.prot ∨ (s.cross a b g).1.prot = b.prot) := by
  obtain ⟨⟨h1, a1, a2, a3, a4, a5, a6⟩, a7⟩ := ha
  obtain ⟨⟨h2, b1, b2, b3, b4, b5, b6⟩, b7⟩ := hb
  have hlay : ∃ h : List ℕ, h ≠ [] ∧ (∀ w ∈ h, w ∈ s.widths) ∧ (s.cross a b g).1.layers = s.input :: h ++ [s.output] ∧
      if s.hidden = 0 then 3 ≤ (s.cross a b g).1.layers.length ∧ (s.cross a b g).1.layers.length ≤ 5 else (s.cross a b g).1.layers.length = s.hidden + 2 := by
    by_cases hl : a.layers.length = b.layers.length
    · have hlen : h1.length = h2.length := by rw [a3, b3] at hl; simpa using hl
      have hta : a.layers.tail.dropLast = h1 := by rw [a3]; simp
      have htb : b.layers.tail.dropLast = h2 := by rw [b3]; simp
      obtain ⟨c1, c2⟩ := crossLayers_ok h1 h2 g hlen a2 b2
      have he : (s.cross a b g).1.layers = s.input :: (crossLayers h1 h2 g).1 ++ [s.output] := by
        simp only [Search.cross, hl, hta, htb, ne_eq, not_true_eq_false, if_false]
      have hle : (s.cross a b g).1.layers.length = a.layers.length := by rw [he, a3]; simp [c1]
      refine ⟨_, ?_, c2, he, by rw [hle]; exact a7⟩
      intro e
      rw [e] at c1
      exact a1 (List.length_eq_zero_iff.mp c1.symm)
    · have he : (s.cross a b g).1.layers = (choose a.layers b.layers g).1 := by
        simp only [Search.cross, hl, ne_eq, not_false_eq_true, if_true]
      rcases choose_or a.layers b.layers g with e | e
      · rw [he, e]; exact ⟨h1, a1, a2, a3, a7⟩
      · rw [he, e]; exact ⟨h2, b1, b2, b3, b7⟩
  have hd : (s.cross a b g).1.dropout = a.dropout ∨ (s.cross a b g).1.dropout = b.dropout := choose_or _ _ _
  have hr : (s.cross a b g).1.residual = a.residual ∨ (s.cross a b g).1.residual = b.residual := choose_or _ _ _
  have hp : (s.cross a b g).1.prot = a.prot ∨ (s.cross a b g).1.prot = b.prot := choose_or _ _ _
  obtain ⟨h, l1, l2, l3, l4⟩ := hlay
  refine ⟨⟨⟨h, l1, l2, l3, ?_, ?_, ?_⟩, l4⟩, hd, hr, hp⟩
  · rcases hd with e | e <;> rw [e] <;> assumption
  · rcases hp with e | e <;> rw [e] <;> assumption
  · rcases hr with e | e <;> rw [e] <;> assumption

theorem mutLayers_ok {s : Search} (hv : Valid s) {h : List ℕ} (h1 : h ≠ []) (h2 : ∀ w ∈ h, w ∈ s.widths) (rate : ℝ) (g : Rng) :
    ∃ h' g', s.mutLayers (s.input :: h ++ [s.output]) rate g = .ok (s.input :: h' ++ [s.output], g') ∧ h'.length = h.length ∧ ∀ w ∈ h', w ∈ s.widths := by
  unfold Search.mutLayers
  by_cases hr : g.seq 0 < rate
  · have hn : 0 < h.length := List.length_pos_of_ne_nil h1
    rw [if_pos hr, if_pos (by simp; omega)]
    obtain ⟨w, hw, hp⟩ := pick_ok hv.someWidth g.next.next
    set j := ⌊g.next.seq 0 * ((s.input :: h ++ [s.output]).length - 2 : ℕ)⌋₊ with hj
    have hlen : (s.input :: h ++ [s.output]).length - 2 = h.length := by simp
    have hjl : j < h.length := by
      rw [hj, hlen, Nat.floor_lt (mul_nonneg (g.next.lo 0) (by positivity))]
      have : (0 : ℝ) < h.length := by exact_mod_cast hn
      nlinarith [g.next.hi 0]
    refine ⟨h.set j w, g.next.next.next, ?_, by simp, ?_⟩
    · rw [hp]
      simp only [Outcome.bind, List.cons_append]
      rw [Nat.add_comm 1 j, List.set_cons_succ, List.set_append_left _ _ hjl]
    · intro x hx
      rcases List.mem_or_eq_of_mem_set hx with hx | rfl
      exacts [h2 x hx, hw]
  · rw [if_neg hr]
    exact ⟨h, g.next, rfl, rfl, h2⟩

/-- Mutation of a configuration that can be drawn gives one that can be drawn. -/
theorem mutate_ok {s : Search} (hv : Valid s) {c : Config} (hc : Drawn s c) (rate : ℝ) (g : Rng) : ∃ c' g', s.mutate c rate g = .ok (c', g') ∧ Drawn s c' := by
  obtain ⟨⟨h, a1, a2, a3, a4, a5, a6⟩, a7⟩ := hc
  obtain ⟨h', g1, m1, m2, m3⟩ := mutLayers_ok hv a1 a2 rate g
  have hd : ∃ d g2, (if g1.seq 0 < rate then pick s.dropouts g1.next else .ok (c.dropout, g1.next) : Outcome (ℝ × Rng)) = .ok (d, g2) ∧ d ∈ s.dropouts := by
    by_cases hr : g1.seq 0 < rate
    · obtain ⟨d, hd, hp⟩ := pick_ok hv.someDropout g1.next
      exact ⟨d, _, by rw [if_pos hr, hp], hd⟩
    · exact ⟨c.dropout, _, by rw [if_neg hr], a4⟩
  obtain ⟨d, g2, d1, d2⟩ := hd
  set r : Bool × Rng := if s.residual then (if g2.seq 0 < rate then !c.residual else c.residual, g2.next) else (c.residual, g2) with hr
  have hres : r.1 = true → s.residual = true := by
    rw [hr]
    by_cases hs : s.residual = true
    · exact fun _ => hs
    · rw [if_neg hs]; exact a6
  have hp : ∃ p g3, (if r.2.seq 0 < rate then pick s.prots r.2.next else .ok (c.prot, r.2.next) : Outcome (Prot × Rng)) = .ok (p, g3) ∧ p ∈ s.prots := by
    by_cases hr : r.2.seq 0 < rate
    · obtain ⟨p, hp, hq⟩ := pick_ok hv.someProt r.2.next
      exact ⟨p, _, by rw [if_pos hr, hq], hp⟩
    · exact ⟨c.prot, _, by rw [if_neg hr], a5⟩
  obtain ⟨p, g3, p1, p2⟩ := hp
  have hlen : (s.input :: h' ++ [s.output]).length = c.layers.length := by rw [a3]; simp [m2]
  refine ⟨⟨s.input :: h' ++ [s.output], d, r.1, p⟩, g3, ?_, ⟨h', ?_, m3, rfl, d2, p2, hres⟩, by rw [hlen]; exact a7⟩
  · unfold Search.mutate
    rw [a3, m1]; simp only [Outcome.bind]
    rw [d1]; simp only []
    rw [← hr, p1]
  · intro e
    rw [e] at m2
    exact a1 (List.length_eq_zero_iff.mp m2.symm)

theorem maxIdx_ok : ∀ (l : List ℝ), l ≠ [] → maxIdx l < l.length ∧ ∀ x ∈ l, x ≤ l.getD (maxIdx l) 0
  | [], h => absurd rfl h
  | [x], _ => by simp [maxIdx]
  | x :: y :: t, _ => by
    obtain ⟨h1, h2⟩ := maxIdx_ok (y :: t) (by simp)
    unfold maxIdx
    by_cases hlt : x < (y :: t).getD (maxIdx (y :: t)) 0
    · simp only [if_pos hlt]
      refine ⟨by simpa using h1, ?_⟩
      intro z hz
      rw [List.getD_cons_succ]
      rcases List.mem_cons.mp hz with rfl | hz
      exacts [hlt.le, h2 z hz]
    · simp only [if_neg hlt]
      refine ⟨by simp, ?_⟩
      intro z hz
      rw [List.getD_cons_zero]
      rcases List.mem_cons.mp hz with rfl | hz
      exacts [le_rfl, (h2 z hz).trans (not_lt.mp hlt)]

/-- C129, tournament: of the two individuals drawn the fitter one becomes a parent. -/
theorem C129_tournament (f : List ℝ) (n : ℕ) (g : Rng) : ∃ w g', tournament f n g = (w, g') ∧ (w = ⌊g.seq 0 * n⌋₊ ∨ w = ⌊g.seq 1 * n⌋₊) ∧
    f.getD ⌊g.seq 0 * n⌋₊ 0 ≤ f.getD w 0 ∧ f.getD ⌊g.seq 1 * n⌋₊ 0 ≤ f.getD w 0 := by
  refine ⟨_, _, rfl, ?_⟩
  show _ ∧ _
  have e : g.next.seq 0 = g.seq 1 := rfl
  rw [← e]
  by_cases h : f.getD ⌊g.seq 0 * n⌋₊ 0 > f.getD ⌊g.next.seq 0 * n⌋₊ 0
  · rw [if_pos h]; exact ⟨Or.inl rfl, le_rfl, h.le⟩
  · rw [if_neg h]; exact ⟨Or.inr rfl, not_lt.1 h, le_rfl⟩

theorem tournament_lt (f : List ℝ) {n : ℕ} (hn : 0 < n) (g : Rng) : (tournament f n g).1 < n := by
  have hb : ∀ (u : ℝ), 0 ≤ u → u < 1 → ⌊u * n⌋₊ < n := by
    intro u h0 h1
    rw [Nat.floor_lt (mul_nonneg h0 (by positivity))]
    have : (0 : ℝ) < n := by exact_mod_cast hn
    nlinarith
  unfold tournament
  simp only
  split
  · exact hb _ (g.lo 0) (g.hi 0)
  · exact hb _ (g.next.lo 0) (g.next.hi 0)

theorem children_ok {s : Search} (hv : Valid s) {pop : List Config} (hp : pop ≠ []) (hd : ∀ c ∈ pop, Drawn s c) (f : List ℝ) (rate : ℝ) :
    ∀ (n : ℕ) (g : Rng), ∃ l g', s.children pop f rate n g = .ok (l, g') ∧ l.length = n ∧ ∀ c ∈ l, Drawn s c
  | 0, g => ⟨[], g, rfl, rfl, by simp⟩
  | n + 1, g => by
    have hn : 0 < pop.length := List.length_pos_of_ne_nil hp
    have hi := tournament_lt f hn g
    have hj := tournament_lt f hn (tournament f pop.length g).2
    obtain ⟨c', g1, m1, m2⟩ := mutate_ok hv (cross_ok (hd _ (List.getElem_mem hi)) (hd _ (List.getElem_mem hj)) (tournament f pop.length (tournament f pop.length g).2).2).1 rate
      (s.cross pop[(tournament f pop.length g).1] pop[(tournament f pop.length (tournament f pop.length g).2).1] (tournament f pop.length (tournament f pop.length g).2).2).2
    obtain ⟨l, g2, k1, k2, k3⟩ := children_ok hv hp hd f rate n g1
    refine ⟨c' :: l, g2, ?_, by simp [k2], ?_⟩
    · unfold Search.children
      simp only [List.getElem?_eq_getElem hi, List.getElem?_eq_getElem hj]
      rw [m1]; simp only [Outcome.bind]
      rw [k1]
    · intro c hc
      rcases List.mem_cons.mp hc with rfl | hc
      exacts [m2, k3 c hc]

theorem population_ok {s : Search} (hv : Valid s) : ∀ (n : ℕ) (g : Rng), ∃ l g', s.population n g = .ok (l, g') ∧ l.length = n ∧ ∀ c ∈ l, Drawn s c
  | 0, g => ⟨[], g, rfl, rfl, by simp⟩
  | n + 1, g => by
    obtain ⟨c, g1, h1, h2⟩ := random_ok hv g
    obtain ⟨l, g2, k1, k2, k3⟩ := population_ok hv n g1
    refine ⟨c :: l, g2, ?_, by simp [k2], ?_⟩
    · unfold Search.population
      rw [h1]; simp only [Outcome.bind]
      rw [k1]
    · intro x hx
      rcases List.mem_cons.mp hx with rfl | hx
      exacts [h2, k3 x hx]

/-- The progress of an evolutionary search that started from `s`. -/
structure EInv (s : Search) (draw : BitVec 32 → ℕ → ℝ) (mc : Bool) (trials : ℕ) (p : Progress) : Prop where
  keys : ∀ q ∈ p.tested, q.1.dropout ∈ s.dropouts
  old : ∀ c : Config, c.dropout ∈ s.dropouts → ∀ r, Tested.get s.tested c = some r → Tested.get p.tested c = some r
  new : ∀ c : Config, c.dropout ∈ s.dropouts → Tested.get s.tested c = none → ∀ r, Tested.get p.tested c = some r → Drawn s c ∧ s.testConfig draw c mc trials = .ok r ∧ r.pres ≤ p.bestPres
  pos : ∀ c : Config, c.dropout ∈ s.dropouts → ∀ r, Tested.get p.tested c = some r → 0 < r.pres
  best : (p.best = none ∧ p.bestPres = 0) ∨ ∃ c r, p.best = some (c, r) ∧ p.bestPres = r.pres ∧ Drawn s c ∧ Tested.get p.tested c = some r

/-- What a later progress keeps of an earlier one. -/
def Later (s : Search) (p q : Progress) : Prop := (∀ c : Config, c.dropout ∈ s.dropouts → ∀ r, Tested.get p.tested c = some r → Tested.get q.tested c = some r) ∧ p.bestPres ≤ q.bestPres

theorem consider_einv {s : Search} {draw : BitVec 32 → ℕ → ℝ} {mc : Bool} {trials : ℕ} {p : Progress} (h : EInv s draw mc trials p) {c : Config} (hc : Drawn s c) {r : Result} (hg : Tested.get p.tested c = some r) :
    EInv s draw mc trials (p.consider c r) := by
  have hge := consider_ge p c r
  refine ⟨?_, ?_, ?_, ?_, ?_⟩ <;> simp only [consider_tested]
  · exact h.keys
  · exact h.old
  · intro x hx hn y hy
    obtain ⟨k1, k2, k3⟩ := h.new x hx hn y hy
    exact ⟨k1, k2, k3.trans hge.1⟩
  · exact h.pos
  · rcases consider_best p c r with ⟨f1, f2⟩ | ⟨f1, f2⟩
    · rw [f1, f2]; exact h.best
    · exact Or.inr ⟨c, r, f1, f2, hc, hg⟩

theorem evalOne_ok {s : Search} (hv : Valid s) (ha : Apart s.dropouts) (draw : BitVec 32 → ℕ → ℝ) {mc : Bool} {trials : ℕ} (ht : mc = true → 0 < trials) {p : Progress} (h : EInv s draw mc trials p) {c : Config} (hc : Drawn s c) :
    ∃ r q, s.evalOne draw mc trials p c = .ok (r.pres, q) ∧ EInv s draw mc trials q ∧ Later s p q ∧ Tested.get q.tested c = some r ∧ r.pres ≤ q.bestPres := by
  have hcd := drawn_dropout hc
  unfold Search.evalOne
  cases hg : Tested.get p.tested c with
  | some r =>
    have hge := consider_ge p c r
    refine ⟨r, _, rfl, consider_einv h hc hg, ⟨?_, hge.1⟩, ?_, hge.2⟩
    · intro x _ y hy; rw [consider_tested]; exact hy
    · rw [consider_tested]; exact hg
  | none =>
    obtain ⟨r, hr, hpos, -⟩ := test_total hv draw hc.1 ht
    have hge := consider_ge { p with tested := Tested.set p.tested c r } c r
    have hself : Tested.get (Tested.set p.tested c r) c = some r := by rw [get_set ha h.keys hcd hcd, if_pos rfl]
    have hkeep : ∀ x : Config, x.dropout ∈ s.dropouts → ∀ y, Tested.get p.tested x = some y → Tested.get (Tested.set p.tested c r) x = some y := by
      intro x hx y hy
      rw [get_set ha h.keys hcd hx]
      by_cases hxc : c = x
      · subst hxc; rw [hg] at hy; cases hy
      · rw [if_neg hxc]; exact hy
    have hone : ∀ x : Config, x.dropout ∈ s.dropouts → ∀ y, Tested.get (Tested.set p.tested c r) x = some y → (x = c ∧ y = r) ∨ Tested.get p.tested x = some y := by
      intro x hx y hy
      rw [get_set ha h.keys hcd hx] at hy
      by_cases hxc : c = x
      · rw [if_pos hxc, Option.some.injEq] at hy; exact Or.inl ⟨hxc.symm, hy.symm⟩
      · rw [if_neg hxc] at hy; exact Or.inr hy
    refine ⟨r, Progress.consider { p with tested := Tested.set p.tested c r } c r, by simp only [hr, Outcome.bind], ⟨?_, ?_, ?_, ?_, ?_⟩, ⟨?_, hge.1⟩, ?_, hge.2⟩ <;> simp only [consider_tested]
    · exact set_keys h.keys hcd
    · intro x hx y hy; exact hkeep x hx y (h.old x hx y hy)
    · intro x hx hn y hy
      rcases hone x hx y hy with ⟨rfl, rfl⟩ | hy'
      · exact ⟨hc, hr, hge.2⟩
      · obtain ⟨k1, k2, k3⟩ := h.new x hx hn y hy'
        exact ⟨k1, k2, k3.trans hge.1⟩
    · intro x hx y hy
      rcases hone x hx y hy with ⟨rfl, rfl⟩ | hy'
      · exact hpos
      · exact h.pos x hx y hy'
    · rcases consider_best { p with tested := Tested.set p.tested c r } c r with ⟨f1, f2⟩ | ⟨f1, f2⟩
      · rw [f1, f2]
        rcases h.best with hb | ⟨x, y, b1, b2, b3, b4⟩
        · exact Or.inl hb
        · exact Or.inr ⟨x, y, b1, b2, b3, hkeep x (drawn_dropout b3) y b4⟩
      · exact Or.inr ⟨c, r, f1, f2, hc, hself⟩
    · exact hkeep
    · exact hself

theorem later_trans {s : Search} {a b c : Progress} (h : Later s a b) (h' : Later s b c) : Later s a c := ⟨fun x hx r hr => h'.1 x hx r (h.1 x hx r hr), h.2.trans h'.2⟩

theorem evalAll_ok {s : Search} (hv : Valid s) (ha : Apart s.dropouts) (draw : BitVec 32 → ℕ → ℝ) {mc : Bool} {trials : ℕ} (ht : mc = true → 0 < trials) :
    ∀ (pop : List Config) (p : Progress), EInv s draw mc trials p → (∀ c ∈ pop, Drawn s c) →
    ∃ (rs : List Result) (q : Progress), s.evalAll draw mc trials pop p = .ok (rs.map Result.pres, q) ∧ EInv s draw mc trials q ∧ Later s p q ∧
      List.Forall₂ (fun (c : Config) (r : Result) => Tested.get q.tested c = some r ∧ r.pres ≤ q.bestPres) pop rs
  | [], p, h, _ => ⟨[], p, rfl, h, ⟨fun _ _ _ h => h, le_rfl⟩, .nil⟩
  | c :: t, p, h, hd => by
    obtain ⟨r, q, e1, e2, e3, e4, e5⟩ := evalOne_ok hv ha draw ht h (hd c (by simp))
    obtain ⟨rs, q', f1, f2, f3, f4⟩ := evalAll_ok hv ha draw ht t q e2 (fun x hx => hd x (by simp [hx]))
    refine ⟨r :: rs, q', ?_, f2, later_trans e3 f3, .cons ⟨f3.1 c (drawn_dropout (hd c (by simp))) r e4, e5.trans f3.2⟩ f4⟩
    unfold Search.evalAll
    rw [e1]; simp only [Outcome.bind]
    rw [f1]; rfl

/-! ### C129 -/

/-- C129, one generation: every individual is evaluated, the next population has the size asked for and consists of configurations that can be drawn, its first member is one of the old population, and no member of the old population has a higher preservation. -/
theorem C129_generation {s : Search} (hv : Valid s) (ha : Apart s.dropouts) (draw : BitVec 32 → ℕ → ℝ) {mc : Bool} {trials : ℕ} (ht : mc = true → 0 < trials) {size : ℕ} (hz : 0 < size) (rate : ℝ)
    {pop : List Config} (hne : pop ≠ []) (hd : ∀ c ∈ pop, Drawn s c) {p : Progress} (h : EInv s draw mc trials p) (g : Rng) :
    ∃ elite rest q g', s.generation draw size rate mc trials pop p g = .ok (elite :: rest, q, g') ∧ rest.length + 1 = size ∧ (∀ c ∈ elite :: rest, Drawn s c) ∧ EInv s draw mc trials q ∧ Later s p q ∧
      elite ∈ pop ∧ ∃ best, Tested.get q.tested elite = some best ∧ ∀ c ∈ pop, ∃ r, Tested.get q.tested c = some r ∧ r.pres ≤ best.pres ∧ r.pres ≤ q.bestPres := by
  obtain ⟨rs, q, e1, e2, e3, e4⟩ := evalAll_ok hv ha draw ht pop p h hd
  have hlen : pop.length = rs.length := e4.length_eq
  have hrs : rs.map Result.pres ≠ [] := by
    intro e
    have : rs = [] := by simpa using e
    rw [this] at hlen
    exact hne (List.length_eq_zero_iff.mp hlen)
  obtain ⟨m1, m2⟩ := maxIdx_ok (rs.map Result.pres) hrs
  have hi : maxIdx (rs.map Result.pres) < rs.length := by simpa using m1
  have hip : maxIdx (rs.map Result.pres) < pop.length := by omega
  obtain ⟨l, g', k1, k2, k3⟩ := children_ok hv hne hd (rs.map Result.pres) rate (size - 1) g
  refine ⟨pop[maxIdx (rs.map Result.pres)], l, q, g', ?_, by omega, ?_, e2, e3, List.getElem_mem hip, rs[maxIdx (rs.map Result.pres)], (e4.get hip hi).1, ?_⟩
  · unfold Search.generation
    rw [e1]; simp only [Outcome.bind, List.getElem?_eq_getElem hip]
    rw [k1]
  · intro c hc
    rcases List.mem_cons.mp hc with rfl | hc
    exacts [hd _ (List.getElem_mem hip), k3 c hc]
  · intro c hc
    obtain ⟨i, hi', rfl⟩ := List.getElem_of_mem hc
    have hir : i < rs.length := by omega
    obtain ⟨x1, x2⟩ := e4.get hi' hir
    refine ⟨rs[i], x1, ?_, x2⟩
    have := m2 (rs[i]).pres (List.mem_map.mpr ⟨rs[i], List.getElem_mem hir, rfl⟩)
    rwa [List.getD_eq_getElem _ _ m1, List.getElem_map] at this

theorem evolve_ok {s : Search} (hv : Valid s) (ha : Apart s.dropouts) (draw : BitVec 32 → ℕ → ℝ) {mc : Bool} {trials : ℕ} (ht : mc = true → 0 < trials) {size : ℕ} (hz : 0 < size) (rate : ℝ) :
    ∀ (n : ℕ) (pop : List Config) (p : Progress) (g : Rng), pop.length = size → (∀ c ∈ pop, Drawn s c) → EInv s draw mc trials p →
    ∃ pop' q g', s.evolve draw size rate mc trials n pop p g = .ok (pop', q, g') ∧ EInv s draw mc trials q ∧ Later s p q ∧ pop'.length = size ∧ (0 < n → 0 < q.bestPres ∧ ∀ c ∈ pop, ∃ r, Tested.get q.tested c = some r ∧ r.pres ≤ q.bestPres)
  | 0, pop, p, g, hl, _, h => ⟨pop, p, g, rfl, h, ⟨fun _ _ _ h => h, le_rfl⟩, hl, by simp⟩
  | n + 1, pop, p, g, hl, hd, h => by
    have hne : pop ≠ [] := by rintro rfl; simp at hl; omega
    obtain ⟨e, rest, q, g1, k1, k2, k3, k4, k5, k6, b, k7, k8⟩ := C129_generation hv ha draw ht hz rate hne hd h g
    obtain ⟨pop', q', g', j1, j2, j3, j4, -⟩ := evolve_ok hv ha draw ht hz rate n (e :: rest) q g1 (by simpa using k2) k3 k4
    refine ⟨pop', q', g', ?_, j2, later_trans k5 j3, j4, fun _ => ⟨?_, ?_⟩⟩
    · unfold Search.evolve
      rw [k1]; simp only [Outcome.bind]
      exact j1
    · obtain ⟨r, r1, -, r3⟩ := k8 e k6
      exact lt_of_lt_of_le (k4.pos e (drawn_dropout (hd e k6)) r r1) (r3.trans j3.2)
    · intro c hc
      obtain ⟨r, r1, -, r3⟩ := k8 c hc
      exact ⟨r, j3.1 c (drawn_dropout (hd c hc)) r r1, r3.trans j3.2⟩

/-- C129, evolutionary search: with usable options, a population and a generation, it returns whatever the random numbers are; the configuration reported is made of the options with the result on record for it; nothing this search tested has a higher preservation, nor has any member of the first population; earlier results are kept and the rest are those of the test; the number of iterations is generations times population. -/
theorem C129_evolution {s : Search} (hv : Valid s) (ha : Apart s.dropouts) (hs : Sound s) (draw : BitVec 32 → ℕ → ℝ) {mc : Bool} {trials : ℕ} (ht : mc = true → 0 < trials) (g : Rng)
    {size generations : ℕ} (hz : 0 < size) (hg : 0 < generations) (rate : ℝ) :
    ∃ f s' g' pop g0, s.evolutionary draw g size generations rate mc trials = .ok (f, s', g') ∧ f.iterations = generations * size ∧
      (∃ c r, Reports f c r ∧ Drawn s c ∧ Tested.get s'.tested c = some r) ∧
      (∀ c : Config, c.dropout ∈ s.dropouts → Tested.get s.tested c = none → ∀ r, Tested.get s'.tested c = some r → Drawn s c ∧ s.testConfig draw c mc trials = .ok r ∧ r.pres ≤ f.pres) ∧
      (∀ c : Config, c.dropout ∈ s.dropouts → ∀ r, Tested.get s.tested c = some r → Tested.get s'.tested c = some r) ∧
      s.population size g = .ok (pop, g0) ∧ pop.length = size ∧ (∀ c ∈ pop, ∃ r, Tested.get s'.tested c = some r ∧ r.pres ≤ f.pres) ∧
      s' = { s with tested := s'.tested } ∧ Sound s' := by
  obtain ⟨pop, g0, p1, p2, p3⟩ := population_ok hv size g
  have hstart : EInv s draw mc trials (.start s) := ⟨hs.1, fun _ _ _ h => h, fun c _ h r h' => (by rw [show (Progress.start s).tested = s.tested from rfl, h] at h'; cases h'), hs.2, Or.inl ⟨rfl, rfl⟩⟩
  obtain ⟨pop', q, g', k1, k2, -, -, k5⟩ := evolve_ok hv ha draw ht hz rate generations pop (.start s) g0 p2 p3 hstart
  obtain ⟨k6, k7⟩ := k5 hg
  rcases k2.best with ⟨-, b2⟩ | ⟨c, r, b1, b2, b3, b4⟩
  · rw [b2] at k6; exact absurd k6 (lt_irrefl _)
  · refine ⟨⟨c, r.base, r.rad, r.pres, generations * size, r.baseDev, r.radDev, r.presDev, r.trials⟩, { s with tested := q.tested }, g', pop, g0, ?_, rfl,
      ⟨c, r, ⟨rfl, rfl, rfl, rfl, rfl, rfl, rfl, rfl⟩, b3, b4⟩, ?_, k2.old, p1, p2, ?_, rfl, k2.keys, k2.pos⟩
    · unfold Search.evolutionary
      rw [p1]; simp only [Outcome.bind]
      rw [k1]; simp only [Progress.found, b1]
    · intro x hx hn y hy
      obtain ⟨n1, n2, n3⟩ := k2.new x hx hn y hy
      exact ⟨n1, n2, b2 ▸ n3⟩
    · intro x hx
      obtain ⟨y, y1, y2⟩ := k7 x hx
      exact ⟨y, y1, b2 ▸ y2⟩

/-- C129, crossover: a child can be drawn, and its dropout, residual connections and protection are each one parent's. -/
theorem C129_crossover {s : Search} {a b : Config} (ha : Drawn s a) (hb : Drawn s b) (g : Rng) :
    Drawn s (s.cross a b g).1 ∧ ((s.cross a b g).1.dropout = a.dropout ∨ (s.cross a b g).1.dropout = b.dropout) ∧
      ((s.cross a b g).1.residual = a.residual ∨ (s.cross a b g).1.residual = b.residual) ∧ ((s.cross a b g).1.prot = a.prot ∨ (s.cross a b g).1.prot = b.prot) := cross_ok ha hb g

/-- C129, mutation rate: at rate 0 or below nothing mutates, whatever the random numbers are. -/
theorem C129_rate (s : Search) (c : Config) {rate : ℝ} (hr : rate ≤ 0) (g : Rng) : ∃ g', s.mutate c rate g = .ok (c, g') := by
  have hn : ∀ g : Rng, ¬ g.seq 0 < rate := fun g => not_lt.mpr (hr.trans (g.lo 0))
  unfold Search.mutate Search.mutLayers
  simp only [hn, if_false, Outcome.bind]
  cases hs : s.residual <;> simp

/-- C129, mutation stays within the options: a mutated configuration can be drawn, whatever the rate. -/
theorem C129_mutation {s : Search} (hv : Valid s) {c : Config} (hc : Drawn s c) (rate : ℝ) (g : Rng) : ∃ c' g', s.mutate c rate g = .ok (c', g') ∧ Drawn s c' := mutate_ok hv hc rate g

/-- C129, violated: an empty population is read out of bounds; without generations, a result never assigned is read. -/
theorem C129_empty_violated (s : Search) (draw : BitVec 32 → ℕ → ℝ) (g : Rng) (rate : ℝ) (mc : Bool) (trials : ℕ) :
    (∀ n, s.evolutionary draw g 0 (n + 1) rate mc trials = .ub) ∧ (∀ size, s.evolutionary draw g size 0 rate mc trials = .ub) := by
  constructor
  · intro n
    simp [Search.evolutionary, Search.population, Search.evolve, Search.generation, Search.evalAll, Outcome.bind]
  · intro size
    unfold Search.evolutionary
    cases s.population size g with
    | ub => rfl
    | ok x => rfl

/-! ### Cases -/

example (g : Rng) : ∃ c g', demo.randomConfig g = .ok (c, g') ∧ Drawn demo c :=
  random_ok ⟨by decide, by decide, by decide, by intro d hd; simp [demo] at hd; rcases hd with rfl | rfl <;> norm_num, by simp [demo], by simp [demo], by simp [demo]⟩ g
example : Drawn demo ⟨[4, 32, 64, 3], 1 / 2, true, .full⟩ := ⟨⟨[32, 64], by simp, by simp [demo], by simp [demo], by simp [demo], by simp [demo], by simp [demo]⟩, by simp [demo]⟩
example (draw : BitVec 32 → ℕ → ℝ) : EInv demo draw false 50 (.start demo) :=
  ⟨by simp [demo, Progress.start], by simp [demo, Progress.start], by simp [demo, Progress.start, Tested.get], by simp [demo, Progress.start, Tested.get], Or.inl ⟨rfl, rfl⟩⟩

end Verif.AutoSearch
