import Verif.Props.AutoSearch
/-!
C127: grid search; C128: random search.
-/
namespace Verif.AutoSearch
open Verif.ArchTester (Env Prot Result)
open Classical

/-! ### Specification -/

/-- What holds of the configurations tested so far: their dropouts are among the options, and every preservation is positive. -/
def Sound (s : Search) : Prop := (∀ q ∈ s.tested, q.1.dropout ∈ s.dropouts) ∧ ∀ c : Config, c.dropout ∈ s.dropouts → ∀ r, Tested.get s.tested c = some r → 0 < r.pres

/-- `f` reports configuration `c` with result `r`. -/
def Reports (f : Found) (c : Config) (r : Result) : Prop :=
  f.config = c ∧ f.base = r.base ∧ f.rad = r.rad ∧ f.pres = r.pres ∧ f.baseDev = r.baseDev ∧ f.radDev = r.radDev ∧ f.presDev = r.presDev ∧ f.trials = r.trials

/-! ### Lemmas -/

theorem weights_offered {s : Search} (hv : Valid s) {c : Config} (hc : Offered s c) : ArchTester.weights c.layers ≠ 0 := by
  obtain ⟨h, h1, h2, h3, -⟩ := hc
  match h, h1 with
  | w :: h, _ =>
    rw [h3]
    simp only [List.cons_append, ArchTester.weights]
    have hw := hv.widths w (h2 w (by simp))
    have hlt : s.input * w < 2 ^ 64 := by
      calc s.input * w < 2 ^ 32 * 2 ^ 32 := Nat.mul_lt_mul'' hv.input.2 hw.2
        _ = 2 ^ 64 := by norm_num
    rw [Nat.mod_eq_of_lt hlt]
    have := Nat.mul_pos hv.input.1 hw.1
    omega

theorem dropout_offered {s : Search} {c : Config} (hc : Offered s c) : c.dropout ∈ s.dropouts := by
  obtain ⟨_, -, -, -, h, -⟩ := hc; exact h

theorem test_total {s : Search} (hv : Valid s) (draw : BitVec 32 → ℕ → ℝ) {c : Config} (hc : Offered s c) {mc : Bool} {trials : ℕ} (ht : mc = true → 0 < trials) :
    ∃ r, s.testConfig draw c mc trials = .ok r ∧ 0 < r.pres ∧ r.pres ≤ 100 := by
  have hw := weights_offered hv hc
  have hd := hv.dropouts _ (dropout_offered hc)
  let t : ArchTester.Tester := ArchTester.Tester.new [] [] [] [] 0 0 none
  obtain ⟨x, hx, -, -, -, -, -, -, -, -, -, -, -, h1, h2, -⟩ := ArchTester.C120_range (draw := draw) t c.residual c.prot 0 s.env 0 hw hd.1 hd.2
  cases mc with
  | false => exact ⟨x, hx, h1, h2⟩
  | true =>
    obtain ⟨l, -, -, m, t', hm, -⟩ := ArchTester.C122_monte_carlo (draw := draw) t c.residual c.prot 0 s.env 0 hw hd.1 hd.2 (ht rfl)
    obtain ⟨-, -, -, -, h3, h4, -⟩ := ArchTester.C122_range (draw := draw) t c.residual c.prot 0 s.env 0 hw hd.1 hd.2 (ht rfl) hm hx
    refine ⟨m, ?_, h3, h4⟩
    unfold ArchTester.Tester.monteCarlo ArchTester.Tester.trials at hm
    unfold Search.testConfig
    rw [if_pos rfl]
    simp only [ArchTester.Tester.test] at hm
    cases hcol : ArchTester.collect ((List.range trials).map fun i => ArchTester.test draw c.layers c.dropout c.residual c.prot s.env (BitVec.ofNat 32 i)) with
    | ub => rw [hcol] at hm; cases hm
    | ok l =>
      rw [hcol] at hm
      simp only [Outcome.bind, Outcome.ok.injEq, Prod.mk.injEq] at hm ⊢
      exact hm.1

theorem grid_offered {s : Search} {c : Config} (hc : c ∈ s.allConfigs) : Offered s c := by
  by_cases hk : s.hidden = 0
  · obtain ⟨h2, h3, h4⟩ := (C125_free s hk c).mp hc
    rcases h4 with ⟨w, hw, h5, h6⟩ | ⟨w1, hw1, w2, hw2, -, h5, h6⟩
    · exact ⟨[w], by simp, by simp [hw], h5, h2, h3, by simp [h6]⟩
    · exact ⟨[w1, w2], by simp, by simp [hw1, hw2], h5, h2, h3, h6⟩
  · obtain ⟨h, h1, h2, h3, h4, h5, h6⟩ := (C125_fixed s (by omega) c).mp hc
    exact ⟨h, by intro e; rw [e] at h1; simp at h1; omega, h2, h3, h4, h5, fun hr => (h6 hr).1⟩

theorem grid_nonempty {s : Search} (hv : Valid s) : s.allConfigs ≠ [] := by
  obtain ⟨w, hw⟩ := List.exists_mem_of_ne_nil _ hv.someWidth
  obtain ⟨d, hd⟩ := List.exists_mem_of_ne_nil _ hv.someDropout
  obtain ⟨p, hp⟩ := List.exists_mem_of_ne_nil _ hv.someProt
  by_cases hk : s.hidden = 0
  · exact List.ne_nil_of_mem ((C125_free s hk ⟨[s.input, w, s.output], d, false, p⟩).mpr ⟨hd, hp, Or.inl ⟨w, hw, rfl, rfl⟩⟩)
  · exact List.ne_nil_of_mem ((C125_fixed s (by omega) ⟨s.input :: List.replicate s.hidden w ++ [s.output], d, false, p⟩).mpr
      ⟨List.replicate s.hidden w, by simp, by simp only [List.mem_replicate]; rintro x ⟨-, rfl⟩; exact hw, rfl, hd, hp, by simp⟩)

theorem consider_tested (p : Progress) (c : Config) (r : Result) : (p.consider c r).tested = p.tested := by unfold Progress.consider; split <;> rfl
theorem consider_ge (p : Progress) (c : Config) (r : Result) : p.bestPres ≤ (p.consider c r).bestPres ∧ r.pres ≤ (p.consider c r).bestPres := by
  unfold Progress.consider
  split
  · rename_i h; exact ⟨h.le, le_rfl⟩
  · rename_i h; exact ⟨le_rfl, not_lt.mp h⟩
theorem consider_best (p : Progress) (c : Config) (r : Result) : ((p.consider c r).best = p.best ∧ (p.consider c r).bestPres = p.bestPres) ∨ ((p.consider c r).best = some (c, r) ∧ (p.consider c r).bestPres = r.pres) := by
  unfold Progress.consider
  split
  · exact Or.inr ⟨rfl, rfl⟩
  · exact Or.inl ⟨rfl, rfl⟩

theorem gridLoop_ok {s : Search} (hv : Valid s) (ha : Apart s.dropouts) (draw : BitVec 32 → ℕ → ℝ) {mc : Bool} {trials : ℕ} (ht : mc = true → 0 < trials) :
    ∀ (L : List Config) (p : Progress), (∀ c ∈ L, Offered s c) → (∀ q ∈ p.tested, q.1.dropout ∈ s.dropouts) →
    ∃ q, s.gridLoop draw mc trials L p = .ok q ∧ (∀ x ∈ q.tested, x.1.dropout ∈ s.dropouts) ∧
      (∀ c ∈ L, ∃ r, s.testConfig draw c mc trials = .ok r ∧ Tested.get q.tested c = some r ∧ r.pres ≤ q.bestPres) ∧
      (∀ c : Config, c.dropout ∈ s.dropouts → c ∉ L → Tested.get q.tested c = Tested.get p.tested c) ∧ p.bestPres ≤ q.bestPres ∧
      ((q.best = p.best ∧ q.bestPres = p.bestPres) ∨ ∃ c ∈ L, ∃ r, s.testConfig draw c mc trials = .ok r ∧ q.best = some (c, r) ∧ q.bestPres = r.pres)
  | [], p, _, hk => ⟨p, rfl, hk, by simp, fun _ _ _ => rfl, le_rfl, Or.inl ⟨rfl, rfl⟩⟩
  | c :: L, p, hL, hk => by
    obtain ⟨r, hr, -⟩ := test_total hv draw (hL c (by simp)) ht
    have hcd := dropout_offered (hL c (by simp))
    obtain ⟨q, h1, h2, h3, h4, h5, h6⟩ := gridLoop_ok hv ha draw ht L (Progress.consider { p with tested := Tested.set p.tested c r } c r)
      (fun x hx => hL x (by simp [hx])) (by rw [consider_tested]; exact set_keys hk hcd)
    have hge := consider_ge { p with tested := Tested.set p.tested c r } c r
    refine ⟨q, ?_, h2, ?_, ?_, hge.1.trans h5, ?_⟩
    · simp only [Search.gridLoop, Search.gridStep, hr, Outcome.bind]; exact h1
    · intro x hx
      by_cases hxL : x ∈ L
      · exact h3 x hxL
      · rcases List.mem_cons.mp hx with rfl | hx'
        · refine ⟨r, hr, ?_, hge.2.trans h5⟩
          rw [h4 x hcd hxL, consider_tested]
          show Tested.get (Tested.set p.tested x r) x = _
          rw [get_set ha hk hcd hcd, if_pos rfl]
        · exact absurd hx' hxL
    · intro x hx hxn
      rw [h4 x hx (fun h => hxn (by simp [h])), consider_tested]
      show Tested.get (Tested.set p.tested c r) x = _
      rw [get_set ha hk hcd hx, if_neg (fun h => hxn (by simp [h]))]
    · rcases h6 with ⟨e1, e2⟩ | ⟨x, hx, y, e0, e1, e2⟩
      · rcases consider_best { p with tested := Tested.set p.tested c r } c r with ⟨f1, f2⟩ | ⟨f1, f2⟩
        · exact Or.inl ⟨e1.trans f1, e2.trans f2⟩
        · exact Or.inr ⟨c, by simp, r, hr, e1.trans f1, e2.trans f2⟩
      · exact Or.inr ⟨x, by simp [hx], y, e0, e1, e2⟩

/-! ### C127 -/

/-- C127, grid search: with usable options the search returns; the configuration reported is in the grid with its own test result, no configuration of the grid has a higher preservation, the number of iterations is the size of the grid, the results of the whole grid can be looked up afterwards, and earlier results outside the grid are kept. -/
theorem C127_grid {s : Search} (hv : Valid s) (ha : Apart s.dropouts) (hs : Sound s) (draw : BitVec 32 → ℕ → ℝ) {mc : Bool} {trials : ℕ} (ht : mc = true → 0 < trials) :
    ∃ f s', s.findOptimal draw mc trials = .ok (f, s') ∧ (∃ c ∈ s.allConfigs, ∃ r, s.testConfig draw c mc trials = .ok r ∧ Reports f c r) ∧
      (∀ c ∈ s.allConfigs, ∃ r, s.testConfig draw c mc trials = .ok r ∧ Tested.get s'.tested c = some r ∧ r.pres ≤ f.pres) ∧
      f.iterations = s.allConfigs.length ∧ (∀ c : Config, c.dropout ∈ s.dropouts → c ∉ s.allConfigs → Tested.get s'.tested c = Tested.get s.tested c) ∧
      s' = { s with tested := s'.tested } ∧ Sound s' := by
  obtain ⟨q, h1, h2, h3, h4, h5, h6⟩ := gridLoop_ok hv ha draw ht s.allConfigs (.start s) (fun c hc => grid_offered hc) hs.1
  obtain ⟨c0, hc0⟩ := List.exists_mem_of_ne_nil _ (grid_nonempty hv)
  obtain ⟨r0, hr0, -, hle0⟩ := h3 c0 hc0
  obtain ⟨x0, hx0, hpos0, -⟩ := test_total hv draw (grid_offered hc0) ht
  have hpos : 0 < q.bestPres := by
    rw [hr0, Outcome.ok.injEq] at hx0
    subst hx0
    exact lt_of_lt_of_le hpos0 hle0
  rcases h6 with ⟨-, e2⟩ | ⟨c, hc, r, e0, e1, e2⟩
  · rw [e2] at hpos; exact absurd hpos (lt_irrefl _)
  · refine ⟨⟨c, r.base, r.rad, r.pres, s.allConfigs.length, r.baseDev, r.radDev, r.presDev, r.trials⟩, { s with tested := q.tested }, ?_, ⟨c, hc, r, e0, rfl, rfl, rfl, rfl, rfl, rfl, rfl, rfl⟩, ?_, rfl, h4, rfl, h2, ?_⟩
    · unfold Search.findOptimal
      rw [h1]
      simp only [Outcome.bind, Progress.found, e1]
    · intro x hx
      obtain ⟨y, g1, g2, g3⟩ := h3 x hx
      exact ⟨y, g1, g2, e2 ▸ g3⟩
    · intro x hx y hy
      by_cases hxg : x ∈ s.allConfigs
      · obtain ⟨z, g1, g2, -⟩ := h3 x hxg
        obtain ⟨z', g3, g4, -⟩ := test_total hv draw (grid_offered hxg) ht
        rw [g1, Outcome.ok.injEq] at g3
        have : some z = some y := g2.symm.trans hy
        rw [Option.some.injEq] at this
        rw [← this, g3]; exact g4
      · exact hs.2 x hx y ((h4 x hx hxg).symm.trans hy)

/-- C127, sizes: the input size is the number of data values per label, the output size the number of different labels if there are 2 to 99, else 1; nothing has been tested. -/
theorem C127_new (data labels : List ℝ) (hl : labels ≠ []) (e : Env) (ws : List ℕ) (ds : List ℝ) :
    ∃ s, Search.new data labels e ws ds = .ok s ∧ s.input = data.length / labels.length ∧ (1 < labels.toFinset.card ∧ labels.toFinset.card < 100 → s.output = labels.toFinset.card) ∧
      (¬ (1 < labels.toFinset.card ∧ labels.toFinset.card < 100) → s.output = 1) ∧ s.widths = ws ∧ s.dropouts = ds ∧ s.env = e ∧ s.hidden = 0 ∧ s.residual = true ∧ Sound s := by
  refine ⟨_, by unfold Search.new; rw [if_neg (by simpa using hl)], rfl, ?_, ?_, rfl, rfl, rfl, rfl, rfl, ?_⟩
  · intro h; rw [List.card_toFinset] at h ⊢; exact if_pos h
  · intro h; rw [List.card_toFinset] at h; exact if_neg h
  · exact ⟨by simp, fun c _ r h => by simp [Tested.get] at h⟩

/-- C127, violated: constructing a search without labels divides by zero. -/
theorem C127_labels_violated (data : List ℝ) (e : Env) (ws : List ℕ) (ds : List ℝ) : Search.new data [] e ws ds = .ub := rfl

/-- C127, violated: if no width, no dropout or no protection level is offered, the search reads a result that was never assigned (undefined). -/
theorem C127_empty_violated (s : Search) (draw : BitVec 32 → ℕ → ℝ) (mc : Bool) (trials : ℕ) (h : s.widths = [] ∨ s.dropouts = [] ∨ s.prots = []) : s.findOptimal draw mc trials = .ub := by
  have he : s.allConfigs = [] := by
    apply List.eq_nil_iff_forall_not_mem.mpr
    intro c hc
    obtain ⟨hh, h1, h2, h3, h4, h5, -⟩ := grid_offered hc
    rcases h with h | h | h
    · match hh, h1 with
      | w :: _, _ => have := h2 w (by simp); rw [h] at this; simp at this
    · rw [h] at h4; simp at h4
    · rw [h] at h5; simp at h5
  unfold Search.findOptimal
  rw [he]; rfl

/-- C127, violated: a Monte Carlo search with no trials is undefined, whatever the options. -/
theorem C127_no_trials_violated (s : Search) (draw : BitVec 32 → ℕ → ℝ) : s.findOptimal draw true 0 = .ub := by
  have ht : ∀ c : Config, s.testConfig draw c true 0 = .ok Result.zero := fun c => rfl
  have key : ∀ (L : List Config) (p : Progress), p.best = none → p.bestPres = 0 → ∃ q, s.gridLoop draw true 0 L p = .ok q ∧ q.best = none := by
    intro L
    induction L with
    | nil => intro p h _; exact ⟨p, rfl, h⟩
    | cons c L ih =>
      intro p h1 h2
      simp only [Search.gridLoop, Search.gridStep, ht, Outcome.bind]
      have : Progress.consider { p with tested := Tested.set p.tested c Result.zero } c Result.zero = { p with tested := Tested.set p.tested c Result.zero } := by
        unfold Progress.consider
        rw [if_neg]
        simp only [h2, Result.zero]; exact lt_irrefl _
      rw [this]
      exact ih _ h1 h2
  obtain ⟨q, h1, h2⟩ := key s.allConfigs (.start s) rfl rfl
  unfold Search.findOptimal
  rw [h1]
  simp only [Outcome.bind, Progress.found, h2]

/-! ### C128 -/

theorem pick_ok {α : Type} {l : List α} (hl : l ≠ []) (g : Rng) : ∃ x ∈ l, pick l g = .ok (x, g.next) := by
  have hn : 0 < l.length := List.length_pos_of_ne_nil hl
  have hi : ⌊g.seq 0 * l.length⌋₊ < l.length := by
    rw [Nat.floor_lt (mul_nonneg (g.lo 0) (by positivity))]
    have : (0 : ℝ) < l.length := by exact_mod_cast hn
    nlinarith [g.hi 0]
  refine ⟨l[⌊g.seq 0 * l.length⌋₊], List.getElem_mem hi, ?_⟩
  unfold pick
  rw [List.getElem?_eq_getElem hi]

theorem randLayers_ok {ws : List ℕ} (hw : ws ≠ []) : ∀ (n : ℕ) (g : Rng), ∃ h g', randLayers ws n g = .ok (h, g') ∧ h.length = n ∧ ∀ w ∈ h, w ∈ ws
  | 0, g => ⟨[], g, rfl, rfl, by simp⟩
  | n + 1, g => by
    obtain ⟨x, hx, h1⟩ := pick_ok hw g
    obtain ⟨h, g', h2, h3, h4⟩ := randLayers_ok hw n g.next
    refine ⟨x :: h, g', by simp only [randLayers, h1, Outcome.bind, h2], by simp [h3], ?_⟩
    intro w hw'
    rcases List.mem_cons.mp hw' with rfl | hw'
    exacts [hx, h4 w hw']

/-- Configurations the random search draws: the set depth, or one to three hidden layers. -/
def Drawn (s : Search) (c : Config) : Prop := Offered s c ∧ if s.hidden = 0 then 3 ≤ c.layers.length ∧ c.layers.length ≤ 5 else c.layers.length = s.hidden + 2

theorem random_ok {s : Search} (hv : Valid s) (g : Rng) : ∃ c g', s.randomConfig g = .ok (c, g') ∧ Drawn s c := by
  have : ∃ n g1, (if s.hidden > 0 then .ok (s.hidden, g) else pick [1, 2, 3] g : Outcome (ℕ × Rng)) = .ok (n, g1) ∧ 0 < n ∧ if s.hidden = 0 then n ≤ 3 else n = s.hidden := by
    by_cases hs : s.hidden = 0
    · obtain ⟨n, hn, h1⟩ := pick_ok (l := [1, 2, 3]) (by simp) g
      refine ⟨n, g.next, by rw [if_neg (by omega), h1], ?_, ?_⟩
      · simp at hn; omega
      · rw [if_pos hs]; simp at hn; omega
    · exact ⟨s.hidden, g, by rw [if_pos (by omega)], by omega, by rw [if_neg hs]⟩
  obtain ⟨n, g1, h1, hn, hk⟩ := this
  obtain ⟨h, g2, h2, hlen, hw⟩ := randLayers_ok hv.someWidth n g1
  obtain ⟨d, hd, h3⟩ := pick_ok hv.someDropout g2
  have : ∃ r g3, (if s.residual then pick [false, true] g2.next else .ok (false, g2.next) : Outcome (Bool × Rng)) = .ok (r, g3) ∧ (r = true → s.residual = true) := by
    by_cases hs : s.residual = true
    · obtain ⟨r, -, h4⟩ := pick_ok (l := [false, true]) (by simp) g2.next
      exact ⟨r, _, by rw [if_pos hs, h4], fun _ => hs⟩
    · exact ⟨false, _, by rw [if_neg hs], by simp⟩
  obtain ⟨r, g3, h4, hr⟩ := this
  obtain ⟨p, hp, h5⟩ := pick_ok hv.someProt g3
  refine ⟨⟨s.input :: h ++ [s.output], d, r, p⟩, g3.next, ?_, ⟨h, ?_, hw, rfl, hd, hp, hr⟩, ?_⟩
  · unfold Search.randomConfig
    rw [h1]; simp only [Outcome.bind]
    rw [h2]; simp only [Outcome.bind]
    rw [h3]; simp only [Outcome.bind]
    rw [h4]; simp only [Outcome.bind]
    rw [h5]
  · rintro rfl; simp at hlen; omega
  · by_cases hs : s.hidden = 0
    · rw [if_pos hs] at hk ⊢; simp [hlen]; omega
    · rw [if_neg hs] at hk ⊢; simp [hlen, hk]

/-- The state of a random search that started from `s`. -/
structure RInv (s : Search) (draw : BitVec 32 → ℕ → ℝ) (mc : Bool) (trials : ℕ) (st : RandState) : Prop where
  keys : ∀ q ∈ st.prog.tested, q.1.dropout ∈ s.dropouts
  count : st.prog.tested.length = s.tested.length + st.i
  old : ∀ c : Config, c.dropout ∈ s.dropouts → ∀ r, Tested.get s.tested c = some r → Tested.get st.prog.tested c = some r
  new : ∀ c : Config, c.dropout ∈ s.dropouts → Tested.get s.tested c = none → ∀ r, Tested.get st.prog.tested c = some r → Drawn s c ∧ s.testConfig draw c mc trials = .ok r ∧ r.pres ≤ st.prog.bestPres
  best : (st.i = 0 ∧ st.prog.best = none ∧ st.prog.bestPres = 0) ∨
    ∃ c r, st.prog.best = some (c, r) ∧ st.prog.bestPres = r.pres ∧ c.dropout ∈ s.dropouts ∧ Tested.get s.tested c = none ∧ Tested.get st.prog.tested c = some r

theorem randStep_ok {s : Search} (hv : Valid s) (ha : Apart s.dropouts) (draw : BitVec 32 → ℕ → ℝ) {mc : Bool} {trials : ℕ} (ht : mc = true → 0 < trials) {st : RandState} (h : RInv s draw mc trials st) :
    ∃ st', s.randStep draw mc trials st = .ok st' ∧ RInv s draw mc trials st' ∧ (st'.i = st.i ∨ st'.i = st.i + 1) := by
  obtain ⟨c, g', h1, hd⟩ := random_ok hv st.rng
  have hcd := dropout_offered hd.1
  unfold Search.randStep
  rw [h1]
  simp only [Outcome.bind]
  cases hg : Tested.get st.prog.tested c with
  | some r0 => exact ⟨_, rfl, ⟨h.keys, h.count, h.old, h.new, h.best⟩, Or.inl rfl⟩
  | none =>
    obtain ⟨r, hr, hpos, -⟩ := test_total hv draw hd.1 ht
    simp only [hr]
    have hge := consider_ge { st.prog with tested := Tested.set st.prog.tested c r } c r
    have hnone : Tested.get s.tested c = none := by
      cases hx : Tested.get s.tested c with
      | none => rfl
      | some y => rw [h.old c hcd y hx] at hg; cases hg
    refine ⟨_, rfl, ⟨?_, ?_, ?_, ?_, ?_⟩, Or.inr rfl⟩
    · simp only [consider_tested]; exact set_keys h.keys hcd
    · simp only [consider_tested]
      rw [set_length_new hg, h.count]; omega
    · intro x hx y hy
      simp only [consider_tested]
      rw [get_set ha h.keys hcd hx]
      by_cases hxc : c = x
      · subst hxc; rw [hnone] at hy; cases hy
      · rw [if_neg hxc]; exact h.old x hx y hy
    · intro x hx hxn y hy
      simp only [consider_tested] at hy
      rw [get_set ha h.keys hcd hx] at hy
      by_cases hxc : c = x
      · subst hxc
        rw [if_pos rfl, Option.some.injEq] at hy
        subst hy
        exact ⟨hd, hr, hge.2⟩
      · rw [if_neg hxc] at hy
        obtain ⟨g1, g2, g3⟩ := h.new x hx hxn y hy
        exact ⟨g1, g2, g3.trans hge.1⟩
    · right
      have hself : Tested.get (Tested.set st.prog.tested c r) c = some r := by rw [get_set ha h.keys hcd hcd, if_pos rfl]
      rcases consider_best { st.prog with tested := Tested.set st.prog.tested c r } c r with ⟨f1, f2⟩ | ⟨f1, f2⟩
      · rcases h.best with ⟨-, -, b3⟩ | ⟨x, y, b1, b2, b3, b4, b5⟩
        · have hle := hge.2
          rw [f2] at hle
          simp only [b3] at hle
          linarith
        · refine ⟨x, y, f1.trans b1, f2.trans b2, b3, b4, ?_⟩
          simp only [consider_tested]
          rw [get_set ha h.keys hcd b3]
          by_cases hxc : c = x
          · subst hxc; rw [hg] at b5; cases b5
          · rw [if_neg hxc]; exact b5
      · exact ⟨c, r, f1, f2, hcd, hnone, by simp only [consider_tested]; exact hself⟩

theorem randLoop_ok {s : Search} (hv : Valid s) (ha : Apart s.dropouts) (draw : BitVec 32 → ℕ → ℝ) {mc : Bool} {trials : ℕ} (ht : mc = true → 0 < trials) (max : ℕ) :
    ∀ (fuel : ℕ) (st : RandState), RInv s draw mc trials st → st.i ≤ max → ∀ o, s.randLoop draw max mc trials fuel st = some o → ∃ st', o = .ok st' ∧ RInv s draw mc trials st' ∧ st'.i = max
  | 0, st, h, hi, o, ho => by
    unfold Search.randLoop at ho
    split at ho
    · cases ho
    · simp only [Option.some.injEq] at ho; exact ⟨st, ho.symm, h, by omega⟩
  | fuel + 1, st, h, hi, o, ho => by
    unfold Search.randLoop at ho
    split at ho
    · rename_i hlt
      obtain ⟨st', h1, h2, h3⟩ := randStep_ok hv ha draw ht h
      rw [h1] at ho
      exact randLoop_ok hv ha draw ht max fuel st' h2 (by omega) o ho
    · simp only [Option.some.injEq] at ho; exact ⟨st, ho.symm, h, by omega⟩

theorem start_inv {s : Search} (hs : Sound s) (draw : BitVec 32 → ℕ → ℝ) (mc : Bool) (trials : ℕ) (g : Rng) : RInv s draw mc trials ⟨0, g, .start s⟩ :=
  ⟨hs.1, rfl, fun _ _ _ h => h, fun c _ h r h' => (by rw [show (Progress.start s).tested = s.tested from rfl, h] at h'; cases h'), Or.inl ⟨rfl, rfl, rfl⟩⟩

/-- C128, random search: whenever it returns, for whatever random numbers, exactly the number of iterations asked for were new configurations made of the options, none tested before; the one reported is new and has the highest preservation of them; earlier results are kept. -/
theorem C128_random {s : Search} (hv : Valid s) (ha : Apart s.dropouts) (hs : Sound s) (draw : BitVec 32 → ℕ → ℝ) {mc : Bool} {trials : ℕ} (ht : mc = true → 0 < trials) (g : Rng) (fuel : ℕ) {max : ℕ} (hm : 0 < max)
    {o : Outcome (Found × Search × Rng)} (ho : s.randomSearch draw g fuel max mc trials = some o) :
    ∃ f s' g', o = .ok (f, s', g') ∧ f.iterations = max ∧ s'.tested.length = s.tested.length + max ∧
      (∃ c r, Reports f c r ∧ Drawn s c ∧ s.testConfig draw c mc trials = .ok r ∧ Tested.get s.tested c = none ∧ Tested.get s'.tested c = some r) ∧
      (∀ c : Config, c.dropout ∈ s.dropouts → Tested.get s.tested c = none → ∀ r, Tested.get s'.tested c = some r → Drawn s c ∧ s.testConfig draw c mc trials = .ok r ∧ r.pres ≤ f.pres) ∧
      (∀ c : Config, c.dropout ∈ s.dropouts → ∀ r, Tested.get s.tested c = some r → Tested.get s'.tested c = some r) ∧ s' = { s with tested := s'.tested } ∧ Sound s' := by
  unfold Search.randomSearch at ho
  cases hl : s.randLoop draw max mc trials fuel ⟨0, g, .start s⟩ with
  | none => rw [hl] at ho; cases ho
  | some o' =>
    rw [hl] at ho
    obtain ⟨st, rfl, hinv, hi⟩ := randLoop_ok hv ha draw ht max fuel _ (start_inv hs draw mc trials g) (Nat.zero_le _) o' hl
    rcases hinv.best with ⟨b1, -, -⟩ | ⟨c, r, b1, b2, b3, b4, b5⟩
    · omega
    · simp only [Option.map_some, Outcome.bind, Progress.found, b1, Option.some.injEq] at ho
      obtain ⟨n1, n2, n3⟩ := hinv.new c b3 b4 r b5
      refine ⟨_, _, _, ho.symm, rfl, ?_, ⟨c, r, ⟨rfl, rfl, rfl, rfl, rfl, rfl, rfl, rfl⟩, n1, n2, b4, b5⟩, ?_, hinv.old, rfl, hinv.keys, ?_⟩
      · show st.prog.tested.length = _
        rw [hinv.count, hi]
      · intro x hx hxn y hy
        obtain ⟨k1, k2, k3⟩ := hinv.new x hx hxn y hy
        exact ⟨k1, k2, b2 ▸ k3⟩
      · intro x hx y hy
        cases hxo : Tested.get s.tested x with
        | none =>
          obtain ⟨k1, k2, -⟩ := hinv.new x hx hxo y hy
          obtain ⟨z, z1, z2, -⟩ := test_total hv draw k1.1 ht
          rw [k2, Outcome.ok.injEq] at z1
          rw [z1]; exact z2
        | some y' =>
          have e1 := hinv.old x hx y' hxo
          have : some y' = some y := e1.symm.trans hy
          rw [Option.some.injEq] at this
          rw [← this]; exact hs.2 x hx y' hxo

/-- C128, violated: once every configuration the search can draw has been tested, the search never returns, however many passes it makes and whatever the random numbers are. -/
theorem C128_hang_violated {s : Search} (hv : Valid s) (draw : BitVec 32 → ℕ → ℝ) (mc : Bool) (trials : ℕ) (hall : ∀ c, Drawn s c → Tested.get s.tested c ≠ none) {max : ℕ} (hm : 0 < max) (g : Rng) (fuel : ℕ) :
    s.randomSearch draw g fuel max mc trials = none := by
  have key : ∀ (fuel : ℕ) (st : RandState), st.prog.tested = s.tested → st.i = 0 → s.randLoop draw max mc trials fuel st = none := by
    intro fuel
    induction fuel with
    | zero => intro st _ h2; unfold Search.randLoop; rw [if_pos (by omega)]
    | succ n ih =>
      intro st h1 h2
      unfold Search.randLoop
      rw [if_pos (by omega)]
      obtain ⟨c, g', hc, hd⟩ := random_ok hv st.rng
      have : s.randStep draw mc trials st = .ok { st with rng := g' } := by
        unfold Search.randStep
        rw [hc]
        simp only [Outcome.bind]
        cases hg : Tested.get st.prog.tested c with
        | none => rw [h1] at hg; exact absurd hg (hall c hd)
        | some r => rfl
      rw [this]
      exact ih _ h1 h2
  unfold Search.randomSearch
  rw [key fuel _ rfl rfl]; rfl

/-- C128, violated: after a grid search with two or more hidden layers, a random search never returns. -/
theorem C128_after_grid_violated {s : Search} (hv : Valid s) (ha : Apart s.dropouts) (hs : Sound s) (hk : 2 ≤ s.hidden) (draw : BitVec 32 → ℕ → ℝ) {f : Found} {s' : Search} (h : s.findOptimal draw = .ok (f, s'))
    {max : ℕ} (hm : 0 < max) (g : Rng) (fuel : ℕ) : s'.randomSearch draw g fuel max = none := by
  obtain ⟨f1, s1, h1, -, h3, -, -, h6, -⟩ := C127_grid hv ha hs draw (mc := false) (trials := 50) (by simp)
  rw [h] at h1
  simp only [Outcome.ok.injEq, Prod.mk.injEq] at h1
  obtain ⟨-, rfl⟩ := h1
  have e : ∀ c, Drawn s' c → c ∈ s.allConfigs := by
    rintro c ⟨⟨hh, a1, a2, a3, a4, a5, a6⟩, a7⟩
    rw [h6] at a2 a3 a4 a5 a6 a7
    simp only at a2 a3 a4 a5 a6 a7
    rw [if_neg (by omega), a3] at a7
    simp at a7
    exact (C125_fixed s (by omega) c).mpr ⟨hh, a7, a2, a3, a4, a5, fun hr => ⟨a6 hr, hk⟩⟩
  apply C128_hang_violated _ draw false 50 _ hm
  · rw [h6]; exact ⟨hv.input, hv.output, hv.widths, hv.dropouts, hv.someWidth, hv.someDropout, hv.someProt⟩
  · intro c hc
    obtain ⟨r, -, hr, -⟩ := h3 c (e c hc)
    rw [hr]; simp

/-- C128, violated: no iterations at all is undefined behaviour. -/
theorem C128_zero_violated (s : Search) (draw : BitVec 32 → ℕ → ℝ) (g : Rng) (fuel : ℕ) (mc : Bool) (trials : ℕ) : s.randomSearch draw g fuel 0 mc trials = some .ub := by
  unfold Search.randomSearch
  cases fuel <;> simp [Search.randLoop, Outcome.bind, Progress.found, Progress.start]

/-! ### Cases -/

/-- A search with two hidden layers. -/
noncomputable def demo : Search := ⟨.mars, [32, 64], [3 / 10, 1 / 2], [.none, .full], 4, 3, 2, true, []⟩

example : Valid demo := ⟨by decide, by decide, by decide, by intro d hd; simp [demo] at hd; rcases hd with rfl | rfl <;> norm_num, by simp [demo], by simp [demo], by simp [demo]⟩
example : Apart demo.dropouts := by
  intro a ha b hb
  simp [demo] at ha hb
  rcases ha with rfl | rfl <;> rcases hb with rfl | rfl <;> first | exact Or.inl rfl | (right; rw [le_abs]; norm_num)
example : Sound demo := ⟨by simp [demo], fun c _ r h => by simp [demo, Tested.get] at h⟩
example : 2 ≤ demo.hidden := by decide
example : demo.allConfigs.length = 32 := by rw [C125_size demo (by decide)]; simp [demo]

end Verif.AutoSearch
