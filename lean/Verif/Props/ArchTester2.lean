import Verif.Props.ArchTester
import Mathlib.Algebra.Order.BigOperators.Group.List
import Mathlib.Algebra.BigOperators.Ring.List
import Mathlib.Tactic.FieldSimp
import Mathlib.Data.Nat.Log
/-!
C122: Monte Carlo tests; C123: width and dropout ranges; C124: results file.
-/
namespace Verif.ArchTester

/-! ### Specification -/

/-- Standard deviation: root of the mean square distance from the mean. -/
noncomputable def deviation (f : Result → ℝ) (l : List Result) : ℝ := Real.sqrt (mean (fun r => (f r - mean f l) ^ 2) l)

/-- Calls that record results. -/
inductive Op where
  | width (lo hi step : Int) (d : ℝ) (n : Int) (e : Env)
  | dropout (arch : List Int) (lo hi step : ℝ) (n : Int) (e : Env)
  | monteCarlo (arch : List ℕ) (d : ℝ) (r : Bool) (p : Prot) (n : Int) (e : Env) (trials : ℕ) (off : BitVec 32)

/-- One call. -/
noncomputable def Tester.step (t : Tester) (draw : BitVec 32 → ℕ → ℝ) : Op → Outcome Tester
  | .width lo hi s d n e => t.widthRange draw lo hi s d n e
  | .dropout a lo hi s n e => t.dropoutRange draw a lo hi s n e
  | .monteCarlo a d r p n e k off => (t.monteCarlo draw a d r p n e k off).bind fun x => .ok x.2

/-- `t` leads to `t'` by `n` calls without undefined behaviour. -/
inductive Run (draw : BitVec 32 → ℕ → ℝ) : ℕ → Tester → Tester → Prop
  | nil (t : Tester) : Run draw 0 t t
  | snoc (n : ℕ) (t u v : Tester) (o : Op) : Run draw n t u → u.step draw o = .ok v → Run draw (n + 1) t v

/-! ### Lemmas -/

theorem foldl_add (f : Result → ℝ) (l : List Result) (a : ℝ) : l.foldl (fun a r => a + f r) a = a + (l.map f).sum := by
  induction l generalizing a with
  | nil => simp
  | cons x l ih => rw [List.foldl_cons, ih, List.map_cons, List.sum_cons]; ring

theorem sumR_eq (f : Result → ℝ) (l : List Result) : sumR f l = (l.map f).sum := by
  rw [sumR, foldl_add, zero_add]

theorem mean_eq (f : Result → ℝ) (l : List Result) : sumR f l / l.length = mean f l := by rw [sumR_eq, mean]

theorem dev_eq (f : Result → ℝ) (l : List Result) : dev f l = deviation f l := by
  unfold dev deviation
  rw [mean_eq, mean_eq]

theorem mean_mono {f g : Result → ℝ} {l : List Result} (h : ∀ r ∈ l, f r ≤ g r) : mean f l ≤ mean g l := by
  unfold mean
  exact div_le_div_of_nonneg_right (List.sum_le_sum h) (by positivity)

theorem mean_const (c : ℝ) {l : List Result} (h : l ≠ []) : mean (fun _ => c) l = c := by
  have : (l.length : ℝ) ≠ 0 := by
    have := List.length_pos_of_ne_nil h
    positivity
  unfold mean
  simp only [List.map_const', List.sum_replicate, nsmul_eq_mul]
  field_simp

theorem sumN_const {f : Result → ℕ} {c : ℕ} (l : List Result) (h : ∀ r ∈ l, f r = c) (hc : l.length * c < 2 ^ 64) : sumN f l = l.length * c := by
  have key : ∀ (l : List Result) (a : ℕ), (∀ r ∈ l, f r = c) → a + l.length * c < 2 ^ 64 → l.foldl (fun a r => wrap (a + f r)) a = a + l.length * c := by
    intro l
    induction l with
    | nil => intro a _ _; simp
    | cons x l ih =>
      intro a h ha
      rw [List.length_cons, add_mul, one_mul] at ha
      have hx : wrap (a + f x) = a + c := by rw [h x (by simp)]; exact Nat.mod_eq_of_lt (by omega)
      rw [List.foldl_cons, hx, ih _ (fun r hr => h r (by simp [hr])) (by omega), List.length_cons, add_mul]; omega
  have := key l 0 h (by omega)
  rw [zero_add] at this
  exact this

theorem collect_ok : ∀ (l : List Result) , collect (l.map Outcome.ok) = .ok l
  | [] => rfl
  | x :: l => by simp only [List.map_cons, collect, Outcome.bind, collect_ok l]

theorem save_file (t : Tester) : t.save.file = t.file ++ t.results.map Result.line := by
  have : ∀ (l : List Result) (f : List Line), l.foldl (fun f r => f ++ [r.line]) f = f ++ l.map Result.line := by
    intro l
    induction l with
    | nil => simp
    | cons x l ih => intro f; rw [List.foldl_cons, ih]; simp
  exact this _ _

theorem step_add {draw : BitVec 32 → ℕ → ℝ} {t u : Tester} {o : Op} (h : t.step draw o = .ok u) : ∃ r, u = t.add r := by
  cases o with
  | width lo hi s d n e =>
    simp only [Tester.step, Tester.widthRange] at h
    cases hx : t.test draw [t.input, toSize lo, t.output] d false Prot.none n e with
    | ub => rw [hx] at h; cases h
    | ok r => rw [hx] at h; simp only [Outcome.bind, Outcome.ok.injEq] at h; exact ⟨r, h.symm⟩
  | dropout a lo hi s n e =>
    simp only [Tester.step, Tester.dropoutRange] at h
    cases hx : t.test draw (t.input :: a.map toSize ++ [t.output]) lo false Prot.none n e with
    | ub => rw [hx] at h; cases h
    | ok r => rw [hx] at h; simp only [Outcome.bind, Outcome.ok.injEq] at h; exact ⟨r, h.symm⟩
  | monteCarlo a d r p n e k off =>
    simp only [Tester.step, Tester.monteCarlo] at h
    cases hx : t.trials draw a d r p n e k off with
    | ub => rw [hx] at h; cases h
    | ok l => rw [hx] at h; simp only [Outcome.bind, Outcome.ok.injEq] at h; exact ⟨_, h.symm⟩

/-! ### C122 -/

/-- C122, seeds: trials with different numbers get different seeds for the random engine, whatever is tested. -/
theorem C122_seeds (arch : List ℕ) (d : ℝ) (r : Bool) (p : Prot) (e : Env) {i j : ℕ} (hi : i < 2 ^ 32) (hj : j < 2 ^ 32) (h : i ≠ j) :
    seed arch d r p e (BitVec.ofNat 32 i) ≠ seed arch d r p e (BitVec.ofNat 32 j) := by
  unfold seed mix
  generalize seed0 arch d r p e = s
  intro hs
  have key : ∀ t : BitVec 32, (s ^^^ (t.setWidth 64 + 0x9e3779b9#64 + (s <<< 6) + (s >>> 2))).setWidth 32 =
      s.setWidth 32 ^^^ (t + (0x9e3779b9#64).setWidth 32 + (s <<< 6).setWidth 32 + (s >>> 2).setWidth 32) := by
    intro t
    rw [BitVec.setWidth_xor, BitVec.setWidth_add _ _ (by decide), BitVec.setWidth_add _ _ (by decide), BitVec.setWidth_add _ _ (by decide)]
    congr 4
    simp
  rw [key, key, BitVec.xor_right_inj, BitVec.add_left_inj, BitVec.add_left_inj, BitVec.add_left_inj] at hs
  apply h
  have := congrArg BitVec.toNat hs
  rwa [BitVec.toNat_ofNat, BitVec.toNat_ofNat, Nat.mod_eq_of_lt hi, Nat.mod_eq_of_lt hj] at this

/-- C122, Monte Carlo: with at least one trial the result carries the number of trials, what was tested, and the mean and the standard deviation of the accuracies over trials 0 … n−1, each of which is a test with its own number; the result is recorded. -/
theorem C122_monte_carlo {draw : BitVec 32 → ℕ → ℝ} (t : Tester) {arch : List ℕ} {d : ℝ} (r : Bool) (p : Prot) (k : Int) (e : Env) (off : BitVec 32) (hw : weights arch ≠ 0) (h0 : 0 ≤ d) (h1 : d ≤ 1) {n : ℕ} (hn : 0 < n) :
    ∃ l : List Result, l.length = n ∧ (∀ i (h : i < l.length), t.test draw arch d r p k e (BitVec.ofNat 32 i) = .ok l[i]) ∧
    ∃ m t', t.monteCarlo draw arch d r p k e n off = .ok (m, t') ∧ t'.results = t.results ++ [m] ∧ m.trials = n ∧
      m.layers = arch ∧ m.dropout = d ∧ m.residual = r ∧ m.prot = p ∧ m.env = e ∧
      m.base = mean Result.base l ∧ m.rad = mean Result.rad l ∧ m.pres = mean Result.pres l ∧ m.time = mean Result.time l ∧
      m.baseDev = deviation Result.base l ∧ m.radDev = deviation Result.rad l ∧ m.presDev = deviation Result.pres l := by
  have hall : ∀ i : ℕ, ∃ x, t.test draw arch d r p k e (BitVec.ofNat 32 i) = .ok x ∧ x.layers = arch ∧ x.dropout = d ∧ x.residual = r ∧ x.prot = p ∧ x.env = e := by
    intro i
    obtain ⟨x, h2, h3, h4, h5, h6, h7, _⟩ := C120_range (draw := draw) t r p k e (BitVec.ofNat 32 i) hw h0 h1
    exact ⟨x, h2, h3, h4, h5, h6, h7⟩
  choose f hf using hall
  have ht : t.trials draw arch d r p k e n off = .ok ((List.range n).map f) := by
    unfold Tester.trials
    have : ((List.range n).map fun i => t.test draw arch d r p k e (BitVec.ofNat 32 i)) = ((List.range n).map f).map Outcome.ok := by
      rw [List.map_map]
      exact List.map_congr_left fun i _ => (hf i).1
    rw [this, collect_ok]
  refine ⟨(List.range n).map f, by simp, ?_, ?_⟩
  · intro i h
    rw [(hf i).1]; simp
  · obtain ⟨m, rfl⟩ : ∃ m, n = m + 1 := ⟨n - 1, by omega⟩
    have hc : (List.range (m + 1)).map f = f 0 :: ((List.range m).map fun i => f (i + 1)) := by
      rw [List.range_succ_eq_map]; simp [List.map_map, Function.comp_def]
    have hlen : ((List.range (m + 1)).map f).length = m + 1 := by simp
    unfold Tester.monteCarlo
    rw [ht]
    generalize hl : (List.range (m + 1)).map f = l at *
    subst hc
    obtain ⟨-, a1, a2, a3, a4, a5⟩ := hf 0
    refine ⟨_, _, rfl, rfl, hlen, a1, a2, a3, a4, a5, ?_, ?_, ?_, ?_, ?_, ?_, ?_⟩
    · exact mean_eq _ _
    · exact mean_eq _ _
    · exact mean_eq _ _
    · exact mean_eq _ _
    · exact dev_eq _ _
    · exact dev_eq _ _
    · exact dev_eq _ _

theorem det_indep {draw : BitVec 32 → ℕ → ℝ} {t : Tester} {arch : List ℕ} {d : ℝ} {r : Bool} {p : Prot} {k : Int} {e : Env} {i j : BitVec 32} {x y : Result}
    (hx : t.test draw arch d r p k e i = .ok x) (hy : t.test draw arch d r p k e j = .ok y) : x.det = y.det ∧ x.corr = y.corr ∧ x.unc = y.unc ∧ x.time = y.time := by
  unfold Tester.test ArchTester.test at hx hy
  split at hx
  · cases hx
  · rename_i hd
    rw [if_neg hd] at hy
    dsimp only at hx hy
    split at hx
    · cases hx
    · rename_i hw
      rw [if_neg hw] at hy
      simp only [Outcome.ok.injEq] at hx hy
      subst hx hy
      exact ⟨rfl, rfl, rfl, rfl⟩

/-- C122, range: the means stay in the ranges of single tests, the deviations are not negative, and as long as the counts do not exceed 64 bits in total the error counts are those of every trial, so detected errors are still those corrected plus those not. -/
theorem C122_range {draw : BitVec 32 → ℕ → ℝ} (t : Tester) {arch : List ℕ} {d : ℝ} (r : Bool) (p : Prot) (k : Int) (e : Env) (off : BitVec 32) (hw : weights arch ≠ 0) (h0 : 0 ≤ d) (h1 : d ≤ 1) {n : ℕ} (hn : 0 < n)
    {m : Result} {t' : Tester} (hm : t.monteCarlo draw arch d r p k e n off = .ok (m, t')) {x : Result} (hx : t.test draw arch d r p k e = .ok x) :
    50 ≤ m.base ∧ m.base ≤ 99 ∧ 10 ≤ m.rad ∧ m.rad ≤ m.base ∧ 0 < m.pres ∧ m.pres ≤ 100 ∧ m.time = x.time ∧ 0 ≤ m.baseDev ∧ 0 ≤ m.radDev ∧ 0 ≤ m.presDev ∧
    (n * x.det < 2 ^ 64 → m.det = x.det ∧ m.corr = x.corr ∧ m.unc = x.unc ∧ m.det = m.corr + m.unc) := by
  obtain ⟨l, hl, hall, m', u, hm', -, -, -, -, -, -, -, b1, b2, b3, b4, b5, b6, b7⟩ := C122_monte_carlo (draw := draw) t r p k e off hw h0 h1 hn
  rw [hm] at hm'
  simp only [Outcome.ok.injEq, Prod.mk.injEq] at hm'
  obtain ⟨rfl, rfl⟩ := hm'
  have hne : l ≠ [] := by intro h; rw [h] at hl; simp at hl; omega
  have hmem : ∀ y ∈ l, ∃ i, t.test draw arch d r p k e i = .ok y := by
    intro y hy
    obtain ⟨i, hi, rfl⟩ := List.getElem_of_mem hy
    exact ⟨_, hall i hi⟩
  have hrange : ∀ y ∈ l, 50 ≤ y.base ∧ y.base ≤ 99 ∧ 10 ≤ y.rad ∧ y.rad ≤ y.base ∧ 10 ≤ y.pres ∧ y.pres ≤ 100 ∧ y.time = x.time ∧ y.det = x.det ∧ y.corr = x.corr ∧ y.unc = x.unc := by
    intro y hy
    obtain ⟨i, hi⟩ := hmem y hy
    obtain ⟨z, hz, -, -, -, -, -, -, c1, c2, c3, c4, c5, c6, c7, -, -⟩ := C120_range (draw := draw) t r p k e i hw h0 h1
    rw [hi] at hz
    simp only [Outcome.ok.injEq] at hz
    subst hz
    obtain ⟨d1, d2, d3, d4⟩ := det_indep hi hx
    refine ⟨c1, c2, c3, c4, ?_, c7, d4, d1, d2, d3⟩
    nlinarith
  have up : ∀ (f : Result → ℝ) (c : ℝ), (∀ y ∈ l, f y ≤ c) → mean f l ≤ c := fun f c h => (mean_mono h).trans (mean_const c hne).le
  have lo : ∀ (f : Result → ℝ) (c : ℝ), (∀ y ∈ l, c ≤ f y) → c ≤ mean f l := fun f c h => (mean_const c hne).symm.le.trans (mean_mono h)
  refine ⟨?_, ?_, ?_, ?_, ?_, ?_, ?_, ?_, ?_, ?_, ?_⟩
  · rw [b1]; exact lo _ _ fun y hy => (hrange y hy).1
  · rw [b1]; exact up _ _ fun y hy => (hrange y hy).2.1
  · rw [b2]; exact lo _ _ fun y hy => (hrange y hy).2.2.1
  · rw [b1, b2]; exact mean_mono fun y hy => (hrange y hy).2.2.2.1
  · rw [b3]; exact lt_of_lt_of_le (by norm_num) (lo _ 10 fun y hy => (hrange y hy).2.2.2.2.1)
  · rw [b3]; exact up _ _ fun y hy => (hrange y hy).2.2.2.2.2.1
  · rw [b4]; exact le_antisymm (up _ _ fun y hy => (hrange y hy).2.2.2.2.2.2.1.le) (lo _ _ fun y hy => (hrange y hy).2.2.2.2.2.2.1.ge)
  · rw [b5]; exact Real.sqrt_nonneg _
  · rw [b6]; exact Real.sqrt_nonneg _
  · rw [b7]; exact Real.sqrt_nonneg _
  · intro hover
    obtain ⟨z, hz, -, -, -, -, -, -, -, -, -, -, -, -, -, hsum, -⟩ := C120_range (draw := draw) t r p k e 0 hw h0 h1
    rw [hx] at hz
    simp only [Outcome.ok.injEq] at hz
    subst hz
    have htr : t.trials draw arch d r p k e n off = .ok l := by
      unfold Tester.trials
      have : ((List.range n).map fun i => t.test draw arch d r p k e (BitVec.ofNat 32 i)) = l.map Outcome.ok := by
        apply List.ext_getElem
        · simp [hl]
        · intro i h2 h3
          simp only [List.getElem_map, List.getElem_range]
          exact hall i (by simpa using h3)
      rw [this, collect_ok]
    unfold Tester.monteCarlo at hm
    rw [htr] at hm
    simp only [Outcome.bind, Outcome.ok.injEq, Prod.mk.injEq] at hm
    have hm1 := hm.1
    have cnt : ∀ (f : Result → ℕ) (c : ℕ), (∀ y ∈ l, f y = c) → c ≤ x.det → sumN f l / l.length = c := by
      intro f c hf hc
      rw [sumN_const l hf (lt_of_le_of_lt (by rw [hl]; exact Nat.mul_le_mul_left _ hc) hover), hl, Nat.mul_div_cancel_left _ hn]
    have e1 : m.det = x.det ∧ m.corr = x.corr ∧ m.unc = x.unc := by
      rw [← hm1]
      match l, hne with
      | a :: l, _ =>
        exact ⟨cnt _ _ (fun y hy => (hrange y hy).2.2.2.2.2.2.2.1) le_rfl,
          cnt _ _ (fun y hy => (hrange y hy).2.2.2.2.2.2.2.2.1) (by omega),
          cnt _ _ (fun y hy => (hrange y hy).2.2.2.2.2.2.2.2.2) (by omega)⟩
    exact ⟨e1.1, e1.2.1, e1.2.2, by omega⟩

/-- C122, violated: "Starting seed offset for random number generation": the offset changes nothing, so repeating a test with another offset repeats the same trials. -/
theorem C122_offset_violated (draw : BitVec 32 → ℕ → ℝ) (t : Tester) (arch : List ℕ) (d : ℝ) (r : Bool) (p : Prot) (k : Int) (e : Env) (n : ℕ) (off off' : BitVec 32) :
    t.monteCarlo draw arch d r p k e n off = t.monteCarlo draw arch d r p k e n off' := rfl

/-- C122, violated: with no trials the call records an empty architecture tested on Earth in one trial, which then is the best architecture for Earth. -/
theorem C122_zero_trials_violated (draw : BitVec 32 → ℕ → ℝ) (a b c x : List ℝ) (i o : ℕ) (f : Option (List Line)) (arch : List ℕ) (d : ℝ) (r : Bool) (p : Prot) (k : Int) (e : Env) (off : BitVec 32) :
    ∃ m t', (Tester.new a b c x i o f).monteCarlo draw arch d r p k e 0 off = .ok (m, t') ∧ m.layers = [] ∧ m.env = .earth ∧ m.trials = 1 ∧ t'.best .earth = [] ∧ t'.bestDropout .earth = 0 := by
  refine ⟨_, _, rfl, rfl, rfl, rfl, ?_, ?_⟩
  · simp [Tester.best, Tester.add, Tester.save, Tester.new, maxEl, stats, Result.zero]
  · simp [Tester.bestDropout, Tester.add, Tester.save, Tester.new, maxEl, stats, Result.zero]

/-! ### C123 -/

/-- C123, recorded: a range test records exactly one result, for its environment; it is the test at the lower end. -/
theorem C123_recorded {draw : BitVec 32 → ℕ → ℝ} (t : Tester) (lo hi s : Int) {d : ℝ} (k : Int) (e : Env) (hw : weights [t.input, toSize lo, t.output] ≠ 0) (h0 : 0 ≤ d) (h1 : d ≤ 1) :
    ∃ x t', t.widthRange draw lo hi s d k e = .ok t' ∧ t'.results = t.results ++ [x] ∧ x.layers = [t.input, toSize lo, t.output] ∧ x.dropout = d ∧ x.env = e := by
  obtain ⟨x, h2, h3, h4, h5, h6, h7, _⟩ := C120_range (draw := draw) t false .none k e 0 hw h0 h1
  refine ⟨x, t.add x, ?_, rfl, h3, h4, h7⟩
  unfold Tester.widthRange
  rw [h2]; rfl

/-- C123, violated: "Test networks with different widths": of all the widths in the range only the lowest is tested. -/
theorem C123_width_violated {draw : BitVec 32 → ℕ → ℝ} {t t' : Tester} {lo hi s : Int} {d : ℝ} {k : Int} {e : Env} (h : t.widthRange draw lo hi s d k e = .ok t') (h0 : 0 ≤ lo)
    {w : Int} (hw : lo < w) (hs : w < 2 ^ 64) : ∀ x ∈ t'.results.drop t.results.length, x.layers ≠ [t.input, w.toNat, t.output] := by
  unfold Tester.widthRange Tester.test ArchTester.test at h
  split at h
  · cases h
  · dsimp only at h
    split at h
    · cases h
    · simp only [Outcome.bind, Outcome.ok.injEq] at h
      subst h
      intro x hx
      simp only [Tester.add, Tester.save, List.drop_left, List.mem_singleton] at hx
      subst hx
      have e1 : toSize lo = lo.toNat := by unfold toSize; rw [Int.emod_eq_of_lt h0 (by omega)]
      simp only [e1, ne_eq, List.cons.injEq, and_true, true_and]
      omega

/-- C123, violated: "Test networks with different dropout rates": only the lowest rate is tested. -/
theorem C123_dropout_violated {draw : BitVec 32 → ℕ → ℝ} {t t' : Tester} {arch : List Int} {lo hi s : ℝ} {k : Int} {e : Env} (h : t.dropoutRange draw arch lo hi s k e = .ok t') :
    ∃ x, t'.results = t.results ++ [x] ∧ x.dropout = lo := by
  unfold Tester.dropoutRange Tester.test ArchTester.test at h
  split at h
  · cases h
  · dsimp only at h
    split at h
    · cases h
    · simp only [Outcome.bind, Outcome.ok.injEq] at h
      subst h
      exact ⟨_, rfl, rfl⟩

/-! ### C124 -/

/-- C124, appended: no call ever removes or changes a line already in the file, and after every call each recorded result has its line; a file that existed with contents is kept, otherwise it starts with the header. -/
theorem C124_appended {draw : BitVec 32 → ℕ → ℝ} {n : ℕ} {t u : Tester} (h : Run draw n t u) :
    t.file <+: u.file ∧ t.results <+: u.results ∧ u.results.length = t.results.length + n ∧ (0 < n → ∀ r ∈ u.results, r.line ∈ u.file) := by
  induction h with
  | nil t => exact ⟨List.prefix_rfl, List.prefix_rfl, rfl, fun h => absurd h (lt_irrefl _)⟩
  | snoc n t u v o _ hs ih =>
    obtain ⟨r, rfl⟩ := step_add hs
    obtain ⟨h1, h2, h3, _⟩ := ih
    have hf : (u.add r).file = u.file ++ (u.results ++ [r]).map Result.line := save_file _
    refine ⟨?_, ?_, ?_, ?_⟩
    · rw [hf]; exact h1.trans (List.prefix_append _ _)
    · exact h2.trans (List.prefix_append _ _)
    · show (u.results ++ [r]).length = _
      rw [List.length_append, h3]; simp; omega
    · intro _ x hx
      rw [hf]
      exact List.mem_append_right _ (List.mem_map_of_mem hx)

/-- C124, start: a new tester keeps what is in the file, and writes the header if there is no file or an empty one. -/
theorem C124_start (a b c d : List ℝ) (i o : ℕ) : (∀ l : List Line, l ≠ [] → (Tester.new a b c d i o (some l)).file = l) ∧ (Tester.new a b c d i o none).file = [.header] ∧ (Tester.new a b c d i o (some [])).file = [.header] := by
  refine ⟨fun l hl => ?_, rfl, rfl⟩
  match l, hl with
  | _ :: _, _ => rfl

/-- C124, violated: every save writes all results again: after `n` calls a fresh file has n(n+1)/2 result lines instead of n, and the first result's line is there n times. -/
theorem C124_duplicates_violated {draw : BitVec 32 → ℕ → ℝ} {n : ℕ} {a b c d : List ℝ} {i o : ℕ} {u : Tester} (h : Run draw n (Tester.new a b c d i o none) u) :
    2 * u.file.length = 2 + n * (n + 1) ∧ (∀ r rest, u.results = r :: rest → List.Sublist (List.replicate n r.line) u.file) := by
  have key : ∀ (n : ℕ) (t u : Tester), Run draw n t u → t = Tester.new a b c d i o none →
      u.results.length = n ∧ 2 * u.file.length = 2 + n * (n + 1) ∧ (∀ r rest, u.results = r :: rest → List.Sublist (List.replicate n r.line) u.file) := by
    intro n t u h
    induction h with
    | nil t => rintro rfl; exact ⟨rfl, rfl, fun r rest h => by cases h⟩
    | snoc n t u v o _ hs ih =>
      intro ht
      obtain ⟨r, rfl⟩ := step_add hs
      obtain ⟨h1, h2, h3⟩ := ih ht
      have hf : (u.add r).file = u.file ++ (u.results ++ [r]).map Result.line := save_file _
      have hr : (u.add r).results = u.results ++ [r] := rfl
      refine ⟨?_, ?_, ?_⟩
      · rw [hr]; simp [h1]
      · rw [hf]; simp only [List.length_append, List.length_map, List.length_cons, List.length_nil, h1]
        have : (n + 1) * (n + 1 + 1) = n * (n + 1) + 2 * (n + 1) := by ring
        omega
      · intro x rest hx
        rw [hf, List.replicate_succ']
        rw [hr] at hx
        apply List.Sublist.append
        · cases n with
          | zero => simp
          | succ n =>
            match hu : u.results, h1 with
            | y :: l, _ =>
              rw [hu] at hx
              simp only [List.cons_append, List.cons.injEq] at hx
              rw [← hx.1]
              exact h3 y l hu
        · rw [hx]; simp
  obtain ⟨-, h2, h3⟩ := key n _ u h rfl
  exact ⟨h2, h3⟩

/-- C124, digits: a number written to the file differs from the result by at most 5·10⁻⁶ of its value. -/
theorem C124_digits (x : ℝ) : |sig6 x - x| ≤ |x| * (5 / 10 ^ 6) := by
  unfold sig6
  by_cases hx : x = 0
  · simp [hx]
  · rw [if_neg hx]
    set k := Int.log 10 |x| with hk
    have hpos : 0 < |x| := abs_pos.mpr hx
    have hlog : ((10 : ℕ) : ℝ) ^ k ≤ |x| := Int.zpow_log_le_self (by norm_num) hpos
    have hp : (0 : ℝ) < 10 ^ (5 - k) := by positivity
    have hr := abs_sub_round (x * 10 ^ (5 - k))
    have e1 : (round (x * (10 : ℝ) ^ (5 - k)) : ℝ) / 10 ^ (5 - k) - x = -(x * 10 ^ (5 - k) - round (x * (10 : ℝ) ^ (5 - k))) / 10 ^ (5 - k) := by
      field_simp; ring
    rw [e1, abs_div, abs_neg, abs_of_pos hp, div_le_iff₀ hp]
    refine hr.trans ?_
    have e2 : (10 : ℝ) ^ k * 10 ^ (5 - k) = 10 ^ 5 := by
      rw [← zpow_add₀ (by norm_num)]
      have : k + (5 - k) = (5 : ℕ) := by push_cast; ring
      rw [this, zpow_natCast]
    have : (10 : ℝ) ^ k * 10 ^ (5 - k) ≤ |x| * 10 ^ (5 - k) := mul_le_mul_of_nonneg_right (by exact_mod_cast hlog) hp.le
    nlinarith

/-- C124, columns: a result's line has, in this order, its layers, dropout rate, residual flag, protection, environment, baseline accuracy, accuracy under radiation, preservation, time and three counts, the real numbers to within 5·10⁻⁶ of their values. -/
theorem C124_columns (r : Result) : ∃ dropout base rad pres time, r.line = .row r.layers dropout r.residual r.prot r.env base rad pres time r.det r.corr r.unc ∧
    |dropout - r.dropout| ≤ |r.dropout| * (5 / 10 ^ 6) ∧ |base - r.base| ≤ |r.base| * (5 / 10 ^ 6) ∧ |rad - r.rad| ≤ |r.rad| * (5 / 10 ^ 6) ∧
    |pres - r.pres| ≤ |r.pres| * (5 / 10 ^ 6) ∧ |time - r.time| ≤ |r.time| * (5 / 10 ^ 6) :=
  ⟨_, _, _, _, _, rfl, C124_digits _, C124_digits _, C124_digits _, C124_digits _, C124_digits _⟩

/-- C124, violated: "full precision (no rounding)": results whose accuracy differs get the same line. -/
theorem C124_precision_violated (r : Result) : ({ r with rad := 90 } : Result).line = ({ r with rad := 90 + 1 / 10 ^ 6 } : Result).line := by
  have l1 : ∀ y : ℝ, 10 ≤ y → y < 100 → Int.log 10 |y| = 1 := by
    intro y h1 h2
    rw [abs_of_nonneg (by linarith), Int.log_of_one_le_right _ (by linarith)]
    have f1 : 10 ≤ ⌊y⌋₊ := Nat.le_floor (by exact_mod_cast h1)
    have f2 : ⌊y⌋₊ < 100 := (Nat.floor_lt (by linarith)).mpr (by exact_mod_cast h2)
    have : Nat.log 10 ⌊y⌋₊ = 1 := by
      rw [Nat.log_eq_iff (by norm_num)]; exact ⟨by norm_num; omega, by norm_num; omega⟩
    rw [this]; rfl
  have hz : ((10 : ℝ) ^ (5 - 1 : ℤ)) = 10000 := by norm_num
  have s1 : sig6 90 = sig6 (90 + 1 / 10 ^ 6) := by
    unfold sig6
    rw [if_neg (by norm_num), if_neg (by norm_num), l1 90 (by norm_num) (by norm_num), l1 _ (by norm_num) (by norm_num), hz]
    congr 2
    rw [round_eq, round_eq]
    have a1 : ⌊(90 : ℝ) * 10000 + 1 / 2⌋ = 900000 := by rw [Int.floor_eq_iff]; norm_num
    have a2 : ⌊((90 : ℝ) + 1 / 10 ^ 6) * 10000 + 1 / 2⌋ = 900000 := by rw [Int.floor_eq_iff]; norm_num
    rw [a1, a2]
  unfold Result.line
  simp only [s1]

/-! ### Cases -/

example : weights [4, 128, 64, 3] ≠ 0 := by decide
example : Draws fun _ _ => 1 := fun _ _ => ⟨by norm_num, by norm_num⟩
example : ∃ u, Run (fun _ _ => 1) 1 (Tester.new [] [] [] [] 4 3 none) u := by
  obtain ⟨x, t', h, _⟩ := C123_recorded (draw := fun _ _ => 1) (Tester.new [] [] [] [] 4 3 none) 8 64 8 (d := 1 / 2) 100 .mars (by decide) (by norm_num) (by norm_num)
  exact ⟨t', .snoc 0 _ _ _ (.width 8 64 8 (1 / 2) 100 .mars) (.nil _) h⟩
example : ∃ y ∈ [Result.zero], y.env = .earth := ⟨Result.zero, by simp, rfl⟩

end Verif.ArchTester
