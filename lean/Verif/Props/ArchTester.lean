import Verif.Model.ArchTester
import Mathlib.Tactic.Linarith
import Mathlib.Tactic.Positivity
import Mathlib.Tactic.NormNum
import Mathlib.Tactic.FinCases
/-!
C120: testing one architecture; C121: best architecture and dropout; C122: Monte Carlo tests; C123: width and dropout ranges; C124: results file.
-/
namespace Verif.ArchTester

/-! ### Specification -/

/-- A random engine whose draws lie between 0 and 2. -/
def Draws (draw : BitVec 32 → ℕ → ℝ) : Prop := ∀ s i, 0 ≤ draw s i ∧ draw s i ≤ 2

/-- Share of the accuracy lost to radiation in an environment at a protection level, in percent. -/
noncomputable def loss (p : Prot) (e : Env) : ℝ := 100 * impact e * (1 - factor p)

/-- Levels from no protection to the strongest. -/
def strength : Prot → ℕ
  | .none => 0 | .checksum => 1 | .selective => 2 | .full => 3 | .adaptive => 4 | .space => 5

/-- Arithmetic mean of a quantity over the trials. -/
noncomputable def mean (f : Result → ℝ) (l : List Result) : ℝ := (l.map f).sum / l.length

/-! ### Lemmas -/

theorem impact_bounds (e : Env) : 0 < impact e ∧ impact e ≤ 6 / 10 := by cases e <;> simp only [impact] <;> norm_num
theorem factor_bounds (p : Prot) : 0 ≤ factor p ∧ factor p ≤ 9 / 10 := by cases p <;> simp only [factor] <;> norm_num
theorem overhead_ge (p : Prot) : 1 ≤ overhead p := by cases p <;> simp only [overhead] <;> norm_num
theorem complexity_nonneg {w : ℕ} (h : w ≠ 0) : 0 ≤ complexity w := by
  unfold complexity
  have : (1 : ℝ) ≤ w := by exact_mod_cast Nat.one_le_iff_ne_zero.mpr h
  have := Real.log_nonneg this
  linarith

theorem test_ok (draw : BitVec 32 → ℕ → ℝ) {arch : List ℕ} {d : ℝ} (r : Bool) (p : Prot) (e : Env) (k : BitVec 32) (hw : weights arch ≠ 0) (h0 : 0 ≤ d) (h1 : d ≤ 1) :
    ArchTester.test draw arch d r p e k =
      (let g := draw (seed arch d r p e k)
       let c := complexity (weights arch)
       let b0 := 85 + 5 * (1 - Real.exp (-c)) - 10 * d
       let b1 := if r && arch.length > 3 then b0 + 2 else b0
       let base := min 99 (max 50 (b1 + (g 0 - 1)))
       let rad := min base (max 10 (base * (1 - impact e * (1 - factor p)) + (g 1 - 1)))
       let total := ⌊c * 100 * impact e⌋₊
       let det := ⌊(total : ℝ) * (2 / 10 + 8 / 10 * factor p)⌋₊
       let corr := ⌊(det : ℝ) * factor p⌋₊
       .ok { layers := arch, dropout := d, residual := r, prot := p, env := e, base := base, rad := rad, pres := rad / base * 100,
             time := (50 + c * 100) * overhead p, det := det, corr := corr, unc := det - corr }) := by
  unfold ArchTester.test
  rw [if_neg (by push Not; constructor <;> norm_num <;> linarith)]
  simp only [if_neg hw]

/-! ### C120 -/

/-- C120, range: an architecture with at least one weight and a dropout between 0 and 1 always gets a result that echoes what was tested; the baseline accuracy is between 50 and 99, the accuracy under radiation between 10 and the baseline, the preservation is their ratio in percent and at most 100, the errors detected are those corrected plus those not, and the time is at least 50 ms. -/
theorem C120_range {draw : BitVec 32 → ℕ → ℝ} (t : Tester) {arch : List ℕ} {d : ℝ} (r : Bool) (p : Prot) (n : Int) (e : Env) (k : BitVec 32) (hw : weights arch ≠ 0) (h0 : 0 ≤ d) (h1 : d ≤ 1) :
    ∃ x, t.test draw arch d r p n e k = .ok x ∧ x.layers = arch ∧ x.dropout = d ∧ x.residual = r ∧ x.prot = p ∧ x.env = e ∧ x.trials = 1 ∧
      50 ≤ x.base ∧ x.base ≤ 99 ∧ 10 ≤ x.rad ∧ x.rad ≤ x.base ∧ x.pres * x.base = 100 * x.rad ∧ 0 < x.pres ∧ x.pres ≤ 100 ∧
      x.det = x.corr + x.unc ∧ 50 ≤ x.time := by
  unfold Tester.test
  rw [test_ok draw r p e k hw h0 h1]
  have hc := complexity_nonneg hw
  refine ⟨_, rfl, rfl, rfl, rfl, rfl, rfl, rfl, ?_⟩
  dsimp only
  generalize hB : min (99 : ℝ) _ = B
  have b1 : 50 ≤ B := by rw [← hB]; exact le_min (by norm_num) (le_max_left _ _)
  have b2 : B ≤ 99 := by rw [← hB]; exact min_le_left _ _
  generalize hR : min B _ = R
  have r1 : 10 ≤ R := by rw [← hR]; exact le_min (by linarith) (le_max_left _ _)
  have r2 : R ≤ B := by rw [← hR]; exact min_le_left _ _
  generalize ⌊_ * (2 / 10 + 8 / 10 * factor p)⌋₊ = D
  refine ⟨b1, b2, r1, r2, ?_, ?_, ?_, ?_, ?_⟩
  · field_simp
  · positivity
  · rw [div_mul_eq_mul_div, div_le_iff₀ (by linarith)]; linarith
  · have : ⌊(D : ℝ) * factor p⌋₊ ≤ D := by
      apply Nat.floor_le_of_le
      have := factor_bounds p
      have : (0 : ℝ) ≤ D := by positivity
      nlinarith
    omega
  · have := overhead_ge p
    show 50 ≤ (50 + complexity (weights arch) * 100) * overhead p
    nlinarith

/-- `x` is `y` up to one point, unless it is clipped to the range from `a` to `b`. -/
def Near (x y a b : ℝ) : Prop := a ≤ x ∧ x ≤ b ∧ (x ≤ y + 1 ∨ x = a) ∧ (y - 1 ≤ x ∨ x = b)

/-- Clipping keeps a number near. -/
theorem near_clip {y g a b : ℝ} (hab : a ≤ b) (h0 : 0 ≤ g) (h2 : g ≤ 2) : Near (min b (max a (y + (g - 1)))) y a b := by
  refine ⟨le_min hab (le_max_left _ _), min_le_left _ _, ?_, ?_⟩
  · by_cases h : y + (g - 1) ≤ a
    · right; rw [max_eq_left h, min_eq_right hab]
    · left; exact (min_le_right _ _).trans (max_le (by linarith) (by linarith))
  · by_cases h : b ≤ y + (g - 1)
    · right; rw [max_eq_right (by linarith), min_eq_left h]
    · left; exact le_min (by linarith) (le_trans (by linarith) (le_max_right _ _))

/-- C120, accuracy: up to one point of random variation and clipping, the baseline accuracy is 85 to 90, growing with the network, less ten times the dropout, plus 2 for residual connections in networks of more than three layers; the accuracy under radiation is the baseline less its loss. -/
theorem C120_accuracy {draw : BitVec 32 → ℕ → ℝ} (hd : Draws draw) (t : Tester) {arch : List ℕ} {d : ℝ} (r : Bool) (p : Prot) (n : Int) (e : Env) (k : BitVec 32) (hw : weights arch ≠ 0) (h0 : 0 ≤ d) (h1 : d ≤ 1)
    {x : Result} (hx : t.test draw arch d r p n e k = .ok x) :
    Near x.base (90 - 5 * Real.exp (-(Real.log (weights arch) / 10)) - 10 * d + if r = true ∧ 4 ≤ arch.length then 2 else 0) 50 99 ∧
    Near x.rad (x.base * (1 - loss p e / 100)) 10 x.base := by
  unfold Tester.test at hx
  rw [test_ok draw r p e k hw h0 h1] at hx
  simp only [Outcome.ok.injEq] at hx
  have g0 := hd (seed arch d r p e k) 0
  have g1 := hd (seed arch d r p e k) 1
  subst hx
  dsimp only
  constructor
  · have e1 : (if (r && decide (arch.length > 3)) = true then 85 + 5 * (1 - Real.exp (-complexity (weights arch))) - 10 * d + 2 else 85 + 5 * (1 - Real.exp (-complexity (weights arch))) - 10 * d) =
        (90 - 5 * Real.exp (-(Real.log (weights arch) / 10)) - 10 * d + if r = true ∧ 4 ≤ arch.length then 2 else 0) := by
      unfold complexity
      by_cases h : r = true ∧ 4 ≤ arch.length
      · rw [if_pos h, if_pos (by simp only [Bool.and_eq_true, decide_eq_true_eq]; exact ⟨h.1, by omega⟩)]; ring
      · rw [if_neg h, if_neg (by simp only [Bool.and_eq_true, decide_eq_true_eq]; intro h'; exact h ⟨h'.1, by omega⟩)]; ring
    rw [e1]
    exact near_clip (by norm_num) g0.1 g0.2
  · generalize hB : min (99 : ℝ) _ = B
    have b1 : 50 ≤ B := by rw [← hB]; exact le_min (by norm_num) (le_max_left _ _)
    rw [show loss p e / 100 = impact e * (1 - factor p) by unfold loss; ring]
    exact near_clip (by linarith) g1.1 g1.2

/-- C120, protection: a stronger level loses strictly less in every environment and never detects or corrects fewer errors; every level above none costs time, without protection nothing is corrected. -/
theorem C120_protection {draw : BitVec 32 → ℕ → ℝ} (t : Tester) {arch : List ℕ} {d : ℝ} (r : Bool) {p q : Prot} (n : Int) (e : Env) (k : BitVec 32) (hw : weights arch ≠ 0) (h0 : 0 ≤ d) (h1 : d ≤ 1)
    (hpq : strength p < strength q) {x y : Result} (hx : t.test draw arch d r p n e k = .ok x) (hy : t.test draw arch d r q n e k = .ok y) :
    loss q e < loss p e ∧ x.det ≤ y.det ∧ x.corr ≤ y.corr ∧ (p = .none → x.corr = 0 ∧ x.time < y.time) := by
  unfold Tester.test at hx hy
  rw [test_ok draw r p e k hw h0 h1] at hx
  rw [test_ok draw r q e k hw h0 h1] at hy
  simp only [Outcome.ok.injEq] at hx hy
  have hf : factor p < factor q := by
    cases p <;> cases q <;> simp only [strength] at hpq <;> first | omega | (simp only [factor]; norm_num)
  have hi := impact_bounds e
  have hfp := factor_bounds p
  have hc := complexity_nonneg hw
  subst hx hy
  dsimp only
  generalize ⌊complexity (weights arch) * 100 * impact e⌋₊ = T
  have hT : (0 : ℝ) ≤ T := by positivity
  have hdet : ⌊(T : ℝ) * (2 / 10 + 8 / 10 * factor p)⌋₊ ≤ ⌊(T : ℝ) * (2 / 10 + 8 / 10 * factor q)⌋₊ := by
    apply Nat.floor_mono
    nlinarith
  refine ⟨?_, hdet, ?_, ?_⟩
  · unfold loss; nlinarith
  · apply Nat.floor_mono
    have : ((⌊(T : ℝ) * (2 / 10 + 8 / 10 * factor p)⌋₊ : ℕ) : ℝ) ≤ (⌊(T : ℝ) * (2 / 10 + 8 / 10 * factor q)⌋₊ : ℕ) := by exact_mod_cast hdet
    have h2 : (0 : ℝ) ≤ (⌊(T : ℝ) * (2 / 10 + 8 / 10 * factor p)⌋₊ : ℕ) := by positivity
    nlinarith
  · rintro rfl
    refine ⟨by simp [factor], ?_⟩
    show (50 + complexity (weights arch) * 100) * overhead .none < (50 + complexity (weights arch) * 100) * overhead q
    apply mul_lt_mul_of_pos_left _ (by linarith)
    cases q <;> simp only [strength] at hpq <;> first | omega | (simp only [overhead]; norm_num)

/-- C120, violated: "Test a specific network architecture": no data is looked at and nothing is trained; testers with different training and test data and different numbers of epochs report the same result. -/
theorem C120_data_violated (draw : BitVec 32 → ℕ → ℝ) (a b c d a' b' c' d' : List ℝ) (i o i' o' : ℕ) (f f' : Option (List Line)) (arch : List ℕ) (x : ℝ) (r : Bool) (p : Prot) (n n' : Int) (e : Env) (k : BitVec 32) :
    (Tester.new a b c d i o f).test draw arch x r p n e k = (Tester.new a' b' c' d' i' o' f').test draw arch x r p n' e k := rfl

/-- C120, violated: testing an architecture with fewer than two layers, or whose layers are all empty, is undefined behaviour. -/
theorem C120_empty_violated (t : Tester) (draw : BitVec 32 → ℕ → ℝ) (arch : List ℕ) (x : ℝ) (r : Bool) (p : Prot) (n : Int) (e : Env) (k : BitVec 32)
    (h : arch.length < 2 ∨ ∀ s ∈ arch, s = 0) : t.test draw arch x r p n e k = .ub := by
  have hw : weights arch = 0 := by
    rcases h with h | h
    · match arch, h with
      | [], _ => rfl
      | [_], _ => rfl
    · clear t
      induction arch with
      | nil => rfl
      | cons a l ih =>
        match l, ih, h with
        | [], _, _ => rfl
        | b :: l, ih, h =>
          have ha := h a (by simp)
          simp only [weights]
          rw [ih fun s hs => h s (by simp [hs]), ha]; simp
  unfold Tester.test ArchTester.test
  split
  · rfl
  · simp only [if_pos hw]

/-- C120, limit: a positive number of weights can be missed where a product exceeds 64 bits. -/
theorem C120_wrap_limit (t : Tester) (draw : BitVec 32 → ℕ → ℝ) (x : ℝ) (r : Bool) (p : Prot) (n : Int) (e : Env) (k : BitVec 32) :
    t.test draw [2 ^ 32, 2 ^ 32] x r p n e k = .ub := by
  unfold Tester.test ArchTester.test
  split
  · rfl
  · simp [weights]

/-! ### C121 -/

theorem maxEl_spec (e : Env) (l : List Result) (x : Result) :
    maxEl e x l ∈ x :: l ∧ ((∃ y ∈ x :: l, y.env = e) → (maxEl e x l).env = e ∧ ∀ y ∈ x :: l, y.env = e → y.pres ≤ (maxEl e x l).pres) := by
  induction l generalizing x with
  | nil =>
    refine ⟨by simp [maxEl], ?_⟩
    rintro ⟨y, hy, he⟩
    simp only [List.mem_singleton] at hy
    subst hy
    exact ⟨he, fun z hz _ => by simp only [List.mem_singleton] at hz; rw [hz]; simp [maxEl]⟩
  | cons b l ih =>
    have step : maxEl e x (b :: l) = maxEl e (open Classical in if less e x b then b else x) l := rfl
    rw [step]
    by_cases h : less e x b
    · rw [if_pos h]
      obtain ⟨h1, h2⟩ := ih b
      refine ⟨by simp only [List.mem_cons] at h1 ⊢; tauto, ?_⟩
      intro hex
      unfold less at h
      by_cases hb : b.env = e
      · obtain ⟨h3, h4⟩ := h2 ⟨b, by simp, hb⟩
        refine ⟨h3, fun y hy hye => ?_⟩
        rcases List.mem_cons.mp hy with rfl | hy
        · rw [if_pos ⟨hye, hb⟩] at h
          exact h.le.trans (h4 b (by simp) hb)
        · exact h4 y hy hye
      · rw [if_neg (by tauto)] at h
        have : ∃ y ∈ b :: l, y.env = e := by
          obtain ⟨y, hy, hye⟩ := hex
          rcases List.mem_cons.mp hy with rfl | hy
          · exact absurd hye h
          · exact ⟨y, hy, hye⟩
        obtain ⟨h3, h4⟩ := h2 this
        refine ⟨h3, fun y hy hye => ?_⟩
        rcases List.mem_cons.mp hy with rfl | hy
        · exact absurd hye h
        · exact h4 y hy hye
    · rw [if_neg h]
      obtain ⟨h1, h2⟩ := ih x
      refine ⟨by simp only [List.mem_cons] at h1 ⊢; tauto, ?_⟩
      intro _
      have hxe : x.env = e := by
        by_contra hxe
        apply h
        unfold less
        rw [if_neg (by tauto)]; exact hxe
      obtain ⟨h3, h4⟩ := h2 ⟨x, by simp, hxe⟩
      refine ⟨h3, fun y hy hye => ?_⟩
      rcases List.mem_cons.mp hy with rfl | hy
      · exact h4 y (by simp) hye
      · rcases List.mem_cons.mp hy with rfl | hy
        · unfold less at h
          rw [if_pos ⟨hxe, hye⟩] at h
          exact (not_lt.mp h).trans (h4 x (by simp) hxe)
        · exact h4 y (by simp [hy]) hye

/-- C121, best: whatever results have been recorded, in any order, if there is one for the environment then the architecture and the dropout returned are those of one result for that environment with the highest preservation. -/
theorem C121_best (t : Tester) (e : Env) (h : ∃ y ∈ t.results, y.env = e) :
    ∃ x ∈ t.results, x.env = e ∧ (∀ y ∈ t.results, y.env = e → y.pres ≤ x.pres) ∧ t.best e = x.layers ∧ t.bestDropout e = x.dropout := by
  unfold Tester.best Tester.bestDropout
  generalize t.results = l at *
  match l, h with
  | [], h => obtain ⟨y, hy, _⟩ := h; simp at hy
  | a :: l, h =>
    obtain ⟨h1, h2⟩ := maxEl_spec e l a
    obtain ⟨h3, h4⟩ := h2 h
    exact ⟨_, h1, h3, h4, by simp only [if_pos h3], by simp only [if_pos h3]⟩

/-- C121, default: without a result for the environment the default architecture (128 and 64 hidden units) and dropout 0.5 are returned. -/
theorem C121_default (t : Tester) (e : Env) (h : ∀ y ∈ t.results, y.env ≠ e) : t.best e = [t.input, 128, 64, t.output] ∧ t.bestDropout e = 1 / 2 := by
  unfold Tester.best Tester.bestDropout
  generalize t.results = l at *
  match l, h with
  | [], h => exact ⟨rfl, rfl⟩
  | a :: l, h =>
    have := h _ (maxEl_spec e l a).1
    simp only [if_neg this, and_self]

end Verif.ArchTester
