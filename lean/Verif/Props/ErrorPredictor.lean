import Verif.Model.ErrorPredictor
import Mathlib.Analysis.SpecialFunctions.Log.Deriv
import Mathlib.Analysis.SpecialFunctions.ExpDeriv
import Mathlib.Tactic.Linarith
import Mathlib.Tactic.FieldSimp
import Mathlib.Tactic.Positivity
import Mathlib.Algebra.BigOperators.Fin
/-!
C111: the error predictor; C112: the piecewise predictor of the same name at global scope.

The specification of a network with real weights is the usual formula (`Par.score`), its loss the cross entropy (`Par.loss`); neither refers to the model.
-/
namespace Verif.ErrorPredictor

/-- Real weights and biases. -/
structure Par where
  w1 : Fin 3 → Fin 5 → ℝ
  w2 : Fin 5 → ℝ
  b1 : Fin 5 → ℝ
  b2 : ℝ

/-- The model's network with these weights. -/
def Par.net (p : Par) : Net :=
  { w1 := fun j i => some (p.w1 j i), w2 := fun i => some (p.w2 i), b1 := fun i => some (p.b1 i), b2 := some p.b2 }

/-- What a hidden unit receives. -/
def Par.unit (p : Par) (x : Fin 3 → ℝ) (i : Fin 5) : ℝ := ∑ j, x j * p.w1 j i + p.b1 i

/-- What the output receives: the units pass on what exceeds 0. -/
noncomputable def Par.score (p : Par) (x : Fin 3 → ℝ) : ℝ := ∑ i, max 0 (p.unit x i) * p.w2 i + p.b2

/-- The logistic function. -/
noncomputable def sigma (z : ℝ) : ℝ := 1 / (1 + Real.exp (-z))

/-- Cross entropy of the prediction `sigma (score)` against the target `t`. -/
noncomputable def Par.loss (p : Par) (x : Fin 3 → ℝ) (t : ℝ) : ℝ :=
  -(t * Real.log (sigma (p.score x)) + (1 - t) * Real.log (1 - sigma (p.score x)))

/-- The three inputs of the network for a radiation level. -/
noncomputable def inputs (level : ℝ) : Fin 3 → ℝ
  | 0 => Real.logb 10 (level + 1 / 10 ^ 10)
  | 1 => level * 10 ^ 7
  | 2 => 1

/-- The weights moved by `s` in the direction `d`. -/
def Par.move (p : Par) (s : ℝ) (d : Par) : Par :=
  { w1 := fun j i => p.w1 j i + s * d.w1 j i, w2 := fun i => p.w2 i + s * d.w2 i, b1 := fun i => p.b1 i + s * d.b1 i, b2 := p.b2 + s * d.b2 }

/-- Inner product. -/
def Par.dot (p d : Par) : ℝ := ∑ j, ∑ i, p.w1 j i * d.w1 j i + ∑ i, p.w2 i * d.w2 i + ∑ i, p.b1 i * d.b1 i + p.b2 * d.b2

/-- Difference. -/
def Par.diff (p q : Par) : Par :=
  { w1 := fun j i => p.w1 j i - q.w1 j i, w2 := fun i => p.w2 i - q.w2 i, b1 := fun i => p.b1 i - q.b1 i, b2 := p.b2 - q.b2 }

/-! ### Lemmas -/

theorem features_eq {level : ℝ} (h : 0 < level + 1 / 10 ^ 10) : features level = fun j => some (inputs level j) := by
  funext j
  match j with
  | 0 => simp only [features, inputs, if_pos h]
  | 1 => rfl
  | 2 => rfl

theorem pre_net (p : Par) (x : Fin 3 → ℝ) (i : Fin 5) : p.net.pre (fun j => some (x j)) i = some (p.unit x i) := by
  simp [Net.pre, Par.net, V.add, V.mul, Par.unit, List.finRange_succ, Fin.sum_univ_three]

theorem relu_some (x : ℝ) : V.relu (some x) = some (max 0 x) := by
  unfold V.relu
  simp only
  by_cases h : 0 < x
  · rw [if_pos h, max_eq_right h.le]
  · rw [if_neg h, max_eq_left (not_lt.1 h)]

theorem hidden_net (p : Par) (x : Fin 3 → ℝ) (i : Fin 5) : p.net.hidden (fun j => some (x j)) i = some (max 0 (p.unit x i)) := by
  rw [Net.hidden, pre_net, relu_some]

theorem z_net (p : Par) (x : Fin 3 → ℝ) : p.net.z (fun j => some (x j)) = some (p.score x) := by
  have hw : ∀ i, p.net.w2 i = some (p.w2 i) := fun _ => rfl
  have hb : p.net.b2 = some p.b2 := rfl
  simp [Net.z, hidden_net, Par.score, V.add, V.mul, List.finRange_succ, Fin.sum_univ_five, hw, hb]

theorem out_net (p : Par) (x : Fin 3 → ℝ) : p.net.out (fun j => some (x j)) = some (sigma (p.score x)) := by
  rw [Net.out, z_net]; rfl

theorem sigma_pos (z : ℝ) : 0 < sigma z := by unfold sigma; positivity
theorem sigma_lt (z : ℝ) : sigma z < 1 := by
  unfold sigma
  rw [div_lt_one (by positivity)]
  linarith [Real.exp_pos (-z)]

theorem sigma_mono {a b : ℝ} (h : a < b) : sigma a < sigma b := by
  unfold sigma
  apply one_div_lt_one_div_of_lt (by positivity)
  linarith [Real.exp_lt_exp.2 (neg_lt_neg h)]

theorem clamp_some {x : ℝ} (h0 : 0 < x) (h1 : x < 1) : V.clamp (some x) = x := by
  simp only [V.clamp, if_pos h1, if_pos h0]

theorem clamp_range (a : V) : 0 ≤ a.clamp ∧ a.clamp ≤ 1 := by
  unfold V.clamp
  cases a with
  | none => simp only; constructor <;> norm_num
  | some x =>
    simp only
    split <;> split <;> constructor <;> linarith

theorem predict_net (p : Par) {level : ℝ} (h : 0 < level + 1 / 10 ^ 10) : p.net.predict level = sigma (p.score (inputs level)) := by
  rw [Net.predict, features_eq h, out_net, clamp_some (sigma_pos _) (sigma_lt _)]

/-- The step taken, in real numbers. -/
noncomputable def Par.step (p : Par) (x : Fin 3 → ℝ) (t : ℝ) : Par :=
  let e := t - sigma (p.score x)
  let he := fun i => e * p.w2 i * (if 0 < p.unit x i then 1 else 0)
  { w2 := fun i => p.w2 i + 1 / 100 * e * max 0 (p.unit x i)
    b2 := p.b2 + 1 / 100 * e
    w1 := fun j i => p.w1 j i + 1 / 100 * he i * x j
    b1 := fun i => p.b1 i + 1 / 100 * he i }

theorem hiddenError_net (p : Par) (x : Fin 3 → ℝ) (e : ℝ) (i : Fin 5) :
    p.net.hiddenError (fun j => some (x j)) (some e) i = some (e * p.w2 i * (if 0 < p.unit x i then 1 else 0)) := by
  unfold Net.hiddenError
  rw [hidden_net]
  simp only [Par.net, V.mul, V.add, Option.bind_some, Option.map_some, lt_max_iff, lt_self_iff_false, false_or, zero_add]
  by_cases h : 0 < p.unit x i
  · simp [h]
  · simp [h]

theorem train_net (p : Par) (x : Fin 3 → ℝ) (t : ℝ) : p.net.train (fun j => some (x j)) (some t) = (p.step x t).net := by
  unfold Net.train
  rw [out_net]
  simp only [V.sub, Option.bind_some, Option.map_some, hiddenError_net, hidden_net]
  simp only [Par.net, V.mul, V.add, Option.bind_some, Option.map_some, Par.step]

theorem update_net (p : Par) {level : ℝ} (h : 0 < level + 1 / 10 ^ 10) (t : ℝ) : p.net.update level t = (p.step (inputs level) t).net := by
  rw [Net.update, features_eq h, train_net]

theorem relu_deriv {p : ℝ} (hp : p ≠ 0) (q : ℝ) : HasDerivAt (fun s : ℝ => max 0 (p + s * q)) ((if 0 < p then 1 else 0) * q) 0 := by
  have hlin : HasDerivAt (fun s : ℝ => p + s * q) q 0 := by
    simpa using ((hasDerivAt_id (0 : ℝ)).mul_const q).const_add p
  have hc : ContinuousAt (fun s : ℝ => p + s * q) 0 := hlin.continuousAt
  rcases lt_or_gt_of_ne hp with h | h
  · rw [if_neg (not_lt.2 h.le), zero_mul]
    have : ∀ᶠ s in nhds (0 : ℝ), p + s * q < 0 := hc.eventually_lt continuousAt_const (by simpa using h)
    exact (hasDerivAt_const (0 : ℝ) (0 : ℝ)).congr_of_eventuallyEq (this.mono fun s hs => max_eq_left hs.le)
  · rw [if_pos h, one_mul]
    have : ∀ᶠ s in nhds (0 : ℝ), 0 < p + s * q := continuousAt_const.eventually_lt hc (by simpa using h)
    exact hlin.congr_of_eventuallyEq (this.mono fun s hs => max_eq_right hs.le)

theorem unit_move (p d : Par) (x : Fin 3 → ℝ) (s : ℝ) (i : Fin 5) : (p.move s d).unit x i = p.unit x i + s * d.unit x i := by
  simp only [Par.unit, Par.move, Fin.sum_univ_three]; ring

theorem score_deriv (p d : Par) (x : Fin 3 → ℝ) (h : ∀ i, p.unit x i ≠ 0) :
    HasDerivAt (fun s : ℝ => (p.move s d).score x)
      (∑ i, ((if 0 < p.unit x i then 1 else 0) * d.unit x i * p.w2 i + max 0 (p.unit x i) * d.w2 i) + d.b2) 0 := by
  have h1 : ∀ i ∈ (Finset.univ : Finset (Fin 5)), HasDerivAt (fun s : ℝ => max 0 (p.unit x i + s * d.unit x i) * (p.w2 i + s * d.w2 i))
      ((if 0 < p.unit x i then 1 else 0) * d.unit x i * p.w2 i + max 0 (p.unit x i) * d.w2 i) 0 := by
    intro i _
    have hw : HasDerivAt (fun s : ℝ => p.w2 i + s * d.w2 i) (d.w2 i) 0 := by
      simpa using ((hasDerivAt_id (0 : ℝ)).mul_const (d.w2 i)).const_add (p.w2 i)
    have := (relu_deriv (h i) (d.unit x i)).fun_mul hw
    simpa using this
  have h2 := HasDerivAt.fun_sum h1
  have h3 : HasDerivAt (fun s : ℝ => p.b2 + s * d.b2) (d.b2) 0 := by
    simpa using ((hasDerivAt_id (0 : ℝ)).mul_const d.b2).const_add p.b2
  have h4 := h2.add h3
  refine h4.congr_of_eventuallyEq (Filter.Eventually.of_forall fun s => ?_)
  simp only [Par.score, unit_move, Pi.add_apply]
  rfl

theorem sigma_exp (z : ℝ) : 1 - sigma z = Real.exp (-z) * sigma z := by
  unfold sigma; field_simp; ring

/-- Derivative of the loss in the score. -/
theorem loss_deriv (t z : ℝ) : HasDerivAt (fun z => -(t * Real.log (sigma z) + (1 - t) * Real.log (1 - sigma z))) (sigma z - t) z := by
  have he : HasDerivAt (fun z : ℝ => 1 + Real.exp (-z)) (-Real.exp (-z)) z := by
    have := ((hasDerivAt_neg z).exp).const_add 1
    simpa using this
  have hp : (1 + Real.exp (-z)) ≠ 0 := by positivity
  have hl := he.log hp
  have hfun : (fun z => -(t * Real.log (sigma z) + (1 - t) * Real.log (1 - sigma z))) = fun z => Real.log (1 + Real.exp (-z)) + (1 - t) * z := by
    funext z
    have h1 : Real.log (sigma z) = -Real.log (1 + Real.exp (-z)) := by
      unfold sigma; rw [one_div, Real.log_inv]
    rw [sigma_exp, Real.log_mul (Real.exp_pos _).ne' (sigma_pos z).ne', Real.log_exp, h1]; ring
  rw [hfun]
  have := hl.add ((hasDerivAt_id z).const_mul (1 - t))
  have h5 : -Real.exp (-z) / (1 + Real.exp (-z)) + (1 - t) * 1 = sigma z - t := by
    unfold sigma; field_simp; ring
  rw [h5] at this
  exact this

/-! ### Properties -/

/-- C111, range: every prediction of every network, whatever is in its weights, lies between 0 and 1. -/
theorem C111_range (n : Net) (level : ℝ) : 0 ≤ n.predict level ∧ n.predict level ≤ 1 := clamp_range _

/-- C111, prediction: with real weights and a level above −10⁻¹⁰ the prediction is the logistic function of the network's score. -/
theorem C111_prediction (p : Par) {level : ℝ} (h : 0 < level + 1 / 10 ^ 10) :
    p.net.predict level = sigma (p.score (inputs level)) := predict_net p h

/-- C111, gradient: an observation turns real weights into real weights, and where the loss is differentiable the step is 0.01 times the negative gradient of the cross entropy: along every direction `d` its derivative is −100 times the inner product of the step and `d`. -/
theorem C111_gradient (p : Par) {level : ℝ} (h : 0 < level + 1 / 10 ^ 10) (t : ℝ) :
    ∃ q : Par, p.net.update level t = q.net ∧
      ((∀ i, p.unit (inputs level) i ≠ 0) →
        ∀ d : Par, HasDerivAt (fun s : ℝ => (p.move s d).loss (inputs level) t) (-100 * (q.diff p).dot d) 0) := by
  refine ⟨_, update_net p h t, fun hk d => ?_⟩
  have h1 := score_deriv p d (inputs level) hk
  have h0 : (p.move 0 d).score (inputs level) = p.score (inputs level) := by simp [Par.move]
  have h2 := loss_deriv t ((p.move 0 d).score (inputs level))
  have h3 := h2.comp (0 : ℝ) h1
  refine (h3.congr_deriv ?_).congr_of_eventuallyEq (Filter.Eventually.of_forall fun s => rfl)
  rw [h0]
  simp only [Par.diff, Par.dot, Par.step, Par.unit, Fin.sum_univ_three, Fin.sum_univ_five]
  ring

/-- C111, direction: after an observation above the prediction for a level, the prediction for that level is strictly higher than before; after one below it, strictly lower; an observation equal to it changes nothing. -/
theorem C111_direction (p : Par) {level : ℝ} (h : 0 < level + 1 / 10 ^ 10) (t : ℝ) :
    (p.net.predict level < t → p.net.predict level < (p.net.update level t).predict level) ∧
    (t < p.net.predict level → (p.net.update level t).predict level < p.net.predict level) ∧
    (t = p.net.predict level → p.net.update level t = p.net) := by
  rw [update_net p h, predict_net p h, predict_net _ h]
  generalize hx : inputs level = x
  have hunit : ∀ i, (p.step x t).unit x i = p.unit x i +
      1 / 100 * ((t - sigma (p.score x)) * p.w2 i * (if 0 < p.unit x i then 1 else 0)) * (x 0 ^ 2 + x 1 ^ 2 + x 2 ^ 2 + 1) := by
    intro i
    simp only [Par.unit, Par.step, Fin.sum_univ_three]; ring
  have hn : (0 : ℝ) ≤ x 0 ^ 2 + x 1 ^ 2 + x 2 ^ 2 + 1 := by positivity
  refine ⟨fun he => sigma_mono ?_, fun he => sigma_mono ?_, fun he => ?_⟩
  · have he' : 0 < t - sigma (p.score x) := by linarith
    have hb : (p.step x t).b2 = p.b2 + 1 / 100 * (t - sigma (p.score x)) := rfl
    have hs : ∑ i, max 0 (p.unit x i) * p.w2 i ≤ ∑ i, max 0 ((p.step x t).unit x i) * (p.step x t).w2 i := by
      refine Finset.sum_le_sum fun i _ => ?_
      have hw : (p.step x t).w2 i = p.w2 i + 1 / 100 * (t - sigma (p.score x)) * max 0 (p.unit x i) := rfl
      rw [hunit, hw]
      by_cases hu : 0 < p.unit x i
      · rw [if_pos hu, max_eq_right hu.le]
        set u := p.unit x i
        set e := t - sigma (p.score x)
        have hk : (0 : ℝ) ≤ 1 / 100 * e * (x 0 ^ 2 + x 1 ^ 2 + x 2 ^ 2 + 1) := by positivity
        have hw' : p.w2 i ≤ p.w2 i + 1 / 100 * e * u := by nlinarith [mul_pos he' hu]
        rcases le_total 0 (p.w2 i) with hw2 | hw2
        · have : u ≤ max 0 (u + 1 / 100 * (e * p.w2 i * 1) * (x 0 ^ 2 + x 1 ^ 2 + x 2 ^ 2 + 1)) := by
            refine le_max_of_le_right ?_
            nlinarith [mul_nonneg hk hw2]
          exact mul_le_mul this hw' hw2 (le_max_left _ _)
        · have h1 : max 0 (u + 1 / 100 * (e * p.w2 i * 1) * (x 0 ^ 2 + x 1 ^ 2 + x 2 ^ 2 + 1)) ≤ u := by
            refine max_le hu.le ?_
            nlinarith [mul_nonpos_of_nonneg_of_nonpos hk hw2]
          have h2 : (0 : ℝ) ≤ max 0 (u + 1 / 100 * (e * p.w2 i * 1) * (x 0 ^ 2 + x 1 ^ 2 + x 2 ^ 2 + 1)) := le_max_left _ _
          calc u * p.w2 i ≤ _ * p.w2 i := mul_le_mul_of_nonpos_right h1 hw2
            _ ≤ _ := mul_le_mul_of_nonneg_left hw' h2
      · rw [if_neg hu, max_eq_left (not_lt.1 hu)]
        simp [max_eq_left (not_lt.1 hu)]
    unfold Par.score
    rw [hb]
    unfold Par.score at he' hs
    linarith
  · have he' : t - sigma (p.score x) < 0 := by linarith
    have hb : (p.step x t).b2 = p.b2 + 1 / 100 * (t - sigma (p.score x)) := rfl
    have hs : ∑ i, max 0 ((p.step x t).unit x i) * (p.step x t).w2 i ≤ ∑ i, max 0 (p.unit x i) * p.w2 i := by
      refine Finset.sum_le_sum fun i _ => ?_
      have hw : (p.step x t).w2 i = p.w2 i + 1 / 100 * (t - sigma (p.score x)) * max 0 (p.unit x i) := rfl
      rw [hunit, hw]
      by_cases hu : 0 < p.unit x i
      · rw [if_pos hu, max_eq_right hu.le]
        set u := p.unit x i
        set e := t - sigma (p.score x)
        have hk : 1 / 100 * e * (x 0 ^ 2 + x 1 ^ 2 + x 2 ^ 2 + 1) ≤ 0 := by nlinarith
        have hw' : p.w2 i + 1 / 100 * e * u ≤ p.w2 i := by nlinarith [mul_neg_of_neg_of_pos he' hu]
        have h2 : (0 : ℝ) ≤ max 0 (u + 1 / 100 * (e * p.w2 i * 1) * (x 0 ^ 2 + x 1 ^ 2 + x 2 ^ 2 + 1)) := le_max_left _ _
        rcases le_total 0 (p.w2 i) with hw2 | hw2
        · have h1 : max 0 (u + 1 / 100 * (e * p.w2 i * 1) * (x 0 ^ 2 + x 1 ^ 2 + x 2 ^ 2 + 1)) ≤ u := by
            refine max_le hu.le ?_
            nlinarith [mul_nonpos_of_nonpos_of_nonneg hk hw2]
          calc _ ≤ _ * p.w2 i := mul_le_mul_of_nonneg_left hw' h2
            _ ≤ u * p.w2 i := mul_le_mul_of_nonneg_right h1 hw2
        · have : u ≤ max 0 (u + 1 / 100 * (e * p.w2 i * 1) * (x 0 ^ 2 + x 1 ^ 2 + x 2 ^ 2 + 1)) := by
            refine le_max_of_le_right ?_
            nlinarith [mul_nonneg_of_nonpos_of_nonpos hk hw2]
          calc _ ≤ _ * p.w2 i := mul_le_mul_of_nonneg_left hw' h2
            _ ≤ u * p.w2 i := mul_le_mul_of_nonpos_right this hw2
      · rw [if_neg hu, max_eq_left (not_lt.1 hu)]
        simp [max_eq_left (not_lt.1 hu)]
    unfold Par.score
    rw [hb]
    unfold Par.score at he' hs
    linarith
  · congr 1
    subst he
    simp [Par.step]

/-- A network whose weights for the first input are all NaN. -/
def Poisoned (n : Net) : Prop := ∀ i, n.w1 0 i = none

theorem add_none (a : V) : V.add a none = none := by cases a <;> rfl
theorem none_add (a : V) : V.add none a = none := rfl
theorem mul_none (a : V) : V.mul a none = none := by cases a <;> rfl

theorem hidden_poisoned {n : Net} (h : Poisoned n) (x : Fin 3 → V) (i : Fin 5) : n.hidden x i = some 0 := by
  simp only [Net.hidden, Net.pre, List.finRange_succ, List.finRange_zero, List.map_nil, List.map_cons, List.foldl_cons, List.foldl_nil]
  rw [h i, mul_none, add_none, none_add, none_add, none_add]
  rfl

theorem hidden_nan {n : Net} {x : Fin 3 → V} (h : x 0 = none) (i : Fin 5) : n.hidden x i = some 0 := by
  simp only [Net.hidden, Net.pre, List.finRange_succ, List.finRange_zero, List.map_nil, List.map_cons, List.foldl_cons, List.foldl_nil, h]
  have : V.mul none (n.w1 0 i) = none := rfl
  rw [this, add_none, none_add, none_add, none_add]
  rfl

theorem z_dead {n : Net} {x : Fin 3 → V} (h : ∀ i, n.hidden x i = some 0) {w : Fin 5 → ℝ} (hw : ∀ i, n.w2 i = some (w i)) {b : ℝ} (hb : n.b2 = some b) :
    n.z x = some b := by
  simp [Net.z, h, hw, hb, V.add, V.mul, List.finRange_succ]

theorem poisoned_update {n : Net} (h : Poisoned n) (level t : ℝ) {w : Fin 5 → ℝ} (hw : ∀ i, n.w2 i = some (w i)) {b : ℝ} (hb : n.b2 = some b) :
    Poisoned (n.update level t) ∧ (∀ i, (n.update level t).w2 i = some (w i)) ∧ ∃ b', (n.update level t).b2 = some b' := by
  have hz := z_dead (hidden_poisoned h (features level)) hw hb
  have ho : n.out (features level) = some (sigma b) := by rw [Net.out, hz]; rfl
  refine ⟨fun i => ?_, fun i => ?_, ?_⟩
  · simp only [Net.update, Net.train]
    rw [h i]; rfl
  · simp only [Net.update, Net.train]
    rw [hw i, ho, hidden_poisoned h]
    simp [V.add, V.mul, V.sub]
  · simp only [Net.update, Net.train]
    rw [hb, ho]
    exact ⟨_, rfl⟩

/-- Repeated observations. -/
noncomputable def observe (n : Net) (l : List (ℝ × ℝ)) : Net := l.foldl (fun n a => n.update a.1 a.2) n

/-- C111, limit: one observation at a level below −10⁻¹⁰ (the logarithm is NaN) ends the predictor's dependence on the level: whatever is observed afterwards, any two levels get the same prediction. -/
theorem C111_negative_level_limit (p : Par) {level : ℝ} (h : level + 1 / 10 ^ 10 < 0) (t : ℝ) (later : List (ℝ × ℝ)) (x y : ℝ) :
    (observe (p.net.update level t) later).predict x = (observe (p.net.update level t) later).predict y := by
  have hf : features level 0 = none := by simp only [features]; rw [if_neg (not_lt.2 h.le)]
  have hz := z_dead (n := p.net) (hidden_nan hf) (w := p.w2) (fun _ => rfl) (b := p.b2) rfl
  have ho : p.net.out (features level) = some (sigma p.b2) := by rw [Net.out, hz]; rfl
  have h0 : Poisoned (p.net.update level t) ∧ (∀ i, (p.net.update level t).w2 i = some (p.w2 i)) ∧ ∃ b', (p.net.update level t).b2 = some b' := by
    refine ⟨fun i => ?_, fun i => ?_, ?_⟩
    · simp only [Net.update, Net.train]
      rw [hf, mul_none, add_none]
    · simp only [Net.update, Net.train]
      rw [ho, hidden_nan hf]
      simp [V.add, V.mul, V.sub, Par.net]
    · simp only [Net.update, Net.train]
      rw [ho]
      exact ⟨_, rfl⟩
  generalize p.net.update level t = n at h0
  induction later generalizing n with
  | nil =>
    obtain ⟨h1, h2, b, h3⟩ := h0
    show n.predict x = n.predict y
    simp only [Net.predict, Net.out]
    rw [z_dead (hidden_poisoned h1 _) h2 h3, z_dead (hidden_poisoned h1 _) h2 h3]
  | cons a l ih =>
    obtain ⟨h1, h2, b, h3⟩ := h0
    exact ih _ (poisoned_update h1 a.1 a.2 h2 h3)

/-- A set of random draws in [−0.5, 0.5): unit 2 reacts to the linear input and inhibits the output. -/
noncomputable def draw1 : Fin 3 → Fin 5 → ℝ := fun j i => if j = 1 ∧ i = 2 then 4 / 10 else 0
/-- The same for the second layer. -/
noncomputable def draw2 : Fin 5 → ℝ := fun i => if i = 2 then -(1 / 2) else 0

/-- C111, violated: the fixed weights do not calibrate the fresh predictor; only five of the twenty weights are set, and there are random draws in the allowed range for which the highest level gets a lower prediction than no radiation at all. -/
theorem C111_fresh_violated :
    ∃ d1 : Fin 3 → Fin 5 → ℝ, ∃ d2 : Fin 5 → ℝ, (∀ j i, -(1 / 2) ≤ d1 j i ∧ d1 j i < 1 / 2) ∧ (∀ i, -(1 / 2) ≤ d2 i ∧ d2 i < 1 / 2) ∧
      (Net.init d1 d2).predict 1 < (Net.init d1 d2).predict 0 := by
  refine ⟨draw1, draw2, fun j i => ?_, fun i => ?_, ?_⟩
  · unfold draw1; split <;> norm_num
  · unfold draw2; split <;> norm_num
  · let p : Par :=
      { w1 := fun j i => if j = 0 ∧ i = 0 then 15 / 100 else if j = 1 ∧ i = 0 then 25 / 100 else if j = 0 ∧ i = 1 then 30 / 100 else draw1 j i
        w2 := fun i => if i = 0 then 20 / 100 else if i = 1 then 35 / 100 else draw2 i
        b1 := fun _ => 0
        b2 := 5 / 100 }
    have hp : Net.init draw1 draw2 = p.net := by
      simp only [Net.init, Par.net, p]
      congr 1
      · funext j i; split_ifs <;> rfl
      · funext i; split_ifs <;> rfl
    rw [hp, predict_net _ (by norm_num), predict_net _ (by norm_num)]
    apply sigma_mono
    have hlog : Real.logb 10 ((0 : ℝ) + 1 / 10 ^ 10) = -10 := by
      rw [zero_add, one_div, Real.logb_inv, Real.logb_pow, Real.logb_self_eq_one (by norm_num)]
      norm_num
    have hlog1 : Real.logb 10 ((1 : ℝ) + 1 / 10 ^ 10) ≤ 1 := by
      rw [Real.logb_le_iff_le_rpow (by norm_num) (by norm_num)]; norm_num
    have hlog0 : 0 ≤ Real.logb 10 ((1 : ℝ) + 1 / 10 ^ 10) := Real.logb_nonneg (by norm_num) (by norm_num)
    simp only [Par.score, Par.unit, inputs, Fin.sum_univ_three, Fin.sum_univ_five, hlog, p, draw1, draw2]
    generalize Real.logb 10 ((1 : ℝ) + 1 / 10 ^ 10) = g at hlog1 hlog0
    simp
    norm_num
    rw [max_eq_right (by linarith), max_eq_right (by linarith)]
    linarith

/-! ### C112 -/

/-- C112, bands: from 10⁻⁸ upwards the result lies in the documented band and does not fall as the rate grows. -/
theorem C112_bands (seu : ℚ) (h : 1 / 10 ^ 8 ≤ seu) :
    (seu < 1 / 10 ^ 7 → 5 / 100 ≤ predictSimple seu ∧ predictSimple seu < 15 / 100) ∧
    (1 / 10 ^ 7 ≤ seu → seu < 1 / 10 ^ 6 → 15 / 100 ≤ predictSimple seu ∧ predictSimple seu < 30 / 100) ∧
    (1 / 10 ^ 6 ≤ seu → 30 / 100 ≤ predictSimple seu ∧ predictSimple seu ≤ 90 / 100) ∧
    (1 / 10 ^ 5 ≤ seu → predictSimple seu = 90 / 100) := by
  unfold predictSimple
  rw [if_neg (not_lt.2 h)]
  refine ⟨fun h1 => ?_, fun h1 h2 => ?_, fun h1 => ?_, fun h1 => ?_⟩
  · rw [if_pos h1]
    constructor <;> (norm_num at *; linarith)
  · rw [if_neg (not_lt.2 h1), if_pos h2]
    constructor <;> (norm_num at *; linarith)
  · have h7 : ¬ seu < 1 / 10 ^ 7 := by norm_num at *; linarith
    rw [if_neg h7, if_neg (not_lt.2 h1)]
    constructor
    · have : 0 ≤ min (60 / 100 : ℚ) ((seu - 1 / 10 ^ 6) * (60 / 100) / (9 / 10 ^ 6)) := le_min (by norm_num) (by norm_num at *; linarith)
      linarith
    · linarith [min_le_left (60 / 100 : ℚ) ((seu - 1 / 10 ^ 6) * (60 / 100) / (9 / 10 ^ 6))]
  · have h7 : ¬ seu < 1 / 10 ^ 7 := by norm_num at *; linarith
    have h6 : ¬ seu < 1 / 10 ^ 6 := by norm_num at *; linarith
    rw [if_neg h7, if_neg h6, min_eq_left (by norm_num at *; linarith)]
    norm_num

/-- C112, monotone: from 10⁻⁸ upwards a higher rate never gets a lower result. -/
theorem C112_monotone {a b : ℚ} (h : 1 / 10 ^ 8 ≤ a) (hab : a ≤ b) : predictSimple a ≤ predictSimple b := by
  have ha := C112_bands a h
  have hb := C112_bands b (h.trans hab)
  by_cases b7 : b < 1 / 10 ^ 7
  · have a7 := lt_of_le_of_lt hab b7
    unfold predictSimple
    rw [if_neg (not_lt.2 h), if_neg (not_lt.2 (h.trans hab)), if_pos a7, if_pos b7]
    norm_num; linarith
  · by_cases a7 : a < 1 / 10 ^ 7
    · have h1 := (ha.1 a7).2
      by_cases b6 : b < 1 / 10 ^ 6
      · linarith [(hb.2.1 (not_lt.1 b7) b6).1]
      · linarith [(hb.2.2.1 (not_lt.1 b6)).1]
    · by_cases b6 : b < 1 / 10 ^ 6
      · have a6 := lt_of_le_of_lt hab b6
        unfold predictSimple
        rw [if_neg (not_lt.2 h), if_neg (not_lt.2 (h.trans hab)), if_neg a7, if_neg b7, if_pos a6, if_pos b6]
        norm_num; linarith
      · by_cases a6 : a < 1 / 10 ^ 6
        · linarith [(ha.2.1 (not_lt.1 a7) a6).2, (hb.2.2.1 (not_lt.1 b6)).1]
        · unfold predictSimple
          rw [if_neg (not_lt.2 h), if_neg (not_lt.2 (h.trans hab)), if_neg a7, if_neg b7, if_neg a6, if_neg b6]
          have : min (60 / 100 : ℚ) ((a - 1 / 10 ^ 6) * (60 / 100) / (9 / 10 ^ 6)) ≤ min (60 / 100) ((b - 1 / 10 ^ 6) * (60 / 100) / (9 / 10 ^ 6)) :=
            min_le_min le_rfl (by norm_num; linarith)
          linarith

/-- C112, violated: in the lowest documented band, 10⁻⁹ to 10⁻⁸, the slope is a hundred times too steep: from 1.09·10⁻⁹ on every result is at or above the band's upper end 0.05, and from 3.23·10⁻⁹ on above 1, so it is no rate; it then drops to 0.05 at 10⁻⁸. -/
theorem C112_low_band_violated :
    (∀ seu : ℚ, 109 / 10 ^ 11 ≤ seu → seu < 1 / 10 ^ 8 → 5 / 100 ≤ predictSimple seu) ∧
    (∀ seu : ℚ, 323 / 10 ^ 11 ≤ seu → seu < 1 / 10 ^ 8 → 1 < predictSimple seu) ∧
    (∀ seu : ℚ, 110 / 10 ^ 11 ≤ seu → seu < 1 / 10 ^ 8 → predictSimple (1 / 10 ^ 8) < predictSimple seu) ∧
    predictSimple (1 / 10 ^ 8) = 5 / 100 := by
  have e : predictSimple (1 / 10 ^ 8) = 5 / 100 := by
    unfold predictSimple; norm_num
  refine ⟨fun s h1 h2 => ?_, fun s h1 h2 => ?_, fun s h1 h2 => ?_, e⟩
  · unfold predictSimple; rw [if_pos h2]; norm_num at *; linarith
  · unfold predictSimple; rw [if_pos h2]; norm_num at *; linarith
  · rw [e]; unfold predictSimple; rw [if_pos h2]; norm_num at *; linarith

/-- C112, violated: below 9.775·10⁻¹⁰, and so for no radiation at all, the predicted rate is negative. -/
theorem C112_negative_violated (seu : ℚ) (h : seu < 9775 / 10 ^ 13) : predictSimple seu < 0 := by
  have h2 : seu < 1 / 10 ^ 8 := by norm_num at *; linarith
  unfold predictSimple; rw [if_pos h2]; norm_num at *; linarith

/-! ### Cases -/

/-- A network with one active unit, two levels and no kink. -/
noncomputable def pEx : Par := { w1 := fun j i => if j = 1 ∧ i = 0 then 1 else if j = 2 ∧ i ≠ 0 then -1 else 0, w2 := fun _ => 1, b1 := fun i => if i = 0 then 1 else 0, b2 := 0 }
example : ∀ i, pEx.unit (inputs 0) i ≠ 0 := by
  intro i
  simp only [Par.unit, pEx, inputs, Fin.sum_univ_three]
  fin_cases i <;> simp
example : (0 : ℝ) < 0 + 1 / 10 ^ 10 := by norm_num
example : pEx.net.predict 0 < 1 := by
  rw [C111_prediction _ (by norm_num)]; exact sigma_lt _
example : (-1 : ℝ) + 1 / 10 ^ 10 < 0 := by norm_num
example : predictSimple (2 / 10 ^ 7) = 15 / 100 + 15 / 900 := by unfold predictSimple; norm_num
example : predictSimple (5 / 10 ^ 9) > 1 := by unfold predictSimple; norm_num
example : predictSimple 0 < 0 := C112_negative_violated 0 (by norm_num)

end Verif.ErrorPredictor
