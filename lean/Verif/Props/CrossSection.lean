import Verif.Model.CrossSection
import Mathlib.Analysis.SpecialFunctions.Pow.Asymptotics
import Mathlib.Analysis.SpecialFunctions.Pow.Continuity
import Mathlib.Tactic
/-!
Properties of the cross-section utilities: C239 measured cross-sections and their validation, C240 the Weibull curve, C241 the fit, C242 reference rates.
-/
namespace Verif.CrossSection

open Verif.PhysicsSim (Env)

/-! ### C239 -/

/-- **C239.** The cross-section of an exposure in which every bit was hit as often as a cross-section `s` predicts is `s`; for all numbers of upsets it is the
number of upsets for every particle and bit, and 0 if there was no exposure. -/
theorem C239_measured (upsets bits : ℕ) (flux time : ℝ) (hf : 0 < flux) (hb : 0 < bits) (ht : 0 < time) :
    crossSection upsets flux bits time * (flux * bits * time) = upsets ∧
    (∀ s : ℝ, (upsets : ℝ) = s * (flux * bits * time) → crossSection upsets flux bits time = s) ∧
    (∀ f n t, f ≤ 0 ∨ n = 0 ∨ t ≤ 0 → crossSection upsets f n t = 0) := by
  have hb' : (0 : ℝ) < bits := by exact_mod_cast hb
  have hne : flux * bits * time ≠ 0 := by positivity
  have hc : crossSection upsets flux bits time = upsets / (flux * bits * time) := by
    unfold crossSection
    rw [if_neg]
    rintro (h | h | h)
    · linarith
    · omega
    · linarith
  refine ⟨?_, ?_, ?_⟩
  · rw [hc, div_mul_cancel₀ _ hne]
  · intro s hs
    rw [hc, hs, mul_div_cancel_right₀ _ hne]
  · intro f n t h
    simp [crossSection, h]

example : crossSection 6 2 3 1 = 1 := by norm_num [crossSection]

/-- **C239 (validation).** A measured cross-section is accepted exactly if it differs from a positive reference by at most the tolerance in percent of the
reference; references that are not positive accept nothing. -/
theorem C239_validate (m r t : ℝ) : validate m r t = true ↔ 0 < r ∧ |m - r| ≤ t / 100 * r := by
  unfold validate
  by_cases hr : r ≤ 0
  · simp [hr]
  · push Not at hr
    rw [if_neg (by linarith), decide_eq_true_eq]
    have e : |m / r - 1| = |m - r| / r := by
      rw [show m / r - 1 = (m - r) / r by field_simp, abs_div, abs_of_pos hr]
    rw [e]
    constructor
    · intro h
      refine ⟨hr, ?_⟩
      have := mul_le_mul_of_nonneg_right h hr.le
      have e2 : |m - r| / r * 100 * r = |m - r| * 100 := by field_simp
      rw [e2] at this
      linarith
    · rintro ⟨_, h⟩
      rw [div_mul_eq_mul_div, div_le_iff₀ hr]
      linarith

example : validate 12 10 25 = true := (C239_validate _ _ _).2 ⟨by norm_num, by norm_num [abs_le]⟩
example : validate 13 10 25 = false := by
  rw [Bool.eq_false_iff]; intro h
  have := ((C239_validate _ _ _).1 h).2
  norm_num at this

/-! ### C240 -/

/-- Parameters with a meaning. -/
def Proper (p : Params) : Prop := 0 < p.saturation ∧ 0 < p.width ∧ 0 < p.exponent

/-- **C240.** The Weibull curve of proper parameters: 0 up to the threshold; above it positive, below saturation and strictly increasing; with growing LET it
approaches saturation. -/
theorem C240_weibull (p : Params) (hp : Proper p) :
    (∀ l, l ≤ p.threshold → weibull p l = 0) ∧
    (∀ l, p.threshold < l → 0 < weibull p l ∧ weibull p l < p.saturation) ∧
    (∀ l l', p.threshold < l' → l < l' → weibull p l < weibull p l') ∧
    Filter.Tendsto (weibull p) Filter.atTop (nhds p.saturation) := by
  obtain ⟨hs, hw, he⟩ := hp
  have above : ∀ l, p.threshold < l → weibull p l = p.saturation * (1 - Real.exp (-(((l - p.threshold) / p.width) ^ p.exponent))) := fun l h => by
    unfold weibull; rw [if_neg (by linarith)]
  have pos : ∀ l, p.threshold < l → 0 < weibull p l := by
    intro l h
    rw [above l h]
    have : 0 < ((l - p.threshold) / p.width) ^ p.exponent := Real.rpow_pos_of_pos (div_pos (by linarith) hw) _
    have : Real.exp (-(((l - p.threshold) / p.width) ^ p.exponent)) < 1 := by rw [Real.exp_lt_one_iff]; linarith
    exact mul_pos hs (by linarith)
  refine ⟨?_, ?_, ?_, ?_⟩
  · intro l h; simp [weibull, h]
  · intro l h
    refine ⟨pos l h, ?_⟩
    rw [above l h]
    nlinarith [Real.exp_pos (-(((l - p.threshold) / p.width) ^ p.exponent))]
  · intro l l' h' h
    by_cases hl : l ≤ p.threshold
    · have : weibull p l = 0 := by simp [weibull, hl]
      rw [this]; exact pos l' h'
    · push Not at hl
      rw [above l hl, above l' h']
      apply mul_lt_mul_of_pos_left _ hs
      have : ((l - p.threshold) / p.width) ^ p.exponent < ((l' - p.threshold) / p.width) ^ p.exponent :=
        Real.rpow_lt_rpow (div_nonneg (by linarith) hw.le) (div_lt_div_of_pos_right (by linarith) hw) he
      have := Real.exp_lt_exp.mpr (neg_lt_neg this)
      linarith
  · have h1 : Filter.Tendsto (fun l : ℝ => (l - p.threshold) / p.width) Filter.atTop Filter.atTop :=
      (Filter.tendsto_atTop_add_const_right _ _ Filter.tendsto_id).atTop_div_const hw
    have h2 : Filter.Tendsto (fun l : ℝ => ((l - p.threshold) / p.width) ^ p.exponent) Filter.atTop Filter.atTop := (tendsto_rpow_atTop he).comp h1
    have h3 : Filter.Tendsto (fun l : ℝ => Real.exp (-(((l - p.threshold) / p.width) ^ p.exponent))) Filter.atTop (nhds 0) := Real.tendsto_exp_neg_atTop_nhds_zero.comp h2
    have h4 : Filter.Tendsto (fun l : ℝ => p.saturation * (1 - Real.exp (-(((l - p.threshold) / p.width) ^ p.exponent)))) Filter.atTop (nhds (p.saturation * (1 - 0))) :=
      (h3.const_sub 1).const_mul _
    rw [sub_zero, mul_one] at h4
    refine h4.congr' ?_
    filter_upwards [Filter.eventually_gt_atTop p.threshold] with l hl
    exact (above l hl).symm

theorem base_proper (e : Env) : Proper (baseParams e) ∧ 0 < (baseParams e).threshold := by
  cases e <;> simp only [baseParams, Proper] <;> norm_num

theorem adjust_proper (e : Env) (t : String) : Proper (adjust (baseParams e) t) ∧ 0 < (adjust (baseParams e) t).threshold := by
  obtain ⟨⟨h1, h2, h3⟩, h4⟩ := base_proper e
  unfold adjust
  split_ifs <;> refine ⟨⟨?_, h2, h3⟩, ?_⟩ <;> first | assumption | (simp only; positivity)

example : Proper (baseParams .leo) := (base_proper _).1

/-- Less saturation and a higher threshold lower the curve. -/
theorem weibull_mono (s s' t t' w x : ℝ) (hs0 : 0 ≤ s) (hs : s ≤ s') (ht : t' ≤ t) (hw : 0 < w) (hx : 0 < x) (l : ℝ) : weibull ⟨s, w, x, t⟩ l ≤ weibull ⟨s', w, x, t'⟩ l := by
  unfold weibull
  simp only
  have nonneg : ∀ t'' l : ℝ, t'' < l → 0 ≤ 1 - Real.exp (-(((l - t'') / w) ^ x)) := by
    intro t'' l h
    have : 0 ≤ ((l - t'') / w) ^ x := Real.rpow_nonneg (div_nonneg (by linarith) hw.le) _
    have : Real.exp (-(((l - t'') / w) ^ x)) ≤ 1 := by rw [Real.exp_le_one_iff]; linarith
    linarith
  by_cases h1 : l ≤ t
  · rw [if_pos h1]
    by_cases h2 : l ≤ t'
    · rw [if_pos h2]
    · rw [if_neg h2]
      exact mul_nonneg (hs0.trans hs) (nonneg t' l (by linarith))
  · rw [if_neg h1, if_neg (by linarith)]
    push Not at h1
    apply mul_le_mul hs _ (nonneg t l h1) (hs0.trans hs)
    have : ((l - t) / w) ^ x ≤ ((l - t') / w) ^ x :=
      Real.rpow_le_rpow (div_nonneg (by linarith) hw.le) (div_le_div_of_nonneg_right (by linarith) hw.le) hx.le
    have := Real.exp_le_exp.mpr (neg_le_neg this)
    linarith

/-- **C240 (curves).** `createWeibullCurve` gives one point for every LET value asked for, in order; at every LET the curve of an environment is never higher for a
smaller technology: 65 nm, 28 nm, 14 nm, 7 nm; every cross-section is below the saturation of the environment. -/
theorem C240_curve (e : Env) (t : String) (ls : List ℝ) (l : ℝ) :
    (curve e t ls).map Point.energy = ls ∧
    (∀ q ∈ curve e t ls, 0 ≤ q.sigma ∧ q.sigma < (baseParams e).saturation) ∧
    weibull (adjust (baseParams e) "28nm CMOS") l ≤ weibull (adjust (baseParams e) "65nm CMOS") l ∧
    weibull (adjust (baseParams e) "14nm CMOS") l ≤ weibull (adjust (baseParams e) "28nm CMOS") l ∧
    weibull (adjust (baseParams e) "7nm CMOS") l ≤ weibull (adjust (baseParams e) "14nm CMOS") l := by
  obtain ⟨⟨h1, h2, h3⟩, h4⟩ := base_proper e
  refine ⟨?_, ?_, ?_, ?_, ?_⟩
  · simp [curve, Function.comp_def]
  · intro q hq
    obtain ⟨l, _, rfl⟩ := List.mem_map.1 hq
    have hp := adjust_proper e t
    have hsat : (adjust (baseParams e) t).saturation ≤ (baseParams e).saturation := by
      unfold adjust
      split_ifs <;> (try simp only) <;> nlinarith
    by_cases hl : l ≤ (adjust (baseParams e) t).threshold
    · have := (C240_weibull _ hp.1).1 l hl
      simp only [this]
      exact ⟨le_rfl, h1⟩
    · have := (C240_weibull _ hp.1).2.1 l (by linarith)
      exact ⟨this.1.le, this.2.trans_le hsat⟩
  · rw [show adjust (baseParams e) "28nm CMOS" = ⟨(baseParams e).saturation * (7 / 10), (baseParams e).width, (baseParams e).exponent, (baseParams e).threshold * (11 / 10)⟩ from rfl,
      show adjust (baseParams e) "65nm CMOS" = ⟨(baseParams e).saturation, (baseParams e).width, (baseParams e).exponent, (baseParams e).threshold⟩ from rfl]
    exact weibull_mono _ _ _ _ _ _ (by positivity) (by nlinarith) (by nlinarith) h2 h3 l
  · rw [show adjust (baseParams e) "28nm CMOS" = ⟨(baseParams e).saturation * (7 / 10), (baseParams e).width, (baseParams e).exponent, (baseParams e).threshold * (11 / 10)⟩ from rfl,
      show adjust (baseParams e) "14nm CMOS" = ⟨(baseParams e).saturation * (5 / 10), (baseParams e).width, (baseParams e).exponent, (baseParams e).threshold * (13 / 10)⟩ from rfl]
    exact weibull_mono _ _ _ _ _ _ (by positivity) (by nlinarith) (by nlinarith) h2 h3 l
  · rw [show adjust (baseParams e) "7nm CMOS" = ⟨(baseParams e).saturation * (4 / 10), (baseParams e).width, (baseParams e).exponent, (baseParams e).threshold * (15 / 10)⟩ from rfl,
      show adjust (baseParams e) "14nm CMOS" = ⟨(baseParams e).saturation * (5 / 10), (baseParams e).width, (baseParams e).exponent, (baseParams e).threshold * (13 / 10)⟩ from rfl]
    exact weibull_mono _ _ _ _ _ _ (by positivity) (by nlinarith) (by nlinarith) h2 h3 l

/-- **C240, violated.** The formula in the comment, `σ₀ (1 − exp(−(L − L₀)/W)^s)`, is another curve: they differ wherever `s` is neither 1 nor the two happen to
meet, e.g. at three widths above the threshold with exponent 2. -/
theorem C240_comment_violated (p : Params) (hp : Proper p) (he : p.exponent = 2) :
    weibull p (p.threshold + 3 * p.width) ≠ p.saturation * (1 - Real.exp (-(3 * p.width / p.width)) ^ p.exponent) := by
  obtain ⟨hs, hw, _⟩ := hp
  unfold weibull
  rw [if_neg (by nlinarith), show (p.threshold + 3 * p.width - p.threshold) / p.width = 3 by field_simp; ring, show 3 * p.width / p.width = 3 by field_simp, he]
  intro h
  have h := mul_left_cancel₀ hs.ne' h
  have e : Real.exp (-((3 : ℝ) ^ (2 : ℝ))) = Real.exp (-3) ^ (2 : ℝ) := by linarith
  rw [← Real.exp_mul] at e
  have := Real.exp_injective e
  norm_num at this

/-! ### C241 -/

theorem sat_fold (data : List Point) (m : ℝ) :
    m ≤ data.foldl (fun m p => if m < p.sigma then p.sigma else m) m ∧ (∀ p ∈ data, p.sigma ≤ data.foldl (fun m p => if m < p.sigma then p.sigma else m) m) ∧
    (data.foldl (fun m p => if m < p.sigma then p.sigma else m) m = m ∨ ∃ p ∈ data, p.sigma = data.foldl (fun m p => if m < p.sigma then p.sigma else m) m) := by
  induction data generalizing m with
  | nil => simp
  | cons a data ih =>
    rw [List.foldl_cons]
    obtain ⟨h1, h2, h3⟩ := ih (if m < a.sigma then a.sigma else m)
    refine ⟨?_, ?_, ?_⟩
    · refine le_trans ?_ h1
      split_ifs with h <;> linarith
    · intro p hp
      rcases List.mem_cons.1 hp with rfl | hp
      · refine le_trans ?_ h1
        split_ifs with h <;> linarith
      · exact h2 p hp
    · rcases h3 with h | ⟨p, hp, h⟩
      · by_cases hm : m < a.sigma
        · exact Or.inr ⟨a, List.mem_cons_self, by rw [h, if_pos hm]⟩
        · exact Or.inl (by rw [h, if_neg hm])
      · exact Or.inr ⟨p, List.mem_cons_of_mem _ hp, h⟩

theorem thr_fold (data : List Point) (t : ℝ) :
    data.foldl (fun t p => if 0 < p.sigma ∧ p.energy < t then p.energy else t) t ≤ t ∧
    (∀ p ∈ data, 0 < p.sigma → data.foldl (fun t p => if 0 < p.sigma ∧ p.energy < t then p.energy else t) t ≤ p.energy) ∧
    (data.foldl (fun t p => if 0 < p.sigma ∧ p.energy < t then p.energy else t) t = t ∨
      ∃ p ∈ data, 0 < p.sigma ∧ p.energy = data.foldl (fun t p => if 0 < p.sigma ∧ p.energy < t then p.energy else t) t) := by
  induction data generalizing t with
  | nil => simp
  | cons a data ih =>
    rw [List.foldl_cons]
    obtain ⟨h1, h2, h3⟩ := ih (if 0 < a.sigma ∧ a.energy < t then a.energy else t)
    refine ⟨?_, ?_, ?_⟩
    · refine h1.trans ?_
      split_ifs with h <;> linarith
    · intro p hp hs
      rcases List.mem_cons.1 hp with rfl | hp
      · refine h1.trans ?_
        split_ifs with h
        · exact le_rfl
        · have : ¬ p.energy < t := fun h' => h ⟨hs, h'⟩
          linarith
      · exact h2 p hp hs
    · rcases h3 with h | ⟨p, hp, h⟩
      · by_cases hm : 0 < a.sigma ∧ a.energy < t
        · exact Or.inr ⟨a, List.mem_cons_self, hm.1, by rw [h, if_pos hm]⟩
        · exact Or.inl (by rw [h, if_neg hm])
      · exact Or.inr ⟨p, List.mem_cons_of_mem _ hp, h⟩

/-- **C241.** Fitting measurements of which at least one is positive, all positive ones at LET values between 0 and 1000: the saturation is the largest measured
cross-section, the threshold nine tenths of the smallest LET with a positive one, so that the fitted curve is positive wherever an upset was measured. -/
theorem C241_fit (data : List Point) (hpos : ∃ p ∈ data, 0 < p.sigma) (hr : ∀ p ∈ data, 0 < p.sigma → 0 < p.energy ∧ p.energy < 1000) :
    (∀ p ∈ data, p.sigma ≤ (fit data).saturation) ∧ (∃ p ∈ data, p.sigma = (fit data).saturation) ∧
    (∃ p ∈ data, 0 < p.sigma ∧ (fit data).threshold = p.energy * (9 / 10) ∧ ∀ q ∈ data, 0 < q.sigma → p.energy ≤ q.energy) ∧
    (∀ p ∈ data, 0 < p.sigma → 0 < weibull (fit data) p.energy) := by
  obtain ⟨p0, hp0, hp0s⟩ := hpos
  have hne : data ≠ [] := List.ne_nil_of_mem hp0
  have hf : fit data = ⟨fitSaturation data, 15, 2, fitThreshold data * (9 / 10)⟩ := by simp [fit, hne]
  obtain ⟨s1, s2, s3⟩ := sat_fold data 0
  obtain ⟨t1, t2, t3⟩ := thr_fold data 1000
  have hsat : 0 < fitSaturation data := hp0s.trans_le (s2 p0 hp0)
  have hthr : ∃ p ∈ data, 0 < p.sigma ∧ p.energy = fitThreshold data := by
    rcases t3 with h | h
    · have := t2 p0 hp0 hp0s
      have := (hr p0 hp0 hp0s).2
      linarith
    · exact h
  obtain ⟨q, hq, hqs, hqe⟩ := hthr
  rw [hf]
  refine ⟨s2, ?_, ?_, ?_⟩
  · rcases s3 with h | h
    · have : fitSaturation data = 0 := h
      linarith
    · exact h
  · refine ⟨q, hq, hqs, by simp [hqe], fun p hp hps => ?_⟩
    rw [hqe]; exact t2 p hp hps
  · intro p hp hps
    have hth : 0 < fitThreshold data := by rw [← hqe]; exact (hr q hq hqs).1
    have hle : fitThreshold data ≤ p.energy := t2 p hp hps
    refine ((C240_weibull _ ⟨hsat, ?_, ?_⟩).2.1 p.energy ?_).1 <;> simp only <;> first | linarith | norm_num

example : (∃ p ∈ [Point.mk 5 1, Point.mk 20 3], 0 < p.sigma) ∧ ∀ p ∈ [Point.mk 5 1, Point.mk 20 3], 0 < p.sigma → 0 < p.energy ∧ p.energy < 1000 := by
  refine ⟨⟨_, List.mem_cons_self, by norm_num⟩, ?_⟩
  intro p hp _
  simp only [List.mem_cons, List.not_mem_nil, or_false] at hp
  rcases hp with rfl | rfl <;> norm_num

theorem fit_shape (data : List Point) (h : data ≠ []) : (fit data).width = 15 ∧ (fit data).exponent = 2 := by simp [fit, h]

/-- **C241, violated: shape.** "Fit": no curve but those of width 15 and exponent 2 is ever recovered from its own points, however many are measured, and
however exactly. -/
theorem C241_shape_violated (p : Params) (hp : p.width ≠ 15 ∨ p.exponent ≠ 2) (ls : List ℝ) (h : ls ≠ []) : fit (ls.map fun l => ⟨l, weibull p l⟩) ≠ p := by
  intro he
  have := fit_shape (ls.map fun l => ⟨l, weibull p l⟩) (by simpa using h)
  rw [he] at this
  rcases hp with hp | hp
  · exact hp this.1
  · exact hp this.2

/-- **C241, violated: peak.** The fitted curve does not pass through the measurements: the largest is underestimated at every LET. -/
theorem C241_peak_violated (data : List Point) (hpos : ∃ p ∈ data, 0 < p.sigma) (hr : ∀ p ∈ data, 0 < p.sigma → 0 < p.energy ∧ p.energy < 1000) :
    ∃ p ∈ data, ∀ l, weibull (fit data) l < p.sigma := by
  obtain ⟨s1, ⟨p, hp, hps⟩, _, _⟩ := C241_fit data hpos hr
  obtain ⟨p0, hp0, hp0s⟩ := hpos
  have hsat : 0 < (fit data).saturation := hp0s.trans_le (s1 p0 hp0)
  have hsh := fit_shape data (List.ne_nil_of_mem hp0)
  have hprop : Proper (fit data) := ⟨hsat, by rw [hsh.1]; norm_num, by rw [hsh.2]; norm_num⟩
  refine ⟨p, hp, fun l => ?_⟩
  rw [hps]
  by_cases hl : l ≤ (fit data).threshold
  · rw [(C240_weibull _ hprop).1 l hl]; exact hsat
  · exact ((C240_weibull _ hprop).2.1 l (by linarith)).2

/-- **C241, violated: order.** Measurements above LET 1000 do not move the threshold: it is 900 whatever the smallest positive measurement. -/
theorem C241_cap_violated (data : List Point) (h : data ≠ []) (hr : ∀ p ∈ data, 0 < p.sigma → 1000 ≤ p.energy) : (fit data).threshold = 900 := by
  have ht : fitThreshold data = 1000 := by
    obtain ⟨t1, t2, t3⟩ := thr_fold data 1000
    rcases t3 with h | ⟨p, hp, hps, he⟩
    · exact h
    · have h1 := hr p hp hps
      rw [he] at h1
      exact le_antisymm t1 h1
  simp only [fit, h, if_false, ht]; norm_num

example : (fit [⟨5000, 1⟩]).threshold = 900 := C241_cap_violated _ (by simp) (by simp; norm_num)

/-! ### C242 -/

/-- **C242.** The reference rate is positive for every environment and technology; where reference data exist it is cross-section times daily flux. -/
theorem C242_rate (e : Env) (t : String) :
    0 < rate e t ∧ (∀ d, getReference (standardName e) t = some d → d ∈ reference ∧ d.environment = standardName e ∧ d.technology = t ∧ rate e t = d.sigma * dailyFlux e) := by
  have hflux : 0 < dailyFlux e := by cases e <;> simp only [dailyFlux] <;> norm_num
  have hdef : 0 < defaultRate e := by cases e <;> simp only [defaultRate] <;> norm_num
  have href : ∀ d ∈ reference, 0 < d.sigma := by
    intro d hd
    simp only [reference, List.mem_cons, List.not_mem_nil, or_false] at hd
    rcases hd with rfl | rfl | rfl | rfl | rfl | rfl | rfl | rfl <;> norm_num
  constructor
  · unfold rate
    cases h : getReference (standardName e) t with
    | none => exact hdef
    | some d => exact mul_pos (href d (List.mem_of_find?_eq_some h)) hflux
  · intro d h
    have hm := List.mem_of_find?_eq_some h
    have hp := List.find?_some h
    simp only [Bool.and_eq_true, decide_eq_true_eq] at hp
    refine ⟨hm, hp.1, hp.2, ?_⟩
    simp [rate, h]

theorem rate_leo : rate .leo "65nm CMOS" = 144 / 10 ^ 11 ∧ rate .marsSurface "65nm CMOS" = 84 / 10 ^ 11 := by
  constructor
  · have : getReference (standardName .leo) "65nm CMOS" = some ⟨"Low Earth Orbit (400km)", "65nm CMOS", 12 / 10 ^ 15⟩ := rfl
    simp only [rate, this, dailyFlux]; norm_num
  · have : getReference (standardName .marsSurface) "65nm CMOS" = some ⟨"Mars Surface", "65nm CMOS", 56 / 10 ^ 16⟩ := rfl
    simp only [rate, this, dailyFlux]; norm_num

/-- **C242, violated.** The technology is ignored wherever there are no data for it: all technologies but 65, 28 and 14 nm have the same rate in every environment; on
the surface of Mars a smaller technology, which has a smaller cross-section, has a higher rate. -/
theorem C242_technology_violated :
    (∀ e t, t ∉ ["65nm CMOS", "28nm CMOS", "14nm CMOS"] → rate e t = defaultRate e) ∧ rate .marsSurface "65nm CMOS" < rate .marsSurface "28nm CMOS" := by
  constructor
  · intro e t ht
    have : getReference (standardName e) t = none := by
      unfold getReference
      rw [List.find?_eq_none]
      intro d hd
      simp only [List.mem_cons, List.not_mem_nil, or_false, not_or] at ht
      simp only [reference, List.mem_cons, List.not_mem_nil, or_false] at hd
      simp only [Bool.and_eq_true, decide_eq_true_eq, not_and]
      rintro - rfl
      rcases hd with rfl | rfl | rfl | rfl | rfl | rfl | rfl | rfl <;> simp_all
    simp [rate, this]
  · rw [rate_leo.2]
    have : getReference (standardName .marsSurface) "28nm CMOS" = none := rfl
    simp only [rate, this, defaultRate]; norm_num

/-- **C242 (names).** The environments have these twelve names, no two the same. -/
theorem C242_names :
    ([Env.leo, .meo, .geo, .lunar, .marsOrbit, .marsSurface, .jupiter, .europa, .interplanetary, .solarMinimum, .solarMaximum, .solarStorm].map standardName =
      ["Low Earth Orbit (400km)", "Medium Earth Orbit (10,000km)", "Geosynchronous Orbit (36,000km)", "Lunar Surface", "Mars Orbit", "Mars Surface", "Jupiter Radiation Belts",
       "Europa (Jovian Moon)", "Interplanetary Space", "Solar Minimum", "Solar Maximum", "Solar Storm (SPE)"]) ∧
    Function.Injective standardName := by
  refine ⟨rfl, ?_⟩
  intro a b h
  cases a <;> cases b <;> first | rfl | (exact absurd h (by decide +kernel))

end Verif.CrossSection
