import Verif.Model.LetSimulator
import Mathlib.Analysis.Complex.ExponentialBounds
import Mathlib.Analysis.Real.Pi.Bounds
/-!
Properties C263–C267 of the simulator with linear energy transfer (model `Verif.LetSim`).
-/
namespace Verif.Props.LetSim
open Classical Verif.LetSim

/-! ### C263: environment -/

/-- **C263.** The mean flux is `10⁴·e^(-h/1000)·(0.8 + 0.2·s)` for altitude `h` and solar activity `s`, ten times that in the anomaly; it is positive exactly for `s > -4`,
grows with the solar activity and falls with the altitude. -/
theorem C263_flux (p : Params) :
    baseFlux p = (if p.saa then 10 else 1) * (10000 * Real.exp (-p.altitude / 1000) * (8 / 10 + 2 / 10 * p.solar)) ∧
    (0 < baseFlux p ↔ -4 < p.solar) ∧
    baseFlux { p with saa := true } = 10 * baseFlux { p with saa := false } ∧
    (∀ s s', s < s' → baseFlux { p with solar := s } < baseFlux { p with solar := s' }) ∧
    (-4 < p.solar → ∀ h h', h < h' → baseFlux { p with altitude := h' } < baseFlux { p with altitude := h }) := by
  have he := Real.exp_pos (-p.altitude / 1000)
  have hs : ∀ b : Bool, (0:ℝ) < (if b then 10 else 1) := by intro b; cases b <;> norm_num
  have hx := hs p.saa
  refine ⟨?_, ?_, ?_, ?_, ?_⟩
  · simp only [baseFlux]; ring
  · have h1 : baseFlux p = (2000 * Real.exp (-p.altitude / 1000) * (if p.saa then 10 else 1)) * (p.solar + 4) := by
      simp only [baseFlux]; ring
    have hk : (0:ℝ) < 2000 * Real.exp (-p.altitude / 1000) * (if p.saa then 10 else 1) := by positivity
    rw [h1, mul_pos_iff_of_pos_left hk]
    constructor <;> intro h <;> linarith
  · simp [baseFlux]; ring
  · intro s s' h
    simp only [baseFlux]
    have hk : (0:ℝ) < 10000 * Real.exp (-p.altitude / 1000) := by positivity
    refine mul_lt_mul_of_pos_right (mul_lt_mul_of_pos_left ?_ hk) hx
    linarith
  · intro h4 h h' hh
    simp only [baseFlux]
    refine mul_lt_mul_of_pos_right (mul_lt_mul_of_pos_right (mul_lt_mul_of_pos_left ?_ (by norm_num)) (by linarith)) hx
    exact Real.exp_lt_exp.2 (by linarith)

example : (0:ℝ) < baseFlux {} := (C263_flux {}).2.1.2 (by norm_num)

/-- **C263, violated: altitude.** The flux falls by a factor of `e` each 1000 km without end. In a geostationary orbit, in the outer belt, a mean flux of less than
10⁻⁹ particles is left even at ten times the solar activity, in the worst case less than one particle in ten years, against thousands each second at 400 km. -/
theorem C263_altitude_violated (p : Params) (h : 36000 ≤ p.altitude) (hs : -4 < p.solar ∧ p.solar ≤ 10) :
    baseFlux p < 1 / 10 ^ 9 ∧ 5000 < baseFlux {} := by
  constructor
  · have h1 : Real.exp (-p.altitude / 1000) ≤ Real.exp (-36) := Real.exp_le_exp.2 (by linarith)
    have h2 : Real.exp (-36) < 1 / 10 ^ 15 := by
      have e36 : Real.exp (-36) = Real.exp (-1) ^ 36 := by rw [← Real.exp_nat_mul]; norm_num
      have h37 : Real.exp (-1) < 37 / 100 := by
        rw [Real.exp_neg, inv_lt_comm₀ (Real.exp_pos 1) (by norm_num)]
        have := Real.exp_one_gt_d9
        norm_num; linarith
      rw [e36]
      have := pow_lt_pow_left₀ h37 (Real.exp_pos _).le (n := 36) (by norm_num)
      refine this.trans ?_
      norm_num
    have hx : (if p.saa then (10:ℝ) else 1) ≤ 10 := by split <;> norm_num
    have hx0 : (0:ℝ) < (if p.saa then (10:ℝ) else 1) := by split <;> norm_num
    rw [(C263_flux p).1]
    have ha : (0:ℝ) < 8 / 10 + 2 / 10 * p.solar := by linarith
    have hb : 8 / 10 + 2 / 10 * p.solar ≤ (28:ℝ) / 10 := by linarith
    have hpos := Real.exp_pos (-p.altitude / 1000)
    calc (if p.saa then (10:ℝ) else 1) * (10000 * Real.exp (-p.altitude / 1000) * (8 / 10 + 2 / 10 * p.solar))
        ≤ 10 * (10000 * Real.exp (-36) * (28 / 10)) := by gcongr
      _ < 1 / 10 ^ 9 := by
        linarith
  · simp only [baseFlux]
    have : (1:ℝ) + -400 / 1000 ≤ Real.exp (-400 / 1000) := by have := Real.add_one_le_exp (-400 / 1000 : ℝ); linarith
    norm_num at this ⊢
    linarith

example : ∃ p : Params, 36000 ≤ p.altitude ∧ (-4 < p.solar ∧ p.solar ≤ 10) ∧ p.saa = true :=
  ⟨{ altitude := 36000, saa := true }, by norm_num, by norm_num, rfl⟩

/-! ### Bethe–Bloch -/

/-- Square of the velocity in units of light for kinetic energy `e` and rest mass `m`. -/
noncomputable def beta2 (e m : ℝ) : ℝ := 1 - 1 / (1 + e / m) ^ 2

/-- Largest energy transfer to an electron. -/
noncomputable def tmax (e m : ℝ) : ℝ :=
  2 * me * beta2 e m * (1 + e / m) ^ 2 / (1 + 2 * (1 + e / m) * me / m + (me / m) ^ 2)

/-- Density correction as documented. -/
noncomputable def delta (e m : ℝ) (k : Mat) : ℝ :=
  if Real.sqrt (beta2 e m) < 1 / 10 then 0
  else max 0 (Real.log (288 / 10 / 1000000 * Real.sqrt (k.density * k.z / k.a) / k.i) + Real.log (Real.sqrt (beta2 e m) * (1 + e / m)) - 1 / 2)

/-- Shell correction as documented. -/
noncomputable def shell (e : ℝ) (t : Particle) : ℝ :=
  if 1 < Real.sqrt (2 * e / restMass t) / 137 then 0 else charge t * (Real.sqrt (2 * e / restMass t) / 137) * (1 / 10)

/-- The bracket of the formula. -/
noncomputable def bracket (t : Particle) (e : ℝ) (k : Mat) : ℝ :=
  1 / 2 * Real.log (2 * me * beta2 e (restMass t) * (1 + e / restMass t) ^ 2 * tmax e (restMass t) / k.i ^ 2) - beta2 e (restMass t) - delta e (restMass t) k - shell e t

/-- The Bethe–Bloch formula as documented, divided by 1000. -/
noncomputable def bethe (t : Particle) (e : ℝ) (k : Mat) : ℝ :=
  kConst * charge t ^ 2 * (k.z / k.a) * (k.density / beta2 e (restMass t)) * bracket t e k / 1000

theorem restMass_pos (t : Particle) : 0 < restMass t := by cases t <;> norm_num [restMass, me]
theorem charge_pos (t : Particle) : 0 < charge t := by cases t <;> norm_num [charge]
theorem me_pos : 0 < me := by norm_num [me]
theorem mat_pos (m : Material) : 0 < (mat m).z ∧ 0 < (mat m).a ∧ 0 < (mat m).density ∧ 0 < (mat m).i := by cases m <;> norm_num [mat]
theorem kConst_pos : 0 < kConst := by unfold kConst; have := Real.pi_pos; have := me_pos; positivity

theorem beta2_pos {e m : ℝ} (he : 0 < e) (hm : 0 < m) : 0 < beta2 e m ∧ beta2 e m < 1 := by
  unfold beta2
  have h : 0 < e / m := by positivity
  have h1 : 1 < (1 + e / m) ^ 2 := by nlinarith
  have h2 : 1 / (1 + e / m) ^ 2 < 1 := by rw [div_lt_one (by positivity)]; exact h1
  have h3 : 0 < 1 / (1 + e / m) ^ 2 := by positivity
  constructor <;> linarith

theorem sub_fin (a b : ℝ) : (XD.fin a).sub (XD.fin b) = .fin (a - b) := by
  show XD.fin (a + -b) = _
  rw [sub_eq_add_neg]

theorem xsqrt_fin {r : ℝ} (h : 0 ≤ r) : xsqrt (.fin r) = .fin (Real.sqrt r) := by simp [xsqrt, h]
theorem xlog_fin {r : ℝ} (h : 0 < r) : xlog (.fin r) = .fin (Real.log r) := by simp [xlog, h]

theorem max_fin (a b : ℝ) : XD.max (.fin a) (.fin b) = .fin (max a b) := by
  unfold XD.max
  by_cases h : a < b
  · rw [if_pos (by simpa using h), max_eq_right h.le]
  · rw [if_neg (by simpa using h), max_eq_left (not_lt.1 h)]

theorem density_fin {e m : ℝ} (he : 0 < e) (hm : 0 < m) (material : Material) :
    densityCorrection (.fin (Real.sqrt (beta2 e m))) (mat material) = .fin (delta e m (mat material)) := by
  obtain ⟨hb, hb1⟩ := beta2_pos he hm
  obtain ⟨k1, k2, k3, k4⟩ := mat_pos material
  unfold densityCorrection delta
  simp only [XD.lt_fin, XD.mul_fin, Real.mul_self_sqrt hb.le, sub_fin]
  have hg : 1 - beta2 e m = (1 / (1 + e / m)) ^ 2 := by unfold beta2; rw [div_pow]; ring
  have hge : 0 < 1 + e / m := by positivity
  rw [hg, xsqrt_fin (by positivity), Real.sqrt_sq (by positivity), XD.div_fin _ _ (by positivity), one_div_one_div]
  split
  · rfl
  · rw [XD.mul_fin, xlog_fin (by positivity), xlog_fin (mul_pos (Real.sqrt_pos.2 hb) hge), XD.add_fin, sub_fin, max_fin]

theorem shell_fin {e : ℝ} (he : 0 < e) (t : Particle) : shellCorrection e t = .fin (shell e t) := by
  have := restMass_pos t
  unfold shellCorrection shell
  rw [xsqrt_fin (by positivity)]
  simp only [XD.div_fin _ (137:ℝ) (by norm_num), XD.lt_fin, XD.mul_fin]
  split <;> rfl

theorem bethe_fin {e : ℝ} (he : 0 < e) (t : Particle) (m : Material) : betheBloch t e m = .fin (bethe t e (mat m)) := by
  have hm := restMass_pos t
  have hme := me_pos
  obtain ⟨hb, hb1⟩ := beta2_pos he hm
  obtain ⟨k1, k2, k3, k4⟩ := mat_pos m
  have hg : 0 < 1 + e / restMass t := by positivity
  have hbx : (XD.fin 1).sub (XD.div (.fin 1) (.fin ((1 + e / restMass t) * (1 + e / restMass t)))) = .fin (beta2 e (restMass t)) := by
    rw [XD.div_fin _ _ (by positivity), sub_fin, beta2, pow_two]
  have hd : 0 < 1 + 2 * (1 + e / restMass t) * me / restMass t + me / restMass t * (me / restMass t) := by positivity
  unfold betheBloch
  simp only [hbx, xsqrt_fin hb.le, density_fin he hm, shell_fin he, XD.mul_fin]
  rw [XD.div_fin _ _ hd.ne', XD.mul_fin, XD.div_fin _ (beta2 e (restMass t)) hb.ne', XD.div_fin _ ((mat m).i * (mat m).i) (by positivity), xlog_fin, XD.mul_fin, XD.mul_fin, sub_fin, sub_fin, sub_fin,
    XD.mul_fin, XD.div_fin _ _ (by norm_num)]
  · unfold bethe bracket tmax
    simp only [pow_two]
  · positivity

theorem four_le_log {x : ℝ} (h : 100 ≤ x) : 4 ≤ Real.log x := by
  rw [Real.le_log_iff_exp_le (by linarith)]
  have h4 : Real.exp 4 = Real.exp 1 ^ 4 := by rw [← Real.exp_nat_mul]; norm_num
  have := pow_lt_pow_left₀ Real.exp_one_lt_d9 (Real.exp_pos _).le (n := 4) (by norm_num)
  rw [h4]
  refine (this.le.trans ?_).trans h
  norm_num

theorem silicon_plasma : 288 / 10 / 1000000 * Real.sqrt ((mat .silicon).density * (mat .silicon).z / (mat .silicon).a) / (mat .silicon).i ≤ 18 / 100 := by
  have h : Real.sqrt ((mat .silicon).density * (mat .silicon).z / (mat .silicon).a) ≤ 108 / 100 := by
    rw [Real.sqrt_le_left (by norm_num)]
    norm_num [mat]
  have hi : (mat .silicon).i = 173 / 1000000 := rfl
  rw [hi, div_le_iff₀ (by norm_num)]
  linarith

theorem delta_zero {e m : ℝ} (he : 0 < e) (hm : 0 < m) (hg : 1 + e / m ≤ 55 / 10) : delta e m (mat .silicon) = 0 := by
  obtain ⟨hb, hb1⟩ := beta2_pos he hm
  obtain ⟨k1, k2, k3, k4⟩ := mat_pos .silicon
  unfold delta
  split
  · rfl
  · refine max_eq_left ?_
    have hs := Real.sqrt_pos.2 hb
    have hs1 : Real.sqrt (beta2 e m) ≤ 1 := by rw [Real.sqrt_le_left (by norm_num)]; linarith
    have hge : 0 < 1 + e / m := by positivity
    rw [← Real.log_mul (by positivity) (by positivity)]
    have h1 := silicon_plasma
    have h2 : Real.sqrt (beta2 e m) * (1 + e / m) ≤ 55 / 10 := by nlinarith
    have h3 : 0 < 288 / 10 / 1000000 * Real.sqrt ((mat .silicon).density * (mat .silicon).z / (mat .silicon).a) / (mat .silicon).i := by positivity
    have h4 : Real.log (288 / 10 / 1000000 * Real.sqrt ((mat .silicon).density * (mat .silicon).z / (mat .silicon).a) / (mat .silicon).i * (Real.sqrt (beta2 e m) * (1 + e / m))) ≤ 0 := by
      refine Real.log_nonpos (by positivity) ?_
      calc _ ≤ 18 / 100 * (55 / 10 : ℝ) := mul_le_mul h1 h2 (by positivity) (by norm_num)
        _ ≤ 1 := by norm_num
    linarith

theorem shell_le {e : ℝ} (he : 0 < e) (t : Particle) : 0 ≤ shell e t ∧ shell e t ≤ charge t * (1 / 10) := by
  have hc := charge_pos t
  have hm := restMass_pos t
  unfold shell
  split
  · constructor <;> [exact le_rfl; positivity]
  · rename_i h
    have h' := not_lt.1 h
    constructor
    · positivity
    · have := mul_le_mul_of_nonneg_left h' hc.le
      linarith

theorem shell_le' {e b : ℝ} (t : Particle) (hb : 0 ≤ b) (h : 2 * e / restMass t ≤ b ^ 2) : shell e t ≤ charge t * b / 1370 := by
  have hc := charge_pos t
  unfold shell
  split
  · positivity
  · have h1 : Real.sqrt (2 * e / restMass t) ≤ b := by rw [Real.sqrt_le_left hb]; exact h
    have := mul_le_mul_of_nonneg_left h1 hc.le
    linarith

theorem beta_gamma {e m : ℝ} (he : 0 < e) (hm : 0 < m) : beta2 e m * (1 + e / m) ^ 2 = (1 + e / m) ^ 2 - 1 := by
  have hge : (1 + e / m) ≠ 0 := by positivity
  unfold beta2
  field_simp

theorem bracket_pos {e : ℝ} (he : 0 < e) (t : Particle) (hg : 1 + e / restMass t ≤ 55 / 10)
    (hX : 100 * ((1 + 2 * (1 + e / restMass t) * me / restMass t + (me / restMass t) ^ 2) * (173 / 1000000) ^ 2) ≤ (2 * me * ((1 + e / restMass t) ^ 2 - 1)) ^ 2)
    (hs : shell e t ≤ 5 / 10) : 1 / 2 ≤ bracket t e (mat .silicon) := by
  have hm := restMass_pos t
  have hme := me_pos
  obtain ⟨hb, hb1⟩ := beta2_pos he hm
  unfold bracket
  rw [delta_zero he hm hg]
  have hd : 0 < 1 + 2 * (1 + e / restMass t) * me / restMass t + (me / restMass t) ^ 2 := by positivity
  have hi : (mat .silicon).i = 173 / 1000000 := rfl
  have h1 : 100 ≤ 2 * me * beta2 e (restMass t) * (1 + e / restMass t) ^ 2 * tmax e (restMass t) / (mat .silicon).i ^ 2 := by
    unfold tmax
    rw [mul_assoc (2 * me), beta_gamma he hm, hi, le_div_iff₀ (by positivity), mul_div_assoc', le_div_iff₀ hd]
    linarith
  have := four_le_log h1
  linarith

theorem bethe_pos {e : ℝ} (he : 0 < e) (t : Particle) (h : 0 < bracket t e (mat .silicon)) : 0 < bethe t e (mat .silicon) := by
  have hm := restMass_pos t
  have hk := kConst_pos
  have hc := charge_pos t
  obtain ⟨hb, -⟩ := beta2_pos he hm
  obtain ⟨k1, k2, k3, k4⟩ := mat_pos .silicon
  unfold bethe
  positivity

/-- The energy of protons for which the formula is used here. -/
theorem proton_pos {e : ℝ} (h1 : 1 ≤ e) (h2 : e ≤ 1000) : 0 < bethe .proton e (mat .silicon) := by
  have he : 0 < e := by linarith
  refine bethe_pos he _ (lt_of_lt_of_le (by norm_num) (bracket_pos he _ ?_ ?_ ?_))
  · norm_num [restMass]; linarith
  · have hr : restMass .proton = 9383 / 10 := rfl
    rw [hr]
    obtain ⟨x, hx⟩ : ∃ x : ℝ, e / (9383 / 10) = x := ⟨_, rfl⟩
    have hx1 : 1 / 939 ≤ x := by rw [← hx]; norm_num; linarith
    have hx2 : x ≤ 2 := by rw [← hx]; norm_num; linarith
    rw [hx]
    have h3 : (2 * me * (2 / 939 : ℝ)) ^ 2 ≤ (2 * me * ((1 + x) ^ 2 - 1)) ^ 2 := by
      refine pow_le_pow_left₀ (by norm_num [me]) ?_ 2
      have := me_pos
      have : (2:ℝ) / 939 ≤ (1 + x) ^ 2 - 1 := by nlinarith
      nlinarith
    refine le_trans ?_ h3
    norm_num [me]
    linarith
  · refine (shell_le he _).2.trans ?_
    norm_num [charge]

theorem electron_pos : 0 < bethe .electron 2 (mat .silicon) := by
  refine bethe_pos (by norm_num) _ (lt_of_lt_of_le (by norm_num) (bracket_pos (by norm_num) _ ?_ ?_ ?_))
  · norm_num [restMass, me]
  · norm_num [restMass, me]
  · refine (shell_le (by norm_num) _).2.trans ?_
    norm_num [charge]

theorem ion_pos : 0 < bethe .heavyIon 500 (mat .silicon) := by
  refine bethe_pos (by norm_num) _ (lt_of_lt_of_le (by norm_num) (bracket_pos (by norm_num) _ ?_ ?_ ?_))
  · norm_num [restMass, me]
  · norm_num [restMass, me]
  · refine (shell_le' _ (b := 1) (by norm_num) ?_).trans ?_
    · norm_num [restMass]
    · norm_num [charge]

/-- **C263 (mean energy transfer).** In either mode the mean LET is a positive constant, times `1 + h/10000` for the altitude `h`, times `e^(-d/10)` for the shielding `d`. -/
theorem C263_mean (mode : Bool) : ∃ base : ℝ, 0 < base ∧ ∀ p : Params, p.physics = mode →
    meanLET p = .fin (base * (1 + p.altitude / 10000) * Real.exp (-p.shielding / 10)) := by
  cases mode
  · refine ⟨10, by norm_num, fun p hp => ?_⟩
    simp only [meanLET, hp]
    simp only [Bool.false_eq_true, if_false, XD.mul_fin]
    congr 2; ring
  · refine ⟨bethe .proton 30 (mat .silicon) * (7 / 10) + bethe .electron 2 (mat .silicon) * (25 / 100) + bethe .heavyIon 500 (mat .silicon) * (5 / 100), ?_, fun p hp => ?_⟩
    · have := proton_pos (e := 30) (by norm_num) (by norm_num)
      have := electron_pos
      have := ion_pos
      positivity
    · simp only [meanLET, calculateLET, hp, if_true]
      rw [bethe_fin (by norm_num), bethe_fin (by norm_num), bethe_fin (by norm_num)]
      simp only [XD.mul_fin, XD.add_fin]
      congr 2; ring

example : ({} : Params).physics = true := rfl

/-- **C263 (distributions).** Creating the simulator is defined exactly for a solar activity above −4; the drawn flux has the mean of `calculateBaseFlux` (shape times scale
of the gamma distribution), energies have shape 1.5 and scale 50 MeV everywhere, and the centre of the LET is a number for every altitude above −10000 km. -/
theorem C263_distributions (p : Params) :
    ((∃ d, initDists p = .ok d) ↔ -4 < p.solar) ∧
    (∀ d, initDists p = .ok d → d.fluxShape * d.fluxScale = baseFlux p ∧ 0 < d.fluxScale ∧ d.energyShape = 3 / 2 ∧ d.energyScale = 50 ∧ d.letSigma = 1 / 2) ∧
    (∀ d, initDists p = .ok d → -10000 < p.altitude → ∃ l m : ℝ, d.letLog = .fin l ∧ meanLET p = .fin m ∧ Real.exp l = m) := by
  have hiff := (C263_flux p).2.1
  unfold initDists
  simp only
  refine ⟨?_, ?_, ?_⟩
  · rw [← hiff]
    constructor
    · rintro ⟨d, hd⟩
      split at hd
      · linarith
      · cases hd
    · intro h
      rw [if_pos (by linarith)]
      exact ⟨_, rfl⟩
  · intro d hd
    split at hd
    · rename_i h
      obtain rfl := Outcome.ok.inj hd
      exact ⟨by ring, h, rfl, rfl, rfl⟩
    · cases hd
  · intro d hd ha
    split at hd
    · obtain rfl := Outcome.ok.inj hd
      obtain ⟨base, hb, h⟩ := C263_mean p.physics
      have hpos : 0 < base * (1 + p.altitude / 10000) * Real.exp (-p.shielding / 10) :=
        mul_pos (mul_pos hb (by linarith)) (Real.exp_pos _)
      exact ⟨_, _, by rw [h p rfl, xlog_fin hpos], h p rfl, Real.exp_log hpos⟩
    · cases hd

example : ∃ d, initDists {} = .ok d := (C263_distributions {}).1.2 (by norm_num)

/-! ### C264: empirical energy transfer -/

theorem factor_pos (m : Material) : 0 < materialFactor m := by
  obtain ⟨k1, k2, k3, k4⟩ := mat_pos m
  unfold materialFactor
  positivity

/-- The empirical law as documented, for positive energies. -/
noncomputable def law : Particle → ℝ → ℝ
  | .proton, e => if e < 10 then 15 * e ^ (-(8 / 10) : ℝ) else 3 * e ^ (-(5 / 10) : ℝ)
  | .electron, e => if 1 / 2 < e then 2 / 10 * Real.log (e + 1) else e / 10
  | .heavyIon, e => 338 * e ^ (-(3 / 10) : ℝ)
  | .photon, e => e / 10

theorem base_law (t : Particle) {e : ℝ} (he : 0 < e) : empiricalBase t e = .fin (law t e) ∧ 0 < law t e := by
  cases t with
  | proton =>
    simp only [empiricalBase, law, powNeg, if_pos he, XD.mul_fin]
    split
    · exact ⟨rfl, mul_pos (by norm_num) (Real.rpow_pos_of_pos he _)⟩
    · exact ⟨rfl, mul_pos (by norm_num) (Real.rpow_pos_of_pos he _)⟩
  | electron =>
    simp only [empiricalBase, law]
    split
    · exact ⟨rfl, mul_pos (by norm_num) (Real.log_pos (by linarith))⟩
    · exact ⟨by congr 1; ring, by positivity⟩
  | heavyIon =>
    simp only [empiricalBase, law, powNeg, if_pos he, XD.mul_fin]
    exact ⟨by norm_num, mul_pos (by norm_num) (Real.rpow_pos_of_pos he _)⟩
  | photon =>
    simp only [empiricalBase, law]
    exact ⟨by congr 1; ring, by positivity⟩

theorem empirical_law (t : Particle) {e : ℝ} (he : 0 < e) (m : Material) : empirical t e m = .fin (law t e * materialFactor m) := by
  rw [empirical, (base_law t he).1, XD.mul_fin]

theorem ten_pow : (10:ℝ) ^ (3 / 10 : ℝ) < 5 / 2 := by
  refine lt_of_pow_lt_pow_left₀ 10 (by norm_num) ?_
  rw [← Real.rpow_natCast, ← Real.rpow_mul (by norm_num)]
  norm_num

theorem proton_edge : 2 * (3 * (10:ℝ) ^ (-(5 / 10) : ℝ)) < 15 * (10:ℝ) ^ (-(8 / 10) : ℝ) := by
  have h : (10:ℝ) ^ (-(5 / 10) : ℝ) = (10:ℝ) ^ (3 / 10 : ℝ) * (10:ℝ) ^ (-(8 / 10) : ℝ) := by
    rw [← Real.rpow_add (by norm_num)]; norm_num
  rw [h]
  have := ten_pow
  have h2 : (0:ℝ) < (10:ℝ) ^ (-(8 / 10) : ℝ) := Real.rpow_pos_of_pos (by norm_num) _
  nlinarith

theorem law_anti {t : Particle} (ht : t = .proton ∨ t = .heavyIon) {e e' : ℝ} (he : 0 < e) (h : e < e') : law t e' < law t e := by
  have hr : ∀ {a x y : ℝ}, 0 < a → 0 < x → x < y → y ^ (-a) < x ^ (-a) := fun ha hx hxy => Real.rpow_lt_rpow_of_neg hx hxy (by linarith)
  rcases ht with rfl | rfl
  · simp only [law]
    by_cases h1 : e' < 10
    · rw [if_pos h1, if_pos (h.trans h1)]
      exact mul_lt_mul_of_pos_left (hr (by norm_num) he h) (by norm_num)
    · rw [if_neg h1]
      by_cases h2 : e < 10
      · rw [if_pos h2]
        have a1 : e' ^ (-(5 / 10) : ℝ) ≤ (10:ℝ) ^ (-(5 / 10) : ℝ) := Real.rpow_le_rpow_of_nonpos (by norm_num) (not_lt.1 h1) (by norm_num)
        have a2 := hr (a := 8 / 10) (by norm_num) he h2
        have a3 := proton_edge
        have a4 : (0:ℝ) < (10:ℝ) ^ (-(5 / 10) : ℝ) := Real.rpow_pos_of_pos (by norm_num) _
        linarith
      · rw [if_neg h2]
        exact mul_lt_mul_of_pos_left (hr (by norm_num) he h) (by norm_num)
  · simp only [law]
    exact mul_lt_mul_of_pos_left (hr (by norm_num) he h) (by norm_num)

theorem law_mono {t : Particle} (ht : t = .electron ∨ t = .photon) {e e' : ℝ} (he : 0 < e) (h : e < e') : law t e < law t e' := by
  rcases ht with rfl | rfl
  · simp only [law]
    by_cases h1 : 1 / 2 < e
    · rw [if_pos h1, if_pos (h1.trans h)]
      exact mul_lt_mul_of_pos_left (Real.log_lt_log (by linarith) (by linarith)) (by norm_num)
    · rw [if_neg h1]
      by_cases h2 : 1 / 2 < e'
      · rw [if_pos h2]
        have a1 : Real.log (3 / 2) ≤ Real.log (e' + 1) := Real.log_le_log (by norm_num) (by linarith)
        have a2 := Real.one_sub_inv_le_log_of_pos (x := 3 / 2) (by norm_num)
        norm_num at a2
        linarith [not_lt.1 h1]
      · rw [if_neg h2]; linarith
  · simp only [law]; linarith

/-- **C264.** For every particle, material and positive energy the empirical LET is the documented law times a factor of the material, finite and positive; that of protons
and heavy ions falls with the energy everywhere, that of electrons and photons grows; silicon takes least, gallium arsenide most. -/
theorem C264_empirical (m : Material) :
    (∀ t e, 0 < e → ∃ l : ℝ, 0 < l ∧ empirical t e m = .fin l ∧ l = law t e * materialFactor m) ∧
    (∀ t, t = .proton ∨ t = .heavyIon → ∀ e e', 0 < e → e < e' → (empirical t e' m).lt (empirical t e m)) ∧
    (∀ t, t = .electron ∨ t = .photon → ∀ e e', 0 < e → e < e' → (empirical t e m).lt (empirical t e' m)) ∧
    materialFactor .silicon < materialFactor .siC ∧ materialFactor .siC < materialFactor .gaAs := by
  have hf := factor_pos m
  refine ⟨fun t e he => ⟨_, mul_pos (base_law t he).2 hf, empirical_law t he m, rfl⟩, ?_, ?_, ?_, ?_⟩
  · intro t ht e e' he h
    rw [empirical_law t he, empirical_law t (he.trans h), XD.lt_fin]
    exact mul_lt_mul_of_pos_right (law_anti ht he h) hf
  · intro t ht e e' he h
    rw [empirical_law t he, empirical_law t (he.trans h), XD.lt_fin]
    exact mul_lt_mul_of_pos_right (law_mono ht he h) hf
  · have a1 : Real.sqrt ((mat .silicon).z / (mat .silicon).a) < 71 / 100 := by
      rw [Real.sqrt_lt' (by norm_num)]; norm_num [mat]
    have a2 : 70 / 100 < Real.sqrt ((mat .siC).z / (mat .siC).a) := by
      rw [Real.lt_sqrt (by norm_num)]; norm_num [mat]
    have b1 : (mat .silicon).density / (233 / 100) = 1 := by norm_num [mat]
    have b2 : (mat .siC).density / (233 / 100) = 321 / 233 := by norm_num [mat]
    unfold materialFactor
    rw [b1, b2]
    linarith
  · have a1 : Real.sqrt ((mat .siC).z / (mat .siC).a) < 71 / 100 := by
      rw [Real.sqrt_lt' (by norm_num)]; norm_num [mat]
    have a2 : 66 / 100 < Real.sqrt ((mat .gaAs).z / (mat .gaAs).a) := by
      rw [Real.lt_sqrt (by norm_num)]; norm_num [mat]
    have b1 : (mat .gaAs).density / (233 / 100) = 532 / 233 := by norm_num [mat]
    have b2 : (mat .siC).density / (233 / 100) = 321 / 233 := by norm_num [mat]
    unfold materialFactor
    rw [b1, b2]
    linarith

example : ∃ l : ℝ, 0 < l ∧ empirical .heavyIon 500 .gaAs = .fin l :=
  let ⟨l, h, h', _⟩ := (C264_empirical .gaAs).1 .heavyIon 500 (by norm_num)
  ⟨l, h, h'⟩

/-- **C264, violated.** The two laws for protons do not meet: a proton of 10 MeV has less than half the LET of any slower one; at energy zero it is infinite, below
not a number. -/
theorem C264_jump_violated (m : Material) :
    (∀ e, 0 < e → e < 10 → ∃ a b : ℝ, empirical .proton 10 m = .fin a ∧ empirical .proton e m = .fin b ∧ 2 * a < b) ∧
    empirical .proton 0 m = .pinf ∧ (∀ e, e < 0 → empirical .proton e m = .nan) := by
  have hf := factor_pos m
  refine ⟨fun e he h => ⟨_, _, empirical_law _ (by norm_num) m, empirical_law _ he m, ?_⟩, ?_, ?_⟩
  · have h1 : law .proton 10 = 3 * (10:ℝ) ^ (-(5 / 10) : ℝ) := by simp only [law]; rw [if_neg (by norm_num)]
    have h2 : law .proton e = 15 * e ^ (-(8 / 10) : ℝ) := by simp only [law]; rw [if_pos h]
    have a2 : (10:ℝ) ^ (-(8 / 10) : ℝ) < e ^ (-(8 / 10) : ℝ) := Real.rpow_lt_rpow_of_neg he h (by norm_num)
    have a3 := proton_edge
    have : 2 * law .proton 10 < law .proton e := by rw [h1, h2]; linarith
    have := mul_lt_mul_of_pos_right this hf
    linarith
  · simp [empirical, empiricalBase, powNeg, XD.mul, hf]
  · intro e he
    have h1 : e < 10 := by linarith
    simp only [empirical, empiricalBase, if_pos h1, powNeg, if_neg (not_lt.2 he.le), if_neg he.ne]
    simp

/-! ### C265: Bethe–Bloch -/

/-- **C265.** With the physics-based mode the LET is the Bethe–Bloch formula, otherwise the empirical law. For every particle, material and positive energy the formula
gives a finite number, and it is positive for protons between 1 and 1000 MeV in silicon. -/
theorem C265_formula (p : Params) (m : Material) :
    (p.physics = true → ∀ t e, 0 < e → calculateLET p t e m = .fin (bethe t e (mat m))) ∧
    (p.physics = false → ∀ t e, 0 < e → calculateLET p t e m = .fin (law t e * materialFactor m)) ∧
    (∀ e, 1 ≤ e → e ≤ 1000 → 0 < bethe .proton e (mat .silicon)) := by
  refine ⟨fun h t e he => ?_, fun h t e he => ?_, fun e => proton_pos⟩
  · rw [calculateLET, if_pos h, bethe_fin he]
  · rw [calculateLET, if_neg (by simp [h]), empirical_law t he]

example : 0 < bethe .proton 30 (mat .silicon) := (C265_formula {} .silicon).2.2 30 (by norm_num) (by norm_num)

theorem delta_nonneg (e m : ℝ) (k : Mat) : 0 ≤ delta e m k := by
  unfold delta
  split
  · exact le_rfl
  · exact le_max_left _ _

/-- **C265, violated: slow protons.** For protons that almost stop, the ones with the largest transfer in reality, the formula is negative; for resting particles it is minus
infinity, and for no energy below it is a number. -/
theorem C265_slow_violated :
    (∀ e, 0 < e → e ≤ 5 / 100 → ∃ l : ℝ, betheBloch .proton e .silicon = .fin l ∧ l < 0) ∧
    (∀ t m, betheBloch t 0 m = .ninf) ∧ (∀ t m e, e < 0 → betheBloch t e m = .nan) := by
  refine ⟨fun e he h => ⟨_, bethe_fin he _ _, ?_⟩, ?_, ?_⟩
  · have hm := restMass_pos .proton
    have hk := kConst_pos
    have hc := charge_pos .proton
    obtain ⟨hb, -⟩ := beta2_pos he hm
    obtain ⟨k1, k2, k3, k4⟩ := mat_pos .silicon
    have hneg : bracket .proton e (mat .silicon) < 0 := by
      have hd := delta_nonneg e (restMass .proton) (mat .silicon)
      have hs := (shell_le he .proton).1
      have hl : Real.log (2 * me * beta2 e (restMass .proton) * (1 + e / restMass .proton) ^ 2 * tmax e (restMass .proton) / (mat .silicon).i ^ 2) ≤ 0 := by
        have hme := me_pos
        have hD : 1 ≤ 1 + 2 * (1 + e / restMass .proton) * me / restMass .proton + (me / restMass .proton) ^ 2 := by
          have : 0 ≤ 2 * (1 + e / restMass .proton) * me / restMass .proton + (me / restMass .proton) ^ 2 := by positivity
          linarith
        have hD0 : 0 < 1 + 2 * (1 + e / restMass .proton) * me / restMass .proton + (me / restMass .proton) ^ 2 := by linarith
        have hw : 2 * me * ((1 + e / restMass .proton) ^ 2 - 1) ≤ 173 / 1000000 := by
          have hr : restMass .proton = 9383 / 10 := rfl
          rw [hr]
          obtain ⟨x, hx⟩ : ∃ x : ℝ, e / (9383 / 10) = x := ⟨_, rfl⟩
          have hx0 : 0 < x := by rw [← hx]; positivity
          have hx2 : x ≤ 6 / 100000 := by rw [← hx]; norm_num; linarith
          rw [hx]
          norm_num [me]
          nlinarith
        have hw0 : 0 < 2 * me * ((1 + e / restMass .proton) ^ 2 - 1) := by
          rw [← beta_gamma he hm]; positivity
        have hi : (mat .silicon).i = 173 / 1000000 := rfl
        refine Real.log_nonpos ?_ ?_
        · unfold tmax; positivity
        · unfold tmax
          rw [mul_assoc (2 * me), beta_gamma he hm, hi, div_le_one (by positivity)]
          have h3 : 2 * me * ((1 + e / restMass .proton) ^ 2 - 1) / (1 + 2 * (1 + e / restMass .proton) * me / restMass .proton + (me / restMass .proton) ^ 2) ≤ 173 / 1000000 := by
            rw [div_le_iff₀ hD0]
            nlinarith
          have := mul_le_mul hw h3 (by positivity) (by norm_num)
          linarith
      unfold bracket
      linarith
    unfold bethe
    refine div_neg_of_neg_of_pos (mul_neg_of_pos_of_neg (by positivity) hneg) (by norm_num)
  · intro t m
    have hm := restMass_pos t
    have hk := kConst_pos
    have hc := charge_pos t
    obtain ⟨k1, k2, k3, k4⟩ := mat_pos m
    have hbx : (XD.fin 1).sub (XD.div (.fin 1) (.fin ((1 + 0 / restMass t) * (1 + 0 / restMass t)))) = .fin 0 := by
      rw [XD.div_fin _ _ (by norm_num), sub_fin]; norm_num
    have hs0 : xsqrt (.fin 0) = .fin 0 := by rw [xsqrt_fin le_rfl, Real.sqrt_zero]
    have hdc : densityCorrection (.fin 0) (mat m) = .fin 0 := by
      unfold densityCorrection
      rw [if_pos (by rw [XD.lt_fin]; norm_num)]
    have hsc : shellCorrection 0 t = .fin 0 := by
      unfold shellCorrection
      rw [mul_zero, zero_div, hs0, XD.div_fin _ _ (by norm_num), zero_div]
      simp only [XD.lt_fin, XD.mul_fin]
      rw [if_neg (by norm_num)]
      simp
    have hd : 0 < 1 + 2 * (1 + 0 / restMass t) * me / restMass t + me / restMass t * (me / restMass t) := by have := me_pos; positivity
    unfold betheBloch
    simp only [hbx, hs0, hdc, hsc, XD.mul_fin, mul_zero, zero_mul]
    rw [XD.div_fin _ _ hd.ne', zero_div, XD.mul_fin, XD.div_fin _ ((mat m).i * (mat m).i) (by positivity), XD.div_zero_pos _ k3]
    have hA : 0 < kConst * (charge t * charge t) * ((mat m).z / (mat m).a) := by positivity
    simp [xlog, XD.mul, XD.sub, XD.neg, XD.add, XD.div, hA]
  · intro t m e he
    have hm := restMass_pos t
    have hsc : shellCorrection e t = .nan := by
      unfold shellCorrection
      have : ¬ (0 ≤ 2 * e / restMass t) := by
        have : 2 * e / restMass t < 0 := div_neg_of_neg_of_pos (by linarith) hm
        linarith
      simp [xsqrt, this]
    have hn : ∀ x : XD, x.sub .nan = .nan := fun x => by cases x <;> rfl
    unfold betheBloch
    simp only [hsc, hn, XD.mul_nan, XD.nan_div]

/-- **C265, violated: photons.** With the physics-based mode a photon, which has neither mass nor charge, gets exactly the LET of a proton of its energy. -/
theorem C265_photon_violated (e : ℝ) (m : Material) : betheBloch .photon e m = betheBloch .proton e m := by
  have hr : restMass .photon = restMass .proton := rfl
  have hc : charge .photon = charge .proton := rfl
  unfold betheBloch shellCorrection
  rw [hr, hc]

example : ∃ l : ℝ, 0 < l ∧ betheBloch .photon 30 .silicon = .fin l :=
  ⟨_, proton_pos (e := 30) (by norm_num) (by norm_num), by rw [C265_photon_violated, bethe_fin (by norm_num)]⟩

/-! ### C266: errors -/

theorem tanh_alt (x : ℝ) : Real.tanh x = 1 - 2 / (Real.exp (2 * x) + 1) := by
  have h := Real.exp_pos x
  have h2 : Real.exp (2 * x) = Real.exp x * Real.exp x := by rw [← Real.exp_add]; ring_nf
  rw [Real.tanh_eq, Real.exp_neg, h2]
  field_simp
  ring

theorem tanh_bounds (x : ℝ) : Real.tanh x < 1 ∧ (0 < Real.tanh x ↔ 0 < x) ∧ (0 ≤ x → 0 ≤ Real.tanh x) := by
  have h := Real.exp_pos (2 * x)
  have key : 0 < Real.tanh x ↔ 0 < x := by
    rw [tanh_alt, sub_pos, div_lt_one (by linarith)]
    constructor
    · intro h
      have : 1 < Real.exp (2 * x) := by linarith
      have := Real.one_lt_exp_iff.1 this
      linarith
    · intro h
      have := Real.one_lt_exp_iff.2 (show 0 < 2 * x by linarith)
      linarith
  refine ⟨?_, key, ?_⟩
  · rw [tanh_alt]
    have : 0 < 2 / (Real.exp (2 * x) + 1) := by positivity
    linarith
  · intro hx
    rcases hx.eq_or_lt with rfl | hx
    · simp
    · exact (key.2 hx).le

theorem tanh_mono {x y : ℝ} (h : x ≤ y) : Real.tanh x ≤ Real.tanh y := by
  rw [tanh_alt, tanh_alt]
  have : Real.exp (2 * x) ≤ Real.exp (2 * y) := Real.exp_le_exp.2 (by linarith)
  have h0 := Real.exp_pos (2 * x)
  have : 2 / (Real.exp (2 * y) + 1) ≤ 2 / (Real.exp (2 * x) + 1) := by gcongr
  linarith

/-- The documented probability of an error for LET `x` and energy `e`. -/
noncomputable def risk (p : Params) (x e : ℝ) : ℝ :=
  5 / 100 * (1 - Real.exp (-x / 20)) * Real.tanh (e / 50) * Real.exp (-p.shielding / 15) * Real.exp (-(1 / 10) * (p.temperature - 300) / 300)

theorem probability_fin (p : Params) (x e : ℝ) : errorProbability p (.fin x) e = .fin (risk p x e) := by
  simp only [errorProbability, XD.neg, XD.div_fin _ (20:ℝ) (by norm_num), xexp, sub_fin, XD.mul_fin, risk]

/-- The probability with LET and energy as large as can be. -/
noncomputable def worst (p : Params) : ℝ := 5 / 100 * Real.exp (-p.shielding / 15) * Real.exp (-(1 / 10) * (p.temperature - 300) / 300)

/-- **C266.** For every LET and energy that are not negative the probability of an error is the documented product, between 0 and 0.05 times the factors of shielding and
temperature (so less than 6 % for all shielding and temperatures there are), and grows with the LET and the energy, and falls with the shielding. -/
theorem C266_probability (p : Params) (x e : ℝ) (hx : 0 ≤ x) (he : 0 ≤ e) :
    errorProbability p (.fin x) e = .fin (risk p x e) ∧ 0 ≤ risk p x e ∧ risk p x e ≤ worst p ∧
    (0 ≤ p.shielding → 0 ≤ p.temperature → risk p x e < 6 / 100) ∧
    (∀ x', x ≤ x' → risk p x e ≤ risk p x' e) ∧ (∀ e', e ≤ e' → risk p x e ≤ risk p x e') ∧
    (∀ d, p.shielding ≤ d → risk { p with shielding := d } x e ≤ risk p x e) := by
  have h1 := Real.exp_pos (-p.shielding / 15)
  have h2 := Real.exp_pos (-(1 / 10) * (p.temperature - 300) / 300)
  have h3 : 0 ≤ Real.tanh (e / 50) := (tanh_bounds _).2.2 (by linarith)
  have h4 := (tanh_bounds (e / 50)).1
  have h5 : ∀ y, 0 ≤ y → 0 ≤ 1 - Real.exp (-y / 20) := fun y hy => by
    have : Real.exp (-y / 20) ≤ 1 := Real.exp_le_one_iff.2 (by linarith)
    linarith
  have h6 := h5 x hx
  have h7 := Real.exp_pos (-x / 20)
  have hw : risk p x e ≤ worst p := by
    unfold risk worst
    have : 5 / 100 * (1 - Real.exp (-x / 20)) * Real.tanh (e / 50) ≤ 5 / 100 := by nlinarith
    exact mul_le_mul_of_nonneg_right (mul_le_mul_of_nonneg_right this h1.le) h2.le
  refine ⟨probability_fin p x e, ?_, hw, ?_, ?_, ?_, ?_⟩
  · unfold risk; positivity
  · intro hs ht
    refine lt_of_le_of_lt hw ?_
    unfold worst
    have a1 : Real.exp (-p.shielding / 15) ≤ 1 := Real.exp_le_one_iff.2 (by linarith)
    have a2 : Real.exp (-(1 / 10) * (p.temperature - 300) / 300) ≤ Real.exp (1 / 10) := Real.exp_le_exp.2 (by linarith)
    have a3 : Real.exp (1 / 10) < 12 / 10 := by
      have hp : Real.exp (1 / 10) ^ 10 = Real.exp 1 := by rw [← Real.exp_nat_mul]; norm_num
      refine lt_of_pow_lt_pow_left₀ 10 (by norm_num) ?_
      rw [hp]
      exact Real.exp_one_lt_d9.trans (by norm_num)
    nlinarith
  · intro x' hxx
    have := Real.exp_le_exp.2 (show -x' / 20 ≤ -x / 20 by linarith)
    unfold risk
    gcongr
  · intro e' hee
    have := tanh_mono (show e / 50 ≤ e' / 50 by linarith)
    unfold risk
    gcongr
  · intro d hd
    have := Real.exp_le_exp.2 (show -d / 15 ≤ -p.shielding / 15 by linarith)
    unfold risk
    dsimp only
    gcongr

example : (0:ℝ) ≤ 5 ∧ (0:ℝ) ≤ 30 := by norm_num

/-- **C266, violated: temperature.** Upsets become less likely as the device gets hotter, for every LET and energy: the sign of the "Arrhenius-like" factor is wrong. -/
theorem C266_temperature_violated (p : Params) (x e T T' : ℝ) (hx : 0 < x) (he : 0 < e) (hT : T < T') :
    risk { p with temperature := T' } x e < risk { p with temperature := T } x e := by
  have h1 := Real.exp_pos (-p.shielding / 15)
  have h3 : 0 < Real.tanh (e / 50) := (tanh_bounds _).2.1.2 (by linarith)
  have h6 : 0 < 1 - Real.exp (-x / 20) := by
    have : Real.exp (-x / 20) < 1 := by rw [Real.exp_lt_one_iff]; linarith
    linarith
  unfold risk
  dsimp only
  refine mul_lt_mul_of_pos_left (Real.exp_lt_exp.2 (by linarith)) (by positivity)

example : risk { temperature := 400 } 5 30 < risk { temperature := 300 } 5 30 := C266_temperature_violated {} 5 30 300 400 (by norm_num) (by norm_num) (by norm_num)

/-- **C266 (types).** The type of an error follows the documented table for every LET and draw: below 10 a single bit, below 30 a single bit or more, below 80 several bits,
above several bits or a block. -/
theorem C266_types (x u : ℝ) :
    (x < 10 → errorType (.fin x) u = .single) ∧
    (10 ≤ x → x < 30 → errorType (.fin x) u = if u < 7 / 10 then .single else .multi) ∧
    (30 ≤ x → x < 80 → errorType (.fin x) u = .multi) ∧
    (80 ≤ x → errorType (.fin x) u = if u < 6 / 10 then .multi else .block) := by
  unfold errorType
  simp only [XD.lt_fin]
  refine ⟨fun h => if_pos h, fun h h' => ?_, fun h h' => ?_, fun h => ?_⟩
  · rw [if_neg (by linarith), if_pos h']
  · rw [if_neg (by linarith), if_neg (by linarith), if_pos h']
  · rw [if_neg (by linarith), if_neg (by linarith), if_neg (by linarith)]

example : errorType (.fin 50) (1 / 2) = .multi := (C266_types 50 (1 / 2)).2.2.1 (by norm_num) (by norm_num)

theorem kConst_le : kConst ≤ 31 / 100 := by
  unfold kConst me
  have := Real.pi_lt_d2
  norm_num at this ⊢
  linarith

/-- **C266, violated: protons.** With the physics-based mode no proton up to 10 GeV has a LET of 10 in silicon, so whatever is drawn, it flips single bits only; errors of
several bits are left to heavy ions. -/
theorem C266_protons_violated (e u : ℝ) (he : 0 < e) (h : e ≤ 10000) : errorType (betheBloch .proton e .silicon) u = .single := by
  rw [bethe_fin he]
  refine (C266_types _ u).1 ?_
  have hm := restMass_pos .proton
  have hk := kConst_pos
  have hme := me_pos
  obtain ⟨hb, -⟩ := beta2_pos he hm
  have hr : restMass .proton = 9383 / 10 := rfl
  have hbg := beta_gamma he hm
  obtain ⟨b, hbd⟩ : ∃ b, beta2 e (restMass .proton) = b := ⟨_, rfl⟩
  obtain ⟨g, hgd⟩ : ∃ g, 1 + e / restMass .proton = g := ⟨_, rfl⟩
  have hg1 : 1 < g := by rw [← hgd]; have : 0 < e / restMass .proton := by positivity
                         linarith
  have hg2 : g ≤ 12 := by rw [← hgd, hr]; norm_num; linarith
  rw [hbd, hgd] at hbg
  rw [hbd] at hb
  -- u = g² - 1
  have hu : 0 < g ^ 2 - 1 := by nlinarith
  have hu2 : g ^ 2 - 1 ≤ 143 := by nlinarith
  obtain ⟨c, hcd⟩ : ∃ c : ℝ, c = 2 * me * (g ^ 2 - 1) / (173 / 1000000) := ⟨_, rfl⟩
  have hc0 : 0 < c := by rw [hcd]; positivity
  have hc1 : c ≤ 5908 * (g ^ 2 - 1) := by
    rw [hcd, div_le_iff₀ (by norm_num)]
    norm_num [me]
    nlinarith
  have hbr : bracket .proton e (mat .silicon) ≤ Real.log c := by
    have hd := delta_nonneg e (restMass .proton) (mat .silicon)
    have hs := (shell_le he .proton).1
    unfold bracket
    rw [hbd, hgd]
    have hD : 1 ≤ 1 + 2 * g * me / restMass .proton + (me / restMass .proton) ^ 2 := by
      have : 0 ≤ 2 * g * me / restMass .proton + (me / restMass .proton) ^ 2 := by positivity
      linarith
    have hl : Real.log (2 * me * b * g ^ 2 * tmax e (restMass .proton) / (mat .silicon).i ^ 2) ≤ 2 * Real.log c := by
      have ht : tmax e (restMass .proton) ≤ 2 * me * (g ^ 2 - 1) := by
        unfold tmax
        rw [hbd, hgd, mul_assoc (2 * me), hbg]
        exact div_le_self (by positivity) hD
      have ht0 : 0 < tmax e (restMass .proton) := by
        unfold tmax
        rw [hbd, hgd]
        exact div_pos (by positivity) (by linarith)
      have hi : (mat .silicon).i = 173 / 1000000 := rfl
      have h2 : 2 * Real.log c = Real.log (c ^ 2) := by rw [Real.log_pow]; norm_num
      rw [h2]
      refine Real.log_le_log (by rw [hi]; positivity) ?_
      rw [mul_assoc (2 * me), hbg, hi, hcd, div_pow (2 * me * (g ^ 2 - 1)), pow_two (2 * me * (g ^ 2 - 1))]
      gcongr
    linarith
  have hkk := kConst_le
  have hA : bethe .proton e (mat .silicon) = kConst * (14 / (2809 / 100)) * (233 / 100) * ((1 / b) * bracket .proton e (mat .silicon)) / 1000 := by
    unfold bethe
    rw [hbd]
    simp only [mat, charge]
    ring
  have hb' : 1 / b = g ^ 2 / (g ^ 2 - 1) := by
    rw [← hbg]
    have : g ≠ 0 := by linarith
    field_simp
  have hmain : (1 / b) * bracket .proton e (mat .silicon) ≤ 12000 := by
    have h1b : 0 < 1 / b := by positivity
    have h1 : (1 / b) * bracket .proton e (mat .silicon) ≤ (1 / b) * Real.log c := mul_le_mul_of_nonneg_left hbr h1b.le
    refine h1.trans ?_
    rw [hb', div_mul_eq_mul_div, div_le_iff₀ hu]
    by_cases hs : g ^ 2 - 1 ≤ 1
    · have hlc : Real.log c ≤ c := (Real.log_le_sub_one_of_pos hc0).trans (by linarith)
      have : g ^ 2 * Real.log c ≤ g ^ 2 * c := mul_le_mul_of_nonneg_left hlc (by positivity)
      have : g ^ 2 * c ≤ 2 * (5908 * (g ^ 2 - 1)) := mul_le_mul (by linarith) hc1 hc0.le (by norm_num)
      linarith
    · have hsq : Real.sqrt c ≤ 1000 := by
        rw [Real.sqrt_le_left (by norm_num)]
        linarith
      have hlc : Real.log c ≤ 2000 := by
        have h2 : Real.log (Real.sqrt c) ≤ Real.sqrt c - 1 := Real.log_le_sub_one_of_pos (Real.sqrt_pos.2 hc0)
        rw [Real.log_sqrt hc0.le] at h2
        linarith
      have : g ^ 2 * Real.log c ≤ g ^ 2 * 2000 := mul_le_mul_of_nonneg_left hlc (by positivity)
      linarith [not_le.1 hs]
  rw [hA]
  have hK : kConst * (14 / (2809 / 100)) * (233 / 100) ≤ 31 / 100 * (14 / (2809 / 100)) * (233 / 100) := by linarith
  have hK0 : 0 < kConst * (14 / (2809 / 100)) * (233 / 100) := by positivity
  have := mul_le_mul_of_nonneg_left hmain hK0.le
  have := mul_le_mul_of_nonneg_right hK (show (0:ℝ) ≤ 12000 by norm_num)
  norm_num at *
  linarith

example : (0:ℝ) < 30 ∧ (30:ℝ) ≤ 10000 := by norm_num

/-- The documented magnitude. -/
noncomputable def effect (x e : ℝ) : ℝ := Real.log (x + 1) / Real.log 10 / 2 * (Real.sqrt e / 10) * (1 - Real.exp (-x / 50))

/-- **C266 (magnitude).** For every LET and energy that are not negative the magnitude is the documented product, not negative, positive unless one of them is zero, and grows
with both. -/
theorem C266_magnitude (x e : ℝ) (hx : 0 ≤ x) (he : 0 ≤ e) :
    errorMagnitude (.fin x) e = .fin (effect x e) ∧ 0 ≤ effect x e ∧ (0 < x → 0 < e → 0 < effect x e) ∧
    (∀ x' e', x ≤ x' → e ≤ e' → effect x e ≤ effect x' e') := by
  have hl10 : 0 < Real.log 10 := Real.log_pos (by norm_num)
  have hl : 0 ≤ Real.log (x + 1) := Real.log_nonneg (by linarith)
  have hx' : 0 ≤ 1 - Real.exp (-x / 50) := by
    have : Real.exp (-x / 50) ≤ 1 := Real.exp_le_one_iff.2 (by linarith)
    linarith
  refine ⟨?_, ?_, ?_, ?_⟩
  · simp only [errorMagnitude, XD.add_fin, xlog_fin (show 0 < x + 1 by linarith), XD.div_fin _ _ hl10.ne', XD.neg, xexp, sub_fin, xsqrt_fin he,
      XD.div_fin _ (2:ℝ) (by norm_num), XD.div_fin _ (10:ℝ) (by norm_num), XD.div_fin _ (50:ℝ) (by norm_num), XD.mul_fin, effect]
  · unfold effect; positivity
  · intro h1 h2
    have a1 : 0 < Real.log (x + 1) := Real.log_pos (by linarith)
    have a2 : 0 < 1 - Real.exp (-x / 50) := by
      have : Real.exp (-x / 50) < 1 := by rw [Real.exp_lt_one_iff]; linarith
      linarith
    have a3 := Real.sqrt_pos.2 h2
    unfold effect; positivity
  · intro x' e' h1 h2
    have a1 : Real.log (x + 1) ≤ Real.log (x' + 1) := Real.log_le_log (by linarith) (by linarith)
    have a2 : Real.sqrt e ≤ Real.sqrt e' := Real.sqrt_le_sqrt h2
    have a3 := Real.exp_le_exp.2 (show -x' / 50 ≤ -x / 50 by linarith)
    have a4 : 0 ≤ Real.log (x' + 1) := hl.trans a1
    unfold effect
    gcongr

example : 0 < effect 5 30 := (C266_magnitude 5 30 (by norm_num) (by norm_num)).2.2.1 (by norm_num) (by norm_num)

/-! ### C267: simulation -/

/-- A draw the distributions can make: energy and hit not negative, a location up to the given one. -/
def Valid (d : Draw) : Prop := 0 ≤ d.energy ∧ 0 ≤ d.hit ∧ ∀ b, d.location b ≤ b

theorem let_fin (p : Params) (t : Particle) {e : ℝ} (he : 0 < e) (m : Material) : ∃ l : ℝ, calculateLET p t e m = .fin l := by
  unfold calculateLET
  split
  · exact ⟨_, bethe_fin he t m⟩
  · exact ⟨_, empirical_law t he m⟩

theorem mul_zero_cases (x : XD) : x.mul (.fin 0) = .fin 0 ∨ x.mul (.fin 0) = .nan := by
  cases x <;> simp [XD.mul]

theorem probability_zero (p : Params) (l : XD) : errorProbability p l 0 = .fin 0 ∨ errorProbability p l 0 = .nan := by
  unfold errorProbability
  simp only [zero_div, Real.tanh_zero]
  rcases mul_zero_cases ((XD.fin (5 / 100)).mul ((XD.fin 1).sub (xexp (XD.div l.neg (.fin 20))))) with h | h <;> rw [h] <;> simp

theorem risk_nonpos (p : Params) {x e : ℝ} (hx : x ≤ 0) (he : 0 ≤ e) : risk p x e ≤ 0 := by
  have h1 := Real.exp_pos (-p.shielding / 15)
  have h2 := Real.exp_pos (-(1 / 10) * (p.temperature - 300) / 300)
  have h3 : 0 ≤ Real.tanh (e / 50) := (tanh_bounds _).2.2 (by linarith)
  have h4 : 1 ≤ Real.exp (-x / 20) := Real.one_le_exp (by linarith)
  have h5 : 5 / 100 * (1 - Real.exp (-x / 20)) * Real.tanh (e / 50) ≤ 0 := by nlinarith
  unfold risk
  exact mul_nonpos_of_nonpos_of_nonneg (mul_nonpos_of_nonpos_of_nonneg h5 h1.le) h2.le

/-- What a reported event is. -/
def Sound (p : Params) (size : ℕ) (d : Draw) (ev : Event) : Prop :=
  0 < ev.energy ∧ ev.energy = d.energy ∧ ev.angle = d.angle ∧ ev.particle = sampleParticle d.kind ∧ ev.location ≤ lastLocation size ∧
  ∃ x : ℝ, 0 < x ∧ ev.«let» = .fin x ∧ calculateLET p ev.particle ev.energy .silicon = .fin x ∧
    ev.probability = .fin (risk p x ev.energy) ∧ d.hit < risk p x ev.energy ∧ risk p x ev.energy ≤ worst p ∧
    ev.type = errorType (.fin x) d.type ∧ ev.magnitude = .fin (LetSim.effect x ev.energy) ∧ 0 < LetSim.effect x ev.energy

theorem event_sound (p : Params) (n : ℕ) (d : Draw) (hd : Valid d) (ev : Event) (h : particleEvent p n d = some ev) : Sound p n d ev := by
  unfold particleEvent at h
  simp only at h
  split at h
  · rename_i hlt
    obtain rfl := Option.some.inj h
    have he : 0 < d.energy := by
      rcases hd.1.eq_or_lt with h0 | h0
      · rw [← h0] at hlt
        rcases probability_zero p (calculateLET p (sampleParticle d.kind) 0 .silicon) with hz | hz
        · rw [hz, XD.lt_fin] at hlt
          linarith [hd.2.1]
        · rw [hz] at hlt
          exact absurd hlt (by simp)
      · exact h0
    obtain ⟨x, hx⟩ := let_fin p (sampleParticle d.kind) he .silicon
    rw [hx, probability_fin, XD.lt_fin] at hlt
    have hx0 : 0 < x := by
      by_contra hc
      have := risk_nonpos p (not_lt.1 hc) he.le
      linarith [hd.2.1]
    have hm := C266_magnitude x d.energy hx0.le he.le
    refine ⟨he, rfl, rfl, rfl, hd.2.2 _, x, hx0, hx, hx, ?_, hlt, (C266_probability p x d.energy hx0.le he.le).2.2.1, ?_, ?_, hm.2.2.1 hx0 he⟩
    · dsimp only; rw [hx, probability_fin]
    · dsimp only; rw [hx]
    · dsimp only; rw [hx]; exact hm.1
  · cases h

/-- **C267.** For every environment, memory size, flux and duration of less than 2³¹ expected particles a simulation is defined and reports at most one event for each
particle, in the order of the particles. Each reported event has a positive energy, LET and magnitude, a location in the memory (unless that is empty), the probability, type
and magnitude that belong to its LET and energy, and a draw below that probability. -/
theorem C267_simulate (p : Params) (n : ℕ) (flux : ℝ) (ms : ℤ) (draws : ℕ → Draw) (hd : ∀ i, Valid (draws i)) (hf : 0 ≤ flux) (hms : 0 ≤ ms)
    (h : flux * ((ms : ℝ) / 1000) < 2 ^ 31) :
    ∃ evs, simulate p n flux ms draws = .ok evs ∧ (evs.length : ℝ) ≤ flux * ((ms : ℝ) / 1000) ∧
      (∀ ev ∈ evs, ∃ i : ℕ, (i : ℝ) < flux * ((ms : ℝ) / 1000) ∧ Sound p n (draws i) ev) ∧
      (0 < n → n < 2 ^ 64 → ∀ ev ∈ evs, ev.location < n) := by
  have h0 : 0 ≤ flux * ((ms : ℝ) / 1000) := by
    have : (0:ℝ) ≤ (ms : ℝ) := by exact_mod_cast hms
    positivity
  have hc : Phys.castInt (flux * 1 * ((ms : ℝ) / 1000)) = .ok ⌊flux * ((ms : ℝ) / 1000)⌋ := by
    unfold Phys.castInt
    rw [mul_one, if_pos ⟨by linarith, h⟩, if_pos h0]
  have hfl : (0:ℤ) ≤ ⌊flux * ((ms : ℝ) / 1000)⌋ := Int.floor_nonneg.2 h0
  have hN : ((⌊flux * ((ms : ℝ) / 1000)⌋.toNat : ℕ) : ℝ) ≤ flux * ((ms : ℝ) / 1000) := by
    have h1 : ((⌊flux * ((ms : ℝ) / 1000)⌋.toNat : ℤ) : ℝ) = (⌊flux * ((ms : ℝ) / 1000)⌋ : ℝ) := by rw [Int.toNat_of_nonneg hfl]
    have h2 := Int.floor_le (flux * ((ms : ℝ) / 1000))
    rw [← h1] at h2
    exact_mod_cast h2
  have hmem : ∀ ev ∈ (List.range ⌊flux * ((ms : ℝ) / 1000)⌋.toNat).filterMap (fun i => particleEvent p n (draws i)),
      ∃ i : ℕ, (i : ℝ) < flux * ((ms : ℝ) / 1000) ∧ Sound p n (draws i) ev := by
    intro ev hev
    obtain ⟨i, hi, he⟩ := List.mem_filterMap.1 hev
    refine ⟨i, lt_of_lt_of_le ?_ hN, event_sound p n _ (hd i) ev he⟩
    exact_mod_cast List.mem_range.1 hi
  refine ⟨_, ?_, ?_, hmem, ?_⟩
  · unfold simulate
    rw [hc]
    rfl
  · refine le_trans ?_ hN
    have := List.length_filterMap_le (fun i => particleEvent p n (draws i)) (List.range ⌊flux * ((ms : ℝ) / 1000)⌋.toNat)
    rw [List.length_range] at this
    exact_mod_cast this
  · intro hn hn2 ev hev
    obtain ⟨i, _, hs⟩ := hmem ev hev
    have hl := hs.2.2.2.2.1
    have : lastLocation n = n - 1 := by unfold lastLocation; omega
    omega

example : Valid ⟨30, 1, 1 / 2, fun b => b / 2, 0, 1 / 2⟩ := ⟨by norm_num, by norm_num, fun b => Nat.div_le_self b 2⟩

/-- **C267 (an event).** The events are really there: a proton of 30 MeV whose draw is 0 is reported, in every environment. -/
theorem C267_reported (p : Params) (n : ℕ) (d : Draw) (he : d.energy = 30) (hk : d.kind < 7 / 10) (hh : d.hit = 0) : ∃ ev, particleEvent p n d = some ev := by
  have ht : sampleParticle d.kind = .proton := if_pos hk
  obtain ⟨x, hx, hx0⟩ : ∃ x : ℝ, calculateLET p .proton 30 .silicon = .fin x ∧ 0 < x := by
    unfold calculateLET
    split
    · exact ⟨_, bethe_fin (by norm_num) _ _, proton_pos (by norm_num) (by norm_num)⟩
    · exact ⟨_, empirical_law _ (by norm_num) _, mul_pos (base_law _ (by norm_num)).2 (factor_pos _)⟩
  have hr : 0 < risk p x 30 := by
    have h1 := Real.exp_pos (-p.shielding / 15)
    have h2 := Real.exp_pos (-(1 / 10) * (p.temperature - 300) / 300)
    have h3 : 0 < Real.tanh (30 / 50) := (tanh_bounds _).2.1.2 (by norm_num)
    have h6 : 0 < 1 - Real.exp (-x / 20) := by
      have : Real.exp (-x / 20) < 1 := by rw [Real.exp_lt_one_iff]; linarith
      linarith
    unfold risk; positivity
  unfold particleEvent
  simp only [ht, he, hx, probability_fin, hh, XD.lt_fin, if_pos hr]
  exact ⟨_, rfl⟩

/-- **C267, violated: empty memory.** For a memory of no bytes the last location is `2⁶⁴ - 1`: a simulation can report an upset of any byte of the address space. -/
theorem C267_empty_violated (k : ℕ) (hk : k < 2 ^ 64) : ∃ d : Draw, Valid d ∧ ∃ ev, particleEvent {} 0 d = some ev ∧ ev.location = k := by
  have h0 : lastLocation 0 = 2 ^ 64 - 1 := by decide
  have hd : Valid ⟨30, 1, 1 / 2, fun b => min k b, 0, 1 / 2⟩ := ⟨by norm_num, by norm_num, fun b => min_le_right _ _⟩
  refine ⟨_, hd, ?_⟩
  obtain ⟨ev, hev⟩ := C267_reported {} 0 ⟨30, 1, 1 / 2, fun b => min k b, 0, 1 / 2⟩ rfl (by norm_num) rfl
  refine ⟨ev, hev, ?_⟩
  unfold particleEvent at hev
  simp only at hev
  split at hev
  · obtain rfl := Option.some.inj hev
    dsimp only
    rw [h0]
    omega
  · cases hev

/-- **C267, violated: duration.** The number of particles is an `int`: five days at the default mean flux are undefined. -/
theorem C267_duration_violated (p : Params) (n : ℕ) (flux : ℝ) (ms : ℤ) (draws : ℕ → Draw) (hf : baseFlux {} ≤ flux) (hms : 5 * 86400000 ≤ ms) :
    simulate p n flux ms draws = .ub := by
  have h1 : (5000:ℝ) ≤ flux := (C263_altitude_violated { altitude := 36000 } (by norm_num) (by norm_num)).2.le.trans hf
  have h2 : (5 * 86400000 : ℝ) ≤ (ms : ℝ) := by exact_mod_cast hms
  have h3 : (2:ℝ) ^ 31 ≤ flux * 1 * ((ms : ℝ) / 1000) := by
    have : (5000:ℝ) * (5 * 86400) ≤ flux * ((ms : ℝ) / 1000) := mul_le_mul h1 (by linarith) (by norm_num) (by linarith)
    norm_num at this ⊢
    linarith
  unfold simulate Phys.castInt
  rw [if_neg (by rintro ⟨-, h⟩; linarith)]
  rfl

example : baseFlux {} ≤ baseFlux {} + 1 ∧ (5 * 86400000 : ℤ) ≤ 432000000 := by constructor <;> [linarith; norm_num]

/-- **C267, violated: environment.** Altitude, solar activity, anomaly and with them the mean LET enter the simulation by the drawn flux only: events have the same particles,
LET and probabilities in every orbit. The distribution of the LET is never drawn from. -/
theorem C267_environment_violated (p : Params) (altitude solar : ℝ) (saa : Bool) (n : ℕ) (flux : ℝ) (ms : ℤ) (draws : ℕ → Draw) :
    simulate { p with altitude := altitude, solar := solar, saa := saa } n flux ms draws = simulate p n flux ms draws := rfl

/-- **C267 (kinds of particle).** 70 % of the draws are protons, 25 % electrons and 5 % heavy ions; no other kind is ever drawn. -/
theorem C267_kinds (u : ℝ) :
    (sampleParticle u = .proton ↔ u < 0.7) ∧ (sampleParticle u = .electron ↔ 0.7 ≤ u ∧ u < 0.95) ∧ (sampleParticle u = .heavyIon ↔ 0.95 ≤ u) := by
  unfold sampleParticle
  refine ⟨?_, ?_, ?_⟩ <;> norm_num <;> split_ifs <;> simp <;> first | linarith | (intros; linarith) | (refine ⟨?_, ?_⟩ <;> linarith)

end Verif.Props.LetSim
