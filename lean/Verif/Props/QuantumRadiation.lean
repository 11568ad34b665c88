import Verif.Props.QuantumPhysics
import Verif.Spec.Bits
import Mathlib.Analysis.Complex.ExponentialBounds
/-!
Properties C172–C177: charge deposition, critical charge, sensitivity, bit-flip probability, multi-bit upsets and radiation applied to memory (`QuantumEnhancedRadiation`).
-/
namespace Verif.QuantumPhysics
open Verif.QuantumField

/-- A material that can exist: positive band gap, effective mass, lattice constant and critical charge, a temperature from absolute zero up. -/
def Material.Sensible (a : Material) : Prop := 0 < a.bandgap ∧ 0 < a.massRatio ∧ 0 < a.lattice ∧ 0 < a.critical ∧ 0 ≤ a.temperature

theorem default_sensible : Material.default.Sensible := by norm_num [Material.Sensible, Material.default]

/-- The particle types the class knows the mass of. -/
def HasMass (k : Particle) : Prop := k = .proton ∨ k = .electron ∨ k = .neutron ∨ k = .photon ∨ k = .heavyIon

theorem params_mass (a : Material) (k : Particle) : (HasMass k → ∃ m, a.params.masses k = some m ∧ 0 < m) ∧ (¬ HasMass k → a.params.masses k = none) := by
  cases k <;> simp [HasMass, Material.params, defaultMass] <;> norm_num

theorem hbar_pos (a : Material) : 0 < a.params.hbar := by norm_num [Material.params, hbarEv]

theorem tunnelFor_proton (a : Material) (b T : ℝ) : ∃ t, tunnelFor a.params .proton b T = .ok t ∧ 0 ≤ t ∧ t ≤ 1 ∧ t = tunnel b (1.6726219 * 10⁻¹ ^ 27) hbarEv T :=
  ⟨_, (C166_type a.params .proton b T).1 _ rfl, (C166_range _ _ _ _).1, (C166_range _ _ _ _).2, rfl⟩

/-! ### C172: charge deposition -/

theorem efficiency_sram (a : Material) (q : ℝ) : ∃ e, efficiency a q .sram6 = .ok e ∧ 9 / 10 ≤ e ∧ e ≤ 1 := by
  obtain ⟨t, h, t0, t1, _⟩ := tunnelFor_proton a (a.bandgap * 0.5) a.temperature
  unfold efficiency
  simp only []
  by_cases hq : q < a.critical * 0.1
  · rw [if_pos hq, h]
    refine ⟨_, rfl, ?_, ?_⟩ <;> split_ifs <;> norm_num <;> norm_num at * <;> linarith
  · rw [if_neg hq]
    refine ⟨_, rfl, ?_, ?_⟩ <;> split_ifs <;> norm_num <;> norm_num at *

theorem deposit_eq (a : Material) (E l : ℝ) (k : Particle) (hk : HasMass k) (ha : a.Sensible) : ∃ f e, deposit a E l k = .ok (l * (139 / 500) * f * e) ∧
    1 ≤ f ∧ f ≤ 1 + kB * a.temperature / a.bandgap ∧ 9 / 10 ≤ e ∧ e ≤ 1 := by
  obtain ⟨hb, _, hl, _, hT⟩ := ha
  obtain ⟨m, hm, hm0⟩ := (params_mass a k).1 hk
  have hpr : ∀ j, Processed (impactDefects (l * 0.278) k) [k] j ↔ j = k := by intro j; simp [Processed]
  obtain ⟨d', h1, _, h3⟩ := (C168_correct a.params a.crystal a.temperature [k] (impactDefects (l * 0.278) k)).2 (fun j hj => by rw [(hpr j).1 hj]; exact ⟨m, hm⟩)
  obtain ⟨fi, fv, fc, e1, e2, e3, g1, g2, g3⟩ := h3 k m ((hpr _).2 rfl) hm
  have hf := C168_factors a.params a.crystal a.temperature m (by simpa [Material.crystal] using hb) hT (hbar_pos a) hm0 (by simp only [Material.crystal]; positivity) (by norm_num [Material.params])
  obtain ⟨_, s1, _, f1, f2, f3, f4, f5, _⟩ := hf
  have s := s1 (by simp [Material.params])
  rw [s, mul_one] at e1 e2 e3
  rw [← e1, ← e2] at f2
  rw [← e1] at f3
  rw [← e2] at f1
  rw [← e3] at f4 f5
  have cb : a.crystal.barrier = a.bandgap := rfl
  rw [cb] at f3 f5
  have t1 : total d'.inter k = l * 0.278 * 0.3 * fi := by simp [total, g1, impactDefects, putAt]
  have t2 : total d'.vac k = l * 0.278 * 0.5 * fv := by simp [total, g2, impactDefects, putAt]
  have t3 : total d'.clus k = l * 0.278 * 0.2 * fc := by simp [total, g3, impactDefects, putAt]
  obtain ⟨e, he, e0, e4⟩ := efficiency_sram a (total d'.inter k + total d'.vac k + total d'.clus k)
  refine ⟨0.3 * fi + 0.5 * fv + 0.2 * fc, e, ?_, ?_, ?_, e0, e4⟩
  · unfold deposit
    rw [h1, R.ok_bind]
    simp only []
    rw [he, R.ok_bind, t1, t2, t3]
    congr 1
    ring
  · norm_num; linarith
  · norm_num; linarith

/-- C172: the charge deposited is between 0.9 times the classical charge 0.278·LET and the classical charge raised by the ratio of thermal energy to band gap; types without a known mass are refused. -/
theorem C172_deposit (a : Material) (E l : ℝ) (k : Particle) (ha : a.Sensible) (hl : 0 ≤ l) :
    (¬ HasMass k → deposit a E l k = .throw .runtime) ∧
    (HasMass k → ∃ q, deposit a E l k = .ok q ∧ 9 / 10 * (139 / 500 * l) ≤ q ∧ q ≤ 139 / 500 * l * (1 + 8.617333262 / 10 ^ 5 * a.temperature / a.bandgap) ∧ (l = 0 → q = 0)) := by
  constructor
  · intro hk
    have : correct a.params a.crystal a.temperature [k] (impactDefects (l * 0.278) k) = .throw .runtime :=
      (C168_correct _ _ _ _ _).1 ⟨k, by simp [Processed], (params_mass a k).2 hk⟩
    unfold deposit
    rw [this]; rfl
  · intro hk
    obtain ⟨f, e, h, f1, f2, e0, e1⟩ := deposit_eq a E l k hk ha
    refine ⟨_, h, ?_, ?_, fun h0 => by rw [h0]; ring⟩
    · have : 1 * (9 / 10) ≤ f * e := mul_le_mul f1 e0 (by norm_num) (by linarith)
      nlinarith
    · have k0 : kB = 8.617333262 / 10 ^ 5 := by unfold kB; norm_num
      rw [k0] at f2
      have : f * e ≤ (1 + 8.617333262 / 10 ^ 5 * a.temperature / a.bandgap) * 1 := mul_le_mul f2 e1 (by linarith) (by linarith)
      nlinarith

/-- C172 (violated): the energy of the particle plays no part. -/
theorem C172_energy_violated (a : Material) (E E' l : ℝ) (k : Particle) : deposit a E l k = deposit a E' l k := rfl

/-- C172 (violated): the heavy ion is lighter than an electron. -/
theorem C172_ion_violated (a : Material) : ∃ m e, a.params.masses .heavyIon = some m ∧ a.params.masses .electron = some e ∧ m < e / 40 :=
  ⟨_, _, rfl, rfl, by norm_num⟩

/-- C172 (violated): the lattice constant, already in metres, is taken for ångströms: the zero-point energy of every particle type exceeds 10¹⁵ eV up to 1000 K, so that the cluster share only ever has its cap as factor. -/
theorem C172_lattice_violated (k : Particle) (m T : ℝ) (hk : Material.default.params.masses k = some m) (hT : 0 ≤ T) (hT' : T ≤ 1000) :
    10 ^ 15 < zeroPoint Material.default.params.hbar m Material.default.crystal.constant T ∧
    (enhancement Material.default.params Material.default.crystal T m).2.2 = 1 + kB * T / Material.default.crystal.barrier := by
  have hm : 0 < m ∧ m ≤ 1.6749275 * 10⁻¹ ^ 27 := by
    cases k <;> simp [Material.params, defaultMass] at hk <;> subst hk <;> norm_num
  have hz : (10 ^ 15 : ℝ) < zeroPoint Material.default.params.hbar m Material.default.crystal.constant T := by
    refine lt_of_lt_of_le ?_ (C167_monotone _ m (1.6749275 * 10⁻¹ ^ 27) _ Material.default.crystal.constant T 1000 (hbar_pos _) hm.1 hm.2 (by norm_num [Material.crystal, Material.default]) le_rfl hT hT')
    rw [(C167_formula _ _ _ 1000 (hbar_pos _) (by norm_num) (by norm_num [Material.crystal, Material.default]) (by norm_num)).1]
    have : (7 * 10 ^ 13 : ℝ) ≤ Real.sqrt (10 / (1.6749275 * 10⁻¹ ^ 27)) := by apply Real.le_sqrt_of_sq_le; norm_num
    simp only [Material.params, Material.crystal, Material.default, hbarEv]
    norm_num at this ⊢
    linarith
  refine ⟨hz, ?_⟩
  unfold enhancement
  simp only []
  apply min_eq_right
  have hb : Material.default.crystal.barrier = 1.12 := rfl
  rw [hb]
  have hk : kB ≤ 1 := by unfold kB; norm_num
  have : kB * T ≤ 1000 := by nlinarith [kB_pos]
  have h2 : kB * T / 1.12 ≤ 2 * zeroPoint Material.default.params.hbar m Material.default.crystal.constant T / 1.12 := by
    apply div_le_div_of_nonneg_right _ (by norm_num)
    norm_num at hz
    linarith
  linarith

/-- C172: 10 MeV·cm²/mg in the default silicon deposit between 2.5 and 2.9 fC. -/
example : ∃ q, deposit .default 50 10 .proton = .ok q ∧ 5 / 2 ≤ q ∧ q ≤ 29 / 10 := by
  obtain ⟨q, h, h1, h2, _⟩ := (C172_deposit .default 50 10 .proton default_sensible (by norm_num)).2 (by simp [HasMass])
  norm_num [Material.default] at h1 h2
  exact ⟨q, h, by linarith, by linarith⟩

/-! ### C173: critical charge -/

theorem critical_eq (a : Material) (base T : ℝ) : ∃ t, criticalCharge a base T = .ok (max (base * (1 - 3 / 10 * t) * (1 + (T - 300) / 1000)) (base / 2)) ∧ 0 ≤ t ∧ t ≤ 1 ∧
    t = tunnel a.bandgap (1.6726219 * 10⁻¹ ^ 27) hbarEv T := by
  obtain ⟨t, h, t0, t1, e⟩ := tunnelFor_proton a a.bandgap T
  refine ⟨t, ?_, t0, t1, e⟩
  unfold criticalCharge
  rw [h, R.ok_bind]
  norm_num
  ring_nf

/-- C173: the corrected critical charge of a positive base charge is at least half of it and at most the base charge with its weak linear temperature dependence (or half the base, whichever is larger); it never falls when the base charge grows; the call never fails. -/
theorem C173_critical (a : Material) (base T : ℝ) (hb : 0 ≤ base) (hT : 0 ≤ T) : ∃ c, criticalCharge a base T = .ok c ∧ base / 2 ≤ c ∧ c ≤ base * max (1 + (T - 300) / 1000) (1 / 2) ∧
    7 / 10 * (base * (1 + (T - 300) / 1000)) ≤ c ∧ ∀ base', base ≤ base' → ∃ c', criticalCharge a base' T = .ok c' ∧ c ≤ c' := by
  obtain ⟨t, h, t0, t1, e⟩ := critical_eq a base T
  have f0 : 0 ≤ 1 + (T - 300) / 1000 := by linarith
  refine ⟨_, h, le_max_right _ _, ?_, ?_, fun base' hb' => ?_⟩
  · rw [mul_max_of_nonneg _ _ hb]
    apply max_le_max
    · apply mul_le_mul_of_nonneg_right _ f0
      nlinarith
    · linarith
  · refine le_trans ?_ (le_max_left _ _)
    have : 0 ≤ base * (1 + (T - 300) / 1000) := by positivity
    nlinarith
  · obtain ⟨t', h', _, _, e'⟩ := critical_eq a base' T
    refine ⟨_, h', ?_⟩
    have : t' = t := by rw [e, e']
    rw [this]
    apply max_le_max
    · apply mul_le_mul_of_nonneg_right _ f0
      apply mul_le_mul_of_nonneg_right hb' (by linarith)
    · linarith

/-- C173 (violated): "At lower temperatures, quantum effects make bit flips easier": the part of the critical charge taken away by tunnelling never grows when the temperature falls. -/
theorem C173_cold_violated (a : Material) (base T T' : ℝ) (ha : a.Sensible) (hT : 0 ≤ T) (hTT : T ≤ T') : ∃ t t', t ≤ t' ∧
    criticalCharge a base T = .ok (max (base * (1 - 3 / 10 * t) * (1 + (T - 300) / 1000)) (base / 2)) ∧ criticalCharge a base T' = .ok (max (base * (1 - 3 / 10 * t') * (1 + (T' - 300) / 1000)) (base / 2)) := by
  obtain ⟨t, h, _, _, e⟩ := critical_eq a base T
  obtain ⟨t', h', _, _, e'⟩ := critical_eq a base T'
  refine ⟨t, t', ?_, h, h'⟩
  rw [e, e']
  exact C166_monotone a.bandgap a.bandgap _ _ hbarEv T T' ha.1 le_rfl (by norm_num) le_rfl (by norm_num [hbarEv]) hT hTT

/-- C173: 15 fC at 300 K stay between 10.5 and 15 fC. -/
example : ∃ c, criticalCharge .default 15 300 = .ok c ∧ 21 / 2 ≤ c ∧ c ≤ 15 := by
  obtain ⟨c, h, _, h1, h2, _⟩ := C173_critical .default 15 300 (by norm_num) (by norm_num)
  norm_num at h1 h2
  exact ⟨c, h, by linarith, by linarith⟩

/-! ### C174: sensitivity -/

/-- The sensitivity of a device of at least 100 nm, as its comments give it. -/
noncomputable def specSensitivity : Device → ℝ
  | .sram6 => 1
  | .sram8 => 7 / 10
  | .dram => 3 / 2
  | .slc => 3 / 10
  | .mlc => 4 / 5
  | .mram => 1 / 10
  | .fram => 1 / 5

theorem base_spec (dev : Device) : baseSensitivity dev = specSensitivity dev := by cases dev <;> norm_num [baseSensitivity, specSensitivity]

theorem sens_small (a : Material) (dev : Device) (s : ℝ) (h : s < 100) : sensitivity a dev s = specSensitivity dev * (1 + (hbarEv * Real.pi) ^ 2 / (2 * a.massRatio * (9.109 / 10 ^ 31) * (s / 10 ^ 9) ^ 2) / q0 / a.bandgap) := by
  unfold sensitivity
  rw [if_pos h, base_spec]
  congr 3
  norm_num
  ring_nf

/-- C174: from 100 nm the sensitivity is that of the kind of device; below it is raised by the ratio of the confinement energy ħ²π²/(2·m·L²) to the band gap, so it is never below that of the kind and never falls when features shrink. -/
theorem C174_sensitivity (a : Material) (dev : Device) (s : ℝ) (ha : a.Sensible) (hs : 0 < s) :
    (100 ≤ s → sensitivity a dev s = specSensitivity dev) ∧
    (s < 100 → sensitivity a dev s = specSensitivity dev * (1 + (hbarEv * Real.pi) ^ 2 / (2 * a.massRatio * (9.109 / 10 ^ 31) * (s / 10 ^ 9) ^ 2) / q0 / a.bandgap)) ∧
    specSensitivity dev ≤ sensitivity a dev s ∧ ∀ s', s ≤ s' → sensitivity a dev s' ≤ sensitivity a dev s := by
  obtain ⟨hb, hm, _⟩ := ha
  have hq := q0_pos
  have hp : 0 < specSensitivity dev := by cases dev <;> norm_num [specSensitivity]
  have big : ∀ s : ℝ, 100 ≤ s → sensitivity a dev s = specSensitivity dev := by
    intro s h
    unfold sensitivity
    rw [if_neg (not_lt.2 h), base_spec, mul_one]
  have low : specSensitivity dev ≤ sensitivity a dev s := by
    rcases lt_or_ge s 100 with h | h
    · rw [sens_small a dev s h]
      have : 0 ≤ (hbarEv * Real.pi) ^ 2 / (2 * a.massRatio * (9.109 / 10 ^ 31) * (s / 10 ^ 9) ^ 2) / q0 / a.bandgap := by positivity
      nlinarith
    · rw [big s h]
  refine ⟨big s, sens_small a dev s, low, fun s' hs' => ?_⟩
  rcases lt_or_ge s' 100 with h | h
  · rw [sens_small a dev s (lt_of_le_of_lt hs' h), sens_small a dev s' h]
    have h2 : (s / 10 ^ 9) ^ 2 ≤ (s' / 10 ^ 9) ^ 2 := by
      apply pow_le_pow_left₀ (by positivity)
      apply div_le_div_of_nonneg_right hs' (by positivity)
    apply mul_le_mul_of_nonneg_left _ hp.le
    gcongr
  · rw [big s' h]; exact low

/-- C174 (violated): the units do not fit (ħ in eV·s with a mass in kg): just below 100 nm the sensitivity of the default material jumps by a factor of more than 10³³. -/
theorem C174_jump_violated (dev : Device) (s : ℝ) (h0 : 0 < s) (h : s < 100) : 10 ^ 33 * sensitivity .default dev 100 < sensitivity .default dev s := by
  have hp : 0 < specSensitivity dev := by cases dev <;> norm_num [specSensitivity]
  rw [(C174_sensitivity .default dev 100 default_sensible (by norm_num)).1 le_rfl, sens_small _ _ _ h]
  have hpi := Real.pi_gt_three
  have e : (10 ^ 33 : ℝ) ≤ (hbarEv * Real.pi) ^ 2 / (2 * Material.default.massRatio * (9.109 / 10 ^ 31) * (s / 10 ^ 9) ^ 2) / q0 / Material.default.bandgap := by
    have q1 : q0 = 1.602176634 * 10⁻¹ ^ 19 := rfl
    have b1 : (hbarEv * 3) ^ 2 / (2 * Material.default.massRatio * (9.109 / 10 ^ 31) * (100 / 10 ^ 9) ^ 2) / q0 / Material.default.bandgap ≤
        (hbarEv * Real.pi) ^ 2 / (2 * Material.default.massRatio * (9.109 / 10 ^ 31) * (s / 10 ^ 9) ^ 2) / q0 / Material.default.bandgap := by
      have hh : 0 < hbarEv := by norm_num [hbarEv]
      have hm : 0 < Material.default.massRatio := default_sensible.2.1
      have hb : 0 < Material.default.bandgap := default_sensible.1
      have hq := q0_pos
      have : (s / 10 ^ 9) ^ 2 ≤ (100 / 10 ^ 9) ^ 2 := by
        apply pow_le_pow_left₀ (by positivity)
        apply div_le_div_of_nonneg_right h.le (by positivity)
      gcongr
    refine le_trans ?_ b1
    rw [q1]
    norm_num [hbarEv, Material.default]
  nlinarith

/-- C174: a 130 nm FRAM has a fifth of the baseline sensitivity. -/
example : sensitivity .default .fram 130 = 1 / 5 := by
  rw [(C174_sensitivity .default .fram 130 default_sensible (by norm_num)).1 (by norm_num)]; rfl

/-! ### C175: bit-flip probability -/

/-- The critical charge of a kind of device in multiples of that of the material. -/
noncomputable def specCharge : Device → ℝ
  | .sram6 => 1
  | .sram8 => 7 / 5
  | .dram => 4 / 5
  | .slc => 5
  | .mlc => 2
  | .mram => 10
  | .fram => 8

theorem charge_spec (dev : Device) : chargeFactor dev = specCharge dev ∧ 0 < specCharge dev := by cases dev <;> norm_num [chargeFactor, specCharge]

/-- C175: the bit-flip probability is a probability, whatever the arguments; without charge it is 0; otherwise it is the Weibull probability 1 − exp(−(q/c)²) for the corrected critical charge c of the kind of device, raised by a tenth of the tunnelling probability below a tenth of c. -/
theorem C175_probability (a : Material) (q : ℝ) (dev : Device) (T : ℝ) : ∃ p c, flipProbability a q dev T = .ok p ∧ criticalCharge a (a.critical * specCharge dev) T = .ok c ∧ 0 ≤ p ∧ p ≤ 1 ∧
    (q ≤ 0 → p = 0) ∧ (0 < q → 0 < c → c ≤ 10 * q → p = 1 - Real.exp (-(q / c) ^ 2)) ∧
    (0 < q → 0 < c → 10 * q < c → ∃ t, tunnelFor a.params .proton a.bandgap T = .ok t ∧ p = min 1 (1 - Real.exp (-(q / c) ^ 2) + t / 10)) ∧ (0 < q → 0 < c → 0 < p) := by
  obtain ⟨t, h, _⟩ := critical_eq a (a.critical * specCharge dev) T
  obtain ⟨t', h', t0, t1, _⟩ := tunnelFor_proton a a.bandgap T
  generalize hc : max (a.critical * specCharge dev * (1 - 3 / 10 * t) * (1 + (T - 300) / 1000)) (a.critical * specCharge dev / 2) = c at h
  have e0 : flipProbability a q dev T = if q ≤ 0 ∨ c ≤ 0 then .ok 0 else if q / c < 0.1 then .ok (unit (1 - Real.exp (-(q / c / 1) ^ 2) + t' * 0.1)) else .ok (unit (1 - Real.exp (-(q / c / 1) ^ 2))) := by
    unfold flipProbability
    rw [(charge_spec dev).1, h, R.ok_bind]
    simp only []
    rw [h', R.ok_bind]
  by_cases h0 : q ≤ 0 ∨ c ≤ 0
  · rw [if_pos h0] at e0
    refine ⟨0, c, e0, h, le_rfl, by norm_num, fun _ => rfl, fun a b => ?_, fun a b => ?_, fun a b => ?_⟩ <;> (exfalso; rcases h0 with h0 | h0 <;> linarith)
  · rw [if_neg h0] at e0
    rw [not_or, not_le, not_le] at h0
    have w0 : 0 < 1 - Real.exp (-(q / c) ^ 2) := by
      have : Real.exp (-(q / c) ^ 2) < 1 := by
        rw [← Real.exp_zero]
        apply Real.exp_lt_exp.2
        have : 0 < (q / c) ^ 2 := pow_pos (div_pos h0.1 h0.2) 2
        linarith
      linarith
    have w1 : 1 - Real.exp (-(q / c) ^ 2) < 1 := by have := Real.exp_pos (-(q / c) ^ 2); linarith
    rw [div_one] at e0
    by_cases h1 : q / c < 0.1
    · rw [if_pos h1] at e0
      have h1' : 10 * q < c := by rw [div_lt_iff₀ h0.2] at h1; norm_num at h1; linarith
      have u : unit (1 - Real.exp (-(q / c) ^ 2) + t' * 0.1) = min 1 (1 - Real.exp (-(q / c) ^ 2) + t' / 10) := by
        have e : t' * 0.1 = t' / 10 := by norm_num; ring
        rw [e]
        unfold unit
        rw [if_neg (by linarith)]
        split
        · rw [min_eq_left (by linarith)]
        · rw [min_eq_right (by linarith)]
      refine ⟨_, c, e0, h, (unit_range _).1, (unit_range _).2, fun _ => by linarith [h0.1], fun _ _ _ => by linarith, fun _ _ _ => ⟨t', h', u⟩, fun _ _ => ?_⟩
      rw [u]
      exact lt_min (by norm_num) (by linarith)
    · rw [if_neg h1] at e0
      have h1' : c ≤ 10 * q := by rw [div_lt_iff₀ h0.2] at h1; norm_num at h1; linarith
      refine ⟨_, c, e0, h, (unit_range _).1, (unit_range _).2, fun _ => by linarith [h0.1], fun _ _ _ => unit_id (by linarith) (by linarith), fun _ _ _ => by linarith, fun _ _ => ?_⟩
      rw [unit_id (by linarith) (by linarith)]
      exact w0

/-- C175: from a tenth of the critical charge on the probability never falls with the charge, nor when the device is exchanged for one of smaller critical charge. -/
theorem C175_monotone (a : Material) (q q' c : ℝ) (dev dev' : Device) (T : ℝ) (ha : a.Sensible) (hT : 0 ≤ T) (hd : specCharge dev' ≤ specCharge dev) (hq : q ≤ q')
    (hc : criticalCharge a (a.critical * specCharge dev) T = .ok c) (h1 : c ≤ 10 * q) : ∃ p p', flipProbability a q dev T = .ok p ∧ flipProbability a q' dev' T = .ok p' ∧ p ≤ p' := by
  have hb : 0 < a.critical * specCharge dev := mul_pos ha.2.2.2.1 (charge_spec dev).2
  have hb' : 0 < a.critical * specCharge dev' := mul_pos ha.2.2.2.1 (charge_spec dev').2
  obtain ⟨p, c1, e1, e2, _, _, _, f, _⟩ := C175_probability a q dev T
  obtain ⟨p', c2, e1', e2', _, _, _, f', _⟩ := C175_probability a q' dev' T
  rw [hc] at e2
  obtain rfl : c = c1 := by injection e2
  obtain ⟨c3, g1, g2, _⟩ := C173_critical a (a.critical * specCharge dev) T hb.le hT
  rw [hc] at g1
  obtain rfl : c = c3 := by injection g1
  obtain ⟨c4, k1, k2, _, _, k3⟩ := C173_critical a (a.critical * specCharge dev') T hb'.le hT
  rw [e2'] at k1
  obtain rfl : c2 = c4 := by injection k1
  obtain ⟨c5, l1, l2⟩ := k3 (a.critical * specCharge dev) (mul_le_mul_of_nonneg_left hd ha.2.2.2.1.le)
  rw [hc] at l1
  obtain rfl : c = c5 := by injection l1
  refine ⟨p, p', e1, e1', ?_⟩
  have c0 : 0 < c := by linarith
  have c20 : 0 < c2 := by linarith
  rw [f (by linarith) c0 h1, f' (by linarith) c20 (by linarith)]
  have : q / c ≤ q' / c2 := div_le_div₀ (by linarith) hq c20 l2
  have : (q / c) ^ 2 ≤ (q' / c2) ^ 2 := pow_le_pow_left₀ (div_nonneg (by linarith) c0.le) this 2
  have := Real.exp_le_exp.2 (neg_le_neg this)
  linarith

/-- C175 (violated): more charge can mean fewer flips: at a tenth of the critical charge the probability drops by a tenth of the tunnelling probability, in every material, device and at every temperature. -/
theorem C175_drop_violated (a : Material) (dev : Device) (T : ℝ) (ha : a.Sensible) (hT : 0 ≤ T) : ∃ q q' p p', 0 < q ∧ q < q' ∧ flipProbability a q dev T = .ok p ∧ flipProbability a q' dev T = .ok p' ∧ p' < p := by
  have hb : 0 < a.critical * specCharge dev := mul_pos ha.2.2.2.1 (charge_spec dev).2
  obtain ⟨c, h1, h2, _⟩ := C173_critical a (a.critical * specCharge dev) T hb.le hT
  have c0 : 0 < c := by linarith
  obtain ⟨t, ht, t0, t1, e⟩ := tunnelFor_proton a a.bandgap T
  have tp : 0 < t := by
    rw [e, tunnel_eq ha.1 (by norm_num) (by norm_num [hbarEv]) hT]
    obtain ⟨w0, w1⟩ := wkb_range (b := a.bandgap) (m := 1.6726219 * 10⁻¹ ^ 27) (h := hbarEv) (by norm_num [hbarEv])
    obtain ⟨s0, s1⟩ := thermal_range ha.1 hT
    nlinarith
  have r0 : 0 < 1 / 100 - 9 / 1000 * t := by linarith
  have r2 : Real.sqrt (1 / 100 - 9 / 1000 * t) ^ 2 = 1 / 100 - 9 / 1000 * t := Real.sq_sqrt r0.le
  have rp : 0 < Real.sqrt (1 / 100 - 9 / 1000 * t) := Real.sqrt_pos.2 r0
  have r1 : Real.sqrt (1 / 100 - 9 / 1000 * t) < 1 / 10 := by
    rw [Real.sqrt_lt' (by norm_num)]
    linarith
  generalize Real.sqrt (1 / 100 - 9 / 1000 * t) = r at r2 rp r1
  obtain ⟨p, c1, e1, e2, _, _, _, _, f, _⟩ := C175_probability a (r * c) dev T
  obtain ⟨p', c2, e1', e2', _, _, _, f', _⟩ := C175_probability a (c / 10) dev T
  rw [h1] at e2 e2'
  obtain rfl : c = c1 := by injection e2
  obtain rfl : c = c2 := by injection e2'
  refine ⟨r * c, c / 10, p, p', by positivity, by nlinarith, e1, e1', ?_⟩
  obtain ⟨t', k1, k2⟩ := f (by positivity) c0 (by nlinarith)
  rw [ht] at k1
  obtain rfl : t = t' := by injection k1
  rw [k2, f' (by positivity) c0 (by linarith)]
  have d1 : r * c / c = r := by field_simp
  have d2 : c / 10 / c = 1 / 10 := by field_simp
  rw [d1, d2, r2]
  have x1 := Real.exp_pos (-(1 / 10 : ℝ) ^ 2)
  apply lt_min (by linarith)
  have x2 : Real.exp (-(1 / 10 : ℝ) ^ 2) = Real.exp (-(1 / 100 - 9 / 1000 * t)) * Real.exp (-(9 / 1000 * t)) := by rw [← Real.exp_add]; congr 1; ring
  have x3 := Real.add_one_le_exp (-(9 / 1000 * t))
  have x4 : Real.exp (-(1 / 100 - 9 / 1000 * t)) ≤ 1 := Real.exp_le_one_iff.2 (by linarith)
  have x5 := Real.exp_pos (-(1 / 100 - 9 / 1000 * t))
  rw [x2]
  nlinarith

/-- C175: a charge of 30 fC flips a 6T cell of the default material with at least 98 %. -/
example : ∃ p, flipProbability .default 30 .sram6 300 = .ok p ∧ 49 / 50 ≤ p := by
  obtain ⟨p, c, e1, e2, _, _, _, f, _⟩ := C175_probability .default 30 .sram6 300
  obtain ⟨c', g1, g2, g3, g4, _⟩ := C173_critical .default (Material.default.critical * specCharge .sram6) 300 (by norm_num [Material.default, specCharge]) (by norm_num)
  rw [e2] at g1
  obtain rfl : c = c' := by injection g1
  norm_num [Material.default, specCharge] at g2 g3
  refine ⟨p, e1, ?_⟩
  rw [f (by norm_num) (by linarith) (by linarith)]
  have : 2 ≤ 30 / c := by rw [le_div_iff₀ (by linarith)]; linarith
  have h4 : 4 ≤ (30 / c) ^ 2 := by nlinarith
  have h5 : Real.exp (-(30 / c) ^ 2) ≤ Real.exp (-4) := Real.exp_le_exp.2 (by linarith)
  have h6 : Real.exp (-4 : ℝ) ≤ 1 / 50 := by
    have := Real.exp_one_gt_d9
    have e4 : Real.exp (4 : ℝ) = Real.exp 1 ^ 4 := by rw [← Real.exp_nat_mul]; norm_num
    rw [Real.exp_neg, e4, ← one_div]
    apply one_div_le_one_div_of_le (by norm_num)
    have : (27 / 10 : ℝ) ^ 4 ≤ Real.exp 1 ^ 4 := pow_le_pow_left₀ (by norm_num) (by linarith) 4
    norm_num at this ⊢
    linarith
  linarith

/-! ### C176: size of a multi-bit upset -/

theorem cluster_bounds (k : Particle) : 1 ≤ clustering k ∧ clustering k ≤ 3 := by cases k <;> norm_num [clustering]

theorem mbu_eq (a : Material) (q : ℝ) (k : Particle) (hc : 0 < a.critical) (h1 : a.critical * 2 ≤ q) (h2 : q / (a.critical * 2) * clustering k ≤ 2 ^ 32 - 1) :
    mbuSize a q k = .ok (min 8 ⌈q / (a.critical * 2) * clustering k⌉.toNat) ∧ 1 ≤ ⌈q / (a.critical * 2) * clustering k⌉ := by
  have x1 : 1 ≤ q / (a.critical * 2) * clustering k := by
    have : 1 ≤ q / (a.critical * 2) := by rw [le_div_iff₀ (by linarith)]; linarith
    nlinarith [(cluster_bounds k).1]
  have c1 : 1 ≤ ⌈q / (a.critical * 2) * clustering k⌉ := by
    have := Int.le_ceil (q / (a.critical * 2) * clustering k)
    have : (1 : ℝ) ≤ (⌈q / (a.critical * 2) * clustering k⌉ : ℝ) := by linarith
    exact_mod_cast this
  have c2 : ⌈q / (a.critical * 2) * clustering k⌉ ≤ 2 ^ 32 - 1 := by
    apply Int.ceil_le.2
    norm_num at h2 ⊢
    exact h2
  refine ⟨?_, c1⟩
  unfold mbuSize
  rw [if_neg (by linarith), if_neg hc.ne']
  simp only []
  rw [if_neg (by omega)]
  congr 1
  omega

/-- C176: a particle upsets 1 bit below twice the critical charge of the material and otherwise the ratio to it times the clustering of the particle type (1 for protons, 1.2 neutrons, 3 heavy ions, 1.5 others), rounded up, at most 8. -/
theorem C176_size (a : Material) (q : ℝ) (k : Particle) (hc : 0 < a.critical) :
    (q < 2 * a.critical → mbuSize a q k = .ok 1) ∧
    (2 * a.critical ≤ q → q / (2 * a.critical) * 3 ≤ 2 ^ 32 - 1 → ∃ n : ℕ, mbuSize a q k = .ok n ∧ 1 ≤ n ∧ n ≤ 8 ∧
      n = min 8 ⌈q / (2 * a.critical) * (if k = .proton then 1 else if k = .neutron then 6 / 5 else if k = .heavyIon then 3 else 3 / 2)⌉) := by
  constructor
  · intro h
    unfold mbuSize
    rw [if_pos (by linarith)]
  · intro h h2
    have q0 : 0 ≤ q / (a.critical * 2) := div_nonneg (by linarith) (by linarith)
    rw [mul_comm 2 a.critical] at h h2 ⊢
    obtain ⟨e, c⟩ := mbu_eq a q k hc h (by nlinarith [(cluster_bounds k).2])
    refine ⟨_, e, by omega, by omega, ?_⟩
    have : clustering k = (if k = .proton then 1 else if k = .neutron then 6 / 5 else if k = .heavyIon then 3 else 3 / 2) := by
      cases k <;> simp [clustering] <;> norm_num
    rw [← this]
    push_cast
    rw [Int.toNat_of_nonneg (by omega)]

/-- C176: more charge never upsets fewer bits; heavy ions never fewer than other types, protons never more. -/
theorem C176_monotone (a : Material) (q q' : ℝ) (k : Particle) (hc : 0 < a.critical) (hq : q ≤ q') (h2 : q' / (2 * a.critical) * 3 ≤ 2 ^ 32 - 1) : ∃ n n' h p : ℕ,
    mbuSize a q k = .ok n ∧ mbuSize a q' k = .ok n' ∧ mbuSize a q .heavyIon = .ok h ∧ mbuSize a q .proton = .ok p ∧ n ≤ n' ∧ n ≤ h ∧ p ≤ n := by
  rw [mul_comm 2 a.critical] at h2
  have hx : q / (a.critical * 2) ≤ q' / (a.critical * 2) := div_le_div_of_nonneg_right hq (by linarith)
  rcases lt_or_ge q (2 * a.critical) with h | h
  · rcases lt_or_ge q' (2 * a.critical) with h' | h'
    · exact ⟨1, 1, 1, 1, (C176_size a q k hc).1 h, (C176_size a q' k hc).1 h', (C176_size a q _ hc).1 h, (C176_size a q _ hc).1 h, le_rfl, le_rfl, le_rfl⟩
    · obtain ⟨n, e, n1, _⟩ := (C176_size a q' k hc).2 h' (by rw [mul_comm 2 a.critical]; exact h2)
      exact ⟨1, n, 1, 1, (C176_size a q k hc).1 h, e, (C176_size a q _ hc).1 h, (C176_size a q _ hc).1 h, n1, le_rfl, le_rfl⟩
  · have q0 : 0 ≤ q / (a.critical * 2) := div_nonneg (by linarith) (by linarith)
    have b : ∀ j : Particle, q / (a.critical * 2) * clustering j ≤ 2 ^ 32 - 1 := fun j => by nlinarith [(cluster_bounds j).2]
    have b' : ∀ j : Particle, q' / (a.critical * 2) * clustering j ≤ 2 ^ 32 - 1 := fun j => by nlinarith [(cluster_bounds j).2]
    have mono : ∀ x y : ℝ, x ≤ y → min 8 ⌈x⌉.toNat ≤ min 8 ⌈y⌉.toNat := by
      intro x y hxy
      have := Int.ceil_le_ceil hxy
      omega
    refine ⟨_, _, _, _, (mbu_eq a q k hc (by linarith) (b k)).1, (mbu_eq a q' k hc (by linarith) (b' k)).1, (mbu_eq a q .heavyIon hc (by linarith) (b _)).1, (mbu_eq a q .proton hc (by linarith) (b _)).1, mono _ _ ?_, mono _ _ ?_, mono _ _ ?_⟩
    · exact mul_le_mul_of_nonneg_right hx (by linarith [(cluster_bounds k).1])
    · apply mul_le_mul_of_nonneg_left _ q0
      have : clustering .heavyIon = 3 := by norm_num [clustering]
      rw [this]; exact (cluster_bounds k).2
    · apply mul_le_mul_of_nonneg_left _ q0
      have : clustering .proton = 1 := by norm_num [clustering]
      rw [this]; exact (cluster_bounds k).1

/-- C176 (violated): "(1-8)": a charge of 2³³ times the critical charge overflows the conversion to 32 bits. -/
theorem C176_overflow_violated (a : Material) (q : ℝ) (k : Particle) (hc : 0 < a.critical) (h : 2 ^ 33 * a.critical ≤ q) : mbuSize a q k = .ub := by
  unfold mbuSize
  rw [if_neg (by linarith), if_neg hc.ne']
  simp only []
  rw [if_pos]
  right
  have x : (2 ^ 32 : ℝ) ≤ q / (a.critical * 2) := by rw [le_div_iff₀ (by linarith)]; linarith
  have y : (2 ^ 32 : ℝ) ≤ q / (a.critical * 2) * clustering k := by nlinarith [(cluster_bounds k).1]
  have := Int.le_ceil (q / (a.critical * 2) * clustering k)
  have : (2 ^ 32 : ℝ) ≤ (⌈q / (a.critical * 2) * clustering k⌉ : ℝ) := by linarith
  exact_mod_cast this

/-- C176: 100 fC of a heavy ion upset all 8 bits of a run, of a proton 4. -/
example : mbuSize .default 100 .heavyIon = .ok 8 ∧ mbuSize .default 100 .proton = .ok 4 := by
  have a1 := (mbu_eq .default 100 .heavyIon default_sensible.2.2.2.1 (by norm_num [Material.default]) (by norm_num [Material.default, clustering])).1
  have a2 := (mbu_eq .default 100 .proton default_sensible.2.2.2.1 (by norm_num [Material.default]) (by norm_num [Material.default, clustering])).1
  have e1 : ⌈(100 : ℝ) / (Material.default.critical * 2) * clustering .heavyIon⌉ = 10 := by rw [Int.ceil_eq_iff]; norm_num [Material.default, clustering]
  have e2 : ⌈(100 : ℝ) / (Material.default.critical * 2) * clustering .proton⌉ = 4 := by rw [Int.ceil_eq_iff]; norm_num [Material.default, clustering]
  rw [e1] at a1
  rw [e2] at a2
  exact ⟨a1, a2⟩

/-! ### C177: radiation applied to memory -/

open Verif.Spec (popcount)

/-- The number of bits in which two byte strings of the same length differ. -/
def bitDiff : List (BitVec 8) → List (BitVec 8) → ℕ
  | a :: as, b :: bs => popcount (a ^^^ b) + bitDiff as bs
  | _, _ => 0

/-- `y` is `x` with a run of `n` adjacent bits of one byte inverted. -/
def Upset (n : ℕ) (x y : List (BitVec 8)) : Prop := y.length = x.length ∧ ∃ i s, i < x.length ∧ s + n ≤ 8 ∧ (∀ j, j ≠ i → y[j]? = x[j]?) ∧
  ∃ a b, x[i]? = some a ∧ y[i]? = some b ∧ ∀ j, j < 8 → b.getLsbD j = (a.getLsbD j ^^ decide (s ≤ j ∧ j < s + n))

/-- `y` comes from `x` by a number of impacts (second argument), each without effect or an upset of 1 to `size` adjacent bits; the third argument is the number of bits inverted. -/
inductive Hits (size : ℕ) : ℕ → ℕ → List (BitVec 8) → List (BitVec 8) → Prop
  | none (x) : Hits size 0 0 x x
  | miss {n f x y} : Hits size n f x y → Hits size (n + 1) f x y
  | hit {n f b x y z} : 1 ≤ b → b ≤ size → Upset b x y → Hits size n f y z → Hits size (n + 1) (b + f) x z

theorem one_flip : ∀ (d : BitVec 8) (s : Fin 8), popcount (d ^^^ BitVec.twoPow 8 s) ≤ popcount d + 1 ∧ (popcount (d ^^^ BitVec.twoPow 8 s) + popcount d + 1) % 2 = 0 := by decide +kernel

theorem run_count (a : BitVec 8) : ∀ (n s : ℕ) (b : BitVec 8), s + n ≤ 8 → popcount (a ^^^ flipRun b s n) ≤ popcount (a ^^^ b) + n ∧ (popcount (a ^^^ flipRun b s n) + popcount (a ^^^ b) + n) % 2 = 0
  | 0, s, b, _ => by simp only [flipRun]; omega
  | n + 1, s, b, h => by
    have h1 := run_count a n (s + 1) (b ^^^ BitVec.twoPow 8 s) (by omega)
    have h2 := one_flip (a ^^^ b) ⟨s, by omega⟩
    rw [BitVec.xor_assoc] at h2
    simp only [flipRun]
    simp only [] at h2
    omega

theorem run_bit : ∀ (n s : ℕ) (b : BitVec 8) (j : ℕ), s + n ≤ 8 → j < 8 → (flipRun b s n).getLsbD j = (b.getLsbD j ^^ decide (s ≤ j ∧ j < s + n))
  | 0, s, b, j, _, hj => by simp only [flipRun]; have : ¬ (s ≤ j ∧ j < s + 0) := by omega
                            rw [decide_eq_false this, Bool.xor_false]
  | n + 1, s, b, j, h, hj => by
    simp only [flipRun]
    rw [run_bit n (s + 1) _ j (by omega) hj, BitVec.getLsbD_xor, BitVec.getLsbD_twoPow]
    have : s < 8 := by omega
    by_cases h1 : s = j
    · subst h1
      have c1 : ¬ (s + 1 ≤ s ∧ s < s + 1 + n) := by omega
      have c2 : s ≤ s ∧ s < s + (n + 1) := by omega
      simp [this, c1, c2]
    · by_cases h2 : s + 1 ≤ j ∧ j < s + 1 + n
      · have c2 : s ≤ j ∧ j < s + (n + 1) := by omega
        simp [h1, h2, c2]
      · have c2 : ¬ (s ≤ j ∧ j < s + (n + 1)) := by omega
        rw [decide_eq_false h2, decide_eq_false c2]
        simp [h1]

theorem modify_upset (x : List (BitVec 8)) (i s n : ℕ) (hi : i < x.length) (h : s + n ≤ 8) : Upset n x (x.modify i fun b => flipRun b s n) := by
  refine ⟨List.length_modify .., i, s, hi, h, fun j hj => ?_, x[i], flipRun x[i] s n, List.getElem?_eq_getElem hi, ?_, fun j hj => run_bit n s _ j h hj⟩
  · rw [List.getElem?_modify]
    simp [Ne.symm hj]
  · rw [List.getElem?_modify]
    simp [hi]

theorem impacts_hits (p : ℝ) (size : ℕ) (u : ℕ → ℝ) (hs : 1 ≤ size) (hu : ∀ i, 0 ≤ u i ∧ u i < 1) : ∀ (n i : ℕ) (x : List (BitVec 8)) (f : ℕ), x ≠ [] →
    ∃ g, (impacts p size u n i x f).2 = f + g ∧ Hits size n g x (impacts p size u n i x f).1
  | 0, i, x, f, _ => ⟨0, rfl, .none x⟩
  | n + 1, i, x, f, hx => by
    simp only [impacts]
    split
    · have hl : 0 < x.length := List.length_pos_iff.2 hx
      have hb : ⌊u (i + 1) * x.length⌋₊ < x.length := by
        rw [Nat.floor_lt (mul_nonneg (hu _).1 (by positivity))]
        have : (0 : ℝ) < x.length := by exact_mod_cast hl
        nlinarith [(hu (i + 1)).2]
      have hst : ⌊u (i + 2) * 8⌋₊ < 8 := by
        rw [Nat.floor_lt (mul_nonneg (hu _).1 (by positivity))]
        push_cast
        linarith [(hu (i + 2)).2]
      generalize ⌊u (i + 2) * 8⌋₊ = st at hst
      generalize ⌊u (i + 1) * x.length⌋₊ = by' at hb
      have up := modify_upset x by' st (min size (8 - st)) hb (by omega)
      obtain ⟨g, e1, e2⟩ := impacts_hits p size u hs hu n (i + 3) (x.modify by' fun b => flipRun b st (min size (8 - st))) (f + min size (8 - st)) (by
        intro h
        have := up.1
        rw [h] at this
        simp at this
        omega)
      exact ⟨min size (8 - st) + g, by rw [e1]; omega, .hit (by omega) (by omega) up e2⟩
    · obtain ⟨g, e1, e2⟩ := impacts_hits p size u hs hu n (i + 1) x f hx
      exact ⟨g, e1, .miss e2⟩

theorem diff_self : ∀ x : List (BitVec 8), bitDiff x x = 0
  | [] => rfl
  | a :: as => by
    have : popcount (a ^^^ a) = 0 := by rw [BitVec.xor_self]; decide
    simp only [bitDiff, this, diff_self as]

theorem upset_byte : ∀ (a b : BitVec 8) (n s : ℕ), s + n ≤ 8 → (∀ j, j < 8 → b.getLsbD j = (a.getLsbD j ^^ decide (s ≤ j ∧ j < s + n))) → b = flipRun a s n := by
  intro a b n s h hb
  apply BitVec.eq_of_getLsbD_eq
  intro j hj
  rw [hb j hj, run_bit n s a j h hj]

theorem diff_upset (n : ℕ) : ∀ (z x y : List (BitVec 8)), z.length = x.length → Upset n x y → bitDiff z y ≤ bitDiff z x + n ∧ (bitDiff z y + bitDiff z x + n) % 2 = 0 := by
  have tail : ∀ (z x y : List (BitVec 8)) (i s : ℕ), z.length = x.length → y.length = x.length → i < x.length → s + n ≤ 8 → (∀ j, j ≠ i → y[j]? = x[j]?) →
      (∃ a b, x[i]? = some a ∧ y[i]? = some b ∧ ∀ j, j < 8 → b.getLsbD j = (a.getLsbD j ^^ decide (s ≤ j ∧ j < s + n))) → bitDiff z y ≤ bitDiff z x + n ∧ (bitDiff z y + bitDiff z x + n) % 2 = 0 := by
    intro z
    induction z with
    | nil => intro x y i s h1 h2 h3; simp at h1; omega
    | cons c cs ih =>
      intro x y i s h1 h2 h3 h4 h5 h6
      match x, y, h1, h2 with
      | xa :: xs, ya :: ys, h1, h2 =>
        simp only [bitDiff]
        cases i with
        | zero =>
          obtain ⟨a, b, e1, e2, e3⟩ := h6
          simp at e1 e2
          subst e1 e2
          have e4 := upset_byte _ _ n s h4 e3
          have e5 := run_count c n s xa h4
          rw [← e4] at e5
          have : ys = xs := by
            apply List.ext_getElem?
            intro j
            have := h5 (j + 1) (by omega)
            simpa using this
          rw [this]
          omega
        | succ i =>
          have e0 := h5 0 (by omega)
          simp at e0
          subst e0
          have := ih xs ys i s (by simpa using h1) (by simpa using h2) (by simpa using h3) h4 (fun j hj => by simpa using h5 (j + 1) (by omega)) (by simpa using h6)
          omega
  intro z x y hz ⟨hl, i, s, hi, hs, h5, h6⟩
  exact tail z x y i s hz hl hi hs h5 h6

theorem hits_facts {size n f : ℕ} {x y : List (BitVec 8)} (h : Hits size n f x y) : y.length = x.length ∧ f ≤ size * n ∧
    ∀ z : List (BitVec 8), z.length = x.length → bitDiff z y ≤ bitDiff z x + f ∧ (bitDiff z y + bitDiff z x + f) % 2 = 0 := by
  induction h with
  | none x => exact ⟨rfl, by simp, fun z _ => by omega⟩
  | miss _ ih => exact ⟨ih.1, by rw [Nat.mul_succ]; omega, ih.2.2⟩
  | hit h1 h2 up _ ih =>
    refine ⟨by rw [ih.1, up.1], by rw [Nat.mul_succ]; omega, fun z hz => ?_⟩
    have a := ih.2.2 z (by rw [hz, up.1])
    have b := diff_upset _ z _ _ hz up
    omega

/-- C177: with a null pointer or no bytes the call does nothing; a particle type without known mass is refused. -/
theorem C177_trivial (a : Material) (E l : ℝ) (k : Particle) (dev : Device) (ms : ℕ) (u : ℕ → ℝ) (m : List (BitVec 8)) :
    applyRadiation a none E l k dev ms u = .ok (none, 0) ∧ applyRadiation a (some []) E l k dev ms u = .ok (some [], 0) ∧
    (m ≠ [] → a.Sensible → 0 ≤ l → ¬ HasMass k → applyRadiation a (some m) E l k dev ms u = .throw .runtime) := by
  refine ⟨rfl, rfl, fun hm ha hl hk => ?_⟩
  simp only [applyRadiation]
  rw [if_neg (by simpa using hm), (C172_deposit a E l k ha hl).1 hk]
  rfl

/-- C177: otherwise the memory keeps its length and undergoes at least one impact, the number that duration, size and probability give; each misses or inverts a run of 1 to (upset size) adjacent bits inside one byte.  The number returned is that of inversions: at most the upset size per impact, never below the number of bits that differ afterwards and even or odd like it. -/
theorem C177_apply (a : Material) (m : List (BitVec 8)) (E l : ℝ) (k : Particle) (dev : Device) (ms : ℕ) (u : ℕ → ℝ) (ha : a.Sensible) (hm : m ≠ []) (hk : HasMass k) (hl : 0 ≤ l)
    (hu : ∀ i, 0 ≤ u i ∧ u i < 1) (hq : 139 / 500 * l * (1 + 8.617333262 / 10 ^ 5 * a.temperature / a.bandgap) ≤ 2 ^ 31 * a.critical) (hs : m.length * ms < 2 ^ 32 * 10 ^ 5) :
    ∃ (m' : List (BitVec 8)) (flips size : ℕ) (q p : ℝ), applyRadiation a (some m) E l k dev ms u = .ok (some m', flips) ∧ deposit a E l k = .ok q ∧ flipProbability a q dev a.temperature = .ok p ∧ mbuSize a q k = .ok size ∧
      m'.length = m.length ∧ Hits size (max 1 ⌊p * m.length * (ms / 1000) / 100⌋₊) flips m m' ∧ flips ≤ size * max 1 ⌊p * m.length * (ms / 1000) / 100⌋₊ ∧ bitDiff m m' ≤ flips ∧ bitDiff m m' % 2 = flips % 2 := by
  obtain ⟨q, h1, _, h2, _⟩ := (C172_deposit a E l k ha hl).2 hk
  obtain ⟨p, _, g1, _, p0, p1, _⟩ := C175_probability a q dev a.temperature
  have hsz : ∃ size : ℕ, mbuSize a q k = .ok size ∧ 1 ≤ size := by
    rcases lt_or_ge q (2 * a.critical) with h | h
    · exact ⟨1, (C176_size a q k ha.2.2.2.1).1 h, le_rfl⟩
    · obtain ⟨n, e, n1, _⟩ := (C176_size a q k ha.2.2.2.1).2 h (by
        have hc := ha.2.2.2.1
        have : q / (2 * a.critical) ≤ 2 ^ 30 := by rw [div_le_iff₀ (by linarith)]; linarith
        linarith)
      exact ⟨n, e, n1⟩
  obtain ⟨size, h3, s1⟩ := hsz
  have en : p * m.length * ((ms : ℝ) / 1000) * 0.01 = p * m.length * (ms / 1000) / 100 := by norm_num; ring
  have fl : ⌊p * m.length * ((ms : ℝ) / 1000) / 100⌋₊ < 2 ^ 32 := by
    rw [Nat.floor_lt (by positivity)]
    have : (m.length * ms : ℝ) < 2 ^ 32 * 10 ^ 5 := by exact_mod_cast hs
    have hp : p * (m.length * ms : ℝ) ≤ m.length * ms := by
      have : (0 : ℝ) ≤ m.length * ms := by positivity
      nlinarith
    push_cast
    have e : p * m.length * ((ms : ℝ) / 1000) / 100 = p * (m.length * ms : ℝ) / 10 ^ 5 := by ring
    rw [e, div_lt_iff₀ (by positivity)]
    linarith
  obtain ⟨g, e1, e2⟩ := impacts_hits p size u s1 hu (max 1 ⌊p * m.length * ((ms : ℝ) / 1000) / 100⌋₊) 0 m 0 hm
  have ok : applyRadiation a (some m) E l k dev ms u = .ok (some (impacts p size u (max 1 ⌊p * m.length * ((ms : ℝ) / 1000) / 100⌋₊) 0 m 0).1, g) := by
    simp only [applyRadiation]
    rw [if_neg (by simpa using hm), h1, R.ok_bind, g1, R.ok_bind, h3, R.ok_bind, en, if_neg (by omega), e1, Nat.zero_add]
  obtain ⟨f1, f2, f3⟩ := hits_facts e2
  have f4 := f3 m rfl
  rw [diff_self] at f4
  exact ⟨_, g, size, q, p, ok, h1, g1, h3, f1, e2, f2, by omega, by omega⟩

/-- C177: particles that deposit no energy change nothing. -/
theorem C177_harmless (a : Material) (m : List (BitVec 8)) (E l : ℝ) (k : Particle) (dev : Device) (ms : ℕ) (u : ℕ → ℝ) (ha : a.Sensible) (hk : HasMass k) (hl : l ≤ 0) (hu : ∀ i, 0 ≤ u i) :
    applyRadiation a (some m) E l k dev ms u = .ok (some m, 0) := by
  by_cases hm : m = []
  · subst hm; rfl
  obtain ⟨f, e, h1, f1, _, e0, _⟩ := deposit_eq a E l k hk ha
  have q0 : l * (139 / 500) * f * e ≤ 0 := by
    have : 0 ≤ f * e := by nlinarith
    nlinarith
  generalize l * (139 / 500) * f * e = q at h1 q0
  obtain ⟨p, _, g1, _, _, _, g2, _⟩ := C175_probability a q dev a.temperature
  rw [g2 q0] at g1
  simp only [applyRadiation]
  rw [if_neg (by simpa using hm), h1, R.ok_bind, g1, R.ok_bind, (C176_size a q k ha.2.2.2.1).1 (by linarith [ha.2.2.2.1]), R.ok_bind]
  simp [impacts, not_lt.2 (hu 0)]

/-- C177 (violated): no exposure at all still hits: with a duration of 0 ms every memory can be changed by every particle that deposits energy. -/
theorem C177_instant_violated (a : Material) (m : List (BitVec 8)) (E l : ℝ) (k : Particle) (dev : Device) (ha : a.Sensible) (hm : m ≠ []) (hk : HasMass k) (hl : 0 < l)
    (hq : 139 / 500 * l * (1 + 8.617333262 / 10 ^ 5 * a.temperature / a.bandgap) ≤ 2 ^ 31 * a.critical) :
    ∃ (u : ℕ → ℝ) (m' : List (BitVec 8)) (flips : ℕ), (∀ i, 0 ≤ u i ∧ u i < 1) ∧ applyRadiation a (some m) E l k dev 0 u = .ok (some m', flips) ∧ 0 < flips ∧ m' ≠ m := by
  have hu : ∀ i : ℕ, (0 : ℝ) ≤ (fun _ : ℕ => (0 : ℝ)) i ∧ (fun _ : ℕ => (0 : ℝ)) i < 1 := fun i => by norm_num
  obtain ⟨m', flips, size, q, p, h1, h2, h3, h4, h5, h6, _⟩ := C177_apply a m E l k dev 0 (fun _ => 0) ha hm hk hl.le hu hq (by simp)
  obtain ⟨q', g1, g2, _⟩ := (C172_deposit a E l k ha hl.le).2 hk
  rw [h2] at g1
  obtain rfl : q = q' := by injection g1
  obtain ⟨p', c, e1, e2, _, _, _, _, _, e3⟩ := C175_probability a q dev a.temperature
  rw [h3] at e1
  obtain rfl : p = p' := by injection e1
  have hb : 0 < a.critical * specCharge dev := mul_pos ha.2.2.2.1 (charge_spec dev).2
  obtain ⟨c', k1, k2, _⟩ := C173_critical a (a.critical * specCharge dev) a.temperature hb.le ha.2.2.2.2
  rw [e2] at k1
  obtain rfl : c = c' := by injection k1
  have pp := e3 (by linarith) (by linarith)
  have hs : 1 ≤ size := by
    rcases lt_or_ge q (2 * a.critical) with h | h
    · have := (C176_size a q k ha.2.2.2.1).1 h
      rw [h4] at this
      injection this with this
      omega
    · obtain ⟨n, e, n1, _⟩ := (C176_size a q k ha.2.2.2.1).2 h (by
        have hc := ha.2.2.2.1
        obtain ⟨q'', l1, _, l2, _⟩ := (C172_deposit a E l k ha hl.le).2 hk
        rw [h2] at l1
        obtain rfl : q = q'' := by injection l1
        have : q / (2 * a.critical) ≤ 2 ^ 30 := by rw [div_le_iff₀ (by linarith)]; linarith
        linarith)
      rw [h4] at e
      injection e with e
      omega
  have calc1 : applyRadiation a (some m) E l k dev 0 (fun _ => 0) = .ok (some (m.modify 0 fun b => flipRun b 0 (min size 8)), min size 8) := by
    simp only [applyRadiation]
    rw [if_neg (by simpa using hm), h2, R.ok_bind, h3, R.ok_bind, h4, R.ok_bind]
    simp [impacts, pp]
  refine ⟨fun _ => 0, _, _, hu, calc1, by omega, fun h => ?_⟩
  match m, hm with
  | x :: xs, _ =>
    simp at h
    have := congrArg (fun b => BitVec.getLsbD b 0) h
    beta_reduce at this
    rw [run_bit _ 0 x 0 (by omega) (by norm_num)] at this
    have c : 0 ≤ 0 ∧ 0 < 0 + min size 8 := by omega
    rw [decide_eq_true c, Bool.xor_true] at this
    cases hx : x.getLsbD 0 <;> rw [hx] at this <;> cases this

/-- C177 (violated): irradiating 1 GiB or more of the default memory for 1000 s or more with heavy ions of 100 MeV·cm²/mg has undefined behaviour: the number of impacts does not fit 32 bits. -/
theorem C177_long_violated (m : List (BitVec 8)) (E : ℝ) (ms : ℕ) (u : ℕ → ℝ) (hm : 2 ^ 30 ≤ m.length) (ht : 10 ^ 6 ≤ ms) : applyRadiation .default (some m) E 100 .heavyIon .sram6 ms u = .ub := by
  obtain ⟨q, h1, q1, q2, _⟩ := (C172_deposit .default E 100 .heavyIon default_sensible (by norm_num)).2 (by simp [HasMass])
  norm_num [Material.default] at q1 q2
  obtain ⟨p, c, e1, e2, _, _, _, e3, _⟩ := C175_probability .default q .sram6 Material.default.temperature
  obtain ⟨c', g1, g2, g3, _⟩ := C173_critical .default (Material.default.critical * specCharge .sram6) Material.default.temperature (by norm_num [Material.default, specCharge]) (by norm_num [Material.default])
  rw [e2] at g1
  obtain rfl : c = c' := by injection g1
  norm_num [Material.default, specCharge] at g2 g3
  have hp : 3 / 5 ≤ p := by
    rw [e3 (by linarith) (by linarith) (by linarith)]
    have : 1 ≤ q / c := by rw [le_div_iff₀ (by linarith)]; linarith
    have h4 : 1 ≤ (q / c) ^ 2 := by nlinarith
    have h5 : Real.exp (-(q / c) ^ 2) ≤ Real.exp (-1) := Real.exp_le_exp.2 (by linarith)
    have h6 : Real.exp (-1 : ℝ) ≤ 2 / 5 := by
      have := Real.exp_one_gt_d9
      rw [Real.exp_neg, inv_eq_one_div, div_le_iff₀ (Real.exp_pos 1)]
      linarith
    linarith
  have hz : mbuSize .default q .heavyIon = .ok 1 := (C176_size .default q .heavyIon default_sensible.2.2.2.1).1 (by norm_num [Material.default]; linarith)
  have hl : m.length ≠ 0 := by omega
  simp only [applyRadiation]
  rw [if_neg hl, h1, R.ok_bind, e1, R.ok_bind, hz, R.ok_bind]
  rw [if_pos]
  apply Nat.le_floor
  have hm' : (2 ^ 30 : ℝ) ≤ m.length := by exact_mod_cast hm
  have ht' : (10 ^ 6 : ℝ) ≤ ms := by exact_mod_cast ht
  have a1 : (3 / 5 * 2 ^ 30 : ℝ) ≤ p * m.length := by nlinarith
  have a2 : (1000 : ℝ) ≤ (ms : ℝ) / 1000 := by linarith
  have a3 : (3 / 5 * 2 ^ 30 * 1000 : ℝ) ≤ p * m.length * ((ms : ℝ) / 1000) := by nlinarith
  norm_num at a3 ⊢
  linarith

/-- C177: a concrete exposure of two bytes. -/
example : ∃ (m' : List (BitVec 8)) (flips : ℕ), applyRadiation .default (some [0#8, 0xff#8]) 50 100 .heavyIon .sram6 1000 (fun _ => 1 / 2) = .ok (some m', flips) ∧ m'.length = 2 := by
  obtain ⟨m', flips, _, _, _, h, _, _, _, h1, _⟩ := C177_apply .default [0#8, 0xff#8] 50 100 .heavyIon .sram6 1000 (fun _ => 1 / 2) default_sensible (by simp) (by simp [HasMass]) (by norm_num) (fun i => by norm_num) (by norm_num [Material.default]) (by simp)
  exact ⟨m', flips, h, h1⟩

end Verif.QuantumPhysics
