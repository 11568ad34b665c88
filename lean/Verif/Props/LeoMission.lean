import Verif.Model.LeoMission
import Verif.Props.QuantumPhysics
import Mathlib.Algebra.BigOperators.Fin
import Mathlib.Analysis.Complex.ExponentialBounds
/-!
Properties C331-C337: the one-year mission in low Earth orbit of /repo/test/verification/realistic_leo_mission_test.cpp.
-/
namespace Verif.Props.LeoMission
open Verif.QuantumField Verif.QuantumPhysics Verif.LeoMission

/-- The value of a computation that succeeds. -/
def val {α : Type} (d : α) : R α → α
  | .ok a => a
  | _ => d

theorem mem_cases {k : Particle} (h : k ∈ types) : k = .proton ∨ k = .electron ∨ k = .heavyIon := by
  simpa [types] using h

theorem masses_pos {k : Particle} (h : k ∈ types) : ∃ m, params.masses k = some m ∧ 0 < m := by
  rcases mem_cases h with rfl | rfl | rfl
  · exact ⟨_, rfl, by norm_num⟩
  · exact ⟨_, rfl, by norm_num⟩
  · exact ⟨_, rfl, by norm_num⟩

theorem hbar_pos : 0 < params.hbar := by norm_num [params]

/-- The displacement energy of a type. -/
noncomputable def ed (k : Particle) : ℝ := val 0 (displacement params silicon k)

theorem disp_ok {k : Particle} (h : k ∈ types) : displacement params silicon k = .ok (ed k) ∧ 20 < ed k := by
  obtain ⟨m, hm, hp⟩ := masses_pos h
  obtain ⟨d, b, h1, h2, h3, _⟩ := (C170_displacement params silicon k hbar_pos (by norm_num [silicon])).2 m hm hp
  have hz := (C167_formula params.hbar m silicon.constant 300 hbar_pos hp (by norm_num [silicon]) (by norm_num)).2
  have hb : b = 20 + 4 * 5.431 := by rw [h2]; rfl
  have e1 : ed k = d := by unfold ed; rw [h1]; rfl
  refine ⟨by rw [e1, h1], ?_⟩
  rw [e1, h3, hb]
  rcases mem_cases h with rfl | rfl | rfl
  · rw [if_neg (by decide), if_pos (by decide)]; norm_num; linarith
  · rw [if_pos rfl]; norm_num; linarith
  · rw [if_neg (by decide), if_pos (by decide)]; norm_num; linarith

/-- The coupling constant of a type. -/
noncomputable def coup (k : Particle) : ℝ := val 0 (params.coupling k)

theorem coup_ok {k : Particle} (h : k ∈ types) : params.coupling k = .ok (coup k) ∧ 0 < coup k ∧ coup k ≤ 3 / 10 := by
  rcases mem_cases h with rfl | rfl | rfl
  · exact ⟨rfl, by norm_num [coup, val, QParams.coupling, params]⟩
  · exact ⟨rfl, by norm_num [coup, val, QParams.coupling, params]⟩
  · exact ⟨rfl, by norm_num [coup, val, QParams.coupling, params]⟩

/-! ### C331: fluxes -/

/-- C331: the effective flux of protons and electrons is 1.9 times the shielded one, that of heavy ions the shielded one itself; the shielded flux falls exponentially from its open value, so more shielding never lets more particles through and none of them is stopped completely. -/
theorem C331_flux (k : Particle) (h : k ∈ types) (s s' : ℝ) (hs : s ≤ s') :
    effective k s = (if k = .heavyIon then 1 else 19 / 10) * (openFlux k * Real.exp (-(attenuation k * s))) ∧
    0 < effective k s' ∧ effective k s' ≤ effective k s := by
  have key : ∀ k ∈ types, ∀ s, effective k s = (if k = .heavyIon then 1 else 19 / 10) * (openFlux k * Real.exp (-(attenuation k * s))) := by
    intro k h s
    rcases mem_cases h with rfl | rfl | rfl
    · simp only [effective, shielded, neg_mul]; rw [if_neg (by decide)]; ring
    · simp only [effective, shielded, neg_mul]; rw [if_neg (by decide)]; ring
    · simp only [effective, shielded, neg_mul]; rw [if_pos (by decide)]; ring
  have ho : 0 < openFlux k ∧ 0 ≤ attenuation k ∧ (0 : ℝ) < (if k = .heavyIon then 1 else 19 / 10) := by
    refine ⟨?_, ?_, ?_⟩
    · rcases mem_cases h with rfl | rfl | rfl <;> norm_num [openFlux]
    · rcases mem_cases h with rfl | rfl | rfl <;> norm_num [attenuation]
    · split_ifs <;> norm_num
  refine ⟨key k h s, ?_, ?_⟩
  · rw [key k h s']
    exact mul_pos ho.2.2 (mul_pos ho.1 (Real.exp_pos _))
  · rw [key k h s, key k h s']
    refine mul_le_mul_of_nonneg_left (mul_le_mul_of_nonneg_left (Real.exp_le_exp.2 ?_) ho.1.le) ho.2.2.le
    have := mul_le_mul_of_nonneg_left hs ho.2.1
    linarith

/-- C331: without shielding 760 protons, 19000 electrons and 10 heavy ions a day arrive per cm² (and second for the first two). -/
example : effective .proton 0 = 760 ∧ effective .electron 0 = 19000 ∧ effective .heavyIon 0 = 10 / 86400 := by
  refine ⟨?_, ?_, ?_⟩ <;> simp [effective, shielded, openFlux] <;> norm_num

/-! ### C333: energy loss -/

theorem stopping_range (x : ℝ) : 0 < stopping x ∧ stopping x ≤ 1 := by
  unfold stopping
  by_cases h1 : x < 0.1
  · rw [if_pos h1]; norm_num
  · rw [if_neg h1]
    have hx : (0.1 : ℝ) ≤ x := not_lt.1 h1
    have hx0 : (0 : ℝ) < x := by norm_num at hx; linarith
    by_cases h2 : x < 10
    · rw [if_pos h2]
      have hr : 0 < x ^ (0.21226 : ℝ) := Real.rpow_pos_of_pos hx0 _
      have hs := Real.sqrt_nonneg x
      have hl : 0 < Real.log (1 + 1.1383 * x) := Real.log_pos (by norm_num; linarith)
      have hl' : Real.log (1 + 1.1383 * x) ≤ 1.1383 * x := by
        have := Real.log_le_sub_one_of_pos (x := 1 + 1.1383 * x) (by norm_num; linarith)
        linarith
      have hd : x < x + 0.01321 * x ^ (0.21226 : ℝ) + 0.19593 * Real.sqrt x := by
        have : 0 < 0.01321 * x ^ (0.21226 : ℝ) := by positivity
        have : 0 ≤ 0.19593 * Real.sqrt x := by positivity
        linarith
      refine ⟨div_pos (by positivity) (by linarith), ?_⟩
      rw [div_le_one (by linarith)]
      norm_num at hl' ⊢
      norm_num at hd
      linarith
    · rw [if_neg h2]
      have hx10 : (10 : ℝ) ≤ x := not_lt.1 h2
      have hl : 0 < Real.log x := Real.log_pos (by linarith)
      have hl' := Real.log_le_sub_one_of_pos hx0
      refine ⟨by positivity, ?_⟩
      rw [div_le_one (by linarith)]
      linarith

theorem charge_zero (k : Particle) : charge k = 0 ↔ k ≠ .proton ∧ k ≠ .heavyIon := by
  cases k <;> simp [charge]

/-- C333: for protons and heavy ions the physics-based factor lies in (0, 0.01], whatever the energy; for every other type it is 0. -/
theorem C333_range (e : ℝ) (k : Particle) :
    (k = .proton ∨ k = .heavyIon → 0 < lindhard e k ∧ lindhard e k ≤ 1 / 100) ∧
    (k ≠ .proton → k ≠ .heavyIon → lindhard e k = 0) := by
  refine ⟨fun h => ?_, fun h h' => ?_⟩
  · have hc : charge k ≠ 0 := by rcases h with rfl | rfl <;> simp [charge]
    have := stopping_range (reduced k e)
    unfold lindhard
    rw [if_neg hc]
    norm_num
    constructor <;> linarith [this.1, this.2]
  · unfold lindhard
    rw [if_pos ((charge_zero k).2 ⟨h, h'⟩)]

/-- C333: electrons always use the factor taken from the literature; it is positive for positive energies and never above 2500. -/
theorem C333_electron (e : ℝ) (he : 0 < e) :
    niel e .electron = literature e .electron ∧ 0 < niel e .electron ∧ niel e .electron ≤ 2500 := by
  have h0 := (C333_range e .electron).2 (by decide) (by decide)
  have h1 : niel e .electron = literature e .electron := by
    unfold niel; rw [h0, if_neg (lt_irrefl _)]
  refine ⟨h1, ?_⟩
  rw [h1]
  simp only [literature]
  split
  · have h2 : e / 5 < Real.exp (e / 5) := by linarith [Real.add_one_le_exp (e / 5)]
    have h3 : Real.exp (-e / 5) * Real.exp (e / 5) = 1 := by rw [← Real.exp_add]; simp [neg_div]
    have h4 := Real.exp_pos (-e / 5)
    refine ⟨by positivity, ?_⟩
    have h5 : Real.exp (-e / 5) * (e / 5) ≤ 1 := by
      rw [← h3]; exact mul_le_mul_of_nonneg_left h2.le h4.le
    nlinarith
  · rename_i h
    have : e ≤ 0.1 := not_lt.1 h
    norm_num at this
    constructor <;> linarith

/-- C333 (violated): "literature-based NIEL factors" for protons and heavy ions are given as a fallback, but no energy makes the code use them: the physics-based factor is always positive and never above 0.01, while the literature gives a proton of less than 1 MeV more than 20000. -/
theorem C333_literature_violated (e : ℝ) :
    niel e .proton = lindhard e .proton * (1 + 1 / 2 * e ^ (-3 / 10 : ℝ)) ∧ niel e .heavyIon = lindhard e .heavyIon * 2 ∧
    (0 < e → e < 1 → 20000 < literature e .proton ∧ lindhard e .proton ≤ 1 / 100) := by
  have hp := (C333_range e .proton).1 (Or.inl rfl)
  have hh := (C333_range e .heavyIon).1 (Or.inr rfl)
  refine ⟨?_, ?_, fun h0 h1 => ⟨?_, hp.2⟩⟩
  · unfold niel; rw [if_pos hp.1]; simp only [corrected]; norm_num
  · unfold niel; rw [if_pos hh.1]; simp only [corrected]
  · simp only [literature]
    rw [if_pos h1]
    have := Real.one_lt_rpow_of_pos_of_lt_one_of_neg h0 h1 (show (-0.8 : ℝ) < 0 by norm_num)
    linarith

/-- C333: the factor of a heavy ion of 1 MeV is 0.02. -/
example : niel 1 .heavyIon = 2 / 100 := by
  have h : reduced .heavyIon 1 < 0.1 := by norm_num [reduced, charge, projectile]
  have hl : lindhard 1 .heavyIon = 1e-2 := by
    unfold lindhard stopping; rw [if_neg (by simp [charge]), if_pos h]; norm_num
  rw [(C333_literature_violated 1).2.1, hl]; norm_num

theorem niel_pos {e : ℝ} (he : 0 < e) {k : Particle} (h : k ∈ types) : 0 < niel e k := by
  rcases mem_cases h with rfl | rfl | rfl
  · rw [(C333_literature_violated e).1]
    have := ((C333_range e .proton).1 (Or.inl rfl)).1
    have h2 := Real.rpow_pos_of_pos he (-3 / 10)
    positivity
  · exact (C333_electron e he).2.1
  · rw [(C333_literature_violated e).2.1]
    have := ((C333_range e .heavyIon).1 (Or.inr rfl)).1
    positivity

/-! ### C334: displacements per atom -/

/-- C334: for the three types of the mission the displacements per atom are the fluence times the energy-loss factor, density and corrections over the atomic density and the displacement energy, which is at least 20 eV; they grow in proportion to flux and duration, and are positive for positive flux, time, energy and temperature. -/
theorem C334_dpa (flux e days : ℝ) (k : Particle) (T : ℝ) (h : k ∈ types) :
    ∃ d c x, displacement params silicon k = .ok d ∧ params.coupling k = .ok c ∧ 20 < d ∧ dpa flux e days k T = .ok x ∧
      x * (5 * 10 ^ 22 * d) = flux * days * 86400 * niel e k * (233 / 100) * 10 ^ 6 * (1 + (T - 300) / 6000) * (1 + c / 10) ∧
      (∀ a : ℝ, dpa (a * flux) e days k T = .ok (a * x) ∧ dpa flux e (a * days) k T = .ok (a * x)) ∧
      (0 < flux → 0 < days → 0 < e → 0 ≤ T → 0 < x) := by
  obtain ⟨hd, h20⟩ := disp_ok h
  obtain ⟨hc, hc0, hc1⟩ := coup_ok h
  have hf : ∀ flux days, dpa flux e days k T = .ok (flux * (days * 86400) * niel e k * 2.33 * 1e6 * (1 + 0.05 * (T - 300) / 300) * (1 + coup k * 0.1) / (5e22 * ed k)) := by
    intro flux days; unfold dpa; rw [hd, R.ok_bind, hc, R.ok_bind]
  refine ⟨ed k, coup k, _, hd, hc, h20, hf flux days, ?_, fun a => ⟨?_, ?_⟩, fun h1 h2 h3 h4 => ?_⟩
  · have : (5e22 * ed k : ℝ) ≠ 0 := by have : 0 < ed k := by linarith
                                       positivity
    field_simp
    norm_num
    ring
  · rw [hf]; congr 1; ring
  · rw [hf]; congr 1; ring
  · have hn := niel_pos h3 h
    have : 0 < ed k := by linarith
    have ht : 0 < 1 + 0.05 * (T - 300) / 300 := by norm_num; linarith
    have hk : 0 < 1 + coup k * 0.1 := by positivity
    positivity

/-- C334: electrons of 0.1 MeV: the factor is 10. -/
example : niel 0.1 .electron = 10 ∧ Particle.electron ∈ types := by
  refine ⟨?_, by simp [types]⟩
  rw [(C333_electron 0.1 (by norm_num)).1]
  simp only [literature]; norm_num
/-! ### The simulation without failures -/

/-- Flux of a type in a step. -/
noncomputable def fluxIn (l : Leo) (i : ℕ) (k : Particle) : ℝ := effective k l.shielding * saaFactor i

/-- Particles of a type that hit the component in a step. -/
noncomputable def particles (l : Leo) (i : ℕ) (k : Particle) : ℝ := fluxIn l i k * surface l.volume * (stepDays * 86400)

theorem defects_ok (e n : ℝ) {k : Particle} (T : ℝ) (h : k ∈ types) :
    ∃ t d q, threshold k = .ok t ∧ t = (if k = .electron then ed k / 100 else ed k) ∧ 0 < t ∧ d = force n k (cascade (e * 1e6) t k) ∧
      correct params silicon T [k] d = .ok q ∧ stepDefects e n k T = .ok (counted d k * n, counted q k * n) ∧
      ∃ m, params.masses k = some m ∧ 0 < m ∧
        q.inter k = (d.inter k).map (fun l => l.map (· * (min (1 + 5 * tunnel 1 m params.hbar T) (1 + kB * T / 1) * tempScale params T))) ∧
        q.vac k = (d.vac k).map (fun l => l.map (· * (min (1 + 3 * tunnel 1 m params.hbar T) (1 + kB * T / 1) * tempScale params T))) := by
  obtain ⟨hd, h20⟩ := disp_ok h
  have hph : k ≠ .photon := by rcases mem_cases h with rfl | rfl | rfl <;> decide
  have ht : threshold k = .ok (if k = .electron then ed k / 100 else ed k) := by
    unfold threshold
    rw [if_neg hph, hd, R.ok_bind]
    congr 1
    split_ifs
    · norm_num; ring
    · rfl
  obtain ⟨m, hm, hp⟩ := masses_pos h
  generalize hdd : force n k (cascade (e * 1e6) (if k = .electron then ed k / 100 else ed k) k) = d
  have hpr : ∀ j, Processed d [k] j ↔ j = k := by intro j; simp [Processed]
  obtain ⟨q, h1, _, h3⟩ := (C168_correct params silicon T [k] d).2 (fun j hj => by rw [(hpr j).1 hj]; exact ⟨_, hm⟩)
  obtain ⟨fi, fv, fc, e1, e2, _, e4, e5, _⟩ := h3 k m ((hpr k).2 rfl) hm
  refine ⟨_, d, q, ht, rfl, by split_ifs <;> linarith, hdd.symm, h1, ?_, m, hm, hp, ?_, ?_⟩
  · unfold stepDefects
    rw [ht, R.ok_bind]
    dsimp only
    rw [hdd, h1, R.ok_bind]
  · rw [e4, e1]; rfl
  · rw [e5, e2]; rfl

/-- Displacements per atom by a type in a step. -/
noncomputable def dpaIn (l : Leo) (e : ℕ → Particle → ℝ) (i : ℕ) (k : Particle) : ℝ :=
  val 0 (dpa (fluxIn l i k) (e i k) stepDays k l.temperature)

/-- Classical and corrected defects by a type in a step. -/
noncomputable def defectsIn (l : Leo) (e : ℕ → Particle → ℝ) (i : ℕ) (k : Particle) : ℝ × ℝ :=
  val 0 (stepDefects (e i k) (particles l i k) k l.temperature)

/-- The metrics of a type after a step. -/
noncomputable def metricsIn (l : Leo) (e : ℕ → Particle → ℝ) (i : ℕ) (k : Particle) (m : Metrics) : Metrics :=
  { m with
    peak := if m.peak < fluxIn l i k then fluxIn l i k else m.peak
    flux := m.flux + fluxIn l i k * (stepDays * 86400)
    dpa := m.dpa + dpaIn l e i k
    defects := m.defects + (defectsIn l e i k).2
    enhancement := (if 0 < (defectsIn l e i k).1 then (defectsIn l e i k).2 / (defectsIn l e i k).1 - 1 else 0) * 100 }

/-- The results after one type of a step. -/
noncomputable def after (l : Leo) (e : ℕ → Particle → ℝ) (i : ℕ) (k : Particle) (r : Results) : Results :=
  { metrics := fun j => if j = k then metricsIn l e i k (r.metrics k) else r.metrics j
    energy := r.energy + e i k * particles l i k
    classical := r.classical + (defectsIn l e i k).1
    quantum := r.quantum + (defectsIn l e i k).2 }

theorem step_ok (l : Leo) (e : ℕ → Particle → ℝ) (i : ℕ) {k : Particle} (h : k ∈ types) (r : Results) :
    stepType l i k (e i k) r = .ok (after l e i k r) := by
  obtain ⟨_, _, x, _, _, _, hx, _⟩ := C334_dpa (fluxIn l i k) (e i k) stepDays k l.temperature h
  obtain ⟨_, _, _, _, _, _, _, _, hdef, _⟩ := defects_ok (e i k) (particles l i k) l.temperature h
  have e1 : dpaIn l e i k = x := by unfold dpaIn; rw [hx]; rfl
  unfold stepType after metricsIn
  rw [e1]
  obtain ⟨cq, hdef⟩ : ∃ cq, stepDefects (e i k) (particles l i k) k l.temperature = .ok cq := ⟨_, hdef⟩
  have e4 : defectsIn l e i k = cq := by unfold defectsIn; rw [hdef]; rfl
  rw [e4]
  unfold particles fluxIn at hdef
  unfold fluxIn at hx
  dsimp only
  rw [hx, R.ok_bind, hdef, R.ok_bind]
  rfl

/-- The results after a number of steps. -/
noncomputable def afterSteps (l : Leo) (e : ℕ → Particle → ℝ) : ℕ → Results
  | 0 => start
  | n + 1 => after l e n .heavyIon (after l e n .electron (after l e n .proton (afterSteps l e n)))

theorem run_ok (l : Leo) (e : ℕ → Particle → ℝ) (n : ℕ) :
    forN n (fun i (acc : R Results) => acc.bind (stepAll l i (e i))) (.ok start) = .ok (afterSteps l e n) := by
  induction n with
  | zero => rfl
  | succ n ih =>
    simp only [forN]
    rw [ih, R.ok_bind]
    unfold stepAll
    rw [step_ok l e n (by simp [types]), R.ok_bind, step_ok l e n (by simp [types]), R.ok_bind, step_ok l e n (by simp [types])]
    rfl

theorem metrics_succ (l : Leo) (e : ℕ → Particle → ℝ) (n : ℕ) {k : Particle} (h : k ∈ types) :
    (afterSteps l e (n + 1)).metrics k = metricsIn l e n k ((afterSteps l e n).metrics k) := by
  rcases mem_cases h with rfl | rfl | rfl <;> simp [afterSteps, after]

theorem sums (l : Leo) (e : ℕ → Particle → ℝ) (n : ℕ) {k : Particle} (h : k ∈ types) :
    ((afterSteps l e n).metrics k).flux = effective k l.shielding * (stepDays * 86400) * ∑ i ∈ Finset.range n, saaFactor i ∧
    ((afterSteps l e n).metrics k).dpa = ∑ i ∈ Finset.range n, dpaIn l e i k ∧
    ((afterSteps l e n).metrics k).defects = ∑ i ∈ Finset.range n, (defectsIn l e i k).2 ∧
    ((afterSteps l e n).metrics k).energy = meanEnergy k ∧
    ((afterSteps l e n).metrics k).peak = if n = 0 then 0 else 10 * effective k l.shielding := by
  have hpos := (C331_flux k h l.shielding l.shielding le_rfl).2.1
  induction n with
  | zero => simp [afterSteps, start]
  | succ n ih =>
    obtain ⟨h1, h2, h3, h4, h5⟩ := ih
    rw [metrics_succ l e n h]
    refine ⟨?_, ?_, ?_, h4, ?_⟩
    · simp only [metricsIn]
      rw [Finset.sum_range_succ, h1]; unfold fluxIn; ring
    · simp only [metricsIn]
      rw [Finset.sum_range_succ, h2]
    · simp only [metricsIn]
      rw [Finset.sum_range_succ, h3]
    · simp only [metricsIn]
      rw [h5, if_neg (Nat.succ_ne_zero n)]
      unfold fluxIn
      by_cases hn : n = 0
      · subst hn
        have : saaFactor 0 = 10 := by simp [saaFactor]
        rw [if_pos rfl, this, if_pos (by linarith)]; ring
      · rw [if_neg hn]
        have : saaFactor n ≤ 10 := by unfold saaFactor; split_ifs <;> norm_num
        rw [if_neg (by nlinarith)]

theorem totals (l : Leo) (e : ℕ → Particle → ℝ) (n : ℕ) :
    (afterSteps l e n).energy = ∑ i ∈ Finset.range n, (e i .proton * particles l i .proton + e i .electron * particles l i .electron + e i .heavyIon * particles l i .heavyIon) ∧
    (afterSteps l e n).classical = ∑ i ∈ Finset.range n, ((defectsIn l e i .proton).1 + (defectsIn l e i .electron).1 + (defectsIn l e i .heavyIon).1) ∧
    (afterSteps l e n).quantum = ∑ i ∈ Finset.range n, ((defectsIn l e i .proton).2 + (defectsIn l e i .electron).2 + (defectsIn l e i .heavyIon).2) := by
  induction n with
  | zero => simp [afterSteps, start]
  | succ n ih =>
    obtain ⟨h1, h2, h3⟩ := ih
    rw [Finset.sum_range_succ, Finset.sum_range_succ, Finset.sum_range_succ, ← h1, ← h2, ← h3]
    simp only [afterSteps, after]
    refine ⟨by ring, by ring, by ring⟩

theorem saa_sum : ∑ i ∈ Finset.range 36, saaFactor i = 72 := by
  simp [Finset.sum_range_succ, saaFactor]; norm_num

/-! ### C332: fluence of the mission -/

/-- C332: the mission always completes; the highest flux of a type is ten times the effective one, its mean energy is the one of the environment. -/
theorem C332_peak (l : Leo) (e : ℕ → Particle → ℝ) : ∃ r, simulate l e = .ok r ∧
    ∀ k ∈ types, (r.metrics k).peak = 10 * effective k l.shielding ∧ (r.metrics k).energy = meanEnergy k := by
  refine ⟨afterSteps l e 36, run_ok l e 36, fun k h => ?_⟩
  obtain ⟨_, _, _, h4, h5⟩ := sums l e 36 h
  exact ⟨by rw [h5, if_neg (by norm_num)], h4⟩

/-- C332 (violated): the effective flux is "effective average flux including SAA", a tenth of the orbit at ten times the flux, so a year gives it times the seconds of a year.  The mission multiplies every tenth step by ten again: each type ends with twice that, which for protons and electrons is 3.8 times the shielded flux of a year instead of 1.9, and for heavy ions, which the anomaly does not concern, twice instead of once. -/
theorem C332_saa_violated (l : Leo) (e : ℕ → Particle → ℝ) : ∃ r, simulate l e = .ok r ∧
    (∀ k ∈ types, (r.metrics k).flux = 2 * (effective k l.shielding * (365 * 86400))) ∧
    (r.metrics .proton).flux = 38 / 10 * (shielded .proton l.shielding * (365 * 86400)) ∧
    (r.metrics .heavyIon).flux = 2 * (shielded .heavyIon l.shielding * (365 * 86400)) := by
  have key : ∀ k ∈ types, ((afterSteps l e 36).metrics k).flux = 2 * (effective k l.shielding * (365 * 86400)) := by
    intro k h
    rw [(sums l e 36 h).1, saa_sum]; unfold stepDays; ring
  refine ⟨afterSteps l e 36, run_ok l e 36, key, ?_, ?_⟩
  · rw [key _ (by simp [types])]; simp only [effective]; ring
  · rw [key _ (by simp [types])]; simp only [effective]

/-! ### C335: the check of the displacements -/

theorem energy_bound {mean u : ℝ} (hm : 0 < mean) (_ : 0 < u) (h1 : u < 1) : mean * u ≤ sampleEnergy mean u := by
  unfold sampleEnergy
  have := Real.log_le_sub_one_of_pos (x := 1 - u) (by linarith)
  nlinarith

theorem energy_pos {mean u : ℝ} (hm : 0 < mean) (h0 : 0 < u) (h1 : u < 1) : 0 < sampleEnergy mean u :=
  lt_of_lt_of_le (mul_pos hm h0) (energy_bound hm h0 h1)

theorem proton_niel {e : ℝ} (h : (10 : ℝ)⁻¹ ^ 8 ≤ e) : niel e .proton ≤ 6 := by
  rw [(C333_literature_violated e).1]
  have hl := (C333_range e .proton).1 (Or.inl rfl)
  have he : 0 < e := lt_of_lt_of_le (by norm_num) h
  have hp : e ^ (-3 / 10 : ℝ) ≤ 1000 := by
    have h1 : e ^ (-3 / 10 : ℝ) ≤ ((10 : ℝ) ^ (-8 : ℝ)) ^ (-3 / 10 : ℝ) := by
      refine Real.rpow_le_rpow_of_nonpos (by positivity) ?_ (by norm_num)
      have : (10 : ℝ) ^ (-8 : ℝ) = (10 : ℝ)⁻¹ ^ 8 := by
        rw [Real.rpow_neg (by norm_num)]; norm_num
      rw [this]; exact h
    rw [← Real.rpow_mul (by norm_num)] at h1
    have h2 : (10 : ℝ) ^ ((-8 : ℝ) * (-3 / 10)) ≤ (10 : ℝ) ^ (3 : ℝ) := Real.rpow_le_rpow_of_exponent_le (by norm_num) (by norm_num)
    have h3 : (10 : ℝ) ^ (3 : ℝ) = 1000 := by norm_num
    linarith
  have h0 := Real.rpow_pos_of_pos he (-3 / 10)
  nlinarith [hl.1, hl.2]

theorem dpa_le {l : Leo} {e : ℕ → Particle → ℝ} {i : ℕ} {k : Particle} (h : k ∈ types) {B : ℝ} (hB : niel (e i k) k ≤ B) (hB0 : 0 < niel (e i k) k)
    (hT : 0 ≤ l.temperature) (hT' : l.temperature ≤ 600) :
    dpaIn l e i k ≤ fluxIn l i k * (stepDays * 86400) * B * 3e6 / 1e24 := by
  obtain ⟨hd, h20⟩ := disp_ok h
  obtain ⟨hc, hc0, hc1⟩ := coup_ok h
  have hf : dpaIn l e i k = fluxIn l i k * (stepDays * 86400) * niel (e i k) k * 2.33 * 1e6 * (1 + 0.05 * (l.temperature - 300) / 300) * (1 + coup k * 0.1) / (5e22 * ed k) := by
    unfold dpaIn dpa; rw [hd, R.ok_bind, hc, R.ok_bind]; rfl
  have hflux : 0 < fluxIn l i k := by
    have := (C331_flux k h l.shielding l.shielding le_rfl).2.1
    unfold fluxIn saaFactor; split_ifs <;> linarith
  have hs : 0 < stepDays * 86400 := by norm_num [stepDays]
  rw [hf]
  have ht : 0 < 1 + 0.05 * (l.temperature - 300) / 300 ∧ 1 + 0.05 * (l.temperature - 300) / 300 ≤ 1.05 := by
    norm_num; constructor <;> linarith
  have hcc : 0 < 1 + coup k * 0.1 ∧ 1 + coup k * 0.1 ≤ 1.03 := by norm_num; constructor <;> linarith
  generalize 1 + 0.05 * (l.temperature - 300) / 300 = a at ht ⊢
  generalize 1 + coup k * 0.1 = b at hcc ⊢
  have hab : 2.33 * 1e6 * a * b ≤ 3e6 := by nlinarith [ht.1, ht.2, hcc.1, hcc.2]
  have hX : 0 < fluxIn l i k * (stepDays * 86400) := mul_pos hflux hs
  generalize fluxIn l i k * (stepDays * 86400) = X at hX ⊢
  have hB' : 0 < B := lt_of_lt_of_le hB0 hB
  rw [div_le_div_iff₀ (by linarith) (by norm_num)]
  have h1 : X * niel (e i k) k ≤ X * B := mul_le_mul_of_nonneg_left hB hX.le
  have h2 : X * niel (e i k) k * (2.33 * 1e6 * a * b) ≤ X * B * 3e6 := by
    refine mul_le_mul h1 hab ?_ (by positivity)
    have := ht.1; have := hcc.1; positivity
  have h3 : (1e24 : ℝ) ≤ 5e22 * ed k := by norm_num; linarith
  have h4 : 0 ≤ X * B * 3e6 := by positivity
  calc X * niel (e i k) k * 2.33 * 1e6 * a * b * 1e24 = X * niel (e i k) k * (2.33 * 1e6 * a * b) * 1e24 := by ring
    _ ≤ X * B * 3e6 * 1e24 := mul_le_mul_of_nonneg_right h2 (by norm_num)
    _ ≤ X * B * 3e6 * (5e22 * ed k) := mul_le_mul_of_nonneg_left h3 h4

theorem dpa_sum {l : Leo} {e : ℕ → Particle → ℝ} {k : Particle} (h : k ∈ types) {B : ℝ} (hB : ∀ i < 36, niel (e i k) k ≤ B ∧ 0 < niel (e i k) k)
    (hT : 0 ≤ l.temperature) (hT' : l.temperature ≤ 600) :
    ((afterSteps l e 36).metrics k).dpa ≤ 2 * (effective k l.shielding * (365 * 86400)) * B * 3e6 / 1e24 := by
  rw [(sums l e 36 h).2.1]
  calc ∑ i ∈ Finset.range 36, dpaIn l e i k ≤ ∑ i ∈ Finset.range 36, fluxIn l i k * (stepDays * 86400) * B * 3e6 / 1e24 :=
        Finset.sum_le_sum fun i hi => dpa_le h (hB i (Finset.mem_range.1 hi)).1 (hB i (Finset.mem_range.1 hi)).2 hT hT'
    _ = (∑ i ∈ Finset.range 36, saaFactor i) * (effective k l.shielding * (stepDays * 86400) * B * 3e6 / 1e24) := by
        rw [Finset.sum_mul]
        refine Finset.sum_congr rfl fun i _ => ?_
        unfold fluxIn; ring
    _ = _ := by rw [saa_sum]; unfold stepDays; ring

theorem effective_le {k : Particle} (h : k ∈ types) {s : ℝ} (hs : 5 ≤ s) : effective k s ≤ 760 ∧ effective .electron s ≤ 1 := by
  have h5 := (C331_flux k h 5 s hs).2.2
  have he := (C331_flux .electron (by simp [types]) 5 s hs).2.2
  have e1 : effective .electron 5 ≤ 1 := by
    rw [(C331_flux .electron (by simp [types]) 5 5 le_rfl).1, if_neg (by decide)]
    simp only [openFlux, attenuation]
    have h1 := Real.exp_one_gt_d9
    have h2 : Real.exp (-(2 * 5)) * Real.exp 1 ^ 10 = 1 := by
      rw [← Real.exp_nat_mul, ← Real.exp_add]; norm_num
    have h3 : (2.7 : ℝ) ^ 10 ≤ Real.exp 1 ^ 10 := pow_le_pow_left₀ (by norm_num) (by linarith) 10
    have h4 := Real.exp_pos (-(2 * 5))
    norm_num at h3 h4 h2 ⊢
    nlinarith
  have e2 : ∀ k ∈ types, k ≠ .electron → effective k 5 ≤ 760 := by
    intro k h hk
    rw [(C331_flux k h 5 5 le_rfl).1]
    have hx : Real.exp (-(attenuation k * 5)) ≤ 1 := Real.exp_le_one_iff.2 (by
      rcases mem_cases h with rfl | rfl | rfl <;> norm_num [attenuation])
    have hx0 := Real.exp_pos (-(attenuation k * 5))
    rcases mem_cases h with rfl | rfl | rfl
    · rw [if_neg (by decide)]; simp only [openFlux]; nlinarith
    · exact absurd rfl hk
    · rw [if_pos rfl]; simp only [openFlux]; nlinarith
  refine ⟨?_, by linarith⟩
  by_cases hk : k = .electron
  · subst hk; linarith
  · linarith [e2 k h hk]

/-- C335 (violated): the mission is to be validated against the expected damage of 10⁻⁴ to 10⁻² displacements per atom.  No run can pass: with at least 5 g/cm² of shielding (the default) and up to 600 K, whatever the random numbers, the total stays below 10⁻⁵. -/
theorem C335_check_violated (l : Leo) (hs : 5 ≤ l.shielding) (hT : 0 ≤ l.temperature) (hT' : l.temperature ≤ 600)
    (draw : ℕ → Particle → ℕ) (hd : ∀ i k, 0 < draw i k ∧ draw i k < 2 ^ 31 - 1) :
    ∃ r, simulate l (fun i k => sampleEnergy (meanEnergy k) ((draw i k : ℝ) / (2 ^ 31 - 1))) = .ok r ∧
      totalDpa r < 10⁻¹ ^ 5 ∧ ¬ valid r := by
  have hu : ∀ i k, (1 : ℝ) / (2 ^ 31 - 1) ≤ (draw i k : ℝ) / (2 ^ 31 - 1) ∧ (draw i k : ℝ) / (2 ^ 31 - 1) < 1 := by
    intro i k
    obtain ⟨h0, h1⟩ := hd i k
    have h0' : (1 : ℝ) ≤ draw i k := by exact_mod_cast h0
    have h1' : (draw i k : ℝ) < 2 ^ 31 - 1 := by
      have : ((draw i k : ℕ) : ℝ) < ((2 ^ 31 - 1 : ℕ) : ℝ) := by exact_mod_cast h1
      norm_num at this ⊢
      exact this
    refine ⟨div_le_div_of_nonneg_right h0' (by norm_num), ?_⟩
    rw [div_lt_one (by norm_num)]; exact h1'
  have hme : ∀ k ∈ types, 0 < meanEnergy k := by
    intro k h; rcases mem_cases h with rfl | rfl | rfl <;> norm_num [meanEnergy]
  have hpos : ∀ i, ∀ k ∈ types, 0 < sampleEnergy (meanEnergy k) ((draw i k : ℝ) / (2 ^ 31 - 1)) := fun i k h =>
    energy_pos (hme k h) (lt_of_lt_of_le (by norm_num) (hu i k).1) (hu i k).2
  generalize he : (fun i k => sampleEnergy (meanEnergy k) ((draw i k : ℝ) / (2 ^ 31 - 1))) = e
  have hpos' : ∀ i, ∀ k ∈ types, 0 < e i k := by intro i k h; rw [← he]; exact hpos i k h
  have b1 := dpa_sum (l := l) (e := e) (k := .proton) (by simp [types]) (B := 6) (fun i _ => ⟨proton_niel (by
      have hb := energy_bound (hme .proton (by simp [types])) (lt_of_lt_of_le (by norm_num) (hu i .proton).1) (hu i .proton).2
      have : e i .proton = sampleEnergy (meanEnergy .proton) ((draw i .proton : ℝ) / (2 ^ 31 - 1)) := by rw [← he]
      rw [this]
      refine le_trans ?_ hb
      have h30 : meanEnergy .proton = 30 := rfl
      rw [h30]
      have := (hu i .proton).1
      norm_num at this ⊢
      linarith), niel_pos (hpos' i _ (by simp [types])) (by simp [types])⟩) hT hT'
  have b2 := dpa_sum (l := l) (e := e) (k := .electron) (by simp [types]) (B := 2500) (fun i _ =>
    ⟨(C333_electron _ (hpos' i _ (by simp [types]))).2.2, niel_pos (hpos' i _ (by simp [types])) (by simp [types])⟩) hT hT'
  have b3 := dpa_sum (l := l) (e := e) (k := .heavyIon) (by simp [types]) (B := 2) (fun i _ =>
    ⟨by rw [(C333_literature_violated _).2.1]; linarith [((C333_range (e i .heavyIon) .heavyIon).1 (Or.inr rfl)).2], niel_pos (hpos' i _ (by simp [types])) (by simp [types])⟩) hT hT'
  have f1 := (effective_le (k := .proton) (by simp [types]) hs).1
  have f2 := (effective_le (k := .proton) (by simp [types]) hs).2
  have f3 := (effective_le (k := .heavyIon) (by simp [types]) hs).1
  have ht : totalDpa (afterSteps l e 36) < 10⁻¹ ^ 5 := by
    unfold totalDpa
    norm_num at b1 b2 b3 ⊢
    linarith
  refine ⟨afterSteps l e 36, run_ok l e 36, ht, fun hv => ?_⟩
  have := hv.1.1
  norm_num at this ht
  linarith

/-- C335: the default mission is such a mission. -/
example : (5 : ℝ) ≤ ({} : Leo).shielding ∧ 0 ≤ ({} : Leo).temperature ∧ ({} : Leo).temperature ≤ 600 := by norm_num
/-! ### C336: defects of a step -/

theorem below {pka t : ℝ} (h : pka ≤ t) (k : Particle) : cascade pka t k = Defects.default := by
  unfold cascade; rw [if_neg (not_lt.2 h)]

/-- C336: above the threshold a step counts the interstitials and vacancies of the cascade, 0.9 (protons), 0.95 (electrons) or 0.7 (heavy ions) of ⌊0.8 E/E_d⌋, for every particle that hits; the threshold is the displacement energy, a hundredth of it for electrons. -/
theorem C336_above (e n : ℝ) (k : Particle) (T : ℝ) (h : k ∈ types) : ∃ t, displacement params silicon k = .ok (if k = .electron then 100 * t else t) ∧ 0 < t ∧
    (t < e * 10 ^ 6 → ∃ q, stepDefects e n k T = .ok ((⌊4 / 5 * (e * 10 ^ 6) / t⌋ : ℝ) * (if k = .proton then 9 / 10 else if k = .electron then 19 / 20 else 7 / 10) * n, q)) := by
  obtain ⟨t, d, q, ht, ht', hpos, hd, hq, hs, _⟩ := defects_ok e n T h
  refine ⟨t, ?_, hpos, fun hlt => ⟨counted q k * n, ?_⟩⟩
  · rw [(disp_ok h).1, ht']; congr 1; split_ifs <;> ring
  · rw [hs]
    congr 2
    have h6 : e * 1e6 = e * 10 ^ 6 := by norm_num
    rw [hd, h6]
    have e1 : force n k (cascade (e * 10 ^ 6) t k) = cascade (e * 10 ^ 6) t k := by
      unfold force
      rw [if_neg]
      rintro ⟨_, h2⟩
      unfold cascade at h2
      rw [if_pos hlt] at h2
      simp [putAt] at h2
    rw [e1]
    unfold cascade
    rw [if_pos hlt]
    have h8 : (0.8 : ℝ) * (e * 10 ^ 6) / t = 4 / 5 * (e * 10 ^ 6) / t := by norm_num
    rw [h8]
    generalize (⌊4 / 5 * (e * 10 ^ 6) / t⌋ : ℝ) = x
    unfold counted total
    congr 1
    rcases mem_cases h with rfl | rfl | rfl
    · simp [putAt, fractions]; ring
    · simp [putAt, fractions]; ring
    · simp [putAt, fractions]; ring

theorem big_sqrt_leo : (7 * 10 ^ 13 : ℝ) ≤ Real.sqrt (10 / (1.67262192369 * 10⁻¹ ^ 27)) := by
  apply Real.le_sqrt_of_sq_le
  norm_num

theorem ed_proton : 10 ^ 7 < ed .proton := by
  obtain ⟨d, b, h1, h2, h3, _⟩ := (C170_displacement params silicon .proton hbar_pos (by norm_num [silicon])).2 _ rfl (by norm_num)
  have e1 : ed .proton = d := by unfold ed; rw [h1]; rfl
  have hb : b = 20 + 4 * 5.431 := by rw [h2]; rfl
  rw [e1, h3, hb, if_neg (by decide), if_pos (by decide)]
  have hz : zeroPoint params.hbar (1.67262192369 * 10⁻¹ ^ 27) silicon.constant 300 =
      0.5 * (6.582119569 * 10⁻¹ ^ 16) * (Real.sqrt (10 / (1.67262192369 * 10⁻¹ ^ 27)) / (5.431 * 10⁻¹ ^ 10)) * (1 / 4) := by
    unfold zeroPoint
    have hq := q0_pos
    have hsq : Real.sqrt (10 / ((silicon.constant * 10⁻¹ ^ 10) * (silicon.constant * 10⁻¹ ^ 10)) / (1.67262192369 * 10⁻¹ ^ 27)) =
        Real.sqrt (10 / (1.67262192369 * 10⁻¹ ^ 27)) / (5.431 * 10⁻¹ ^ 10) := by
      have : (10 : ℝ) / ((silicon.constant * 10⁻¹ ^ 10) * (silicon.constant * 10⁻¹ ^ 10)) / (1.67262192369 * 10⁻¹ ^ 27) =
          (10 / (1.67262192369 * 10⁻¹ ^ 27)) / (5.431 * 10⁻¹ ^ 10) ^ 2 := by
        simp only [silicon]; ring
      rw [this, Real.sqrt_div (by norm_num), Real.sqrt_sq (by norm_num)]
    rw [hsq]
    have hh : params.hbar = 6.582119569 * 10⁻¹ ^ 16 := rfl
    rw [hh]
    field_simp
    norm_num
  rw [hz]
  have := big_sqrt_leo
  norm_num at this ⊢
  linarith

/-- C336 (violated): a particle below the displacement threshold displaces nothing.  Here the threshold of protons exceeds 10 MeV; a proton below it counts 12 defects (the three default regions), and one just above it none. -/
theorem C336_proton_violated (e n T : ℝ) : ∃ t, displacement params silicon .proton = .ok t ∧ 10 ^ 7 < t ∧
    (e * 10 ^ 6 ≤ t → ∃ q, stepDefects e n .proton T = .ok (12 * n, q)) ∧
    (t < e * 10 ^ 6 → e * 10 ^ 6 < 5 / 4 * t → stepDefects e n .proton T = .ok (0, 0)) := by
  have hp : Particle.proton ∈ types := by simp [types]
  refine ⟨ed .proton, (disp_ok hp).1, ed_proton, fun hle => ?_, fun hlt hlt' => ?_⟩
  · obtain ⟨t, d, q, ht, ht', hpos, hd, hq, hs, _⟩ := defects_ok e n T hp
    refine ⟨counted q .proton * n, ?_⟩
    rw [hs]
    congr 2
    have h6 : e * 1e6 = e * 10 ^ 6 := by norm_num
    rw [if_neg (by decide)] at ht'
    rw [hd, h6, below (by rw [ht']; exact hle)]
    unfold force
    rw [if_neg (by decide)]
    congr 1
    unfold counted total
    simp [Defects.default]
    norm_num
  · obtain ⟨t, d, q, ht, ht', hpos, hd, hq, hs, m, hm, hmp, hi, hv⟩ := defects_ok e n T hp
    rw [if_neg (by decide)] at ht'
    have h6 : e * 1e6 = e * 10 ^ 6 := by norm_num
    have hfl : ⌊(0.8 : ℝ) * (e * 10 ^ 6) / t⌋ = 0 := by
      rw [Int.floor_eq_zero_iff]
      rw [← ht'] at hlt hlt'
      refine ⟨div_nonneg (by norm_num; linarith) hpos.le, ?_⟩
      rw [div_lt_one hpos]; norm_num; linarith
    have hdi : (d.inter .proton).getD [] = [0, 0, 0] ∧ (d.vac .proton).getD [] = [0, 0, 0] ∧ (d.inter .proton).isSome ∧ (d.vac .proton).isSome := by
      rw [hd, h6]
      unfold force
      rw [if_neg (by simp)]
      unfold cascade
      rw [if_pos (by rw [ht']; exact hlt)]
      dsimp only
      rw [hfl]
      simp [putAt]
    have hc : counted d .proton = 0 := by unfold counted total; rw [hdi.1, hdi.2.1]; simp
    have hcq : counted q .proton = 0 := by
      obtain ⟨a1, h1⟩ := Option.isSome_iff_exists.1 hdi.2.2.1
      obtain ⟨a2, h2⟩ := Option.isSome_iff_exists.1 hdi.2.2.2
      have g1 := hdi.1
      have g2 := hdi.2.1
      rw [h1] at g1; rw [h2] at g2
      simp only [Option.getD_some] at g1 g2
      unfold counted total
      rw [hi, hv, h1, h2, g1, g2]
      simp
    rw [hs, hc, hcq]
    simp

/-- C336 (violated): the defects of an electron that displaces nothing are set from the number `n` of particles ("0.1% of electron hits cause defects") and then multiplied by it again: the count is 0.00095 n², so twice the flux makes four times the defects. -/
theorem C336_electron_violated (e n T : ℝ) : ∃ t, displacement params silicon .electron = .ok t ∧
    (e * 10 ^ 8 ≤ t → (∃ q, stepDefects e n .electron T = .ok (95 / 100000 * n ^ 2, q)) ∧
      ∃ q, stepDefects e (2 * n) .electron T = .ok (4 * (95 / 100000 * n ^ 2), q)) := by
  have hp : Particle.electron ∈ types := by simp [types]
  have key : e * 10 ^ 8 ≤ ed .electron → ∀ n, ∃ q, stepDefects e n .electron T = .ok (95 / 100000 * n ^ 2, q) := by
    intro hle n
    obtain ⟨t, d, q, ht, ht', hpos, hd, hq, hs, _⟩ := defects_ok e n T hp
    refine ⟨counted q .electron * n, ?_⟩
    rw [hs]
    congr 2
    have h6 : e * 1e6 = e * 10 ^ 6 := by norm_num
    rw [if_pos rfl] at ht'
    rw [hd, h6, below (by rw [ht']; linarith)]
    unfold force
    rw [if_pos ⟨rfl, by simp [Defects.default]⟩]
    unfold counted total
    simp [Defects.default, putAt]
    norm_num
    ring
  refine ⟨ed .electron, (disp_ok hp).1, fun hle => ⟨key hle n, ?_⟩⟩
  obtain ⟨q, hq⟩ := key hle (2 * n)
  exact ⟨q, by rw [hq]; congr 2; ring⟩

/-- C336: a heavy ion below the threshold makes no defects. -/
theorem C336_heavy (e n T : ℝ) : ∃ t, displacement params silicon .heavyIon = .ok t ∧ (e * 10 ^ 6 ≤ t → stepDefects e n .heavyIon T = .ok (0, 0)) := by
  have hp : Particle.heavyIon ∈ types := by simp [types]
  refine ⟨ed .heavyIon, (disp_ok hp).1, fun hle => ?_⟩
  obtain ⟨t, d, q, ht, ht', hpos, hd, hq, hs, m, _, _, hi, hv⟩ := defects_ok e n T hp
  have h6 : e * 1e6 = e * 10 ^ 6 := by norm_num
  rw [if_neg (by decide)] at ht'
  have hd' : d = Defects.default := by
    rw [hd, h6, below (by rw [ht']; exact hle)]
    unfold force; rw [if_neg (by simp)]
  have h1 : d.inter .heavyIon = none ∧ d.vac .heavyIon = none := by rw [hd']; simp [Defects.default]
  rw [hs]
  unfold counted total
  rw [hi, hv, h1.1, h1.2]
  simp

/-- C336: 1 MeV is below the threshold of protons. -/
example (n T : ℝ) : ∃ q, stepDefects 1 n .proton T = .ok (12 * n, q) := by
  obtain ⟨t, _, h1, h2, _⟩ := C336_proton_violated 1 n T
  exact h2 (by linarith)

/-! ### C337: totals of the mission -/

theorem sum_map_mul (l : List ℝ) (a : ℝ) : (l.map (· * a)).sum = l.sum * a := by
  induction l with
  | nil => simp
  | cons x xs ih => simp only [List.map_cons, List.sum_cons, ih]; ring

theorem total_map (o : Option (List ℝ)) (a : ℝ) : ((o.map fun l => l.map (· * a)).getD []).sum = (o.getD []).sum * a := by
  cases o with
  | none => simp
  | some l => simp only [Option.map_some, Option.getD_some]; exact sum_map_mul l a

theorem counted_nonneg (e n : ℝ) (hn : 0 ≤ n) {t : ℝ} (ht : 0 < t) {k : Particle} (h : k ∈ types) :
    0 ≤ total (force n k (cascade (e * 1e6) t k)).inter k ∧ 0 ≤ total (force n k (cascade (e * 1e6) t k)).vac k := by
  by_cases hlt : t < e * 1e6
  · have e1 : force n k (cascade (e * 1e6) t k) = cascade (e * 1e6) t k := by
      unfold force
      rw [if_neg]
      rintro ⟨_, h2⟩
      unfold cascade at h2
      rw [if_pos hlt] at h2
      simp [putAt] at h2
    rw [e1]
    unfold cascade
    rw [if_pos hlt]
    have hx : (0 : ℝ) ≤ (⌊0.8 * (e * 1e6) / t⌋ : ℝ) := by
      have : (0 : ℤ) ≤ ⌊0.8 * (e * 1e6) / t⌋ := Int.floor_nonneg.2 (div_nonneg (mul_nonneg (by norm_num) (by linarith)) ht.le)
      exact_mod_cast this
    generalize (⌊0.8 * (e * 1e6) / t⌋ : ℝ) = x at hx
    unfold total
    rcases mem_cases h with rfl | rfl | rfl
    · simp [putAt, fractions]; constructor <;> positivity
    · simp [putAt, fractions]; constructor <;> positivity
    · simp [putAt, fractions]; constructor <;> positivity
  · rw [below (not_lt.1 hlt)]
    unfold force total
    rcases mem_cases h with rfl | rfl | rfl
    · simp [Defects.default]; norm_num
    · simp [Defects.default, putAt]; constructor <;> positivity
    · simp [Defects.default]

theorem step_factor (e n : ℝ) (hn : 0 ≤ n) {k : Particle} (h : k ∈ types) {T : ℝ} (hT : 150 ≤ T) :
    ∃ c q, stepDefects e n k T = .ok (c, q) ∧ 0 ≤ c ∧ c ≤ q ∧ q ≤ c * (1 + kB * T) := by
  obtain ⟨t, d, q, ht, ht', hpos, hd, hq, hs, m, hm, hmp, hi, hv⟩ := defects_ok e n T h
  refine ⟨_, _, hs, ?_⟩
  have hnn := counted_nonneg e n hn hpos h
  rw [← hd] at hnn
  have hf := C168_factors params silicon T m (by norm_num [silicon]) (by linarith) hbar_pos hmp (by norm_num [silicon]) (by norm_num [params, QParams.default])
  have hts : tempScale params T = 1 := hf.2.1 hT
  have hb : silicon.barrier = 1 := rfl
  have h3 := hf.2.2.2
  rw [hb] at h3
  obtain ⟨g1, g2, g3, _⟩ := h3
  rw [hts, mul_one] at hi hv
  generalize min (1 + 5 * tunnel 1 m params.hbar T) (1 + kB * T / 1) = fi at hi g2 g3
  generalize min (1 + 3 * tunnel 1 m params.hbar T) (1 + kB * T / 1) = fv at hv g1 g2
  rw [div_one] at g3
  have e1 : total q.inter k = total d.inter k * fi := by unfold total; rw [hi]; exact total_map _ _
  have e2 : total q.vac k = total d.vac k * fv := by unfold total; rw [hv]; exact total_map _ _
  unfold counted
  rw [e1, e2]
  generalize total d.inter k = a at hnn
  generalize total d.vac k = b at hnn
  refine ⟨mul_nonneg (by linarith [hnn.1, hnn.2]) hn, mul_le_mul_of_nonneg_right ?_ hn, ?_⟩
  · nlinarith [hnn.1, hnn.2]
  · have : a * fi + b * fv ≤ (a + b) * (1 + kB * T) := by nlinarith [hnn.1, hnn.2]
    calc (a * fi + b * fv) * n ≤ (a + b) * (1 + kB * T) * n := mul_le_mul_of_nonneg_right this hn
      _ = (a + b) * n * (1 + kB * T) := by ring

theorem particles_nonneg (l : Leo) (i : ℕ) {k : Particle} (h : k ∈ types) (hv : 0 ≤ l.volume) : 0 ≤ particles l i k := by
  have := (C331_flux k h l.shielding l.shielding le_rfl).2.1
  have hs : 0 ≤ saaFactor i := by unfold saaFactor; split_ifs <;> norm_num
  have hr : 0 ≤ l.volume ^ ((1 : ℝ) / 3) := Real.rpow_nonneg hv _
  unfold particles fluxIn surface stepDays
  positivity

/-- C337: the corrected total is the sum of the defects of the three types; from 150 K on corrections never lower a total and never raise it by more than the thermal energy (in eV), so the overall enhancement lies between 0 and 100 kT percent. -/
theorem C337_totals (l : Leo) (e : ℕ → Particle → ℝ) (hv : 0 ≤ l.volume) : ∃ r, simulate l e = .ok r ∧
    r.quantum = (r.metrics .proton).defects + (r.metrics .electron).defects + (r.metrics .heavyIon).defects ∧
    (150 ≤ l.temperature → 0 ≤ r.classical ∧ r.classical ≤ r.quantum ∧ r.quantum ≤ r.classical * (1 + kB * l.temperature) ∧
      0 ≤ overallEnhancement r ∧ overallEnhancement r ≤ 100 * kB * l.temperature) := by
  refine ⟨afterSteps l e 36, run_ok l e 36, ?_, fun hT => ?_⟩
  · rw [(totals l e 36).2.2, (sums l e 36 (k := .proton) (by simp [types])).2.2.1, (sums l e 36 (k := .electron) (by simp [types])).2.2.1,
      (sums l e 36 (k := .heavyIon) (by simp [types])).2.2.1, ← Finset.sum_add_distrib, ← Finset.sum_add_distrib]
  · have key : ∀ i, ∀ k ∈ types, 0 ≤ (defectsIn l e i k).1 ∧ (defectsIn l e i k).1 ≤ (defectsIn l e i k).2 ∧
        (defectsIn l e i k).2 ≤ (defectsIn l e i k).1 * (1 + kB * l.temperature) := by
      intro i k h
      obtain ⟨c, q, h1, h2⟩ := step_factor (e i k) (particles l i k) (particles_nonneg l i h hv) h hT
      have : defectsIn l e i k = (c, q) := by unfold defectsIn; rw [h1]; rfl
      rw [this]; exact h2
    have hp := fun i => key i .proton (by simp [types])
    have he := fun i => key i .electron (by simp [types])
    have hh := fun i => key i .heavyIon (by simp [types])
    have h0 : 0 ≤ (afterSteps l e 36).classical := by
      rw [(totals l e 36).2.1]; exact Finset.sum_nonneg fun i _ => by linarith [(hp i).1, (he i).1, (hh i).1]
    have h1 : (afterSteps l e 36).classical ≤ (afterSteps l e 36).quantum := by
      rw [(totals l e 36).2.1, (totals l e 36).2.2]
      exact Finset.sum_le_sum fun i _ => by linarith [(hp i).2.1, (he i).2.1, (hh i).2.1]
    have h2 : (afterSteps l e 36).quantum ≤ (afterSteps l e 36).classical * (1 + kB * l.temperature) := by
      rw [(totals l e 36).2.1, (totals l e 36).2.2, Finset.sum_mul]
      exact Finset.sum_le_sum fun i _ => by nlinarith [(hp i).2.2, (he i).2.2, (hh i).2.2]
    refine ⟨h0, h1, h2, ?_⟩
    have hk := kB_pos
    unfold overallEnhancement
    generalize (afterSteps l e 36).classical = c at h0 h1 h2
    generalize (afterSteps l e 36).quantum = q at h1 h2
    by_cases hc : 0 < c
    · rw [if_pos hc]
      have a1 : 1 ≤ q / c := by rw [le_div_iff₀ hc]; linarith
      have a2 : q / c ≤ 1 + kB * l.temperature := by rw [div_le_iff₀ hc]; linarith
      constructor <;> linarith
    · rw [if_neg hc]
      constructor
      · exact le_rfl
      · have : 0 ≤ l.temperature := by linarith
        positivity

/-- C337: the energy deposited is that of all particles that hit, in all steps; the damage total is the sum over the types. -/
theorem C337_energy (l : Leo) (e : ℕ → Particle → ℝ) : ∃ r, simulate l e = .ok r ∧
    r.energy = ∑ i ∈ Finset.range 36, (types.map fun k => e i k * (effective k l.shielding * saaFactor i * surface l.volume * (365 / 36 * 86400))).sum ∧
    totalDpa r = (types.map fun k => (r.metrics k).dpa).sum := by
  refine ⟨afterSteps l e 36, run_ok l e 36, ?_, ?_⟩
  · rw [(totals l e 36).1]
    refine Finset.sum_congr rfl fun i _ => ?_
    simp only [types, List.map_cons, List.map_nil, List.sum_cons, List.sum_nil, particles, fluxIn, stepDays]
    ring
  · unfold totalDpa; simp [types]; ring

/-- C337 (violated): "Quantum enhancement factor" of a type in the results of the mission is that of its last step alone: whatever happened before, it is the ratio of the corrected to the classical defects of step 36. -/
theorem C337_enhancement_violated (l : Leo) (e e' : ℕ → Particle → ℝ) (h : e 35 = e' 35) : ∃ r r', simulate l e = .ok r ∧ simulate l e' = .ok r' ∧
    ∀ k ∈ types, (r.metrics k).enhancement = (r'.metrics k).enhancement := by
  refine ⟨afterSteps l e 36, afterSteps l e' 36, run_ok l e 36, run_ok l e' 36, fun k hk => ?_⟩
  rw [metrics_succ l e 35 hk, metrics_succ l e' 35 hk]
  have : defectsIn l e 35 k = defectsIn l e' 35 k := by unfold defectsIn; rw [h]
  simp only [metricsIn]
  rw [this]

/-- C337: at 300 K the enhancement stays below 2.6 percent. -/
example : 100 * kB * ({} : Leo).temperature < 2.6 := by unfold kB; norm_num

end Verif.Props.LeoMission
