import Verif.Model.MissionProfile
import Mathlib.Analysis.Complex.ExponentialBounds
import Mathlib.Tactic.NormNum
import Mathlib.Tactic.Linarith
import Mathlib.Tactic.Positivity
/-!
C198-C202: mission profiles and activation functions.
-/
namespace Verif.MissionProfile
open Classical

/-! ### C198: names -/

/-- The documented names of each type of mission. -/
def names : Kind → List String
  | .leo => ["LEO", "LEO_EARTH_OBSERVATION"]
  | .meo => ["MEO", "MEDIUM_EARTH_ORBIT"]
  | .geo => ["GEO", "GEOSTATIONARY"]
  | .lunarOrbit => ["LUNAR_ORBIT"]
  | .lunarSurface => ["LUNAR_SURFACE", "MOON"]
  | .marsTransit => ["MARS_TRANSIT"]
  | .marsOrbit => ["MARS_ORBIT"]
  | .marsSurface => ["MARS_SURFACE", "MARS"]
  | .deepSpace => ["DEEP_SPACE", "JUPITER"]

/-- **C198.** Constructed by one of its names, a mission is the one constructed by its type; a name that belongs to no type gives the mission in low Earth orbit. -/
theorem C198_names (s : String) : (∀ k, s ∈ names k → named s = new k) ∧ ((∀ k, s ∉ names k) → named s = new .leo) := by
  constructor
  · intro k h
    have : kindOf s = k := by
      cases k <;> simp only [names, List.mem_cons, List.not_mem_nil, or_false] at h <;>
        first | (rcases h with rfl | rfl <;> rfl) | (subst h; rfl)
    unfold named; rw [this]
  · intro h
    have : kindOf s = .leo := by
      have hk : ∀ k, kindOf s = k → s ∈ names k ∨ k = .leo := by
        intro k e
        unfold kindOf at e
        split_ifs at e <;> subst e <;> simp_all [names]
      rcases hk (kindOf s) rfl with e | e
      · exact absurd e (h _)
      · exact e
    unfold named; rw [this]

/-- **C198 (type).** Every mission knows the type it was constructed with. -/
theorem C198_kind (k : Kind) : (new k).kind = k := by cases k <;> rfl

/-- **C198 (unknown names, limit).** A name in another spelling is not recognised and gets the settings of the least exposed mission: every other mission has a higher flux
and shorter scrubbing intervals. -/
theorem C198_unknown_limit (k : Kind) (h : k ≠ .leo) : named "Mars" = new .leo ∧ named "jupiter" = new .leo ∧ (new .leo).rad.flux < (new k).rad.flux ∧
    (new k).sw.scrub < (new .leo).sw.scrub := by
  refine ⟨rfl, rfl, ?_, ?_⟩
  · cases k <;> first | exact absurd rfl h | norm_num [new, leo, meo, geo, lunarOrbit, lunarSurface, marsTransit, marsOrbit, marsSurface, deepSpace]
  · cases k <;> first | exact absurd rfl h | simp [new, leo, meo, geo, lunarOrbit, lunarSurface, marsTransit, marsOrbit, marsSurface, deepSpace]

example : named "MOON" = new .lunarSurface := (C198_names "MOON").1 .lunarSurface (by simp [names])

/-! ### C199: settings -/

/-- Order of the levels of protection. -/
def Level.rank : Level → ℕ
  | .minimal => 0
  | .standard => 1
  | .enhanced => 2
  | .maximum => 3

/-- **C199.** Every mission has positive intervals, redundancy 2 or 3, recovery, logging and error-correcting memory, likelihoods between 0 and 1, and room for its settings:
positive dose, flux, memory, compute and power, and between 4 and 8 bits. -/
theorem C199_sane (k : Kind) :
    0 < (new k).sw.scrub ∧ 0 < (new k).sw.checkpoint ∧ (2 ≤ (new k).sw.redundancy ∧ (new k).sw.redundancy ≤ 3) ∧ (new k).sw.recovery = true ∧ (new k).tel.logging = true ∧
    (new k).hw.ecc = true ∧ (4 ≤ (new k).sw.bits ∧ (new k).sw.bits ≤ 8) ∧
    0 < (new k).rad.dose ∧ 0 < (new k).rad.flux ∧ 0 < (new k).hw.memory ∧ 0 < (new k).hw.compute ∧ 0 < (new k).hw.power ∧
    (0 ≤ (new k).rad.saa ∧ (new k).rad.saa ≤ 1) ∧ (0 ≤ (new k).rad.solar ∧ (new k).rad.solar ≤ 1) ∧ (0 ≤ (new k).rad.gcr ∧ (new k).rad.gcr ≤ 1) := by
  cases k <;> norm_num [new, leo, meo, geo, lunarOrbit, lunarSurface, marsTransit, marsOrbit, marsSurface, deepSpace]

/-- **C199 (more exposed, better protected).** Of two missions the one with the higher peak flux is scrubbed more often, and is given neither a longer checkpoint interval, nor
less redundancy, nor a lower level of protection, nor a lower share of cosmic rays. -/
theorem C199_monotone (a b : Kind) (h : (new a).rad.flux < (new b).rad.flux) :
    (new b).sw.scrub < (new a).sw.scrub ∧ (new b).sw.checkpoint ≤ (new a).sw.checkpoint ∧ (new a).sw.redundancy ≤ (new b).sw.redundancy ∧
    (new a).level.rank ≤ (new b).level.rank ∧ (new a).rad.gcr ≤ (new b).rad.gcr := by
  cases a <;> cases b <;> revert h <;>
    norm_num [new, leo, meo, geo, lunarOrbit, lunarSurface, marsTransit, marsOrbit, marsSurface, deepSpace, Profile.level, Level.rank]

/-- **C199 (anomaly).** Passages through the South Atlantic Anomaly are planned in low and medium orbit only. -/
theorem C199_anomaly (k : Kind) : 0 < (new k).rad.saa ↔ k = .leo ∨ k = .meo := by
  cases k <;> norm_num [new, leo, meo, geo, lunarOrbit, lunarSurface, marsTransit, marsOrbit, marsSurface, deepSpace] <;> decide

/-- **C199 (dose, limit).** The settings do not follow the annual dose: geostationary missions have more of it than missions on Mars, and are scrubbed half as often. -/
theorem C199_dose_limit : (new .marsSurface).rad.dose < (new .geo).rad.dose ∧ (new .geo).sw.scrub = 2 * (new .marsSurface).sw.scrub := by
  norm_num [new, leo, geo, deepSpace, marsTransit, marsOrbit, marsSurface]

/-- **C199 (log files, violated).** Missions in low, medium and geostationary orbit all write to the log of the low-orbit mission; all other missions have a log of their own. -/
theorem C199_log_violated : (new .meo).tel.file = (new .leo).tel.file ∧ (new .geo).tel.file = (new .leo).tel.file ∧
    ∀ a b : Kind, (new a).tel.file = (new b).tel.file → a = b ∨ ((a = .leo ∨ a = .meo ∨ a = .geo) ∧ (b = .leo ∨ b = .meo ∨ b = .geo)) := by
  refine ⟨rfl, rfl, fun a b h => ?_⟩
  cases a <;> cases b <;> first | exact .inl rfl | (refine .inr ?_; simp; done) | (exfalso; exact absurd h (by simp [new, leo, meo, geo, lunarOrbit, lunarSurface, marsTransit, marsOrbit, marsSurface, deepSpace]))

/-- **C199 (Mars surface, violated).** On the surface of Mars only the dose is lowered for the atmosphere: peak flux, solar and cosmic exposure are those of deep space. -/
theorem C199_mars_violated : (new .marsSurface).rad = { (new .deepSpace).rad with dose := 25 } := rfl

/-! ### C200: simulation -/

/-- **C200.** The simulation environment of each type of mission: altitude, inclination, activity, shielding. -/
theorem C200_environment (k : Kind) :
    (new k).simulation.solar = 3 ∧ (new k).simulation.saa = false ∧
    (new k).simulation.altitude = (match k with | .leo => 500 | .meo => 20000 | .geo => 35786 | .lunarOrbit => 384400 | .lunarSurface => 384400 | _ => 0) ∧
    (new k).simulation.shield = (match k with | .leo => 5 | .meo => 5 | .geo => 5 | .deepSpace => 20 | _ => 3) := by
  cases k <;> simp [Profile.simulation, new, leo, meo, geo, lunarOrbit, lunarSurface, marsTransit, marsOrbit, marsSurface, deepSpace, RadSimulator.missionEnv]

/-- The rate of events the simulator computes for a mission. -/
noncomputable def rate (k : Kind) : ℝ := RadSimulator.baseRate (new k).simulation

theorem rate_leo : rate .leo = 36 / 10000 * Real.exp (-(1 / 2)) := by
  have h1 : RadSimulator.has "Low Earth Orbit" "Mars" = false := by decide
  have h2 : RadSimulator.has "Low Earth Orbit" "Lunar" = false := by decide
  have h3 : RadSimulator.has "Low Earth Orbit" "Moon" = false := by decide
  have h4 : RadSimulator.has "Low Earth Orbit" "Jupiter" = false := by decide
  have e : (new .leo).simulation = ⟨500, 45, 3, false, 5, "Low Earth Orbit"⟩ := by simp [Profile.simulation, new, leo, RadSimulator.missionEnv]
  unfold rate
  rw [e]
  unfold RadSimulator.baseRate RadSimulator.place RadSimulator.altFactor
  simp only [h1, h2, h3, h4]
  norm_num

theorem rate_meo : rate .meo = 96 / 10000 * Real.exp (-(1 / 2)) := by
  have h1 : RadSimulator.has "Generic Space Mission" "Mars" = false := by decide
  have h2 : RadSimulator.has "Generic Space Mission" "Lunar" = false := by decide
  have h3 : RadSimulator.has "Generic Space Mission" "Moon" = false := by decide
  have h4 : RadSimulator.has "Generic Space Mission" "Jupiter" = false := by decide
  have e : (new .meo).simulation = ⟨20000, 45, 3, false, 5, "Generic Space Mission"⟩ := by simp [Profile.simulation, new, leo, meo, RadSimulator.missionEnv]
  unfold rate
  rw [e]
  unfold RadSimulator.baseRate RadSimulator.place RadSimulator.altFactor
  simp only [h1, h2, h3, h4]
  norm_num

theorem rate_geo : rate .geo = 55786 / 10000000 * (16 / 10) * Real.exp (-(1 / 2)) := by
  have h1 : RadSimulator.has "Geostationary Orbit" "Mars" = false := by decide
  have h2 : RadSimulator.has "Geostationary Orbit" "Lunar" = false := by decide
  have h3 : RadSimulator.has "Geostationary Orbit" "Moon" = false := by decide
  have h4 : RadSimulator.has "Geostationary Orbit" "Jupiter" = false := by decide
  have e : (new .geo).simulation = ⟨35786, 0, 3, false, 5, "Geostationary Orbit"⟩ := by simp [Profile.simulation, new, leo, geo, RadSimulator.missionEnv]
  unfold rate
  rw [e]
  unfold RadSimulator.baseRate RadSimulator.place RadSimulator.altFactor
  simp only [h1, h2, h3, h4]
  norm_num

theorem rate_deep : rate .deepSpace = 16 / 1000 * Real.exp (-2) := by
  have h1 : RadSimulator.has "Jupiter Mission" "Mars" = false := by decide
  have h2 : RadSimulator.has "Jupiter Mission" "Lunar" = false := by decide
  have h3 : RadSimulator.has "Jupiter Mission" "Moon" = false := by decide
  have h4 : RadSimulator.has "Jupiter Mission" "Jupiter" = true := by decide
  have e : (new .deepSpace).simulation = ⟨0, 0, 3, false, 20, "Jupiter Mission"⟩ := by simp [Profile.simulation, new, leo, geo, deepSpace, RadSimulator.missionEnv]
  unfold rate
  rw [e]
  unfold RadSimulator.baseRate RadSimulator.place
  simp only [h1, h2, h3, h4]
  norm_num

theorem rate_mars (k : Kind) (h : k = .marsTransit ∨ k = .marsOrbit ∨ k = .marsSurface) : rate k = 32 / 10000 * Real.exp (-(3 / 10)) := by
  have h1 : RadSimulator.has "Mars Mission" "Mars" = true := by decide
  have e : (new k).simulation = ⟨0, 0, 3, false, 3, "Mars Mission"⟩ := by
    rcases h with rfl | rfl | rfl <;> simp [Profile.simulation, new, leo, geo, deepSpace, marsTransit, marsOrbit, marsSurface, RadSimulator.missionEnv]
  unfold rate
  rw [e]
  unfold RadSimulator.baseRate RadSimulator.place
  simp only [h1]
  norm_num

/-- **C200 (positive).** Every mission is simulated with a positive rate of events. -/
theorem C200_positive (k : Kind) : 0 < rate k := by
  unfold rate RadSimulator.baseRate
  have h1 := (C200_environment k).1
  have h3 := (C200_environment k).2.2.1
  have hi : 0 ≤ (new k).simulation.inclination := by
    cases k <;> simp [Profile.simulation, new, leo, meo, geo, lunarOrbit, lunarSurface, marsTransit, marsOrbit, marsSurface, deepSpace, RadSimulator.missionEnv]
  have ha : 0 ≤ (new k).simulation.altitude := by rw [h3]; cases k <;> norm_num
  have hp : 0 < RadSimulator.place (new k).simulation := by
    unfold RadSimulator.place RadSimulator.altFactor
    split_ifs <;> positivity
  have hs : (0:ℝ) < (if (new k).simulation.saa = true then 10 else 1) := by split_ifs <;> norm_num
  rw [h1]
  have := Real.exp_pos (-(new k).simulation.shield / 10)
  positivity

/-- **C200 (order, violated).** The simulated rates contradict the profiles: the mission with the highest peak flux, in deep space, is simulated with fewer events than the one
with the lowest, in low Earth orbit; medium orbit, of lower flux, is simulated with more events than geostationary orbit, and all Mars missions with fewer than that. -/
theorem C200_order_violated : (rate .deepSpace < rate .leo ∧ (new .leo).rad.flux < (new .deepSpace).rad.flux) ∧
    (rate .geo < rate .meo ∧ (new .meo).rad.flux < (new .geo).rad.flux) ∧
    ∀ k, k = .marsTransit ∨ k = .marsOrbit ∨ k = .marsSurface → rate k < rate .meo ∧ (new .meo).rad.flux < (new k).rad.flux := by
  have e1 := Real.exp_pos (-2 : ℝ)
  have e2 := Real.exp_pos (-(1 / 2) : ℝ)
  have key : (40 : ℝ) / 9 * Real.exp (-2) < Real.exp (-(1 / 2)) := by
    have h3 : (40 : ℝ) / 9 < Real.exp (3 / 2) := by
      have hsq : Real.exp (3 / 2) * Real.exp (3 / 2) = Real.exp 1 * Real.exp 1 * Real.exp 1 := by
        rw [← Real.exp_add, ← Real.exp_add, ← Real.exp_add]; norm_num
      have hd := Real.exp_one_gt_d9
      have hp := Real.exp_pos (3 / 2 : ℝ)
      have hb : (2.7 : ℝ) < Real.exp 1 := by linarith
      by_contra hn
      push Not at hn
      have a1 : Real.exp (3 / 2) * Real.exp (3 / 2) ≤ 40 / 9 * (40 / 9) := mul_le_mul hn hn hp.le (by norm_num)
      have b1 : (2.7182818283 : ℝ) * 2.7182818283 ≤ Real.exp 1 * Real.exp 1 := mul_le_mul hd.le hd.le (by norm_num) (Real.exp_pos 1).le
      have b2 : (2.7182818283 : ℝ) * 2.7182818283 * 2.7182818283 ≤ Real.exp 1 * Real.exp 1 * Real.exp 1 :=
        mul_le_mul b1 hd.le (by norm_num) (by positivity)
      norm_num at b2 a1
      linarith
    have : Real.exp (-(1 / 2)) = Real.exp (3 / 2) * Real.exp (-2) := by rw [← Real.exp_add]; norm_num
    rw [this]
    exact mul_lt_mul_of_pos_right h3 e1
  refine ⟨⟨?_, ?_⟩, ⟨?_, ?_⟩, fun k hk => ⟨?_, ?_⟩⟩
  · rw [rate_deep, rate_leo]; linarith
  · norm_num [new, leo, geo, deepSpace]
  · rw [rate_geo, rate_meo]; linarith
  · norm_num [new, leo, geo, meo]
  · rw [rate_mars k hk, rate_meo]
    have h1 : Real.exp (-(3 / 10)) ≤ 1 := by rw [← Real.exp_zero]; exact Real.exp_le_exp.2 (by norm_num)
    have h2 : (1 / 2 : ℝ) ≤ Real.exp (-(1 / 2)) := by
      have := Real.add_one_le_exp (-(1 / 2) : ℝ); linarith
    linarith
  · rcases hk with rfl | rfl | rfl <;> norm_num [new, leo, geo, meo, deepSpace, marsTransit, marsOrbit, marsSurface]

/-- **C200 (Mars, violated).** Transit, orbit and surface of Mars are simulated alike, although their doses differ. -/
theorem C200_mars_violated : rate .marsTransit = rate .marsSurface ∧ rate .marsOrbit = rate .marsSurface ∧ (new .marsTransit).rad.dose = 2 * (new .marsSurface).rad.dose := by
  refine ⟨?_, ?_, ?_⟩
  · rw [rate_mars _ (.inl rfl), rate_mars _ (.inr (.inr rfl))]
  · rw [rate_mars _ (.inr (.inl rfl)), rate_mars _ (.inr (.inr rfl))]
  · norm_num [new, leo, geo, deepSpace, marsTransit, marsOrbit, marsSurface]

/-! ### C201: configuring a network -/

/-- A network as left by the calls it received. -/
structure Net where
  level : Option Level := none
  scrub : Option ℕ := none
  redundancy : Option ℕ := none
  recovery : Option ℕ := none
  quantization : Option ℕ := none

/-- What a call sets. -/
def Net.apply (n : Net) : Call → Net
  | .protection l => { n with level := some l }
  | .scrub m => { n with scrub := some m }
  | .redundancy r => { n with redundancy := some r }
  | .recovery s => { n with recovery := some s }
  | .quantization b => { n with quantization := some b }

/-- **C201.** Configured by any sequence of missions, a network has the protection level, scrubbing interval, redundancy and checkpoint interval of the last one. -/
theorem C201_last (n : Net) (ks : List Kind) (k : Kind) :
    let m := ((ks ++ [k]).flatMap fun k => (new k).configure).foldl Net.apply n
    m.level = some (new k).level ∧ m.scrub = some (new k).sw.scrub ∧ m.redundancy = some (new k).sw.redundancy ∧ m.recovery = some (new k).sw.checkpoint ∧
    ((new k).sw.quantized = true → m.quantization = some (new k).sw.bits) := by
  intro m
  have hr : (new k).sw.recovery = true := (C199_sane k).2.2.2.1
  have e : m = ((new k).configure).foldl Net.apply ((ks.flatMap fun k => (new k).configure).foldl Net.apply n) := by
    show List.foldl _ _ _ = _
    rw [List.flatMap_append, List.foldl_append]
    simp
  rw [e]
  unfold Profile.configure
  rw [hr]
  cases hq : (new k).sw.quantized <;> simp [Net.apply]

/-- **C201 (quantisation).** A new network is quantised exactly for missions beyond low and medium Earth orbit, with 8 bits, in deep space and around Mars with 4. -/
theorem C201_quantised (k : Kind) : (((new k).configure).foldl Net.apply {}).quantization =
    match k with | .leo => none | .meo => none | .geo => some 8 | .lunarOrbit => some 8 | .lunarSurface => some 8 | _ => some 4 := by
  cases k <;> rfl

/-- **C201 (reconfiguration, violated).** Reconfigured for a mission without quantisation a network stays quantised. -/
theorem C201_sticky_violated (n : Net) (a b : Kind) (ha : (new a).sw.quantized = true) (hb : (new b).sw.quantized = false) :
    (((new a).configure ++ (new b).configure).foldl Net.apply n).quantization = some (new a).sw.bits := by
  have r1 : (new a).sw.recovery = true := (C199_sane a).2.2.2.1
  have r2 : (new b).sw.recovery = true := (C199_sane b).2.2.2.1
  unfold Profile.configure
  rw [r1, r2, ha, hb]
  simp [Net.apply]

example : (new .deepSpace).sw.quantized = true ∧ (new .leo).sw.quantized = false := ⟨rfl, rfl⟩

/-! ### C202: activation functions -/

/-- **C202.** On numbers: linear is the identity, ReLU is `max(0, x)`, the sigmoid is `1 / (1 + e^-x)`, tanh is tanh. -/
theorem C202_formulas (x : ℝ) : act .linear (.fin x) = .fin x ∧ act .relu (.fin x) = .fin (max 0 x) ∧ act .sigmoid (.fin x) = .fin (1 / (1 + Real.exp (-x))) ∧
    act .tanh (.fin x) = .fin (Real.tanh x) := by
  refine ⟨rfl, ?_, ?_, rfl⟩
  · unfold act
    by_cases h : 0 < x
    · simp [h, max_eq_right h.le]
    · simp [h, max_eq_left (not_lt.1 h)]
  · show XD.div (.fin 1) (.fin (1 + Real.exp (-x))) = _
    exact XD.div_fin _ _ (by have := Real.exp_pos (-x); linarith)

/-- **C202 (leaky).** The leaky ReLU is `max(k x, x)` with a slope `k` less than 3e-10 below 0.01. -/
theorem C202_leaky : ∃ k : ℝ, 1 / 100 - 3 / 10 ^ 10 < k ∧ k < 1 / 100 ∧ ∀ x : ℝ, act .leaky (.fin x) = .fin (max (k * x) x) := by
  refine ⟨slope, by norm_num [slope], by norm_num [slope], fun x => ?_⟩
  unfold act
  by_cases h : 0 < x
  · have : slope * x ≤ x := by unfold slope; norm_num; linarith
    simp [h, max_eq_right this]
  · have : x ≤ slope * x := by unfold slope; norm_num; linarith
    simp [h, max_eq_left this]

/-- **C202 (ranges).** For every input that is not NaN the sigmoid is a number in [0, 1], tanh in [-1, 1], ReLU is never negative; for numbers the bounds are strict. -/
theorem C202_ranges (x : XD) (h : x ≠ .nan) : (∃ y, act .sigmoid x = .fin y ∧ 0 ≤ y ∧ y ≤ 1 ∧ (∀ r, x = .fin r → 0 < y ∧ y < 1)) ∧
    (∃ y, act .tanh x = .fin y ∧ -1 ≤ y ∧ y ≤ 1 ∧ (∀ r, x = .fin r → -1 < y ∧ y < 1)) ∧ XD.le (.fin 0) (act .relu x) := by
  cases x with
  | nan => exact absurd rfl h
  | fin r =>
    refine ⟨⟨_, (C202_formulas r).2.2.1, ?_⟩, ⟨Real.tanh r, rfl, (Real.neg_one_lt_tanh r).le, (Real.tanh_lt_one r).le, fun _ _ => ⟨Real.neg_one_lt_tanh r, Real.tanh_lt_one r⟩⟩, ?_⟩
    · have hp := Real.exp_pos (-r)
      have h1 : 0 < 1 / (1 + Real.exp (-r)) := by positivity
      have h2 : 1 / (1 + Real.exp (-r)) < 1 := by rw [div_lt_one (by linarith)]; linarith
      exact ⟨h1.le, h2.le, fun _ _ => ⟨h1, h2⟩⟩
    · rw [(C202_formulas r).2.1]; simp
  | pinf =>
    refine ⟨⟨1, ?_, by norm_num, by norm_num, by intro r e; cases e⟩, ⟨1, rfl, by norm_num, by norm_num, by intro r e; cases e⟩, ?_⟩
    · show XD.div (.fin 1) (.fin (1 + 0)) = _
      rw [XD.div_fin _ _ (by norm_num)]; norm_num
    · unfold act
      have : XD.lt (.fin 0) .pinf := True.intro
      simp [this, XD.le]
  | ninf =>
    refine ⟨⟨0, rfl, by norm_num, by norm_num, by intro r e; cases e⟩, ⟨-1, rfl, by norm_num, by norm_num, by intro r e; cases e⟩, ?_⟩
    unfold act
    have : ¬ XD.lt (.fin 0) .ninf := fun h => h
    simp [this]

/-- **C202 (monotone).** All activations are monotone on numbers. -/
theorem C202_monotone (a : Act) (x y : ℝ) (h : x ≤ y) : XD.le (act a (.fin x)) (act a (.fin y)) := by
  cases a with
  | linear => simpa [act] using h
  | softmax => simpa [act] using h
  | relu => rw [(C202_formulas x).2.1, (C202_formulas y).2.1, XD.le_fin]; exact max_le_max le_rfl h
  | sigmoid =>
    rw [(C202_formulas x).2.2.1, (C202_formulas y).2.2.1, XD.le_fin]
    have := Real.exp_le_exp.2 (neg_le_neg h)
    have hp := Real.exp_pos (-y)
    exact one_div_le_one_div_of_le (by linarith) (by linarith)
  | tanh =>
    show XD.le (.fin (Real.tanh x)) (.fin (Real.tanh y))
    rw [XD.le_fin]
    rw [Real.tanh_eq_sinh_div_cosh, Real.tanh_eq_sinh_div_cosh, div_le_div_iff₀ (Real.cosh_pos x) (Real.cosh_pos y)]
    have : 0 ≤ Real.sinh (y - x) := Real.sinh_nonneg_iff.2 (by linarith)
    rw [Real.sinh_sub] at this
    linarith
  | leaky =>
    obtain ⟨k, h1, h2, h3⟩ := C202_leaky
    rw [h3, h3, XD.le_fin]
    have : 0 < k := by linarith
    exact max_le_max (mul_le_mul_of_nonneg_left h this.le) h

/-- **C202 (softmax, violated).** Softmax is the identity: outputs are neither confined to [0, 1] nor do they sum to 1. -/
theorem C202_softmax_violated (x : XD) : act .softmax x = x := rfl

/-- **C202 (NaN).** Except for ReLU a value that is not a number stays so; ReLU turns it into 0. -/
theorem C202_nan (a : Act) : act a .nan = if a = .relu then .fin 0 else .nan := by
  cases a <;> simp [act, tanh, exp, XD.neg, XD.div, XD.add, XD.mul, XD.lt]

end Verif.MissionProfile
