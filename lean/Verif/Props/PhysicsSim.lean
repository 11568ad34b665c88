import Verif.Model.PhysicsSim
import Mathlib.Tactic.NormNum
import Mathlib.Tactic.Linarith
import Mathlib.Tactic.Ring
import Mathlib.Tactic.Positivity
import Mathlib.Tactic.FieldSimp
import Mathlib.Analysis.Complex.ExponentialBounds
/-!
C185-C191: the physics-based radiation simulator (sim/physics_radiation_simulator.hpp) and the environment tables
(src/rad_ml/sim/environment.cpp).
-/
namespace Verif.Props.PhysicsSimP
open Verif Verif.PhysicsSim

/-! ### Specification -/

/-- Environments in Earth orbit. -/
def EarthOrbit (e : Env) : Prop := e = .leo ∨ e = .meo ∨ e = .geo

/-- A call that configures the simulator. -/
inductive Op where
  | environment (e : Env)
  | solar (a : ℝ)
  | shielding (t : ℝ)
  | trajectory (e : Env) (es : List Env) (ds : List ℝ)

/-- The configured simulator. -/
noncomputable def apply (s : Sim) : Op → Sim
  | .environment e => s.setEnvironment e
  | .solar a => s.setSolarActivity a
  | .shielding t => s.setShielding t
  | .trajectory e es ds => { s with traj := ⟨e :: es, ds⟩, env := e }

/-- States reached from a constructor by configuration calls. -/
def Reached (s : Sim) : Prop := ∃ bits shield e es ds, ∃ ops : List Op, ops.foldl apply ⟨bits, shield, ⟨e :: es, ds⟩, e, 1 / 2⟩ = s

/-- The operations are the model's calls. -/
theorem apply_trajectory (s : Sim) (e : Env) (es : List Env) (ds : List ℝ) :
    s.setTrajectory ⟨e :: es, ds⟩ = .ok (apply s (.trajectory e es ds)) ∧
    ∀ bits shield, new bits shield ⟨e :: es, ds⟩ = .ok ⟨bits, shield, ⟨e :: es, ds⟩, e, 1 / 2⟩ := ⟨rfl, fun _ _ => rfl⟩

/-! ### C185: the factors -/

/-- **C185 (solar activity).** For every activity between 0 and 1 the solar factor is positive: between 0.49 and 2.75, in Earth orbit between 0.67 and
1.85; 1 during a solar storm; at least from 1/8 on it grows with activity. -/
theorem C185_solar (e : Env) (a : ℝ) (h0 : 0 ≤ a) (h1 : a ≤ 1) :
    49 / 100 ≤ solarModifier e a ∧ solarModifier e a ≤ 275 / 100 ∧
    (EarthOrbit e → 67 / 100 ≤ solarModifier e a ∧ solarModifier e a ≤ 185 / 100) ∧
    (e = .solarStorm → solarModifier e a = 1) ∧
    (∀ b, 1 / 8 ≤ a → a ≤ b → solarModifier e a ≤ solarModifier e b) := by
  unfold solarModifier EarthOrbit
  by_cases hs : e = .solarStorm
  · subst hs; norm_num
  · by_cases he : e = .leo ∨ e = .meo ∨ e = .geo
    · simp only [if_neg hs, if_pos he]
      refine ⟨by nlinarith [sq_nonneg (a - 7 / 60)], by nlinarith, fun _ => ⟨by nlinarith [sq_nonneg (a - 7 / 60)], by nlinarith⟩,
        fun h => absurd h hs, fun b ha hb => by nlinarith⟩
    · simp only [if_neg hs, if_neg he]
      refine ⟨by nlinarith [sq_nonneg (a - 1 / 20)], by nlinarith, fun h => absurd h he,
        fun h => absurd h hs, fun b ha hb => by nlinarith⟩

/-- **C185 (solar extremes).** Without and with full activity: 0.7 and 1.85 in Earth orbit, 0.5 and 2.75 elsewhere outside a storm. -/
theorem C185_solar_extremes (e : Env) (h : e ≠ .solarStorm) :
    (EarthOrbit e → solarModifier e 0 = 7 / 10 ∧ solarModifier e 1 = 185 / 100) ∧
    (¬ EarthOrbit e → solarModifier e 0 = 1 / 2 ∧ solarModifier e 1 = 275 / 100) := by
  unfold EarthOrbit solarModifier
  refine ⟨fun he => ?_, fun he => ?_⟩
  · simp only [if_neg h, if_pos he]; norm_num
  · simp only [if_neg h, if_neg he]; norm_num

/-- **C185 (weak activity, limit).** Little solar activity means less radiation than none: below 1/10 the factor is smaller than for 0. -/
theorem C185_solar_dip_limit (e : Env) (h : e ≠ .solarStorm) (a : ℝ) (h0 : 0 < a) (h1 : a < 1 / 10) :
    solarModifier e a < solarModifier e 0 := by
  unfold solarModifier
  simp only [if_neg h]
  split <;> nlinarith

theorem rpow_exp (t c : ℝ) : Real.exp (-t / 2) ^ c = Real.exp (-(c / 2) * t) := by
  rw [← Real.exp_mul]; congr 1; ring

theorem mix_le_one {t : ℝ} (h : 0 < t) : 3 / 10 * Real.exp (-(12 / 10 / 2) * t) + 7 / 10 * Real.exp (-(7 / 10 / 2) * t) < 1 := by
  have h1 : Real.exp (-(12 / 10 / 2) * t) < 1 := by rw [← Real.exp_zero]; exact Real.exp_lt_exp.2 (by nlinarith)
  have h2 : Real.exp (-(7 / 10 / 2) * t) < 1 := by rw [← Real.exp_zero]; exact Real.exp_lt_exp.2 (by nlinarith)
  linarith

/-- **C185 (shielding).** The shielding factor of a thickness `t > 0` is `0.3 exp(-0.6 t) + 0.7 exp(-0.35 t)`, but at least 0.01; without
shielding it is 1. -/
theorem C185_shielding (t : ℝ) :
    (t ≤ 0 → shieldingFactor t = 1) ∧
    (0 < t → shieldingFactor t = max (1 / 100) (3 / 10 * Real.exp (-(6 / 10) * t) + 7 / 10 * Real.exp (-(35 / 100) * t))) := by
  constructor
  · intro h; unfold shieldingFactor; rw [if_pos h]
  · intro h
    unfold shieldingFactor
    rw [if_neg (not_le.2 h)]
    simp only [rpow_exp]
    rw [min_eq_right (mix_le_one h).le]
    norm_num

/-- **C185 (shielding, range).** For all thicknesses the factor lies between 0.01 and 1, below 1 with any shielding, and never grows with
thickness. -/
theorem C185_shielding_range (t : ℝ) :
    1 / 100 ≤ shieldingFactor t ∧ shieldingFactor t ≤ 1 ∧ (0 < t → shieldingFactor t < 1) ∧
    (∀ u, t ≤ u → shieldingFactor u ≤ shieldingFactor t) := by
  have hlt : ∀ x : ℝ, 0 < x → shieldingFactor x < 1 := by
    intro x h
    rw [(C185_shielding x).2 h]
    have := mix_le_one h
    norm_num at this ⊢
    exact this
  have hge : ∀ x : ℝ, 1 / 100 ≤ shieldingFactor x := by
    intro x
    rcases le_or_gt x 0 with h | h
    · rw [(C185_shielding x).1 h]; norm_num
    · rw [(C185_shielding x).2 h]; exact le_max_left _ _
  have hle : ∀ x : ℝ, shieldingFactor x ≤ 1 := by
    intro x
    rcases le_or_gt x 0 with h | h
    · rw [(C185_shielding x).1 h]
    · exact (hlt x h).le
  refine ⟨hge t, hle t, hlt t, fun u hu => ?_⟩
  rcases le_or_gt t 0 with h | h
  · rw [(C185_shielding t).1 h]; exact hle u
  · rw [(C185_shielding t).2 h, (C185_shielding u).2 (lt_of_lt_of_le h hu)]
    have h1 : Real.exp (-(6 / 10) * u) ≤ Real.exp (-(6 / 10) * t) := Real.exp_le_exp.2 (by nlinarith)
    have h2 : Real.exp (-(35 / 100) * u) ≤ Real.exp (-(35 / 100) * t) := Real.exp_le_exp.2 (by nlinarith)
    exact max_le_max le_rfl (by linarith)

/-- **C185 (thick shielding, limit).** From 20 mm on the factor is 0.01, and more shielding has no effect. -/
theorem C185_thick_limit (t : ℝ) (h : 20 ≤ t) : shieldingFactor t = 1 / 100 := by
  rw [(C185_shielding t).2 (by linarith)]
  apply max_eq_left
  have hk : Real.exp (-7) ≤ 1 / 1000 := by
    have h27 : (2.7:ℝ) < Real.exp 1 := by have := Real.exp_one_gt_d9; linarith
    have e7 : Real.exp 7 = Real.exp 1 ^ 7 := by rw [← Real.exp_nat_mul]; norm_num
    have : (1000:ℝ) ≤ Real.exp 7 := by
      rw [e7]
      calc (1000:ℝ) ≤ 2.7 ^ 7 := by norm_num
        _ ≤ Real.exp 1 ^ 7 := pow_le_pow_left₀ (by norm_num) h27.le 7
    rw [Real.exp_neg, one_div]
    exact inv_anti₀ (by norm_num) this
  have h1 : Real.exp (-(6 / 10) * t) ≤ Real.exp (-7) := Real.exp_le_exp.2 (by linarith)
  have h2 : Real.exp (-(35 / 100) * t) ≤ Real.exp (-7) := Real.exp_le_exp.2 (by linarith)
  linarith

example : shieldingFactor 2 < 1 ∧ 1 / 100 ≤ shieldingFactor 2 := ⟨(C185_shielding_range 2).2.2.1 (by norm_num), (C185_shielding_range 2).1⟩

/-! ### C186: error rates -/

theorem solar_range {s : Sim} (h : Reached s) : 0 ≤ s.solar ∧ s.solar ≤ 1 := by
  obtain ⟨bits, shield, e, es, ds, ops, rfl⟩ := h
  have : ∀ (ops : List Op) (s : Sim), (0 ≤ s.solar ∧ s.solar ≤ 1) → 0 ≤ (ops.foldl apply s).solar ∧ (ops.foldl apply s).solar ≤ 1 := by
    intro ops
    induction ops with
    | nil => intro s h; exact h
    | cons o t ih =>
      intro s h
      apply ih
      cases o with
      | environment e => exact h
      | solar a => exact ⟨le_max_left _ _, max_le (by norm_num) (min_le_left _ _)⟩
      | shielding t => exact h
      | trajectory e es ds => exact h
  exact this ops _ (by norm_num)

theorem modifier_pos (e : Env) : 0 < modifier e := by cases e <;> norm_num [modifier]
theorem probability_pos (k : Kind) : 0 < probability k := by cases k <;> norm_num [probability]

theorem rateModifier_pos {s : Sim} (h : Reached s) : 0 < s.rateModifier := by
  have hs := solar_range h
  have h1 := (C185_solar s.env s.solar hs.1 hs.2).1
  have h2 := (C185_shielding_range s.shield).1
  have h3 := modifier_pos s.env
  unfold Sim.rateModifier
  have : 0 < solarModifier s.env s.solar := by linarith
  have : 0 < shieldingFactor s.shield := by linarith
  positivity

/-- **C186 (rates).** After every history of configuration calls the rate of each effect is its base probability per bit and day times the factors of
environment, solar activity and shielding, per million bits; it is positive, and the rates of the effects keep fixed
proportions: transients twice, multi-bit upsets a fifth, latch-ups a twentieth of the single upsets, functional interrupts and
threshold shifts a hundredth and stuck bits a two-hundredth. -/
theorem C186_rates (s : Sim) (h : Reached s) :
    s.errorRate .seu = modifier s.env * solarModifier s.env s.solar * shieldingFactor s.shield / 10 ∧ 0 < s.errorRate .seu ∧
    s.errorRate .set = 2 * s.errorRate .seu ∧ s.errorRate .mbu = s.errorRate .seu / 5 ∧ s.errorRate .sel = s.errorRate .seu / 20 ∧
    s.errorRate .sefi = s.errorRate .seu / 100 ∧ s.errorRate .thresholdShift = s.errorRate .seu / 100 ∧
    s.errorRate .stuckBit = s.errorRate .seu / 200 := by
  have h1 : s.errorRate .seu = s.rateModifier / 10 := by unfold Sim.errorRate Sim.rateModifier probability; ring
  refine ⟨h1, by rw [h1]; have := rateModifier_pos h; positivity, ?_, ?_, ?_, ?_, ?_, ?_⟩ <;>
  · unfold Sim.errorRate probability; ring

/-- **C186 (history).** The rates depend only on the environment, activity and shielding set last: each call changes its own factor (the activity
clamped to 0..1, the trajectory setting the environment to its first) and nothing else. -/
theorem C186_history (s : Sim) (k : Kind) :
    (∀ e, (apply s (.environment e)).errorRate k = probability k * modifier e * solarModifier e s.solar * shieldingFactor s.shield * 1000000) ∧
    (∀ a, 0 ≤ a → a ≤ 1 → (apply s (.solar a)).errorRate k =
      probability k * modifier s.env * solarModifier s.env a * shieldingFactor s.shield * 1000000) ∧
    (∀ a, a < 0 → apply s (.solar a) = apply s (.solar 0)) ∧ (∀ a, 1 < a → apply s (.solar a) = apply s (.solar 1)) ∧
    (∀ t, (apply s (.shielding t)).errorRate k = probability k * modifier s.env * solarModifier s.env s.solar * shieldingFactor t * 1000000) ∧
    (∀ e es ds, (apply s (.trajectory e es ds)).errorRate k = (apply s (.environment e)).errorRate k) := by
  refine ⟨fun _ => rfl, fun a h0 h1 => ?_, fun a h => ?_, fun a h => ?_, fun _ => rfl, fun _ _ _ => rfl⟩
  · have : max 0 (min 1 a) = a := by rw [min_eq_right h1, max_eq_right h0]
    show probability k * modifier s.env * solarModifier s.env (max 0 (min 1 a)) * shieldingFactor s.shield * 1000000 = _
    rw [this]
  · show ({ s with solar := max 0 (min 1 a) } : Sim) = { s with solar := max 0 (min 1 0) }
    rw [min_eq_right (by linarith : a ≤ 1), max_eq_left h.le]; norm_num
  · show ({ s with solar := max 0 (min 1 a) } : Sim) = { s with solar := max 0 (min 1 1) }
    rw [min_eq_left h.le]; norm_num

/-- **C186 (shielding).** More shielding never raises a rate. -/
theorem C186_shielding (s : Sim) (h : Reached s) (k : Kind) (t u : ℝ) (htu : t ≤ u) :
    (apply s (.shielding u)).errorRate k ≤ (apply s (.shielding t)).errorRate k := by
  have hs := solar_range h
  have h1 := (C185_solar s.env s.solar hs.1 hs.2).1
  have h3 := modifier_pos s.env
  have h4 := probability_pos k
  show probability k * modifier s.env * solarModifier s.env s.solar * shieldingFactor u * 1000000 ≤
    probability k * modifier s.env * solarModifier s.env s.solar * shieldingFactor t * 1000000
  have : 0 < probability k * modifier s.env * solarModifier s.env s.solar := by
    have : 0 < solarModifier s.env s.solar := by linarith
    positivity
  have := mul_le_mul_of_nonneg_left ((C185_shielding_range t).2.2.2 u htu) this.le
  linarith

/-- **C186 (environments).** Under equal activity and shielding the surface of Mars has the lowest and Europa the highest rate of all environments, Europa twice
that of Jupiter. -/
theorem C186_extremes (s : Sim) (h : Reached s) (k : Kind) (e : Env) :
    (s.setEnvironment .marsSurface).errorRate k ≤ (s.setEnvironment e).errorRate k ∧
    (s.setEnvironment e).errorRate k ≤ (s.setEnvironment .europa).errorRate k ∧
    (s.setEnvironment .europa).errorRate k = 2 * (s.setEnvironment .jupiter).errorRate k := by
  have hs := solar_range h
  have h2 := (C185_shielding_range s.shield).1
  have h4 := probability_pos k
  have hc : 0 < probability k * shieldingFactor s.shield * 1000000 := by
    have : 0 < shieldingFactor s.shield := by linarith
    positivity
  have er : ∀ x, (s.setEnvironment x).errorRate k = modifier x * solarModifier x s.solar * (probability k * shieldingFactor s.shield * 1000000) := by
    intro x
    show probability k * modifier x * solarModifier x s.solar * shieldingFactor s.shield * 1000000 = _
    ring
  simp only [er]
  refine ⟨mul_le_mul_of_nonneg_right ?_ hc.le, mul_le_mul_of_nonneg_right ?_ hc.le, ?_⟩
  · have := hs.1; have := hs.2
    cases e <;> simp [modifier, solarModifier] <;> nlinarith
  · have := hs.1; have := hs.2
    cases e <;> simp [modifier, solarModifier] <;> nlinarith
  · simp [modifier, solarModifier]; ring

/-- The default simulator. -/
noncomputable def defaultSim : Sim := ⟨8 * 1024 * 1024, 2, earthLeo, .leo, 1 / 2⟩

theorem default_reached : Reached defaultSim := ⟨8 * 1024 * 1024, 2, .leo, [], [365], [], rfl⟩

example : 0 < defaultSim.errorRate .seu := (C186_rates defaultSim default_reached).2.1

/-! ### C190: one factor for all effects -/

/-- **C190 (violated).** Shielding attenuates dose effects exactly as much as single-event effects, although dose effects should be attenuated more: the
ratio of the rates of any two effects is the same for all thicknesses. -/
theorem C190_same_attenuation_violated (s : Sim) (h : Reached s) (k l : Kind) (t u : ℝ) :
    (apply s (.shielding t)).errorRate k / (apply s (.shielding t)).errorRate l =
    (apply s (.shielding u)).errorRate k / (apply s (.shielding u)).errorRate l := by
  have hs := solar_range h
  have h1 := (C185_solar s.env s.solar hs.1 hs.2).1
  have h3 := modifier_pos s.env
  have hc : 0 < modifier s.env * solarModifier s.env s.solar := by
    have : 0 < solarModifier s.env s.solar := by linarith
    positivity
  have er : ∀ (k : Kind) (x : ℝ), (apply s (.shielding x)).errorRate k =
      probability k * (modifier s.env * solarModifier s.env s.solar * shieldingFactor x * 1000000) := by
    intro k x
    show probability k * modifier s.env * solarModifier s.env s.solar * shieldingFactor x * 1000000 = _
    ring
  have hx : ∀ x, modifier s.env * solarModifier s.env s.solar * shieldingFactor x * 1000000 ≠ 0 := by
    intro x
    have : 0 < shieldingFactor x := by have := (C185_shielding_range x).1; linarith
    positivity
  rw [er, er, er, er, mul_div_mul_right _ _ (hx t), mul_div_mul_right _ _ (hx u)]

/-! ### C187: one period -/

/-- Position of a kind in the order of the map. -/
def index : Kind → ℕ
  | .seu => 0 | .mbu => 1 | .sel => 2 | .set => 3 | .sefi => 4 | .stuckBit => 5 | .thresholdShift => 6

theorem drawEvents_spec (k : Kind) : ∀ n r, (drawEvents k n r).1.length = n ∧
    (∀ x ∈ (drawEvents k n r).1, x.1 = k ∧ minBits k ≤ x.2 ∧ x.2 ≤ maxBits k) ∧ (drawEvents k n r).2.counts = r.counts ∧
    (drawEvents k n r).2.raws = fun i => r.raws (i + n) := by
  intro n
  induction n with
  | zero => intro r; exact ⟨rfl, by simp [drawEvents], rfl, rfl⟩
  | succ n ih =>
    intro r
    obtain ⟨h1, h2, h3, h4⟩ := ih r.raw
    refine ⟨by simp [drawEvents, h1], ?_, h3, ?_⟩
    · intro x hx
      rcases List.mem_cons.1 hx with rfl | hx
      · refine ⟨rfl, Nat.le_add_right _ _, ?_⟩
        have : minBits k ≤ maxBits k := by cases k <;> decide
        have := Nat.mod_lt (r.raws 0) (by omega : 0 < maxBits k - minBits k + 1)
        show minBits k + _ ≤ _
        omega
      · exact h2 x hx
    · show (drawEvents k n r.raw).2.raws = _
      rw [h4]; funext i; show r.raws (i + n + 1) = _; congr 1

/-- The events of a list of kinds. -/
theorem periodLoop_spec (s : Sim) (days : ℝ) (hp : ∀ k, 0 < probability k * s.rateModifier * days * s.bits) (ks : List Kind) :
    ks.Nodup → ∀ r, ∃ ev r', s.periodLoop days ks r = .ok (ev, r') ∧ (∀ x ∈ ev, x.1 ∈ ks ∧ minBits x.1 ≤ x.2 ∧ x.2 ≤ maxBits x.1) ∧
      ev.map Prod.fst = (ks.zipIdx.map (fun k => List.replicate (r.counts k.2 (probability k.1 * s.rateModifier * days * s.bits)) k.1)).flatten ∧
      (r'.counts = fun i => r.counts (i + ks.length)) := by
  induction ks with
  | nil => intro _ r; exact ⟨[], r, rfl, by simp, by simp, rfl⟩
  | cons k ks ih =>
    intro hn r
    rw [List.nodup_cons] at hn
    obtain ⟨d1, d2, d3, d4⟩ := drawEvents_spec k (r.counts 0 (probability k * s.rateModifier * days * s.bits)) r.count
    obtain ⟨ev, r', h1, h2, h3, h4⟩ := ih hn.2 (drawEvents k (r.counts 0 (probability k * s.rateModifier * days * s.bits)) r.count).2
    refine ⟨(drawEvents k (r.counts 0 (probability k * s.rateModifier * days * s.bits)) r.count).1 ++ ev, r', ?_, ?_, ?_, ?_⟩
    · show (if _ then Outcome.ub else _) = _
      rw [if_neg (not_le.2 (hp k))]
      show (s.periodLoop days ks (drawEvents k (r.counts 0 (probability k * s.rateModifier * days * s.bits)) r.count).2).bind _ = _
      rw [h1]; rfl
    · intro x hx
      rcases List.mem_append.1 hx with hx | hx
      · obtain ⟨e, a, b⟩ := d2 x hx
        rw [e]; exact ⟨by simp, a, b⟩
      · obtain ⟨a, b⟩ := h2 x hx
        exact ⟨by simp [a], b⟩
    · have e1 : (drawEvents k (r.counts 0 (probability k * s.rateModifier * days * s.bits)) r.count).1.map Prod.fst = List.replicate (r.counts 0 (probability k * s.rateModifier * days * s.bits)) k := by
        rw [List.eq_replicate_iff]
        refine ⟨by simp [d1], fun b hb => ?_⟩
        obtain ⟨x, hx, rfl⟩ := List.mem_map.1 hb
        exact (d2 x hx).1
      rw [List.map_append, e1, h3, List.zipIdx_cons, List.map_cons, List.flatten_cons]
      congr 2
      have : ks.zipIdx (0 + 1) = ks.zipIdx.map (fun p => (p.1, p.2 + 1)) := by
        rw [List.zipIdx_succ]
      rw [this, List.map_map]
      apply List.map_congr_left
      intro x _
      show List.replicate ((drawEvents k (r.counts 0 (probability k * s.rateModifier * days * s.bits)) r.count).2.counts x.2 _) x.1 = List.replicate (r.counts (x.2 + 1) _) x.1
      rw [d3]; rfl
    · rw [h4, d3]; funext i; show r.counts (i + ks.length + 1) = _; congr 1

/-- **C187.** For every reached state, positive period and non-empty memory, and all random numbers: the period is simulated; the
events come in the order of the kinds, each kind as often as the Poisson number says that is drawn for its mean, the probability of the kind
times the rate modifier, the days and the bits, and every event affects a number of bits in
the range of its kind (1 for single upsets, transients and stuck bits, 2 to 8 for multi-bit upsets). -/
theorem C187_events (s : Sim) (h : Reached s) (hb : 0 < s.bits) (days : ℝ) (hd : 0 < days) (r : Src) (m : Kind → ℝ)
    (hm : ∀ k, m k = probability k * s.rateModifier * days * s.bits) :
    ∃ ev r', s.simulatePeriod days r = .ok (ev, r') ∧
      ev.map Prod.fst = List.replicate (r.counts 0 (m .seu)) .seu ++ List.replicate (r.counts 1 (m .mbu)) .mbu ++ List.replicate (r.counts 2 (m .sel)) .sel ++
        List.replicate (r.counts 3 (m .set)) .set ++ List.replicate (r.counts 4 (m .sefi)) .sefi ++ List.replicate (r.counts 5 (m .stuckBit)) .stuckBit ++
        List.replicate (r.counts 6 (m .thresholdShift)) .thresholdShift ∧
      (∀ x ∈ ev, 1 ≤ x.2 ∧ x.2 ≤ 1048576) ∧
      (∀ x ∈ ev, x.1 = .seu ∨ x.1 = .set ∨ x.1 = .stuckBit → x.2 = 1) ∧
      (∀ x ∈ ev, x.1 = .mbu → 2 ≤ x.2 ∧ x.2 ≤ 8) ∧
      (∀ x ∈ ev, x.1 = .sel ∨ x.1 = .thresholdShift → x.2 ≤ 1024) ∧
      (r'.counts = fun i => r.counts (i + 7)) := by
  have hp : ∀ k, 0 < probability k * s.rateModifier * days * s.bits := by
    intro k
    have := probability_pos k
    have := rateModifier_pos h
    have : (0:ℝ) < s.bits := by exact_mod_cast hb
    positivity
  obtain ⟨ev, r', h1, h2, h3, h4⟩ := periodLoop_spec s days hp kinds (by decide) r
  refine ⟨ev, r', h1, ?_, ?_, ?_, ?_, ?_, h4⟩
  · rw [h3]; simp [kinds, hm]
  · intro x hx
    obtain ⟨_, a, b⟩ := h2 x hx
    constructor
    · refine le_trans ?_ a; cases x.1 <;> decide
    · refine le_trans b ?_; cases x.1 <;> decide
  · intro x hx hk
    obtain ⟨_, a, b⟩ := h2 x hx
    rcases hk with hk | hk | hk <;> rw [hk] at a b <;> exact Nat.le_antisymm b a
  · intro x hx hk
    obtain ⟨_, a, b⟩ := h2 x hx
    rw [hk] at a b; exact ⟨a, b⟩
  · intro x hx hk
    obtain ⟨_, a, b⟩ := h2 x hx
    rcases hk with hk | hk <;> rw [hk] at b <;> exact b

example : ∃ ev r', defaultSim.simulatePeriod 30 ⟨fun i _ => if i = 1 then 2 else 0, fun i => i + 4⟩ = .ok (ev, r') ∧
    ev.map Prod.fst = [.mbu, .mbu] := by
  obtain ⟨ev, r', h1, h2, _⟩ := C187_events defaultSim default_reached (by norm_num [defaultSim]) 30 (by norm_num)
    ⟨fun i _ => if i = 1 then 2 else 0, fun i => i + 4⟩ _ (fun _ => rfl)
  exact ⟨ev, r', h1, by rw [h2]; rfl⟩

/-- **C187 (empty period, violated).** A period of no days, or a memory of no bits, is undefined (the mean of the Poisson distribution must be positive)
instead of giving no events; so is a negative number of days. -/
theorem C187_empty_violated (s : Sim) (h : Reached s) (days : ℝ) (hd : days ≤ 0 ∨ s.bits = 0) (r : Src) : s.simulatePeriod days r = .ub := by
  show (if _ then Outcome.ub else _) = _
  rw [if_pos]
  have h1 := probability_pos .seu
  have h2 := rateModifier_pos h
  rcases hd with hd | hd
  · have : (0:ℝ) ≤ s.bits := Nat.cast_nonneg _
    have h3 : probability .seu * s.rateModifier * days ≤ 0 := mul_nonpos_of_nonneg_of_nonpos (by positivity) hd
    exact mul_nonpos_of_nonpos_of_nonneg h3 this
  · rw [hd]; simp

/-- **C187 (size of events, violated).** A functional interrupt may affect more bits than the memory has: for every memory below 2^20 bits there
are random numbers giving an event of 2^20 bits. -/
theorem C187_exceeds_memory_violated (s : Sim) (h : Reached s) (hb : 0 < s.bits) (hm : s.bits < 1048576) (days : ℝ) (hd : 0 < days) :
    ∃ r ev r', s.simulatePeriod days r = .ok (ev, r') ∧ ∃ x ∈ ev, x.1 = .sefi ∧ s.bits < x.2 := by
  have hp : ∀ k, ¬ probability k * s.rateModifier * days * s.bits ≤ 0 := by
    intro k
    have := probability_pos k
    have := rateModifier_pos h
    have : (0:ℝ) < s.bits := by exact_mod_cast hb
    rw [not_le]; positivity
  have run : ∃ r', s.simulatePeriod days ⟨fun i => if i = 4 then 1 else 0, fun _ => 1048575⟩ =
      .ok ([(Kind.sefi, 1 + 1048575 % (1024 * 1024 - 1 + 1))], r') := by
    unfold Sim.simulatePeriod kinds
    simp only [Sim.periodLoop, if_neg (hp _), Src.count, drawEvents, Outcome.bind, Src.raw]
    simp only [Nat.reduceAdd, Nat.reduceEqDiff, if_false, if_true, OfNat.zero_ne_ofNat, drawEvents, Src.raw, List.nil_append, List.append_nil,
      minBits, maxBits]
    exact ⟨_, rfl⟩
  obtain ⟨r', hr⟩ := run
  refine ⟨_, _, r', hr, (Kind.sefi, 1 + 1048575 % (1024 * 1024 - 1 + 1)), List.mem_singleton.2 rfl, rfl, ?_⟩
  show s.bits < 1 + 1048575 % (1024 * 1024 - 1 + 1)
  omega

/-! ### C188: missions -/

/-- Segments that can be simulated: a positive duration for each environment. -/
def Segments (es : List Env) (ds : List ℝ) : Prop := es.length ≤ ds.length ∧ ∀ d ∈ ds.take es.length, 0 < d

theorem reached_env {s : Sim} (h : Reached s) (e : Env) : Reached (s.setEnvironment e) := by
  obtain ⟨b, sh, e0, es, ds, ops, rfl⟩ := h
  exact ⟨b, sh, e0, es, ds, ops ++ [.environment e], by rw [List.foldl_append]; rfl⟩

theorem count_kind {ev : List (Kind × ℕ)} {r : Src} {m : Kind → ℝ} (h : ev.map Prod.fst = List.replicate (r.counts 0 (m .seu)) .seu ++ List.replicate (r.counts 1 (m .mbu)) .mbu ++
    List.replicate (r.counts 2 (m .sel)) .sel ++ List.replicate (r.counts 3 (m .set)) .set ++ List.replicate (r.counts 4 (m .sefi)) .sefi ++
    List.replicate (r.counts 5 (m .stuckBit)) .stuckBit ++ List.replicate (r.counts 6 (m .thresholdShift)) .thresholdShift) (k : Kind) :
    (ev.filter (fun x => x.1 = k)).length = r.counts (index k) (m k) := by
  have e : (ev.filter (fun x => x.1 = k)).length = (ev.map Prod.fst).count k := by
    rw [List.count, List.countP_map, List.countP_eq_length_filter]
    rfl
  rw [e, h]
  simp only [List.count_append, List.count_replicate]
  cases k <;> simp [index]

theorem missionLoop_spec (es : List Env) : ∀ (s : Sim) (ds : List ℝ) (r : Src), Reached s → 0 < s.bits → Segments es ds →
    ∃ tl r', s.missionLoop es ds r = .ok (tl, { s with env := es.getLastD s.env }, r') ∧ tl.length = es.length ∧
      ∀ i, i < es.length → ∀ k, (tl.getD i (fun _ => 0)) k =
        r.counts (7 * i + index k) (probability k * (s.setEnvironment (es.getD i .leo)).rateModifier * ds.getD i 0 * s.bits) := by
  induction es with
  | nil => intro s ds r _ _ _; exact ⟨[], r, rfl, rfl, by simp⟩
  | cons e es ih =>
    intro s ds r hr hb hs
    obtain ⟨hl, hpos⟩ := hs
    cases ds with
    | nil => simp at hl
    | cons d ds =>
      obtain ⟨ev, r1, h1, h2, _, _, _, _, h7⟩ := C187_events (s.setEnvironment e) (reached_env hr e) hb d (hpos d (by simp)) r _ (fun _ => rfl)
      obtain ⟨tl, r', k1, k2, k3⟩ := ih (s.setEnvironment e) ds r1 (reached_env hr e) hb
        ⟨by simpa using hl, fun x hx => hpos x (by simp [hx])⟩
      refine ⟨(fun k => (ev.filter (fun x => x.1 = k)).length) :: tl, r', ?_, by simp [k2], ?_⟩
      · show ((s.setEnvironment e).simulatePeriod d r).bind _ = _
        rw [h1]
        show (Sim.missionLoop (s.setEnvironment e) es ds r1).bind _ = _
        rw [k1]
        show Outcome.ok _ = _
        cases es <;> rfl
      · intro i hi k
        cases i with
        | zero =>
          show (ev.filter (fun x => x.1 = k)).length = _
          rw [count_kind (m := fun k => probability k * (s.setEnvironment e).rateModifier * d * (s.setEnvironment e).bits) h2 k]
          congr 1; omega
        | succ i =>
          show (tl.getD i (fun _ => 0)) k = _
          rw [k3 i (by simpa using hi) k, h7]
          show r.counts (7 * i + index k + 7) _ = r.counts (7 * (i + 1) + index k) _
          have : 7 * i + index k + 7 = 7 * (i + 1) + index k := by ring
          rw [this]; rfl

/-- **C188.** For every reached state with a memory and a trajectory with a positive duration for each environment, and all random numbers: the
mission is simulated, the timeline has exactly one entry per segment, in order, and each entry counts for each kind exactly the
events drawn for it in that segment: the Poisson number for the mean in the segment's environment and duration. -/
theorem C188_timeline (s : Sim) (h : Reached s) (hb : 0 < s.bits) (ht : Segments s.traj.envs s.traj.days) (r : Src) :
    ∃ tl s' r', s.simulateMission r = .ok (tl, s', r') ∧ tl.length = s.traj.envs.length ∧
      ∀ i (hi : i < s.traj.envs.length) k, (tl.getD i (fun _ => 0)) k =
        r.counts (7 * i + index k) (probability k * (s.setEnvironment s.traj.envs[i]).rateModifier * s.traj.days[i]'(lt_of_lt_of_le hi ht.1) * s.bits) := by
  obtain ⟨tl, r', h1, h2, h3⟩ := missionLoop_spec s.traj.envs s s.traj.days r h hb ht
  refine ⟨tl, _, r', h1, h2, fun i hi k => ?_⟩
  rw [h3 i hi k]
  simp [List.getD, hi, lt_of_lt_of_le hi ht.1]

example (r : Src) : ∃ tl s' r', (apply defaultSim (.trajectory .leo [.interplanetary, .marsOrbit] [10, 180, 30])).simulateMission r = .ok (tl, s', r') ∧
    tl.length = 3 := by
  obtain ⟨tl, s', r', h1, h2, _⟩ := C188_timeline (apply defaultSim (.trajectory .leo [.interplanetary, .marsOrbit] [10, 180, 30]))
    ⟨8 * 1024 * 1024, 2, .leo, [], [365], [.trajectory .leo [.interplanetary, .marsOrbit] [10, 180, 30]], rfl⟩ (by norm_num [apply, defaultSim])
    ⟨by simp [apply], by simp [apply]⟩ r
  exact ⟨tl, s', r', h1, h2⟩

/-- **C188 (standard trajectories).** The three standard trajectories have a positive duration for each environment. -/
theorem C188_standard : Segments earthLeo.envs earthLeo.days ∧ Segments marsMission.envs marsMission.days ∧
    Segments europaMission.envs europaMission.days := by
  unfold Segments earthLeo marsMission europaMission
  refine ⟨⟨by simp, by simp⟩, ⟨by simp, ?_⟩, ⟨by simp, ?_⟩⟩
  · intro d hd; simp at hd; rcases hd with rfl | rfl | rfl | rfl | rfl | rfl <;> norm_num
  · intro d hd; simp at hd; rcases hd with rfl | rfl | rfl | rfl | rfl | rfl | rfl <;> norm_num

/-- **C188 (side effect, violated).** Simulating a mission changes the simulator's current environment to the last one of the trajectory, so that the error rates
reported before and after differ: with the environment set to Europa on the default trajectory they fall from over 2000 times
to those of low Earth orbit. -/
theorem C188_changes_environment_violated (s : Sim) (h : Reached s) (hb : 0 < s.bits) (ht : Segments s.traj.envs s.traj.days) (r : Src) :
    ∃ tl s' r', s.simulateMission r = .ok (tl, s', r') ∧ s'.env = s.traj.envs.getLastD s.env ∧
      (s.env = .europa → s.traj = earthLeo → s'.errorRate .seu < s.errorRate .seu) := by
  obtain ⟨tl, r', h1, h2, h3⟩ := missionLoop_spec s.traj.envs s s.traj.days r h hb ht
  refine ⟨tl, _, r', h1, rfl, fun he htr => ?_⟩
  have hs := solar_range h
  have h2' := (C185_shielding_range s.shield).1
  have e1 : s.errorRate .seu = 2000 * solarModifier .europa s.solar * (probability .seu * shieldingFactor s.shield * 1000000) := by
    show probability .seu * modifier s.env * solarModifier s.env s.solar * shieldingFactor s.shield * 1000000 = _
    rw [he]; norm_num [modifier]; ring
  have e2 : ({ s with env := s.traj.envs.getLastD s.env } : Sim).errorRate .seu =
      1 * solarModifier .leo s.solar * (probability .seu * shieldingFactor s.shield * 1000000) := by
    rw [htr]
    show probability .seu * modifier .leo * solarModifier .leo s.solar * shieldingFactor s.shield * 1000000 = _
    norm_num [modifier]; ring
  rw [e1, e2]
  have hc : 0 < probability .seu * shieldingFactor s.shield * 1000000 := by
    have := probability_pos .seu
    have : 0 < shieldingFactor s.shield := by linarith
    positivity
  apply mul_lt_mul_of_pos_right _ hc
  have := (C185_solar .europa s.solar hs.1 hs.2).1
  have := ((C185_solar .leo s.solar hs.1 hs.2).2.2.1 (.inl rfl)).2
  linarith

/-- **C188 (missing durations, violated).** A trajectory with fewer durations than environments is undefined (a read past the end), and so is an
empty one at construction. -/
theorem C188_missing_duration_violated (s : Sim) (h : Reached s) (hb : 0 < s.bits) (es : List Env) (ds : List ℝ) (hd : ∀ d ∈ ds, 0 < d)
    (hl : ds.length < es.length) (r : Src) : s.missionLoop es ds r = .ub ∧ (∀ b sh, new b sh ⟨[], ds⟩ = .ub) ∧ s.setTrajectory ⟨[], ds⟩ = .ub := by
  refine ⟨?_, fun _ _ => rfl, rfl⟩
  induction es generalizing s ds r with
  | nil => simp at hl
  | cons e es ih =>
    cases ds with
    | nil => rfl
    | cons d ds =>
      obtain ⟨ev, r1, h1, _⟩ := C187_events (s.setEnvironment e) (reached_env h e) hb d (hd d (by simp)) r _ (fun _ => rfl)
      show ((s.setEnvironment e).simulatePeriod d r).bind _ = _
      rw [h1]
      show (Sim.missionLoop (s.setEnvironment e) es ds r1).bind _ = _
      rw [ih (s.setEnvironment e) (reached_env h e) hb ds (fun x hx => hd x (by simp [hx])) (by simpa using hl) r1]
      rfl

/-! ### C189: total dose -/

/-- What is drawn for one kind of effect in the segments, every second number of the stream, added. -/
noncomputable def tidSum (s : Sim) (k : Kind) : (ℕ → ℝ → ℕ) → List (Env × ℝ) → ℕ
  | _, [] => 0
  | c, x :: xs => c 0 ((s.setEnvironment x.1).tidExpected k x.2) + tidSum s k (fun i => c (i + 2)) xs

theorem tidSum_eq (s : Sim) (k : Kind) (xs : List (Env × ℝ)) : ∀ c : ℕ → ℝ → ℕ,
    tidSum s k c xs = (xs.zipIdx.map fun x => c (2 * x.2) ((s.setEnvironment x.1.1).tidExpected k x.1.2)).sum := by
  induction xs with
  | nil => intro c; rfl
  | cons x xs ih =>
    intro c
    rw [tidSum, ih, List.zipIdx_cons, List.map_cons, List.sum_cons, List.zipIdx_succ, List.map_map]
    rfl

theorem tidSum_env (s : Sim) (e : Env) (k : Kind) (xs : List (Env × ℝ)) : ∀ c, tidSum (s.setEnvironment e) k c xs = tidSum s k c xs := by
  induction xs with
  | nil => intro c; rfl
  | cons x xs ih => intro c; rw [tidSum, tidSum, ih]; rfl

theorem tid_pos {s : Sim} (hb : 0 < s.bits) (k : Kind) {d : ℝ} (hd : 0 < d) : 0 < s.tidExpected k d := by
  have := probability_pos k
  have := modifier_pos s.env
  have : (0:ℝ) < s.bits := by exact_mod_cast hb
  have : 0 < shieldingFactor s.shield := by have := (C185_shielding_range s.shield).1; linarith
  unfold Sim.tidExpected; positivity

theorem tidLoop_spec (total : ℝ) (es : List Env) : ∀ (s : Sim) (ds : List ℝ) (done : ℝ) (r : Src) (acc : ℕ × ℕ), 0 < s.bits → Segments es ds →
    done ≤ total →
    ∃ acc' segs s' r', Sim.tidLoop total s es ds done r acc = .ok (acc', segs, s', r') ∧
      segs.map Prod.fst <+: es ∧ (∀ x ∈ segs, 0 < x.2) ∧ List.Forall₂ (fun x d => x.2 ≤ d) segs (ds.take segs.length) ∧
      done + (segs.map Prod.snd).sum = min total (done + (ds.take es.length).sum) ∧
      acc'.1 = acc.1 + tidSum s .stuckBit r.counts segs ∧ acc'.2 = acc.2 + tidSum s .thresholdShift (fun i => r.counts (i + 1)) segs ∧
      s' = { s with env := (segs.map Prod.fst).getLastD s.env } := by
  induction es with
  | nil =>
    intro s ds done r acc _ _ hd
    exact ⟨acc, [], s, r, rfl, by simp, by simp, by simp, by simp [hd], rfl, rfl, rfl⟩
  | cons e es ih =>
    intro s ds done r acc hb hs hdone
    obtain ⟨hl, hpos⟩ := hs
    cases ds with
    | nil => simp at hl
    | cons d ds =>
      have hrest : 0 ≤ (ds.take es.length).sum := List.sum_nonneg (fun x hx => (hpos x (by simp [hx])).le)
      have hdpos : 0 < d := hpos d (by simp)
      by_cases hlt : done < total
      · have hseg : 0 < min d (total - done) := lt_min hdpos (by linarith)
        have hp1 := tid_pos (s := s.setEnvironment e) hb .stuckBit hseg
        have hp2 := tid_pos (s := s.setEnvironment e) hb .thresholdShift hseg
        obtain ⟨acc', segs, s', r', h1, h2, h3, h4, h5, h6, h7, h8⟩ := ih (s.setEnvironment e) ds (done + min d (total - done)) r.count.count
          (acc.1 + r.counts 0 _, acc.2 + r.counts 1 _) hb ⟨by simpa using hl, fun x hx => hpos x (by simp [hx])⟩
          (by have := min_le_right d (total - done); linarith)
        refine ⟨acc', (e, min d (total - done)) :: segs, s', r', ?_, ?_, ?_, ?_, ?_, ?_, ?_, ?_⟩
        · unfold Sim.tidLoop
          rw [if_pos hlt]
          simp only []
          rw [if_neg (by rintro (h | h) <;> linarith), h1]
          rfl
        · simpa using h2
        · intro x hx
          rcases List.mem_cons.1 hx with rfl | hx
          exacts [hseg, h3 x hx]
        · simpa using h4
        · simp only [List.map_cons, List.sum_cons, List.length_cons, List.take_succ_cons]
          rw [← add_assoc, h5]
          rcases le_total d (total - done) with hc | hc
          · rw [min_eq_left hc]; congr 1; ring
          · rw [min_eq_right hc]
            rw [min_eq_left (by linarith), min_eq_left (by linarith)]
        · rw [h6, tidSum_env]; simp only [tidSum]; rw [← add_assoc]; rfl
        · rw [h7, tidSum_env]; simp only [tidSum]; rw [← add_assoc]; rfl
        · rw [h8]
          show ({ s with env := (segs.map Prod.fst).getLastD e } : Sim) = { s with env := (e :: segs.map Prod.fst).getLastD s.env }
          cases segs <;> rfl
      · refine ⟨acc, [], s, r, ?_, by simp, by simp, by simp, ?_, rfl, rfl, rfl⟩
        · unfold Sim.tidLoop; rw [if_neg hlt]
        · have : done = total := le_antisymm hdone (not_lt.1 hlt)
          subst this
          simp only [List.map_nil, List.sum_nil, add_zero, List.length_cons, List.take_succ_cons, List.sum_cons]
          rw [min_eq_left (by linarith)]

/-- **C189.** For every state with a memory, trajectory with positive durations, mission length `days ≥ 0` and all random numbers: the
simulated segments are the first ones of the trajectory, each as long as planned or shorter, together exactly `days` long or
as long as the trajectory if that is shorter; the two counters are the sums of the numbers drawn for the segments, each for the expected number
of effects in the segment's environment and simulated length. -/
theorem C189_dose (s : Sim) (hb : 0 < s.bits) (ht : Segments s.traj.envs s.traj.days) (days : ℝ) (hd : 0 ≤ days) (r : Src) :
    ∃ acc segs s' r', s.simulateMissionTid days r = .ok (acc, segs, s', r') ∧
      segs.map Prod.fst <+: s.traj.envs ∧ (∀ x ∈ segs, 0 < x.2) ∧
      List.Forall₂ (fun x d => x.2 ≤ d) segs (s.traj.days.take segs.length) ∧
      (segs.map Prod.snd).sum = min days (s.traj.days.take s.traj.envs.length).sum ∧
      acc.1 = (segs.zipIdx.map fun x => r.counts (2 * x.2) ((s.setEnvironment x.1.1).tidExpected .stuckBit x.1.2)).sum ∧
      acc.2 = (segs.zipIdx.map fun x => r.counts (2 * x.2 + 1) ((s.setEnvironment x.1.1).tidExpected .thresholdShift x.1.2)).sum := by
  obtain ⟨acc, segs, s', r', h1, h2, h3, h4, h5, h6, h7, _⟩ := tidLoop_spec days s.traj.envs s s.traj.days 0 r (0, 0) hb ht hd
  refine ⟨acc, segs, s', r', h1, h2, h3, h4, by simpa using h5, ?_, ?_⟩
  · rw [h6, tidSum_eq]; simp
  · rw [h7, tidSum_eq]; simp

/-- **C189 (expected number).** The expected number of effects in a segment is the error rate reported for its environment, without the solar factor, times days and bits: so
it follows environment, shielding, length and size of the memory. -/
theorem C189_expected (s : Sim) (k : Kind) (e : Env) (days : ℝ) :
    (s.setEnvironment e).tidExpected k days * (solarModifier e s.solar * 1000000) = (s.setEnvironment e).errorRate k * days * s.bits := by
  show probability k * modifier e * shieldingFactor s.shield * days * s.bits * (solarModifier e s.solar * 1000000) =
    probability k * modifier e * solarModifier e s.solar * shieldingFactor s.shield * 1000000 * days * s.bits
  ring

/-- **C189 (solar activity, limit).** The dose simulation ignores solar activity: for all settings of it the two counters are the same. -/
theorem C189_ignores_activity_limit (s : Sim) (hb : 0 < s.bits) (ht : Segments s.traj.envs s.traj.days) (days : ℝ) (hd : 0 ≤ days) (r : Src)
    (a b : ℝ) : ∃ acc segs sa sb ra rb, (s.setSolarActivity a).simulateMissionTid days r = .ok (acc, segs, sa, ra) ∧
      (s.setSolarActivity b).simulateMissionTid days r = .ok (acc, segs, sb, rb) := by
  have key : ∀ (es : List Env) (s : Sim) (ds : List ℝ) (done : ℝ) (r : Src) (acc : ℕ × ℕ) (x : ℝ) (o : (ℕ × ℕ) × List (Env × ℝ) × Sim × Src),
      Sim.tidLoop days s es ds done r acc = .ok o →
      ∃ s' r', Sim.tidLoop days { s with solar := x } es ds done r acc = .ok (o.1, o.2.1, s', r') := by
    intro es
    induction es with
    | nil => intro s ds done r acc x o h; cases h; exact ⟨_, _, rfl⟩
    | cons e es ih =>
      intro s ds done r acc x o h
      unfold Sim.tidLoop at h ⊢
      by_cases hlt : done < days
      · rw [if_pos hlt] at h ⊢
        cases ds with
        | nil => cases h
        | cons d ds =>
          simp only [] at h ⊢
          by_cases hc : (s.setEnvironment e).tidExpected .stuckBit (min d (days - done)) ≤ 0 ∨
              (s.setEnvironment e).tidExpected .thresholdShift (min d (days - done)) ≤ 0
          · rw [if_pos hc] at h; cases h
          · rw [if_neg hc] at h
            have hc' : ¬ ((({ s with solar := x } : Sim).setEnvironment e).tidExpected .stuckBit (min d (days - done)) ≤ 0 ∨
              (({ s with solar := x } : Sim).setEnvironment e).tidExpected .thresholdShift (min d (days - done)) ≤ 0) := hc
            rw [if_neg hc']
            cases hi : Sim.tidLoop days (s.setEnvironment e) es ds (done + min d (days - done)) r.count.count (acc.1 + r.counts 0 ((s.setEnvironment e).tidExpected .stuckBit (min d (days - done))), acc.2 + r.counts 1 ((s.setEnvironment e).tidExpected .thresholdShift (min d (days - done)))) with
            | ub => rw [hi] at h; cases h
            | ok o' =>
              rw [hi] at h
              cases h
              obtain ⟨s', r', h'⟩ := ih (s.setEnvironment e) ds _ r.count.count _ x o' hi
              refine ⟨s', r', ?_⟩
              have : Sim.tidLoop days (({ s with solar := x } : Sim).setEnvironment e) es ds (done + min d (days - done)) r.count.count
                (acc.1 + r.counts 0 ((({ s with solar := x } : Sim).setEnvironment e).tidExpected .stuckBit (min d (days - done))), acc.2 + r.counts 1 ((({ s with solar := x } : Sim).setEnvironment e).tidExpected .thresholdShift (min d (days - done)))) = .ok (o'.1, o'.2.1, s', r') := h'
              rw [this]; rfl
      · rw [if_neg hlt] at h ⊢
        cases h
        exact ⟨_, _, rfl⟩
  obtain ⟨acc, segs, s', r', h1, _⟩ := tidLoop_spec days s.traj.envs s s.traj.days 0 r (0, 0) hb ht hd
  obtain ⟨sa, ra, ha⟩ := key s.traj.envs s s.traj.days 0 r (0, 0) (max 0 (min 1 a)) _ h1
  obtain ⟨sb, rb, hb⟩ := key s.traj.envs s s.traj.days 0 r (0, 0) (max 0 (min 1 b)) _ h1
  exact ⟨acc, segs, sa, sb, ra, rb, ha, hb⟩

/-- **C189 (side effect, violated).** The dose simulation leaves the simulator in the environment of the last simulated segment, whatever was set before. -/
theorem C189_changes_environment_violated (s : Sim) (hb : 0 < s.bits) (ht : Segments s.traj.envs s.traj.days) (days : ℝ) (hd : 0 ≤ days) (r : Src) :
    ∃ acc segs s' r', s.simulateMissionTid days r = .ok (acc, segs, s', r') ∧ s' = s.setEnvironment ((segs.map Prod.fst).getLastD s.env) := by
  obtain ⟨acc, segs, s', r', h1, _, _, _, _, _, _, h8⟩ := tidLoop_spec days s.traj.envs s s.traj.days 0 r (0, 0) hb ht hd
  exact ⟨acc, segs, s', r', h1, h8⟩

example (r : Src) : ∃ acc segs s' r', defaultSim.simulateMissionTid 400 r = .ok (acc, segs, s', r') ∧ (segs.map Prod.snd).sum = 365 := by
  obtain ⟨acc, segs, s', r', h1, _, _, _, h5, _⟩ := C189_dose defaultSim (by norm_num [defaultSim]) C188_standard.1 400 (by norm_num) r
  refine ⟨acc, segs, s', r', h1, ?_⟩
  rw [h5]; norm_num [defaultSim, earthLeo]

/-! ### C191: environment tables -/

/-- **C191.** The radiation level of every place lies in (0, 1]; apart from the custom place, a higher level never means a lower bit error rate or a
smaller expected cluster, and the extreme place has the highest of all three. -/
theorem C191_tables (p q : Place) :
    0 < level p ∧ level p ≤ 1 ∧ 0 < bitErrorRate p ∧ bitErrorRate p ≤ bitErrorRate .extreme ∧ 1 ≤ mcuSize p ∧ mcuSize p ≤ mcuSize .extreme ∧
    (p ≠ .custom → q ≠ .custom → level p ≤ level q → bitErrorRate p ≤ bitErrorRate q ∧ mcuSize p ≤ mcuSize q) := by
  refine ⟨by cases p <;> norm_num [level], by cases p <;> norm_num [level], by cases p <;> norm_num [bitErrorRate],
    by cases p <;> norm_num [bitErrorRate], by cases p <;> decide, by cases p <;> decide, ?_⟩
  cases p <;> cases q <;> norm_num [level, bitErrorRate, mcuSize]

/-- **C191 (custom, limit).** The custom place has half the level of the extreme place, less than deep space, and yet a higher bit error rate than deep space. -/
theorem C191_custom_limit : level .custom < level .deepSpace ∧ bitErrorRate .deepSpace < bitErrorRate .custom := by
  norm_num [level, bitErrorRate]

/-- **C191 (conditions, violated).** The conditions do not follow the levels: all places other than Mars, Moon and Earth orbit get exactly those of the Earth's
surface — cosmic ray intensity 0.01, full atmosphere and magnetic field, no trapped particles — also Jupiter, deep space, the
South Atlantic Anomaly (not marked as such) and the extreme place. -/
theorem C191_conditions_violated (p : Place) (h : p ≠ .mars ∧ p ≠ .moon ∧ p ≠ .earthOrbit) :
    conditions p = conditions .earth ∧ (conditions p).gcr = 1 / 100 ∧ (conditions p).protons = 0 ∧ (conditions p).electrons = 0 ∧
    (conditions p).saa = false ∧ (conditions p).atmosphere = 1000 ∧ (conditions p).field = 1 := by
  cases p <;> simp_all [conditions]

example : (conditions .jupiter).gcr < (conditions .moon).gcr ∧ level .moon < level .jupiter := by norm_num [conditions, level]

/-- **C191 (conditions).** At the four places with conditions of their own, cosmic ray intensity is highest on the Moon and lowest on Earth, trapped
particles exist only in Earth orbit, and the temperature range is not empty. -/
theorem C191_conditions_partial (p : Place) :
    (conditions .earth).gcr ≤ (conditions p).gcr ∧ (conditions p).gcr ≤ (conditions .moon).gcr ∧
    (0 < (conditions p).protons ↔ p = .earthOrbit) ∧ (0 < (conditions p).electrons ↔ p = .earthOrbit) ∧
    0 < (conditions p).tmin ∧ (conditions p).tmin < (conditions p).tmax ∧ 0 < (conditions p).period := by
  cases p <;> norm_num [conditions] <;> simp

end Verif.Props.PhysicsSimP
