import Verif.Model.SpaceMission
import Mathlib.Data.List.GetD
import Mathlib.Tactic.NormNum
import Mathlib.Algebra.BigOperators.Group.List.Basic
import Mathlib.Algebra.Order.BigOperators.Group.List
import Mathlib.Tactic.Ring
import Mathlib.Tactic.IntervalCases
/-!
C135: predefined environments; C136: environment at a time; C137: worst case and exposure; C138: standard missions.
-/
namespace Verif.SpaceMission

/-! ### C135 -/

/-- C135, properties: a property reads as last set, others are as before, and one never set reads as the default. -/
theorem C135_property (e : Env) (k k' : String) (x d : ℝ) :
    (e.setProp k x).getProp k d = x ∧ (k' ≠ k → (e.setProp k x).getProp k' d = e.getProp k' d) ∧ (create .leo).getProp k d = d := by
  refine ⟨?_, fun h => ?_, rfl⟩
  · simp [Env.setProp, Env.getProp]
  · unfold Env.setProp Env.getProp
    rw [List.find?_cons_of_neg (by simpa using fun h' => h h'.symm), List.find?_filter]
    have : (fun p : String × ℝ => decide (decide (p.1 ≠ k) = true ∧ decide (p.1 = k') = true)) = fun p => decide (p.1 = k') := by
      funext p
      by_cases h1 : p.1 = k'
      · simp [h1, h]
      · simp [h1]
    simp only [this]

/-- C135, predefined: a predefined environment has the type asked for; every one but the custom one has a positive flux, and they are ordered: ground, aircraft, low orbit and Mars, the Moon, medium orbit, geostationary orbit, Jupiter, solar flare. -/
theorem C135_predefined (t : EnvType) : (create t).type = t ∧ (create t).name = stdName t ∧ 0 < (create t).cross ∧ ((create t).flux = 0 ↔ t = .custom) ∧ 0 ≤ (create t).flux ∧
    (create .groundLevel).flux < (create .avionic).flux ∧ (create .avionic).flux < (create .leo).flux ∧ (create .leo).flux = (create .mars).flux ∧ (create .mars).flux < (create .lunar).flux ∧
    (create .lunar).flux < (create .meo).flux ∧ (create .meo).flux < (create .geo).flux ∧ (create .geo).flux < (create .jupiter).flux ∧ (create .jupiter).flux < (create .solarFlare).flux := by
  refine ⟨rfl, rfl, by norm_num [create], ?_, ?_, ?_⟩
  · cases t <;> norm_num [create, stdFlux] <;> decide
  · cases t <;> norm_num [create, stdFlux]
  · norm_num [create, stdFlux]

/-- C135, distinct names: predefined environments of different types have different names. -/
theorem C135_names (a b : EnvType) (h : (create a).name = (create b).name) : a = b := by
  have : stdName a = stdName b := h
  revert this
  cases a <;> cases b <;> decide

/-- C135, violated: an environment constructed with a type but not through the factory is free of radiation whatever its type, and is called ground level. -/
theorem C135_constructor_violated (t : EnvType) : (Env.new t).type = t ∧ (Env.new t).flux = 0 ∧ (Env.new t).name = (create .groundLevel).name := ⟨rfl, rfl, rfl⟩

/-! ### C136 -/

/-- Start of phase `i`: the durations of the phases before it. -/
def start (m : Mission) (i : ℕ) : ℤ := ((m.phases.take i).map Phase.duration).sum

/-- All partial sums of the durations fit 64 bits. -/
def Sane (m : Mission) : Prop := ∀ i ≤ m.phases.length, Fits (start m i)

theorem atLoop_found (t : ℤ) : ∀ (ps : List Phase) (e : ℤ) (i : ℕ) (p : Phase), ps[i]? = some p → (∀ k ≤ ps.length, Fits (e + ((ps.take k).map Phase.duration).sum)) →
    (∀ k < i, e + ((ps.take (k + 1)).map Phase.duration).sum ≤ t) → t < e + ((ps.take (i + 1)).map Phase.duration).sum → atLoop t ps e = .ok (some p.env)
  | [], _, _, _, h, _, _, _ => by simp at h
  | q :: ps, e, i, p, h, hf, hlo, hhi => by
    unfold atLoop
    have h1 : Fits (e + q.duration) := by simpa using hf 1 (by simp)
    rw [if_pos h1]
    cases i with
    | zero =>
      have : q = p := by simpa using h
      subst this
      rw [if_pos (by simpa using hhi)]
    | succ i =>
      rw [if_neg (by have := hlo 0 (by omega); simp at this; omega)]
      refine atLoop_found t ps (e + q.duration) i p (by simpa using h) (fun k hk => ?_) (fun k hk => ?_) ?_
      · have := hf (k + 1) (by simpa using hk)
        simpa [add_assoc] using this
      · have := hlo (k + 1) (by omega)
        simpa [add_assoc] using this
      · simpa [add_assoc] using hhi

theorem atLoop_past (t : ℤ) : ∀ (ps : List Phase) (e : ℤ), (∀ k ≤ ps.length, Fits (e + ((ps.take k).map Phase.duration).sum)) →
    (∀ k < ps.length, e + ((ps.take (k + 1)).map Phase.duration).sum ≤ t) → atLoop t ps e = .ok none
  | [], _, _, _ => rfl
  | q :: ps, e, hf, hlo => by
    unfold atLoop
    have h1 : Fits (e + q.duration) := by simpa using hf 1 (by simp)
    rw [if_pos h1, if_neg (by have := hlo 0 (by simp); simp at this; omega)]
    refine atLoop_past t ps (e + q.duration) (fun k hk => ?_) (fun k hk => ?_)
    · have := hf (k + 1) (by simpa using hk)
      simpa [add_assoc] using this
    · have := hlo (k + 1) (by simpa using hk)
      simpa [add_assoc] using this

theorem start_succ (m : Mission) (i : ℕ) {p : Phase} (h : m.phases[i]? = some p) : start m (i + 1) = start m i + p.duration := by
  unfold start
  rw [List.take_add_one, h]
  simp

theorem start_mono (m : Mission) (hd : ∀ p ∈ m.phases, 0 ≤ p.duration) : ∀ {i j : ℕ}, i ≤ j → start m i ≤ start m j := by
  intro i j h
  induction j with
  | zero => rw [Nat.le_zero.mp h]
  | succ j ih =>
    rcases Nat.lt_or_ge j m.phases.length with hj | hj
    · rw [start_succ m j (List.getElem?_eq_getElem hj)]
      rcases Nat.lt_or_ge i (j + 1) with h' | h'
      · have := ih (by omega)
        have := hd _ (List.getElem_mem hj)
        omega
      · have : i = j + 1 := by omega
        subst this
        rw [start_succ m j (List.getElem?_eq_getElem hj)]
    · have e1 : start m (j + 1) = start m j := by
        unfold start
        rw [List.take_of_length_le (by omega), List.take_of_length_le hj]
      rcases Nat.lt_or_ge i (j + 1) with h' | h'
      · rw [e1]; exact ih (by omega)
      · have : i = j + 1 := by omega
        rw [this]

/-- C136, during the mission: at every time from the start of a phase up to, not including, its end, its environment is returned; phases follow each other in the order added. -/
theorem C136_during {m : Mission} (hs : Sane m) (hd : ∀ p ∈ m.phases, 0 ≤ p.duration) {i : ℕ} {p : Phase} (hp : m.phases[i]? = some p) {t : ℤ} (h1 : start m i ≤ t) (h2 : t < start m i + p.duration) : m.atTime t = .ok p.env := by
  unfold Mission.atTime
  have := atLoop_found t m.phases 0 i p hp (fun k hk => by rw [zero_add]; exact hs k hk) (fun k hk => by rw [zero_add]; exact (start_mono m hd (by omega : k + 1 ≤ i)).trans h1)
    (by rw [zero_add]; have := start_succ m i hp; unfold start at this h2; omega)
  rw [this]
  rfl

/-- C136, after the mission: once all phases are over the environment of the last phase is returned; without phases there is none. -/
theorem C136_after {m : Mission} (hs : Sane m) (hd : ∀ p ∈ m.phases, 0 ≤ p.duration) {t : ℤ} (h : start m m.phases.length ≤ t) : m.atTime t = .ok ((m.phases.getLast?).bind Phase.env) := by
  unfold Mission.atTime
  have := atLoop_past t m.phases 0 (fun k hk => by rw [zero_add]; exact hs k hk) (fun k hk => by rw [zero_add]; exact (start_mono m hd (by omega : k + 1 ≤ m.phases.length)).trans h)
  rw [this]
  rfl

/-- C136, before the mission: at a negative time the environment of the first phase is returned. -/
theorem C136_before {m : Mission} (hs : Sane m) (hd : ∀ p ∈ m.phases, 0 ≤ p.duration) {p : Phase} (hp : m.phases[0]? = some p) {t : ℤ} (h : t < 0) : m.atTime t = .ok p.env := by
  unfold Mission.atTime
  have h0 := hd p (List.mem_of_getElem? hp)
  have := atLoop_found t m.phases 0 0 p hp (fun k hk => by rw [zero_add]; exact hs k hk) (fun k hk => by omega)
    (by rw [zero_add]; have := start_succ m 0 hp; unfold start at this; simp at this ⊢; omega)
  rw [this]
  rfl

/-- C136, complete: with durations that are not negative every time is before the mission, in exactly one phase, or after the mission. -/
theorem C136_complete {m : Mission} (hd : ∀ p ∈ m.phases, 0 ≤ p.duration) {t : ℤ} (h0 : 0 ≤ t) (h1 : t < start m m.phases.length) : ∃! i, ∃ p, m.phases[i]? = some p ∧ start m i ≤ t ∧ t < start m i + p.duration := by
  have ex : ∀ n ≤ m.phases.length, t < start m n → ∃ i p, m.phases[i]? = some p ∧ start m i ≤ t ∧ t < start m i + p.duration := by
    intro n
    induction n with
    | zero => intro _ h; simp [start] at h; omega
    | succ n ih =>
      intro hn h
      by_cases hc : t < start m n
      · exact ih (by omega) hc
      · have hlt : n < m.phases.length := by omega
        refine ⟨n, m.phases[n], List.getElem?_eq_getElem hlt, by omega, ?_⟩
        rw [← start_succ m n (List.getElem?_eq_getElem hlt)]
        exact h
  obtain ⟨i, p, hp, hi1, hi2⟩ := ex _ le_rfl h1
  refine ⟨i, ⟨p, hp, hi1, hi2⟩, ?_⟩
  rintro j ⟨q, hq, hj1, hj2⟩
  rw [← start_succ m i hp] at hi2
  rw [← start_succ m j hq] at hj2
  rcases Nat.lt_trichotomy j i with hlt | rfl | hgt
  · have := start_mono m hd (show j + 1 ≤ i by omega); omega
  · rfl
  · have := start_mono m hd (show i + 1 ≤ j by omega); omega

/-- C136, violated: negative durations are accepted; a phase of 10 hours followed by one of −5 and one of 5 hours is at 7 hours still the first, and the third is never returned at any time the mission lasts. -/
theorem C136_negative_violated (a b c : Phase) (ha : a.duration = 10 * hour) (hb : b.duration = -5 * hour) (hc : c.duration = 5 * hour) (m : Mission) (hm : m.phases = [a, b, c]) (t : ℤ) (h : t < start m 3) : m.atTime t = .ok a.env := by
  have hst : start m 3 = 10 * hour := by simp [start, hm, ha, hb, hc, hour]
  rw [hst] at h
  unfold Mission.atTime
  rw [hm]
  unfold atLoop
  rw [ha, zero_add, if_pos (by unfold Fits hour; omega), if_pos h]
  rfl

/-! ### C137 -/

/-- Fluxes of a mission, in order, of the phases that have an environment. -/
def fluxes (m : Mission) : List ℝ := m.phases.filterMap m.flux

theorem maxPhase_spec (m : Mission) : ∀ (ps : List Phase) (b : Phase), (m.maxPhase b ps = b ∨ m.maxPhase b ps ∈ ps) ∧
    (∀ f, (m.flux b = some f ∨ ∃ p ∈ ps, m.flux p = some f) → ∃ g, m.flux (m.maxPhase b ps) = some g ∧ f ≤ g)
  | [], b => ⟨Or.inl rfl, fun f h => by
      rcases h with h | ⟨p, hp, -⟩
      · exact ⟨f, h, le_rfl⟩
      · simp at hp⟩
  | q :: ps, b => by
    obtain ⟨h1, h2⟩ := maxPhase_spec m ps (if worse (m.flux b) (m.flux q) then q else b)
    refine ⟨?_, fun f h => ?_⟩
    · show m.maxPhase _ ps = b ∨ m.maxPhase _ ps ∈ q :: ps
      rcases h1 with h1 | h1
      · rw [h1]; split <;> simp
      · right; simp [h1]
    · show ∃ g, m.flux (m.maxPhase _ ps) = some g ∧ f ≤ g
      have key : ∃ f', m.flux (if worse (m.flux b) (m.flux q) then q else b) = some f' ∧ f ≤ f' ∨ ∃ p ∈ ps, m.flux p = some f := by
        rcases h with h | ⟨p, hp, h⟩
        · cases hq : m.flux q with
          | none => exact ⟨f, Or.inl ⟨by simp [h, worse], le_rfl⟩⟩
          | some x =>
            by_cases hx : f < x
            · exact ⟨x, Or.inl ⟨by simp [h, worse, hx, hq], hx.le⟩⟩
            · exact ⟨f, Or.inl ⟨by simp [h, worse, hx], le_rfl⟩⟩
        · rcases List.mem_cons.mp hp with rfl | hp
          · cases hb : m.flux b with
            | none => exact ⟨f, Or.inl ⟨by simp [worse, h], le_rfl⟩⟩
            | some x =>
              by_cases hx : x < f
              · exact ⟨f, Or.inl ⟨by simp [worse, h, hx], le_rfl⟩⟩
              · exact ⟨x, Or.inl ⟨by simp [worse, h, hx, hb], not_lt.mp hx⟩⟩
          · exact ⟨0, Or.inr ⟨p, hp, h⟩⟩
      obtain ⟨f', ⟨k1, k2⟩ | ⟨p, hp, k⟩⟩ := key
      · obtain ⟨g, hg, hle⟩ := h2 f' (Or.inl k1)
        exact ⟨g, hg, k2.trans hle⟩
      · exact h2 f (Or.inr ⟨p, hp, k⟩)

/-- C137, worst case: the environment returned is that of a phase, and its flux is the highest of all phases that have one. -/
theorem C137_worst {m : Mission} (h : fluxes m ≠ []) : ∃ p ∈ m.phases, m.worst = p.env ∧ ∃ g, m.flux p = some g ∧ ∀ f ∈ fluxes m, f ≤ g := by
  unfold Mission.worst
  cases hp : m.phases with
  | nil => simp [fluxes, hp] at h
  | cons a ps =>
    obtain ⟨h1, h2⟩ := maxPhase_spec m ps a
    refine ⟨m.maxPhase a ps, ?_, rfl, ?_⟩
    · rcases h1 with h1 | h1
      · rw [h1]; simp
      · simp [h1]
    · obtain ⟨f0, hf0⟩ := List.exists_mem_of_ne_nil _ h
      have conv : ∀ f ∈ fluxes m, m.flux a = some f ∨ ∃ p ∈ ps, m.flux p = some f := by
        intro f hf
        unfold fluxes at hf
        rw [hp, List.mem_filterMap] at hf
        obtain ⟨q, hq, hqf⟩ := hf
        rcases List.mem_cons.mp hq with rfl | hq
        · exact Or.inl hqf
        · exact Or.inr ⟨q, hq, hqf⟩
      obtain ⟨g, hg, -⟩ := h2 f0 (conv f0 hf0)
      refine ⟨g, hg, fun f hf => ?_⟩
      obtain ⟨g', hg', hle⟩ := h2 f (conv f hf)
      rw [hg, Option.some.injEq] at hg'
      rw [hg']; exact hle

/-- C137, none: a mission without phases has no worst case environment. -/
theorem C137_none {m : Mission} (h : m.phases = []) : m.worst = none := by
  unfold Mission.worst
  rw [h]

/-- Exposure of one phase. -/
noncomputable def phaseExposure (m : Mission) (p : Phase) : ℝ := (m.flux p).getD 0 * p.duration

/-- C137, exposure: the total is the sum over the phases of flux times duration, a phase without environment counting nothing. -/
theorem C137_exposure (m : Mission) : m.exposure = (m.phases.map (phaseExposure m)).sum := by
  have key : ∀ (ps : List Phase) (x : ℝ), ps.foldl m.addExposure x = x + (ps.map (phaseExposure m)).sum := by
    intro ps
    induction ps with
    | nil => simp
    | cons p t ih =>
      intro x
      rw [List.foldl_cons, ih, List.map_cons, List.sum_cons]
      unfold phaseExposure Mission.addExposure
      cases m.flux p with
      | none => simp
      | some f => simp only [Option.getD_some]; ring
  unfold Mission.exposure
  rw [key, zero_add]

/-- C137, adding a phase adds its exposure. -/
theorem C137_add (m : Mission) (p : Phase) : (m.addPhase p).exposure = m.exposure + phaseExposure m p := by
  rw [C137_exposure, C137_exposure]
  have : phaseExposure (m.addPhase p) = phaseExposure m := rfl
  rw [this]
  simp [Mission.addPhase]

/-- C137, bound: with durations that are not negative the exposure is at most the worst flux for the whole mission. -/
theorem C137_bound {m : Mission} (hd : ∀ p ∈ m.phases, 0 ≤ p.duration) {g : ℝ} (hg : 0 ≤ g) (h : ∀ f ∈ fluxes m, f ≤ g) : m.exposure ≤ g * (start m m.phases.length : ℝ) := by
  rw [C137_exposure]
  have e : g * (start m m.phases.length : ℝ) = (m.phases.map fun p => g * (p.duration : ℝ)).sum := by
    unfold start
    rw [List.take_length]
    induction m.phases with
    | nil => simp
    | cons p t ih => simp only [List.map_cons, List.sum_cons, Int.cast_add, mul_add, ih]
  rw [e]
  refine List.sum_le_sum fun p hp => ?_
  unfold phaseExposure
  have hdp : (0 : ℝ) ≤ p.duration := by exact_mod_cast hd p hp
  refine mul_le_mul_of_nonneg_right ?_ hdp
  cases hf : m.flux p with
  | none => exact hg
  | some f => exact h f (List.mem_filterMap.mpr ⟨p, hp, hf⟩)

/-- A phase with another distance from the Sun and other shielding. -/
def reshield (au shield : Phase → ℝ) (p : Phase) : Phase := { p with au := au p, shield := shield p }

/-- C137, violated: shielding and distance from the Sun of a phase do not matter: changing them changes neither exposure, nor worst case, nor the environment at any time. -/
theorem C137_shield_violated (m : Mission) (au shield : Phase → ℝ) (t : ℤ) :
    let m' := { m with phases := m.phases.map (reshield au shield) }
    m'.exposure = m.exposure ∧ m'.worst = m.worst ∧ m'.atTime t = m.atTime t := by
  have lp : ∀ (ps : List Phase) (e : ℤ), atLoop t (ps.map (reshield au shield)) e = atLoop t ps e := by
    intro ps
    induction ps with
    | nil => intro e; rfl
    | cons p ps ih => intro e; simp only [List.map_cons, atLoop, ih]; rfl
  have mp : ∀ (m' : Mission), m'.heap = m.heap → ∀ (ps : List Phase) (b : Phase), (m'.maxPhase (reshield au shield b) (ps.map (reshield au shield))).env = (m.maxPhase b ps).env := by
    intro m' hm' ps
    have hfl : ∀ p : Phase, m'.flux (reshield au shield p) = m.flux p := by intro p; unfold Mission.flux reshield; rw [hm']
    induction ps with
    | nil => intro b; rfl
    | cons p ps ih =>
      intro b
      simp only [List.map_cons, Mission.maxPhase, hfl]
      by_cases hw : worse (m.flux b) (m.flux p) = true
      · rw [if_pos hw, if_pos hw]; exact ih p
      · rw [if_neg hw, if_neg hw]; exact ih b
  refine ⟨?_, ?_, ?_⟩
  · rw [C137_exposure, C137_exposure]
    simp only [List.map_map]
    rfl
  · unfold Mission.worst
    cases hp : m.phases with
    | nil => rfl
    | cons p ps => exact mp { m with phases := List.map (reshield au shield) (p :: ps) } rfl ps p
  · unfold Mission.atTime
    simp only [lp]
    congr 1
    funext r
    cases r with
    | some e => rfl
    | none =>
      simp only [List.getLast?_map]
      cases m.phases.getLast? <;> rfl

/-! ### C138 -/

/-- C138, usable: every standard mission has a name and phases of positive duration that all have an environment with positive flux and a positive distance and shielding, begins with a launch, and lasts less than 64 bits of seconds. -/
theorem C138_usable (t : Target) : (standard t).name = defaultName t ∧ (standard t).target = t ∧ ((standard t).phases.head?.map Phase.type) = some .launch ∧ Sane (standard t) ∧
    ∀ p ∈ (standard t).phases, 0 < p.duration ∧ 0 < p.au ∧ 0 < p.shield ∧ ∃ f, (standard t).flux p = some f ∧ 0 < f := by
  refine ⟨rfl, rfl, ?_, ?_, ?_⟩
  · cases t <;> rfl
  · intro i hi
    have hl : i ≤ 6 := hi.trans (by cases t <;> decide)
    cases t <;> (interval_cases i <;> first | (simp [start, standard, plan, leoPlan, geoPlan, lunarPlan, marsPlan, jupiterPlan, solarPlan, hour, Fits]) | (exfalso; revert hi; decide))
  · intro p hp
    cases t <;>
      (simp only [standard, plan, leoPlan, geoPlan, lunarPlan, marsPlan, jupiterPlan, solarPlan, List.mem_cons, List.not_mem_nil, or_false] at hp
       rcases hp with rfl | hp
       all_goals (try rcases hp with rfl | hp)
       all_goals (try rcases hp with rfl | hp)
       all_goals (try rcases hp with rfl | hp)
       all_goals (try rcases hp with rfl | rfl)
       all_goals (try subst hp)
       all_goals exact ⟨by norm_num [hour], by norm_num, by norm_num, _, rfl, by norm_num [create, stdFlux, Env.new, Env.setFlux]⟩)

/-- How long a standard mission lasts according to its phases, in seconds (space_mission.hpp:286-641). -/
def length : Target → ℤ
  | .geo => 3600 + 2 * (5 * 3600) + 15 * 365 * 86400
  | .moon => 3600 + 3 * 86400 + 5 * 86400 + 2 * 86400 + 3 * 86400 + 1800
  | .mars => 3600 + 180 * 86400 + 60 * 86400 + 500 * 86400 + 180 * 86400 + 1800
  | .jupiter => 3600 + 2 * 365 * 86400 + 30 * 86400 + 60 * 86400 + 365 * 86400
  | .solarProbe => 3600 + 2 * 86400 + 86400 + 7 * 86400 + 86400 + 7 * 86400
  | _ => 3600 + 365 * 86400

/-- C138, length: a standard mission lasts as long as its documented phases together. -/
theorem C138_length (t : Target) : start (standard t) (standard t).phases.length = length t := by
  cases t <;> simp [start, standard, plan, leoPlan, geoPlan, lunarPlan, marsPlan, jupiterPlan, solarPlan, hour, length]

/-- C138, names: a mission given a name keeps it. -/
theorem C138_named (t : Target) {n : String} (h : n ≠ "") : (standard t n).name = n ∧ (standard t n).phases = (standard t).phases ∧ (standard t n).heap = (standard t).heap := by
  refine ⟨?_, rfl, rfl⟩
  unfold standard
  simp only
  rw [if_neg h]

/-- C138, violated: missions to medium orbit, Venus, Mercury, Saturn, the asteroid and Kuiper belts and over the poles of the Sun get, under their own names, the two phases of a low Earth orbit mission, whose worst flux is a fifth of that of medium Earth orbit. -/
theorem C138_unconfigured_violated (t : Target) (h : t = .meo ∨ t = .venus ∨ t = .mercury ∨ t = .saturn ∨ t = .asteroidBelt ∨ t = .kuiperBelt ∨ t = .solarPolar) :
    (standard t).phases = (standard .leo).phases ∧ (standard t).heap = (standard .leo).heap ∧ (standard t).name ≠ (standard .leo).name ∧ ∀ p ∈ (standard t).phases, ∀ f, (standard t).flux p = some f → 5 * f ≤ (create .meo).flux := by
  have hph : (standard t).phases = (standard .leo).phases ∧ (standard t).heap = (standard .leo).heap := by
    rcases h with rfl | rfl | rfl | rfl | rfl | rfl | rfl <;> exact ⟨rfl, rfl⟩
  refine ⟨hph.1, hph.2, ?_, ?_⟩
  · rcases h with rfl | rfl | rfl | rfl | rfl | rfl | rfl <;> decide
  · intro p hp f hf
    have hf' : (standard .leo).flux p = some f := by unfold Mission.flux at hf ⊢; rw [← hph.2]; exact hf
    rw [hph.1] at hp
    simp only [standard, plan, leoPlan, List.mem_cons, List.not_mem_nil, or_false] at hp
    rcases hp with rfl | rfl
    · have : f = stdFlux .avionic := by simpa [Mission.flux, standard, plan, leoPlan, create] using hf'.symm
      rw [this]; norm_num [create, stdFlux]
    · have : f = stdFlux .leo := by simpa [Mission.flux, standard, plan, leoPlan, create] using hf'.symm
      rw [this]; norm_num [create, stdFlux]

/-- C138, violated: the outward and the homeward leg of the lunar and of the Mars mission share one environment: setting the flux of the outward leg sets that of the homeward leg. -/
theorem C138_shared_violated (t : Target) (h : t = .moon ∨ t = .mars) (x : ℝ) : ∃ (a : ℕ) (out home : Phase), out ∈ (standard t).phases ∧ home ∈ (standard t).phases ∧ out.type = .transfer ∧ home.type = .return ∧ out.env = some a ∧
    ((standard t).write a (Env.setFlux · x)).flux out = some x ∧ ((standard t).write a (Env.setFlux · x)).flux home = some x := by
  rcases h with rfl | rfl
  · exact ⟨1, ⟨"Earth-Moon Transfer", .transfer, some 1, 72 * hour, 1, 5⟩, ⟨"Moon-Earth Transfer", .return, some 1, 72 * hour, 1, 5⟩, by simp [standard, plan, lunarPlan], by simp [standard, plan, lunarPlan], rfl, rfl, rfl, rfl, rfl⟩
  · exact ⟨1, ⟨"Earth-Mars Transfer", .transfer, some 1, 24 * 180 * hour, 3 / 2, 10⟩, ⟨"Mars-Earth Transfer", .return, some 1, 24 * 180 * hour, 3 / 2, 10⟩, by simp [standard, plan, marsPlan], by simp [standard, plan, marsPlan], rfl, rfl, rfl, rfl, rfl⟩

/-- C138, independence: in every other standard mission the phases have environments of their own. -/
theorem C138_separate (t : Target) (h : t ≠ .moon ∧ t ≠ .mars) : ((standard t).phases.map Phase.env).Nodup := by
  cases t <;> first | exact absurd rfl h.1 | exact absurd rfl h.2 | (simp [standard, plan, leoPlan, geoPlan, jupiterPlan, solarPlan])

/-! ### Cases -/

example : (standard .mars).atTime (100 * hour) = .ok (some 1) :=
  C136_during (m := standard .mars) (C138_usable .mars).2.2.2.1 (fun p hp => ((C138_usable .mars).2.2.2.2 p hp).1.le) (i := 1) rfl (by simp [start, standard, plan, marsPlan, hour]) (by simp [start, standard, plan, marsPlan, hour])
example : fluxes (standard .leo) ≠ [] := by simp [fluxes, standard, plan, leoPlan, Mission.flux]
example : 0 < start (standard .leo) 2 := by simp [start, standard, plan, leoPlan, hour]

end Verif.SpaceMission
