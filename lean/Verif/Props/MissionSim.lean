import Verif.Model.MissionSim
import Verif.Props.RadSimulator
import Mathlib.Algebra.Order.Floor.Ring
import Mathlib.Tactic.FieldSimp
import Mathlib.Analysis.Complex.ExponentialBounds
/-!
C153: standard mission profiles; C154: changes of environment; C155: time of a simulated mission; C156: statistics of a simulated mission; C157: uptime; C158: protection level; C159: scrubbing and correction.
-/
namespace Verif.MissionSim
open Verif.RadSimulator

/-! ### C153 -/

/-- A profile that can be simulated: at least one environment, a duration for each that can be converted to milliseconds, no more probabilities than environments, sensible environments. -/
structure Usable (p : Profile) : Prop where
  envs : p.envs ≠ []
  durations : p.durations.length = p.envs.length
  probs : p.probs.length ≤ p.envs.length
  sensible : ∀ e ∈ p.envs, 0 < (rates e).total
  range : ∀ d ∈ p.durations, 0 ≤ d ∧ d * 1000 < 2 ^ 63

/-- What every standard profile has. -/
structure Sound (p : Profile) : Prop where
  envs : p.envs ≠ []
  durations : p.durations.length = p.envs.length
  probs : p.probs.length = p.envs.length
  sensible : ∀ e ∈ p.envs, Sensible e
  positive : ∀ d ∈ p.durations, 0 < d ∧ d ≤ 86400
  chance : ∀ q ∈ p.probs, 0 < q
  sum : p.probs.sum = 1
  names : (p.envs.map (·.name)).Nodup

theorem _root_.Verif.RadSimulator.Sensible.flare {p : Params} (h : Sensible p) (n : String) : Sensible (flare p n) := ⟨h.altitude, h.inclination, by show (0 : ℝ) ≤ 9; norm_num⟩
theorem _root_.Verif.RadSimulator.Sensible.anomaly {p : Params} (h : Sensible p) (n : String) : Sensible (anomaly p n) := ⟨h.altitude, h.inclination, h.solar⟩
theorem _root_.Verif.RadSimulator.Sensible.named {p : Params} (h : Sensible p) (n : String) (d : ℝ) : Sensible { p with shield := d, name := n } := ⟨h.altitude, h.inclination, h.solar⟩

theorem name_leo : (missionEnv "LEO").name = "Low Earth Orbit" := by unfold missionEnv; rw [if_pos (by decide)]
theorem name_iss : (missionEnv "ISS").name = "International Space Station" := by unfold missionEnv; rw [if_neg (by decide), if_pos rfl]
theorem name_geo : (missionEnv "GEO").name = "Geostationary Orbit" := by unfold missionEnv; rw [if_neg (by decide), if_neg (by decide), if_pos (by decide)]
theorem name_lunar : (missionEnv "LUNAR").name = "Lunar Mission" := by unfold missionEnv; rw [if_neg (by decide), if_neg (by decide), if_neg (by decide), if_pos (by decide)]
theorem name_mars : (missionEnv "MARS").name = "Mars Mission" := by unfold missionEnv; rw [if_neg (by decide), if_neg (by decide), if_neg (by decide), if_neg (by decide), if_pos rfl]
theorem name_jupiter : (missionEnv "JUPITER").name = "Jupiter Mission" := by unfold missionEnv; rw [if_neg (by decide), if_neg (by decide), if_neg (by decide), if_neg (by decide), if_neg (by decide), if_pos rfl]

/-- C153, standard profiles: for every name, known or not, the profile carries the name, has at least one environment, each sensible, with its own name, a positive duration of at most a day and a positive probability, the probabilities summing to 1. -/
theorem C153_sound (m : String) : (Profile.standard m).name = m ∧ Sound (Profile.standard m) := by
  have hs := fun n => (C150_missions n).1
  unfold Profile.standard
  split_ifs
  · refine ⟨rfl, by simp, rfl, rfl, ?_, ?_, ?_, ?_, ?_⟩
    · intro e he; simp only [List.mem_cons, List.not_mem_nil, or_false] at he; rcases he with rfl | rfl | rfl
      exacts [hs _, (hs _).anomaly _, (hs _).flare _]
    · intro d hd; simp only [List.mem_cons, List.not_mem_nil, or_false] at hd; rcases hd with rfl | rfl | rfl <;> norm_num
    · intro d hd; simp only [List.mem_cons, List.not_mem_nil, or_false] at hd; rcases hd with rfl | rfl | rfl <;> norm_num
    · norm_num
    · simp only [List.map_cons, List.map_nil, anomaly, flare, name_leo]; decide
  · refine ⟨rfl, by simp, rfl, rfl, ?_, ?_, ?_, ?_, ?_⟩
    · intro e he; simp only [List.mem_cons, List.not_mem_nil, or_false] at he; rcases he with rfl | rfl | rfl
      exacts [hs _, (hs _).anomaly _, (hs _).flare _]
    · intro d hd; simp only [List.mem_cons, List.not_mem_nil, or_false] at hd; rcases hd with rfl | rfl | rfl <;> norm_num
    · intro d hd; simp only [List.mem_cons, List.not_mem_nil, or_false] at hd; rcases hd with rfl | rfl | rfl <;> norm_num
    · norm_num
    · simp only [List.map_cons, List.map_nil, anomaly, flare, name_iss]; decide
  · refine ⟨rfl, by simp, rfl, rfl, ?_, ?_, ?_, ?_, ?_⟩
    · intro e he; simp only [List.mem_cons, List.not_mem_nil, or_false] at he; rcases he with rfl | rfl
      exacts [hs _, (hs _).flare _]
    · intro d hd; simp only [List.mem_cons, List.not_mem_nil, or_false] at hd; rcases hd with rfl | rfl <;> norm_num
    · intro d hd; simp only [List.mem_cons, List.not_mem_nil, or_false] at hd; rcases hd with rfl | rfl <;> norm_num
    · norm_num
    · simp only [List.map_cons, List.map_nil, flare, name_geo]; decide
  · refine ⟨rfl, by simp, rfl, rfl, ?_, ?_, ?_, ?_, ?_⟩
    · intro e he; simp only [List.mem_cons, List.not_mem_nil, or_false] at he; rcases he with rfl | rfl
      exacts [hs _, (hs _).flare _]
    · intro d hd; simp only [List.mem_cons, List.not_mem_nil, or_false] at hd; rcases hd with rfl | rfl <;> norm_num
    · intro d hd; simp only [List.mem_cons, List.not_mem_nil, or_false] at hd; rcases hd with rfl | rfl <;> norm_num
    · norm_num
    · simp only [List.map_cons, List.map_nil, flare, name_lunar]; decide
  · refine ⟨rfl, by simp, rfl, rfl, ?_, ?_, ?_, ?_, ?_⟩
    · intro e he; simp only [List.mem_cons, List.not_mem_nil, or_false] at he; rcases he with rfl | rfl | rfl
      exacts [hs _, (hs _).flare _, (hs _).named _ _]
    · intro d hd; simp only [List.mem_cons, List.not_mem_nil, or_false] at hd; rcases hd with rfl | rfl | rfl <;> norm_num
    · intro d hd; simp only [List.mem_cons, List.not_mem_nil, or_false] at hd; rcases hd with rfl | rfl | rfl <;> norm_num
    · norm_num
    · simp only [List.map_cons, List.map_nil, flare, name_mars]; decide
  · refine ⟨rfl, by simp, rfl, rfl, ?_, ?_, ?_, ?_, ?_⟩
    · intro e he; simp only [List.mem_cons, List.not_mem_nil, or_false] at he; rcases he with rfl | rfl
      exacts [hs _, (hs _).named _ _]
    · intro d hd; simp only [List.mem_cons, List.not_mem_nil, or_false] at hd; rcases hd with rfl | rfl <;> norm_num
    · intro d hd; simp only [List.mem_cons, List.not_mem_nil, or_false] at hd; rcases hd with rfl | rfl <;> norm_num
    · norm_num
    · simp only [List.map_cons, List.map_nil, name_jupiter]; decide
  · refine ⟨rfl, by simp, rfl, rfl, ?_, ?_, ?_, ?_, ?_⟩
    · intro e he; simp only [List.mem_cons, List.not_mem_nil, or_false] at he; subst he
      exact ⟨(hs "LEO").altitude, (hs "LEO").inclination, (hs "LEO").solar⟩
    · intro d hd; simp only [List.mem_cons, List.not_mem_nil, or_false] at hd; subst hd; norm_num
    · intro d hd; simp only [List.mem_cons, List.not_mem_nil, or_false] at hd; subst hd; norm_num
    · norm_num
    · simp

theorem Sound.usable {p : Profile} (h : Sound p) : Usable p :=
  ⟨h.envs, h.durations, h.probs.le, fun e he => by rw [total_eq]; exact baseRate_pos (h.sensible e he), fun d hd => ⟨(h.positive d hd).1.le, by have := (h.positive d hd).2; norm_num; linarith⟩⟩

/-- C153, violated: a name that is not spelled as expected silently gives a mission in low Earth orbit without anomaly or flares. -/
theorem C153_unknown_violated {m : String} (h : m ∉ known) : (Profile.standard m).envs = [{ missionEnv "LEO" with name := "Generic Mission (Normal)" }] ∧ Config.standard m = Config.default ∧ "mars" ∉ known ∧ "Jupiter" ∉ known := by
  unfold known at h
  simp only [List.mem_cons, List.not_mem_nil, or_false, not_or] at h
  refine ⟨?_, ?_, by decide, by decide⟩
  · unfold Profile.standard
    rw [if_neg (by tauto), if_neg (by tauto), if_neg (by tauto), if_neg (by tauto), if_neg (by tauto), if_neg (by tauto)]
  · unfold Config.standard
    rw [if_neg (by tauto), if_neg (by tauto), if_neg (by tauto), if_neg (by tauto), if_neg (by tauto)]

/-! ### C154 -/

theorem pick_spec (val : ℝ) (old : ℕ) : ∀ (qs : List ℝ) (cum : ℝ) (i : ℕ),
    (∃ k < qs.length, pick val old qs cum i = i + k ∧ val < cum + (qs.take (k + 1)).sum ∧ ∀ j < k, cum + (qs.take (j + 1)).sum ≤ val) ∨ (pick val old qs cum i = old ∧ ∀ j < qs.length, cum + (qs.take (j + 1)).sum ≤ val)
  | [], cum, i => Or.inr ⟨rfl, by simp⟩
  | q :: qs, cum, i => by
    simp only [pick]
    by_cases h : val < cum + q
    · rw [if_pos h]
      exact Or.inl ⟨0, by simp, rfl, by simpa using h, by simp⟩
    · rw [if_neg h]
      push Not at h
      have ext : ∀ {k : ℕ}, (∀ j < k, cum + q + (qs.take (j + 1)).sum ≤ val) → ∀ j < k + 1, cum + ((q :: qs).take (j + 1)).sum ≤ val := by
        intro k hk j hj
        cases j with
        | zero => simpa using h
        | succ j =>
          have := hk j (by omega)
          rw [List.take_succ_cons, List.sum_cons, ← add_assoc]
          exact this
      rcases pick_spec val old qs (cum + q) (i + 1) with ⟨k, k1, k2, k3, k4⟩ | ⟨k1, k2⟩
      · refine Or.inl ⟨k + 1, by simp [k1], by rw [k2]; omega, ?_, ext k4⟩
        rw [List.take_succ_cons, List.sum_cons, ← add_assoc]
        exact k3
      · exact Or.inr ⟨k1, by rw [List.length_cons]; exact ext k2⟩

theorem take_sum_mono {qs : List ℝ} (h : ∀ q ∈ qs, 0 ≤ q) {j k : ℕ} (hjk : j ≤ k) : (qs.take j).sum ≤ (qs.take k).sum := by
  obtain ⟨d, rfl⟩ := Nat.exists_eq_add_of_le hjk
  rw [List.take_add, List.sum_append]
  have : 0 ≤ ((qs.drop j).take d).sum := List.sum_nonneg fun x hx => h x (List.mem_of_mem_drop (List.mem_of_mem_take hx))
  linarith

/-- With probabilities that are not negative, place `k` is taken for the numbers from the sum of the probabilities before it up to that sum plus its own probability. -/
theorem pick_interval {qs : List ℝ} (h : ∀ q ∈ qs, 0 ≤ q) {val : ℝ} (old : ℕ) {k : ℕ} (h1 : (qs.take k).sum ≤ val) (h2 : val < (qs.take (k + 1)).sum) : pick val old qs 0 0 = k := by
  have hk : k < qs.length := by
    by_contra hc
    push Not at hc
    rw [List.take_of_length_le hc] at h1
    rw [List.take_of_length_le (by omega)] at h2
    linarith
  rcases pick_spec val old qs 0 0 with ⟨m, m1, m2, m3, m4⟩ | ⟨m1, m2⟩
  · rw [zero_add] at m2 m3
    rw [m2]
    rcases lt_trichotomy m k with hlt | rfl | hgt
    · have := take_sum_mono h (j := m + 1) (k := k) (by omega)
      linarith
    · rfl
    · have := m4 k hgt
      linarith
  · have := m2 k hk
    linarith

/-- Everything a change of environment leaves alone. -/
structure Same (s t : Sim) : Prop where
  profile : t.profile = s.profile
  cfg : t.cfg = s.cfg
  src : t.src = s.src
  stats : t.stats = s.stats
  regions : t.regions = s.regions

/-- C154, selection: with at least two environments, if the number drawn lies in the interval of environment `k` (whose length is its probability), this becomes the environment, and the answer says whether it is another than before; nothing else changes. -/
theorem C154_select {s : Sim} (hn : 2 ≤ s.profile.envs.length) (hp : ∀ q ∈ s.profile.probs, 0 ≤ q) {k : ℕ} (h1 : (s.profile.probs.take k).sum ≤ s.rng 0) (h2 : s.rng 0 < (s.profile.probs.take (k + 1)).sum) {e : Params} (he : s.profile.envs[k]? = some e) :
    ∃ t, s.select = .ok (decide (s.idx ≠ k), t) ∧ t.idx = k ∧ t.env = e ∧ Same s t := by
  refine ⟨{ s.next with idx := k, env := e }, ?_, rfl, rfl, ⟨rfl, rfl, rfl, rfl, rfl⟩⟩
  unfold Sim.select
  rw [if_neg (by omega)]
  simp only [pick_interval hp s.idx h1 h2]
  rw [he]

/-- C154, completeness: with as many probabilities as environments, summing to 1, and a number from 0 to 1 excluded, some environment is selected. -/
theorem C154_total {s : Sim} (hn : 2 ≤ s.profile.envs.length) (hl : s.profile.probs.length = s.profile.envs.length) (hs : s.profile.probs.sum = 1) (h0 : 0 ≤ s.rng 0) (h1 : s.rng 0 < 1) :
    ∃ k e, (s.profile.probs.take k).sum ≤ s.rng 0 ∧ s.rng 0 < (s.profile.probs.take (k + 1)).sum ∧ s.profile.envs[k]? = some e := by
  rcases pick_spec (s.rng 0) s.idx s.profile.probs 0 0 with ⟨k, k1, k2, k3, k4⟩ | ⟨-, k2⟩
  · refine ⟨k, s.profile.envs[k]'(by omega), ?_, by rw [zero_add] at k3; exact k3, List.getElem?_eq_getElem _⟩
    cases k with
    | zero => simpa using h0
    | succ k => have := k4 k (by omega); linarith
  · have := k2 (s.profile.probs.length - 1) (by omega)
    rw [List.take_of_length_le (by omega), hs] at this
    linarith

/-- C154, violated: more probabilities than environments are not refused: when the number drawn falls into the interval of one too many, the selection reads outside the environments. -/
theorem C154_surplus_violated {s : Sim} (hn : 2 ≤ s.profile.envs.length) (hp : ∀ q ∈ s.profile.probs, 0 ≤ q) {k : ℕ} (hk : s.profile.envs.length ≤ k) (h1 : (s.profile.probs.take k).sum ≤ s.rng 0) (h2 : s.rng 0 < (s.profile.probs.take (k + 1)).sum) : s.select = .ub := by
  unfold Sim.select
  rw [if_neg (by omega)]
  simp only [pick_interval hp s.idx h1 h2]
  rw [List.getElem?_eq_none hk]

/-- The environment of the simulator has become the one at the new place, or all stayed. -/
def Moved (s t : Sim) : Prop := (t.idx = s.idx ∧ t.env = s.env) ∨ s.profile.envs[t.idx]? = some t.env

theorem select_frame {s t : Sim} {b : Bool} (h : s.select = .ok (b, t)) : Same s t ∧ b = decide (s.idx ≠ t.idx) ∧ Moved s t := by
  unfold Sim.select at h
  split_ifs at h with hn
  · simp only [R.ok.injEq, Prod.mk.injEq] at h
    obtain ⟨rfl, rfl⟩ := h
    exact ⟨⟨rfl, rfl, rfl, rfl, rfl⟩, by simp, Or.inl ⟨rfl, rfl⟩⟩
  · simp only at h
    cases he : s.profile.envs[pick (s.rng 0) s.idx s.profile.probs 0 0]? with
    | none => rw [he] at h; exact absurd h (by simp)
    | some e =>
      rw [he] at h
      simp only [R.ok.injEq, Prod.mk.injEq] at h
      obtain ⟨rfl, rfl⟩ := h
      exact ⟨⟨rfl, rfl, rfl, rfl, rfl⟩, rfl, Or.inr he⟩

theorem change_frame {s t : Sim} {c c' : Clock} {b : Bool} (h : s.change c = .ok (b, c', t)) :
    Same s t ∧ b = decide (s.idx ≠ t.idx) ∧ Moved s t ∧ c'.elapsed = c.elapsed ∧ c'.scrubbed = c.scrubbed ∧ (c'.inEnv = 0 ∨ (c'.inEnv = c.inEnv ∧ t.idx = s.idx ∧ ∃ d, s.profile.durations[s.idx]? = some d ∧ ((c.inEnv : ℝ) < d * 1000 ∨ c.inEnv < 0))) := by
  unfold Sim.change at h
  cases hd : s.profile.durations[s.idx]? with
  | none => rw [hd] at h; exact absurd h (by simp)
  | some d =>
    rw [hd] at h
    simp only at h
    obtain ⟨lim, hl, h⟩ := bind_ok.mp h
    split_ifs at h with h1 h2
    · obtain ⟨⟨b', t'⟩, hs, h⟩ := bind_ok.mp h
      simp only [R.ok.injEq, Prod.mk.injEq] at h
      obtain ⟨rfl, rfl, rfl⟩ := h
      obtain ⟨f1, f2, f3⟩ := select_frame hs
      exact ⟨f1, f2, f3, rfl, rfl, Or.inl rfl⟩
    · obtain ⟨⟨b', t'⟩, hs, h⟩ := bind_ok.mp h
      simp only [R.ok.injEq, Prod.mk.injEq] at h
      obtain ⟨rfl, rfl, rfl⟩ := h
      obtain ⟨f1, f2, f3⟩ := select_frame hs
      exact ⟨⟨f1.profile, f1.cfg, f1.src, f1.stats, f1.regions⟩, f2, f3, rfl, rfl, Or.inl rfl⟩
    · simp only [R.ok.injEq, Prod.mk.injEq] at h
      obtain ⟨rfl, rfl, rfl⟩ := h
      refine ⟨⟨rfl, rfl, rfl, rfl, rfl⟩, by simp [Sim.next], Or.inl ⟨rfl, rfl⟩, rfl, rfl, Or.inr ⟨rfl, rfl, d, rfl, ?_⟩⟩
      unfold toLL at hl
      split_ifs at hl with h3 h4
      · simp only [R.ok.injEq] at hl
        subst hl
        left
        push Not at h1
        have h5 : (c.inEnv : ℝ) < (⌊d * 1000⌋ : ℤ) := by exact_mod_cast h1
        exact lt_of_lt_of_le h5 (Int.floor_le _)
      · simp only [R.ok.injEq] at hl
        subst hl
        right
        push Not at h1 h4
        exact lt_of_lt_of_le h1 (Int.ceil_le.mpr (by exact_mod_cast h4.le))

/-! ### Tables -/

theorem bump_sum {α : Type} [AddCommMonoid α] : ∀ (t : Table α) (k : String) (x : α), ((t.bump k x).map (·.2)).sum = (t.map (·.2)).sum + x
  | [], k, x => by simp [Table.bump]
  | (n, y) :: t, k, x => by
    simp only [Table.bump]
    split_ifs
    · simp only [List.map_cons, List.sum_cons]; rw [add_right_comm]
    · simp only [List.map_cons, List.sum_cons]; rw [bump_sum t k x, add_assoc]

theorem get_bump {α : Type} [AddCommMonoid α] : ∀ (t : Table α) (k : String) (x : α) (j : String), (t.bump k x).get j = t.get j + if j = k then x else 0
  | [], k, x, j => by
    simp only [Table.bump, Table.get, List.find?_cons, List.find?_nil]
    by_cases h : j = k
    · subst h; simp
    · have : (k == j) = false := by simpa using fun e => h e.symm
      simp [this, h]
  | (n, y) :: t, k, x, j => by
    simp only [Table.bump]
    by_cases hn : n = k
    · subst hn
      rw [if_pos rfl]
      by_cases hj : j = n
      · subst hj; simp [Table.get]
      · have : (n == j) = false := by simpa using fun e => hj e.symm
        simp [Table.get, this, hj]
    · rw [if_neg hn]
      by_cases hj : n = j
      · subst hj; simp [Table.get, hn]
      · have : (n == j) = false := by simpa using hj
        have ih := get_bump t k x j
        simp only [Table.get, List.find?_cons, this] at ih ⊢
        exact ih

theorem bump_keys {α : Type} [AddCommMonoid α] : ∀ (t : Table α) (k : String) (x : α), ∀ n ∈ (t.bump k x).map (·.1), n ∈ t.map (·.1) ∨ n = k
  | [], k, x, n, h => by simp only [Table.bump, List.map_cons, List.map_nil, List.mem_singleton] at h; exact Or.inr h
  | (m, y) :: t, k, x, n, h => by
    simp only [Table.bump] at h
    split_ifs at h with hm
    · exact Or.inl h
    · simp only [List.map_cons, List.mem_cons] at h ⊢
      rcases h with h | h
      · exact Or.inl (Or.inl h)
      · rcases bump_keys t k x n h with h | h
        · exact Or.inl (Or.inr h)
        · exact Or.inr h

theorem clear_zero {α : Type} [AddCommMonoid α] : ∀ (t : Table α) (k : String), (∀ e ∈ t, e.2 = 0) → ∀ e ∈ t.clear k, e.2 = 0
  | [], k, h, e, he => by simp only [Table.clear, List.mem_singleton] at he; subst he; rfl
  | (m, y) :: t, k, h, e, he => by
    simp only [Table.clear] at he
    split_ifs at he
    · rcases List.mem_cons.mp he with rfl | he
      · rfl
      · exact h e (by simp [he])
    · rcases List.mem_cons.mp he with rfl | he
      · exact h _ (by simp)
      · exact clear_zero t k (fun e he => h e (by simp [he])) e he

theorem clear_keys {α : Type} [AddCommMonoid α] : ∀ (t : Table α) (k : String), ∀ n ∈ (t.clear k).map (·.1), n ∈ t.map (·.1) ∨ n = k
  | [], k, n, h => by simp only [Table.clear, List.map_cons, List.map_nil, List.mem_singleton] at h; exact Or.inr h
  | (m, y) :: t, k, n, h => by
    simp only [Table.clear] at h
    split_ifs at h with hm
    · exact Or.inl h
    · simp only [List.map_cons, List.mem_cons] at h ⊢
      rcases h with h | h
      · exact Or.inl (Or.inl h)
      · rcases clear_keys t k n h with h | h
        · exact Or.inl (Or.inr h)
        · exact Or.inr h

theorem init_zero {α : Type} [AddCommMonoid α] : ∀ (es : List Params) (t : Table α), (∀ e ∈ t, e.2 = 0) → ∀ e ∈ es.foldl (fun t e => t.clear e.name) t, e.2 = 0
  | [], _, h => h
  | e :: es, t, h => init_zero es (t.clear e.name) (clear_zero t e.name h)

theorem init_keys {α : Type} [AddCommMonoid α] (N : String → Prop) : ∀ (es : List Params) (t : Table α), (∀ e ∈ es, N e.name) → (∀ n ∈ t.map (·.1), N n) → ∀ n ∈ (es.foldl (fun t e => t.clear e.name) t).map (·.1), N n
  | [], _, _, h => h
  | e :: es, t, he, h => init_keys N es (t.clear e.name) (fun f hf => he f (by simp [hf])) fun n hn => by
    rcases clear_keys t e.name n hn with h' | rfl
    · exact h n h'
    · exact he e (by simp)

theorem zero_sum {α : Type} [AddCommMonoid α] {t : Table α} (h : ∀ e ∈ t, e.2 = 0) : (t.map (·.2)).sum = 0 := by
  apply List.sum_eq_zero
  intro x hx
  obtain ⟨e, he, rfl⟩ := List.mem_map.mp hx
  exact h e he

/-! ### One step -/

theorem judge_tmr (set : Settings) (prot : Bool) (k : Kind) (g : ℕ → ℝ) : (judge set prot k g).1.tmr = true → (judge set prot k g).1.detected = true := by
  unfold judge
  simp only
  repeat' split
  all_goals simp

/-- What `n` more events under the name of an environment do to the statistics. -/
structure Grown (t t' : Stats) (name : String) (n : ℕ) : Prop where
  total : t'.total = t.total + n
  kinds : t'.flips + t'.multis + t'.latches + t'.transients = t.flips + t.multis + t.latches + t.transients + n
  fate : t'.detected + t'.undetected = t.detected + t.undetected + n
  corrected : t'.corrected + t.detected ≤ t.corrected + t'.detected
  tmr : t'.tmr + t.detected ≤ t.tmr + t'.detected
  more : t.detected ≤ t'.detected ∧ t.corrected ≤ t'.corrected ∧ t.tmr ≤ t'.tmr ∧ t.undetected ≤ t'.undetected
  events : ∀ k, t'.events.get k = t.events.get k + if k = name then n else 0
  sum : (t'.events.map (·.2)).sum = (t.events.map (·.2)).sum + n
  keys : ∀ k ∈ t'.events.map (·.1), k ∈ t.events.map (·.1) ∨ k = name
  rest : t'.time = t.time ∧ t'.scrubs = t.scrubs ∧ t'.used = t.used ∧ t'.prot = t.prot ∧ t'.unprot = t.unprot

theorem Grown.refl (t : Stats) (name : String) : Grown t t name 0 := ⟨rfl, rfl, rfl, le_of_eq (by omega), le_of_eq (by omega), ⟨le_rfl, le_rfl, le_rfl, le_rfl⟩, fun k => by simp, rfl, fun k h => Or.inl h, rfl, rfl, rfl, rfl, rfl⟩

theorem Grown.trans {a b c : Stats} {name : String} {n m : ℕ} (h : Grown a b name n) (h' : Grown b c name m) : Grown a c name (n + m) := by
  obtain ⟨a1, a2, a3, a4, a5, ⟨a6, a7, a8, a9⟩, a10, a11, a12, b1, b2, b3, b4, b5⟩ := h
  obtain ⟨c1, c2, c3, c4, c5, ⟨c6, c7, c8, c9⟩, c10, c11, c12, d1, d2, d3, d4, d5⟩ := h'
  refine ⟨by omega, by omega, by omega, by omega, by omega, ⟨by omega, by omega, by omega, by omega⟩, fun k => ?_, by rw [c11, a11, add_assoc], fun k hk => ?_, by rw [d1, b1], by omega, by omega, by omega, by omega⟩
  · rw [c10, a10]
    split_ifs <;> omega
  · rcases c12 k hk with hk | hk
    · exact a12 k hk
    · exact Or.inr hk

theorem event_grown (t : Stats) (name : String) (k : Kind) {v : Verdict} (hv : v.tmr = true → v.detected = true) : Grown t (t.event name k v) name 1 := by
  obtain ⟨d, c, m⟩ := v
  simp only at hv
  refine ⟨rfl, ?_, ?_, ?_, ?_, ⟨?_, ?_, ?_, ?_⟩, fun j => get_bump t.events name 1 j, bump_sum t.events name 1, bump_keys t.events name 1, rfl, rfl, rfl, rfl, rfl⟩
  · cases k <;> (simp [Stats.event]; omega)
  · cases d <;> (simp [Stats.event]; omega)
  · cases d <;> cases c <;> (simp [Stats.event]; try omega)
  · cases d <;> cases m <;> (simp [Stats.event] at hv ⊢; try omega)
  all_goals simp [Stats.event]

theorem process_grown (set : Settings) (prot : Bool) (name : String) : ∀ (es : List Event) (g : ℕ → ℝ) (t : Stats), Grown t (process set prot name es g t).1 name es.length
  | [], g, t => .refl t name
  | e :: es, g, t => by
    simp only [process, List.length_cons]
    rw [Nat.add_comm]
    exact (event_grown t name e.kind (judge_tmr set prot e.kind g)).trans (process_grown set prot name es _ _)

theorem process_unprotected (set : Settings) (name : String) : ∀ (es : List Event) (g : ℕ → ℝ) (t : Stats), (process set false name es g t).1.detected = t.detected
  | [], g, t => rfl
  | e :: es, g, t => by
    simp only [process]
    rw [process_unprotected set name es]
    simp [Stats.event, judge]

/-- The regions after a number of events, each region hit by a list of them. -/
inductive Struck : List Region → List Region → ℕ → Prop
  | nil : Struck [] [] 0
  | cons {r r' : Region} {rs rs' : List Region} {es : List Event} {n : ℕ} : Hits es r.mem r'.mem → r'.prot = r.prot → Struck rs rs' n → Struck (r :: rs) (r' :: rs') (es.length + n)

theorem Struck.refl : ∀ rs : List Region, Struck rs rs 0
  | [] => .nil
  | _ :: rs => .cons (es := []) (.nil _) rfl (Struck.refl rs)

theorem hits_append {es fs : List Event} {a b c : List Byte} (h : Hits es a b) (h' : Hits fs b c) : Hits (es ++ fs) a c := by
  induction h with
  | nil m => exact h'
  | cons h1 h2 h3 ih => exact .cons h1 h2 (ih h')

theorem Struck.trans {a b : List Region} {n : ℕ} (h : Struck a b n) : ∀ {c : List Region} {m : ℕ}, Struck b c m → Struck a c (n + m) := by
  induction h with
  | nil =>
    intro c m h'
    cases h'
    exact .nil
  | @cons r r' rs rs' es n h1 h2 h3 ih =>
    intro c m h'
    cases h' with
    | @cons _ r'' _ rs'' fs m k1 k2 k3 =>
      have := Struck.cons (hits_append h1 k1) (k2.trans h2) (ih k3)
      rw [List.length_append] at this
      rw [show es.length + n + (fs.length + m) = es.length + fs.length + (n + m) by omega]
      exact this

/-- What is kept of regions: sizes and protection. -/
def shape (rs : List Region) : List (ℕ × Bool) := rs.map fun r => (r.mem.length, r.prot)

theorem hits_length {es : List Event} {a b : List Byte} (h : Hits es a b) : b.length = a.length := by
  induction h with
  | nil m => rfl
  | cons h1 h2 h3 ih => rw [ih, List.length_set]

theorem Struck.shape {a b : List Region} {n : ℕ} (h : Struck a b n) : shape b = shape a := by
  induction h with
  | nil => rfl
  | cons h1 h2 h3 ih =>
    unfold MissionSim.shape at ih ⊢
    rw [List.map_cons, List.map_cons, ih, hits_length h1, h2]

theorem effects_hits {p : Params} {mem mem' : List Byte} {ms : ℤ} {s s' : Src} {es : List Event} (h : effects p mem ms s = .ok (es, mem', s')) : Hits es mem mem' := by
  have gen : ∀ (n : ℕ) {mem mem' : List Byte} {s s' : Src} {es : List Event}, generateAll (rates p) n mem s = .ok (es, mem', s') → Hits es mem mem' := by
    intro n
    induction n with
    | zero =>
      intro mem mem' s s' es h
      simp only [generateAll, R.ok.injEq, Prod.mk.injEq] at h
      obtain ⟨rfl, rfl, -⟩ := h
      exact .nil _
    | succ n ih =>
      intro mem mem' s s' es h
      simp only [generateAll] at h
      obtain ⟨⟨e, m⟩, h1, h⟩ := bind_ok.mp h
      obtain ⟨⟨es', m', s''⟩, h2, h⟩ := bind_ok.mp h
      simp only [R.ok.injEq, Prod.mk.injEq] at h
      obtain ⟨rfl, rfl, -⟩ := h
      unfold generate at h1
      split_ifs at h1
      cases hx : mem[(s.draws 0).loc % mem.length]? with
      | none => rw [hx] at h1; exact absurd h1 (by simp)
      | some x =>
        rw [hx] at h1
        simp only [R.ok.injEq, Prod.mk.injEq] at h1
        obtain ⟨rfl, rfl⟩ := h1
        exact .cons hx (hit_effect _ _ _) (ih h2)
  unfold effects at h
  split_ifs at h
  exact gen _ h

theorem strike_spec {p : Params} {set : Settings} {ms : ℤ} : ∀ {rs rs' : List Region} {s s' : Src} {g g' : ℕ → ℝ} {t t' : Stats}, strike p set ms rs s g t = .ok (rs', s', g', t') →
    ∃ n, Struck rs rs' n ∧ Grown t t' p.name n ∧ ((∀ r ∈ rs, r.prot = false) → t'.detected = t.detected)
  | [], rs', s, s', g, g', t, t', h => by
    simp only [strike, R.ok.injEq, Prod.mk.injEq] at h
    obtain ⟨rfl, -, -, rfl⟩ := h
    exact ⟨0, .nil, .refl _ _, fun _ => rfl⟩
  | r :: rs, rs', s, s', g, g', t, t', h => by
    simp only [strike] at h
    obtain ⟨⟨es, m, s1⟩, h1, h⟩ := bind_ok.mp h
    obtain ⟨⟨rs1, s2, g1, t1⟩, h2, h⟩ := bind_ok.mp h
    simp only [R.ok.injEq, Prod.mk.injEq] at h
    obtain ⟨rfl, rfl, rfl, rfl⟩ := h
    obtain ⟨n, k1, k2, k3⟩ := strike_spec h2
    refine ⟨es.length + n, .cons (effects_hits h1) rfl k1, (process_grown set r.prot p.name es g t).trans k2, fun hu => ?_⟩
    rw [k3 fun q hq => hu q (by simp [hq]), hu r (by simp), process_unprotected]

/-- The statistics with the time of a step added. -/
noncomputable def timed (t : Stats) (name : String) (ms : ℤ) : Stats := { t with time := t.time.bump name (ms / 1000) }

/-- What one step of a run does. -/
structure Stepped (s t : Sim) (ms : ℤ) (c c' : Clock) (calls : List Params) (n : ℕ) : Prop where
  profile : t.profile = s.profile
  cfg : t.cfg = s.cfg
  moved : Moved s t
  calls : calls = if s.idx ≠ t.idx then [t.env] else []
  elapsed : c'.elapsed = c.elapsed + ms
  inEnv : c'.inEnv = ms ∨ (t.idx = s.idx ∧ c'.inEnv = c.inEnv + ms ∧ ∃ d, s.profile.durations[s.idx]? = some d ∧ ((c.inEnv : ℝ) < d * 1000 ∨ c.inEnv < 0))
  struck : Struck s.regions t.regions n
  grown : Grown (timed s.stats t.env.name ms) { t.stats with scrubs := s.stats.scrubs } t.env.name n
  unprot : (∀ r ∈ s.regions, r.prot = false) → t.stats.detected = s.stats.detected
  scrubbed : let set := s.cfg.at (level s.cfg (rates t.env).total)
    if set.scrub = true ∧ set.interval ≤ c.elapsed - c.scrubbed then t.stats.scrubs = s.stats.scrubs + 1 ∧ c'.scrubbed = c.elapsed else t.stats.scrubs = s.stats.scrubs ∧ c'.scrubbed = c.scrubbed

theorem step_spec {s t : Sim} {ms : ℤ} {c c' : Clock} {calls : List Params} (h : s.step ms c = .ok (calls, c', t)) : ∃ n, Stepped s t ms c c' calls n := by
  unfold Sim.step at h
  obtain ⟨⟨b, c1, s1⟩, h1, h⟩ := bind_ok.mp h
  simp only at h
  obtain ⟨⟨rs, src, g, st⟩, h2, h⟩ := bind_ok.mp h
  simp only [R.ok.injEq, Prod.mk.injEq] at h
  obtain ⟨rfl, rfl, rfl⟩ := h
  obtain ⟨⟨f1, f2, f3, f4, f5⟩, f6, f7, f8, f9, f10⟩ := change_frame h1
  obtain ⟨n, k1, k2, k3⟩ := strike_spec h2
  have hs : st.scrubs = s.stats.scrubs := by rw [k2.rest.2.1]; simp only; rw [f4]
  refine ⟨n, f1, f2, f7, ?_, by simp only; rw [f8], ?_, by rw [← f5]; exact k1, ?_, fun hu => ?_, ?_⟩
  · subst f6
    by_cases he : s.idx = s1.idx <;> simp [he]
  · rcases f10 with f10 | ⟨f10, f11, f12⟩
    · exact Or.inl (by simp only; rw [f10, zero_add])
    · exact Or.inr ⟨f11, by simp only; rw [f10], f12⟩
  · unfold timed
    rw [← f4]
    obtain ⟨a1, a2, a3, a4, a5, a6, a7, a8, a9, a10, a11, a12, a13, a14⟩ := k2
    exact ⟨a1, a2, a3, a4, a5, a6, a7, a8, a9, a10, rfl, a12, a13, a14⟩
  · simp only
    rw [k3 (by rw [f5]; exact hu)]
    simp only
    rw [f4]
  · have hb : scrubs (s1.cfg.at (level s1.cfg (rates s1.env).total)) c1 = decide ((s.cfg.at (level s.cfg (rates s1.env).total)).scrub = true ∧ (s.cfg.at (level s.cfg (rates s1.env).total)).interval ≤ c.elapsed - c.scrubbed) := by
      unfold scrubs
      rw [f2, f8, f9, Bool.decide_and, Bool.decide_eq_true]
    simp only
    rw [hb]
    by_cases hc : (s.cfg.at (level s.cfg (rates s1.env).total)).scrub = true ∧ (s.cfg.at (level s.cfg (rates s1.env).total)).interval ≤ c.elapsed - c.scrubbed
    · rw [if_pos hc, decide_eq_true hc]
      exact ⟨by simp [hs], by simp [f8]⟩
    · rw [if_neg hc, decide_eq_false hc]
      exact ⟨by simp [hs], by simp [f9]⟩

/-- The steps of a run, one after the other: `n` of them, with `m` events in all. -/
inductive Steps (ms : ℤ) : Sim → Clock → List Params → Sim → Clock → ℕ → ℕ → Prop
  | nil (s : Sim) (c : Clock) : Steps ms s c [] s c 0 0
  | cons {s t u : Sim} {c d e : Clock} {l l' : List Params} {n k m : ℕ} : Stepped s t ms c d l k → Steps ms t d l' u e n m → Steps ms s c (l ++ l') u e (n + 1) (k + m)

theorem loop_steps {total ms : ℤ} : ∀ {fuel : ℕ} {s t : Sim} {c d : Clock} {l : List Params}, s.loop total ms fuel c = .ok (l, d, t) →
    ∃ n m, Steps ms s c l t d n m ∧ total * 1000 ≤ d.elapsed ∧ (n ≠ 0 → d.elapsed - ms < total * 1000)
  | 0, s, t, c, d, l, h => by
    simp only [Sim.loop] at h
    split_ifs at h with hc
    simp only [R.ok.injEq, Prod.mk.injEq] at h
    obtain ⟨rfl, rfl, rfl⟩ := h
    exact ⟨0, 0, .nil _ _, by omega, by simp⟩
  | n + 1, s, t, c, d, l, h => by
    simp only [Sim.loop] at h
    split_ifs at h with hc
    · obtain ⟨⟨l1, c1, s1⟩, h1, h⟩ := bind_ok.mp h
      obtain ⟨⟨l2, c2, s2⟩, h2, h⟩ := bind_ok.mp h
      simp only [R.ok.injEq, Prod.mk.injEq] at h
      obtain ⟨rfl, rfl, rfl⟩ := h
      obtain ⟨k, hk⟩ := step_spec h1
      obtain ⟨n', m, j1, j2, j3⟩ := loop_steps h2
      refine ⟨n' + 1, k + m, .cons hk j1, j2, fun _ => ?_⟩
      by_cases h0 : n' = 0
      · subst h0
        cases j1
        rw [hk.elapsed]
        omega
      · exact j3 h0
    · simp only [R.ok.injEq, Prod.mk.injEq] at h
      obtain ⟨rfl, rfl, rfl⟩ := h
      exact ⟨0, 0, .nil _ _, by omega, by simp⟩

/-- The environment of the simulator is the one of the profile at the current place. -/
def Placed (s : Sim) : Prop := s.profile.envs[s.idx]? = some s.env

theorem Stepped.placed {s t : Sim} {ms : ℤ} {c c' : Clock} {l : List Params} {n : ℕ} (h : Stepped s t ms c c' l n) (hp : Placed s) : Placed t := by
  unfold Placed
  rw [h.profile]
  rcases h.moved with ⟨h1, h2⟩ | h1
  · rw [h1, h2]; exact hp
  · exact h1

/-- What the steps of a run do to the state. -/
structure Ran (s t : Sim) (ms : ℤ) (c d : Clock) (l : List Params) (n m : ℕ) : Prop where
  profile : t.profile = s.profile
  cfg : t.cfg = s.cfg
  placed : Placed s → Placed t
  elapsed : d.elapsed = c.elapsed + n * ms
  struck : Struck s.regions t.regions m

theorem Steps.ran {s t : Sim} {ms : ℤ} {c d : Clock} {l : List Params} {n m : ℕ} (h : Steps ms s c l t d n m) : Ran s t ms c d l n m := by
  induction h with
  | nil s c => exact ⟨rfl, rfl, id, by simp, .refl _⟩
  | cons h1 h2 ih =>
    obtain ⟨i1, i2, i3, i4, i5⟩ := ih
    refine ⟨by rw [i1, h1.profile], by rw [i2, h1.cfg], fun hp => i3 (h1.placed hp), ?_, h1.struck.trans i5⟩
    rw [i4, h1.elapsed]
    push_cast
    ring

theorem run_steps {s t : Sim} {total ms : ℤ} {l : List Params} (h : s.run total ms = .ok (l, t)) :
    ∃ u d n m, Steps ms s ⟨0, 0, 0⟩ l u d n m ∧ total * 1000 ≤ n * ms ∧ (n ≠ 0 → n * ms - ms < total * 1000) ∧ t = { u with stats := { u.stats with uptime := uptime u.stats.corrected u.stats.detected } } := by
  unfold Sim.run at h
  obtain ⟨⟨l', d, u⟩, h1, h⟩ := bind_ok.mp h
  simp only [R.ok.injEq, Prod.mk.injEq] at h
  obtain ⟨rfl, rfl⟩ := h
  obtain ⟨n, m, h2, h3, h4⟩ := loop_steps h1
  have he := h2.ran.elapsed
  simp only [zero_add] at he
  rw [he] at h3 h4
  exact ⟨u, d, n, m, h2, h3, h4, rfl⟩

theorem steps_calls {s t : Sim} {ms : ℤ} {c d : Clock} {l : List Params} {n m : ℕ} (h : Steps ms s c l t d n m) (hp : Placed s) : (∀ e ∈ l, e ∈ s.profile.envs) ∧ t.env = l.getLast?.getD s.env ∧ (s.profile.envs.length ≤ 1 → l = []) := by
  induction h with
  | nil s c => exact ⟨by simp, rfl, fun _ => rfl⟩
  | @cons s t u c d e l l' n k m h1 h2 ih =>
    have hq := h1.placed hp
    obtain ⟨i1, i2, i3⟩ := ih hq
    rw [h1.profile] at i1 i3
    have hl := h1.calls
    have ht : t.env ∈ s.profile.envs := by
      have := List.mem_of_getElem? hq
      rwa [h1.profile] at this
    refine ⟨fun e he => ?_, ?_, fun hn => ?_⟩
    · rcases List.mem_append.mp he with he | he
      · rw [hl] at he
        split_ifs at he
        · rw [List.mem_singleton.mp he]; exact ht
        · exact absurd he (by simp)
      · exact i1 e he
    · rw [i2]
      by_cases hi : s.idx = t.idx
      · have he : t.env = s.env := by
          rcases h1.moved with ⟨-, h⟩ | h
          · exact h
          · unfold Placed at hp
            rw [← hi, hp] at h
            exact (Option.some.inj h).symm
        rw [hl, if_neg (by simpa using hi), he, List.nil_append]
      · rw [hl, if_pos hi]
        cases hl' : l'.getLast? with
        | none =>
          rw [List.getLast?_eq_none_iff] at hl'
          subst hl'
          rfl
        | some x =>
          rw [List.getLast?_append, hl']
          rfl
    · have a1 : s.idx < s.profile.envs.length := (List.getElem?_eq_some_iff.mp hp).1
      have a2 : t.idx < s.profile.envs.length := by
        have := (List.getElem?_eq_some_iff.mp hq).1
        rwa [h1.profile] at this
      rw [hl, if_neg (by push Not; omega), i3 hn]
      rfl

/-- C154, announcement: the callback is called with environments of the profile only, never with a single environment, and after a run the environment of the simulator is the last one announced, or the former one if none was. -/
theorem C154_announced {s t : Sim} {total ms : ℤ} {l : List Params} (hp : Placed s) (h : s.run total ms = .ok (l, t)) :
    (∀ e ∈ l, e ∈ s.profile.envs) ∧ t.env = l.getLast?.getD s.env ∧ (s.profile.envs.length ≤ 1 → l = []) := by
  obtain ⟨u, d, n, m, h1, -, -, rfl⟩ := run_steps h
  have := steps_calls h1 hp
  exact this

/-! ### C155 -/

/-- The statistics after `names.length` steps, each spent in the environment of the name given. -/
theorem steps_time {s t : Sim} {ms : ℤ} {c d : Clock} {l : List Params} {n m : ℕ} (h : Steps ms s c l t d n m) :
    (t.stats.time.map (·.2)).sum = (s.stats.time.map (·.2)).sum + n * (ms / 1000 : ℝ) ∧
      ∃ names : List String, names.length = n ∧ (Placed s → ∀ k ∈ names, k ∈ s.profile.envs.map (·.name)) ∧ ∀ k, t.stats.time.get k = s.stats.time.get k + names.count k * (ms / 1000 : ℝ) := by
  induction h with
  | nil s c => exact ⟨by simp, [], rfl, fun _ => by simp, fun k => by simp⟩
  | @cons s t u c d e l l' n k m h1 h2 ih =>
    obtain ⟨i1, names, i2, i3, i4⟩ := ih
    have ht : t.stats.time = s.stats.time.bump t.env.name (ms / 1000) := h1.grown.rest.1
    refine ⟨?_, t.env.name :: names, by simp [i2], fun hp k hk => ?_, fun k => ?_⟩
    · rw [i1, ht, bump_sum]
      push_cast
      ring
    · have hq := h1.placed hp
      rcases List.mem_cons.mp hk with rfl | hk
      · have := List.mem_of_getElem? hq
        rw [h1.profile] at this
        exact List.mem_map.mpr ⟨_, this, rfl⟩
      · rw [← h1.profile]
        exact i3 hq k hk
    · rw [i4, ht, get_bump, List.count_cons]
      by_cases hk : k = t.env.name
      · subst hk
        simp only [if_true, beq_self_eq_true]
        push_cast
        ring
      · rw [if_neg hk, if_neg (by simpa using fun e => hk e.symm)]
        push_cast
        ring

/-- C155, time: a run takes the least number of steps that cover its duration (none if there is no duration to cover); the times in the environments grow by one step each, every step spent in an environment of the profile, and in all by the time of these steps. -/
theorem C155_time {s t : Sim} {total ms : ℤ} {l : List Params} (h : s.run total ms = .ok (l, t)) :
    ∃ n : ℕ, total * 1000 ≤ n * ms ∧ (n ≠ 0 → n * ms - ms < total * 1000) ∧ (t.stats.time.map (·.2)).sum = (s.stats.time.map (·.2)).sum + n * (ms / 1000 : ℝ) ∧
      ∃ names : List String, names.length = n ∧ (Placed s → ∀ k ∈ names, k ∈ s.profile.envs.map (·.name)) ∧ ∀ k, t.stats.time.get k = s.stats.time.get k + names.count k * (ms / 1000 : ℝ) := by
  obtain ⟨u, d, n, m, h1, h2, h3, rfl⟩ := run_steps h
  have := steps_time h1
  exact ⟨n, h2, h3, this⟩

/-- C155, single step: in a run not longer than one step, time and events are those of the environment the simulator is in afterwards, and of no other. -/
theorem C155_attributed {s t : Sim} {total ms : ℤ} {l : List Params} (h0 : 0 < total) (h1 : total * 1000 ≤ ms) (h : s.run total ms = .ok (l, t)) :
    ∃ n, t.stats.total = s.stats.total + n ∧ ∀ k, t.stats.time.get k = s.stats.time.get k + (if k = t.env.name then (ms / 1000 : ℝ) else 0) ∧ t.stats.events.get k = s.stats.events.get k + if k = t.env.name then n else 0 := by
  obtain ⟨u, d, n, m, h2, h3, h4, rfl⟩ := run_steps h
  cases h2 with
  | nil => simp only [Nat.cast_zero, zero_mul] at h3; omega
  | cons k1 k2 =>
    cases k2 with
    | nil =>
      obtain ⟨g1, g2, g3, g4, g5, g6, g7, g8, g9, g10⟩ := k1.grown
      refine ⟨_, g1, fun k => ⟨?_, g7 k⟩⟩
      have ht : u.stats.time = s.stats.time.bump u.env.name (ms / 1000) := g10.1
      have hg := get_bump s.stats.time u.env.name (ms / 1000 : ℝ) k
      rw [← ht] at hg
      exact hg
    | cons j1 j2 =>
      exfalso
      have := h4 (by omega)
      push_cast at this
      nlinarith

theorem process_rng (set : Settings) (prot : Bool) (name : String) : ∀ (es : List Event) (g : ℕ → ℝ) (t : Stats), ∃ k, (process set prot name es g t).2 = fun i => g (i + k)
  | [], g, t => ⟨0, rfl⟩
  | e :: es, g, t => by
    simp only [process]
    obtain ⟨k, hk⟩ := process_rng set prot name es (fun i => g (i + (judge set prot e.kind g).2)) (t.event name e.kind (judge set prot e.kind g).1)
    refine ⟨k + (judge set prot e.kind g).2, ?_⟩
    rw [hk]
    funext i
    rw [add_assoc]

theorem strike_rng {p : Params} {set : Settings} {ms : ℤ} : ∀ {rs rs' : List Region} {s s' : Src} {g g' : ℕ → ℝ} {t t' : Stats}, strike p set ms rs s g t = .ok (rs', s', g', t') → ∃ k, g' = fun i => g (i + k)
  | [], rs', s, s', g, g', t, t', h => by
    simp only [strike, R.ok.injEq, Prod.mk.injEq] at h
    exact ⟨0, h.2.2.1.symm⟩
  | r :: rs, rs', s, s', g, g', t, t', h => by
    simp only [strike] at h
    obtain ⟨⟨es, m, s1⟩, h1, h⟩ := bind_ok.mp h
    obtain ⟨⟨rs1, s2, g1, t1⟩, h2, h⟩ := bind_ok.mp h
    simp only [R.ok.injEq, Prod.mk.injEq] at h
    obtain ⟨rfl, rfl, rfl, rfl⟩ := h
    obtain ⟨k, hk⟩ := strike_rng h2
    obtain ⟨j, hj⟩ := process_rng set r.prot p.name es g t
    refine ⟨k + j, ?_⟩
    rw [hk]
    simp only
    rw [hj]
    funext i
    simp only [add_assoc]

theorem toLL_floor {x : ℝ} (h0 : 0 ≤ x) (h1 : x < 2 ^ 63) : toLL x = .ok ⌊x⌋ := by
  unfold toLL
  rw [if_neg (by push Not; exact ⟨h1, by norm_num; linarith⟩), if_pos h0]

theorem loop_stay {total ms : ℤ} {D : ℤ} (hm : 0 ≤ ms) : ∀ {fuel : ℕ} {s t : Sim} {c d : Clock} {l : List Params} {x : ℝ}, s.profile.durations[s.idx]? = some x → 0 ≤ x → x * 1000 < 2 ^ 63 → ⌊x * 1000⌋ = D → (∀ i, 1 / 100 ≤ s.rng i) → c.inEnv = c.elapsed → total * 1000 ≤ D → s.loop total ms fuel c = .ok (l, d, t) → l = [] ∧ t.idx = s.idx ∧ t.env = s.env
  | 0, s, t, c, d, l, x, hx, h0, h1, hD, hr, hc, ht, h => by
    simp only [Sim.loop] at h
    split_ifs at h
    simp only [R.ok.injEq, Prod.mk.injEq] at h
    obtain ⟨rfl, -, rfl⟩ := h
    exact ⟨rfl, rfl, rfl⟩
  | n + 1, s, t, c, d, l, x, hx, h0, h1, hD, hr, hc, ht, h => by
    simp only [Sim.loop] at h
    split_ifs at h with hlt
    · obtain ⟨⟨l1, c1, s1⟩, h2, h⟩ := bind_ok.mp h
      obtain ⟨⟨l2, c2, s2⟩, h3, h⟩ := bind_ok.mp h
      simp only [R.ok.injEq, Prod.mk.injEq] at h
      obtain ⟨rfl, rfl, rfl⟩ := h
      have hch : s.change c = .ok (false, c, s.next) := by
        unfold Sim.change
        rw [hx]
        simp only
        rw [toLL_floor (by positivity) h1]
        simp only [R.bind]
        rw [if_neg (by omega), if_neg (by have := hr 0; linarith)]
      unfold Sim.step at h2
      rw [hch] at h2
      simp only [R.bind] at h2
      obtain ⟨⟨rs, src, g, st⟩, h4, h2⟩ := bind_ok.mp h2
      simp only [R.ok.injEq, Prod.mk.injEq] at h2
      obtain ⟨rfl, rfl, rfl⟩ := h2
      obtain ⟨k, hk⟩ := strike_rng h4
      have hx' : s.next.profile.durations[s.next.idx]? = some x := hx
      have hg : ∀ i, 1 / 100 ≤ g i := by intro i; rw [hk]; exact hr _
      have he : c.inEnv + ms = c.elapsed + ms := by rw [hc]
      obtain ⟨k1, k2, k3⟩ := loop_stay hm (by exact hx') h0 h1 hD (by exact hg) (by exact he) ht h3
      exact ⟨by rw [k1]; rfl, k2, k3⟩
    · simp only [R.ok.injEq, Prod.mk.injEq] at h
      obtain ⟨rfl, -, rfl⟩ := h
      exact ⟨rfl, rfl, rfl⟩

/-- C155, stay: in a run that is not longer than the duration of the current environment, the environment does not change, unless one of the random numbers drawn is below 1/100. -/
theorem C155_stay {s t : Sim} {total ms : ℤ} {l : List Params} {x : ℝ} (hm : 0 ≤ ms) (hx : s.profile.durations[s.idx]? = some x) (h0 : 0 ≤ x) (h1 : x * 1000 < 2 ^ 63) (ht : total ≤ x) (hr : ∀ i, 1 / 100 ≤ s.rng i) (h : s.run total ms = .ok (l, t)) : l = [] ∧ t.idx = s.idx ∧ t.env = s.env := by
  unfold Sim.run at h
  obtain ⟨⟨l', d, u⟩, h2, h⟩ := bind_ok.mp h
  simp only [R.ok.injEq, Prod.mk.injEq] at h
  obtain ⟨rfl, rfl⟩ := h
  have := loop_stay hm hx h0 h1 rfl hr rfl (Int.le_floor.mpr (by push_cast; linarith)) h2
  exact this

/-- C155, change due: once the time in an environment has reached its duration, a new one is selected at the next step, and the time begins anew. -/
theorem C155_due {s : Sim} {c : Clock} {x : ℝ} (hx : s.profile.durations[s.idx]? = some x) (h0 : 0 ≤ x) (h1 : x * 1000 < 2 ^ 63) (hc : x * 1000 ≤ c.inEnv) {b : Bool} {t : Sim} (h : s.select = .ok (b, t)) : s.change c = .ok (b, ⟨c.elapsed, c.scrubbed, 0⟩, t) := by
  unfold Sim.change
  rw [hx]
  simp only
  rw [toLL_floor (by positivity) h1]
  simp only [R.bind]
  rw [if_pos (by have := (Int.floor_le (x * 1000)).trans hc; exact_mod_cast this), h]

/-- A simulator that can run: usable profile, an environment of it, regions that are not empty. -/
structure Ready (s : Sim) : Prop where
  usable : Usable s.profile
  idx : s.idx < s.profile.envs.length
  rate : 0 < (rates s.env).total
  regions : ∀ r ∈ s.regions, r.mem ≠ []

theorem select_ready {s : Sim} (h : Ready s) : ∃ b t, s.select = .ok (b, t) ∧ Ready t := by
  unfold Sim.select
  split_ifs with hn
  · exact ⟨_, _, rfl, h⟩
  · have hb : pick (s.rng 0) s.idx s.profile.probs 0 0 < s.profile.envs.length := by
      have := h.usable.probs
      rcases pick_spec (s.rng 0) s.idx s.profile.probs 0 0 with ⟨k, k1, k2, -, -⟩ | ⟨k1, -⟩
      · omega
      · rw [k1]; exact h.idx
    simp only
    rw [List.getElem?_eq_getElem hb]
    exact ⟨_, _, rfl, h.usable, hb, h.usable.sensible _ (List.getElem_mem _), h.regions⟩

theorem change_ready {s : Sim} (h : Ready s) (c : Clock) : ∃ b c' t, s.change c = .ok (b, c', t) ∧ Ready t := by
  have hd : s.idx < s.profile.durations.length := by rw [h.usable.durations]; exact h.idx
  obtain ⟨d0, d1⟩ := h.usable.range _ (List.getElem_mem hd)
  unfold Sim.change
  rw [List.getElem?_eq_getElem hd]
  simp only
  rw [toLL_floor (by positivity) d1]
  simp only [R.bind]
  split_ifs
  · obtain ⟨b, t, h1, h2⟩ := select_ready h
    rw [h1]
    exact ⟨_, _, _, rfl, h2⟩
  · obtain ⟨b, t, h1, h2⟩ := select_ready (s := s.next) ⟨h.usable, h.idx, h.rate, h.regions⟩
    rw [h1]
    exact ⟨_, _, _, rfl, h2⟩
  · exact ⟨_, _, _, rfl, h.usable, h.idx, h.rate, h.regions⟩

theorem strike_ready {p : Params} (hp : 0 < (rates p).total) (set : Settings) {ms : ℤ} (hm : 0 < ms) : ∀ (rs : List Region) (s : Src) (g : ℕ → ℝ) (t : Stats), (∀ r ∈ rs, r.mem ≠ []) → ∃ rs' s' g' t', strike p set ms rs s g t = .ok (rs', s', g', t') ∧ ∀ r ∈ rs', r.mem ≠ []
  | [], s, g, t, _ => ⟨[], s, g, t, rfl, by simp⟩
  | r :: rs, s, g, t, h => by
    obtain ⟨es, m, s1, h1, -, -, h2⟩ := C151_events hp (h r (by simp)) hm s
    obtain ⟨rs', s', g', t', h3, h4⟩ := strike_ready hp set hm rs s1 (process set r.prot p.name es g t).2 (process set r.prot p.name es g t).1 fun q hq => h q (by simp [hq])
    refine ⟨⟨m, r.prot⟩ :: rs', s', g', t', ?_, ?_⟩
    · simp only [strike]
      rw [h1]
      simp only [R.bind]
      rw [h3]
    · intro q hq
      rcases List.mem_cons.mp hq with rfl | hq
      · have := h r (by simp)
        rw [← List.length_pos_iff] at this ⊢
        simp only
        omega
      · exact h4 q hq

theorem step_ready {s : Sim} (h : Ready s) {ms : ℤ} (hm : 0 < ms) (c : Clock) : ∃ l c' t, s.step ms c = .ok (l, c', t) ∧ Ready t := by
  obtain ⟨b, c1, s1, h1, h2⟩ := change_ready h c
  unfold Sim.step
  rw [h1]
  simp only [R.bind]
  obtain ⟨rs, src, g, st, h3, h4⟩ := strike_ready h2.rate (s1.cfg.at (level s1.cfg (rates s1.env).total)) hm s1.regions s1.src s1.rng { s1.stats with time := s1.stats.time.bump s1.env.name (ms / 1000) } h2.regions
  rw [h3]
  exact ⟨_, _, _, rfl, h2.usable, h2.idx, h2.rate, h4⟩

theorem loop_ready {total ms : ℤ} (hm : 0 < ms) : ∀ {fuel : ℕ} {s : Sim} {c : Clock}, Ready s → total * 1000 - c.elapsed ≤ fuel → ∃ l d t, s.loop total ms fuel c = .ok (l, d, t) ∧ Ready t
  | 0, s, c, h, hf => by
    simp only [Sim.loop]
    rw [if_neg (by simp at hf; omega)]
    exact ⟨_, _, _, rfl, h⟩
  | n + 1, s, c, h, hf => by
    simp only [Sim.loop]
    split_ifs with hc
    · obtain ⟨l, c', t, h1, h2⟩ := step_ready h hm c
      obtain ⟨k, hk⟩ := step_spec h1
      obtain ⟨l', d, u, h3, h4⟩ := loop_ready (total := total) hm (fuel := n) (c := c') h2 (by rw [hk.elapsed]; push_cast at hf; omega)
      rw [h1]
      simp only [R.bind]
      rw [h3]
      exact ⟨_, _, _, rfl, h4⟩
    · exact ⟨_, _, _, rfl, h⟩

/-- C155, termination: a simulator with a usable profile and regions that are not empty can run for any time with any positive step, and again afterwards. -/
theorem C155_returns {s : Sim} (h : Ready s) (total : ℤ) {ms : ℤ} (hm : 0 < ms) : ∃ l t, s.run total ms = .ok (l, t) ∧ Ready t := by
  obtain ⟨l, d, t, h1, h2⟩ := loop_ready hm (total := total) (c := ⟨0, 0, 0⟩) h (by simp only [sub_zero]; exact Int.self_le_toNat _)
  unfold Sim.run
  rw [h1]
  exact ⟨_, _, rfl, h2.usable, h2.idx, h2.rate, h2.regions⟩

/-- C155, standard missions: a simulator of any standard mission, with any protection, whatever regions that are not empty were registered, can run. -/
theorem C155_standard (m : String) (c : Config) (rng : ℕ → ℝ) (src : Src) (regs : List (List Byte × Bool)) (hr : ∀ r ∈ regs, r.1 ≠ []) (total : ℤ) {ms : ℤ} (hm : 0 < ms) :
    ∃ l t, (regs.foldl (fun s r => s.register r.1 r.2) (Sim.new (Profile.standard m) c rng src)).run total ms = .ok (l, t) := by
  have hs := (C153_sound m).2
  have h0 : Ready (Sim.new (Profile.standard m) c rng src) := by
    refine ⟨hs.usable, List.length_pos_iff.mpr hs.envs, ?_, by simp [Sim.new]⟩
    unfold Sim.new
    simp only
    cases he : (Profile.standard m).envs with
    | nil => exact absurd he hs.envs
    | cons e es => exact hs.usable.sensible e (by rw [he]; simp)
  have key : ∀ (regs : List (List Byte × Bool)) (s : Sim), (∀ r ∈ regs, r.1 ≠ []) → Ready s → Ready (regs.foldl (fun s r => s.register r.1 r.2) s) := by
    intro regs
    induction regs with
    | nil => intro s _ h; exact h
    | cons r regs ih =>
      intro s hr h
      refine ih _ (fun q hq => hr q (by simp [hq])) ⟨h.usable, h.idx, h.rate, fun q hq => ?_⟩
      simp only [Sim.register, List.mem_append, List.mem_singleton] at hq
      rcases hq with hq | rfl
      · exact h.regions q hq
      · exact hr r (by simp)
  obtain ⟨l, t, h, -⟩ := C155_returns (key regs _ hr h0) total hm
  exact ⟨l, t, h⟩

/-- C155, violated: a step of no time is not refused: with memory registered the behaviour is undefined, and without it no number of steps is enough. -/
theorem C155_zero_violated {s : Sim} (h : Ready s) {total : ℤ} (ht : 0 < total) : (s.regions ≠ [] → s.run total 0 = .ub) ∧ (s.regions = [] → ∀ fuel, s.loop total 0 fuel ⟨0, 0, 0⟩ = .diverge) := by
  refine ⟨fun hr => ?_, fun hr fuel => ?_⟩
  · obtain ⟨b, c1, s1, h1, h2⟩ := change_ready h ⟨0, 0, 0⟩
    obtain ⟨⟨f1, f2, f3, f4, f5⟩, -⟩ := change_frame h1
    have hstep : s.step 0 ⟨0, 0, 0⟩ = .ub := by
      unfold Sim.step
      rw [h1]
      simp only [R.bind]
      cases hl : s1.regions with
      | nil => rw [f5] at hl; exact absurd hl hr
      | cons r rs =>
        simp only [strike]
        rw [C151_instant_violated]
        rfl
    obtain ⟨k, hk⟩ : ∃ k, (total * 1000).toNat = k + 1 := ⟨(total * 1000).toNat - 1, by omega⟩
    unfold Sim.run
    rw [hk]
    simp only [Sim.loop]
    rw [if_pos (by omega), hstep]
    rfl
  · have key : ∀ (fuel : ℕ) (s : Sim) (c : Clock), Ready s → s.regions = [] → c.elapsed = 0 → s.loop total 0 fuel c = .diverge := by
      intro fuel
      induction fuel with
      | zero =>
        intro s c _ _ hc
        simp only [Sim.loop]
        rw [if_pos (by omega)]
      | succ n ih =>
        intro s c h hr hc
        obtain ⟨b, c1, s1, h1, h2⟩ := change_ready h c
        obtain ⟨⟨f1, f2, f3, f4, f5⟩, -, -, f6, -⟩ := change_frame h1
        simp only [Sim.loop]
        rw [if_pos (by omega)]
        unfold Sim.step
        rw [h1]
        simp only [R.bind]
        rw [f5, hr]
        simp only [strike]
        rw [ih _ _ (by exact ⟨h2.usable, h2.idx, h2.rate, by simp⟩) (by rfl) (by simp only; omega)]
    exact key fuel s _ h hr rfl

/-- C155, violated: a profile without environments is accepted, and the first step of its run reads outside the durations. -/
theorem C155_empty_violated {p : Profile} (hp : p.durations = []) (c : Config) (rng : ℕ → ℝ) (src : Src) {total : ℤ} (ht : 0 < total) (ms : ℤ) : (Sim.new p c rng src).run total ms = .ub := by
  obtain ⟨k, hk⟩ : ∃ k, (total * 1000).toNat = k + 1 := ⟨(total * 1000).toNat - 1, by omega⟩
  unfold Sim.run
  rw [hk]
  simp only [Sim.loop]
  rw [if_pos (by omega)]
  unfold Sim.step Sim.change Sim.new
  simp only [hp]
  rfl

/-! ### C156 -/

/-- Histories of a simulator; `b` tells whether its environment was replaced by the user. -/
inductive Reach : Bool → Sim → Prop
  | new (p : Profile) (c : Config) (rng : ℕ → ℝ) (src : Src) : Reach false (Sim.new p c rng src)
  | register {b : Bool} {s : Sim} (mem : List Byte) (prot : Bool) : Reach b s → Reach b (s.register mem prot)
  | run {b : Bool} {s t : Sim} {total ms : ℤ} {l : List Params} : Reach b s → s.run total ms = .ok (l, t) → Reach b t
  | update {b : Bool} {s : Sim} (p : Params) : Reach b s → Reach true (s.update p)

/-- The books are in order. -/
structure Books (s : Sim) : Prop where
  kinds : s.stats.flips + s.stats.multis + s.stats.latches + s.stats.transients = s.stats.total
  fate : s.stats.detected + s.stats.undetected = s.stats.total
  places : (s.stats.events.map (·.2)).sum = s.stats.total
  corrected : s.stats.corrected ≤ s.stats.detected
  tmr : s.stats.tmr ≤ s.stats.detected
  sizes : s.stats.used = (s.regions.map (·.mem.length)).sum
  prot : s.stats.prot = ((s.regions.filter (·.prot)).map (·.mem.length)).sum
  split : s.stats.prot + s.stats.unprot = s.stats.used

theorem sizes_shape (rs : List Region) : (rs.map (·.mem.length)).sum = ((shape rs).map (·.1)).sum := by
  unfold shape
  rw [List.map_map]
  rfl

theorem prot_shape (rs : List Region) : ((rs.filter (·.prot)).map (·.mem.length)).sum = (((shape rs).filter (·.2)).map (·.1)).sum := by
  unfold shape
  rw [List.filter_map, List.map_map]
  rfl

theorem Stepped.books {s t : Sim} {ms : ℤ} {c c' : Clock} {l : List Params} {n : ℕ} (h : Stepped s t ms c c' l n) (hb : Books s) : Books t := by
  obtain ⟨g1, g2, g3, g4, g5, g6, g7, g8, g9, g10, g11, g12, g13, g14⟩ := h.grown
  simp only [timed] at g1 g2 g3 g4 g5 g8 g12 g13 g14
  obtain ⟨b1, b2, b3, b4, b5, b6, b7, b8⟩ := hb
  have hs := h.struck.shape
  rw [sizes_shape] at b6
  rw [prot_shape] at b7
  exact ⟨by omega, by omega, by omega, by omega, by omega, by rw [sizes_shape, hs]; omega, by rw [prot_shape, hs]; omega, by omega⟩

theorem Steps.books {s t : Sim} {ms : ℤ} {c d : Clock} {l : List Params} {n m : ℕ} (h : Steps ms s c l t d n m) (hb : Books s) : Books t := by
  induction h with
  | nil s c => exact hb
  | cons h1 h2 ih => exact ih (h1.books hb)

/-- C156, books: after any history the events counted are the sum over the kinds, the sum over the environments, and the sum of detected and undetected errors; no more errors were corrected, or voted on, than detected; the sizes counted are those of the regions registered. -/
theorem C156_books {b : Bool} {s : Sim} (h : Reach b s) : Books s := by
  induction h with
  | new p c rng src =>
    refine ⟨rfl, rfl, ?_, le_rfl, le_rfl, rfl, rfl, rfl⟩
    exact zero_sum (init_zero p.envs [] (by simp))
  | @register b s mem prot _ ih =>
    obtain ⟨b1, b2, b3, b4, b5, b6, b7, b8⟩ := ih
    refine ⟨b1, b2, b3, b4, b5, ?_, ?_, ?_⟩
    · simp [Sim.register, b6]
    · cases prot <;> simp [Sim.register, b7, List.filter_append]
    · cases prot <;> simp [Sim.register] <;> omega
  | run _ hr ih =>
    obtain ⟨u, d, n, m, h1, -, -, rfl⟩ := run_steps hr
    obtain ⟨b1, b2, b3, b4, b5, b6, b7, b8⟩ := h1.books ih
    exact ⟨b1, b2, b3, b4, b5, b6, b7, b8⟩
  | update p _ ih => exact ⟨ih.kinds, ih.fate, ih.places, ih.corrected, ih.tmr, ih.sizes, ih.prot, ih.split⟩

/-- Nothing is ever uncounted. -/
structure Mono (t t' : Stats) : Prop where
  total : t.total ≤ t'.total
  detected : t.detected ≤ t'.detected
  corrected : t.corrected ≤ t'.corrected
  undetected : t.undetected ≤ t'.undetected
  tmr : t.tmr ≤ t'.tmr
  scrubs : t.scrubs ≤ t'.scrubs
  events : ∀ k, t.events.get k ≤ t'.events.get k

theorem steps_mono {s t : Sim} {ms : ℤ} {c d : Clock} {l : List Params} {n m : ℕ} (h : Steps ms s c l t d n m) : Mono s.stats t.stats ∧ t.stats.total = s.stats.total + m ∧ ((∀ r ∈ s.regions, r.prot = false) → t.stats.detected = s.stats.detected) := by
  induction h with
  | nil s c => exact ⟨⟨le_rfl, le_rfl, le_rfl, le_rfl, le_rfl, le_rfl, fun _ => le_rfl⟩, rfl, fun _ => rfl⟩
  | @cons s t u c d e l l' n k m h1 h2 ih =>
    obtain ⟨⟨i1, i2, i3, i4, i5, i6, i7⟩, i8, i9⟩ := ih
    obtain ⟨g1, g2, g3, g4, g5, ⟨g6, g7, g8, g9⟩, g10, -⟩ := h1.grown
    simp only [timed] at g1 g6 g7 g8 g9
    have hs : s.stats.scrubs ≤ t.stats.scrubs := by
      have := h1.scrubbed
      simp only at this
      split_ifs at this <;> omega
    refine ⟨⟨by omega, by omega, by omega, by omega, by omega, by omega, fun k => le_trans ?_ (i7 k)⟩, by omega, fun hu => ?_⟩
    · have := g10 k
      simp only [timed] at this
      omega
    · have hsh := h1.struck.shape
      have hu' : ∀ r ∈ t.regions, r.prot = false := by
        intro r hr
        have : (r.mem.length, r.prot) ∈ shape t.regions := List.mem_map.mpr ⟨r, hr, rfl⟩
        rw [hsh] at this
        obtain ⟨q, hq, he⟩ := List.mem_map.mp this
        have := hu q hq
        simp only [Prod.mk.injEq] at he
        rw [← he.2, this]
      rw [i9 hu', h1.unprot hu]

/-- The chance that the error-correcting code notices an event. -/
noncomputable def noticed (k : Kind) : ℝ := if k = .flip then 98 / 100 else if k = .multi then 75 / 100 else 50 / 100

/-- **C156 (chances).** What the statistics record of an event: nothing is detected in an unprotected region; with triplication 99 % are detected, of these 95 % corrected; what it misses, or everything if it is off, goes to the error-correcting code, if on, which detects 98 % of single flips, 75 % of multiple upsets and half of the others, and corrects 95 % of the single flips it detects, but no other event. -/
theorem C156_chances (set : Settings) (name : String) (e : Event) (g : ℕ → ℝ) (t : Stats) :
    let r := fun prot => (process set prot name [e] g t).1
    ((r false).detected = t.detected ∧ (r false).corrected = t.corrected) ∧
    (set.tmr = true → g 0 < 99 / 100 → (r true).detected = t.detected + 1 ∧ (r true).tmr = t.tmr + 1 ∧ (r true).corrected = t.corrected + if g 1 < 95 / 100 then 1 else 0) ∧
    (∀ n, (set.tmr = true ∧ 99 / 100 ≤ g 0 ∧ n = 1) ∨ (set.tmr = false ∧ n = 0) →
      (r true).tmr = t.tmr ∧ (r true).detected = t.detected + (if set.ecc = true ∧ g n < noticed e.kind then 1 else 0) ∧
      (r true).corrected = t.corrected + if set.ecc = true ∧ g n < noticed e.kind ∧ e.kind = .flip ∧ g (n + 1) < 95 / 100 then 1 else 0) := by
  have hq : (k : Kind) → eccProb k = noticed k := fun k => by cases k <;> simp [eccProb, noticed] <;> norm_num
  refine ⟨by simp [process, judge, Stats.event], ?_, ?_⟩
  · intro h1 h2
    have h3 : (g 1 < 19 / 20) ↔ g 1 < 95 / 100 := by norm_num
    simp [process, judge, Stats.event, h1, h2, h3]
  · intro n hn
    have h3 : ∀ x : ℝ, (x < 19 / 20) ↔ x < 95 / 100 := by intro x; norm_num
    rcases hn with ⟨h1, h2, rfl⟩ | ⟨h1, rfl⟩
    · have h2' : ¬ g 0 < 99 / 100 := not_lt.mpr h2
      by_cases he : set.ecc = true <;> by_cases hg : g 1 < noticed e.kind <;> by_cases hk : e.kind = .flip <;> simp [process, judge, Stats.event, h1, h2', he, hq, hg, hk, h3] <;> (rw [hk] at hg; simp [hg])
    · by_cases he : set.ecc = true <;> by_cases hg : g 0 < noticed e.kind <;> by_cases hk : e.kind = .flip <;> simp [process, judge, Stats.event, h1, he, hq, hg, hk, h3] <;> (rw [hk] at hg; simp [hg])

/-- C156, unprotected memory: a run never lowers a counter, and if no region is protected it detects nothing, so corrects nothing. -/
theorem C156_run {s t : Sim} {total ms : ℤ} {l : List Params} (h : s.run total ms = .ok (l, t)) : Mono s.stats t.stats ∧ ((∀ r ∈ s.regions, r.prot = false) → t.stats.detected = s.stats.detected) := by
  obtain ⟨u, d, n, m, h1, -, -, rfl⟩ := run_steps h
  obtain ⟨⟨i1, i2, i3, i4, i5, i6, i7⟩, -, i9⟩ := steps_mono h1
  exact ⟨⟨i1, i2, i3, i4, i5, i6, i7⟩, i9⟩

/-- The names under which anything is counted are those of the profile. -/
def Named (s : Sim) : Prop := (∀ k ∈ s.stats.time.map (·.1), k ∈ s.profile.envs.map (·.name)) ∧ ∀ k ∈ s.stats.events.map (·.1), k ∈ s.profile.envs.map (·.name)

theorem Steps.named {s t : Sim} {ms : ℤ} {c d : Clock} {l : List Params} {n m : ℕ} (h : Steps ms s c l t d n m) (hp : Placed s) (hn : Named s) : Named t := by
  induction h with
  | nil s c => exact hn
  | @cons s t u c d e l l' n k m h1 h2 ih =>
    have hq := h1.placed hp
    refine ih hq ?_
    have hm : t.env.name ∈ t.profile.envs.map (·.name) := List.mem_map.mpr ⟨_, List.mem_of_getElem? hq, rfl⟩
    have g9 := h1.grown.keys
    have g10 : t.stats.time = s.stats.time.bump t.env.name (ms / 1000) := h1.grown.rest.1
    refine ⟨fun k hk => ?_, fun k hk => ?_⟩
    · rw [g10] at hk
      rcases bump_keys _ _ _ _ hk with hk | rfl
      · rw [h1.profile]; exact hn.1 k hk
      · exact hm
    · rcases g9 k hk with hk | rfl
      · rw [h1.profile]; exact hn.2 k hk
      · exact hm

theorem reach_placed {b : Bool} {s : Sim} (h : Reach b s) (hb : b = false) (hne : s.profile.envs ≠ []) : Placed s ∧ Named s := by
  induction h with
  | new p c rng src =>
    refine ⟨?_, ?_, ?_⟩
    · unfold Placed Sim.new at *
      simp only at hne ⊢
      cases he : p.envs with
      | nil => exact absurd he hne
      | cons e es => rfl
    · exact init_keys _ p.envs [] (fun e he => List.mem_map.mpr ⟨e, he, rfl⟩) (by simp)
    · exact init_keys _ p.envs [] (fun e he => List.mem_map.mpr ⟨e, he, rfl⟩) (by simp)
  | register mem prot _ ih => exact ih hb hne
  | run _ hr ih =>
    obtain ⟨u, d, n, m, h1, -, -, rfl⟩ := run_steps hr
    have hp : u.profile = _ := h1.ran.profile
    simp only [hp] at hne
    obtain ⟨i1, i2⟩ := ih hb hne
    have j1 := h1.ran.placed i1
    have j2 := h1.named i1 i2
    exact ⟨j1, j2⟩
  | update p _ ih => exact absurd hb (by simp)

/-- C156, names: as long as the user does not replace the environment, time and events are counted only under names of environments of the profile, and the environment is the one of the profile at the current place. -/
theorem C156_names {s : Sim} (h : Reach false s) (hne : s.profile.envs ≠ []) : Placed s ∧ Named s := reach_placed h rfl hne

/-! ### C157 -/

/-- C157, range: after any history the uptime lies between 0 and 1. -/
theorem C157_range {b : Bool} {s : Sim} (h : Reach b s) : 0 ≤ s.stats.uptime ∧ s.stats.uptime ≤ 1 := by
  induction h with
  | new p c rng src => simp [Sim.new, Stats.new]
  | register mem prot _ ih => exact ih
  | run hs hr ih =>
    have hb := (C156_books (Reach.run hs hr)).corrected
    obtain ⟨u, d, n, m, h1, -, -, rfl⟩ := run_steps hr
    simp only at hb ⊢
    unfold uptime
    refine ⟨by positivity, ?_⟩
    split_ifs with h0
    · rw [div_le_one (by exact_mod_cast h0)]
      exact_mod_cast hb
    · simp only [Nat.cast_one, div_one]
      have : u.stats.corrected = 0 := by omega
      rw [this]
      norm_num
  | update p _ ih => exact ih

/-- C157, value: after a run the uptime is the share of the detected errors that were corrected, if any was detected. -/
theorem C157_share {s t : Sim} {total ms : ℤ} {l : List Params} (h : s.run total ms = .ok (l, t)) (hd : 0 < t.stats.detected) : t.stats.uptime * t.stats.detected = t.stats.corrected := by
  obtain ⟨u, d, n, m, h1, -, -, rfl⟩ := run_steps h
  simp only at hd ⊢
  unfold uptime
  rw [if_pos hd]
  have : (u.stats.detected : ℝ) ≠ 0 := by exact_mod_cast hd.ne'
  field_simp

/-- C157, violated: a mission on which no error was detected, even one without a single event, has the uptime 0, the worst possible; before any run it is 1. -/
theorem C157_quiet_violated {b : Bool} {s t : Sim} {total ms : ℤ} {l : List Params} (hs : Reach b s) (h : s.run total ms = .ok (l, t)) (hd : t.stats.detected = 0) (p : Profile) (c : Config) (rng : ℕ → ℝ) (src : Src) : t.stats.uptime = 0 ∧ (Sim.new p c rng src).stats.uptime = 1 := by
  have hc := (C156_books (Reach.run hs h)).corrected
  obtain ⟨u, d, n, m, h1, -, -, rfl⟩ := run_steps h
  simp only at hd hc ⊢
  refine ⟨?_, rfl⟩
  unfold uptime
  have : u.stats.corrected = 0 := by omega
  rw [this]
  simp

/-- C157, violated: errors that went undetected do not count: with the same figures of detected and corrected errors the uptime is the same, however many were missed. -/
theorem C157_missed_violated {s s' t t' : Sim} {total ms total' ms' : ℤ} {l l' : List Params} (h : s.run total ms = .ok (l, t)) (h' : s'.run total' ms' = .ok (l', t')) (hd : t.stats.detected = t'.stats.detected) (hc : t.stats.corrected = t'.stats.corrected) : t.stats.uptime = t'.stats.uptime := by
  obtain ⟨u, d, n, m, h1, -, -, rfl⟩ := run_steps h
  obtain ⟨u', d', n', m', h1', -, -, rfl⟩ := run_steps h'
  simp only at hd hc ⊢
  rw [hd, hc]

/-! ### C158 -/

/-- The levels in order. -/
def rank : Level → ℕ
  | .low => 0
  | .medium => 1
  | .high => 2

/-- C158, level: without adaptation the level is medium; with it a higher rate never gives a lower level, rates from the high threshold on the highest, rates below both thresholds the lowest. -/
theorem C158_level (c : Config) : (c.adaptive = false → ∀ r, level c r = .medium) ∧
    (c.thMedium ≤ c.thHigh → ∀ r r', r ≤ r' → rank (level c r) ≤ rank (level c r')) ∧
    (c.adaptive = true → ∀ r, (c.thHigh ≤ r → level c r = .high) ∧ (r < c.thHigh → c.thMedium ≤ r → level c r = .medium) ∧ (r < c.thHigh → r < c.thMedium → level c r = .low)) := by
  refine ⟨fun h r => by simp [level, h], fun h r r' hr => ?_, fun h r => ⟨fun h1 => ?_, fun h1 h2 => ?_, fun h1 h2 => ?_⟩⟩
  · unfold level
    split_ifs <;> first | (simp [rank]; done) | (exfalso; linarith)
  · simp [level, h, h1]
  · simp [level, h, h1.not_ge, h2]
  · simp [level, h, h1.not_ge, h2.not_ge]

theorem select_cfg {s t : Sim} {b : Bool} (c : Config) (h : s.select = .ok (b, t)) : ({ s with cfg := c } : Sim).select = .ok (b, { t with cfg := c }) := by
  unfold Sim.select at h ⊢
  simp only at h ⊢
  split_ifs at h ⊢ with hn
  · simp only [R.ok.injEq, Prod.mk.injEq] at h
    obtain ⟨rfl, rfl⟩ := h
    rfl
  · cases he : s.profile.envs[pick (s.rng 0) s.idx s.profile.probs 0 0]? with
    | none => rw [he] at h; exact absurd h (by simp)
    | some e =>
      rw [he] at h
      simp only [R.ok.injEq, Prod.mk.injEq] at h ⊢
      obtain ⟨rfl, rfl⟩ := h
      exact ⟨rfl, rfl⟩

theorem change_cfg {s t : Sim} {k k' : Clock} {b : Bool} (c : Config) (h : s.change k = .ok (b, k', t)) : ({ s with cfg := c } : Sim).change k = .ok (b, k', { t with cfg := c }) := by
  unfold Sim.change at h ⊢
  simp only at h ⊢
  cases hd : s.profile.durations[s.idx]? with
  | none => rw [hd] at h; exact absurd h (by simp)
  | some d =>
    rw [hd] at h
    simp only at h ⊢
    obtain ⟨lim, hl, h⟩ := bind_ok.mp h
    rw [hl]
    simp only [R.bind]
    split_ifs at h ⊢ with h1 h2
    · obtain ⟨⟨b', t'⟩, hs, h⟩ := bind_ok.mp h
      simp only [R.ok.injEq, Prod.mk.injEq] at h
      obtain ⟨rfl, rfl, rfl⟩ := h
      rw [select_cfg c hs]
    · obtain ⟨⟨b', t'⟩, hs, h⟩ := bind_ok.mp h
      simp only [R.ok.injEq, Prod.mk.injEq] at h
      obtain ⟨rfl, rfl, rfl⟩ := h
      have := select_cfg c hs
      rw [show ({ s with cfg := c } : Sim).next = { s.next with cfg := c } from rfl, this]
    · simp only [R.ok.injEq, Prod.mk.injEq] at h
      obtain ⟨rfl, rfl, rfl⟩ := h
      rfl

theorem step_cfg {s t : Sim} {ms : ℤ} {k k' : Clock} {l : List Params} {c : Config} (hc : ∀ r, c.at (level c r) = s.cfg.at (level s.cfg r)) (h : s.step ms k = .ok (l, k', t)) : ({ s with cfg := c } : Sim).step ms k = .ok (l, k', { t with cfg := c }) ∧ t.cfg = s.cfg := by
  unfold Sim.step at h ⊢
  obtain ⟨⟨b, c1, s1⟩, h1, h⟩ := bind_ok.mp h
  simp only at h
  obtain ⟨⟨rs, src, g, st⟩, h2, h⟩ := bind_ok.mp h
  simp only [R.ok.injEq, Prod.mk.injEq] at h
  obtain ⟨rfl, rfl, rfl⟩ := h
  have hf := (change_frame h1).1.cfg
  rw [change_cfg c h1]
  simp only [R.bind]
  rw [hf] at h2
  rw [hc, h2, hf]
  exact ⟨rfl, rfl⟩

theorem loop_cfg {total ms : ℤ} {c c' : Config} (hc : ∀ r, c'.at (level c' r) = c.at (level c r)) : ∀ {fuel : ℕ} {s t : Sim} {k d : Clock} {l : List Params}, s.cfg = c → s.loop total ms fuel k = .ok (l, d, t) → ({ s with cfg := c' } : Sim).loop total ms fuel k = .ok (l, d, { t with cfg := c' })
  | 0, s, t, k, d, l, hs, h => by
    simp only [Sim.loop] at h ⊢
    split_ifs at h ⊢
    simp only [R.ok.injEq, Prod.mk.injEq] at h
    obtain ⟨rfl, rfl, rfl⟩ := h
    rfl
  | n + 1, s, t, k, d, l, hs, h => by
    simp only [Sim.loop] at h ⊢
    split_ifs at h ⊢ with hk
    · obtain ⟨⟨l1, c1, s1⟩, h1, h⟩ := bind_ok.mp h
      obtain ⟨⟨l2, c2, s2⟩, h2, h⟩ := bind_ok.mp h
      simp only [R.ok.injEq, Prod.mk.injEq] at h
      obtain ⟨rfl, rfl, rfl⟩ := h
      obtain ⟨j1, j2⟩ := step_cfg (c := c') (by rw [hs]; exact hc) h1
      rw [j1]
      simp only [R.bind]
      rw [loop_cfg hc (j2.trans hs) h2]
    · simp only [R.ok.injEq, Prod.mk.injEq] at h
      obtain ⟨rfl, rfl, rfl⟩ := h
      rfl

theorem run_cfg {s t : Sim} {total ms : ℤ} {l : List Params} {c : Config} (hc : ∀ r, c.at (level c r) = s.cfg.at (level s.cfg r)) (h : s.run total ms = .ok (l, t)) : ({ s with cfg := c } : Sim).run total ms = .ok (l, { t with cfg := c }) := by
  unfold Sim.run at h ⊢
  obtain ⟨⟨l', d, u⟩, h1, h⟩ := bind_ok.mp h
  simp only [R.ok.injEq, Prod.mk.injEq] at h
  obtain ⟨rfl, rfl⟩ := h
  rw [loop_cfg hc rfl h1]
  rfl

/-- C158, fixed protection: without adaptation only the settings of the medium level count: any other configuration without adaptation that has the same gives the same run. -/
theorem C158_fixed {s t : Sim} {total ms : ℤ} {l : List Params} {c : Config} (h1 : s.cfg.adaptive = false) (h2 : c.adaptive = false) (h3 : c.medium = s.cfg.medium) (h : s.run total ms = .ok (l, t)) : ({ s with cfg := c } : Sim).run total ms = .ok (l, { t with cfg := c }) := by
  refine run_cfg (fun r => ?_) h
  rw [(C158_level c).1 h2, (C158_level s.cfg).1 h1]
  exact h3

/-- C158, violated: the low threshold, the power budget and the energy costs of the protection have no effect: whatever they are, the run is the same. -/
theorem C158_low_violated {s t : Sim} {total ms : ℤ} {l : List Params} (low budget tmr ecc scrub : ℝ) (h : s.run total ms = .ok (l, t)) :
    ({ s with cfg := { s.cfg with thLow := low, budget := budget, tmrCost := tmr, eccCost := ecc, scrubCost := scrub } } : Sim).run total ms = .ok (l, { t with cfg := { s.cfg with thLow := low, budget := budget, tmrCost := tmr, eccCost := ecc, scrubCost := scrub } }) := by
  refine run_cfg (fun r => ?_) h
  have : level { s.cfg with thLow := low, budget := budget, tmrCost := tmr, eccCost := ecc, scrubCost := scrub } r = level s.cfg r := rfl
  rw [this]
  cases level s.cfg r <;> rfl

theorem rate_le {p : Params} (hs : Sensible p) (h : 0 ≤ p.shield) : (rates p).total ≤ place p * (1 + p.solar / 5) * (if p.saa then 10 else 1) := by
  rw [total_eq]
  unfold baseRate
  have h1 : Real.exp (-p.shield / 10) ≤ 1 := Real.exp_le_one_iff.mpr (by linarith)
  have h2 := place_pos hs
  have h3 := hs.solar
  have h4 : (0 : ℝ) ≤ place p * (1 + p.solar / 5) * (if p.saa then 10 else 1) := by split_ifs <;> positivity
  nlinarith

theorem standard_thresholds (m : String) : (Config.standard m).adaptive = true ∧ ((Config.standard m).thMedium = 1 / 100 ∧ (Config.standard m).thHigh = 1 / 10 ∨ m = "JUPITER" ∧ (Config.standard m).thMedium = 1 / 10 ∧ (Config.standard m).thHigh = 1) := by
  unfold Config.standard Config.default
  split_ifs with h1 h2 h3 h4 h5 <;> norm_num
  exact h5

theorem low_of {m : String} {r : ℝ} (h : r < 1 / 100) : level (Config.standard m) r = .low := by
  obtain ⟨h0, h1⟩ := standard_thresholds m
  rcases h1 with ⟨h1, h2⟩ | ⟨-, h1, h2⟩ <;> exact (((C158_level _).2.2 h0 r).2.2) (by rw [h2]; linarith) (by rw [h1]; linarith)

theorem medium_of {m : String} (hm : m ≠ "JUPITER") {r : ℝ} (h : 1 / 100 ≤ r) (h' : r < 1 / 10) : level (Config.standard m) r = .medium := by
  obtain ⟨h0, h1⟩ := standard_thresholds m
  rcases h1 with ⟨h1, h2⟩ | ⟨h1, -, -⟩
  · exact (((C158_level _).2.2 h0 r).2.1) (by rw [h2]; exact h') (by rw [h1]; exact h)
  · exact absurd h1 hm

theorem low_jupiter {r : ℝ} (h : r < 1 / 10) : level (Config.standard "JUPITER") r = .low := by
  obtain ⟨h0, h1⟩ := standard_thresholds "JUPITER"
  have : (Config.standard "JUPITER").thMedium = 1 / 10 ∧ (Config.standard "JUPITER").thHigh = 1 := by
    unfold Config.standard
    rw [if_neg (by decide), if_neg (by decide), if_neg (by decide), if_neg (by decide), if_pos rfl]
    exact ⟨rfl, rfl⟩
  exact (((C158_level _).2.2 h0 r).2.2) (by rw [this.2]; linarith) (by rw [this.1]; exact h)

theorem env_leo : missionEnv "LEO" = ⟨500, 45, 3, false, 5, "Low Earth Orbit"⟩ := by unfold missionEnv; rw [if_pos (by decide)]
theorem env_iss : missionEnv "ISS" = ⟨420, 258 / 5, 3, false, 10, "International Space Station"⟩ := by unfold missionEnv; rw [if_neg (by decide), if_pos rfl]
theorem env_geo : missionEnv "GEO" = ⟨35786, 0, 3, false, 5, "Geostationary Orbit"⟩ := by unfold missionEnv; rw [if_neg (by decide), if_neg (by decide), if_pos (by decide)]
theorem env_lunar : missionEnv "LUNAR" = ⟨384400, 0, 3, false, 3, "Lunar Mission"⟩ := by unfold missionEnv; rw [if_neg (by decide), if_neg (by decide), if_neg (by decide), if_pos (by decide)]
theorem env_mars : missionEnv "MARS" = ⟨0, 0, 3, false, 3, "Mars Mission"⟩ := by unfold missionEnv; rw [if_neg (by decide), if_neg (by decide), if_neg (by decide), if_neg (by decide), if_pos rfl]
theorem env_jupiter : missionEnv "JUPITER" = ⟨0, 0, 3, false, 20, "Jupiter Mission"⟩ := by unfold missionEnv; rw [if_neg (by decide), if_neg (by decide), if_neg (by decide), if_neg (by decide), if_neg (by decide), if_pos rfl]

theorem exp_half : 9 / 25 < Real.exp (-5 / 10) ∧ Real.exp (-5 / 10) < 16 / 25 := by
  have h1 := Real.exp_neg_one_gt_d9
  have h2 := Real.exp_neg_one_lt_d9
  have h3 : Real.exp (-5 / 10) * Real.exp (-5 / 10) = Real.exp (-1) := by rw [← Real.exp_add]; norm_num
  have h4 := Real.exp_pos (-5 / 10)
  refine ⟨?_, ?_⟩ <;> by_contra hc <;> push Not at hc <;> nlinarith

/-- C158, violated: with the standard configuration the high level is never used on the standard missions: it is low in every environment, solar flares and the intense radiation of Jupiter included, except in the anomaly, where it is medium. -/
theorem C158_high_violated (m : String) : ∀ e ∈ (Profile.standard m).envs, level (Config.standard m) (rates e).total = if e.saa then .medium else .low := by
  have hs := (C153_sound m).2.sensible
  have bound : ∀ {e : Params}, e ∈ (Profile.standard m).envs → 0 ≤ e.shield → ∀ {x : ℝ}, place e = x → e.saa = false → x * (1 + e.solar / 5) < 1 / 100 → level (Config.standard m) (rates e).total = if e.saa then .medium else .low := by
    intro e he h0 x hx hf hlt
    have := rate_le (hs e he) h0
    rw [hf, hx] at this
    simp only [Bool.false_eq_true, if_false, mul_one] at this
    rw [hf, low_of (by linarith)]
    rfl
  have hi := Real.exp_neg_one_gt_d9
  have hi' := Real.exp_neg_one_lt_d9
  obtain ⟨e1, e2⟩ := exp_half
  unfold Profile.standard at hs bound ⊢
  split_ifs at hs bound ⊢ with m1 m2 m3 m4 m5 m6
  · have hj : m ≠ "JUPITER" := by rintro rfl; revert m1; decide
    have hp : ∀ n ∈ ["Low Earth Orbit", "LEO (SAA)", "LEO (Solar Flare)"], ∀ (s : ℝ) (b : Bool), place ⟨500, 45, s, b, 5, n⟩ = 9 / 4000 := by
      intro n hn s b
      rw [place_earth]
      · norm_num [altFactor]
      · unfold Earth
        simp only
        revert n
        decide +kernel
    rw [env_leo] at hs bound ⊢
    intro e he
    have he' := he
    simp only [List.mem_cons, List.not_mem_nil, or_false] at he
    rcases he with rfl | rfl | rfl
    · exact bound he' (by norm_num) (hp _ (by simp) _ _) rfl (by norm_num)
    · simp only [anomaly, if_true]
      have : (rates ⟨500, 45, 3, true, 5, "LEO (SAA)"⟩).total = 9 / 4000 * (1 + 3 / 5) * 10 * Real.exp (-5 / 10) := by
        rw [total_eq]
        unfold baseRate
        rw [hp _ (by simp)]
        simp
      exact medium_of hj (by rw [this]; linarith) (by rw [this]; linarith)
    · exact bound he' (by simp [flare]) (hp _ (by simp) _ _) rfl (by norm_num [flare])
  · have hj : m ≠ "JUPITER" := by rintro rfl; revert m2; decide
    have hp : ∀ n ∈ ["International Space Station", "ISS (SAA)", "ISS (Solar Flare)"], ∀ (s : ℝ) (b : Bool), place ⟨420, 258 / 5, s, b, 10, n⟩ = 1 / 1000 * (71 / 50) * (118 / 75) := by
      intro n hn s b
      rw [place_earth]
      · norm_num [altFactor]
      · unfold Earth
        simp only
        revert n
        decide +kernel
    rw [env_iss] at hs bound ⊢
    intro e he
    have he' := he
    simp only [List.mem_cons, List.not_mem_nil, or_false] at he
    rcases he with rfl | rfl | rfl
    · exact bound he' (by norm_num) (hp _ (by simp) _ _) rfl (by norm_num)
    · simp only [anomaly, if_true]
      have : (rates ⟨420, 258 / 5, 3, true, 10, "ISS (SAA)"⟩).total = 1 / 1000 * (71 / 50) * (118 / 75) * (1 + 3 / 5) * 10 * Real.exp (-1) := by
        rw [total_eq]
        unfold baseRate
        rw [hp _ (by simp)]
        norm_num
      exact medium_of hj (by rw [this]; linarith) (by rw [this]; linarith)
    · exact bound he' (by simp [flare]) (hp _ (by simp) _ _) rfl (by norm_num [flare])
  · have hp : ∀ n ∈ ["Geostationary Orbit", "GEO (Solar Flare)"], ∀ (s : ℝ) (b : Bool), place ⟨35786, 0, s, b, 5, n⟩ = 1 / 1000 * (27893 / 5000) := by
      intro n hn s b
      rw [place_earth]
      · norm_num [altFactor]
      · unfold Earth
        simp only
        revert n
        decide +kernel
    rw [env_geo] at hs bound ⊢
    intro e he
    have he' := he
    simp only [List.mem_cons, List.not_mem_nil, or_false] at he
    rcases he with rfl | rfl
    · exact bound he' (by norm_num) (hp _ (by simp) _ _) rfl (by norm_num)
    · have : (rates (flare ⟨35786, 0, 3, false, 5, "Geostationary Orbit"⟩ "GEO (Solar Flare)")).total = 1 / 1000 * (27893 / 5000) * (1 + 9 / 5) * Real.exp (-5 / 10) := by
        rw [total_eq]
        unfold baseRate flare
        rw [hp _ (by simp)]
        simp
      rw [low_of (by rw [this]; linarith)]
      rfl
  · have hp : ∀ n ∈ ["Lunar Mission", "Lunar (Solar Flare)"], ∀ (s : ℝ) (b : Bool), place ⟨384400, 0, s, b, 3, n⟩ = 3 / 1000 := by
      intro n hn s b
      unfold place
      rw [if_neg (by simp only; revert n; decide +kernel), if_pos (by simp only; revert n; decide +kernel)]
    rw [env_lunar] at hs bound ⊢
    intro e he
    have he' := he
    simp only [List.mem_cons, List.not_mem_nil, or_false] at he
    rcases he with rfl | rfl
    · exact bound he' (by norm_num) (hp _ (by simp) _ _) rfl (by norm_num)
    · exact bound he' (by simp [flare]) (hp _ (by simp) _ _) rfl (by norm_num [flare])
  · have hp : ∀ n ∈ ["Mars Mission", "Mars (Solar Flare)", "Mars (Dust Storm)"], ∀ (s d : ℝ) (b : Bool), place ⟨0, 0, s, b, d, n⟩ = 2 / 1000 := by
      intro n hn s d b
      unfold place
      rw [if_pos (by simp only; revert n; decide +kernel)]
    rw [env_mars] at hs bound ⊢
    intro e he
    have he' := he
    simp only [List.mem_cons, List.not_mem_nil, or_false] at he
    rcases he with rfl | rfl | rfl
    · exact bound he' (by norm_num) (hp _ (by simp) _ _ _) rfl (by norm_num)
    · exact bound he' (by simp [flare]) (hp _ (by simp) _ _ _) rfl (by norm_num [flare])
    · exact bound he' (by norm_num) (hp _ (by simp) _ _ _) rfl (by norm_num)
  · have hp : ∀ n ∈ ["Jupiter Mission", "Jupiter (Intense Radiation)"], ∀ (s d : ℝ) (b : Bool), place ⟨0, 0, s, b, d, n⟩ = 1 / 100 := by
      intro n hn s d b
      unfold place
      rw [if_neg (by simp only; revert n; decide +kernel), if_neg (by simp only; revert n; decide +kernel), if_pos (by simp only; revert n; decide +kernel)]
    rw [env_jupiter] at hs ⊢
    subst m6
    intro e he
    have he' := he
    simp only [List.mem_cons, List.not_mem_nil, or_false] at he
    rcases he with rfl | rfl
    · have := rate_le (hs _ he') (by norm_num)
      rw [hp _ (by simp)] at this
      norm_num at this
      rw [low_jupiter (by linarith)]
      rfl
    · have := rate_le (hs _ he') (by norm_num)
      rw [hp _ (by simp)] at this
      norm_num at this
      rw [low_jupiter (by linarith)]
      rfl
  · have hp : ∀ (s : ℝ) (b : Bool), place ⟨500, 45, s, b, 5, "Generic Mission (Normal)"⟩ = 9 / 4000 := by
      intro s b
      rw [place_earth]
      · norm_num [altFactor]
      · unfold Earth
        simp only
        decide +kernel
    rw [env_leo] at hs bound ⊢
    intro e he
    have he' := he
    simp only [List.mem_cons, List.not_mem_nil, or_false] at he
    subst he
    exact bound he' (by norm_num) (hp _ _) rfl (by norm_num)

/-! ### C159 -/

theorem steps_scrub_le {s t : Sim} {ms I : ℤ} {c d : Clock} {l : List Params} {n m : ℕ} (hm : 0 ≤ ms) (hI : ∀ v, (s.cfg.at v).scrub = true → I ≤ (s.cfg.at v).interval) (h : Steps ms s c l t d n m) (hc : c.scrubbed ≤ c.elapsed) :
    ((t.stats.scrubs : ℤ) - s.stats.scrubs) * I ≤ d.scrubbed - c.scrubbed ∧ (n ≠ 0 → d.scrubbed ≤ d.elapsed - ms) := by
  induction h with
  | nil s c => simp
  | @cons s t u c d e l l' n k m h1 h2 ih =>
    have hb := h1.scrubbed
    have he := h1.elapsed
    simp only at hb
    have hd : d.scrubbed ≤ c.elapsed ∧ ((t.stats.scrubs : ℤ) - s.stats.scrubs) * I ≤ d.scrubbed - c.scrubbed := by
      split_ifs at hb with hif
      · have := hI _ hif.1
        rw [hb.1, hb.2]
        push_cast
        constructor
        · omega
        · have := hif.2
          rw [add_sub_cancel_left, one_mul]
          omega
      · rw [hb.1, hb.2]
        simp [hc]
    obtain ⟨i1, i2⟩ := ih (by rw [h1.cfg]; exact hI) (by omega)
    refine ⟨by linarith [hd.2], fun _ => ?_⟩
    by_cases hn : n = 0
    · subst hn
      cases h2
      omega
    · exact i2 hn

theorem steps_scrub_ge {s t : Sim} {ms I : ℤ} {c d : Clock} {l : List Params} {n m : ℕ} (hI : ∀ v, (s.cfg.at v).scrub = true ∧ (s.cfg.at v).interval ≤ I) (h0 : 0 ≤ I) (h : Steps ms s c l t d n m) (hc : c.elapsed - c.scrubbed ≤ I + ms) :
    d.scrubbed - c.scrubbed ≤ ((t.stats.scrubs : ℤ) - s.stats.scrubs) * (I + ms) ∧ d.elapsed - d.scrubbed ≤ I + ms := by
  induction h with
  | nil s c => simp [hc]
  | @cons s t u c d e l l' n k m h1 h2 ih =>
    have hb := h1.scrubbed
    have he := h1.elapsed
    simp only at hb
    have hd : d.scrubbed - c.scrubbed ≤ ((t.stats.scrubs : ℤ) - s.stats.scrubs) * (I + ms) ∧ d.elapsed - d.scrubbed ≤ I + ms := by
      split_ifs at hb with hif
      · rw [hb.1, hb.2]
        push_cast
        rw [add_sub_cancel_left, one_mul]
        omega
      · have hv := hI (level s.cfg (rates t.env).total)
        rw [not_and] at hif
        have := hif hv.1
        rw [hb.1, hb.2]
        simp only [sub_self, zero_mul, le_refl, true_and]
        omega
    obtain ⟨i1, i2⟩ := ih (by rw [h1.cfg]; exact hI) hd.2
    refine ⟨by linarith [hd.1], i2⟩

/-- C159, scrubbing: if wherever scrubbing is enabled the interval is at least `I`, a run never scrubs more often than the intervals that fit in it; if it is enabled everywhere, with intervals of at most `I`, never less often than once in `I` and a step. -/
theorem C159_scrubbing {s t : Sim} {total ms I : ℤ} {l : List Params} (ht : 0 < total) (hm : 0 < ms) (h0 : 0 ≤ I) (h : s.run total ms = .ok (l, t)) :
    ((∀ v, (s.cfg.at v).scrub = true → I ≤ (s.cfg.at v).interval) → ((t.stats.scrubs : ℤ) - s.stats.scrubs) * I < total * 1000) ∧
    ((∀ v, (s.cfg.at v).scrub = true ∧ (s.cfg.at v).interval ≤ I) → total * 1000 ≤ ((t.stats.scrubs : ℤ) - s.stats.scrubs + 1) * (I + ms)) ∧
    ((∀ v, (s.cfg.at v).scrub = false) → t.stats.scrubs = s.stats.scrubs) := by
  obtain ⟨u, d, n, m, h1, h2, h3, rfl⟩ := run_steps h
  have he := h1.ran.elapsed
  simp only [zero_add] at he
  refine ⟨fun hI => ?_, fun hI => ?_, fun hI => ?_⟩
  · obtain ⟨i1, i2⟩ := steps_scrub_le hm.le hI h1 le_rfl
    simp only [sub_zero] at i1
    have hn : n ≠ 0 := by
      rintro rfl
      simp only [Nat.cast_zero, zero_mul] at h2
      omega
    have := i2 hn
    have := h3 hn
    simp only
    omega
  · obtain ⟨i1, i2⟩ := steps_scrub_ge hI h0 h1 (by simp only; omega)
    simp only [sub_zero] at i1
    simp only
    rw [add_mul, one_mul]
    omega
  · have key : ∀ {s t : Sim} {c d : Clock} {l : List Params} {n m : ℕ}, Steps ms s c l t d n m → (∀ v, (s.cfg.at v).scrub = false) → t.stats.scrubs = s.stats.scrubs := by
      intro s t c d l n m h
      induction h with
      | nil s c => intro _; rfl
      | cons h1 h2 ih =>
        intro hI
        rw [ih (by rw [h1.cfg]; exact hI)]
        have hb := h1.scrubbed
        simp only at hb
        rw [hI] at hb
        simp only [Bool.false_eq_true, false_and, if_false] at hb
        exact hb.1
    have := key h1 hI
    exact this

/-- C159, memory: a run changes the memory of the regions by events, each of which changes one byte of its region as its kind says, and by nothing else; their number is the number counted; sizes and protection stay. -/
theorem C159_memory {s t : Sim} {total ms : ℤ} {l : List Params} (h : s.run total ms = .ok (l, t)) : ∃ n, Struck s.regions t.regions n ∧ t.stats.total = s.stats.total + n ∧ shape t.regions = shape s.regions := by
  obtain ⟨u, d, n, m, h1, h2, h3, rfl⟩ := run_steps h
  have hs := h1.ran.struck
  have ht := (steps_mono h1).2.1
  exact ⟨m, hs, ht, hs.shape⟩

theorem strike_alike {p : Params} {set set' : Settings} {ms : ℤ} : ∀ {rs qs rs' qs' : List Region} {s s' r' : Src} {g g' f f' : ℕ → ℝ} {t t' u u' : Stats}, rs.map (·.mem) = qs.map (·.mem) → strike p set ms rs s g t = .ok (rs', s', g', t') → strike p set' ms qs s f u = .ok (qs', r', f', u') → rs'.map (·.mem) = qs'.map (·.mem) ∧ s' = r'
  | [], [], rs', qs', s, s', r', g, g', f, f', t, t', u, u', _, h, h' => by
    simp only [strike, R.ok.injEq, Prod.mk.injEq] at h h'
    obtain ⟨rfl, rfl, -⟩ := h
    obtain ⟨rfl, rfl, -⟩ := h'
    exact ⟨rfl, rfl⟩
  | [], _ :: _, rs', qs', s, s', r', g, g', f, f', t, t', u, u', hm, h, h' => by simp at hm
  | _ :: _, [], rs', qs', s, s', r', g, g', f, f', t, t', u, u', hm, h, h' => by simp at hm
  | r :: rs, q :: qs, rs', qs', s, s', r', g, g', f, f', t, t', u, u', hm, h, h' => by
    simp only [List.map_cons, List.cons.injEq] at hm
    simp only [strike] at h h'
    obtain ⟨⟨es, m, s1⟩, h1, h⟩ := bind_ok.mp h
    obtain ⟨⟨rs1, s2, g1, t1⟩, h2, h⟩ := bind_ok.mp h
    obtain ⟨⟨es', m', s1'⟩, h1', h'⟩ := bind_ok.mp h'
    obtain ⟨⟨rs1', s2', g1', t1'⟩, h2', h'⟩ := bind_ok.mp h'
    simp only [R.ok.injEq, Prod.mk.injEq] at h h'
    obtain ⟨rfl, rfl, rfl, rfl⟩ := h
    obtain ⟨rfl, rfl, rfl, rfl⟩ := h'
    rw [hm.1, h1'] at h1
    simp only [R.ok.injEq, Prod.mk.injEq] at h1
    obtain ⟨rfl, rfl, rfl⟩ := h1
    obtain ⟨k1, k2⟩ := strike_alike hm.2 h2 h2'
    exact ⟨by simp only [List.map_cons]; rw [k1], k2⟩

/-- Two simulators in the same environment, of profiles with no other, with the same memory and the same events to come. -/
structure Alike (s s' : Sim) : Prop where
  single : s.profile.envs.length ≤ 1
  single' : s'.profile.envs.length ≤ 1
  env : s.env = s'.env
  src : s.src = s'.src
  mem : s.regions.map (·.mem) = s'.regions.map (·.mem)

theorem change_single {s t : Sim} {c c' : Clock} {b : Bool} (hl : s.profile.envs.length ≤ 1) (h : s.change c = .ok (b, c', t)) : t.env = s.env ∧ c'.elapsed = c.elapsed ∧ Same s t := by
  obtain ⟨f1, -, -, f2, -⟩ := change_frame h
  refine ⟨?_, f2, f1⟩
  have hsel : ∀ {r : Sim}, r.profile.envs.length ≤ 1 → r.select = .ok (false, r) := by
    intro r hr
    unfold Sim.select
    rw [if_pos hr]
  unfold Sim.change at h
  cases hd : s.profile.durations[s.idx]? with
  | none => rw [hd] at h; exact absurd h (by simp)
  | some d =>
    rw [hd] at h
    simp only at h
    obtain ⟨lim, -, h⟩ := bind_ok.mp h
    rw [hsel hl, hsel (r := s.next) hl] at h
    simp only [R.bind] at h
    split_ifs at h <;> (simp only [R.ok.injEq, Prod.mk.injEq] at h; obtain ⟨-, -, rfl⟩ := h; rfl)

theorem loop_alike {total ms : ℤ} : ∀ {fuel : ℕ} {s s' t t' : Sim} {c c' d d' : Clock} {l l' : List Params}, Alike s s' → c.elapsed = c'.elapsed → s.loop total ms fuel c = .ok (l, d, t) → s'.loop total ms fuel c' = .ok (l', d', t') → t.regions.map (·.mem) = t'.regions.map (·.mem)
  | 0, s, s', t, t', c, c', d, d', l, l', ha, hc, h, h' => by
    simp only [Sim.loop] at h h'
    split_ifs at h h'
    simp only [R.ok.injEq, Prod.mk.injEq] at h h'
    rw [← h.2.2, ← h'.2.2]
    exact ha.mem
  | n + 1, s, s', t, t', c, c', d, d', l, l', ha, hc, h, h' => by
    simp only [Sim.loop] at h h'
    rw [← hc] at h'
    split_ifs at h h' with hk
    · obtain ⟨⟨l1, c1, s1⟩, h1, h⟩ := bind_ok.mp h
      obtain ⟨⟨l2, c2, s2⟩, h2, h⟩ := bind_ok.mp h
      obtain ⟨⟨l1', c1', s1'⟩, h1', h'⟩ := bind_ok.mp h'
      obtain ⟨⟨l2', c2', s2'⟩, h2', h'⟩ := bind_ok.mp h'
      simp only [R.ok.injEq, Prod.mk.injEq] at h h'
      obtain ⟨rfl, rfl, rfl⟩ := h
      obtain ⟨rfl, rfl, rfl⟩ := h'
      have e1 := (step_spec h1).choose_spec.elapsed
      have e2 := (step_spec h1').choose_spec.elapsed
      refine loop_alike (s := s1) (s' := s1') ?_ (by rw [e1, e2, hc]) h2 h2'
      unfold Sim.step at h1 h1'
      obtain ⟨⟨b, k, u⟩, j1, h1⟩ := bind_ok.mp h1
      obtain ⟨⟨b', k', u'⟩, j1', h1'⟩ := bind_ok.mp h1'
      simp only at h1 h1'
      obtain ⟨⟨rs, src, g, st⟩, j2, h1⟩ := bind_ok.mp h1
      obtain ⟨⟨rs', src', g', st'⟩, j2', h1'⟩ := bind_ok.mp h1'
      simp only [R.ok.injEq, Prod.mk.injEq] at h1 h1'
      obtain ⟨-, -, rfl⟩ := h1
      obtain ⟨-, -, rfl⟩ := h1'
      obtain ⟨a1, -, a2, a3, a4, a5, a6⟩ := change_single ha.single j1
      obtain ⟨b1, -, b2, b3, b4, b5, b6⟩ := change_single ha.single' j1'
      have hmm : u.regions.map (·.mem) = u'.regions.map (·.mem) := by rw [a6, b6, ha.mem]
      have hee : u.env = u'.env := by rw [a1, b1, ha.env]
      have hss : u.src = u'.src := by rw [a4, b4, ha.src]
      rw [hee, hss] at j2
      obtain ⟨k1, k2⟩ := strike_alike hmm j2 j2'
      exact ⟨by simp only; rw [a2]; exact ha.single, by simp only; rw [b2]; exact ha.single', hee, k2, k1⟩
    · simp only [R.ok.injEq, Prod.mk.injEq] at h h'
      rw [← h.2.2, ← h'.2.2]
      exact ha.mem

/-- C159, violated: protection protects nothing: of two simulators of a mission in a single environment, with the same memory and the same events to come, whatever is protected, whatever protection is configured and whatever is counted as corrected, the memory after the run is the same. -/
theorem C159_protection_violated {s s' t t' : Sim} {total ms : ℤ} {l l' : List Params} (ha : Alike s s') (h : s.run total ms = .ok (l, t)) (h' : s'.run total ms = .ok (l', t')) : t.regions.map (·.mem) = t'.regions.map (·.mem) := by
  unfold Sim.run at h h'
  obtain ⟨⟨l1, d, u⟩, h1, h⟩ := bind_ok.mp h
  obtain ⟨⟨l1', d', u'⟩, h1', h'⟩ := bind_ok.mp h'
  simp only [R.ok.injEq, Prod.mk.injEq] at h h'
  rw [← h.2, ← h'.2]
  have := loop_alike ha rfl h1 h1'
  exact this

/-- A mission of a name that is not known, with the default protection, one protected byte, and a flip of bit 0 in each step. -/
noncomputable def demo : Sim := (Sim.new (Profile.standard "X") Config.default (fun _ => 1 / 2) ⟨fun _ => 1, fun _ => ⟨0, 0, 0, 0⟩⟩).register [0#8] true

/-- The only environment of `demo`. -/
noncomputable def demoEnv : Params := { missionEnv "LEO" with name := "Generic Mission (Normal)" }

theorem demo_profile : Profile.standard "X" = ⟨"X", [demoEnv], [3600], [1]⟩ := by
  unfold Profile.standard
  rw [if_neg (by decide), if_neg (by decide), if_neg (by decide), if_neg (by decide), if_neg (by decide), if_neg (by decide)]
  rfl

theorem demo_cfg : Config.standard "X" = Config.default := (C153_unknown_violated (m := "X") (by decide)).2.1

theorem demo_eq : demo = ⟨⟨"X", [demoEnv], [3600], [1]⟩, Config.default, demoEnv, 0, fun _ => 1 / 2, ⟨fun _ => 1, fun _ => ⟨0, 0, 0, 0⟩⟩, ⟨0, 0, 0, 0, 0, 0, 0, 0, [("Generic Mission (Normal)", 0)], [("Generic Mission (Normal)", 0)], 0, 0, 1, 1, 1, 0⟩, [⟨[0#8], true⟩]⟩ := by
  unfold demo
  rw [demo_profile]
  rfl

theorem demo_rate : 0 < (rates demoEnv).total := by
  have := (C153_sound "X").2.usable.sensible
  rw [demo_profile] at this
  exact this _ (by simp)

theorem demo_level : level Config.default (rates demoEnv).total = .low := by
  have := C158_high_violated "X" demoEnv (by rw [demo_profile]; simp)
  rw [demo_cfg] at this
  have hs : demoEnv.saa = false := (C150_missions "LEO").2.1
  rw [hs] at this
  exact this

theorem demo_effects : effects demoEnv [0#8] 1000 ⟨fun _ => 1, fun _ => ⟨0, 0, 0, 0⟩⟩ = .ok ([⟨.flip, 0, 1⟩], [1#8], ⟨fun _ => 1, fun _ => ⟨0, 0, 0, 0⟩⟩) := by
  have hr := demo_rate
  have hk : kindOf (rates demoEnv) 0 = .flip := by
    unfold kindOf
    simp only
    rw [if_pos]
    rw [zero_mul]
    have := total_eq demoEnv
    show 0 < baseRate demoEnv * (4 / 5)
    linarith
  unfold effects
  rw [if_neg (by push Not; push_cast; linarith)]
  show generateAll (rates demoEnv) 1 [0#8] _ = _
  simp only [generateAll, generate, Src.count]
  rw [if_neg (by linarith)]
  simp only [hk, R.bind, List.length_singleton, Nat.mod_one, List.getElem?_cons_zero, hit, Src.draw, List.set_cons_zero]
  rfl

theorem loop_succ (total ms : ℤ) (n : ℕ) (c : Clock) (s : Sim) : s.loop total ms (n + 1) c = if c.elapsed < total * 1000 then (s.step ms c).bind fun r => (r.2.2.loop total ms n r.2.1).bind fun q => .ok (r.1 ++ q.1, q.2) else .ok ([], c, s) := rfl

theorem loop_stop {total ms : ℤ} {c : Clock} {s : Sim} (n : ℕ) (h : ¬ c.elapsed < total * 1000) : s.loop total ms n c = .ok ([], c, s) := by
  cases n with
  | zero => simp only [Sim.loop]; rw [if_neg h]
  | succ n => rw [loop_succ, if_neg h]

/-- The state of `demo` after a step in which the flip was counted as corrected. -/
theorem demo_run : ∃ t, demo.run 1 1000 = .ok ([], t) ∧ t.stats.total = 1 ∧ t.stats.detected = 1 ∧ t.stats.corrected = 1 ∧ t.stats.uptime = 1 ∧ t.regions = [⟨[1#8], true⟩] := by
  have hj : ∀ g : ℕ → ℝ, (∀ i, g i = 1 / 2) → judge Config.default.low true .flip g = (⟨true, true, false⟩, 2) := by
    intro g hg
    unfold judge Config.default eccProb
    simp only [hg]
    norm_num
  have hc : demo.change ⟨0, 0, 0⟩ = .ok (false, ⟨0, 0, 0⟩, demo.next) := by
    unfold Sim.change
    have hd : demo.profile.durations[demo.idx]? = some 3600 := by rw [demo_eq]; rfl
    have hr : demo.rng 0 = 1 / 2 := by rw [demo_eq]
    rw [hd]
    simp only
    rw [toLL_floor (by norm_num) (by norm_num)]
    simp only [R.bind]
    rw [if_neg (by push Not; rw [Int.lt_floor_iff]; norm_num), if_neg (by rw [hr]; norm_num)]
  have hst : ∃ l c t, demo.step 1000 ⟨0, 0, 0⟩ = .ok (l, c, t) ∧ l = [] ∧ c.elapsed = 1000 ∧ t.stats.total = 1 ∧ t.stats.detected = 1 ∧ t.stats.corrected = 1 ∧ t.regions = [⟨[1#8], true⟩] := by
    unfold Sim.step
    rw [hc]
    simp only [R.bind]
    have hn : demo.next = ⟨⟨"X", [demoEnv], [3600], [1]⟩, Config.default, demoEnv, 0, fun _ => 1 / 2, ⟨fun _ => 1, fun _ => ⟨0, 0, 0, 0⟩⟩, ⟨0, 0, 0, 0, 0, 0, 0, 0, [("Generic Mission (Normal)", 0)], [("Generic Mission (Normal)", 0)], 0, 0, 1, 1, 1, 0⟩, [⟨[0#8], true⟩]⟩ := by rw [demo_eq]; rfl
    rw [hn]
    simp only [strike]
    rw [demo_effects, demo_level]
    simp only [R.bind, process, Config.at]
    rw [hj _ fun _ => rfl]
    exact ⟨_, _, _, rfl, rfl, rfl, rfl, rfl, rfl, rfl⟩
  obtain ⟨l, c, t, h1, rfl, h3, h4, h5, h6, h7⟩ := hst
  refine ⟨{ t with stats := { t.stats with uptime := uptime t.stats.corrected t.stats.detected } }, ?_, h4, h5, h6, ?_, h7⟩
  · unfold Sim.run
    show R.bind (demo.loop 1 1000 (999 + 1) ⟨0, 0, 0⟩) _ = _
    rw [loop_succ, if_pos (by norm_num), h1]
    simp only [R.bind]
    rw [loop_stop _ (by rw [h3]; norm_num)]
    rfl
  · simp only
    rw [h5, h6]
    norm_num [uptime]

/-- C159, violated: an error counted as corrected is not corrected: after this mission all events were detected and corrected and the uptime is 1, but the byte of the protected region is still wrong. -/
theorem C159_corrected_violated : Reach false demo ∧ demo.regions = [⟨[0#8], true⟩] ∧ ∃ t, demo.run 1 1000 = .ok ([], t) ∧ t.stats.total = 1 ∧ t.stats.corrected = 1 ∧ t.stats.uptime = 1 ∧ t.regions = [⟨[1#8], true⟩] := by
  obtain ⟨t, h1, h2, -, h3, h4, h5⟩ := demo_run
  exact ⟨(Reach.new _ _ _ _).register _ _, by rw [demo_eq], t, h1, h2, h3, h4, h5⟩

/-! ### Cases -/

theorem demo_ready : Ready demo := by
  rw [demo_eq]
  refine ⟨?_, by simp, demo_rate, by simp⟩
  have := (C153_sound "X").2.usable
  rwa [demo_profile] at this

theorem demo_placed : Placed demo := by
  unfold Placed
  rw [demo_eq]
  rfl

/-- A mission around Earth whose next number selects the anomaly. -/
noncomputable def demo3 : Sim := Sim.new (Profile.standard "LEO") (Config.standard "LEO") (fun _ => 9 / 10) ⟨fun _ => 0, fun _ => ⟨0, 0, 0, 0⟩⟩

theorem demo3_profile : Profile.standard "LEO" = ⟨"LEO", [missionEnv "LEO", anomaly (missionEnv "LEO") "LEO (SAA)", flare (missionEnv "LEO") "LEO (Solar Flare)"], [5400, 600, 300], [4 / 5, 3 / 20, 1 / 20]⟩ := by
  unfold Profile.standard
  rw [if_pos (by decide)]

/-- C153: the standard profile of low Earth orbit has its three environments, the last one a flare. -/
example : (Profile.standard "LEO").envs.length = 3 ∧ Sound (Profile.standard "LEO") := ⟨by rw [demo3_profile]; rfl, (C153_sound "LEO").2⟩

/-- C154: the number 9/10 selects the anomaly, which is another environment than the first. -/
example : ∃ t, demo3.select = .ok (true, t) ∧ t.env.saa = true := by
  have hp : demo3.profile = Profile.standard "LEO" := rfl
  have h := C154_select (s := demo3) (k := 1) (e := anomaly (missionEnv "LEO") "LEO (SAA)") (by rw [hp, demo3_profile]; norm_num) (by rw [hp]; exact fun q hq => ((C153_sound "LEO").2.chance q hq).le) (by rw [hp, demo3_profile]; norm_num [demo3, Sim.new]) (by rw [hp, demo3_profile]; norm_num [demo3, Sim.new]) (by rw [hp, demo3_profile]; rfl)
  obtain ⟨t, h1, h2, h3, -⟩ := h
  exact ⟨t, h1, by rw [h3]; rfl⟩

/-- C154: the hypotheses of completeness hold for every standard profile. -/
example : ∃ k e, (demo3.profile.probs.take k).sum ≤ demo3.rng 0 ∧ demo3.rng 0 < (demo3.profile.probs.take (k + 1)).sum ∧ demo3.profile.envs[k]? = some e := by
  have hp : demo3.profile = Profile.standard "LEO" := rfl
  exact C154_total (by rw [hp, demo3_profile]; norm_num) (by rw [hp]; exact (C153_sound "LEO").2.probs) (by rw [hp]; exact (C153_sound "LEO").2.sum) (by norm_num [demo3, Sim.new]) (by norm_num [demo3, Sim.new])

/-- C154: a profile with a probability too many. -/
example : (Sim.new ⟨"p", [missionEnv "LEO", missionEnv "GEO"], [1, 1], [1 / 4, 1 / 4, 1 / 2]⟩ Config.default (fun _ => 3 / 4) ⟨fun _ => 0, fun _ => ⟨0, 0, 0, 0⟩⟩).select = .ub := by
  refine C154_surplus_violated (k := 2) (by simp [Sim.new]) (fun q hq => ?_) (by simp [Sim.new]) (by norm_num [Sim.new]) (by norm_num [Sim.new])
  simp only [Sim.new, List.mem_cons, List.not_mem_nil, or_false] at hq
  rcases hq with rfl | rfl | rfl <;> norm_num

/-- C154, C155: a run of the demonstration announces nothing and takes one step of one second. -/
example : ∃ t, demo.run 1 1000 = .ok ([], t) ∧ t.env = demo.env ∧ t.stats.time.get "Generic Mission (Normal)" = 1 := by
  obtain ⟨t, h, -⟩ := demo_run
  refine ⟨t, h, (C154_announced demo_placed h).2.1, ?_⟩
  obtain ⟨n, -, h1⟩ := C155_attributed (by norm_num) (by norm_num) h
  have he : t.env.name = "Generic Mission (Normal)" := by
    rw [(C154_announced demo_placed h).2.1, demo_eq]
    rfl
  have h0 : demo.stats.time.get "Generic Mission (Normal)" = 0 := by rw [demo_eq]; simp [Table.get]
  rw [(h1 _).1, h0, he]
  norm_num

/-- C155: a run of any length in the demonstration returns, and within its hour the environment stays. -/
example : ∃ l t, demo.run 3600 1000 = .ok (l, t) ∧ l = [] ∧ t.idx = 0 := by
  obtain ⟨l, t, h, -⟩ := C155_returns demo_ready 3600 (ms := 1000) (by norm_num)
  have := C155_stay (x := 3600) (by norm_num) (by rw [demo_eq]; rfl) (by norm_num) (by norm_num) (by norm_num) (by rw [demo_eq]; intro i; norm_num) h
  exact ⟨l, t, h, this.1, by rw [this.2.1, demo_eq]⟩

/-- C155: all standard missions return. -/
example : ∃ l t, ([([0#8, 1#8], true), ([7#8], false)].foldl (fun s r => s.register r.1 r.2) (Sim.new (Profile.standard "MARS") (Config.standard "MARS") (fun _ => 0) ⟨fun i => i, fun _ => ⟨0, 3, 1, 4⟩⟩)).run 86400 1000 = .ok (l, t) := C155_standard "MARS" _ _ _ _ (by simp) _ (by norm_num)

/-- C155: the step 0. -/
example : demo.run 1 0 = .ub := (C155_zero_violated demo_ready (by norm_num)).1 (by rw [demo_eq]; simp)

/-- C155: a change that is due. -/
example : ∃ t, demo3.change ⟨5400000, 0, 5400000⟩ = .ok (true, ⟨5400000, 0, 0⟩, t) := by
  have hp : demo3.profile = Profile.standard "LEO" := rfl
  obtain ⟨t, h1, -⟩ := C154_select (s := demo3) (k := 1) (e := anomaly (missionEnv "LEO") "LEO (SAA)") (by rw [hp, demo3_profile]; norm_num) (by rw [hp]; exact fun q hq => ((C153_sound "LEO").2.chance q hq).le) (by rw [hp, demo3_profile]; norm_num [demo3, Sim.new]) (by rw [hp, demo3_profile]; norm_num [demo3, Sim.new]) (by rw [hp, demo3_profile]; rfl)
  exact ⟨t, C155_due (x := 5400) (by rw [hp, demo3_profile]; rfl) (by norm_num) (by norm_num) (by norm_num) h1⟩

/-- C156, C157: the demonstration after its run is reachable, with one event in the books. -/
example : ∃ t, Reach false t ∧ Books t ∧ Named t ∧ t.stats.total = 1 ∧ t.stats.uptime ≤ 1 := by
  obtain ⟨t, h, h1, -⟩ := demo_run
  have hr : Reach false t := Reach.run ((Reach.new _ _ _ _).register _ _) h
  have hp : t.profile.envs ≠ [] := by
    obtain ⟨u, d, n, m, h2, -, -, rfl⟩ := run_steps h
    have := h2.ran.profile
    simp only
    rw [this, demo_eq]
    simp
  exact ⟨t, hr, C156_books hr, (C156_names hr hp).2, h1, (C157_range hr).2⟩

/-- C156: memory that is not protected. -/
example : ∃ l t, ((Sim.new (Profile.standard "LEO") Config.default (fun _ => 0) ⟨fun _ => 5, fun _ => ⟨0, 0, 0, 0⟩⟩).register [0#8] false).run 10 1000 = .ok (l, t) ∧ t.stats.detected = 0 := by
  obtain ⟨l, t, h⟩ := C155_standard "LEO" Config.default (fun _ => 0) ⟨fun _ => 5, fun _ => ⟨0, 0, 0, 0⟩⟩ [([0#8], false)] (by simp) 10 (ms := 1000) (by norm_num)
  refine ⟨l, t, h, (C156_run h).2 ?_⟩
  simp [Sim.register, Sim.new]

/-- C157: the share of the demonstration. -/
example : ∃ t, demo.run 1 1000 = .ok ([], t) ∧ t.stats.uptime * t.stats.detected = t.stats.corrected := by
  obtain ⟨t, h, -, h1, -⟩ := demo_run
  exact ⟨t, h, C157_share h (by omega)⟩

/-- C157: a mission without memory has no event and the uptime 0. -/
example : ∃ l t, demo3.run 10 1000 = .ok (l, t) ∧ t.stats.total = 0 ∧ t.stats.uptime = 0 := by
  obtain ⟨l, t, h⟩ := C155_standard "LEO" (Config.standard "LEO") (fun _ => 9 / 10) ⟨fun _ => 0, fun _ => ⟨0, 0, 0, 0⟩⟩ [] (by simp) 10 (ms := 1000) (by norm_num)
  have h' : demo3.run 10 1000 = .ok (l, t) := h
  have hr : Reach false demo3 := .new _ _ _ _
  obtain ⟨n, hn, ht, -⟩ := C159_memory h'
  have hn0 : n = 0 := by
    have key : ∀ {a b : List Region} {n : ℕ}, Struck a b n → a = [] → n = 0 := by
      intro a b n h he
      cases h with
      | nil => rfl
      | cons => exact absurd he (by simp)
    exact key hn rfl
  have ht0 : t.stats.total = 0 := by rw [ht, hn0]; rfl
  have hb := (C156_books (Reach.run hr h')).fate
  exact ⟨l, t, h', ht0, (C157_quiet_violated hr h' (by omega) demo.profile demo.cfg demo.rng demo.src).1⟩

/-- C157: two runs with the same figures. -/
example : ∃ t, demo.run 1 1000 = .ok ([], t) ∧ t.stats.uptime = t.stats.uptime := by
  obtain ⟨t, h, -⟩ := demo_run
  exact ⟨t, h, C157_missed_violated h h rfl rfl⟩

/-- C158: the default thresholds are in order, and separate the levels. -/
example : rank (level Config.default (1 / 1000)) ≤ rank (level Config.default (1 / 20)) ∧ level Config.default (1 / 20) = .medium := by
  refine ⟨(C158_level Config.default).2.1 (by norm_num [Config.default]) _ _ (by norm_num), ?_⟩
  exact ((C158_level Config.default).2.2 rfl _).2.1 (by norm_num [Config.default]) (by norm_num [Config.default])

/-- C158: without adaptation the high settings do not matter. -/
example : ∃ l t, ({ demo with cfg := { Config.default with adaptive := false } } : Sim).run 10 1000 = .ok (l, t) ∧ ({ demo with cfg := { Config.default with adaptive := false, high := ⟨false, false, false, 1⟩ } } : Sim).run 10 1000 = .ok (l, { t with cfg := { Config.default with adaptive := false, high := ⟨false, false, false, 1⟩ } }) := by
  have hr : Ready ({ demo with cfg := { Config.default with adaptive := false } } : Sim) := ⟨demo_ready.usable, demo_ready.idx, demo_ready.rate, demo_ready.regions⟩
  obtain ⟨l, t, h, -⟩ := C155_returns hr 10 (ms := 1000) (by norm_num)
  exact ⟨l, t, h, C158_fixed (s := { demo with cfg := { Config.default with adaptive := false } }) (c := { Config.default with adaptive := false, high := ⟨false, false, false, 1⟩ }) rfl rfl rfl h⟩

/-- C158: a budget of nothing does not reduce the protection. -/
example : ∃ l t, demo.run 10 1000 = .ok (l, t) ∧ ({ demo with cfg := { demo.cfg with thLow := 7, budget := 0, tmrCost := 1, eccCost := 1, scrubCost := 1 } } : Sim).run 10 1000 = .ok (l, { t with cfg := { demo.cfg with thLow := 7, budget := 0, tmrCost := 1, eccCost := 1, scrubCost := 1 } }) := by
  obtain ⟨l, t, h, -⟩ := C155_returns demo_ready 10 (ms := 1000) (by norm_num)
  exact ⟨l, t, h, C158_low_violated 7 0 1 1 1 h⟩

/-- C159: with the settings for Jupiter, which scrub in every level at least every 10 seconds, a mission of one hour has at least 327 scrubbing cycles. -/
example : ∃ l t, (Sim.new (Profile.standard "JUPITER") (Config.standard "JUPITER") (fun _ => 0) ⟨fun i => i, fun _ => ⟨0, 3, 1, 4⟩⟩).run 3600 1000 = .ok (l, t) ∧ 327 ≤ t.stats.scrubs := by
  obtain ⟨l, t, h⟩ := C155_standard "JUPITER" (Config.standard "JUPITER") (fun _ => 0) ⟨fun i => i, fun _ => ⟨0, 3, 1, 4⟩⟩ [] (by simp) 3600 (ms := 1000) (by norm_num)
  have hc : Config.standard "JUPITER" = { Config.default with low := ⟨true, true, true, 10000⟩, thLow := 1 / 100, thMedium := 1 / 10, thHigh := 1, budget := 200 } := by
    unfold Config.standard
    rw [if_neg (by decide), if_neg (by decide), if_neg (by decide), if_neg (by decide), if_pos rfl]
  have := (C159_scrubbing (I := 10000) (by norm_num) (by norm_num) (by norm_num) h).2.1 (by
    intro v
    simp only [List.foldl_nil, Sim.new, hc]
    cases v <;> norm_num [Config.at, Config.default])
  refine ⟨l, t, h, ?_⟩
  have h0 : (Sim.new (Profile.standard "JUPITER") (Config.standard "JUPITER") (fun _ => 0) ⟨fun i => i, fun _ => ⟨0, 3, 1, 4⟩⟩).stats.scrubs = 0 := rfl
  simp only [List.foldl_nil] at this
  rw [h0] at this
  push_cast at this
  omega

/-- C159: the demonstration with and without protection. -/
example : Alike demo { demo with cfg := Config.standard "GEO", regions := [⟨[0#8], false⟩] } := by
  rw [demo_eq]
  exact ⟨by simp, by simp, rfl, rfl, rfl⟩

end Verif.MissionSim
