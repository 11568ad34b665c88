import Verif.Model.RadSimulator
import Mathlib.Analysis.Complex.ExponentialBounds
import Mathlib.Tactic.Linarith
import Mathlib.Tactic.Positivity
import Mathlib.Tactic.Ring
import Mathlib.Tactic.IntervalCases
/-!
C150: event rates of the radiation simulator; C151: effects of simulated events on memory; C152: kinds of simulated events.
-/
namespace Verif.RadSimulator

theorem bind_ok {α β : Type} {x : R α} {f : α → R β} {b : β} : x.bind f = .ok b ↔ ∃ a, x = .ok a ∧ f a = .ok b := by
  cases x <;> simp [R.bind]

/-! ### C150 -/

/-- Parameters that make sense: nothing negative. -/
structure Sensible (p : Params) : Prop where
  altitude : 0 ≤ p.altitude
  inclination : 0 ≤ p.inclination
  solar : 0 ≤ p.solar

/-- The environment is one of the Earth: none of the names that stand for other places occurs in its name. -/
def Earth (p : Params) : Prop := ∀ sub ∈ ["Mars", "Lunar", "Moon", "Jupiter"], ¬ sub.toList <:+: p.name.toList

instance (p : Params) : Decidable (Earth p) := inferInstanceAs (Decidable (∀ sub ∈ ["Mars", "Lunar", "Moon", "Jupiter"], ¬ sub.toList <:+: p.name.toList))

theorem altFactor_pos {a : ℝ} (h : 0 ≤ a) : 0 < altFactor a := by
  unfold altFactor
  split_ifs <;> positivity

theorem place_pos {p : Params} (h : Sensible p) : 0 < place p := by
  unfold place
  have := altFactor_pos h.altitude
  have := h.inclination
  split_ifs <;> positivity

theorem baseRate_pos {p : Params} (h : Sensible p) : 0 < baseRate p := by
  unfold baseRate
  have := place_pos h
  have := h.solar
  have := Real.exp_pos (-p.shield / 10)
  split_ifs <;> positivity

theorem total_eq (p : Params) : (rates p).total = baseRate p := by
  unfold rates
  ring

/-- C150, rates: in a sensible environment all rates are positive, their sum is the total rate, and they are 80, 15, 3 and 2 percent of it. -/
theorem C150_shares {p : Params} (h : Sensible p) :
    0 < (rates p).flip ∧ 0 < (rates p).multi ∧ 0 < (rates p).latch ∧ 0 < (rates p).transient ∧ (rates p).total = (rates p).flip + (rates p).multi + (rates p).latch + (rates p).transient ∧
      (rates p).flip = (rates p).total * (80 / 100) ∧ (rates p).multi = (rates p).total * (15 / 100) ∧ (rates p).latch = (rates p).total * (3 / 100) ∧ (rates p).transient = (rates p).total * (2 / 100) := by
  rw [total_eq]
  have := baseRate_pos h
  simp only [rates]
  refine ⟨by positivity, by positivity, by positivity, by positivity, by ring, by norm_num, by norm_num, by norm_num, by norm_num⟩

theorem place_congr {p q : Params} (hn : q.name = p.name) (ha : q.altitude = p.altitude) (hi : q.inclination = p.inclination) : place q = place p := by
  unfold place
  rw [hn, ha, hi]

/-- C150, influences: more solar activity gives a higher rate, more shielding a lower one (10 mm more divide it by e), and in the anomaly it is ten times as high. -/
theorem C150_monotone {p : Params} (h : Sensible p) :
    (∀ s, p.solar < s → (rates p).total < (rates { p with solar := s }).total) ∧ (∀ d, p.shield < d → (rates { p with shield := d }).total < (rates p).total) ∧
      (rates { p with shield := p.shield + 10 }).total * Real.exp 1 = (rates p).total ∧ (rates { p with saa := true }).total = 10 * (rates { p with saa := false }).total := by
  simp only [total_eq]
  have h0 := place_pos h
  have h1 : ∀ {q : Params}, q.name = p.name → q.altitude = p.altitude → q.inclination = p.inclination → place q = place p := place_congr
  have hs := h.solar
  have he := Real.exp_pos (-p.shield / 10)
  have hb : (0 : ℝ) < if p.saa then 10 else 1 := by split_ifs <;> norm_num
  refine ⟨fun s hlt => ?_, fun d hlt => ?_, ?_, ?_⟩
  · unfold baseRate
    rw [h1 (q := { p with solar := s }) rfl rfl rfl]
    simp only
    apply mul_lt_mul_of_pos_right _ he
    apply mul_lt_mul_of_pos_right _ hb
    apply mul_lt_mul_of_pos_left _ h0
    linarith
  · unfold baseRate
    rw [h1 (q := { p with shield := d }) rfl rfl rfl]
    simp only
    apply mul_lt_mul_of_pos_left _ (by positivity)
    apply Real.exp_lt_exp.mpr
    linarith
  · unfold baseRate
    rw [h1 (q := { p with shield := p.shield + 10 }) rfl rfl rfl]
    simp only
    rw [mul_assoc, ← Real.exp_add]
    congr 2
    ring
  · unfold baseRate
    rw [h1 (q := { p with saa := true }) rfl rfl rfl, h1 (q := { p with saa := false }) rfl rfl rfl]
    simp only
    norm_num
    ring

theorem place_earth {p : Params} (h : Earth p) : place p = 1 / 1000 * altFactor p.altitude * (1 + p.inclination / 90) := by
  have hh : ∀ sub ∈ ["Mars", "Lunar", "Moon", "Jupiter"], has p.name sub = false := fun sub hs => decide_eq_false (h sub hs)
  unfold place
  rw [hh "Mars" (by simp), hh "Lunar" (by simp), hh "Moon" (by simp), hh "Jupiter" (by simp)]
  simp

/-- C150, orbits: around the Earth higher and more inclined orbits give higher rates, up to the altitude of 36000 km. -/
theorem C150_orbit {p : Params} (h : Sensible p) (he : Earth p) :
    (∀ i, p.inclination < i → (rates p).total < (rates { p with inclination := i }).total) ∧ ∀ a, p.altitude < a → a ≤ 36000 → (rates p).total < (rates { p with altitude := a }).total := by
  simp only [total_eq]
  have hs := h.solar
  have hi := h.inclination
  have ha := h.altitude
  have hf := altFactor_pos ha
  have hx := Real.exp_pos (-p.shield / 10)
  have hb : (0 : ℝ) < if p.saa then 10 else 1 := by split_ifs <;> norm_num
  refine ⟨fun i hlt => ?_, fun a hlt hle => ?_⟩
  · unfold baseRate
    rw [place_earth he, place_earth (p := { p with inclination := i }) he]
    simp only
    apply mul_lt_mul_of_pos_right _ hx
    apply mul_lt_mul_of_pos_right _ hb
    apply mul_lt_mul_of_pos_right _ (by positivity)
    apply mul_lt_mul_of_pos_left _ (by positivity)
    linarith
  · unfold baseRate
    rw [place_earth he, place_earth (p := { p with altitude := a }) he]
    simp only
    have hm : altFactor p.altitude < altFactor a := by
      unfold altFactor
      split_ifs <;> linarith
    apply mul_lt_mul_of_pos_right _ hx
    apply mul_lt_mul_of_pos_right _ hb
    apply mul_lt_mul_of_pos_right _ (by positivity)
    apply mul_lt_mul_of_pos_right _ (by positivity)
    linarith

/-- C150, violated: just above 36000 km the rate falls, and above it altitude makes no difference. -/
theorem C150_altitude_violated {p : Params} (h : Sensible p) (he : Earth p) {a b : ℝ} (ha : 36000 < a) (hb : 36000 < b) :
    (rates { p with altitude := a }).total < (rates { p with altitude := 36000 }).total ∧ (rates { p with altitude := a }).total = (rates { p with altitude := b }).total := by
  simp only [total_eq]
  have hs := h.solar
  have hi := h.inclination
  have hx := Real.exp_pos (-p.shield / 10)
  have hc : (0 : ℝ) < if p.saa then 10 else 1 := by split_ifs <;> norm_num
  unfold baseRate
  rw [place_earth (p := { p with altitude := a }) he, place_earth (p := { p with altitude := b }) he, place_earth (p := { p with altitude := 36000 }) he]
  simp only
  have e : ∀ {c : ℝ}, 36000 < c → altFactor c = 5 := fun hc => by unfold altFactor; rw [if_neg (by linarith), if_neg (by linarith)]
  rw [e ha, e hb]
  refine ⟨?_, rfl⟩
  have : altFactor 36000 = 2 + 36000 / 10000 := by unfold altFactor; rw [if_neg (by norm_num), if_pos (by norm_num)]
  rw [this]
  apply mul_lt_mul_of_pos_right _ hx
  apply mul_lt_mul_of_pos_right _ hc
  apply mul_lt_mul_of_pos_right _ (by positivity)
  apply mul_lt_mul_of_pos_right _ (by positivity)
  norm_num

/-- The missions known by name. -/
def known : List String := ["LEO", "LEO_EARTH_OBSERVATION", "ISS", "GEO", "GEOSTATIONARY", "LUNAR", "MOON", "MARS", "JUPITER"]

/-- C150, missions: every predefined environment is sensible, outside the anomaly, with moderate solar activity; an unknown name gives that of low Earth orbit under the name of a generic mission. -/
theorem C150_missions (m : String) : Sensible (missionEnv m) ∧ (missionEnv m).saa = false ∧ (missionEnv m).solar = 3 ∧ 0 < (missionEnv m).shield ∧
    (m ∉ known → missionEnv m = { missionEnv "LEO" with name := "Generic Space Mission" }) := by
  refine ⟨?_, ?_, ?_, ?_, fun hm => ?_⟩
  · unfold missionEnv
    split_ifs <;> constructor <;> norm_num
  · unfold missionEnv; split_ifs <;> rfl
  · unfold missionEnv; split_ifs <;> rfl
  · unfold missionEnv; split_ifs <;> norm_num
  · unfold known at hm
    simp only [List.mem_cons, List.not_mem_nil, or_false, not_or] at hm
    unfold missionEnv
    rw [if_neg (by tauto), if_neg (by tauto), if_neg (by tauto), if_neg (by tauto), if_neg (by tauto), if_neg (by tauto), if_pos (by simp)]

theorem jupiter_rate : (rates (missionEnv "JUPITER")).total = 16 / 1000 * Real.exp (-2) := by
  have hm : missionEnv "JUPITER" = ⟨0, 0, 3, false, 20, "Jupiter Mission"⟩ := by
    unfold missionEnv
    rw [if_neg (by decide), if_neg (by decide), if_neg (by decide), if_neg (by decide), if_neg (by decide), if_pos rfl]
  rw [total_eq, hm]
  unfold baseRate place
  have h1 : has "Jupiter Mission" "Mars" = false := by decide
  have h2 : has "Jupiter Mission" "Lunar" = false := by decide
  have h3 : has "Jupiter Mission" "Moon" = false := by decide
  have h4 : has "Jupiter Mission" "Jupiter" = true := by decide
  simp only [h1, h2, h3, h4]
  norm_num

theorem leo_rate : (rates (missionEnv "LEO")).total = 36 / 10000 * Real.exp (-1 / 2) := by
  have hm : missionEnv "LEO" = ⟨500, 45, 3, false, 5, "Low Earth Orbit"⟩ := by
    unfold missionEnv
    rw [if_pos (by decide)]
  have he : Earth (missionEnv "LEO") := by rw [hm]; decide +kernel
  rw [total_eq]
  unfold baseRate
  rw [place_earth he, hm]
  unfold altFactor
  norm_num

/-- C150, violated: the mission to Jupiter, "an intense radiation environment", has a lower rate than low Earth orbit. -/
theorem C150_jupiter_violated : (rates (missionEnv "JUPITER")).total < (rates (missionEnv "LEO")).total := by
  rw [jupiter_rate, leo_rate]
  have h1 := Real.exp_one_gt_d9
  have h2 : Real.exp (-1 / 2) = Real.exp (-2) * Real.exp (3 / 2) := by rw [← Real.exp_add]; norm_num
  have h3 : Real.exp (3 / 2) * Real.exp (3 / 2) = Real.exp 1 * Real.exp 1 * Real.exp 1 := by rw [← Real.exp_add, ← Real.exp_add, ← Real.exp_add]; norm_num
  have h4 := Real.exp_pos (3 / 2)
  have h5 := Real.exp_pos (-2)
  have h6 : (4445 : ℝ) / 1000 < Real.exp (3 / 2) := by
    by_contra hc
    push Not at hc
    have : Real.exp 1 * Real.exp 1 * Real.exp 1 ≤ 4445 / 1000 * (4445 / 1000) := by rw [← h3]; exact mul_le_mul hc hc h4.le (by norm_num)
    have h7 : (27 / 10 : ℝ) * (27 / 10) ≤ Real.exp 1 * Real.exp 1 := mul_le_mul (by linarith) (by linarith) (by norm_num) (by positivity)
    have h8 : (271828 / 100000 : ℝ) * (271828 / 100000) ≤ Real.exp 1 * Real.exp 1 := mul_le_mul (by linarith) (by linarith) (by norm_num) (by positivity)
    have h9 : (271828 / 100000 : ℝ) * (271828 / 100000) * (271828 / 100000) ≤ Real.exp 1 * Real.exp 1 * Real.exp 1 := mul_le_mul h8 (by linarith) (by norm_num) (by positivity)
    norm_num at h9 this
    linarith
  rw [h2]
  nlinarith

/-- C150, violated: the place is guessed from the name: a satellite in low Earth orbit named after the Marshall Islands gets another rate than the same satellite with another name. -/
theorem C150_name_violated : (rates { missionEnv "LEO" with name := "Marshall-1" }).total < (rates (missionEnv "LEO")).total := by
  rw [leo_rate, total_eq]
  have hm : missionEnv "LEO" = ⟨500, 45, 3, false, 5, "Low Earth Orbit"⟩ := by
    unfold missionEnv
    rw [if_pos (by decide)]
  rw [hm]
  unfold baseRate place
  have h1 : has "Marshall-1" "Mars" = true := by decide
  simp only [h1]
  have := Real.exp_pos (-1 / 2)
  norm_num
  have e : (-5 / 10 : ℝ) = -1 / 2 := by norm_num
  linarith

/-! ### C152 -/

/-- C152: in every environment with a positive rate, the share of the number drawn decides alone on the kind of an event: below 0.80 a flip of one bit, below 0.95 of several bits, below 0.98 a latchup, else a transient. -/
theorem C152_kinds {p : Params} (h : 0 < (rates p).total) (u : ℝ) :
    (kindOf (rates p) u = .flip ↔ u < 80 / 100) ∧ (kindOf (rates p) u = .multi ↔ 80 / 100 ≤ u ∧ u < 95 / 100) ∧ (kindOf (rates p) u = .latch ↔ 95 / 100 ≤ u ∧ u < 98 / 100) ∧ (kindOf (rates p) u = .transient ↔ 98 / 100 ≤ u) := by
  rw [total_eq] at h
  have e1 : u * (rates p).total < (rates p).flip ↔ u < 80 / 100 := by
    rw [total_eq]; simp only [rates]; rw [mul_comm, mul_lt_mul_iff_right₀ h]; norm_num
  have e2 : u * (rates p).total < (rates p).flip + (rates p).multi ↔ u < 95 / 100 := by
    rw [total_eq]; simp only [rates]; rw [← mul_add, mul_comm, mul_lt_mul_iff_right₀ h]; norm_num
  have e3 : u * (rates p).total < (rates p).flip + (rates p).multi + (rates p).latch ↔ u < 98 / 100 := by
    rw [total_eq]; simp only [rates]; rw [← mul_add, ← mul_add, mul_comm, mul_lt_mul_iff_right₀ h]; norm_num
  unfold kindOf
  simp only [e1, e2, e3]
  split_ifs with h1 h2 h3
  · simp only [true_iff, false_iff, not_and, not_lt, not_le]
    exact ⟨h1, fun h => by linarith, fun h => by linarith, by linarith⟩
  · simp only [true_iff, false_iff, not_and, not_lt, not_le]
    exact ⟨by linarith, ⟨by linarith, h2⟩, fun h => by linarith, by linarith⟩
  · simp only [true_iff, false_iff, not_and, not_lt, not_le]
    exact ⟨by linarith, fun h => by linarith, ⟨by linarith, h3⟩, by linarith⟩
  · simp only [true_iff, false_iff, not_and, not_lt]
    exact ⟨by linarith, fun h => by linarith, fun h => by linarith, by linarith⟩

/-! ### C151 -/

/-- What an event of a kind, reported with a number of bits, does to a byte. -/
def Effect (k : Kind) (bits : ℕ) (x y : Byte) : Prop := match k with
  | .flip => bits = 1 ∧ ∃ i < 8, ∀ j < 8, y.getLsbD j = (x.getLsbD j != decide (j = i))
  | .multi => (bits = 2 ∨ bits = 3) ∧ ∃ i, i + bits ≤ 8 ∧ ∀ j < 8, y.getLsbD j = (x.getLsbD j != decide (i ≤ j ∧ j < i + bits))
  | .latch => bits = 1 ∧ ∃ i < 8, ∃ v : Bool, ∀ j < 8, y.getLsbD j = if j = i then v else x.getLsbD j
  | .transient => bits = 8

theorem one_shl (i j : ℕ) (hj : j < 8) : (1#8 <<< i).getLsbD j = decide (j = i) := by
  rw [BitVec.getLsbD_shiftLeft]
  simp only [hj, decide_true, Bool.true_and, BitVec.getLsbD_one]
  by_cases h : j < i
  · simp [h]; omega
  · simp only [h, decide_false, Bool.not_false, Bool.true_and]
    by_cases e : j = i
    · subst e; simp
    · simp [e]; omega

theorem mask_bit (s : ℕ) : ∀ (n j : ℕ), j < 8 → (mask s n).getLsbD j = decide (s ≤ j ∧ j < s + n)
  | 0, j, hj => by simp [mask]
  | n + 1, j, hj => by
    simp only [mask]
    rw [BitVec.getLsbD_or, mask_bit s n j hj, one_shl _ _ hj]
    by_cases h : j = s + n
    · subst h; simp
    · simp only [h, decide_false, Bool.or_false]
      apply decide_eq_decide.mpr
      omega

theorem hit_effect (k : Kind) (d : Draw) (x : Byte) : Effect k (hit k d x).2 x (hit k d x).1 := by
  cases k with
  | flip =>
    refine ⟨rfl, d.a % 8, Nat.mod_lt _ (by norm_num), fun j hj => ?_⟩
    simp only [hit]
    rw [BitVec.getLsbD_xor, one_shl _ _ hj]
  | multi =>
    have h2 := Nat.mod_lt d.a (y := 2) (by norm_num)
    simp only [Effect, hit]
    have h3 := Nat.mod_lt d.b (y := 8 - (2 + d.a % 2) + 1) (by omega)
    refine ⟨by omega, d.b % (8 - (2 + d.a % 2) + 1), by omega, fun j hj => ?_⟩
    rw [BitVec.getLsbD_xor, mask_bit _ _ _ hj]
    rfl
  | latch =>
    refine ⟨rfl, d.a % 8, Nat.mod_lt _ (by norm_num), decide (d.b % 2 ≠ 0), fun j hj => ?_⟩
    simp only [hit]
    by_cases hb : d.b % 2 = 0
    · rw [if_pos hb, BitVec.getLsbD_and, BitVec.getLsbD_not, one_shl _ _ hj]
      by_cases e : j = d.a % 8
      · simp [e, hb]
      · simp [e, hj]
    · rw [if_neg hb, BitVec.getLsbD_or, one_shl _ _ hj]
      by_cases e : j = d.a % 8
      · simp only [e, decide_true, Bool.or_true, if_true]
        exact (decide_eq_true hb).symm
      · simp [e]
  | transient => rfl

/-- What the events of a list do to a memory, one after the other: each hits one byte of it, the one reported, as its kind says, and leaves the others. -/
inductive Hits : List Event → List Byte → List Byte → Prop
  | nil (m : List Byte) : Hits [] m m
  | cons {e : Event} {es : List Event} {m m' : List Byte} {x y : Byte} : m[e.offset]? = some x → Effect e.kind e.bits x y → Hits es (m.set e.offset y) m' → Hits (e :: es) m m'

theorem generate_ok {r : Rates} (hr : 0 ≤ r.total) {mem : List Byte} (hm : mem ≠ []) (d : Draw) :
    ∃ x, mem[d.loc % mem.length]? = some x ∧ generate r mem d = .ok (⟨kindOf r d.u, d.loc % mem.length, (hit (kindOf r d.u) d x).2⟩, mem.set (d.loc % mem.length) (hit (kindOf r d.u) d x).1) := by
  have hl : d.loc % mem.length < mem.length := Nat.mod_lt _ (List.length_pos_iff.mpr hm)
  refine ⟨mem[d.loc % mem.length], List.getElem?_eq_getElem hl, ?_⟩
  unfold generate
  rw [if_neg (by linarith), List.getElem?_eq_getElem hl]

theorem generateAll_ok {r : Rates} (hr : 0 ≤ r.total) : ∀ (n : ℕ) {mem : List Byte} (s : Src), (mem ≠ [] ∨ n = 0) → ∃ es mem' s', generateAll r n mem s = .ok (es, mem', s') ∧ es.length = n ∧ Hits es mem mem' ∧ mem'.length = mem.length ∧ (∀ i, (es[i]?).map (·.kind) = if i < n then some (kindOf r (s.draws i).u) else none) ∧ s'.counts = s.counts
  | 0, mem, s, _ => ⟨[], mem, s, rfl, rfl, .nil mem, rfl, fun i => by simp, rfl⟩
  | n + 1, mem, s, h => by
    have hm : mem ≠ [] := by
      rcases h with h | h
      · exact h
      · omega
    obtain ⟨x, h1, h2⟩ := generate_ok hr hm (s.draws 0)
    obtain ⟨es, m', s', k1, k2, k3, k4, k5, k6⟩ := generateAll_ok hr n (mem := mem.set ((s.draws 0).loc % mem.length) (hit (kindOf r (s.draws 0).u) (s.draws 0) x).1) s.draw (Or.inl (by simpa using hm))
    refine ⟨⟨kindOf r (s.draws 0).u, (s.draws 0).loc % mem.length, (hit (kindOf r (s.draws 0).u) (s.draws 0) x).2⟩ :: es, m', s', ?_, ?_, .cons h1 (hit_effect _ _ _) k3, by rw [k4, List.length_set], fun i => ?_, k6⟩
    · simp only [generateAll]
      rw [h2]
      simp only [R.bind]
      rw [k1]
    · rw [List.length_cons, k2]
    · cases i with
      | zero => simp
      | succ i =>
        rw [List.getElem?_cons_succ, k5 i]
        simp only [Nat.add_lt_add_iff_right]
        rfl

/-- C151, events: in an environment with a positive rate, over a positive time and on a region that is not empty, simulation returns as many events as the Poisson distribution gave for the total rate times the time in seconds, having changed the memory by exactly these events; the memory keeps its size. -/
theorem C151_events {p : Params} (h : 0 < (rates p).total) {mem : List Byte} (hm : mem ≠ []) {ms : ℤ} (ht : 0 < ms) (s : Src) :
    ∃ es mem' s', effects p mem ms s = .ok (es, mem', s') ∧ es.length = s.counts 0 ((rates p).total * (ms / 1000)) ∧ Hits es mem mem' ∧ mem'.length = mem.length := by
  obtain ⟨es, m', s', h1, h2, h3, h4, -, -⟩ := generateAll_ok (r := rates p) h.le (s.counts 0 _) s.count (Or.inl hm)
  refine ⟨es, m', s', ?_, h2, h3, h4⟩
  unfold effects
  rw [if_neg, h1]
  push Not
  have : (0 : ℝ) < ms := by exact_mod_cast ht
  positivity

/-- C151, containment: whenever simulation returns, every byte at a place no event reports is unchanged, and every event lies inside the region. -/
theorem C151_contained {p : Params} {mem mem' : List Byte} {ms : ℤ} {s s' : Src} {es : List Event} (h : effects p mem ms s = .ok (es, mem', s')) :
    mem'.length = mem.length ∧ (∀ e ∈ es, e.offset < mem.length) ∧ ∀ i, (∀ e ∈ es, e.offset ≠ i) → mem'[i]? = mem[i]? := by
  have key : ∀ {es : List Event} {m m' : List Byte}, Hits es m m' → m'.length = m.length ∧ (∀ e ∈ es, e.offset < m.length) ∧ ∀ i, (∀ e ∈ es, e.offset ≠ i) → m'[i]? = m[i]? := by
    intro es m m' hh
    induction hh with
    | nil m => exact ⟨rfl, by simp, fun _ _ => rfl⟩
    | @cons e es m m' x y h1 h2 h3 ih =>
      obtain ⟨i1, i2, i3⟩ := ih
      rw [List.length_set] at i1 i2
      refine ⟨i1, ?_, fun i hi => ?_⟩
      · intro e' he
        rcases List.mem_cons.mp he with rfl | he
        · exact (List.getElem?_eq_some_iff.mp h1).1
        · exact i2 e' he
      · rw [i3 i fun e' he => hi e' (by simp [he]), List.getElem?_set_ne (hi e (by simp))]
  unfold effects at h
  split_ifs at h with hc
  push Not at hc
  have hr : ∀ {n : ℕ} {m : List Byte} {s : Src} {o}, generateAll (rates p) n m s = .ok o → 0 ≤ (rates p).total ∧ m ≠ [] ∨ n = 0 := by
    intro n m s o ho
    cases n with
    | zero => exact Or.inr rfl
    | succ n =>
      left
      simp only [generateAll] at ho
      obtain ⟨e, he, -⟩ := bind_ok.mp ho
      unfold generate at he
      split_ifs at he with hn
      refine ⟨by linarith, fun hm => ?_⟩
      subst hm
      simp at he
  rcases hr h with ⟨h0, hm⟩ | h0
  · obtain ⟨es', m', s'', k1, -, k3, -⟩ := generateAll_ok h0 (s.counts 0 _) s.count (Or.inl hm)
    rw [k1] at h
    simp only [R.ok.injEq, Prod.mk.injEq] at h
    obtain ⟨rfl, rfl, -⟩ := h
    exact key k3
  · rw [h0] at h
    simp only [generateAll, R.ok.injEq, Prod.mk.injEq] at h
    obtain ⟨rfl, rfl, -⟩ := h
    exact key (.nil _)

/-- C151, violated: on an empty region the first event writes outside it. -/
theorem C151_empty_violated {p : Params} (h : 0 < (rates p).total) {ms : ℤ} (ht : 0 < ms) {s : Src} (hc : s.counts 0 ((rates p).total * (ms / 1000)) ≠ 0) : effects p [] ms s = .ub := by
  unfold effects
  have : (0 : ℝ) < ms := by exact_mod_cast ht
  rw [if_neg (by push Not; positivity)]
  obtain ⟨n, hn⟩ := Nat.exists_eq_succ_of_ne_zero hc
  rw [hn]
  simp only [generateAll]
  have : generate (rates p) [] (s.count.draws 0) = .ub := by
    unfold generate
    rw [if_neg (by linarith)]
    rfl
  rw [this]
  rfl

/-- C151, violated: no time at all is not accepted as "no events": the mean 0 is outside what the distribution allows. -/
theorem C151_instant_violated (p : Params) (mem : List Byte) (s : Src) : effects p mem 0 s = .ub := by
  unfold effects
  rw [if_pos (by simp)]

/-- C151, violated: a latchup does not hold its bit: after the bit was stuck at 1, a flip of the same bit makes it 0. -/
theorem C151_stuck_violated : ∃ (d d' : Draw), (hit .latch d 0#8).1 = 1#8 ∧ (hit .flip d' (hit .latch d 0#8).1).1 = 0#8 := ⟨⟨0, 0, 0, 1⟩, ⟨0, 0, 0, 0⟩, rfl, rfl⟩

/-- C151, violated: events are reported that change nothing: for every byte there is a latchup, reported with one bit, and a transient, reported with eight, that leave it as it is. -/
theorem C151_harmless_violated (x : Byte) : (∃ d, hit .latch d x = (x, 1)) ∧ ∃ d, hit .transient d x = (x, 8) := by
  refine ⟨⟨⟨0, 0, 0, if x.getLsbD 0 then 1 else 0⟩, ?_⟩, ⟨⟨0, 0, x.toNat, 0⟩, ?_⟩⟩
  · refine Prod.ext ?_ rfl
    apply BitVec.eq_of_getLsbD_eq
    intro j hj
    simp only [hit]
    by_cases hx : x.getLsbD 0 = true
    · rw [if_pos hx, if_neg (by norm_num), BitVec.getLsbD_or, one_shl _ _ hj]
      by_cases e : j = 0
      · subst e; simp [hx]
      · simp [e]
    · rw [if_neg hx, if_pos (by norm_num), BitVec.getLsbD_and, BitVec.getLsbD_not, one_shl _ _ hj]
      by_cases e : j = 0
      · subst e; rw [Bool.not_eq_true] at hx; rw [hx]; rfl
      · simp [e, hj]
  · refine Prod.ext ?_ rfl
    simp only [hit]
    rw [Nat.mod_eq_of_lt x.isLt]
    exact BitVec.ofNat_toNat 8 x |>.trans (by simp)

/-! ### Examples -/

example : Sensible (missionEnv "LEO") := (C150_missions "LEO").1
example : 0 < (rates (missionEnv "LEO")).total := by rw [total_eq]; exact baseRate_pos (C150_missions "LEO").1
example : Earth ⟨500, 45, 3, false, 5, "Low Earth Orbit"⟩ := by decide +kernel
example : "Hubble" ∉ known := by decide
example : Effect .multi 3 0x0F#8 0x37#8 := ⟨Or.inr rfl, 3, by norm_num, by decide⟩
example : Hits [⟨.flip, 1, 1⟩, ⟨.transient, 0, 8⟩] [0xFF#8, 0x00#8] [0x12#8, 0x04#8] :=
  .cons rfl ⟨rfl, 2, by norm_num, by decide⟩ (.cons (y := 0x12#8) rfl rfl (.nil _))

end Verif.RadSimulator
