import Verif.Model.Visualizer
import Verif.Props.BasicTmr
import Mathlib.Tactic.Linarith
import Mathlib.Tactic.NormNum
import Mathlib.Tactic.Positivity
import Mathlib.Tactic.FieldSimp
/-!
C287: the error rate of the visualizer. C288: its report.
-/
namespace Verif.Props.Visualizer
open Verif Verif.Visualizer

/-- C287. For every environment the error rate lies between 0 and 1/2, and between these bounds it is
flux · (1 + excess over 273 K / 100) · (1 + solar/2) · (3/2 in the anomaly). -/
theorem C287_rate (e : Env) :
    0 ≤ errorRate e ∧ errorRate e ≤ 1 / 2 ∧
    (0 < errorRate e → errorRate e < 1 / 2 →
      errorRate e = (2 * e.proton / 10 ^ 12 + e.electron / (2 * 10 ^ 12)) * (1 + max 0 (((e.tmin + e.tmax) / 2 - 273) / 100)) * (1 + e.solar / 2) * (if e.saa then 3 / 2 else 1)) := by
  refine ⟨?_, ?_, ?_⟩
  · unfold errorRate; exact le_min (le_max_right _ _) (by norm_num)
  · unfold errorRate; exact le_trans (min_le_right _ _) (by norm_num)
  · unfold errorRate
    simp only
    intro h0 h1
    generalize hx : (e.proton * (2 / 10 ^ 12) + e.electron * (5 / 10 ^ 13)) * (1 + max 0 (((e.tmin + e.tmax) / 2 - 273) / 100)) * (1 + e.solar * (5 / 10)) * (if e.saa then 3 / 2 else 1) = x at h0 h1 ⊢
    have hlt : max x 0 < 5 / 10 := by
      rcases lt_min_iff.1 h0 with ⟨_, _⟩
      by_contra hc
      rw [min_eq_right (not_lt.1 hc)] at h1
      norm_num at h1
    rw [min_eq_left hlt.le] at h0 ⊢
    have hx0 : 0 < x := by
      by_contra hc
      rw [max_eq_right (not_lt.1 hc)] at h0
      exact lt_irrefl _ h0
    rw [max_eq_left hx0.le, ← hx]
    ring

example : (0 : ℚ) < errorRate (createEnvironment "SAA") ∧ errorRate (createEnvironment "SAA") < 1 / 2 := by
  decide +kernel

/-- C287. More flux, a higher temperature, more solar activity or entering the anomaly never lowers the rate (fluxes and activity not negative). -/
theorem C287_monotone (e f : Env) (hp : 0 ≤ e.proton) (he : 0 ≤ e.electron) (hs : 0 ≤ e.solar)
    (h1 : e.proton ≤ f.proton) (h2 : e.electron ≤ f.electron) (h3 : e.tmin ≤ f.tmin) (h4 : e.tmax ≤ f.tmax) (h5 : e.solar ≤ f.solar)
    (h6 : e.saa = true → f.saa = true) : errorRate e ≤ errorRate f := by
  unfold errorRate
  simp only
  refine min_le_min (max_le_max ?_ le_rfl) le_rfl
  have a : e.proton * (2 / 10 ^ 12) + e.electron * (5 / 10 ^ 13) ≤ f.proton * (2 / 10 ^ 12) + f.electron * (5 / 10 ^ 13) := by linarith
  have a0 : 0 ≤ e.proton * (2 / 10 ^ 12) + e.electron * (5 / 10 ^ 13) := by positivity
  have b : 1 + max 0 (((e.tmin + e.tmax) / 2 - 273) / 100) ≤ 1 + max 0 (((f.tmin + f.tmax) / 2 - 273) / 100) := by
    have : ((e.tmin + e.tmax) / 2 - 273) / 100 ≤ ((f.tmin + f.tmax) / 2 - 273) / 100 := by linarith
    have := max_le_max (le_refl (0 : ℚ)) this
    linarith
  have b0 : 0 ≤ 1 + max 0 (((e.tmin + e.tmax) / 2 - 273) / 100) := by positivity
  have c : 1 + e.solar * (5 / 10) ≤ 1 + f.solar * (5 / 10) := by linarith
  have c0 : 0 ≤ 1 + e.solar * (5 / 10) := by positivity
  have d : (if e.saa then (3 / 2 : ℚ) else 1) ≤ if f.saa then 3 / 2 else 1 := by
    cases h : e.saa <;> cases h' : f.saa <;> simp_all <;> norm_num
  have d0 : (0 : ℚ) ≤ if e.saa then (3 / 2 : ℚ) else 1 := by split <;> norm_num
  have ab := mul_le_mul a b b0 (le_trans a0 a)
  have abc := mul_le_mul ab c c0 (mul_nonneg (le_trans a0 a) (le_trans b0 b))
  exact mul_le_mul abc d d0 (mul_nonneg (mul_nonneg (le_trans a0 a) (le_trans b0 b)) (le_trans c0 c))

example : (createEnvironment "LEO").proton ≤ (createEnvironment "SAA").proton ∧ (createEnvironment "LEO").tmin ≤ (createEnvironment "SAA").tmin := by
  decide +kernel

/-- C287. The shipped environments in order of their rates; Jupiter is at the cap. Every unknown name is the clean room. -/
theorem C287_table :
    errorRate (createEnvironment "NONE") < errorRate (createEnvironment "LEO") ∧ errorRate (createEnvironment "LEO") < errorRate (createEnvironment "GEO") ∧
    errorRate (createEnvironment "GEO") < errorRate (createEnvironment "LUNAR") ∧ errorRate (createEnvironment "LUNAR") < errorRate (createEnvironment "MARS") ∧
    errorRate (createEnvironment "MARS") < errorRate (createEnvironment "SAA") ∧ errorRate (createEnvironment "SAA") < errorRate (createEnvironment "SOLAR_STORM") ∧
    errorRate (createEnvironment "SOLAR_STORM") < 1 / 20 ∧ errorRate (createEnvironment "JUPITER") = 1 / 2 ∧
    (∀ n, n ∉ ["LEO", "SAA", "GEO", "LUNAR", "MARS", "SOLAR_STORM", "JUPITER"] → createEnvironment n = createEnvironment "NONE") := by
  refine ⟨by decide +kernel, by decide +kernel, by decide +kernel, by decide +kernel, by decide +kernel, by decide +kernel, by decide +kernel, by decide +kernel, ?_⟩
  intro n h
  simp only [List.mem_cons, List.not_mem_nil, or_false, not_or] at h
  obtain ⟨a, b, c, d, e, f, g⟩ := h
  unfold createEnvironment
  rw [if_neg a, if_neg b, if_neg c, if_neg d, if_neg e, if_neg f, if_neg g]
  rfl

/-! ### The report -/

/-- Operations before `k` that returned the right value. -/
noncomputable def right (p : BTmr.State) (rate : ℚ) (d : Draws) (k : ℕ) : ℕ := ((List.range k).filter fun i => (protectedOp p rate d i).value = 42).length

/-- Operations before `k` reported as damaged. -/
noncomputable def flagged (p : BTmr.State) (rate : ℚ) (d : Draws) (k : ℕ) : ℕ := ((List.range k).filter fun i => (protectedOp p rate d i).detected).length

/-- The protection object as it is in the environment `n`. -/
def objectIn (n : String) : BTmr.State := visit (BTmr.State.new 50) n

/-- The rate in the environment `n`. -/
def rateIn (n : String) : ℚ := errorRate (createEnvironment n)

/-- The row for operation `i` of an environment whose first operation is at time `t`. -/
noncomputable def rowOf (p : BTmr.State) (n : String) (rate : ℚ) (d : Draws) (t i : ℕ) : Row :=
  { time := t + i + 1, env := n, level := p.level, name := levelName p.level, interval := p.interval, temp := p.temp, rad := p.rad, syn := p.syn,
    corrections := right p rate d (i + 1), errors := flagged p rate d (i + 1), rate := rate, success := (right p rate d (i + 1) : ℚ) / (i + 1) * 100 }

theorem right_succ (p : BTmr.State) (rate : ℚ) (d : Draws) (k : ℕ) :
    right p rate d (k + 1) = if (protectedOp p rate d k).value = 42 then right p rate d k + 1 else right p rate d k := by
  unfold right
  rw [List.range_succ, List.filter_append, List.length_append]
  by_cases h : (protectedOp p rate d k).value = 42 <;> simp [h]

theorem flagged_succ (p : BTmr.State) (rate : ℚ) (d : Draws) (k : ℕ) :
    flagged p rate d (k + 1) = if (protectedOp p rate d k).detected then flagged p rate d k + 1 else flagged p rate d k := by
  unfold flagged
  rw [List.range_succ, List.filter_append, List.length_append]
  by_cases h : (protectedOp p rate d k).detected = true <;> simp [h]

theorem right_le (p : BTmr.State) (rate : ℚ) (d : Draws) (k : ℕ) : right p rate d k ≤ k := by
  unfold right
  exact le_trans (List.length_filter_le _ _) (by simp)

theorem flagged_le (p : BTmr.State) (rate : ℚ) (d : Draws) (k : ℕ) : flagged p rate d k ≤ k := by
  unfold flagged
  exact le_trans (List.length_filter_le _ _) (by simp)

theorem loop_eq (p : BTmr.State) (n : String) (rate : ℚ) (d : Draws) (t k : ℕ) :
    forN k (body p n rate d) ⟨t, 0, 0, []⟩ = ⟨t + k, right p rate d k, flagged p rate d k,
      ((List.range k).filter fun i => i % 20 = 0 ∨ i = 199).map (rowOf p n rate d t)⟩ := by
  induction k with
  | zero => simp [forN, right, flagged]
  | succ k ih =>
    rw [forN, ih]
    unfold body
    simp only [operationsPerEnv, Nat.add_one_sub_one, show 200 - 1 = 199 from rfl]
    rw [← right_succ, ← flagged_succ]
    rw [List.range_succ, List.filter_append, List.map_append]
    by_cases h : k % 20 = 0 ∨ k = 199
    · simp [h, rowOf, Nat.add_assoc]
    · simp [h, Nat.add_assoc]

/-- The operations of an environment that get a row. -/
def sampled : List ℕ := [0, 20, 40, 60, 80, 100, 120, 140, 160, 180, 199]

theorem inner_eq (p : BTmr.State) (n : String) (d : Draws) (t : ℕ) :
    inner p n d t = ⟨t + 200, right p (rateIn n) d 200, flagged p (rateIn n) d 200, sampled.map (rowOf p n (rateIn n) d t)⟩ := by
  unfold inner operationsPerEnv
  have := loop_eq p n (rateIn n) d t 200
  rw [show (List.range 200).filter (fun i => decide (i % 20 = 0 ∨ i = 199)) = sampled by decide +kernel] at this
  exact this

theorem visit_eq (p : BTmr.State) (n : String) (h : p.tolerance = 50) : visit p n = objectIn n := by
  unfold objectIn visit BTmr.State.run
  cases p
  simp only at h
  subst h
  simp [BTmr.State.step, BTmr.State.update, BTmr.State.new]

theorem object_tolerance (n : String) : (objectIn n).tolerance = 50 := rfl

/-- The environments with what belongs to them. -/
noncomputable def part (d : ℕ → Draws) (x : String × ℕ) : List Row := sampled.map (rowOf (objectIn x.1) x.1 (rateIn x.1) (d x.2) (200 * x.2))

theorem fold_eq (d : ℕ → Draws) (xs : List String) (k : ℕ) (r : Run) (hp : r.prot.tolerance = 50) (ht : r.time = 200 * k) :
    let r' := ((xs.zipIdx k).map fun x => (x.1, d x.2)).foldl oneEnv r
    r'.time = 200 * (k + xs.length) ∧ r'.operations = r.operations + 200 * xs.length ∧
    r'.corrections = r.corrections + ((xs.zipIdx k).map fun x => right (objectIn x.1) (rateIn x.1) (d x.2) 200).sum ∧
    r'.errors = r.errors + ((xs.zipIdx k).map fun x => flagged (objectIn x.1) (rateIn x.1) (d x.2) 200).sum ∧
    r'.rows = r.rows ++ (xs.zipIdx k).flatMap (part d) := by
  induction xs generalizing k r with
  | nil => simp [ht]
  | cons n ns ih =>
    simp only [List.zipIdx_cons, List.map_cons, List.foldl_cons, List.sum_cons, List.flatMap_cons, List.length_cons]
    have step : oneEnv r (n, d k) = ⟨200 * k + 200, r.operations + 200, r.corrections + right (objectIn n) (rateIn n) (d k) 200, r.errors + flagged (objectIn n) (rateIn n) (d k) 200,
        r.rows ++ part d (n, k), objectIn n⟩ := by
      unfold oneEnv
      simp only
      rw [visit_eq _ _ hp, inner_eq, ht]
      rfl
    rw [step]
    have := ih (k + 1) ⟨200 * k + 200, r.operations + 200, r.corrections + right (objectIn n) (rateIn n) (d k) 200, r.errors + flagged (objectIn n) (rateIn n) (d k) 200,
        r.rows ++ part d (n, k), objectIn n⟩ (object_tolerance n) (by ring)
    simp only at this
    obtain ⟨h1, h2, h3, h4, h5⟩ := this
    refine ⟨?_, ?_, ?_, ?_, ?_⟩
    · rw [h1]; ring
    · rw [h2]; ring
    · rw [h3]; ring
    · rw [h4]; ring
    · rw [h5, List.append_assoc]

/-- C288. For all draws: a run makes 200 operations in each of the seven environments; the totals are the numbers of operations with the right value and of
operations reported as damaged; the file has eleven rows per environment, for operations 1, 21, …, 181 and 200, and each row carries the counts up to its operation, the rate of
its environment, and the share of right values as success rate, between 0 and 100. -/
theorem C288_report (d : ℕ → Draws) :
    (run d).operations = 1400 ∧ (run d).time = 1400 ∧
    (run d).corrections = (environments.zipIdx.map fun x => right (objectIn x.1) (rateIn x.1) (d x.2) 200).sum ∧
    (run d).errors = (environments.zipIdx.map fun x => flagged (objectIn x.1) (rateIn x.1) (d x.2) 200).sum ∧
    (run d).rows = environments.zipIdx.flatMap (fun x => sampled.map (rowOf (objectIn x.1) x.1 (rateIn x.1) (d x.2) (200 * x.2))) ∧
    (run d).rows.length = 77 ∧
    (∀ r ∈ (run d).rows, ∃ i ∈ sampled, r.corrections ≤ i + 1 ∧ r.errors ≤ i + 1 ∧ r.success = 100 * r.corrections / (i + 1) ∧ 0 ≤ r.success ∧ r.success ≤ 100 ∧ r.rate = rateIn r.env) ∧
    (run d).success = (run d).corrections / 14 ∧ 0 ≤ (run d).success ∧ (run d).success ≤ 100 := by
  have h := fold_eq d environments 0 ⟨0, 0, 0, 0, [], BTmr.State.new tolerance⟩ rfl rfl
  simp only at h
  obtain ⟨h1, h2, h3, h4, h5⟩ := h
  have e : run d = ((environments.zipIdx 0).map fun x => (x.1, d x.2)).foldl oneEnv ⟨0, 0, 0, 0, [], BTmr.State.new tolerance⟩ := rfl
  rw [← e] at h1 h2 h3 h4 h5
  have hlen : environments.length = 7 := rfl
  rw [hlen] at h1 h2
  simp only [Nat.zero_add] at h1 h2 h3 h4
  simp only [List.nil_append] at h5
  have hc : (run d).corrections ≤ 1400 := by
    rw [h3]
    simp only [environments, List.zipIdx_cons, List.zipIdx_nil, List.map_cons, List.map_nil, List.sum_cons, List.sum_nil]
    have := fun n k => right_le (objectIn n) (rateIn n) (d k) 200
    have a0 := this "NONE" 0
    have a1 := this "LEO" 1
    have a2 := this "GEO" 2
    have a3 := this "SAA" 3
    have a4 := this "MARS" 4
    have a5 := this "SOLAR_STORM" 5
    have a6 := this "JUPITER" 6
    simp only [Nat.zero_add, Nat.reduceAdd]
    omega
  refine ⟨h2, h1, h3, h4, h5, ?_, ?_, ?_, ?_, ?_⟩
  · rw [h5]; simp [environments, part, sampled]
  · intro r hr
    rw [h5, List.mem_flatMap] at hr
    obtain ⟨x, _, hx⟩ := hr
    unfold part at hx
    rw [List.mem_map] at hx
    obtain ⟨i, hi, rfl⟩ := hx
    have hle := right_le (objectIn x.1) (rateIn x.1) (d x.2) (i + 1)
    have hle' : (right (objectIn x.1) (rateIn x.1) (d x.2) (i + 1) : ℚ) ≤ i + 1 := by exact_mod_cast hle
    have hpos : (0 : ℚ) < i + 1 := by positivity
    refine ⟨i, hi, hle, flagged_le _ _ _ _, ?_, ?_, ?_, rfl⟩
    · simp only [rowOf]; ring
    · simp only [rowOf]; positivity
    · simp only [rowOf]
      have : (right (objectIn x.1) (rateIn x.1) (d x.2) (i + 1) : ℚ) / (i + 1) ≤ 1 := (div_le_one hpos).2 hle'
      linarith
  · unfold Run.success; rw [h2]; push_cast; ring
  · unfold Run.success; positivity
  · unfold Run.success
    rw [h2]
    have : ((run d).corrections : ℚ) ≤ 1400 := by exact_mod_cast hc
    push_cast
    rw [div_mul_eq_mul_div, div_le_iff₀ (by norm_num)]
    linarith

/-- C288, defect. The level never changes: in all seven environments, from the clean room to Jupiter, and in the lunar one the tool is at "Basic TMR" with a checkpoint every
30 s. -/
theorem C288_level_violated (d : ℕ → Draws) :
    (∀ n ∈ "LUNAR" :: environments, (objectIn n).level = 1 ∧ (objectIn n).interval = 30) ∧
    (∀ r ∈ (run d).rows, r.level = 1 ∧ r.name = "Basic TMR" ∧ r.interval = 30) := by
  have key : ∀ n ∈ "LUNAR" :: environments, (objectIn n).level = 1 ∧ (objectIn n).interval = 30 := by decide +kernel
  refine ⟨key, ?_⟩
  intro r hr
  rw [(C288_report d).2.2.2.2.1, List.mem_flatMap] at hr
  obtain ⟨x, hx, hx'⟩ := hr
  rw [List.mem_map] at hx'
  obtain ⟨i, _, rfl⟩ := hx'
  have hm : x.1 ∈ environments := by
    have := List.mem_zipIdx hx
    obtain ⟨_, _, h⟩ := this
    rw [h]
    exact List.getElem_mem _
  have := key x.1 (List.mem_cons_of_mem _ hm)
  exact ⟨this.1, by simp only [rowOf]; rw [this.1]; rfl, this.2⟩

theorem op_clean (rate : ℚ) (u : ℝ) (h : (rate : ℝ) ≤ u) : operation rate u = 42 := by unfold operation; rw [if_neg (not_lt.2 h)]
theorem op_bad (rate : ℚ) (u : ℝ) (h : u < (rate : ℝ)) : operation rate u = -999 := by unfold operation; rw [if_pos h]

theorem right_all (p : BTmr.State) (rate : ℚ) (d : Draws) (k : ℕ) (h : ∀ i < k, (protectedOp p rate d i).value = 42) : right p rate d k = k := by
  unfold right
  rw [List.filter_eq_self.2 (fun i hi => by simpa using h i (List.mem_range.1 hi))]
  simp

theorem flagged_none (p : BTmr.State) (rate : ℚ) (d : Draws) (k : ℕ) (h : ∀ i < k, (protectedOp p rate d i).detected = false) : flagged p rate d k = 0 := by
  unfold flagged
  rw [List.filter_eq_nil_iff.2 (fun i hi => by simpa using h i (List.mem_range.1 hi))]
  rfl

theorem totals (d : ℕ → Draws) (hr : ∀ k < 7, ∀ n ∈ environments, right (objectIn n) (rateIn n) (d k) 200 = 200)
    (hf : ∀ k < 7, ∀ n ∈ environments, flagged (objectIn n) (rateIn n) (d k) 200 = 0) : (run d).corrections = 1400 ∧ (run d).errors = 0 := by
  obtain ⟨_, _, h3, h4, _⟩ := C288_report d
  constructor
  · rw [h3]
    simp only [environments, List.zipIdx_cons, List.zipIdx_nil, List.map_cons, List.map_nil, List.sum_cons, List.sum_nil, Nat.zero_add, Nat.reduceAdd]
    rw [hr 0 (by decide) _ (by decide), hr 1 (by decide) _ (by decide), hr 2 (by decide) _ (by decide), hr 3 (by decide) _ (by decide), hr 4 (by decide) _ (by decide),
      hr 5 (by decide) _ (by decide), hr 6 (by decide) _ (by decide)]
    all_goals norm_num
  · rw [h4]
    simp only [environments, List.zipIdx_cons, List.zipIdx_nil, List.map_cons, List.map_nil, List.sum_cons, List.sum_nil, Nat.zero_add, Nat.reduceAdd]
    rw [hf 0 (by decide) _ (by decide), hf 1 (by decide) _ (by decide), hf 2 (by decide) _ (by decide), hf 3 (by decide) _ (by decide), hf 4 (by decide) _ (by decide),
      hf 5 (by decide) _ (by decide), hf 6 (by decide) _ (by decide)]
    all_goals norm_num

theorem rate_le (n : String) : ((rateIn n : ℚ) : ℝ) ≤ 1 / 2 := by
  have := (C287_rate (createEnvironment n)).2.1
  have h : rateIn n ≤ 1 / 2 := this
  have h2 : ((rateIn n : ℚ) : ℝ) ≤ ((1 / 2 : ℚ) : ℝ) := Rat.cast_le.2 h
  refine le_trans h2 (le_of_eq ?_)
  push_cast
  ring

/-- C288, defect. "Total corrections applied" counts every operation that returned the right value: a run in which no draw damages anything reports 1400 corrections and no
error. -/
theorem C288_corrections_violated (d : ℕ → Draws) (h : ∀ k i j, 1 / 2 ≤ (d k).u i j) :
    (run d).corrections = 1400 ∧ (run d).errors = 0 ∧ (run d).success = 100 := by
  have clean : ∀ k n i j, operation (rateIn n) ((d k).u i j) = 42 := fun k n i j => op_clean _ _ (le_trans (rate_le n) (h k i j))
  have key : ∀ k n i, n ∈ environments → protectedOp (objectIn n) (rateIn n) (d k) i = ⟨42, false, false⟩ := by
    intro k n i hn
    unfold protectedOp
    rw [((C288_level_violated d).1 n (List.mem_cons_of_mem _ hn)).1]
    simp [BTmr.executeProtected, BTmr.execBasic, clean]
  have t := totals d (fun k _ n hn => right_all _ _ _ _ fun i _ => by rw [key k n i hn]) (fun k _ n hn => flagged_none _ _ _ _ fun i _ => by rw [key k n i hn])
  refine ⟨t.1, t.2, ?_⟩
  rw [(C288_report d).2.2.2.2.2.2.2.1, t.1]
  norm_num

example : ∃ d : ℕ → Draws, ∀ k i j, (1 / 2 : ℝ) ≤ (d k).u i j := ⟨fun _ => ⟨fun _ _ => 1, fun _ => true⟩, fun _ _ _ => by norm_num⟩

/-- C288, defect. Damage in the second execution of every operation of the run is repaired but never reported: no error detected. -/
theorem C288_errors_violated (d : ℕ → Draws) (h : ∀ k i j, j ≠ 1 → 1 / 2 ≤ (d k).u i j) (h1 : ∀ k i, (d k).u i 1 ≤ 0) :
    (∀ n ∈ environments, ∀ k i, operation (rateIn n) ((d k).u i 1) = -999) ∧ (run d).errors = 0 ∧ (run d).corrections = 1400 := by
  have pos : ∀ n ∈ environments, 0 < rateIn n := by decide +kernel
  have bad : ∀ n ∈ environments, ∀ k i, operation (rateIn n) ((d k).u i 1) = -999 := fun n hn k i =>
    op_bad _ _ (lt_of_le_of_lt (h1 k i) (by exact_mod_cast pos n hn))
  have clean : ∀ k n i j, j ≠ 1 → operation (rateIn n) ((d k).u i j) = 42 := fun k n i j hj => op_clean _ _ (le_trans (rate_le n) (h k i j hj))
  have key : ∀ k n i, n ∈ environments → protectedOp (objectIn n) (rateIn n) (d k) i = ⟨42, false, false⟩ := by
    intro k n i hn
    unfold protectedOp
    rw [((C288_level_violated d).1 n (List.mem_cons_of_mem _ hn)).1]
    simp [BTmr.executeProtected, BTmr.execBasic, clean, bad n hn]
  have t := totals d (fun k _ n hn => right_all _ _ _ _ fun i _ => by rw [key k n i hn]) (fun k _ n hn => flagged_none _ _ _ _ fun i _ => by rw [key k n i hn])
  exact ⟨bad, t.2, t.1⟩

example : ∃ d : ℕ → Draws, (∀ k i j, j ≠ 1 → (1 / 2 : ℝ) ≤ (d k).u i j) ∧ ∀ k i, (d k).u i 1 ≤ 0 :=
  ⟨fun _ => ⟨fun _ j => if j = 1 then 0 else 1, fun _ => true⟩, fun _ _ j hj => by simp [hj]; norm_num, fun _ _ => by simp⟩

/-- C288. The six levels are printed under six different names, and the two special environments, and only they among the seven, put the protection object into a phase of their own:
whatever it was before, the anomaly into that of a crossing and the storm into that of a storm, for which the threat counts one and a half times and twice. -/
theorem C288_names : ((List.finRange 6).map levelName = ["None", "Basic TMR", "Enhanced TMR", "Stuck-Bit TMR", "Health-Weighted TMR", "Hybrid Redundancy"]) ∧
    (∀ p : BTmr.State, environments.map (fun n => (visit p n).phase) = ["NOMINAL", "NOMINAL", "NOMINAL", "SAA_CROSSING", "NOMINAL", "SOLAR_STORM", "NOMINAL"]) ∧
    ∀ (p : BTmr.State) (e : BTmr.Env) (t : ℚ), BTmr.threat e t (visit p "SOLAR_STORM").phase = 2 * BTmr.threat e t (visit p "GEO").phase ∧
      BTmr.threat e t (visit p "SAA").phase = 3 / 2 * BTmr.threat e t (visit p "GEO").phase := by
  have ph : ∀ (p : BTmr.State) (n : String), (visit p n).phase = phase n := fun _ _ => rfl
  refine ⟨by decide +kernel, fun p => ?_, fun p e t => ?_⟩
  · rw [show (fun n => (visit p n).phase) = phase from funext fun n => ph p n]
    decide +kernel
  · simp only [ph]
    have h1 : phase "SOLAR_STORM" = "SOLAR_STORM" := by decide +kernel
    have h2 : phase "SAA" = "SAA_CROSSING" := by decide +kernel
    have h3 : phase "GEO" = "NOMINAL" := by decide +kernel
    rw [h1, h2, h3]
    constructor
    · simp [BTmr.threat]; ring
    · simp [BTmr.threat]; ring

end Verif.Props.Visualizer
