import Verif.Model.NeuralMission
import Mathlib.Tactic.NormNum
import Mathlib.Tactic.Linarith
/-! Properties C315–C317: the space mission test for neural networks (/repo/src/test/space_mission_neural_test.cpp). -/
namespace Verif.Props.NeuralMission
open Verif.NeuralMission Verif Classical

/-! ### C315 — the phases sampled -/

theorem step_pos (n : ℕ) : 0 < step n := lt_of_lt_of_le Nat.one_pos (le_max_left _ _)

theorem visit_mem (n : ℕ) : ∀ (fuel i : ℕ), n ≤ i + fuel → ∀ j, j ∈ visit n fuel i ↔ i ≤ j ∧ j < n ∧ step n ∣ j - i := by
  intro fuel
  induction fuel with
  | zero =>
    intro i h j
    simp only [visit, List.not_mem_nil, false_iff]
    omega
  | succ fuel ih =>
    intro i h j
    have hs := step_pos n
    simp only [visit]
    by_cases hi : i < n
    · rw [if_pos hi, List.mem_cons, ih (i + step n) (by omega) j]
      constructor
      · rintro (rfl | ⟨h1, h2, h3⟩)
        · exact ⟨le_rfl, hi, by simp⟩
        · refine ⟨by omega, h2, ?_⟩
          rw [show j - i = (j - (i + step n)) + step n by omega]
          exact Nat.dvd_add h3 (dvd_refl _)
      · rintro ⟨h1, h2, h3⟩
        by_cases e : j = i
        · exact Or.inl e
        · right
          have : step n ≤ j - i := Nat.le_of_dvd (by omega) h3
          refine ⟨by omega, h2, ?_⟩
          have e2 : j - (i + step n) = (j - i) - step n := by omega
          rw [e2]
          exact Nat.dvd_sub h3 (dvd_refl _)
    · rw [if_neg hi]
      simp only [List.not_mem_nil, false_iff]
      omega

/-- C315: the phases simulated are those whose index is a multiple of a third of the number of phases, rounded down (of 1 if there are fewer than three). -/
theorem C315_sampled_exactly (n j : ℕ) : j ∈ sampled n ↔ j < n ∧ max 1 (n / 3) ∣ j := by
  have := visit_mem n n 0 (by omega) j
  rw [show sampled n = visit n n 0 from rfl, this]
  simp [step]

theorem visit_sorted (n : ℕ) : ∀ (fuel i : ℕ), (visit n fuel i).Pairwise (· < ·) ∧ ∀ j ∈ visit n fuel i, i ≤ j := by
  intro fuel
  induction fuel with
  | zero => intro i; simp [visit]
  | succ fuel ih =>
    intro i
    have hs := step_pos n
    simp only [visit]
    by_cases hi : i < n
    · rw [if_pos hi]
      obtain ⟨h1, h2⟩ := ih (i + step n)
      refine ⟨List.pairwise_cons.2 ⟨fun j hj => ?_, h1⟩, ?_⟩
      · have := h2 j hj; omega
      · intro j hj
        rcases List.mem_cons.1 hj with rfl | hj
        · exact le_rfl
        · have := h2 j hj; omega
    · rw [if_neg hi]; simp

/-- C315: in the order of the mission, none twice, the first always. -/
theorem C315_sampled_order (n : ℕ) : (sampled n).Pairwise (· < ·) ∧ (0 < n → 0 ∈ sampled n) :=
  ⟨(visit_sorted n n 0).1, fun h => (C315_sampled_exactly n 0).2 ⟨h, by simp⟩⟩

theorem visit_length (n : ℕ) : ∀ (fuel i : ℕ), n ≤ i + fuel → (visit n fuel i).length * step n < n - i + step n ∧ n - i ≤ (visit n fuel i).length * step n := by
  intro fuel
  induction fuel with
  | zero => intro i h; have := step_pos n; simp [visit]; omega
  | succ fuel ih =>
    intro i h
    have hs := step_pos n
    simp only [visit]
    by_cases hi : i < n
    · rw [if_pos hi, List.length_cons, Nat.add_mul, Nat.one_mul]
      have hk := ih (i + step n) (by omega)
      generalize (visit n fuel (i + step n)).length = k at hk
      rcases Nat.eq_zero_or_pos k with rfl | hk0
      · omega
      · have : 1 * step n ≤ k * step n := Nat.mul_le_mul_right _ hk0
        omega
    · rw [if_neg hi]; simp; omega

/-- C315: the number of phases simulated is the number of phases divided by the step, rounded up: all of up to five phases, and three to five otherwise. -/
theorem C315_sampled_count (n : ℕ) : (n ≤ 5 → (sampled n).length = n) ∧ (3 ≤ n → 3 ≤ (sampled n).length ∧ (sampled n).length ≤ 5) := by
  have h := visit_length n n 0 (by omega)
  have e : (sampled n).length = (visit n n 0).length := rfl
  rw [e]
  generalize (visit n n 0).length = k at h
  have hs : step n = max 1 (n / 3) := rfl
  rw [hs] at h
  constructor
  · intro hn
    have : max 1 (n / 3) = 1 := by omega
    rw [this] at h
    omega
  · intro hn
    have e3 : max 1 (n / 3) = n / 3 := by omega
    rw [e3] at h
    generalize hd : n / 3 = d at h
    have hd1 : 3 * d ≤ n := by omega
    have hd2 : n < 3 * d + 3 := by omega
    have hd0 : 1 ≤ d := by omega
    constructor
    · by_contra hc
      have : k * d ≤ 2 * d := Nat.mul_le_mul_right d (by omega)
      omega
    · by_contra hc
      have : 6 * d ≤ k * d := Nat.mul_le_mul_right d (by omega)
      omega

/-- C315: three phases are announced; for five (the standard Jupiter mission) five are simulated, for seven or eight four. -/
theorem C315_three_announced_violated : (sampled 5).length = 5 ∧ (sampled 7).length = 4 ∧ (sampled 8).length = 4 ∧ (SpaceMission.standard .jupiter).phases.length = 5 :=
  ⟨by decide, by decide, by decide, rfl⟩

/-- C315: every phase lies less than a step after one that is simulated. -/
theorem C315_phase_near_sample (n j : ℕ) (h : j < n) : ∃ i ∈ sampled n, i ≤ j ∧ j < i + max 1 (n / 3) := by
  refine ⟨j - j % max 1 (n / 3), ?_, Nat.sub_le _ _, ?_⟩
  · rw [C315_sampled_exactly]
    refine ⟨lt_of_le_of_lt (Nat.sub_le _ _) h, Nat.dvd_sub_mod j⟩
  · have : j % max 1 (n / 3) < max 1 (n / 3) := Nat.mod_lt _ (lt_of_lt_of_le Nat.one_pos (le_max_left _ _))
    have := Nat.mod_le j (max 1 (n / 3))
    omega

/-- C315: for the Moon and Mars missions launch, orbit and return transfer are simulated, the operations on the surface are not. -/
theorem C315_surface_skipped_violated :
    (sampled (SpaceMission.standard .moon).phases.length).map (fun i => ((SpaceMission.standard .moon).phases.map (·.name))[i]?) = [some "Launch", some "Lunar Orbit", some "Moon-Earth Transfer"] ∧
    (sampled (SpaceMission.standard .mars).phases.length).map (fun i => ((SpaceMission.standard .mars).phases.map (·.name))[i]?) = [some "Launch", some "Mars Orbit", some "Mars-Earth Transfer"] := by
  have e1 : (SpaceMission.standard .moon).phases.length = 6 := rfl
  have e2 : (SpaceMission.standard .mars).phases.length = 6 := rfl
  have e3 : sampled 6 = [0, 2, 4] := by decide
  rw [e1, e2, e3]
  exact ⟨rfl, rfl⟩

/-! ### C316 — the mock network -/

theorem fold_half (l : List ℝ) : ∀ a : ℝ, l.foldl (fun a x => a + x * (1 / 2)) a = a + l.sum / 2 := by
  induction l with
  | nil => intro a; simp
  | cons x l ih => intro a; simp only [List.foldl_cons, List.sum_cons]; rw [ih]; ring

/-- C316: each of the four outputs is half the sum of the inputs, with the sign changed exactly if its draw is below the probability. -/
theorem C316_forward_outputs (input : List ℝ) (p : ℝ) (draw : ℕ → ℝ) :
    forward input p draw = [0, 1, 2, 3].map fun i : ℕ => if draw i < p then -(input.sum / 2) else input.sum / 2 := by
  unfold forward
  have e : List.range 4 = [0, 1, 2, 3] := rfl
  rw [e]
  refine List.map_congr_left fun i _ => ?_
  dsimp only
  rw [fold_half, zero_add]

theorem hasError_iff (input : List ℝ) (p : ℝ) (draw : ℕ → ℝ) :
    hasError (forward input p draw) ↔ ∃ i < 4, (if draw i < p then -(input.sum / 2) else input.sum / 2) < 0 := by
  rw [C316_forward_outputs]
  unfold hasError
  constructor
  · rintro ⟨r, hr, h⟩
    obtain ⟨i, hi, rfl⟩ := List.mem_map.1 hr
    refine ⟨i, ?_, h⟩
    simp only [List.mem_cons, List.not_mem_nil, or_false] at hi
    omega
  · rintro ⟨i, hi, h⟩
    refine ⟨_, List.mem_map.2 ⟨i, ?_, rfl⟩, h⟩
    simp only [List.mem_cons, List.not_mem_nil, or_false]
    omega

/-- C316: if the inputs have a positive sum, as the sample input has, an error is reported exactly if some output was flipped. -/
theorem C316_error_detected (input : List ℝ) (h : 0 < input.sum) (p : ℝ) (draw : ℕ → ℝ) : hasError (forward input p draw) ↔ ∃ i < 4, draw i < p := by
  rw [hasError_iff]
  refine exists_congr fun i => and_congr_right fun _ => ?_
  by_cases hd : draw i < p
  · rw [if_pos hd]
    constructor
    · exact fun _ => hd
    · intro _; linarith
  · rw [if_neg hd]
    constructor
    · intro hc; linarith
    · exact fun hc => absurd hc hd

theorem sampleInput_sum : sampleInput.sum = 11 / 5 := by norm_num [sampleInput]

/-- C316: on the sample input, with draws in [0, 1), no error is reported at probability 0 or below and always one at probability 1 or more. -/
theorem C316_sample_extremes (p : ℝ) (draw : ℕ → ℝ) (hd : ∀ i, 0 ≤ draw i ∧ draw i < 1) :
    (p ≤ 0 → ¬ hasError (forward sampleInput p draw)) ∧ (1 ≤ p → hasError (forward sampleInput p draw)) := by
  have hs : 0 < sampleInput.sum := by rw [sampleInput_sum]; norm_num
  rw [C316_error_detected sampleInput hs]
  constructor
  · rintro h ⟨i, -, hi⟩
    linarith [(hd i).1]
  · intro h
    exact ⟨0, by norm_num, lt_of_lt_of_le (hd 0).2 h⟩

/-- C316: errors are recognised by their sign: for inputs of sum 0 no flip is ever reported, and for a negative sum an undamaged result is reported as an error and one with all four outputs flipped is not. -/
theorem C316_sign_only_violated (input : List ℝ) (p : ℝ) (draw : ℕ → ℝ) :
    (input.sum = 0 → ¬ hasError (forward input p draw)) ∧ (input.sum < 0 → (∀ i < 4, ¬ draw i < p) → hasError (forward input p draw)) ∧
    (input.sum < 0 → (∀ i < 4, draw i < p) → ¬ hasError (forward input p draw)) := by
  simp only [hasError_iff]
  refine ⟨?_, ?_, ?_⟩
  · rintro h ⟨i, -, hi⟩
    rw [h] at hi
    simp at hi
  · intro h hd
    refine ⟨0, by norm_num, ?_⟩
    rw [if_neg (hd 0 (by norm_num))]
    linarith
  · rintro h hd ⟨i, hi4, hi⟩
    rw [if_pos (hd i hi4)] at hi
    linarith

example : (0:ℝ) < sampleInput.sum ∧ ([1, -1] : List ℝ).sum = 0 ∧ ([-1] : List ℝ).sum < 0 := by
  refine ⟨by rw [sampleInput_sum]; norm_num, by norm_num, by norm_num⟩

/-! ### C317 — counts, rates and the summary -/

/-- How many of the inferences of a phase show an error. -/
noncomputable def faulty (input : List ℝ) (p : ℝ) (ss : List ((ℕ → ℝ) × ℕ)) : ℕ := ss.countP fun s => decide (hasError (forward input p s.1))

/-- How many of them are put down to layer `l`. -/
noncomputable def faultyIn (input : List ℝ) (p : ℝ) (l : ℕ) (ss : List ((ℕ → ℝ) × ℕ)) : ℕ := ss.countP fun s => decide (hasError (forward input p s.1)) && decide (s.2 = l)

theorem infer_fold (input : List ℝ) (p : ℝ) (ss : List ((ℕ → ℝ) × ℕ)) : ∀ t : Tally,
    (ss.foldl (infer input p) t).errors = t.errors + faulty input p ss ∧ ∀ l, (ss.foldl (infer input p) t).byLayer l = t.byLayer l + faultyIn input p l ss := by
  induction ss with
  | nil => intro t; simp [faulty, faultyIn]
  | cons s ss ih =>
    intro t
    obtain ⟨h1, h2⟩ := ih (infer input p t s)
    simp only [List.foldl_cons, faulty, faultyIn, List.countP_cons] at *
    rw [h1]
    by_cases hs : hasError (forward input p s.1)
    · refine ⟨by simp [infer, hs]; omega, fun l => ?_⟩
      rw [h2]
      by_cases hl : l = s.2
      · simp [infer, hs, hl]; omega
      · simp [infer, hs, hl, Ne.symm hl]
    · refine ⟨by simp [infer, hs], fun l => ?_⟩
      rw [h2]
      simp [infer, hs]

/-- C317: the error count of a phase is the number of inferences with an error, and each layer's count the number of those put down to it. -/
theorem C317_tally (input : List ℝ) (p : ℝ) (ss : List ((ℕ → ℝ) × ℕ)) :
    (inferences input p ss).errors = faulty input p ss ∧ ∀ l, (inferences input p ss).byLayer l = faultyIn input p l ss := by
  have := infer_fold input p ss {}
  simpa [inferences] using this

/-- C317: the rates of the four layers add up to the rate of the phase, and with ten inferences all of them lie between 0 and 1. -/
theorem C317_rates (input : List ℝ) (p : ℝ) (ss : List ((ℕ → ℝ) × ℕ)) (hl : ∀ s ∈ ss, s.2 < 4) (hn : ss.length = 10) :
    layerRate (inferences input p ss) 0 + layerRate (inferences input p ss) 1 + layerRate (inferences input p ss) 2 + layerRate (inferences input p ss) 3 = phaseRate (inferences input p ss) ∧
    0 ≤ phaseRate (inferences input p ss) ∧ phaseRate (inferences input p ss) ≤ 1 ∧
    ∀ l, 0 ≤ layerRate (inferences input p ss) l ∧ layerRate (inferences input p ss) l ≤ phaseRate (inferences input p ss) := by
  obtain ⟨h1, h2⟩ := C317_tally input p ss
  have hsum : faultyIn input p 0 ss + faultyIn input p 1 ss + faultyIn input p 2 ss + faultyIn input p 3 ss = faulty input p ss := by
    clear h1 h2 hn
    unfold faultyIn faulty
    induction ss with
    | nil => simp
    | cons s ss ih =>
      have hi := ih fun x hx => hl x (by simp [hx])
      have hs := hl s (by simp)
      simp only [List.countP_cons]
      by_cases he : hasError (forward input p s.1)
      · have : s.2 = 0 ∨ s.2 = 1 ∨ s.2 = 2 ∨ s.2 = 3 := by omega
        rcases this with h | h | h | h <;> simp [he, h] <;> omega
      · simp [he]; omega
  have hle : faulty input p ss ≤ 10 := hn ▸ List.countP_le_length
  have hsub : ∀ l, faultyIn input p l ss ≤ faulty input p ss := by
    intro l
    unfold faultyIn faulty
    exact List.countP_mono_left fun s _ h => (Bool.and_eq_true _ _ ▸ h).1
  simp only [layerRate, phaseRate, h1, h2]
  have hs' : (faultyIn input p 0 ss : ℝ) + faultyIn input p 1 ss + faultyIn input p 2 ss + faultyIn input p 3 ss = faulty input p ss := by exact_mod_cast hsum
  have hle' : (faulty input p ss : ℝ) ≤ 10 := by exact_mod_cast hle
  refine ⟨by linarith, by positivity, by linarith, fun l => ⟨by positivity, ?_⟩⟩
  have : (faultyIn input p l ss : ℝ) ≤ faulty input p ss := by exact_mod_cast hsub l
  linarith

/-- Looking up a key. -/
def get (k : String) (m : List (String × ℝ)) : Option ℝ := (m.find? fun e => decide (e.1 = k)).map (·.2)

theorem get_put (k j : String) (v : ℝ) (m : List (String × ℝ)) : get j (put k v m) = if j = k then some v else get j m := by
  induction m with
  | nil =>
    by_cases h : j = k
    · subst h; simp [put, get]
    · simp [put, get, h, Ne.symm h]
  | cons e m ih =>
    simp only [put]
    by_cases h1 : e.1 = k
    · rw [if_pos h1]
      by_cases h : j = k
      · subst h; simp [get]
      · have h' : ¬ k = j := Ne.symm h
        have h'' : ¬ e.1 = j := h1 ▸ h'
        simp [get, h, h', h'']
    · rw [if_neg h1]
      by_cases h2 : k < e.1
      · rw [if_pos h2]
        by_cases h : j = k
        · subst h; simp [get]
        · have h' : ¬ k = j := Ne.symm h
          simp [get, h, h']
      · rw [if_neg h2]
        by_cases h3 : e.1 = j
        · have : ¬ j = k := fun c => h1 (h3.trans c)
          simp [get, h3, this]
        · have e1 : ∀ m : List (String × ℝ), get j (e :: m) = get j m := by intro m; simp [get, h3]
          rw [e1, e1, ih]

/-- C317: the rate kept for a name is that of the last phase of this name; other phases of the same name are lost. -/
theorem C317_last_of_name (ps : List (String × ℝ)) (k : String) : get k (rates ps) = get k ps.reverse := by
  unfold rates
  induction ps using List.reverseRecOn with
  | nil => rfl
  | append_singleton ps p ih =>
    rw [List.foldl_append, List.foldl_cons, List.foldl_nil, get_put, ih, List.reverse_append, List.reverse_singleton, List.singleton_append]
    by_cases h : k = p.1
    · rw [if_pos h]; simp [get, h]
    · rw [if_neg h]; simp [get, Ne.symm h]

/-- C317: with two phases of one name the summary can miss the worst: the most vulnerable phase is not the most vulnerable of the phases simulated. -/
theorem C317_same_name_violated : (mostVulnerable (rates [("Orbit", 1), ("Orbit", 0)])).2 = 0 := by
  simp [rates, put, mostVulnerable]

theorem vulnerable_fold (m : List (String × ℝ)) : ∀ b : String × ℝ,
    b.2 ≤ (m.foldl (fun b e => if b.2 < e.2 then e else b) b).2 ∧ (∀ e ∈ m, e.2 ≤ (m.foldl (fun b e => if b.2 < e.2 then e else b) b).2) ∧
    (m.foldl (fun b e => if b.2 < e.2 then e else b) b = b ∨ m.foldl (fun b e => if b.2 < e.2 then e else b) b ∈ m) := by
  induction m with
  | nil => intro b; simp
  | cons x m ih =>
    intro b
    simp only [List.foldl_cons]
    obtain ⟨h1, h2, h3⟩ := ih (if b.2 < x.2 then x else b)
    by_cases hx : b.2 < x.2
    · rw [if_pos hx] at *
      refine ⟨le_trans hx.le h1, ?_, Or.inr ?_⟩
      · intro e he
        rcases List.mem_cons.1 he with rfl | he
        · exact h1
        · exact h2 e he
      · rcases h3 with h3 | h3
        · rw [h3]; simp
        · exact List.mem_cons_of_mem _ h3
    · rw [if_neg hx] at *
      refine ⟨h1, ?_, ?_⟩
      · intro e he
        rcases List.mem_cons.1 he with rfl | he
        · exact le_trans (not_lt.1 hx) h1
        · exact h2 e he
      · rcases h3 with h3 | h3
        · exact Or.inl h3
        · exact Or.inr (List.mem_cons_of_mem _ h3)

/-- C317: the most vulnerable entry has the highest of all rates; it is one of the entries, or the empty name with rate 0 if no rate is above 0. -/
theorem C317_most_vulnerable (m : List (String × ℝ)) :
    (∀ e ∈ m, e.2 ≤ (mostVulnerable m).2) ∧ (mostVulnerable m ∈ m ∨ mostVulnerable m = ("", 0)) ∧ ((∀ e ∈ m, e.2 ≤ 0) → mostVulnerable m = ("", 0)) := by
  obtain ⟨h1, h2, h3⟩ := vulnerable_fold m ("", 0)
  refine ⟨h2, h3.symm, ?_⟩
  intro h
  unfold mostVulnerable
  clear h1 h2 h3
  induction m with
  | nil => rfl
  | cons x m ih =>
    rw [List.foldl_cons, if_neg (not_lt.2 (h x (by simp)))]
    exact ih fun e he => h e (by simp [he])

/-- C317: every target has a profile; Venus, Mercury, Saturn, the belts and the solar polar mission are treated as deep space. -/
theorem C317_profile (t : SpaceMission.Target) :
    (profile t = .earthOrbit ↔ t = .leo ∨ t = .meo ∨ t = .geo) ∧ (profile t = .lunar ↔ t = .moon) ∧ (profile t = .mars ↔ t = .mars) ∧
    (profile t = .jupiter ↔ t = .jupiter) ∧ (profile t = .solar ↔ t = .solarProbe) ∧
    (profile t = .deepSpace ↔ t = .venus ∨ t = .mercury ∨ t = .saturn ∨ t = .asteroidBelt ∨ t = .kuiperBelt ∨ t = .solarPolar) := by
  cases t <;> decide

example : (inferences sampleInput 1 [(fun _ => 0, 2)]).errors = 1 := by
  rw [(C317_tally _ _ _).1]
  have := (C316_sample_extremes 1 (fun _ => 0) (by intro i; norm_num)).2 le_rfl
  simp [faulty, this]

end Verif.Props.NeuralMission
