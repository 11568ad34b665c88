import Verif.Model.NasaRunner
import Verif.Props.NasaProtocol
/-!
C262: the program that runs the NASA/ESA verification and exports its results.
-/
namespace Verif.Props.NasaRunnerP
open Verif Verif.NasaModel Verif.NasaRunner Verif.Props.NasaP Classical

/-- **C262.** The CSV file has three rows for each assessed environment, one for each evaluated technique and one for each suitability verdict, in the order of the report;
its rate, technique and suitability rows say PASS exactly where the report does. -/
theorem C262_rows (r : Report) :
    (csvRows r).length = 3 * r.assessments.length + r.evaluations.length + r.suitabilities.length ∧
    (∀ a ∈ r.assessments, ∃ row ∈ csvRows r, row.item = .seuRate a.env ∧ row.value = a.seuRate ∧ row.threshold = .fin a.threshold ∧ (row.pass = true ↔ a.status = .pass)) ∧
    (∀ e ∈ r.evaluations, ∃ row ∈ csvRows r, row.item = .effectiveness e.tech ∧ row.value = .fin e.effectiveness ∧ row.threshold = .fin e.reference ∧
      (row.pass = true ↔ e.status = .pass)) ∧
    (∀ s ∈ r.suitabilities, ∃ row ∈ csvRows r, row.item = .suitable s.env ∧ row.pass = s.suitable) ∧
    ∀ row ∈ csvRows r, (∃ a ∈ r.assessments, row ∈ assessmentRows a) ∨ (∃ e ∈ r.evaluations, row = evaluationRow e) ∨ ∃ s ∈ r.suitabilities, row = suitabilityRow s := by
  refine ⟨?_, ?_, ?_, ?_, ?_⟩
  · unfold csvRows
    rw [List.length_append, List.length_append, List.length_flatMap, List.length_map, List.length_map]
    have : (r.assessments.map fun a => (assessmentRows a).length) = List.replicate r.assessments.length 3 := by
      rw [List.eq_replicate_iff]; exact ⟨by simp, fun x hx => by obtain ⟨a, _, rfl⟩ := List.mem_map.1 hx; rfl⟩
    rw [this, List.sum_replicate, smul_eq_mul, mul_comm]
  · intro a ha
    refine ⟨_, List.mem_append_left _ (List.mem_append_left _ (List.mem_flatMap.2 ⟨a, ha, List.mem_cons_self ..⟩)), rfl, rfl, rfl, ?_⟩
    exact decide_eq_true_iff
  · intro e he
    refine ⟨evaluationRow e, List.mem_append_left _ (List.mem_append_right _ (List.mem_map.2 ⟨e, he, rfl⟩)), rfl, rfl, rfl, ?_⟩
    exact decide_eq_true_iff
  · intro s hs
    exact ⟨suitabilityRow s, List.mem_append_right _ (List.mem_map.2 ⟨s, hs, rfl⟩), rfl, rfl⟩
  · intro row h
    rcases List.mem_append.1 h with h | h
    · rcases List.mem_append.1 h with h | h
      · exact Or.inl (List.mem_flatMap.1 h)
      · obtain ⟨e, he, rfl⟩ := List.mem_map.1 h
        exact Or.inr (Or.inl ⟨e, he, rfl⟩)
    · obtain ⟨s, hs, rfl⟩ := List.mem_map.1 h
      exact Or.inr (Or.inr ⟨s, hs, rfl⟩)

theorem let_average (ms : List Measurement) : average ((ms.map metrics).map (·.letThreshold)) = .fin 0 ∨ average ((ms.map metrics).map (·.letThreshold)) = .nan := by
  have e : (ms.map metrics).map (·.letThreshold) = (ms.map fun _ => (0 : ℝ)).map XD.fin := by
    rw [List.map_map, List.map_map]; rfl
  rw [e]
  by_cases h : ms = []
  · right; subst h; simp [average, accumulate, XD.div_zero_zero]
  · left
    rw [average_fin _ (by simpa using h)]
    simp [mean]

/-- **C262, violated: threshold of the energy transfer.** The protocol never measures the LET threshold, so whatever happens in the trials the row says FAIL for every
environment, even where nothing is required. -/
theorem C262_let_violated (env : Env) (ms : List Measurement) :
    ∃ row ∈ assessmentRows (assess env (ms.map metrics)), row.item = .letThreshold env ∧ row.pass = false := by
  refine ⟨_, List.mem_cons_of_mem _ (List.mem_cons_self ..), rfl, ?_⟩
  have h : (assess env (ms.map metrics)).letThreshold = average ((ms.map metrics).map (·.letThreshold)) := rfl
  dsimp only
  rw [h, decide_eq_false_iff_not]
  rcases let_average ms with e | e
  · rw [e, XD.le_fin]; norm_num
  · rw [e]; simp [XD.le, XD.lt, XD.eq]

example : letRequired .saa = 0 ∧ letRequired .vanAllen = 0 := ⟨rfl, rfl⟩

theorem mtbf_cases (m : Measurement) (h : 0 < m.events) : NN (metrics m).mtbf := by
  obtain ⟨_, _, _, _, _, h1, h2⟩ := C178_metrics m h
  rcases Nat.eq_zero_or_pos m.errors with he | he
  · rw [h1 he]; trivial
  · rw [h2 he]; show (0 : ℝ) ≤ _; positivity

theorem foldl_pinf (l : List XD) : ∀ a : XD, (∀ x ∈ l, NN x ∧ x ≠ .nan) → NN a → a ≠ .nan → (a = .pinf ∨ XD.pinf ∈ l) → l.foldl XD.add a = .pinf := by
  induction l with
  | nil => rintro a _ _ _ (h | h); exacts [h, absurd h (by simp)]
  | cons y t ih =>
    intro a hl ha hn h
    obtain ⟨hy1, hy2⟩ := hl y (by simp)
    rw [List.foldl_cons]
    apply ih _ (fun x hx => hl x (by simp [hx])) (nn_add ha hy1)
    · cases a <;> cases y <;> simp_all [XD.add, NN]
    · rcases h with rfl | h
      · left; cases y <;> simp_all [XD.add, NN]
      · rcases List.mem_cons.1 h with rfl | h
        · left; cases a <;> simp_all [XD.add, NN]
        · exact Or.inr h

/-- **C262, violated: time between failures.** One measurement without an error among any number of bad ones makes the mean time between failures infinite: the row says PASS, and
no reliability modification is required. Otherwise the requirement is 10000 hours for every environment, although the report asks Jupiter missions for 100000. -/
theorem C262_mtbf_violated (env : Env) (ms : List Measurement) (he : ∀ m ∈ ms, 0 < m.events) (m : Measurement) (hm : m ∈ ms) (h0 : m.errors = 0) :
    (assess env (ms.map metrics)).mtbf = .pinf ∧
    (∃ row ∈ assessmentRows (assess env (ms.map metrics)), row.item = .mtbf env ∧ row.pass = true) ∧
    Modification.reliability ∉ requiredModifications (assess env (ms.map metrics)) := by
  have h1 : (assess env (ms.map metrics)).mtbf = .pinf := by
    show average ((ms.map metrics).map (·.mtbf)) = .pinf
    have : accumulate ((ms.map metrics).map (·.mtbf)) = .pinf := by
      refine foldl_pinf _ _ ?_ (le_refl (0 : ℝ)) (by simp) (Or.inr ?_)
      · intro x hx
        rw [List.map_map] at hx
        obtain ⟨n, hn, rfl⟩ := List.mem_map.1 hx
        refine ⟨mtbf_cases n (he n hn), ?_⟩
        obtain ⟨_, _, _, _, _, q1, q2⟩ := C178_metrics n (he n hn)
        rcases Nat.eq_zero_or_pos n.errors with hz | hz
        · show (metrics n).mtbf ≠ _; rw [q1 hz]; simp
        · show (metrics n).mtbf ≠ _; rw [q2 hz]; simp
      · rw [List.map_map]
        exact List.mem_map.2 ⟨m, hm, (C178_metrics m (he m hm)).2.2.2.2.2.1 h0⟩
    unfold average
    rw [this]
    show (if (0 : ℝ) ≤ _ then XD.pinf else XD.ninf) = _
    rw [if_pos (Nat.cast_nonneg _)]
  refine ⟨h1, ⟨_, List.mem_cons_of_mem _ (List.mem_cons_of_mem _ (List.mem_cons_self ..)), rfl, ?_⟩, ?_⟩
  · dsimp only
    rw [h1]; simp [XD.le, XD.lt, XD.eq]
  · unfold requiredModifications
    rw [h1]
    simp only [List.mem_append, not_or]
    refine ⟨⟨⟨?_, ?_⟩, ?_⟩, ?_⟩
    · split <;> simp
    · split <;> simp
    · rw [if_neg (by simp [XD.lt])]; simp
    · split <;> simp

example : 0 < (⟨0, 0, 5⟩ : Measurement).events ∧ (⟨0, 0, 5⟩ : Measurement).errors = 0 := by decide

/-- **C262 (program).** For every setting of the variables and all valid trials the program ends, prints the verdict of its report and writes the rows of that report: 49 of them. -/
theorem C262_program (s : Settings) (trials : Nat → Nat → Trial) (hv : ∀ i j, ValidTrial (trials i j)) :
    ∃ d, run s trials = .ok d ∧ d.status = d.report.compliant ∧ d.rows = csvRows d.report ∧ d.rows.length = 49 := by
  obtain ⟨r, ms, h1, hr, _⟩ := C179_report defaultEnvironments defaultTechniques (fun i => (List.range (trialCount s)).map (trials i)) (by
    intro i t ht
    obtain ⟨j, _, rfl⟩ := List.mem_map.1 ht
    exact hv i j)
  refine ⟨⟨0, r.compliant, r, csvRows r⟩, ?_, rfl, rfl, ?_⟩
  · unfold run; rw [h1]; rfl
  · show (csvRows r).length = 49
    rw [(C262_rows r).1, hr.assessments, hr.evaluations, hr.suitabilities, hr.assessments]
    simp [defaultEnvironments, defaultTechniques]

example : ∀ i j : ℕ, ValidTrial ((fun _ _ => sampleTrial) i j) := fun _ _ => sampleTrial_valid

/-- **C262, violated: verdict.** The program reports failure to nobody: it always exits with 0 and says "completed successfully", although no setting and no trials give a
compliant framework. The settings for the confidence and the environment model change nothing, and a negative number of trials is run as none. -/
theorem C262_exit_violated (s : Settings) (trials : Nat → Nat → Trial) (hv : ∀ i j, ValidTrial (trials i j)) :
    (∃ d, run s trials = .ok d ∧ d.exit = 0 ∧ d.status = false) ∧
    (∀ (c : ℝ) (m : String), run { s with confidence := c, model := m } trials = run s trials) ∧
    (s.trials ≤ 0 → run s trials = run { s with trials := 0 } trials) := by
  refine ⟨?_, fun _ _ => rfl, fun h => ?_⟩
  · obtain ⟨r, h1, h2, _⟩ := C180_never_compliant_violated defaultEnvironments (by simp [defaultEnvironments]) defaultTechniques
      (fun i => (List.range (trialCount s)).map (trials i)) (by
        intro i t ht
        obtain ⟨j, _, rfl⟩ := List.mem_map.1 ht
        exact hv i j)
    exact ⟨⟨0, r.compliant, r, csvRows r⟩, by unfold run; rw [h1]; rfl, rfl, h2⟩
  · unfold run trialCount
    rw [show s.trials.toNat = 0 by omega]
    rfl

end Verif.Props.NasaRunnerP
