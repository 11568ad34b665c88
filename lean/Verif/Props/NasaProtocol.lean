import Verif.Model.NasaProtocol
import Verif.Props.ProtectionTechniques
import Mathlib.Tactic.NormNum
import Mathlib.Tactic.Linarith
import Mathlib.Tactic.Ring
import Mathlib.Tactic.Positivity
import Mathlib.Tactic.FieldSimp
import Mathlib.Algebra.Order.BigOperators.Group.List
/-!
C178-C184: the NASA/ESA verification protocol (src/validation/nasa_esa_validation_protocol.cpp).
-/
namespace Verif.Props.NasaP
open Verif Verif.NasaModel Verif.Techniques Verif.Props.TechniquesP Classical

/-! ### Specification -/

/-- One application of a technique in a trial: number of corrections, of errors, and of radiation events. -/
structure Measurement where
  corrections : Nat
  errors : Nat
  events : Nat

/-- The metrics computed from a measurement. -/
noncomputable def metrics (m : Measurement) : PResult := calculateMetrics ⟨m.corrections, m.errors⟩ m.events

/-- Errors per bit of the event list. -/
noncomputable def rate (m : Measurement) : ℝ := m.errors / (8 * m.events)

/-- Arithmetic mean. -/
noncomputable def mean (l : List ℝ) : ℝ := l.sum / l.length

/-- A trial as the simulator and the distributions can produce it. -/
structure ValidTrial (t : Trial) : Prop where
  size : t.mem.length = 1024
  tmr : ∀ k i, DrawsValid 1024 (t.tmr k i)
  edac : ∀ k i j, (t.edac k i j).2 < 7

/-! ### Ideal doubles -/

/-- Not negative: NaN, infinity or a non-negative number. -/
def NN : XD → Prop
  | .nan => True
  | .pinf => True
  | .ninf => False
  | .fin r => 0 ≤ r

theorem foldl_fin (l : List ℝ) : ∀ a : ℝ, (l.map XD.fin).foldl XD.add (.fin a) = .fin (a + l.sum) := by
  induction l with
  | nil => intro a; simp
  | cons x t ih => intro a; simp only [List.map_cons, List.foldl_cons, XD.add_fin, ih, List.sum_cons]; congr 1; ring

theorem average_fin (l : List ℝ) (h : l ≠ []) : average (l.map XD.fin) = .fin (mean l) := by
  unfold average accumulate mean
  rw [foldl_fin, List.length_map, zero_add, XD.div_fin]
  have := List.length_pos_iff.2 h
  exact_mod_cast (by omega : l.length ≠ 0)

theorem nn_add {x y : XD} (hx : NN x) (hy : NN y) : NN (x.add y) := by
  cases x <;> cases y <;> simp_all [NN, XD.add]
  exact add_nonneg hx hy

/-- A sum of non-negative values one of which is no number is no number. -/
theorem foldl_bad (l : List XD) : ∀ a : XD, NN a → (∀ x ∈ l, NN x) → ((a = .nan ∨ a = .pinf) ∨ ∃ x ∈ l, x = .nan ∨ x = .pinf) →
    l.foldl XD.add a = .nan ∨ l.foldl XD.add a = .pinf := by
  induction l with
  | nil => rintro a _ _ (h | ⟨x, hx, _⟩); exacts [h, absurd hx (by simp)]
  | cons y t ih =>
    intro a ha hl h
    rw [List.foldl_cons]
    have hy : NN y := hl y (by simp)
    apply ih _ (nn_add ha hy) (fun x hx => hl x (by simp [hx]))
    rcases h with h | ⟨x, hx, h⟩
    · left
      rcases h with rfl | rfl <;> cases y <;> simp_all [XD.add, NN]
    · rcases List.mem_cons.1 hx with rfl | hx
      · left
        rcases h with rfl | rfl <;> cases a <;> simp_all [XD.add, NN]
      · exact .inr ⟨x, hx, h⟩

theorem average_bad (l : List XD) (hl : ∀ x ∈ l, NN x) (h : l = [] ∨ ∃ x ∈ l, x = .nan ∨ x = .pinf) :
    average l = .nan ∨ average l = .pinf := by
  rcases h with rfl | h
  · left; unfold average accumulate; simp [XD.div_zero_zero]
  · rcases foldl_bad l (.fin 0) (le_refl (0:ℝ)) hl (.inr h) with e | e
    · left; unfold average accumulate; rw [e]; simp
    · right; unfold average accumulate; rw [e]
      show (if (0:ℝ) ≤ _ then XD.pinf else XD.ninf) = _
      rw [if_pos (Nat.cast_nonneg _)]

theorem seu_fin (m : Measurement) (h : 0 < m.events) : (metrics m).seuRate = .fin (rate m) := by
  show (XD.fin (m.errors : ℝ)).div ((XD.fin ((m.events : ℝ) * 8)).mul (.fin 1)) = _
  have : (0:ℝ) < m.events := by exact_mod_cast h
  rw [XD.mul_fin, XD.div_fin _ _ (by positivity)]
  unfold rate
  congr 1; ring

theorem seu_bad (m : Measurement) (h : m.events = 0) : (metrics m).seuRate = .nan ∨ (metrics m).seuRate = .pinf := by
  have e : (metrics m).seuRate = (XD.fin (m.errors : ℝ)).div (.fin 0) := by
    show (XD.fin (m.errors : ℝ)).div ((XD.fin ((m.events : ℝ) * 8)).mul (.fin 1)) = _
    rw [h]; simp
  rw [e]
  rcases Nat.eq_zero_or_pos m.errors with h0 | h0
  · left; rw [h0]; simp [XD.div_zero_zero]
  · right; exact XD.div_zero_pos _ (by exact_mod_cast h0)

theorem seu_nn (m : Measurement) : NN (metrics m).seuRate := by
  rcases Nat.eq_zero_or_pos m.events with h | h
  · rcases seu_bad m h with e | e <;> rw [e] <;> trivial
  · rw [seu_fin m h]; show 0 ≤ rate m; unfold rate; positivity

/-- The mean SEU rate of an environment. -/
theorem assess_seu (env : Env) (ms : List Measurement) :
    (ms ≠ [] → (∀ m ∈ ms, 0 < m.events) → (assess env (ms.map metrics)).seuRate = .fin (mean (ms.map rate))) ∧
    (¬ (ms ≠ [] ∧ ∀ m ∈ ms, 0 < m.events) →
      (assess env (ms.map metrics)).seuRate = .nan ∨ (assess env (ms.map metrics)).seuRate = .pinf) := by
  have e : (assess env (ms.map metrics)).seuRate = average (ms.map (fun m => (metrics m).seuRate)) := by
    show average ((ms.map metrics).map (·.seuRate)) = _
    rw [List.map_map]; rfl
  rw [e]
  constructor
  · intro h1 h2
    have : ms.map (fun m => (metrics m).seuRate) = (ms.map rate).map XD.fin := by
      rw [List.map_map]
      exact List.map_congr_left (fun m hm => seu_fin m (h2 m hm))
    rw [this]
    exact average_fin _ (by simpa using h1)
  · intro h
    apply average_bad
    · intro x hx
      obtain ⟨m, _, rfl⟩ := List.mem_map.1 hx
      exact seu_nn m
    · by_cases h1 : ms = []
      · left; simp [h1]
      · right
        push Not at h
        obtain ⟨m, hm, h0⟩ := h h1
        exact ⟨_, List.mem_map.2 ⟨m, hm, rfl⟩, seu_bad m (by omega)⟩

/-! ### C178: metrics of one application -/

/-- **C178.** For every count of corrections, errors and events, at least one event: the SEU rate is errors per bit, the cross section errors
per bit and event, the bit error rate the share of uncorrected errors; the mean time between failures is the reciprocal of
3600 times the rate, infinite without errors. -/
theorem C178_metrics (m : Measurement) (h : 0 < m.events) :
    (metrics m).corrections = m.corrections ∧ (metrics m).total = m.errors ∧
    (metrics m).seuRate = .fin (m.errors / (8 * m.events)) ∧
    (metrics m).crossSection = .fin (m.errors / (8 * m.events * m.events)) ∧
    (metrics m).ber = .fin ((m.errors - m.corrections) / (8 * m.events)) ∧
    (m.errors = 0 → (metrics m).mtbf = .pinf) ∧
    (0 < m.errors → (metrics m).mtbf = .fin (8 * m.events / (3600 * m.errors))) := by
  have he : (0:ℝ) < m.events := by exact_mod_cast h
  have hs := seu_fin m h
  have hm : (metrics m).mtbf = (XD.fin 1).div ((metrics m).seuRate.mul (.fin 3600)) := rfl
  refine ⟨rfl, rfl, hs, ?_, ?_, ?_, ?_⟩
  · show (XD.fin (m.errors : ℝ)).div ((XD.fin ((m.events : ℝ) * 8)).mul (.fin m.events)) = _
    rw [XD.mul_fin, XD.div_fin _ _ (by positivity)]
    congr 2; ring
  · show (XD.fin (((m.errors : ℤ) - (m.corrections : ℤ) : ℤ) : ℝ)).div (.fin ((m.events : ℝ) * 8)) = _
    rw [XD.div_fin _ _ (by positivity)]
    push_cast
    congr 2; ring
  · intro h0
    rw [hm, hs]
    unfold rate
    rw [h0, XD.mul_fin]
    simp only [Nat.cast_zero, zero_div, zero_mul]
    exact XD.div_zero_pos 1 one_pos
  · intro h0
    have h0' : (0:ℝ) < m.errors := by exact_mod_cast h0
    rw [hm, hs, XD.mul_fin, XD.div_fin _ _ (by unfold rate; positivity)]
    unfold rate
    congr 1
    field_simp

example : (metrics ⟨3, 4, 2⟩).ber = .fin (1 / 16) := by
  rw [(C178_metrics ⟨3, 4, 2⟩ (by norm_num)).2.2.2.2.1]; norm_num

/-- **C178 (no event, violated).** A trial in which nothing happens has no SEU rate, no cross section and no bit error rate at all (0/0 instead
of 0), and its mean time between failures is NaN instead of infinite. -/
theorem C178_no_event_violated :
    (metrics ⟨0, 0, 0⟩).seuRate = .nan ∧ (metrics ⟨0, 0, 0⟩).crossSection = .nan ∧ (metrics ⟨0, 0, 0⟩).ber = .nan ∧
    (metrics ⟨0, 0, 0⟩).mtbf = .nan := by
  have hs : (metrics ⟨0, 0, 0⟩).seuRate = .nan := by
    show (XD.fin ((0 : ℕ) : ℝ)).div ((XD.fin (((0 : ℕ) : ℝ) * 8)).mul (.fin 1)) = _
    simp [XD.div_zero_zero]
  refine ⟨hs, ?_, ?_, ?_⟩
  · show (XD.fin ((0 : ℕ) : ℝ)).div ((XD.fin (((0 : ℕ) : ℝ) * 8)).mul (.fin ((0 : ℕ) : ℝ))) = _
    simp [XD.div_zero_zero]
  · show (XD.fin (((0 : ℤ) - (0 : ℤ) : ℤ) : ℝ)).div (.fin (((0 : ℕ) : ℝ) * 8)) = _
    simp [XD.div_zero_zero]
  · have hm : (metrics ⟨0, 0, 0⟩).mtbf = (XD.fin 1).div ((metrics ⟨0, 0, 0⟩).seuRate.mul (.fin 3600)) := rfl
    rw [hm, hs]; simp [XD.div]

/-- **C178 (no event, effect, violated).** One trial without a radiation event is enough to make the SEU rate of the whole environment not a finite
number, however many other trials there are and whatever they measured; the environment then fails both its assessment and
its validation and is declared unsuitable. -/
theorem C178_quiet_trial_violated (env : Env) (ms : List Measurement) (m : Measurement) (hm : m ∈ ms) (h : m.events = 0) :
    (∀ q : ℝ, (assess env (ms.map metrics)).seuRate ≠ .fin q) ∧
    (assess env (ms.map metrics)).status = .fail ∧
    (validate env (assess env (ms.map metrics))).status = .fail ∧
    (suitability env (assess env (ms.map metrics)) (validate env (assess env (ms.map metrics)))).suitable = false := by
  have hb := (assess_seu env ms).2 (fun hh => by have := hh.2 m hm; omega)
  have hv : (validate env (assess env (ms.map metrics))).status = .fail := by
    show passIf _ = _
    unfold passIf
    rw [if_neg]
    rintro ⟨_, h2⟩
    have hr : ∃ q : ℝ, 0 < q ∧ average ((referenceRates env).map XD.fin) = .fin q := by
      refine ⟨mean (referenceRates env), ?_, average_fin _ (by cases env <;> simp [referenceRates])⟩
      cases env <;> norm_num [referenceRates, mean]
    obtain ⟨q, hq, hr⟩ := hr
    rw [hr] at h2
    unfold calculatePercentDifference at h2
    rw [if_neg (by simp; exact hq.ne')] at h2
    rcases hb with e | e
    · rw [e] at h2; simp [XD.sub, XD.abs, XD.nan_add] at h2
    · rw [e] at h2
      have : ((((XD.pinf).sub (.fin q)).abs).div (.fin q)).mul (.fin 100) = .pinf := by
        simp [XD.sub, XD.neg, XD.add, XD.abs, XD.div, XD.mul, hq.le]
      rw [this] at h2
      simp at h2
  refine ⟨?_, ?_, hv, ?_⟩
  · intro q e
    rcases hb with e' | e' <;> rw [e'] at e <;> cases e
  · show passIf ((assess env (ms.map metrics)).seuRate.lt _ ∧ _) = _
    unfold passIf
    rw [if_neg]
    rintro ⟨h1, _⟩
    rcases hb with e | e <;> rw [e] at h1
    · simp at h1
    · exact h1
  · unfold suitability
    simp only [hv]
    simp

example : (assess .geo ([⟨5, 5, 5⟩, ⟨0, 0, 0⟩, ⟨1, 1, 1⟩].map metrics)).status = .fail :=
  (C178_quiet_trial_violated .geo _ ⟨0, 0, 0⟩ (by simp) rfl).2.1

/-! ### C179: verdicts -/

/-- The trials' results as measurements. -/
theorem sum_corr (ms : List Measurement) : ((ms.map metrics).map (·.corrections)).sum = (ms.map (·.corrections)).sum := by
  rw [List.map_map]; rfl

theorem sum_tot (ms : List Measurement) : ((ms.map metrics).map (·.total)).sum = (ms.map (·.errors)).sum := by
  rw [List.map_map]; rfl

theorem sum_le (ms : List Measurement) (h : ∀ m ∈ ms, m.corrections ≤ m.errors) :
    (ms.map (·.corrections)).sum ≤ (ms.map (·.errors)).sum := List.sum_le_sum h

/-- **C179 (assessment).** For all measurements with no more corrections than errors, an environment passes its radiation assessment exactly
if there was a measurement, each saw an event, their mean rate is below the environment's threshold, and there was an error
and at least 95 % of all errors were corrected. -/
theorem C179_assessment (env : Env) (ms : List Measurement) (hc : ∀ m ∈ ms, m.corrections ≤ m.errors) :
    (assess env (ms.map metrics)).status = .pass ↔
      ms ≠ [] ∧ (∀ m ∈ ms, 0 < m.events) ∧ mean (ms.map rate) < seuThreshold env ∧
      0 < (ms.map (·.errors)).sum ∧ (95 / 100 : ℝ) * ((ms.map (·.errors)).sum : ℕ) ≤ ((ms.map (·.corrections)).sum : ℕ) := by
  have hst : (assess env (ms.map metrics)).status = passIf ((assess env (ms.map metrics)).seuRate.lt (.fin (seuThreshold env)) ∧
      (XD.fin (95 / 100)).le ((XD.fin (((ms.map metrics).map (·.corrections)).sum : ℕ)).div
        (.fin (((ms.map metrics).map (·.total)).sum : ℕ)))) := rfl
  rw [hst, sum_corr, sum_tot]
  set C := (ms.map (·.corrections)).sum
  set E := (ms.map (·.errors)).sum
  have hCE : C ≤ E := sum_le ms hc
  have hrate : (XD.fin (95 / 100)).le ((XD.fin (C : ℝ)).div (.fin (E : ℝ))) ↔ 0 < E ∧ (95 / 100 : ℝ) * E ≤ C := by
    rcases Nat.eq_zero_or_pos E with h0 | h0
    · have : C = 0 := by omega
      rw [this, h0]
      simp [XD.div_zero_zero]
    · have h0' : (0:ℝ) < E := by exact_mod_cast h0
      rw [XD.div_fin _ _ h0'.ne', XD.le_fin, le_div_iff₀ h0']
      simp [h0]
  have hp : ∀ p : Prop, passIf p = .pass ↔ p := by
    intro p; unfold passIf; split <;> simp_all
  rw [hp, hrate]
  by_cases hg : ms ≠ [] ∧ ∀ m ∈ ms, 0 < m.events
  · rw [(assess_seu env ms).1 hg.1 hg.2, XD.lt_fin]
    tauto
  · constructor
    · rintro ⟨h, _⟩
      rcases (assess_seu env ms).2 hg with e | e <;> rw [e] at h
      · simp at h
      · exact absurd h (fun x => x)
    · rintro ⟨h1, h2, _⟩; exact absurd ⟨h1, h2⟩ hg

/-- A case: one error in a million corrected events passes at low Earth orbit. -/
example : (assess .leo ([⟨1, 1, 10000000⟩].map metrics)).status = .pass := by
  rw [C179_assessment _ _ (by simp)]
  refine ⟨by simp, by simp, ?_, by simp, by norm_num⟩
  norm_num [mean, rate, seuThreshold]

/-- **C179 (no errors, violated).** An environment in which no error occurred at all does not pass its radiation assessment: the correction rate 0/0
is not at least 95 %. -/
theorem C179_no_errors_violated (env : Env) (ms : List Measurement) (h : ∀ m ∈ ms, m.errors = 0 ∧ m.corrections = 0) :
    (assess env (ms.map metrics)).status = .fail := by
  have hn := C179_assessment env ms (fun m hm => by have := h m hm; omega)
  cases hs : (assess env (ms.map metrics)).status
  · have h0 := (hn.1 hs).2.2.2.1
    have : (ms.map (·.errors)).sum = 0 := by
      rw [List.sum_eq_zero]
      intro x hx
      obtain ⟨m, hm, rfl⟩ := List.mem_map.1 hx
      exact (h m hm).1
    omega
  · rfl

theorem withDraws_mem {α : Type} {evs : List Event} {d : Nat → α} {x : Event × α} (h : x ∈ withDraws evs d) : ∃ i, x.2 = d i := by
  unfold withDraws at h
  obtain ⟨e, _, rfl⟩ := List.mem_map.1 h
  exact ⟨e.2, rfl⟩

/-- One technique on 1024 bytes: defined, keeps the size, and never corrects more than there was. -/
theorem applyTechnique_ok (tech : Tech) (k : Nat) (t : Trial) (ht : ValidTrial t) (mem : List (BitVec 8)) (hm : mem.length = 1024) :
    ∃ m ms, applyTechnique tech k t mem = .ok (m, metrics ms) ∧ m.length = 1024 ∧ ms.corrections ≤ ms.errors ∧
      ms.events = t.events.length := by
  have hne : mem ≠ [] := by intro e; rw [e] at hm; simp at hm
  cases tech
  · obtain ⟨m, r, h1, h2, _, _, h5⟩ := C84_tmr mem hne (withDraws t.events (t.tmr k)) (by
      intro ed hed
      obtain ⟨i, e⟩ := withDraws_mem hed
      rw [e, hm]; exact ht.tmr k i)
    exact ⟨m, ⟨r.corrections, r.total, t.events.length⟩, by unfold applyTechnique; simp only [h1]; rfl, by omega, by simp only; omega, rfl⟩
  · obtain ⟨m, r, h1, h2, _, h5, _⟩ := C84_edac_partial mem hne (withDraws t.events (t.edac k)) (by
      intro ed hed i
      obtain ⟨j, e⟩ := withDraws_mem hed
      rw [e]; exact ht.edac k j i)
    exact ⟨m, ⟨r.corrections, r.total, t.events.length⟩, by unfold applyTechnique; simp only [h1]; rfl, by omega, h5, rfl⟩
  · obtain ⟨r, h1, _, _, h5⟩ := C84_scrubbing mem hne t.events
    exact ⟨mem, ⟨r.corrections, r.total, t.events.length⟩, by unfold applyTechnique; simp only [h1]; rfl, hm, h5, rfl⟩
  · exact ⟨mem, ⟨0, (applyNone mem t.events).2.total, t.events.length⟩, rfl, hm, Nat.zero_le _, rfl⟩

theorem applyAll_ok (t : Trial) (ht : ValidTrial t) (ts : List Tech) : ∀ k mem, mem.length = 1024 →
    ∃ ms : List Measurement, applyAll t k ts mem = .ok (ms.map metrics) ∧ ms.length = ts.length ∧
      ∀ m ∈ ms, m.corrections ≤ m.errors ∧ m.events = t.events.length := by
  induction ts with
  | nil => intro k mem _; exact ⟨[], rfl, rfl, by simp⟩
  | cons a l ih =>
    intro k mem hm
    obtain ⟨m, me, h1, h2, h3, h4⟩ := applyTechnique_ok a k t ht mem hm
    obtain ⟨ms, k1, k2, k3⟩ := ih (k + 1) m h2
    refine ⟨me :: ms, ?_, by simp [k2], ?_⟩
    · show (applyTechnique a k t mem).bind _ = _
      rw [h1]
      show (applyAll t (k + 1) l m).bind _ = _
      rw [k1]; rfl
    · intro x hx
      rcases List.mem_cons.1 hx with rfl | hx
      · exact ⟨h3, h4⟩
      · exact k3 x hx

theorem runTrials_ok (techniques : List Tech) (ts : List Trial) (h : ∀ t ∈ ts, ValidTrial t) :
    ∃ ms : List Measurement, runTrials techniques ts = .ok (ms.map metrics) ∧ ms.length = techniques.length * ts.length ∧
      (∀ m ∈ ms, m.corrections ≤ m.errors) ∧ (∀ m ∈ ms, ∃ t ∈ ts, m.events = t.events.length) := by
  induction ts with
  | nil => exact ⟨[], rfl, by simp, by simp, by simp⟩
  | cons t l ih =>
    obtain ⟨a, a1, a2, a3⟩ := applyAll_ok t (h t (by simp)) techniques 0 t.mem (h t (by simp)).size
    obtain ⟨b, b1, b2, b3, b4⟩ := ih (fun x hx => h x (by simp [hx]))
    refine ⟨a ++ b, ?_, ?_, ?_, ?_⟩
    · show (applyAll t 0 techniques t.mem).bind _ = _
      rw [a1]
      show (runTrials techniques l).bind _ = _
      rw [b1, List.map_append]; rfl
    · rw [List.length_append, a2, b2, List.length_cons]; ring
    · intro m hm
      rcases List.mem_append.1 hm with hm | hm
      exacts [(a3 m hm).1, b3 m hm]
    · intro m hm
      rcases List.mem_append.1 hm with hm | hm
      · exact ⟨t, by simp, (a3 m hm).2⟩
      · obtain ⟨x, hx, e⟩ := b4 m hm
        exact ⟨x, by simp [hx], e⟩

/-- What a report has to contain for the measurements `ms i` of the `i`-th environment. -/
structure ReportOf (environments : List Env) (techniques : List Tech) (ms : Nat → List Measurement) (r : Report) : Prop where
  assessments : r.assessments = environments.zipIdx.map (fun e => assess e.1 ((ms e.2).map metrics))
  validations : r.validations = r.assessments.map (fun a => validate a.env a)
  suitabilities : r.suitabilities = r.assessments.map (fun a => suitability a.env a (validate a.env a))
  evaluations : r.evaluations = (environments.map (fun _ => techniques.map evaluate)).flatten
  matrix : r.matrix = []

theorem loop_ok (techniques : List Tech) (trials : Nat → List Trial) (ms : Nat → List Measurement) (es : List Env) :
    ∀ i r0, (∀ j, runTrials techniques (trials j) = .ok ((ms j).map metrics)) →
    ∃ r, environmentLoop techniques trials i es r0 = .ok r ∧
      r.assessments = r0.assessments ++ (es.zipIdx i).map (fun e => assess e.1 ((ms e.2).map metrics)) ∧
      r.validations = r0.validations ++ (es.zipIdx i).map (fun e => validate e.1 (assess e.1 ((ms e.2).map metrics))) ∧
      r.suitabilities = r0.suitabilities ++ (es.zipIdx i).map (fun e => suitability e.1 (assess e.1 ((ms e.2).map metrics))
        (validate e.1 (assess e.1 ((ms e.2).map metrics)))) ∧
      r.evaluations = r0.evaluations ++ (es.map (fun _ => techniques.map evaluate)).flatten ∧
      r.matrix = r0.matrix ∧ r.compliant = r0.compliant := by
  induction es with
  | nil => intro i r0 _; exact ⟨r0, rfl, by simp, by simp, by simp, by simp, rfl, rfl⟩
  | cons e l ih =>
    intro i r0 h
    obtain ⟨r, h1, h2, h3, h4, h5, h6, h7⟩ := ih (i + 1) (addEnvironment techniques e ((ms i).map metrics) r0) h
    refine ⟨r, ?_, ?_, ?_, ?_, ?_, h6, h7⟩
    · show (runTrials techniques (trials i)).bind _ = _
      rw [h i]; exact h1
    · rw [h2]; simp [addEnvironment, List.zipIdx_cons]
    · rw [h3]; simp [addEnvironment, List.zipIdx_cons]
    · rw [h4]; simp [addEnvironment, List.zipIdx_cons]
    · rw [h5]; simp [addEnvironment]

theorem assess_env (e : Env) (rs : List PResult) : (assess e rs).env = e := rfl

/-- **C179 (report).** For all environments, techniques and valid trials the verification is defined; each environment gets one assessment,
one validation and one suitability verdict, in order and from its own trials only (one measurement per trial and technique, never
more corrections than errors), and one evaluation per technique; the framework is declared compliant exactly if every single
entry of the report passes, and the statement repeats the verdict and the true counts. -/
theorem C179_report (environments : List Env) (techniques : List Tech) (trials : Nat → List Trial)
    (hv : ∀ i, ∀ t ∈ trials i, ValidTrial t) :
    ∃ r ms, runComprehensiveVerification environments techniques trials = .ok r ∧ ReportOf environments techniques ms r ∧
      (∀ i, runTrials techniques (trials i) = .ok ((ms i).map metrics) ∧ (ms i).length = techniques.length * (trials i).length ∧
        (∀ m ∈ ms i, m.corrections ≤ m.errors) ∧ (∀ m ∈ ms i, ∃ t ∈ trials i, m.events = t.events.length)) ∧
      (r.compliant = true ↔ (∀ v ∈ r.validations, v.status = .pass) ∧ (∀ a ∈ r.assessments, a.status = .pass) ∧
        (∀ e ∈ r.evaluations, e.status = .pass) ∧ (∀ s ∈ r.suitabilities, s.suitable = true)) ∧
      statement r = ⟨r.compliant, (r.assessments.filter (fun a => a.status = .pass)).length, environments.length, 0, 0,
        (r.suitabilities.filter (fun s => s.suitable)).length, environments.length⟩ := by
  have hex : ∀ i, ∃ ms : List Measurement, runTrials techniques (trials i) = .ok (ms.map metrics) ∧
      ms.length = techniques.length * (trials i).length ∧ (∀ m ∈ ms, m.corrections ≤ m.errors) ∧
      (∀ m ∈ ms, ∃ t ∈ trials i, m.events = t.events.length) := fun i => runTrials_ok techniques (trials i) (hv i)
  choose ms hms using hex
  obtain ⟨r, h1, h2, h3, h4, h5, h6, _⟩ := loop_ok techniques trials ms environments 0 {} (fun j => (hms j).1)
  simp only [List.nil_append] at h2 h3 h4 h5
  refine ⟨{ r with compliant := determineOverallCompliance r }, ms, ?_, ⟨h2, ?_, ?_, h5, h6⟩, hms, ?_, ?_⟩
  · unfold runComprehensiveVerification; rw [h1]; rfl
  · show r.validations = r.assessments.map _
    rw [h3, h2, List.map_map]; rfl
  · show r.suitabilities = r.assessments.map _
    rw [h4, h2, List.map_map]; rfl
  · show determineOverallCompliance r = true ↔ _
    unfold determineOverallCompliance
    simp only [Bool.and_eq_true, List.all_eq_true, decide_eq_true_eq]
    tauto
  · unfold statement
    have e1 : r.assessments.length = environments.length := by rw [h2]; simp
    have e2 : r.suitabilities.length = environments.length := by rw [h4]; simp
    have e3 : r.matrix = [] := h6
    simp only [e1, e2, e3, List.filter_nil, List.length_nil]

/-- A trial with one corrected strike is valid. -/
def sampleTrial : Trial :=
  { mem := List.replicate 1024 0xAA#8, events := [⟨.singleBitFlip, 9, 3⟩]
    tmr := fun _ _ => ⟨fun _ => none, fun _ => none, fun k => k = 1⟩, edac := fun _ _ _ => (false, 2) }

theorem sampleTrial_valid : ValidTrial sampleTrial :=
  ⟨List.length_replicate, fun _ _ k => ⟨(fun _ h => by cases h), (fun _ h => by cases h)⟩, fun _ _ _ => (by norm_num [sampleTrial])⟩

example : ∃ r, runComprehensiveVerification defaultEnvironments defaultTechniques (fun _ => [sampleTrial, sampleTrial]) = .ok r ∧
    r.assessments.length = 7 ∧ r.evaluations.length = 21 := by
  obtain ⟨r, ms, h, hr, _⟩ := C179_report defaultEnvironments defaultTechniques (fun _ => [sampleTrial, sampleTrial])
    (by intro i t ht; simp at ht; subst ht; exact sampleTrial_valid)
  exact ⟨r, h, by rw [hr.assessments]; simp [defaultEnvironments], by rw [hr.evaluations]; simp [defaultEnvironments, defaultTechniques]⟩

/-- **C179 (validation).** A finite rate `s ≥ 0` passes the validation of an environment exactly if it is within 5 % of the larger and 10 % of the
reference rate, that is between 0.95 and 1/0.95 times the mean reference rate. -/
theorem C179_validation (a : Assessment) (s : ℝ) (h : a.seuRate = .fin s) (hs : 0 ≤ s) :
    (validate a.env a).status = .pass ↔
      95 / 100 * mean (referenceRates a.env) ≤ s ∧ 95 / 100 * s ≤ mean (referenceRates a.env) := by
  have hq : ∃ q : ℝ, 0 < q ∧ mean (referenceRates a.env) = q := by
    refine ⟨_, ?_, rfl⟩
    cases a.env <;> norm_num [referenceRates, mean]
  obtain ⟨q, hq, eq⟩ := hq
  have hr : average ((referenceRates a.env).map XD.fin) = .fin q := by
    rw [average_fin _ (by cases a.env <;> simp [referenceRates]), eq]
  have hst : (validate a.env a).status = passIf ((XD.fin (95 / 100)).le (calculateCorrelation a.seuRate
      (average ((referenceRates a.env).map XD.fin))) ∧ (calculatePercentDifference a.seuRate
      (average ((referenceRates a.env).map XD.fin))).le (.fin 10)) := rfl
  have hp : ∀ p : Prop, passIf p = .pass ↔ p := by
    intro p; unfold passIf; split <;> simp_all
  rw [hst, hp, hr, h, eq]
  have hpd : calculatePercentDifference (.fin s) (.fin q) = .fin (|s - q| / q * 100) := by
    unfold calculatePercentDifference
    rw [if_neg (by simp; exact hq.ne')]
    simp only [XD.sub, XD.neg, XD.add_fin, XD.abs, XD.div_fin _ _ hq.ne', XD.mul_fin, sub_eq_add_neg]
  rw [hpd, XD.le_fin]
  rcases hs.eq_or_lt with h0 | h0
  · rw [← h0]
    have : calculateCorrelation (.fin 0) (.fin q) = .fin 0 := by
      unfold calculateCorrelation
      rw [if_neg (by simp; exact hq.ne'), if_pos (by simp)]
    rw [this, XD.le_fin]
    constructor
    · rintro ⟨h, _⟩; norm_num at h
    · rintro ⟨h, _⟩; nlinarith
  · have hm : 0 < max s q := lt_max_of_lt_left h0
    have : calculateCorrelation (.fin s) (.fin q) = .fin (1 - |s - q| / max s q) := by
      unfold calculateCorrelation
      rw [if_neg (by simp; intro h; exact absurd h h0.ne'), if_neg (by simp; exact ⟨h0.ne', hq.ne'⟩)]
      have e : (XD.fin s).max (.fin q) = .fin (max s q) := by
        unfold XD.max
        simp only [XD.lt_fin]
        split
        · rename_i hh; rw [max_eq_right hh.le]
        · rename_i hh; rw [max_eq_left (not_lt.1 hh)]
      rw [e]
      simp only [XD.sub, XD.neg, XD.add_fin, XD.abs, XD.div_fin _ _ hm.ne', sub_eq_add_neg]
    rw [this, XD.le_fin]
    rw [le_sub_comm, div_le_iff₀ hm]
    have e2 : |s - q| / q * 100 ≤ 10 ↔ |s - q| ≤ q / 10 := by
      rw [div_mul_eq_mul_div, div_le_iff₀ hq]
      constructor <;> intro h <;> linarith
    rw [e2]
    rcases le_total s q with hle | hle
    · rw [max_eq_right hle, abs_of_nonpos (by linarith)]
      constructor
      · rintro ⟨h, _⟩; constructor <;> linarith
      · rintro ⟨h, _⟩; constructor <;> linarith
    · rw [max_eq_left hle, abs_of_nonneg (by linarith)]
      constructor
      · rintro ⟨h, _⟩; constructor <;> linarith
      · rintro ⟨h, _⟩; constructor <;> linarith

/-! ### C180: the overall verdict -/

theorem assess_let (env : Env) (ms : List Measurement) (h : ms ≠ []) : (assess env (ms.map metrics)).letThreshold = .fin 0 := by
  show average ((ms.map metrics).map (·.letThreshold)) = _
  have : (ms.map metrics).map (·.letThreshold) = (ms.map (fun _ => (0:ℝ))).map XD.fin := by
    rw [List.map_map, List.map_map]; rfl
  rw [this, average_fin _ (by simpa using h)]
  simp [mean]

/-- The shielding of an environment with a LET requirement is infinite as soon as there is a measurement. -/
theorem shielding_inf (env : Env) (ms : List Measurement) (h : ms ≠ []) (hl : 0 < letRequired env) :
    requiredShielding (assess env (ms.map metrics)) = .pinf := by
  have hlet := assess_let env ms h
  have hth : 0 < seuThreshold env := by revert hl; cases env <;> norm_num [letRequired, seuThreshold]
  have e1 : (assess env (ms.map metrics)).env = env := rfl
  have e2 : (assess env (ms.map metrics)).threshold = seuThreshold env := rfl
  unfold requiredShielding
  simp only [hlet, e1, e2, XD.lt_fin, hl, if_true]
  rw [XD.div_zero_pos _ hl]
  split
  · rename_i hlt
    cases hs : (assess env (ms.map metrics)).seuRate with
    | fin r =>
      rw [hs, XD.lt_fin] at hlt
      rw [XD.div_fin _ _ hth.ne', XD.mul_fin]
      have : (0:ℝ) < 5 * (r / seuThreshold env) := by
        have : 0 < r := lt_trans hth hlt
        positivity
      simp [XD.mul, this]
    | pinf => simp [XD.div, hth.le, XD.mul]
    | ninf => rw [hs] at hlt; exact absurd hlt (fun x => x)
    | nan => rw [hs] at hlt; simp at hlt
  · simp [XD.mul]

theorem never_suitable (env : Env) (ms : List Measurement) :
    (suitability env (assess env (ms.map metrics)) (validate env (assess env (ms.map metrics)))).suitable = false := by
  have hsu : ∀ (a : Assessment) (v : Validation), ¬ (v.status = .pass ∧ (requiredShielding a).le (.fin 10)) →
      (suitability env a v).suitable = false := by
    intro a v h
    unfold suitability
    rw [decide_eq_false_iff_not]
    rintro ⟨h1, h2, _⟩; exact h ⟨h1, h2⟩
  by_cases hg : ms ≠ [] ∧ ∀ m ∈ ms, 0 < m.events
  · apply hsu
    rintro ⟨h1, h2⟩
    by_cases hl : 0 < letRequired env
    · rw [shielding_inf env ms hg.1 hl] at h2; simp at h2
    · have hth : seuThreshold env = 0 := by revert hl; cases env <;> norm_num [letRequired, seuThreshold]
      have hseu := (assess_seu env ms).1 hg.1 hg.2
      have hnn : 0 ≤ mean (ms.map rate) := by
        have : 0 ≤ (ms.map rate).sum := List.sum_nonneg (by
          intro x hx; obtain ⟨m, _, rfl⟩ := List.mem_map.1 hx; unfold rate; positivity)
        unfold mean; positivity
      have hpos : 0 < mean (ms.map rate) := by
        have := ((C179_validation (assess env (ms.map metrics)) _ hseu hnn).1 h1).1
        have hr : 0 < mean (referenceRates (assess env (ms.map metrics)).env) := by
          show 0 < mean (referenceRates env)
          cases env <;> norm_num [referenceRates, mean]
        linarith
      have e1 : (assess env (ms.map metrics)).threshold = 0 := hth
      have hl0 : letRequired (assess env (ms.map metrics)).env = 0 := by
        show letRequired env = 0
        revert hl; cases env <;> norm_num [letRequired]
      unfold requiredShielding at h2
      simp only [hseu, e1, hl0, XD.lt_fin, hpos, if_true, assess_let env ms hg.1, lt_irrefl, if_false] at h2
      rw [XD.div_zero_pos _ hpos] at h2
      simp [XD.mul] at h2
  · by_cases h0 : ms = []
    · apply hsu
      rintro ⟨h1, _⟩
      have hb := (assess_seu env ms).2 hg
      subst h0
      have hn : (assess env (([] : List Measurement).map metrics)).seuRate = .nan := by
        show average [] = _
        simp [average, accumulate, XD.div_zero_zero]
      have : (validate env (assess env (([] : List Measurement).map metrics))).status = .fail := by
        show passIf ((XD.fin (95 / 100)).le (calculateCorrelation (assess env (([] : List Measurement).map metrics)).seuRate _) ∧ _) = _
        unfold passIf
        rw [if_neg]
        rintro ⟨hc, _⟩
        rw [hn] at hc
        unfold calculateCorrelation at hc
        have hne : ¬ XD.eq .nan (.fin 0) := fun h => h
        have hr : ∃ q : ℝ, 0 < q ∧ average ((referenceRates env).map XD.fin) = .fin q := by
          refine ⟨mean (referenceRates env), ?_, average_fin _ (by cases env <;> simp [referenceRates])⟩
          cases env <;> norm_num [referenceRates, mean]
        obtain ⟨q, hq, hr⟩ := hr
        rw [hr, if_neg (fun h => hne h.1), if_neg (by rintro (h | h); exacts [hne h, hq.ne' h])] at hc
        simp [XD.sub, XD.abs, XD.neg, XD.nan_add, XD.nan_div] at hc
      rw [this] at h1
      cases h1
    · have : ∃ m ∈ ms, m.events = 0 := by
        by_contra hh
        exact hg ⟨h0, fun m hm => Nat.pos_of_ne_zero (fun e => hh ⟨m, hm, e⟩)⟩
      obtain ⟨m, hm, he⟩ := this
      exact (C178_quiet_trial_violated env ms m hm he).2.2.2

/-- **C180 (violated).** For every non-empty list of environments, all techniques and all trials — whatever the radiation does and however well
the protection works — no environment is reported suitable and the framework is reported NOT to meet the requirements. -/
theorem C180_never_compliant_violated (environments : List Env) (he : environments ≠ []) (techniques : List Tech)
    (trials : Nat → List Trial) (hv : ∀ i, ∀ t ∈ trials i, ValidTrial t) :
    ∃ r, runComprehensiveVerification environments techniques trials = .ok r ∧ r.compliant = false ∧
      (∀ s ∈ r.suitabilities, s.suitable = false) ∧ (statement r).meets = false ∧ (statement r).missionsSuitable = 0 := by
  obtain ⟨r, ms, h1, hr, _, hc, hst⟩ := C179_report environments techniques trials hv
  have hs : ∀ s ∈ r.suitabilities, s.suitable = false := by
    intro s hs
    rw [hr.suitabilities, hr.assessments, List.map_map] at hs
    obtain ⟨e, _, rfl⟩ := List.mem_map.1 hs
    exact never_suitable e.1 (ms e.2)
  have hcf : r.compliant = false := by
    cases hcc : r.compliant
    · rfl
    · obtain ⟨e, l, rfl⟩ := List.exists_cons_of_ne_nil he
      have hne : r.suitabilities ≠ [] := by rw [hr.suitabilities, hr.assessments]; simp
      obtain ⟨s, t, hst⟩ := List.exists_cons_of_ne_nil hne
      have h1 := (hc.1 hcc).2.2.2 s (by rw [hst]; simp)
      rw [hs s (by rw [hst]; simp)] at h1
      cases h1
  refine ⟨r, h1, hcf, hs, hcf, ?_⟩
  rw [hst]
  show (r.suitabilities.filter (fun s => s.suitable)).length = 0
  rw [List.length_eq_zero_iff, List.filter_eq_nil_iff]
  intro s h
  rw [hs s h]; simp

/-- **C180 (nothing tested, violated).** With no environment at all the framework is reported to meet the requirements, without any test. -/
theorem C180_untested_compliant_violated (techniques : List Tech) (trials : Nat → List Trial) :
    ∃ r, runComprehensiveVerification [] techniques trials = .ok r ∧ r.compliant = true ∧
      statement r = ⟨true, 0, 0, 0, 0, 0, 0⟩ := ⟨_, rfl, rfl, rfl⟩

/-- **C180 (determined).** The overall verdict depends only on whether an environment was given. -/
theorem C180_verdict_partial (environments : List Env) (techniques : List Tech)
    (trials : Nat → List Trial) (hv : ∀ i, ∀ t ∈ trials i, ValidTrial t) :
    ∃ r, runComprehensiveVerification environments techniques trials = .ok r ∧ (r.compliant = true ↔ environments = []) := by
  by_cases h : environments = []
  · subst h
    obtain ⟨r, h1, h2, _⟩ := C180_untested_compliant_violated techniques trials
    exact ⟨r, h1, by simp [h2]⟩
  · obtain ⟨r, h1, h2, _⟩ := C180_never_compliant_violated environments h techniques trials hv
    exact ⟨r, h1, by simp [h2, h]⟩

example : ∃ r, runComprehensiveVerification [.geo] [.edac] (fun _ => [sampleTrial]) = .ok r ∧ r.compliant = false := by
  obtain ⟨r, h1, h2, _⟩ := C180_never_compliant_violated [.geo] (by simp) [.edac] (fun _ => [sampleTrial])
    (by intro i t ht; simp at ht; subst ht; exact sampleTrial_valid)
  exact ⟨r, h1, h2⟩

/-! ### C181: evaluation of the techniques -/

/-- **C181.** An evaluation passes exactly if effectiveness is at least 95 % and the overheads at most 50, 100 and 30 %. -/
theorem C181_criteria (t : Tech) : (evaluate t).tech = t ∧ ((evaluate t).status = .pass ↔
    95 / 100 ≤ (evaluate t).effectiveness ∧ (evaluate t).resource ≤ 50 ∧ (evaluate t).power ≤ 100 ∧ (evaluate t).performance ≤ 30) := by
  refine ⟨rfl, ?_⟩
  have hp : ∀ p : Prop, passIf p = .pass ↔ p := by
    intro p; unfold passIf; split <;> simp_all
  exact hp _

/-- **C181 (violated).** The evaluation never looks at the trials: for all trials, triple redundancy and the hybrid approach fail and error correction
and scrubbing pass, and the effectiveness always equals the published one. -/
theorem C181_not_measured_violated (environments : List Env) (techniques : List Tech)
    (trials : Nat → List Trial) (hv : ∀ i, ∀ t ∈ trials i, ValidTrial t) :
    ∃ r, runComprehensiveVerification environments techniques trials = .ok r ∧
      ∀ e ∈ r.evaluations, (e.status = .pass ↔ e.tech = .edac ∨ e.tech = .scrubbing) ∧ e.effectiveness = e.reference := by
  obtain ⟨r, ms, h1, hr, _⟩ := C179_report environments techniques trials hv
  refine ⟨r, h1, fun e he => ?_⟩
  rw [hr.evaluations] at he
  obtain ⟨l, hl, he⟩ := List.mem_flatten.1 he
  obtain ⟨_, _, rfl⟩ := List.mem_map.1 hl
  obtain ⟨t, _, rfl⟩ := List.mem_map.1 he
  rw [(C181_criteria t).2, (C181_criteria t).1]
  cases t <;> norm_num [evaluate] <;> simp

example : (evaluate .tmr).status = .fail ∧ (evaluate .edac).status = .pass := by
  constructor
  · show passIf _ = _
    unfold passIf; rw [if_neg]; norm_num
  · rw [(C181_criteria .edac).2]; norm_num [evaluate]

/-! ### C182: thresholds that can be met -/

/-- **C182 (violated).** In the South Atlantic Anomaly and the Van Allen belts no measurements whatever pass the assessment: the threshold is 0. -/
theorem C182_no_threshold_violated (env : Env) (h : env = .saa ∨ env = .vanAllen) (ms : List Measurement)
    (hc : ∀ m ∈ ms, m.corrections ≤ m.errors) : (assess env (ms.map metrics)).status = .fail := by
  cases hs : (assess env (ms.map metrics)).status
  · have h1 := ((C179_assessment env ms hc).1 hs).2.2.1
    have hth : seuThreshold env = 0 := by rcases h with rfl | rfl <;> rfl
    have hnn : 0 ≤ mean (ms.map rate) := by
      have : 0 ≤ (ms.map rate).sum := List.sum_nonneg (by
        intro x hx; obtain ⟨m, _, rfl⟩ := List.mem_map.1 hx; unfold rate; positivity)
      unfold mean; positivity
    linarith
  · rfl

/-- **C182 (low Earth orbit, violated).** For low Earth orbit passing the assessment excludes passing the validation: the threshold 1e-7 lies below
95 % of the reference rate 1.2e-7. -/
theorem C182_leo_contradiction_violated (ms : List Measurement) (hc : ∀ m ∈ ms, m.corrections ≤ m.errors)
    (h : (assess .leo (ms.map metrics)).status = .pass) : (validate .leo (assess .leo (ms.map metrics))).status = .fail := by
  have h1 := (C179_assessment .leo ms hc).1 h
  have hnn : 0 ≤ mean (ms.map rate) := by
    have : 0 ≤ (ms.map rate).sum := List.sum_nonneg (by
      intro x hx; obtain ⟨m, _, rfl⟩ := List.mem_map.1 hx; unfold rate; positivity)
    unfold mean; positivity
  have hv := C179_validation (assess .leo (ms.map metrics)) _ ((assess_seu .leo ms).1 h1.1 h1.2.1) hnn
  cases hs : (validate .leo (assess .leo (ms.map metrics))).status
  · have h2 := (hv.1 hs).1
    have e : mean (referenceRates (assess .leo (ms.map metrics)).env) = 12 / 10 ^ 8 := by
      show mean (referenceRates .leo) = _
      norm_num [mean, referenceRates]
    have h3 := h1.2.2.1
    rw [e] at h2
    norm_num [seuThreshold] at h3
    norm_num at h2
    linarith
  · rfl

/-- **C182 (other environments).** For the other four environments there are measurements that pass both the assessment and the validation. -/
theorem C182_attainable (env : Env) (h : env = .geo ∨ env = .lunar ∨ env = .mars ∨ env = .jupiter) :
    ∃ ms : List Measurement, (∀ m ∈ ms, m.corrections ≤ m.errors) ∧ (assess env (ms.map metrics)).status = .pass ∧
      (validate env (assess env (ms.map metrics))).status = .pass := by
  have main : ∀ e k : ℕ, 0 < e → 0 < k → ((k : ℝ) / (8 * e)) < seuThreshold env → 95 / 100 * mean (referenceRates env) ≤ (k : ℝ) / (8 * e) →
      95 / 100 * ((k : ℝ) / (8 * e)) ≤ mean (referenceRates env) →
      ∃ ms : List Measurement, (∀ m ∈ ms, m.corrections ≤ m.errors) ∧ (assess env (ms.map metrics)).status = .pass ∧
      (validate env (assess env (ms.map metrics))).status = .pass := by
    intro e k he hk h1 h2 h3
    have hm : mean (([⟨k, k, e⟩] : List Measurement).map rate) = (k : ℝ) / (8 * e) := by simp [mean, rate]
    refine ⟨[⟨k, k, e⟩], by simp, ?_, ?_⟩
    · rw [C179_assessment _ _ (by simp)]
      refine ⟨by simp, by simpa using he, by rw [hm]; exact h1, by simpa using hk, ?_⟩
      have : (0:ℝ) ≤ k := Nat.cast_nonneg _
      simp
      linarith
    · have := C179_validation (assess env (([⟨k, k, e⟩] : List Measurement).map metrics)) _
        ((assess_seu env [⟨k, k, e⟩]).1 (by simp) (by simpa using he)) (by rw [hm]; positivity)
      exact this.2 ⟨by rw [hm]; exact h2, by rw [hm]; exact h3⟩
  rcases h with rfl | rfl | rfl | rfl
  · exact main (10 ^ 9) 360 (by norm_num) (by norm_num) (by norm_num [seuThreshold]) (by norm_num [mean, referenceRates])
      (by norm_num [mean, referenceRates])
  · exact main (10 ^ 9) 200 (by norm_num) (by norm_num) (by norm_num [seuThreshold]) (by norm_num [mean, referenceRates])
      (by norm_num [mean, referenceRates])
  · exact main (10 ^ 9) 68 (by norm_num) (by norm_num) (by norm_num [seuThreshold]) (by norm_num [mean, referenceRates])
      (by norm_num [mean, referenceRates])
  · exact main (10 ^ 9) 36 (by norm_num) (by norm_num) (by norm_num [seuThreshold]) (by norm_num [mean, referenceRates])
      (by norm_num [mean, referenceRates])

/-! ### C183: shielding and modifications -/

/-- **C183 (shielding).** With finite values and a positive LET threshold the required shielding is 5 mm, scaled up by the ratio of rate to
threshold if the rate is too high and by the ratio of required to measured LET if that is too low; it is never below 5 mm. -/
theorem C183_shielding (a : Assessment) (s l : ℝ) (hs : a.seuRate = .fin s) (hl : a.letThreshold = .fin l) (hl0 : 0 < l) (ht : 0 < a.threshold) :
    requiredShielding a = .fin (5 * max 1 (s / a.threshold) * max 1 (letRequired a.env / l)) ∧
    5 ≤ 5 * max 1 (s / a.threshold) * max 1 (letRequired a.env / l) := by
  constructor
  · unfold requiredShielding
    simp only [hs, hl, XD.lt_fin, XD.div_fin _ _ ht.ne', XD.div_fin _ _ hl0.ne', XD.mul_fin]
    have e1 : (if a.threshold < s then XD.fin (5 * (s / a.threshold)) else XD.fin 5) = .fin (5 * max 1 (s / a.threshold)) := by
      split
      · rename_i h; rw [max_eq_right ((one_le_div ht).2 h.le)]
      · rename_i h; rw [max_eq_left ((div_le_one ht).2 (not_lt.1 h)), mul_one]
    rw [e1]
    split
    · rename_i h; rw [max_eq_right ((one_le_div hl0).2 h.le), XD.mul_fin]
    · rename_i h; rw [max_eq_left ((div_le_one hl0).2 (not_lt.1 h)), mul_one]
  · have h1 : (1:ℝ) ≤ max 1 (s / a.threshold) := le_max_left _ _
    have h2 : (1:ℝ) ≤ max 1 (letRequired a.env / l) := le_max_left _ _
    nlinarith

example : requiredShielding ⟨.leo, .fin (2 / 10 ^ 7), .fin 20, .fin 0, .fin 0, .fin 0, 1 / 10 ^ 7, .fail⟩ = .fin 20 := by
  rw [(C183_shielding _ (2 / 10 ^ 7) 20 rfl rfl (by norm_num) (by norm_num)).1]
  norm_num [letRequired]

/-- **C183 (modifications).** Each modification is required exactly if its criterion is missed: too high a rate, too low a LET threshold, too
short a time between failures, too high a bit error rate; at most four are listed. -/
theorem C183_modifications (a : Assessment) (s l t b : ℝ) (hs : a.seuRate = .fin s) (hl : a.letThreshold = .fin l) (ht : a.mtbf = .fin t)
    (hb : a.ber = .fin b) :
    (Modification.seuMitigation ∈ requiredModifications a ↔ a.threshold < s) ∧
    (Modification.letProtection ∈ requiredModifications a ↔ l < letRequired a.env) ∧
    (Modification.reliability ∈ requiredModifications a ↔ t < mtbfRequired a.env) ∧
    (Modification.errorCorrection ∈ requiredModifications a ↔ 1 / 10 ^ 9 < b) ∧ (requiredModifications a).length ≤ 4 := by
  unfold requiredModifications
  simp only [hs, hl, ht, hb, XD.lt_fin]
  generalize (1:ℝ) / 10 ^ 9 = limit
  by_cases h1 : a.threshold < s <;> by_cases h2 : l < letRequired a.env <;> by_cases h3 : t < mtbfRequired a.env <;>
    by_cases h4 : limit < b <;> simp [h1, h2, h3, h4]

/-- **C183 (verdict).** For every assessment and validation an environment is called suitable exactly if the validation passes, at most 10 mm of shielding are required, and at
least one of the four criteria (SEU rate, LET threshold, time between failures, bit errors) is met. -/
theorem C183_suitable (env : Env) (a : Assessment) (v : Validation) :
    (suitability env a v).suitable = true ↔ v.status = .pass ∧ (suitability env a v).shielding.le (.fin 10) ∧
      ¬ ((XD.fin a.threshold).lt a.seuRate ∧ a.letThreshold.lt (.fin (letRequired a.env)) ∧ a.mtbf.lt (.fin (mtbfRequired a.env)) ∧ (XD.fin (1 / 10 ^ 9)).lt a.ber) := by
  have hm : (requiredModifications a).length ≤ 3 ↔
      ¬ ((XD.fin a.threshold).lt a.seuRate ∧ a.letThreshold.lt (.fin (letRequired a.env)) ∧ a.mtbf.lt (.fin (mtbfRequired a.env)) ∧ (XD.fin (1 / 10 ^ 9)).lt a.ber) := by
    unfold requiredModifications
    by_cases h1 : (XD.fin a.threshold).lt a.seuRate <;> by_cases h2 : a.letThreshold.lt (.fin (letRequired a.env)) <;>
      by_cases h3 : a.mtbf.lt (.fin (mtbfRequired a.env)) <;> by_cases h4 : (XD.fin (1 / 10 ^ 9)).lt a.ber <;> simp only [h1, h2, h3, h4, if_true, if_false] <;> simp
  have hs : (suitability env a v).suitable = decide (v.status = .pass ∧ (suitability env a v).shielding.le (.fin 10) ∧ (requiredModifications a).length ≤ 3) := rfl
  rw [hs, decide_eq_true_iff, hm]

/-- **C183 (violated).** The measured LET threshold is always 0, so that as soon as there is one measurement the shielding required for an environment
with a LET requirement is infinite and LET protection is demanded, whatever was measured. -/
theorem C183_infinite_shielding_violated (env : Env) (h : env ≠ .saa ∧ env ≠ .vanAllen) (ms : List Measurement) (hm : ms ≠ []) :
    requiredShielding (assess env (ms.map metrics)) = .pinf ∧
    Modification.letProtection ∈ requiredModifications (assess env (ms.map metrics)) := by
  have hl : 0 < letRequired env := by
    cases env <;> simp [letRequired] at h ⊢
  refine ⟨shielding_inf env ms hm hl, ?_⟩
  unfold requiredModifications
  have e1 : (assess env (ms.map metrics)).env = env := rfl
  simp only [assess_let env ms hm, e1, XD.lt_fin, hl, if_true]
  simp

example : requiredShielding (assess .mars ([⟨1, 1, 10⟩].map metrics)) = .pinf :=
  (C183_infinite_shielding_violated .mars (by simp) _ (by simp)).1

/-! ### C184: the two comparison functions -/

/-- **C184 (correlation).** For non-negative values the correlation is the ratio of the smaller to the larger (1 if both are 0): symmetric, between 0
and 1, and 1 exactly for equal values. -/
theorem C184_correlation (a b : ℝ) (ha : 0 ≤ a) (hb : 0 ≤ b) :
    ∃ c : ℝ, calculateCorrelation (.fin a) (.fin b) = .fin c ∧ calculateCorrelation (.fin b) (.fin a) = .fin c ∧
      0 ≤ c ∧ c ≤ 1 ∧ (c = 1 ↔ a = b) ∧ (0 < max a b → c = min a b / max a b) := by
  rcases ha.eq_or_lt with h0 | h0
  · subst h0
    rcases hb.eq_or_lt with h1 | h1
    · subst h1
      refine ⟨1, ?_, ?_, by norm_num, by norm_num, by simp, by simp⟩ <;> simp [calculateCorrelation]
    · refine ⟨0, ?_, ?_, by norm_num, by norm_num, ?_, ?_⟩
      · simp [calculateCorrelation, h1.ne']
      · simp [calculateCorrelation, h1.ne']
      · constructor
        · intro h; norm_num at h
        · intro h; exact absurd h h1.ne
      · intro _; rw [min_eq_left hb]; simp
  · rcases hb.eq_or_lt with h1 | h1
    · subst h1
      refine ⟨0, ?_, ?_, by norm_num, by norm_num, ?_, ?_⟩
      · simp [calculateCorrelation, h0.ne']
      · simp [calculateCorrelation, h0.ne']
      · constructor
        · intro h; norm_num at h
        · intro h; exact absurd h h0.ne'
      · intro _; rw [min_eq_right ha]; simp
    · have key : ∀ x y : ℝ, 0 < x → 0 < y → calculateCorrelation (.fin x) (.fin y) = .fin (min x y / max x y) := by
        intro x y hx hy
        have hm : 0 < max x y := lt_max_of_lt_left hx
        unfold calculateCorrelation
        rw [if_neg (by simp [hx.ne']), if_neg (by simp [hx.ne', hy.ne'])]
        have e : (XD.fin x).max (.fin y) = .fin (max x y) := by
          unfold XD.max
          simp only [XD.lt_fin]
          split
          · rename_i hh; rw [max_eq_right hh.le]
          · rename_i hh; rw [max_eq_left (not_lt.1 hh)]
        rw [e]
        simp only [XD.sub, XD.neg, XD.add_fin, XD.abs, XD.div_fin _ _ hm.ne']
        congr 1
        have e2 : |x + -y| = max x y - min x y := by
          rcases le_total x y with h | h
          · rw [max_eq_right h, min_eq_left h, abs_of_nonpos (by linarith)]; ring
          · rw [max_eq_left h, min_eq_right h, abs_of_nonneg (by linarith)]; ring
        rw [e2]; field_simp; ring
      have hm : 0 < max a b := lt_max_of_lt_left h0
      refine ⟨min a b / max a b, key a b h0 h1, ?_, ?_, ?_, ?_, fun _ => rfl⟩
      · rw [key b a h1 h0, min_comm, max_comm]
      · exact div_nonneg (le_min ha hb) hm.le
      · exact (div_le_one hm).2 min_le_max
      · rw [div_eq_one_iff_eq hm.ne']
        constructor
        · intro h
          exact le_antisymm (le_trans (le_max_left a b) (h ▸ min_le_right a b)) (le_trans (le_max_right a b) (h ▸ min_le_left a b))
        · rintro rfl; simp

example : calculateCorrelation (.fin 3) (.fin 4) = .fin (3 / 4) := by
  obtain ⟨c, h1, _, _, _, _, h6⟩ := C184_correlation 3 4 (by norm_num) (by norm_num)
  rw [h1, h6 (by norm_num)]; norm_num

/-- **C184 (percent difference).** For a positive reference the percent difference is 100 times the relative error: never negative and 0 exactly for
equal values; for the reference 0 it is 0 or 100. -/
theorem C184_percent (a b : ℝ) :
    (0 < b → ∃ p : ℝ, calculatePercentDifference (.fin a) (.fin b) = .fin p ∧ p = 100 * (|a - b| / b) ∧ 0 ≤ p ∧ (p = 0 ↔ a = b)) ∧
    (a ≠ 0 → calculatePercentDifference (.fin a) (.fin 0) = .fin 100) ∧ calculatePercentDifference (.fin 0) (.fin 0) = .fin 0 := by
  refine ⟨fun hb => ⟨100 * (|a - b| / b), ?_, rfl, by positivity, ?_⟩, ?_, by simp [calculatePercentDifference]⟩
  · unfold calculatePercentDifference
    rw [if_neg (by simp; exact hb.ne')]
    simp only [XD.sub, XD.neg, XD.add_fin, XD.abs, XD.div_fin _ _ hb.ne', XD.mul_fin, ← sub_eq_add_neg]
    congr 1; ring
  · rw [mul_eq_zero, div_eq_zero_iff, abs_eq_zero, sub_eq_zero]
    simp [hb.ne']
  · intro ha; simp [calculatePercentDifference, ha]

/-- **C184 (negative values, limit).** For negative values both leave their range: the correlation exceeds 1 and the percent difference is negative. -/
theorem C184_negative_limit (a b : ℝ) (ha : a < 0) (hb : b < 0) (h : a ≠ b) :
    (∃ c : ℝ, calculateCorrelation (.fin a) (.fin b) = .fin c ∧ 1 < c) ∧
    (∃ p : ℝ, calculatePercentDifference (.fin a) (.fin b) = .fin p ∧ p < 0) := by
  have hd : 0 < |a + -b| := by
    rw [← sub_eq_add_neg]; exact abs_pos.2 (sub_ne_zero.2 h)
  constructor
  · have hm : max a b < 0 := max_lt ha hb
    refine ⟨1 + -(|a + -b| / max a b), ?_, ?_⟩
    · unfold calculateCorrelation
      rw [if_neg (by simp [ha.ne]), if_neg (by simp [ha.ne, hb.ne])]
      have e : (XD.fin a).max (.fin b) = .fin (max a b) := by
        unfold XD.max
        simp only [XD.lt_fin]
        split
        · rename_i hh; rw [max_eq_right hh.le]
        · rename_i hh; rw [max_eq_left (not_lt.1 hh)]
      rw [e]
      simp only [XD.sub, XD.neg, XD.add_fin, XD.abs, XD.div_fin _ _ hm.ne]
    · have := div_neg_of_pos_of_neg hd hm
      linarith
  · refine ⟨|a + -b| / b * 100, ?_, ?_⟩
    · unfold calculatePercentDifference
      rw [if_neg (by simp [hb.ne])]
      simp only [XD.sub, XD.neg, XD.add_fin, XD.abs, XD.div_fin _ _ hb.ne, XD.mul_fin]
    · have := div_neg_of_pos_of_neg hd hb
      linarith

end Verif.Props.NasaP
