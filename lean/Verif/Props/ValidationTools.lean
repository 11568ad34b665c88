import Verif.Model.ValidationTools
import Mathlib.Tactic
/-!
Properties of the validation tools: C243 the accuracy validator, C244 reports, C245 the command line, C246 the SEU benchmark, C247 the standard tests,
C248 mission assessment and export.
-/
namespace Verif.ValidationTools

/-! ### C243 -/

/-- **C243.** For all counts the efficiency is the share of the upsets that were corrected, in percent: at least 0 and at most 100, 100 exactly if all of at
least one upset were corrected, and 0 exactly if none was. The accuracy is in [0, 100] whenever at most all bits were left wrong; mW for each corrected upset
times their number is the power; a rate is accepted exactly if it is within a factor of 2 of the reference. -/
theorem C243_judge (site : Site) (r : SimResult) (hb : 0 < r.bits) (hu : r.uncorrected ≤ r.seu) :
    (judge site r).efficiency * r.seu = 100 * ((r.seu : ℝ) - r.uncorrected) ∧
    (0 ≤ (judge site r).efficiency ∧ (judge site r).efficiency ≤ 100) ∧
    ((judge site r).efficiency = 100 ↔ 0 < r.seu ∧ r.uncorrected = 0) ∧
    ((judge site r).efficiency = 0 ↔ r.uncorrected = r.seu) ∧
    (∃ a : ℝ, (judge site r).accuracy = .fin a ∧ a * r.bits = 100 * ((r.bits : ℝ) - r.uncorrected) ∧ (r.uncorrected ≤ r.bits ↔ 0 ≤ a) ∧ a ≤ 100) ∧
    (r.uncorrected < r.seu → ∃ w : ℝ, (judge site r).powerPerSeu = .fin w ∧ w * ((r.seu : ℝ) - r.uncorrected) = r.power) ∧
    (r.uncorrected = r.seu → (judge site r).powerPerSeu = .pinf) ∧
    ((judge site r).within = true ↔ referenceRate site / 2 ≤ r.rate ∧ r.rate ≤ 2 * referenceRate site) := by
  have hb' : (0 : ℝ) < r.bits := by exact_mod_cast hb
  have hu' : (r.uncorrected : ℝ) ≤ r.seu := by exact_mod_cast hu
  have hn : (0 : ℝ) ≤ r.uncorrected := Nat.cast_nonneg _
  have href : 0 < referenceRate site := by cases site <;> norm_num [referenceRate]
  have heff : (judge site r).efficiency = efficiency r.seu r.uncorrected := rfl
  refine ⟨?_, ?_, ?_, ?_, ?_, ?_, ?_, ?_⟩
  · rw [heff]; unfold efficiency
    split
    · next h => rw [le_antisymm h hu']; ring
    · next h =>
      push Not at h
      have : (r.seu : ℝ) ≠ 0 := by linarith
      field_simp
  · rw [heff]; unfold efficiency
    split
    · constructor <;> norm_num
    · next h =>
      push Not at h
      have hs : (0 : ℝ) < r.seu := by linarith
      constructor
      · have : 0 ≤ ((r.seu : ℝ) - r.uncorrected) / r.seu := div_nonneg (by linarith) hs.le
        linarith
      · have : ((r.seu : ℝ) - r.uncorrected) / r.seu ≤ 1 := (div_le_one hs).2 (by linarith)
        linarith
  · rw [heff]; unfold efficiency
    split
    · next h =>
      have : r.seu ≤ r.uncorrected := by exact_mod_cast h
      constructor
      · intro h; norm_num at h
      · rintro ⟨a, b⟩; omega
    · next h =>
      push Not at h
      have hs : (0 : ℝ) < r.seu := by linarith
      have hs' : 0 < r.seu := by exact_mod_cast hs
      constructor
      · intro e
        refine ⟨hs', ?_⟩
        have : ((r.seu : ℝ) - r.uncorrected) / r.seu = 1 := by linarith
        rw [div_eq_one_iff_eq hs.ne'] at this
        have : (r.uncorrected : ℝ) = 0 := by linarith
        exact_mod_cast this
      · rintro ⟨_, e⟩
        rw [e]
        push_cast
        rw [sub_zero, div_self hs.ne']
        norm_num
  · rw [heff]; unfold efficiency
    split
    · next h =>
      have : r.seu ≤ r.uncorrected := by exact_mod_cast h
      constructor
      · intro _; omega
      · intro _; rfl
    · next h =>
      push Not at h
      have hs : (0 : ℝ) < r.seu := by linarith
      have : 0 < ((r.seu : ℝ) - r.uncorrected) / r.seu := div_pos (by linarith) hs
      constructor
      · intro e; linarith
      · intro e; rw [e] at h; exact absurd h (lt_irrefl _)
  · refine ⟨(1 - r.uncorrected / r.bits) * 100, ?_, ?_, ?_, ?_⟩
    · show accuracy _ _ = _
      unfold accuracy
      rw [XD.div_fin _ _ hb'.ne']
      simp [XD.sub, XD.neg, sub_eq_add_neg]
    · field_simp
    · have e : (1 - (r.uncorrected : ℝ) / r.bits) * 100 = ((r.bits : ℝ) - r.uncorrected) * (100 / r.bits) := by field_simp
      rw [e]
      have hp : (0 : ℝ) < 100 / r.bits := by positivity
      rw [mul_nonneg_iff_of_pos_right hp, sub_nonneg]
      exact_mod_cast Iff.rfl
    · have : 0 ≤ (r.uncorrected : ℝ) / r.bits := by positivity
      linarith
  · intro h
    have h' : (r.uncorrected : ℝ) < r.seu := by exact_mod_cast h
    refine ⟨r.power / ((r.seu : ℝ) - r.uncorrected), ?_, ?_⟩
    · show (if _ then _ else _) = _
      rw [if_pos ⟨h, by omega⟩, XD.div_fin _ _ (by linarith)]
    · rw [div_mul_cancel₀]
      linarith
  · intro h
    show (if _ then _ else _) = _
    rw [if_neg (by omega)]
  · show decide _ = true ↔ _
    rw [decide_eq_true_eq, le_div_iff₀ href, div_le_iff₀ href]
    constructor <;> rintro ⟨a, b⟩ <;> exact ⟨by linarith, by linarith⟩

example : ∃ r : SimResult, 0 < r.bits ∧ r.uncorrected < r.seu ∧ (judge .leo r).within = true :=
  ⟨⟨1000, 1, 4, 25 / 1000000, 5⟩, by norm_num, by norm_num, by norm_num [judge, referenceRate]⟩

/-- **C243 (map).** After all tests the map has exactly the names that were asked for, each with the judgement of the test of its last occurrence, whatever the
simulator is and whatever its tests leave behind. -/
theorem C243_levels {σ : Type} (run : σ → Protection → SimResult × σ) (site : Site) (pre post : List String) (n : String) (hn : n ∉ post) (s : σ)
    (m : String → Option Validation) :
    ∃ t : σ, validateLevels run site (pre ++ n :: post) s m n = some (judge site (run t (protectionOf n)).1) ∧
      t = (pre.foldl (fun u k => (run u (protectionOf k)).2) s) := by
  refine ⟨_, ?_, rfl⟩
  induction pre generalizing s m with
  | nil =>
    show validateLevels run site post _ _ n = _
    have keep : ∀ (l : List String) (s : σ) (m : String → Option Validation), n ∉ l → validateLevels run site l s m n = m n := by
      intro l
      induction l with
      | nil => intro s m _; rfl
      | cons a l ih =>
        intro s m hl
        show validateLevels run site l _ _ n = _
        rw [ih _ _ fun h => hl (List.mem_cons_of_mem _ h)]
        exact if_neg fun (h : n = a) => hl (h ▸ List.mem_cons_self ..)
    rw [keep _ _ _ hn]
    exact if_pos rfl
  | cons a pre ih => exact ih _ _

example : "B" ∉ ["A", "C"] := by decide

/-- **C243 (names).** No other name is in the map: of the default levels, exactly the three. -/
theorem C243_default {σ : Type} (new : Site → σ) (run : σ → Protection → SimResult × σ) (site : Site) (n : String) :
    (validateEnvironment new run site n).isSome = true ↔ n = "NONE" ∨ n = "TMR" ∨ n = "TMR_ENHANCED" := by
  unfold validateEnvironment
  simp only [validateLevels]
  by_cases h1 : n = "TMR_ENHANCED"
  · simp [h1]
  · by_cases h2 : n = "TMR"
    · simp [h2]
    · by_cases h3 : n = "NONE" <;> simp [h1, h2, h3]

/-- **C243, violated.** A level that is not known, such as that of a typing error, is not refused but tested as no protection at all. -/
theorem C243_unknown_violated (n : String) (h : n ∉ ["TMR", "TMR_ENHANCED", "TMR_ADAPTIVE", "ECC"]) : protectionOf n = .none := by
  simp only [List.mem_cons, List.not_mem_nil, or_false, not_or] at h
  simp [protectionOf, h]

example : protectionOf "TMR_HYBRID" = .none := C243_unknown_violated _ (by decide)

/-- **C243, violated.** The accuracy is a percentage only as long as at most as many errors as bits are left: the count of a long mission can make it any negative
number, and a simulator without memory gives no number. -/
theorem C243_accuracy_violated (a : ℝ) (ha : 0 < a) :
    (∃ r : SimResult, 0 < r.bits ∧ ∃ x : ℝ, (judge .leo r).accuracy = .fin x ∧ x < -a) ∧ accuracy 0 0 = .nan ∧ ∀ u : ℝ, 0 < u → accuracy u 0 = .ninf := by
  refine ⟨?_, ?_, ?_⟩
  · obtain ⟨n, hn⟩ := exists_nat_gt (a + 1)
    refine ⟨⟨1, n, n, 0, 0⟩, Nat.one_pos, (1 - n) * 100, ?_, ?_⟩
    · show accuracy _ _ = _
      unfold accuracy
      rw [XD.div_fin _ _ (by norm_num)]
      simp [XD.sub, XD.neg, sub_eq_add_neg]
    · linarith
  · unfold accuracy
    rw [XD.div_zero_zero]
    rfl
  · intro u hu
    unfold accuracy
    rw [XD.div_zero_pos _ hu]
    simp [XD.sub, XD.neg, XD.add, XD.mul]

/-! ### C244 -/

/-- The fold of the loop, from any state. -/
theorem fold_eq (vs : List Verdict) (a : ℕ × ℝ × ℝ) :
    vs.foldl (fun (acc : ℕ × ℝ × ℝ) v => (acc.1 + (if v.passed then 1 else 0), acc.2.1 + v.accuracy, acc.2.2 + v.efficiency)) a =
      (a.1 + vs.countP (·.passed), a.2.1 + (vs.map (·.accuracy)).sum, a.2.2 + (vs.map (·.efficiency)).sum) := by
  induction vs generalizing a with
  | nil => simp
  | cons v vs ih =>
    rw [List.foldl_cons, ih]
    cases h : v.passed <;> simp [h, add_assoc]
    omega

/-- **C244.** The summary of any results gives their number, the number passed, and the three quotients by the number of results: the averages times the number
are the sums. No results give 0 everywhere. -/
theorem C244_summary (vs : List Verdict) :
    (summarize vs).total = vs.length ∧
    (summarize vs).passing = vs.countP (·.passed) ∧
    (summarize vs).accuracy * vs.length = (vs.map (·.accuracy)).sum ∧
    (summarize vs).efficiency * vs.length = (vs.map (·.efficiency)).sum ∧
    (summarize vs).passRate * vs.length = 100 * (vs.countP (·.passed) : ℝ) ∧
    (vs = [] → (summarize vs).accuracy = 0 ∧ (summarize vs).efficiency = 0 ∧ (summarize vs).passRate = 0) := by
  have hf := fold_eq vs (0, 0, 0)
  by_cases h : vs = []
  · subst h; simp [summarize]
  · have hl : (vs.length : ℝ) ≠ 0 := by
      have := List.length_pos_of_ne_nil h
      positivity
    unfold summarize
    rw [hf]
    simp only [if_neg h]
    refine ⟨by trivial, by simp, ?_, ?_, ?_, fun e => absurd e h⟩
    · rw [div_mul_cancel₀ _ hl]; simp
    · rw [div_mul_cancel₀ _ hl]; simp
    · rw [div_mul_cancel₀ _ hl]; simp

/-- **C244 (verdict).** The requirements are reported as met exactly if there are results and at least 7 of 10 passed; the recommendations, if any, name exactly
the environments that did not pass, in order; there are none exactly if there are results and all passed. -/
theorem C244_verdict {κ : Type} (rs : List (κ × Verdict)) :
    (meets (rs.map Prod.snd) = true ↔ rs ≠ [] ∧ 7 * rs.length ≤ 10 * rs.countP (·.2.passed)) ∧
    (recommendations rs = none ↔ rs ≠ [] ∧ ∀ r ∈ rs, r.2.passed = true) ∧
    ∀ l, recommendations rs = some l → l = (rs.filter fun r => !r.2.passed).map Prod.fst := by
  obtain ⟨_, _, _, _, hp, h0⟩ := C244_summary (rs.map Prod.snd)
  rw [List.countP_map, List.length_map] at hp
  have hc : (rs.countP ((fun x : Verdict => x.passed) ∘ Prod.snd)) = rs.countP (·.2.passed) := rfl
  rw [hc] at hp
  by_cases h : rs = []
  · subst h
    simp [meets, recommendations, summarize]
  · have hl : (0 : ℝ) < rs.length := by exact_mod_cast List.length_pos_of_ne_nil h
    refine ⟨?_, ?_, ?_⟩
    · unfold meets
      rw [decide_eq_true_eq]
      constructor
      · intro hm
        refine ⟨h, ?_⟩
        have := mul_le_mul_of_nonneg_right hm hl.le
        rw [hp] at this
        have h2 : (7 * rs.length : ℝ) ≤ 10 * (rs.countP (·.2.passed) : ℝ) := by linarith
        exact_mod_cast h2
      · rintro ⟨_, hm⟩
        have h2 : (7 * rs.length : ℝ) ≤ 10 * (rs.countP (·.2.passed) : ℝ) := by exact_mod_cast hm
        have : 70 * (rs.length : ℝ) ≤ (summarize (rs.map Prod.snd)).passRate * rs.length := by rw [hp]; linarith
        exact le_of_mul_le_mul_right this hl
    · unfold recommendations
      have key : ((summarize (rs.map Prod.snd)).passRate < 100) ↔ rs.countP (·.2.passed) < rs.length := by
        constructor
        · intro hlt
          have := mul_lt_mul_of_pos_right hlt hl
          rw [hp] at this
          have h2 : (rs.countP (·.2.passed) : ℝ) < rs.length := by linarith
          exact_mod_cast h2
        · intro hlt
          have h2 : (rs.countP (·.2.passed) : ℝ) < rs.length := by exact_mod_cast hlt
          by_contra hge
          push Not at hge
          have := mul_le_mul_of_nonneg_right hge hl.le
          rw [hp] at this
          linarith
      constructor
      · intro hr
        refine ⟨h, ?_⟩
        have : ¬ (rs.countP (·.2.passed) < rs.length) := by
          intro hlt
          rw [if_pos (key.2 hlt)] at hr
          cases hr
        have e : rs.countP (·.2.passed) = rs.length := le_antisymm List.countP_le_length (by omega)
        exact fun r hrm => List.countP_eq_length.1 e r hrm
      · rintro ⟨_, hall⟩
        have e : rs.countP (·.2.passed) = rs.length := List.countP_eq_length.2 hall
        rw [if_neg]
        rw [key]
        omega
    · intro l hl'
      unfold recommendations at hl'
      split at hl'
      · exact (Option.some.inj hl').symm
      · cases hl'

example : meets [⟨true, 90, 80⟩] = true ∧ meets [⟨false, 90, 80⟩] = false := by
  constructor <;> norm_num [meets, summarize]

/-- **C244, violated.** Without any result the report says that the framework does not meet the requirements, and recommends optimization for no environment. -/
theorem C244_empty_violated : meets [] = false ∧ recommendations ([] : List (Site × Verdict)) = some [] := by
  constructor
  · norm_num [meets, summarize]
  · norm_num [recommendations, summarize]

/-- **C244, violated.** The "validation results for mission profiles" of a report are the same whatever was validated, and also if everything failed. -/
theorem C244_missions_violated {κ : Type} (rs rs' : List (κ × Verdict)) : missionTable rs = missionTable rs' ∧ missionTable rs ≠ [] :=
  ⟨rfl, by simp [missionTable]⟩

/-- **C244 (difference).** The difference shown is the relative one in percent: 0 exactly if the rates agree, at most `p` exactly if the measured rate is at most
`p` % of the reference away. For a reference that is not positive 0 is shown, whatever was measured. -/
theorem C244_difference (m r p : ℝ) (hr : 0 < r) :
    (difference m r = 0 ↔ m = r) ∧ (difference m r ≤ p ↔ |m - r| ≤ p / 100 * r) ∧ ∀ q, q ≤ 0 → difference m q = 0 := by
  refine ⟨?_, ?_, ?_⟩
  · simp only [difference, if_pos hr]
    rw [div_eq_zero_iff]
    constructor
    · rintro (h | h)
      · have : |m - r| = 0 := by linarith
        exact sub_eq_zero.1 (abs_eq_zero.1 this)
      · exact absurd h hr.ne'
    · rintro rfl; left; simp
  · simp only [difference, if_pos hr]
    rw [div_le_iff₀ hr]
    constructor <;> intro h <;> linarith
  · intro q hq
    exact if_neg (by linarith)

example : difference 3 2 = 50 := by norm_num [difference]

/-! ### C245 -/

/-- The options of the help text, and words that are none of them. -/
inductive Opt where
  | days (v : String)
  | csv (v : String)
  | report (v : String)
  | environment (v : String)
  | word (v : String)

/-- The words that mean something. -/
def keywords : List String := ["--help", "-h", "--days", "--csv", "--report", "--environment"]

/-- How an option is written. -/
def Opt.words : Opt → List String
  | .days v => ["--days", v]
  | .csv v => ["--csv", v]
  | .report v => ["--report", v]
  | .environment v => ["--environment", v]
  | .word v => [v]

/-- Values that are not options themselves, and numbers that can be read. -/
def Opt.wellFormed (stoi : String → Option Int) : Opt → Prop
  | .days v => v ∉ keywords ∧ (stoi v).isSome
  | .csv v => v ∉ keywords
  | .report v => v ∉ keywords
  | .environment v => v ∉ keywords
  | .word v => v ∉ keywords

/-- What an option asks for, the environment aside. -/
def Opt.apply (stoi : String → Option Int) (s : Settings) : Opt → Settings
  | .days v => { s with days := (stoi v).getD s.days }
  | .csv v => { s with csv := v }
  | .report v => { s with report := v }
  | .environment _ => { s with all := false }
  | .word _ => s

/-- The environment an option names. -/
def Opt.site : Opt → Option Site
  | .environment v => some (siteOf v)
  | _ => none

theorem parse_word (stoi : String → Option Int) (a : String) (h : a ∉ keywords) (rest : List String) (s : Settings) :
    parse stoi (a :: rest) s = parse stoi rest s := by
  simp only [keywords, List.mem_cons, List.not_mem_nil, or_false, not_or] at h
  obtain ⟨h1, h2, h3, h4, h5, h6⟩ := h
  cases rest with
  | nil => simp [parse, h1, h2]
  | cons b rest => rw [parse]; simp [h1, h2, h3, h4, h5, h6]

theorem findSite_word (a : String) (h : a ≠ "--environment") (rest : List String) : findSite (a :: rest) = findSite rest := by
  cases rest with
  | nil => rfl
  | cons b rest => rw [findSite, if_neg h]

/-- **C245.** For every command line of well-formed options, in any order and mixed with any other words, the program runs with the last duration, CSV file and
report file given, the defaults for what is not given, all environments if none is named, and otherwise the one named *first*; a last option without its value
changes nothing. -/
theorem C245_options (stoi : String → Option Int) (l : List Opt) (hl : ∀ o ∈ l, o.wellFormed stoi) (last : List String)
    (hlast : last = [] ∨ ∃ k ∈ ["--days", "--csv", "--report", "--environment"], last = [k]) (s : Settings) :
    parse stoi (l.flatMap Opt.words ++ last) s = .run (l.foldl (Opt.apply stoi) s) ∧
    findSite (l.flatMap Opt.words ++ last) = (l.findSome? Opt.site).getD .leo ∧
    ((l.foldl (Opt.apply stoi) s).all = (s.all && l.all fun o => o.site.isNone)) := by
  induction l generalizing s with
  | nil =>
    refine ⟨?_, ?_, by simp⟩
    · rcases hlast with h | ⟨k, hk, h⟩
      · subst h; rfl
      · subst h
        simp only [List.mem_cons, List.not_mem_nil, or_false] at hk
        rcases hk with h | h | h | h <;> subst h <;> rfl
    · rcases hlast with h | ⟨k, hk, h⟩ <;> subst h <;> rfl
  | cons o l ih =>
    have ho := hl o (List.mem_cons_self ..)
    have ih := ih fun o' h => hl o' (List.mem_cons_of_mem _ h)
    have hkw : ∀ v : String, v ∉ keywords → v ≠ "--environment" := fun v hv e => hv (by rw [e]; decide)
    cases o with
    | days v =>
      obtain ⟨d, hd⟩ := Option.isSome_iff_exists.1 ho.2
      refine ⟨?_, ?_, ?_⟩
      · show parse stoi ("--days" :: v :: (l.flatMap Opt.words ++ last)) s = _
        rw [parse]
        simp only [hd]
        rw [if_neg (by decide), if_pos trivial, (ih _).1, List.foldl_cons]
        simp [Opt.apply, hd]
      · show findSite ("--days" :: v :: (l.flatMap Opt.words ++ last)) = _
        rw [findSite_word _ (by decide), findSite_word _ (hkw v ho.1), (ih s).2.1]
        rfl
      · rw [List.foldl_cons, (ih _).2.2]; simp [Opt.apply, Opt.site]
    | csv v =>
      refine ⟨?_, ?_, ?_⟩
      · show parse stoi ("--csv" :: v :: (l.flatMap Opt.words ++ last)) s = _
        rw [parse, if_neg (by decide), if_neg (by decide), if_pos rfl, (ih _).1]
        rfl
      · show findSite ("--csv" :: v :: (l.flatMap Opt.words ++ last)) = _
        rw [findSite_word _ (by decide), findSite_word _ (hkw v ho), (ih s).2.1]
        rfl
      · rw [List.foldl_cons, (ih _).2.2]; simp [Opt.apply, Opt.site]
    | report v =>
      refine ⟨?_, ?_, ?_⟩
      · show parse stoi ("--report" :: v :: (l.flatMap Opt.words ++ last)) s = _
        rw [parse, if_neg (by decide), if_neg (by decide), if_neg (by decide), if_pos rfl, (ih _).1]
        rfl
      · show findSite ("--report" :: v :: (l.flatMap Opt.words ++ last)) = _
        rw [findSite_word _ (by decide), findSite_word _ (hkw v ho), (ih s).2.1]
        rfl
      · rw [List.foldl_cons, (ih _).2.2]; simp [Opt.apply, Opt.site]
    | environment v =>
      refine ⟨?_, ?_, ?_⟩
      · show parse stoi ("--environment" :: v :: (l.flatMap Opt.words ++ last)) s = _
        rw [parse, if_neg (by decide), if_neg (by decide), if_neg (by decide), if_neg (by decide), if_pos rfl, parse_word _ _ ho, (ih _).1]
        rfl
      · show findSite ("--environment" :: v :: (l.flatMap Opt.words ++ last)) = _
        rw [findSite, if_pos rfl]
        rfl
      · rw [List.foldl_cons, (ih _).2.2]; simp [Opt.apply, Opt.site]
    | word v =>
      refine ⟨?_, ?_, ?_⟩
      · show parse stoi (v :: (l.flatMap Opt.words ++ last)) s = _
        rw [parse_word _ _ ho, (ih _).1]
        rfl
      · show findSite (v :: (l.flatMap Opt.words ++ last)) = _
        rw [findSite_word _ (hkw v ho), (ih s).2.1]
        rfl
      · rw [List.foldl_cons, (ih _).2.2]; simp [Opt.apply, Opt.site]

example : ∀ o ∈ [Opt.days "60", .environment "JUPITER", .word "x"], o.wellFormed fun _ => some 60 := by
  intro o ho
  simp only [List.mem_cons, List.not_mem_nil, or_false] at ho
  rcases ho with rfl | rfl | rfl
  · exact ⟨by decide, rfl⟩
  · show _ ∉ _; decide
  · show _ ∉ _; decide

/-- **C245 (environments).** All five environments are validated exactly if none was named, otherwise exactly one. -/
theorem C245_sites (args : List String) (s : Settings) :
    (s.all = true → ∀ e : Site, e ∈ sites args s) ∧ (s.all = false → sites args s = [findSite args]) := by
  constructor
  · intro h e
    unfold sites
    rw [if_pos h]
    cases e <;> simp
  · intro h
    simp [sites, h]

/-- **C245, violated.** For every other option the last one counts, for the environment the first: asking for LEO and then for Jupiter validates LEO; a name with a
typing error validates LEO as well, instead of ending the program. -/
theorem C245_first_violated (stoi : String → Option Int) :
    (∃ args s, parse stoi args {} = .run s ∧ args = ["--environment", "LEO", "--environment", "JUPITER"] ∧ sites args s = [.leo]) ∧
    ∀ n, n ∉ ["VAN_ALLEN", "LUNAR", "INTERPLANETARY", "JUPITER"] → siteOf n = .leo := by
  constructor
  · exact ⟨_, { all := false }, rfl, rfl, rfl⟩
  · intro n h
    simp only [List.mem_cons, List.not_mem_nil, or_false, not_or] at h
    unfold siteOf
    by_cases hl : n = "LEO" <;> simp [hl, h]

/-- **C245, violated.** The two loops read the same words differently: a CSV file called `--environment` is accepted by the first loop, and the second takes the
next word as the environment, so that this validates LEO although Jupiter was asked for. -/
theorem C245_two_loops_violated (stoi : String → Option Int) :
    ∃ s, parse stoi ["--csv", "--environment", "--environment", "JUPITER"] {} = .run s ∧
      s.csv = "--environment" ∧ s.all = false ∧ sites ["--csv", "--environment", "--environment", "JUPITER"] s = [.leo] := by
  exact ⟨{ csv := "--environment", all := false }, rfl, rfl, rfl, rfl⟩

/-! ### C246 -/

/-- One step of the checksum can be undone. -/
theorem step_inj (c d : BitVec 32) (b : BitVec 8) (h : ((c <<< 5) + c) + b.setWidth 32 = ((d <<< 5) + d) + b.setWidth 32) : c = d := by
  have h := (BitVec.add_left_inj _).1 h
  have e : ∀ x : BitVec 32, ((x <<< 5) + x).toNat = 33 * x.toNat % 2 ^ 32 := by
    intro x
    rw [BitVec.toNat_add, BitVec.toNat_shiftLeft, Nat.shiftLeft_eq, Nat.mod_add_mod]
    congr 1
    ring
  have h2 := congrArg BitVec.toNat h
  rw [e, e] at h2
  have h3 : Nat.ModEq (2 ^ 32) (33 * c.toNat) (33 * d.toNat) := h2
  have h4 := Nat.ModEq.cancel_left_of_coprime (by norm_num) h3
  unfold Nat.ModEq at h4
  rw [Nat.mod_eq_of_lt c.isLt, Nat.mod_eq_of_lt d.isLt] at h4
  exact BitVec.eq_of_toNat_eq h4

theorem fold_inj (post : List (BitVec 8)) (c d : BitVec 32)
    (h : post.foldl (fun (c : BitVec 32) b => ((c <<< 5) + c) + b.setWidth 32) c = post.foldl (fun (c : BitVec 32) b => ((c <<< 5) + c) + b.setWidth 32) d) : c = d := by
  induction post generalizing c d with
  | nil => exact h
  | cons b post ih => exact step_inj c d b (ih _ _ h)

/-- **C246.** However long a block is, and wherever it is hit, a change of one byte changes the checksum: any number of flips within one byte of a block are found,
and the block is counted. -/
theorem C246_single_byte (pre post : List (BitVec 8)) (b b' : BitVec 8) (h : b ≠ b') : checksum (pre ++ b :: post) ≠ checksum (pre ++ b' :: post) := by
  intro he
  unfold checksum at he
  rw [List.foldl_append, List.foldl_append, List.foldl_cons, List.foldl_cons] at he
  have := fold_inj _ _ _ he
  rw [BitVec.add_right_inj] at this
  apply h
  have h2 := congrArg BitVec.toNat this
  rw [BitVec.toNat_setWidth, BitVec.toNat_setWidth] at h2
  apply BitVec.eq_of_toNat_eq
  have := b.isLt
  have := b'.isLt
  omega

example : checksum [1, 2, 3] ≠ checksum [1, 9, 3] := C246_single_byte [1] [3] 2 9 (by decide)

/-- **C246 (count).** Unchanged blocks are never counted, and the count is at most the number of blocks; the error rate is the share of the injected errors that was
not corrected, 0 without errors. -/
theorem C246_count (before after : List (List (BitVec 8))) :
    detected before before = 0 ∧ detected before after ≤ before.length ∧
    (∀ injected corrected : ℕ, corrected ≤ injected → injected < 2 ^ 64 → errorRate injected corrected * injected = 100 * ((injected : ℝ) - corrected)) ∧
    ∀ corrected, errorRate 0 corrected = 0 := by
  refine ⟨?_, ?_, ?_, ?_⟩
  · unfold detected
    rw [List.length_eq_zero_iff, List.filter_eq_nil_iff]
    intro p hp
    have : p.2 = p.1 := by
      obtain ⟨i, hi, rfl⟩ := List.mem_iff_getElem.1 hp
      simp
    simp [this]
  · unfold detected
    refine (List.length_filter_le _ _).trans ?_
    rw [List.length_zip]
    omega
  · intro i c hc hi
    unfold errorRate
    split
    · next h =>
      have h' : (i : ℝ) ≠ 0 := by positivity
      rw [div_mul_cancel₀ _ h', Int.emod_eq_of_lt (by omega) (by omega)]
      push_cast
      rfl
    · next h =>
      have : i = 0 := by omega
      subst this
      have : c = 0 := by omega
      subst this
      simp
  · intro c
    simp [errorRate]

example : errorRate 4 1 = 75 := by
  have := (C246_count [] []).2.2.1 4 1 (by norm_num) (by norm_num)
  push_cast at this
  linarith

/-- **C246 (cross-section).** The cross-section times exposure and bits is the number of changed blocks; the ratio times the expected cross-section is the measured
one. -/
theorem C246_cross_section (c : BenchConfig) (t : ℝ) (n : ℕ) (hl : 0 < c.lux) (ht : 0 < t) (hm : 0 < c.megabytes) (he : 0 < c.expected) :
    measured c t n * (c.lux * t * c.bits) = n ∧ ratio c t n * c.expected = measured c t n := by
  have hb : (0 : ℝ) < c.bits := by
    have : 0 < c.bits := by unfold BenchConfig.bits; positivity
    exact_mod_cast this
  constructor
  · rw [measured, if_pos ⟨hl, ht⟩, div_mul_cancel₀]
    positivity
  · rw [ratio, if_pos he, div_mul_cancel₀ _ he.ne']

example : ∃ c ∈ benchConfigs, 0 < c.lux ∧ 0 < c.megabytes ∧ 0 < c.expected := ⟨_, List.mem_cons_self .., by norm_num, by norm_num, by norm_num⟩

/-- **C246, violated.** The checksum is not a CRC: two neighbouring bytes of a block, one more and the next 33 less, leave it as it was, anywhere in any block, so the
block does not count as changed. -/
theorem C246_two_bytes_violated (pre post : List (BitVec 8)) (b d : BitVec 8) (hb : b.toNat < 255) (hd : 33 ≤ d.toNat) :
    checksum (pre ++ (b + 1) :: (d - 33) :: post) = checksum (pre ++ b :: d :: post) ∧
    detected [pre ++ b :: d :: post] [pre ++ (b + 1) :: (d - 33) :: post] = 0 := by
  have e : checksum (pre ++ (b + 1) :: (d - 33) :: post) = checksum (pre ++ b :: d :: post) := by
    unfold checksum
    simp only [List.foldl_append, List.foldl_cons]
    generalize List.foldl (fun (c : BitVec 32) b => ((c <<< 5) + c) + BitVec.setWidth 32 b) (0 : BitVec 32) pre = c
    congr 1
    apply BitVec.eq_of_toNat_eq
    have h1 : (BitVec.setWidth 32 (b + 1)).toNat = b.toNat + 1 := by
      rw [BitVec.toNat_setWidth, BitVec.toNat_add, show (1 : BitVec 8).toNat = 1 from rfl]
      omega
    have h2 : (BitVec.setWidth 32 (d - 33)).toNat = d.toNat - 33 := by
      rw [BitVec.toNat_setWidth, BitVec.toNat_sub, show (33 : BitVec 8).toNat = 33 from rfl]
      have := d.isLt
      omega
    have h3 : (BitVec.setWidth 32 b).toNat = b.toNat := by rw [BitVec.toNat_setWidth]; omega
    have h4 : (BitVec.setWidth 32 d).toNat = d.toNat := by
      rw [BitVec.toNat_setWidth]
      have := d.isLt
      omega
    simp only [BitVec.toNat_add, BitVec.toNat_shiftLeft, Nat.shiftLeft_eq, h1, h2, h3, h4]
    have hc := c.isLt
    omega
  refine ⟨e, ?_⟩
  show (List.filter _ [_]).length = 0
  rw [List.filter_cons_of_neg (by simpa using e)]
  rfl

example : ∃ b d : BitVec 8, b.toNat < 255 ∧ 33 ≤ d.toNat := ⟨0, 33, by decide, by decide⟩

/-- **C246, violated.** Blocks are counted, not upsets: whatever happens to the memory, the cross-section is at most one upset for each megabyte. -/
theorem C246_saturation_violated (c : BenchConfig) (t : ℝ) (hl : 0 < c.lux) (ht : 0 < t) (hm : 0 < c.megabytes) (before after : List (List (BitVec 8)))
    (hlen : before.length = c.megabytes) : measured c t (detected before after) ≤ 1 / (c.lux * t * 2 ^ 23) := by
  have hn := (C246_count before after).2.1
  rw [hlen] at hn
  rw [measured, if_pos ⟨hl, ht⟩]
  have hm' : (0 : ℝ) < c.megabytes := by exact_mod_cast hm
  have hb : (c.bits : ℝ) = c.megabytes * 2 ^ 23 := by
    unfold BenchConfig.bits
    push_cast
    ring
  rw [hb, div_le_div_iff₀ (by positivity) (by positivity), one_mul]
  have hn' : (detected before after : ℝ) ≤ c.megabytes := by exact_mod_cast hn
  have : (detected before after : ℝ) * (c.lux * t * 2 ^ 23) ≤ c.megabytes * (c.lux * t * 2 ^ 23) := mul_le_mul_of_nonneg_right hn' (by positivity)
  linarith

/-- **C246, violated.** The comparison with published cross-sections cannot come out right: in a run of the programmed 10 seconds, even if it takes a minute, in
each of the six configurations the ratio is either 0 or at least 1000. -/
theorem C246_ratio_violated (c : BenchConfig) (hc : c ∈ benchConfigs) (t : ℝ) (h1 : 10 ≤ t) (h2 : t ≤ 60) (n : ℕ) : ratio c t n = 0 ∨ 1000 ≤ ratio c t n := by
  rcases Nat.eq_zero_or_pos n with h | h
  · left; subst h; simp [ratio, measured]
  · right
    have hn : (1 : ℝ) ≤ n := by exact_mod_cast h
    have ht : 0 < t := by linarith
    have key : ∀ (m : ℕ) (lux e : ℝ), 0 < m → 0 < lux → 0 < e → 1000 * e * (lux * 60 * (m * 8388608)) ≤ 1 → 1000 ≤ ratio ⟨m, lux, e⟩ t n := by
      intro m lux e hm hl he hk
      have hm' : (0 : ℝ) < m := by exact_mod_cast hm
      rw [ratio, if_pos he, measured, if_pos ⟨hl, ht⟩, le_div_iff₀ he]
      have hb : ((⟨m, lux, e⟩ : BenchConfig).bits : ℝ) = m * 8388608 := by
        unfold BenchConfig.bits
        push_cast
        ring
      rw [hb, le_div_iff₀ (by positivity)]
      have : 1000 * e * (lux * t * (m * 8388608)) ≤ 1000 * e * (lux * 60 * (m * 8388608)) := by
        have : lux * t ≤ lux * 60 := mul_le_mul_of_nonneg_left h2 hl.le
        have : lux * t * (m * 8388608) ≤ lux * 60 * (m * 8388608) := mul_le_mul_of_nonneg_right this (by positivity)
        exact mul_le_mul_of_nonneg_left this (by positivity)
      linarith
    simp only [benchConfigs, List.mem_cons, List.not_mem_nil, or_false] at hc
    rcases hc with rfl | rfl | rfl | rfl | rfl | rfl <;>
      exact key _ _ _ (by norm_num) (by norm_num) (by norm_num) (by norm_num)

/-- **C246, violated.** If more was corrected than injected, as when the counter of the memory manager still has the corrections of an earlier configuration, the
error rate is not negative or 0 but astronomically high. -/
theorem C246_rate_violated : 10 ^ 20 < errorRate 1 2 := by
  have : (((1 : ℕ) : ℤ) - (2 : ℕ)) % 2 ^ 64 = 18446744073709551615 := by norm_num
  unfold errorRate
  rw [if_pos one_pos, this]
  norm_num

/-! ### C247 -/

/-- All combinations, missions first. -/
def combinations : List (Mission × Method) := missions.flatMap fun m => methods.map fun p => (m, p)

theorem runList_get (trials : Int) (k : Metric) (l : List (Mission × Method)) (z : Source) :
    (runList trials k l z).1.length = l.length ∧
    ∀ (i : ℕ) (h : i < l.length), (runList trials k l z).1[i]? =
      some (oneResult k l[i].1 l[i].2 (simulate trials k l[i].1 l[i].2 fun j => z (i * trials.toNat + j)).1) := by
  induction l generalizing z with
  | nil => exact ⟨rfl, fun i h => absurd h (Nat.not_lt_zero _)⟩
  | cons a l ih =>
    obtain ⟨m, p⟩ := a
    refine ⟨?_, ?_⟩
    · show _ + 1 = _
      rw [(ih _).1]
      rfl
    · intro i h
      cases i with
      | zero => simp [runList]
      | succ i =>
        show (runList trials k l _).1[i]? = _
        have hi : i < l.length := by simpa using h
        have := (ih (simulate trials k m p z).2).2 i hi
        rw [this]
        simp only [List.getElem_cons_succ]
        congr 4
        funext j
        show z (trials.toNat + (i * trials.toNat + j)) = _
        congr 1
        ring

/-- **C247.** Every run gives one result for each of the 30 combinations of mission and protection, in order, each from random numbers of its own, and each with
the verdict of the criterion of its mission. -/
theorem C247_results (trials : Int) (k : Metric) (z : Source) :
    (∀ m p, (m, p) ∈ combinations) ∧ combinations.Nodup ∧ (runTests trials k z).1.length = 30 ∧
    ∀ i (h : i < combinations.length), ∃ x : XD, x = (simulate trials k combinations[i].1 combinations[i].2 fun j => z (i * trials.toNat + j)).1 ∧
      ∃ r, (runTests trials k z).1[i]? = some r ∧ r.mission = combinations[i].1 ∧ r.protection = combinations[i].2 ∧
        (match k with | .seu => r.seu = some x | .energy => r.energy = some x | .mtbf => r.mtbf = some x) ∧
        (r.pass = true ↔ passes k combinations[i].1 x) := by
  refine ⟨?_, by decide, (runList_get trials k combinations z).1, ?_⟩
  · intro m p; cases m <;> cases p <;> decide
  · intro i h
    refine ⟨_, rfl, _, (runList_get trials k combinations z).2 i h, rfl, rfl, ?_, ?_⟩
    · cases k <;> rfl
    · simp [oneResult]

/-- The sum of the random numbers of a block. -/
noncomputable def blockSum (z : Source) (n : ℕ) : ℝ := ((List.range n).map z).sum

/-- **C247 (average).** As long as no sample is negative, that is no random number below -10, the average of any positive number of trials is the nominal value,
changed by the spread times the average of the random numbers; no choice of random numbers makes it negative. -/
theorem C247_average (trials : ℕ) (ht : 0 < trials) (k : Metric) (m : Mission) (p : Method) (z : Source) :
    (∃ a : ℝ, (simulate trials k m p z).1 = .fin a ∧ 0 ≤ a) ∧
    ((∀ j < trials, -10 ≤ z j) → (simulate trials k m p z).1 = .fin (nominal k m p * (1 + spread k * (blockSum z trials / trials)))) := by
  have hm : 0 < nominal k m p := by
    cases k <;> cases m <;> cases p <;> norm_num [nominal, baseRate, mitigation, letFactor, missionFactor, baseMtbf, mtbfFactor]
  have hs : 0 < spread k ∧ spread k ≤ 1 / 10 := by cases k <;> norm_num [spread]
  have ht' : (0 : ℝ) < trials := by exact_mod_cast ht
  have e0 : (simulate trials k m p z).1 = .fin (sumTrials (nominal k m p) (nominal k m p * spread k) z trials / trials) := by
    show XD.div (.fin (sumTrials _ _ _ ((trials : Int)).toNat)) (.fin (((trials : Int)) : ℝ)) = _
    rw [Int.toNat_natCast]
    push_cast
    rw [XD.div_fin _ _ ht'.ne']
  constructor
  · refine ⟨_, e0, div_nonneg ?_ ht'.le⟩
    generalize trials = n
    induction n with
    | zero => exact le_refl _
    | succ n ih =>
      rw [sumTrials]
      split
      · linarith
      · next h => push Not at h; linarith
  · intro hz
    rw [e0]
    congr 1
    have key : ∀ n ≤ trials, sumTrials (nominal k m p) (nominal k m p * spread k) z n = nominal k m p * (n + spread k * blockSum z n) := by
      intro n
      induction n with
      | zero => intro _; simp [sumTrials, blockSum]
      | succ n ih =>
        intro hn
        rw [sumTrials, ih (by omega), if_neg]
        · simp only [blockSum, List.range_succ, List.map_append, List.map_cons, List.map_nil, List.sum_append, List.sum_cons, List.sum_nil]
          push_cast
          ring
        · push Not
          have h1 := hz n (by omega)
          have h2 : -1 ≤ spread k * z n := by
            have : spread k * (-10) ≤ spread k * z n := mul_le_mul_of_nonneg_left h1 hs.1.le
            linarith [hs.2]
          have h3 : 0 ≤ nominal k m p * (1 + spread k * z n) := mul_nonneg hm.le (by linarith)
          linarith
    rw [key trials le_rfl]
    field_simp

example : (∀ j < 5, (-10 : ℝ) ≤ (fun _ => 0 : Source) j) := fun _ _ => by norm_num

/-- What comes out, unless the random numbers are far from those of a normal distribution. -/
def verdict : Metric → Mission → Method → Bool
  | .seu, .leo, .stuckBitTmr => true
  | .seu, .leo, .healthTmr => true
  | .energy, .leo, .noProtection => false
  | .energy, .leo, .basicTmr => false
  | .energy, .leo, _ => true
  | .energy, .geo, .healthTmr => true
  | .mtbf, .leo, .noProtection => false
  | .mtbf, .leo, .basicTmr => false
  | .mtbf, .leo, _ => true
  | _, _, _ => false

/-- **C247 (verdicts).** The verdicts are in the tables already: for any number of trials whose random numbers have an average of at most 1/10, as in
practically every run with the default 25000 trials, they are those of `verdict`; no method passes any test for Moon, Mars or Jupiter. -/
theorem C247_verdicts (trials : ℕ) (ht : 0 < trials) (k : Metric) (m : Mission) (p : Method) (z : Source) (hz : ∀ j < trials, -10 ≤ z j)
    (havg : |blockSum z trials / trials| ≤ 1 / 10) : passes k m (simulate trials k m p z).1 ↔ verdict k m p = true := by
  rw [(C247_average trials ht k m p z).2 hz]
  generalize blockSum z trials / trials = a at havg
  obtain ⟨h1, h2⟩ := abs_le.1 havg
  cases k <;> cases m <;> cases p <;>
    simp only [passes, verdict, XD.lt_fin, criteria, nominal, spread, baseRate, mitigation, letFactor, missionFactor, baseMtbf, mtbfFactor, iff_true, Bool.false_eq_true,
      iff_false, not_lt] <;> linarith

example : |blockSum (fun _ => 0) 3 / (3 : ℕ)| ≤ (1 : ℝ) / 10 := by norm_num [blockSum, List.range_succ]

/-- **C247 (ranking).** The tables rank the methods the same way for every mission: every method is better than none in all three metrics, health-weighted TMR the
best. -/
theorem C247_ranking (m : Mission) (p : Method) :
    (nominal .seu m .healthTmr ≤ nominal .seu m p ∧ nominal .seu m p ≤ nominal .seu m .noProtection) ∧
    (nominal .energy m p ≤ nominal .energy m .healthTmr ∧ nominal .energy m .noProtection ≤ nominal .energy m p) ∧
    (nominal .mtbf m p ≤ nominal .mtbf m .healthTmr ∧ nominal .mtbf m .noProtection ≤ nominal .mtbf m p) := by
  cases m <;> cases p <;> norm_num [nominal, baseRate, mitigation, letFactor, missionFactor, baseMtbf, mtbfFactor]

/-- **C247, violated.** The number of trials is not checked: 0 trials fail every test with NaN; with a negative number nothing is simulated, and every system, also
an unprotected one at Jupiter, passes the upset test with a rate of 0. -/
theorem C247_trials_violated (k : Metric) (m : Mission) (p : Method) (z : Source) :
    ((simulate 0 k m p z).1 = .nan ∧ ¬ passes k m .nan) ∧
    ∀ n : ℕ, 0 < n → (simulate (-n) k m p z).1 = .fin 0 ∧ passes .seu m (simulate (-n) .seu m p z).1 := by
  refine ⟨⟨?_, ?_⟩, ?_⟩
  · show XD.div (.fin 0) (.fin ((0 : Int) : ℝ)) = _
    rw [Int.cast_zero, XD.div_zero_zero]
  · cases k <;> simp [passes]
  · intro n hn
    have h0 : ∀ k, (simulate (-n) k m p z).1 = .fin 0 := by
      intro k
      have hn' : ((-(n : Int) : Int) : ℝ) ≠ 0 := by
        push_cast
        have : (0 : ℝ) < n := by exact_mod_cast hn
        linarith
      show XD.div (.fin (sumTrials _ _ _ (-(n : Int)).toNat)) (.fin ((-(n : Int) : Int) : ℝ)) = _
      rw [show (-(n : Int)).toNat = 0 by omega, sumTrials, XD.div_fin _ _ hn', zero_div]
    refine ⟨h0 k, ?_⟩
    rw [h0]
    cases m <;> norm_num [passes, criteria]

/-! ### C248 -/

theorem firstWith_ok (get : TestResult → Option XD) (test : XD → Prop) (l : List TestResult) (h : ∀ r ∈ l, (get r).isSome) :
    ∃ o : Option XD, firstWith get test l = .ok o ∧ (o = none ↔ ∀ r ∈ l, ∀ x, get r = some x → ¬ test x) ∧
      ∀ x, o = some x → test x ∧ ∃ pre r post, l = pre ++ r :: post ∧ get r = some x ∧ ∀ q ∈ pre, ∀ y, get q = some y → ¬ test y := by
  induction l with
  | nil => exact ⟨none, rfl, by simp, by simp⟩
  | cons r l ih =>
    obtain ⟨x, hx⟩ := Option.isSome_iff_exists.1 (h r (List.mem_cons_self ..))
    obtain ⟨o, h1, h2, h3⟩ := ih fun q hq => h q (List.mem_cons_of_mem _ hq)
    by_cases ht : test x
    · refine ⟨some x, ?_, ?_, ?_⟩
      · simp [firstWith, read, hx, Outcome.bind, ht]
      · constructor
        · intro e; cases e
        · intro e; exact absurd ht (e r (List.mem_cons_self ..) x hx)
      · intro y hy
        cases hy
        exact ⟨ht, [], r, l, rfl, hx, by simp⟩
    · refine ⟨o, ?_, ?_, ?_⟩
      · simp [firstWith, read, hx, Outcome.bind, ht, h1]
      · rw [h2]
        constructor
        · intro e q hq y hy
          rcases List.mem_cons.1 hq with rfl | hq
          · rw [hx] at hy; cases hy; exact ht
          · exact e q hq y hy
        · intro e q hq y hy
          exact e q (List.mem_cons_of_mem _ hq) y hy
      · intro y hy
        obtain ⟨a, pre, q, post, e, b, c⟩ := h3 y hy
        refine ⟨a, r :: pre, q, post, by rw [e]; rfl, b, ?_⟩
        intro q' hq' y' hy'
        rcases List.mem_cons.1 hq' with rfl | hq'
        · rw [hx] at hy'; cases hy'; exact ht
        · exact c q' hq' y' hy'

/-- **C248.** For all results in which the three metrics are set, a mission is assessed as suitable exactly if there is a result of health-weighted TMR for it and
all of these passed, whatever the results of other missions and methods are. -/
theorem C248_suitable (m : Mission) (results : List TestResult)
    (h : ∀ r ∈ results, r.seu.isSome ∧ r.energy.isSome ∧ r.mtbf.isSome) :
    ∃ a, assess m results = .ok a ∧
      (a.suitable = true ↔ (∃ r ∈ results, r.mission = m ∧ r.protection = .healthTmr) ∧
        ∀ r ∈ results, r.mission = m → r.protection = .healthTmr → r.pass = true) ∧
      ((∃ r ∈ results, r.mission = m ∧ r.protection = .healthTmr) →
        a.shielding = some (shielding m) ∧
        ∀ (r : TestResult) (hours : ℝ), results.find? (fun r => r.mission = m && r.protection = .healthTmr) = some r → r.mtbf = some (.fin hours) → 0 < hours →
          ∃ years : ℝ, a.lifetime = some (.fin years) ∧ years * 8766 = hours * (6 / 10)) := by
  unfold assess
  have hmem : ∀ r, r ∈ results.filter (fun r => r.mission = m && r.protection = .healthTmr) ↔ r ∈ results ∧ r.mission = m ∧ r.protection = .healthTmr := by
    intro r; simp
  have hfind : results.find? (fun r => r.mission = m && r.protection = .healthTmr) = (results.filter fun r => r.mission = m && r.protection = .healthTmr).head? :=
    List.head?_filter.symm
  rw [hfind]
  generalize results.filter (fun r => r.mission = m && r.protection = .healthTmr) = mine at hmem
  dsimp only
  by_cases hm : mine = []
  · rw [if_pos hm]
    subst hm
    have hno : ¬ ∃ r ∈ results, r.mission = m ∧ r.protection = .healthTmr := by
      rintro ⟨r, a, b⟩
      exact absurd ((hmem r).2 ⟨a, b⟩) (by simp)
    exact ⟨_, rfl, ⟨fun e => (by cases e), fun e => absurd e.1 hno⟩, fun e => absurd e hno⟩
  · rw [if_neg hm]
    have hex : ∃ r ∈ results, r.mission = m ∧ r.protection = .healthTmr := by
      obtain ⟨r, hr⟩ := List.exists_mem_of_ne_nil _ hm
      exact ⟨r, (hmem r).1 hr⟩
    have hs : ∀ r ∈ mine, r.seu.isSome ∧ r.energy.isSome ∧ r.mtbf.isSome := fun r hr => h r ((hmem r).1 hr).1
    obtain ⟨o1, e1, _, f1⟩ := firstWith_ok TestResult.mtbf (fun x => (XD.fin 0).lt x) mine fun r hr => (hs r hr).2.2
    obtain ⟨o2, e2, _⟩ := firstWith_ok TestResult.seu (fun x => (XD.fin (criteria m).1).lt x) mine fun r hr => (hs r hr).1
    obtain ⟨o3, e3, _⟩ := firstWith_ok TestResult.energy (fun x => x.lt (.fin (criteria m).2.1)) mine fun r hr => (hs r hr).2.1
    obtain ⟨o4, e4, _⟩ := firstWith_ok TestResult.mtbf (fun x => x.lt (.fin (criteria m).2.2)) mine fun r hr => (hs r hr).2.2
    rw [e1, e2, e3, e4]
    refine ⟨_, rfl, ?_, ?_⟩
    · show mine.all TestResult.pass = true ↔ _
      rw [List.all_eq_true]
      constructor
      · intro e
        exact ⟨hex, fun r a b c => e r ((hmem r).2 ⟨a, b, c⟩)⟩
      · rintro ⟨_, e⟩ r hr
        have := (hmem r).1 hr
        exact e r this.1 this.2.1 this.2.2
    · intro _
      refine ⟨rfl, ?_⟩
      intro r hours hr hh hpos
      cases mine with
      | nil => exact absurd rfl hm
      | cons q rest =>
        have : q = r := by simpa using hr
        subst this
        have : o1 = some (.fin hours) := by
          have e : firstWith TestResult.mtbf (fun x => (XD.fin 0).lt x) (q :: rest) = .ok (some (.fin hours)) := by
            simp [firstWith, read, hh, Outcome.bind, hpos]
          rw [e] at e1
          injection e1 with e1
          exact e1.symm
        subst this
        refine ⟨hours * (6 / 10) / (36525 / 100 * 24), ?_, ?_⟩
        · show some (XD.div (XD.mul (.fin hours) (.fin (6 / 10))) (.fin (36525 / 100 * 24))) = _
          rw [XD.mul_fin, XD.div_fin _ _ (by norm_num)]
        · norm_num

/-- Three complete results. -/
noncomputable def sampleResults : List TestResult :=
  [⟨.leo, .healthTmr, true, some (.fin 0), some (.fin 50), some (.fin 8766), none, true⟩, ⟨.leo, .basicTmr, true, some (.fin 0), some (.fin 0), some (.fin 0), none, false⟩,
   ⟨.geo, .healthTmr, true, some (.fin 1), some (.fin 0), some (.fin 1), none, false⟩]

example : (∀ r ∈ sampleResults, r.seu.isSome ∧ r.energy.isSome ∧ r.mtbf.isSome) ∧ (∃ r ∈ sampleResults, r.mission = .leo ∧ r.protection = .healthTmr) := by
  refine ⟨?_, _, List.mem_cons_self .., rfl, rfl⟩
  intro r hr
  simp only [sampleResults, List.mem_cons, List.not_mem_nil, or_false] at hr
  rcases hr with rfl | rfl | rfl <;> exact ⟨rfl, rfl, rfl⟩

/-- **C248 (improvements).** For complete results the number of recommendations is that of the criteria some health-weighted result misses, and those of the
mission. -/
theorem C248_improvements (m : Mission) (results : List TestResult) (h : ∀ r ∈ results, r.seu.isSome ∧ r.energy.isSome ∧ r.mtbf.isSome)
    (hex : ∃ r ∈ results, r.mission = m ∧ r.protection = .healthTmr) (worse : Metric → Bool)
    (hw : ∀ k, worse k = true ↔ ∃ r ∈ results, r.mission = m ∧ r.protection = .healthTmr ∧ ∃ x, match k with
      | .seu => r.seu = some x ∧ (XD.fin (criteria m).1).lt x
      | .energy => r.energy = some x ∧ x.lt (.fin (criteria m).2.1)
      | .mtbf => r.mtbf = some x ∧ x.lt (.fin (criteria m).2.2)) :
    ∃ a, assess m results = .ok a ∧ a.improvements = ([Metric.seu, .energy, .mtbf].filter worse).length + specific m := by
  unfold assess
  have hmem : ∀ r, r ∈ results.filter (fun r => r.mission = m && r.protection = .healthTmr) ↔ r ∈ results ∧ r.mission = m ∧ r.protection = .healthTmr := by
    intro r; simp
  generalize results.filter (fun r => r.mission = m && r.protection = .healthTmr) = mine at hmem
  dsimp only
  have hm : mine ≠ [] := by
    obtain ⟨r, a, b⟩ := hex
    exact List.ne_nil_of_mem ((hmem r).2 ⟨a, b⟩)
  rw [if_neg hm]
  have hs : ∀ r ∈ mine, r.seu.isSome ∧ r.energy.isSome ∧ r.mtbf.isSome := fun r hr => h r ((hmem r).1 hr).1
  obtain ⟨o1, e1, _⟩ := firstWith_ok TestResult.mtbf (fun x => (XD.fin 0).lt x) mine fun r hr => (hs r hr).2.2
  obtain ⟨o2, e2, g2, _⟩ := firstWith_ok TestResult.seu (fun x => (XD.fin (criteria m).1).lt x) mine fun r hr => (hs r hr).1
  obtain ⟨o3, e3, g3, _⟩ := firstWith_ok TestResult.energy (fun x => x.lt (.fin (criteria m).2.1)) mine fun r hr => (hs r hr).2.1
  obtain ⟨o4, e4, g4, _⟩ := firstWith_ok TestResult.mtbf (fun x => x.lt (.fin (criteria m).2.2)) mine fun r hr => (hs r hr).2.2
  rw [e1, e2, e3, e4]
  refine ⟨_, rfl, ?_⟩
  have count : ∀ (o : Option XD) (get : TestResult → Option XD) (test : XD → Prop) (b : Bool),
      (o = none ↔ ∀ r ∈ mine, ∀ x, get r = some x → ¬ test x) →
      (b = true ↔ ∃ r ∈ results, r.mission = m ∧ r.protection = .healthTmr ∧ ∃ x, get r = some x ∧ test x) →
      o.toList.length = if b then 1 else 0 := by
    intro o get test b h1 h2
    cases o with
    | none =>
      have : b = false := by
        rw [Bool.eq_false_iff]
        intro hb
        obtain ⟨r, a, c, d, x, e, f⟩ := h2.1 hb
        exact h1.1 rfl r ((hmem r).2 ⟨a, c, d⟩) x e f
      simp [this]
    | some y =>
      have : b = true := by
        rw [h2]
        by_contra hno
        have : some y = none := by
          rw [h1]
          intro r hr x hx ht
          have := (hmem r).1 hr
          exact hno ⟨r, this.1, this.2.1, this.2.2, x, hx, ht⟩
        cases this
      simp [this]
  show o2.toList.length + o3.toList.length + o4.toList.length + specific m = _
  rw [count o2 _ _ (worse .seu) g2 (hw .seu), count o3 _ _ (worse .energy) g3 (hw .energy), count o4 _ _ (worse .mtbf) g4 (hw .mtbf)]
  cases h1 : worse .seu <;> cases h2 : worse .energy <;> cases h3 : worse .mtbf <;> simp [h1, h2, h3]

/-- **C248, violated.** The tests set one metric each and leave the others unset, but assessment and both exports read all: for every metric, mission, number
of trials and random numbers the assessment of the results of a run, their CSV export, and the comprehensive report of a new object read indeterminate values. -/
theorem C248_unset_violated (trials : Int) (k : Metric) (m : Mission) (z : Source) :
    assess m (runTests trials k z).1 = .ub ∧ exportCsv (runTests trials k z).1 = .ub ∧ exportHtml (runTests trials k z).1 = .ub ∧ comprehensive trials z = .ub := by
  have hf : ∃ x, (runTests trials k z).1.filter (fun r => r.mission = m && r.protection = .healthTmr) = [oneResult k m .healthTmr x] := by
    cases m <;> exact ⟨_, rfl⟩
  have row : ∀ (k : Metric) (x : XD) (rest : List TestResult), htmlRow (oneResult k .leo .noProtection x :: rest) .leo .noProtection = .ub := by
    intro k x rest
    cases k <;> rfl
  have html : ∀ (k : Metric) (x : XD) (rest : List TestResult), exportHtml (oneResult k .leo .noProtection x :: rest) = .ub := by
    intro k x rest
    have : sequence ((missions.flatMap fun m => methods.map fun p => (m, p)).map fun c => htmlRow (oneResult k .leo .noProtection x :: rest) c.1 c.2) = .ub := by
      show (htmlRow (oneResult k .leo .noProtection x :: rest) .leo .noProtection).bind _ = _
      rw [row]
      rfl
    unfold exportHtml
    rw [this]
    rfl
  refine ⟨?_, ?_, ?_, ?_⟩
  · obtain ⟨x, hx⟩ := hf
    unfold assess
    rw [hx]
    dsimp only
    rw [if_neg (by simp)]
    cases k with
    | seu => rfl
    | energy => rfl
    | mtbf =>
      by_cases h : (XD.fin 0).lt x <;> simp [firstWith, read, oneResult, Outcome.bind, h]
  · obtain ⟨x, rest, h⟩ : ∃ x rest, (runTests trials k z).1 = oneResult k .leo .noProtection x :: rest := ⟨_, _, rfl⟩
    rw [h]
    cases k <;> rfl
  · exact html _ _ _
  · exact html _ _ _

/-- **C248, violated.** Nor can complete results of some missions be exported: the report prints lifetime and shielding of every mission, and a mission without
results of health-weighted TMR has none. -/
theorem C248_missing_violated (m : Mission) (results : List TestResult) (h : ∀ r ∈ results, r.mission = m → r.protection ≠ .healthTmr) :
    assess m results = .ok ⟨false, none, none, 0⟩ ∧ assessLine results m = .ub ∧ exportHtml results = .ub := by
  have hf : results.filter (fun r => r.mission = m && r.protection = .healthTmr) = [] := by
    rw [List.filter_eq_nil_iff]
    intro r hr
    simpa using h r hr
  have ha : assess m results = .ok ⟨false, none, none, 0⟩ := by
    unfold assess
    rw [hf]
    rfl
  have hl : assessLine results m = .ub := by
    unfold assessLine
    rw [ha]
    rfl
  refine ⟨ha, hl, ?_⟩
  have seq : ∀ l : List Mission, m ∈ l → sequence (l.map (assessLine results)) = .ub := by
    intro l
    induction l with
    | nil => intro h; cases h
    | cons a l ih =>
      intro h
      show (assessLine results a).bind _ = _
      rcases List.mem_cons.1 h with rfl | h
      · rw [hl]; rfl
      · rw [ih h]
        cases assessLine results a <;> rfl
  unfold exportHtml
  rw [seq missions (by cases m <;> decide)]
  generalize sequence _ = o
  cases o <;> rfl

example : ∀ r ∈ sampleResults, r.mission = Mission.mars → r.protection ≠ .healthTmr := by
  intro r hr
  simp only [sampleResults, List.mem_cons, List.not_mem_nil, or_false] at hr
  rcases hr with rfl | rfl | rfl <;> intro h <;> cases h

/-- **C243 (levels).** The four known names stand for the four kinds of protection. -/
theorem C243_names : protectionOf "TMR" = .tmrBasic ∧ protectionOf "TMR_ENHANCED" = .tmrEnhanced ∧
    protectionOf "TMR_ADAPTIVE" = .tmrAdaptive ∧ protectionOf "ECC" = .ecc := by
  refine ⟨?_, ?_, ?_, ?_⟩ <;> decide

theorem parse_opt (stoi : String → Option Int) (o : Opt) (ho : o.wellFormed stoi) (rest : List String) (s : Settings) :
    parse stoi (o.words ++ rest) s = parse stoi rest (Opt.apply stoi s o) := by
  cases o with
  | days v =>
    obtain ⟨d, hd⟩ := Option.isSome_iff_exists.1 ho.2
    show parse stoi ("--days" :: v :: rest) s = _
    rw [parse]
    simp only [hd]
    rw [if_neg (by decide), if_pos trivial]
    simp [Opt.apply, hd]
  | csv v =>
    show parse stoi ("--csv" :: v :: rest) s = _
    rw [parse, if_neg (by decide), if_neg (by decide), if_pos rfl]
    rfl
  | report v =>
    show parse stoi ("--report" :: v :: rest) s = _
    rw [parse, if_neg (by decide), if_neg (by decide), if_neg (by decide), if_pos rfl]
    rfl
  | environment v =>
    show parse stoi ("--environment" :: v :: rest) s = _
    rw [parse, if_neg (by decide), if_neg (by decide), if_neg (by decide), if_neg (by decide), if_pos rfl, parse_word _ _ ho]
    rfl
  | word v => exact parse_word stoi v ho rest s

/-- **C245 (unreadable number).** After any well-formed options, a duration that is no number ends the program with an exception, whatever follows. -/
theorem C245_unreadable (stoi : String → Option Int) (l : List Opt) (hl : ∀ o ∈ l, o.wellFormed stoi) (v : String) (hv : stoi v = none)
    (rest : List String) (s : Settings) : parse stoi (l.flatMap Opt.words ++ "--days" :: v :: rest) s = .threw := by
  induction l generalizing s with
  | nil =>
    show parse stoi ("--days" :: v :: rest) s = _
    rw [parse]
    simp only [hv]
    rw [if_neg (by decide), if_pos trivial]
  | cons o l ih =>
    rw [List.flatMap_cons, List.append_assoc, parse_opt stoi o (hl o (List.mem_cons_self ..))]
    exact ih (fun o' h => hl o' (List.mem_cons_of_mem _ h)) _

example : parse (fun _ => none) ["--csv", "a.csv", "--days", "ten"] {} = .threw :=
  C245_unreadable (fun _ => none) [.csv "a.csv"] (by intro o ho; rw [List.mem_singleton] at ho; subst ho; show _ ∉ _; decide) "ten" rfl [] {}

end Verif.ValidationTools
