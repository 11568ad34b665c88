import Verif.Model.MissionSimTest
import Mathlib.Tactic.Linarith
import Mathlib.Tactic.NormNum
import Mathlib.Tactic.Ring
import Mathlib.Tactic.FieldSimp
import Mathlib.Tactic.Positivity
import Mathlib.Analysis.Real.Sqrt
/-! Properties C304–C308: the mission simulation test. -/
namespace Verif.Props.MissionSim
open Verif.MissionSim

/-! ### Specification -/

/-- Two of the three networks give `v`. -/
def TwoGive (e : Elem) (v : ℚ) : Prop := (e.o1 = v ∧ e.o2 = v) ∨ (e.o1 = v ∧ e.o3 = v) ∨ (e.o2 = v ∧ e.o3 = v)

/-- All outputs of the element are in an interval. -/
def Within (a b : ℚ) (e : Elem) : Prop := (a ≤ e.o1 ∧ e.o1 ≤ b) ∧ (a ≤ e.o2 ∧ e.o2 ≤ b) ∧ (a ≤ e.o3 ∧ e.o3 ≤ b)

/-- Reliabilities between `lo` and 1, and positive. -/
def Sound (lo : ℚ) (h : Health) : Prop := (0 < h.h1 ∧ lo ≤ h.h1 ∧ h.h1 ≤ 1) ∧ (0 < h.h2 ∧ lo ≤ h.h2 ∧ h.h2 ≤ 1) ∧ (0 < h.h3 ∧ lo ≤ h.h3 ∧ h.h3 ≤ 1)

/-! ### C304: the vote on one element -/

theorem agree_iff (a b : ℚ) : agree a b = true ↔ |a - b| < 1 / 10 := by unfold agree; simp

theorem agree_self (a : ℚ) : agree a a = true := by rw [agree_iff]; simp

theorem agree_comm (a b : ℚ) : agree a b = agree b a := by unfold agree; rw [abs_sub_comm]

/-- **C304 (majority).** Between 1e-8 and 1e-7, whatever the checkpoint and the reliabilities: if two of the three networks give a value, the vote is within 0.1 of it, and it is exactly that value if the third network is off by 0.1 or more. -/
theorem C304_majority (level : ℚ) (hl : 1 / 10 ^ 8 ≤ level) (hu : level ≤ 1 / 10 ^ 7) (ck : Option ℚ) (h : Health) (e : Elem) (v : ℚ) (hv : TwoGive e v) :
    |(standardElem level ck h e).1 - v| < 1 / 10 ∧
    ((∃ o, (o = e.o1 ∨ o = e.o2 ∨ o = e.o3) ∧ 1 / 10 ≤ |o - v|) → (standardElem level ck h e).1 = v) := by
  have hb : ∀ r, blend level ck r = r := by
    intro r
    unfold blend
    cases ck with
    | none => rfl
    | some c => simp only; rw [if_neg (not_lt.mpr hu)]
  unfold standardElem
  rw [if_neg (not_lt.mpr hl)]
  simp only [hb]
  obtain ⟨o1, o2, o3⟩ := e
  have z : |v - v| < (1 : ℚ) / 10 := by simp
  rcases hv with ⟨a, b⟩ | ⟨a, b⟩ | ⟨a, b⟩ <;> simp only at a b <;> subst a <;> subst b <;> unfold voteElem <;> simp only [agree_self, Bool.true_and, Bool.and_true, if_true]
  · split <;> exact ⟨z, fun _ => rfl⟩
  · split <;> exact ⟨z, fun _ => rfl⟩
  · by_cases c : agree o1 o3 = true
    · simp only [c, Bool.and_self, if_true]
      rw [agree_iff] at c
      refine ⟨c, ?_⟩
      rintro ⟨o, ho, hd⟩
      exfalso
      rcases ho with rfl | rfl | rfl
      · linarith
      · simp at hd; linarith
      · simp at hd; linarith
    · simp only [Bool.and_self]
      rw [if_neg c, if_neg c, if_neg c]
      exact ⟨z, fun _ => rfl⟩

example : (standardElem (1 / 10 ^ 8) none {} ⟨1 / 2, 9 / 10, 1 / 2⟩).1 = 1 / 2 := by decide +kernel
example : TwoGive ⟨1 / 2, 9 / 10, 1 / 2⟩ (1 / 2) := Or.inr (Or.inl ⟨rfl, rfl⟩)

/-- **C304, violated.** The vote is not that of the two networks that agree. (1) Below 1e-8 the average is taken: a third of the error of a damaged network is passed on, for every error.
(2) If the first network is the damaged one and off by less than 0.1, its value is returned although the two others give the same. (3) Above 1e-7 with a checkpoint the result is half of the vote plus half of the checkpoint,
at every level: the weight, said to depend on the radiation level, is always one half, and three networks that agree are overruled. -/
theorem C304_vote_violated (h : Health) :
    (∀ level ck v d, level < 1 / 10 ^ 8 → (standardElem level ck h ⟨v, v, v + d⟩).1 = v + d / 3) ∧
    (∀ level ck v d, 1 / 10 ^ 8 ≤ level → level ≤ 1 / 10 ^ 7 → |d| < 1 / 10 → (standardElem level ck h ⟨v + d, v, v⟩).1 = v + d) ∧
    (∀ level c v, 1 / 10 ^ 7 < level → (standardElem level (some c) h ⟨v, v, v⟩).1 = (v + c) / 2) := by
  refine ⟨?_, ?_, ?_⟩
  · intro level ck v d hl
    unfold standardElem
    rw [if_pos hl]
    unfold mean
    ring
  · intro level ck v d hl hu hd
    have hb : ∀ r, blend level ck r = r := by
      intro r
      unfold blend
      cases ck with
      | none => rfl
      | some c => simp only; rw [if_neg (not_lt.mpr hu)]
    unfold standardElem
    rw [if_neg (not_lt.mpr hl)]
    simp only [hb]
    unfold voteElem
    have : agree (v + d) v = true := by rw [agree_iff]; simpa using hd
    simp only [this, Bool.and_self, if_true]
  · intro level c v hl
    unfold standardElem
    rw [if_neg (by have : (1 : ℚ) / 10 ^ 8 < 1 / 10 ^ 7 := by norm_num
                   linarith)]
    unfold voteElem blend
    simp only [agree_self, Bool.and_self, if_true]
    rw [if_pos hl]
    have : min (1 / 2) (level * 10 ^ 7) = 1 / 2 := by
      apply min_eq_left
      have : (1 : ℚ) / 10 ^ 7 * 10 ^ 7 < level * 10 ^ 7 := by
        apply mul_lt_mul_of_pos_right hl; norm_num
      norm_num at this ⊢
      linarith
    rw [this]; ring

theorem wavg {x y z a b c lo hi : ℚ} (ha : 0 < a) (hb : 0 < b) (hc : 0 < c) (hx : lo ≤ x ∧ x ≤ hi) (hy : lo ≤ y ∧ y ≤ hi) (hz : lo ≤ z ∧ z ≤ hi) :
    lo ≤ (x * a + y * b + z * c) / (a + b + c) ∧ (x * a + y * b + z * c) / (a + b + c) ≤ hi := by
  have hs : 0 < a + b + c := by linarith
  constructor
  · rw [le_div_iff₀ hs]
    nlinarith [mul_le_mul_of_nonneg_right hx.1 ha.le, mul_le_mul_of_nonneg_right hy.1 hb.le, mul_le_mul_of_nonneg_right hz.1 hc.le]
  · rw [div_le_iff₀ hs]
    nlinarith [mul_le_mul_of_nonneg_right hx.2 ha.le, mul_le_mul_of_nonneg_right hy.2 hb.le, mul_le_mul_of_nonneg_right hz.2 hc.le]

theorem mean_within {lo hi : ℚ} {e : Elem} (he : Within lo hi e) : lo ≤ mean e ∧ mean e ≤ hi := by
  obtain ⟨⟨a, b⟩, ⟨c, d⟩, f, g⟩ := he
  unfold mean
  constructor <;> linarith

theorem voteElem_within {lo hi l : ℚ} {h : Health} {e : Elem} (hh : Sound l h) (he : Within lo hi e) : lo ≤ (voteElem h e).1 ∧ (voteElem h e).1 ≤ hi := by
  have he' := he
  obtain ⟨e1, e2, e3⟩ := he
  unfold voteElem
  split
  · exact e1
  split
  · exact e1
  split
  · exact e1
  split
  · exact e2
  dsimp only
  split
  · exact wavg hh.1.1 hh.2.1.1 hh.2.2.1 e1 e2 e3
  · exact mean_within he'

/-- **C304 (no invention).** With reliabilities that are positive, at every level the standard, the weighted and the selective result of an element lie between the smallest and the largest of the three outputs and the checkpoint. -/
theorem C304_hull (level lo hi : ℚ) (ck : Option ℚ) (h : Health) (e : Elem) (hh : Sound 0 h) (he : Within lo hi e) (hc : ∀ c, ck = some c → lo ≤ c ∧ c ≤ hi) :
    (lo ≤ (standardElem level ck h e).1 ∧ (standardElem level ck h e).1 ≤ hi) ∧
    (lo ≤ (selectiveElem ck h e).1 ∧ (selectiveElem ck h e).1 ≤ hi) ∧
    (∀ x ∈ (weighted h [e]).1, lo ≤ x ∧ x ≤ hi) := by
  refine ⟨?_, ?_, ?_⟩
  · unfold standardElem
    split
    · exact mean_within he
    · dsimp only
      have hv := voteElem_within hh he
      unfold blend
      cases ck with
      | none => exact hv
      | some c =>
        dsimp only
        split
        · rename_i hl
          have hc' := hc c rfl
          have hw0 : 0 ≤ min (1 / 2 : ℚ) (level * 10 ^ 7) := by
            apply le_min (by norm_num)
            have : (0 : ℚ) < level := lt_trans (by norm_num) hl
            positivity
          have hw1 : min (1 / 2 : ℚ) (level * 10 ^ 7) ≤ 1 / 2 := min_le_left _ _
          generalize min (1 / 2 : ℚ) (level * 10 ^ 7) = w at hw0 hw1
          generalize (voteElem h e).1 = r at hv
          constructor <;> nlinarith
        · exact hv
  · unfold selectiveElem
    dsimp only
    obtain ⟨e1, e2, e3⟩ := id he
    unfold selectiveRaw
    dsimp only
    split
    · constructor <;> dsimp only <;> linarith [e2.1, e3.1, e2.2, e3.2]
    split
    · constructor <;> dsimp only <;> linarith [e1.1, e3.1, e1.2, e3.2]
    split
    · constructor <;> dsimp only <;> linarith [e1.1, e2.1, e1.2, e2.2]
    cases ck with
    | none => exact mean_within he
    | some c =>
      dsimp only
      unfold nearest
      dsimp only
      split
      · exact e1
      split
      · exact e2
      · exact e3
  · intro x hx
    unfold weighted at hx
    have ht : ¬ h.h1 + h.h2 + h.h3 = 0 := by have a := hh.1.1; have b := hh.2.1.1; have c := hh.2.2.1; linarith
    simp only [ht, if_false, List.map_cons, List.map_nil, List.mem_singleton] at hx
    rw [hx]
    exact wavg hh.1.1 hh.2.1.1 hh.2.2.1 he.1 he.2.1 he.2.2

/-- The reliabilities of a new network meet the hypothesis. -/
example : Sound 0 {} := by unfold Sound; norm_num
example : Within 0 1 ⟨1 / 2, 9 / 10, 1 / 2⟩ := by unfold Within; norm_num

/-! ### C305: the reliabilities over any history -/

/-- The implementations as the constructor registers them. -/
def registered : Diversity.State := ⟨[("selective_voting", ⟨8 / 10, List.replicate 10 true⟩), ("standard_tmr", ⟨1, List.replicate 10 true⟩), ("weighted_average", ⟨9 / 10, List.replicate 10 true⟩)], 10⟩

theorem new_div (n : ℕ) (t : ℤ) : (new n t).div = registered := by
  show ((({} : Diversity.State).add "standard_tmr" 1).add "weighted_average" (9 / 10)).add "selective_voting" (8 / 10) = registered
  decide +kernel

theorem exec_registered {R : Type} [LinearOrder R] (a b c : R) :
    registered.execute (fun n => if n = "standard_tmr" then some b else if n = "weighted_average" then some c else some a)
      (fun n => if n = "standard_tmr" then some b else if n = "weighted_average" then some c else some a) = .ok (.value (if a = c then a else b), registered) := by
  have s1 : ¬ ("selective_voting" = "standard_tmr") := by decide +kernel
  have s2 : ¬ ("selective_voting" = "weighted_average") := by decide +kernel
  have s3 : ¬ ("weighted_average" = "standard_tmr") := by decide +kernel
  have n1 : ¬ ((8 : ℚ) / 10 < 2 / 10) := by norm_num
  have n2 : ¬ ((1 : ℚ) < 2 / 10) := by norm_num
  have n3 : ¬ ((9 : ℚ) / 10 < 2 / 10) := by norm_num
  unfold Diversity.State.execute
  have hl : Diversity.loop (fun n => if n = "standard_tmr" then some b else if n = "weighted_average" then some c else some a) registered.entries [] =
      .ok (registered.entries, Diversity.addVote (Diversity.addVote (Diversity.addVote [] a (8 / 10)) b 1) c (9 / 10)) := by
    unfold registered
    simp only [Diversity.loop, n1, n2, n3, if_false, if_true, s1, s2, s3, Outcome.bind]
  rw [hl]
  show (match Diversity.best (Diversity.addVote (Diversity.addVote (Diversity.addVote [] a (8 / 10)) b 1) c (9 / 10)) with
    | some m => _ | none => _) = _
  have hb : (Diversity.best (Diversity.addVote (Diversity.addVote (Diversity.addVote [] a (8 / 10)) b 1) c (9 / 10))).map Prod.fst = some (if a = c then a else b) := by
    rcases lt_trichotomy a b with hab | hab | hab
    · have nab : ¬ b < a := not_lt.mpr hab.le
      rcases lt_trichotomy a c with hac | hac | hac
      · have nac : ¬ c < a := not_lt.mpr hac.le
        have eac : ¬ a = c := hac.ne
        rcases lt_trichotomy b c with hbc | hbc | hbc
        · have nbc : ¬ c < b := not_lt.mpr hbc.le
          simp [Diversity.addVote, hab, nab, hac, nac, hbc, nbc, eac, Diversity.best] <;> norm_num
        · subst hbc
          simp [Diversity.addVote, hab, nab, eac, Diversity.best] <;> norm_num
        · have nbc : ¬ b < c := not_lt.mpr hbc.le
          simp [Diversity.addVote, hab, nab, hac, nac, hbc, nbc, eac, Diversity.best] <;> norm_num
      · subst hac
        simp [Diversity.addVote, hab, nab, Diversity.best] <;> norm_num
      · have nac : ¬ a < c := not_lt.mpr hac.le
        have eac : ¬ a = c := hac.ne'
        simp [Diversity.addVote, hab, nab, hac, nac, eac, Diversity.best] <;> norm_num
    · subst hab
      rcases lt_trichotomy a c with hac | hac | hac
      · have nac : ¬ c < a := not_lt.mpr hac.le
        simp [Diversity.addVote, hac, nac, Diversity.best] <;> norm_num
      · subst hac
        simp [Diversity.addVote, Diversity.best]
      · have nac : ¬ a < c := not_lt.mpr hac.le
        simp [Diversity.addVote, hac, nac, Diversity.best] <;> norm_num
    · have nab : ¬ a < b := not_lt.mpr hab.le
      rcases lt_trichotomy a c with hac | hac | hac
      · have nac : ¬ c < a := not_lt.mpr hac.le
        have eac : ¬ a = c := hac.ne
        have hbc := lt_trans hab hac
        have nbc : ¬ c < b := not_lt.mpr hbc.le
        simp [Diversity.addVote, hab, nab, hac, nac, hbc, nbc, eac, Diversity.best] <;> norm_num
      · subst hac
        simp [Diversity.addVote, hab, nab, Diversity.best] <;> norm_num
      · have nac : ¬ a < c := not_lt.mpr hac.le
        have eac : ¬ a = c := hac.ne'
        rcases lt_trichotomy b c with hbc | hbc | hbc
        · have nbc : ¬ c < b := not_lt.mpr hbc.le
          simp [Diversity.addVote, hab, nab, hac, nac, hbc, nbc, eac, Diversity.best] <;> norm_num
        · subst hbc
          simp [Diversity.addVote, hab, nab, eac, Diversity.best] <;> norm_num
        · have nbc : ¬ b < c := not_lt.mpr hbc.le
          simp [Diversity.addVote, hab, nab, hac, nac, hbc, nbc, eac, Diversity.best] <;> norm_num
  cases hm : Diversity.best (Diversity.addVote (Diversity.addVote (Diversity.addVote [] a (8 / 10)) b 1) c (9 / 10)) with
  | none => rw [hm] at hb; simp at hb
  | some m =>
    rw [hm] at hb
    simp only [Option.map_some, Option.some.injEq] at hb
    dsimp only
    rw [hb]

theorem mostReliable_registered : Diversity.mostReliable registered.entries = "standard_tmr" := by decide +kernel

/-- What a call answers, and the reliabilities after it: up to 1e-6 the standard vote; above, the three ways one after the other, and the standard result unless the two others agree against it. -/
def answer (s : State) (es : List Elem) : List ℚ × Health :=
  if 1 / 10 ^ 6 < s.level then
    let a := selective s.checkpoints s.health es
    let b := standard s.level s.checkpoints a.2 es
    let c := weighted b.2 es
    (if a.1 = c.1 then a.1 else b.1, c.2)
  else standard s.level s.checkpoints s.health es

theorem infer_eq (s : State) (hd : s.div = registered) (es : List Elem) : s.infer es = .ok ((answer s es).1, (answer s es).2, registered) := by
  unfold State.infer answer
  by_cases h6 : 1 / 10 ^ 6 < s.level
  · rw [if_pos h6, if_pos h6]
    dsimp only
    rw [hd]
    have := exec_registered (selective s.checkpoints s.health es).1 (standard s.level s.checkpoints (selective s.checkpoints s.health es).2 es).1
      (weighted (standard s.level s.checkpoints (selective s.checkpoints s.health es).2 es).2 es).1
    rw [this]
    by_cases e : (selective s.checkpoints s.health es).1 = (weighted (standard s.level s.checkpoints (selective s.checkpoints s.health es).2 es).2 es).1
    · rw [if_pos e, if_pos e]; rfl
    · rw [if_neg e, if_neg e]; rfl
  · rw [if_neg h6, if_neg h6]
    by_cases h7 : 1 / 10 ^ 7 < s.level
    · rw [if_pos h7]
      dsimp only
      rw [hd, mostReliable_registered]
      unfold State.impl
      rw [if_pos rfl]
    · rw [if_neg h7, hd]

theorem up_sound {lo h : ℚ} (x : 0 < h ∧ lo ≤ h ∧ h ≤ 1) : 0 < up h ∧ lo ≤ up h ∧ up h ≤ 1 := by
  obtain ⟨a, b, c⟩ := x
  have : h ≤ up h := le_min c (by linarith)
  exact ⟨lt_of_lt_of_le a this, le_trans b this, min_le_left _ _⟩

theorem down_sound {lo h : ℚ} (hlo : lo ≤ 1 / 10) (x : 0 < h ∧ lo ≤ h ∧ h ≤ 1) : 0 < down h ∧ lo ≤ down h ∧ down h ≤ 1 := by
  obtain ⟨a, b, c⟩ := x
  have : 1 / 10 ≤ down h := le_max_left _ _
  exact ⟨lt_of_lt_of_le (by norm_num) this, le_trans hlo this, max_le (by norm_num) (by linarith)⟩

theorem voteElem_sound {lo : ℚ} (hlo : lo ≤ 1 / 10) {h : Health} (hh : Sound lo h) (e : Elem) : Sound lo (voteElem h e).2 := by
  have hh' := hh
  obtain ⟨a, b, c⟩ := hh
  unfold voteElem
  split
  · exact ⟨up_sound a, up_sound b, up_sound c⟩
  split
  · exact ⟨up_sound a, up_sound b, down_sound hlo c⟩
  split
  · exact ⟨up_sound a, down_sound hlo b, up_sound c⟩
  split
  · exact ⟨down_sound hlo a, up_sound b, up_sound c⟩
  dsimp only
  split
  · exact hh'
  · exfalso
    rename_i hn
    exact hn (by linarith [a.1, b.1, c.1])

theorem standardElem_sound {lo : ℚ} (hlo : lo ≤ 1 / 10) (level : ℚ) (ck : Option ℚ) {h : Health} (hh : Sound lo h) (e : Elem) : Sound lo (standardElem level ck h e).2 := by
  unfold standardElem
  split
  · exact hh
  · exact voteElem_sound hlo hh e

theorem mul_sound {h k : ℚ} (hk : 0 < k) (x : 0 < h ∧ 0 ≤ h ∧ h ≤ 1) : 0 < min 1 (h * k) ∧ 0 ≤ min 1 (h * k) ∧ min 1 (h * k) ≤ 1 := by
  have : 0 < min 1 (h * k) := lt_min one_pos (mul_pos x.1 hk)
  exact ⟨this, this.le, min_le_left _ _⟩

theorem cap_id {h : ℚ} (x : 0 < h ∧ 0 ≤ h ∧ h ≤ 1) : 0 < min 1 h ∧ 0 ≤ min 1 h ∧ min 1 h ≤ 1 := by
  rw [min_eq_right x.2.2]; exact x

theorem selectiveElem_sound (ck : Option ℚ) {h : Health} (hh : Sound 0 h) (e : Elem) : Sound 0 (selectiveElem ck h e).2 := by
  obtain ⟨a, b, c⟩ := hh
  have k9 : (0 : ℚ) < 9 / 10 := by norm_num
  have k5 : (0 : ℚ) < 105 / 100 := by norm_num
  unfold selectiveElem selectiveRaw
  dsimp only
  split
  · exact ⟨mul_sound k9 a, cap_id b, cap_id c⟩
  split
  · exact ⟨cap_id a, mul_sound k9 b, cap_id c⟩
  split
  · exact ⟨cap_id a, cap_id b, mul_sound k9 c⟩
  cases ck with
  | none => exact ⟨cap_id a, cap_id b, cap_id c⟩
  | some v =>
    dsimp only
    unfold nearest
    dsimp only
    split
    · exact ⟨mul_sound k5 a, cap_id b, cap_id c⟩
    split
    · exact ⟨cap_id a, mul_sound k5 b, cap_id c⟩
    · exact ⟨cap_id a, cap_id b, mul_sound k5 c⟩

theorem overElems_sound {lo : ℚ} {f : Option ℚ → Health → Elem → ℚ × Health} (hf : ∀ ck h e, Sound lo h → Sound lo (f ck h e).2) :
    ∀ (es : List Elem) (cks : List (Option ℚ)) (h : Health), Sound lo h → Sound lo (overElems f cks h es).2
  | [], _, h, hh => by simpa [overElems] using hh
  | e :: es, cks, h, hh => by
    rw [overElems]
    exact overElems_sound hf es _ _ (hf _ _ _ hh)

theorem weighted_health {lo : ℚ} {h : Health} (hh : Sound lo h) (es : List Elem) : (weighted h es).2 = h := by
  have ht : ¬ h.h1 + h.h2 + h.h3 = 0 := by have a := hh.1.1; have b := hh.2.1.1; have c := hh.2.2.1; linarith
  unfold weighted
  simp only [ht, if_false]

theorem answer_sound (s : State) (es : List Elem) (hh : Sound 0 s.health) : Sound 0 (answer s es).2 := by
  have l0 : (0 : ℚ) ≤ 1 / 10 := by norm_num
  have hs : ∀ h, Sound 0 h → Sound 0 (standard s.level s.checkpoints h es).2 := fun h hh => overElems_sound (fun ck h e x => standardElem_sound l0 _ ck x e) es _ h hh
  unfold answer
  split
  · dsimp only
    have h1 : Sound 0 (selective s.checkpoints s.health es).2 := overElems_sound (fun ck h e x => selectiveElem_sound ck x e) es _ _ hh
    rw [weighted_health (hs _ h1)]
    exact hs _ h1
  · exact hs _ hh

theorem answer_sound10 (s : State) (es : List Elem) (hl : s.level ≤ 1 / 10 ^ 6) (hh : Sound (1 / 10) s.health) : Sound (1 / 10) (answer s es).2 := by
  unfold answer
  rw [if_neg (not_lt.mpr hl)]
  exact overElems_sound (fun ck h e x => standardElem_sound le_rfl _ ck x e) es _ _ hh

/-- What holds in every reachable state. -/
structure Good (s : State) : Prop where
  div : s.div = registered
  untrained : s.trained = false
  sound : Sound 0 s.health
  interval : s.interval = 5

theorem good_new (n : ℕ) (t : ℤ) : Good (new n t) :=
  ⟨new_div n t, rfl, by unfold Sound new; norm_num, rfl⟩

/-- The state after a call. -/
def after (s : State) (nets : List ℚ → List Elem) (now : ℤ) (input : List ℚ) : State :=
  { s with
    count := s.count + 1
    health := (answer s (nets input)).2
    managers := if (s.count + 1) % 5 = 0 then List.zipWith (fun m r => Ckpt.createCheckpoint m r (s.count + 1) now) s.managers (answer s (nets input)).1 else s.managers
    lastInput := input
    lastOutput := (answer s (nets input)).1 }

theorem forward_eq (s : State) (g : Good s) (nets : List ℚ → List Elem) (now : ℤ) (input : List ℚ) :
    s.forward nets now input = .ok ((answer s (nets input)).1, after s nets now input) := by
  obtain ⟨level, health, trained, div, managers, li, lo, interval, count⟩ := s
  obtain rfl : trained = false := g.untrained
  obtain rfl : interval = 5 := g.interval
  obtain rfl : div = registered := g.div
  have h := infer_eq ⟨level, health, false, registered, managers, li, lo, 5, count + 1⟩ rfl (nets input)
  have ha : answer ⟨level, health, false, registered, managers, li, lo, 5, count + 1⟩ (nets input) = answer ⟨level, health, false, registered, managers, li, lo, 5, count⟩ (nets input) := rfl
  rw [ha] at h
  unfold State.forward
  simp only [Bool.false_and, Bool.false_eq_true, if_false]
  rw [h]
  show Outcome.ok _ = _
  unfold after
  by_cases hc : (count + 1) % 5 = 0
  · simp only [if_pos hc]
  · simp only [if_neg hc]

theorem good_after (s : State) (g : Good s) (nets : List ℚ → List Elem) (now : ℤ) (input : List ℚ) : Good (after s nets now input) :=
  ⟨g.div, g.untrained, answer_sound s _ g.sound, g.interval⟩

theorem run_good : ∀ (ops : List Op) (s : State), Good s → ∃ s', s.run ops = .ok s' ∧ Good s'
  | [], s, g => ⟨s, rfl, g⟩
  | .corrupt p :: t, s, g => by
    have : s.run (.corrupt p :: t) = (s.corrupt p).run t := by simp [State.run, State.step, Outcome.bind]
    rw [this]
    exact run_good t _ ⟨g.div, g.untrained, g.sound, g.interval⟩
  | .forward nets now input :: t, s, g => by
    have : s.run (.forward nets now input :: t) = (after s nets now input).run t := by simp [State.run, State.step, forward_eq s g, Outcome.bind]
    rw [this]
    exact run_good t _ (good_after s g _ _ _)

/-- **C305 (reliabilities).** For every number of outputs and every history of damage and calls, whatever the networks compute: no call is undefined, and the three reliabilities stay positive and at most 1, so the weights of the average never add up to 0. -/
theorem C305_reliabilities (n : ℕ) (t : ℤ) (ops : List Op) : ∃ s, (new n t).run ops = .ok s ∧ Sound 0 s.health := by
  obtain ⟨s, h, g⟩ := run_good ops _ (good_new n t)
  exact ⟨s, h, g.sound⟩

/-- The radiation level never exceeds `1e-6`. -/
def Mild : List Op → Prop
  | [] => True
  | .corrupt p :: t => p / 86400 ≤ 1 / 10 ^ 6 ∧ Mild t
  | .forward _ _ _ :: t => Mild t

theorem run_mild : ∀ (ops : List Op) (s : State), Good s → s.level ≤ 1 / 10 ^ 6 → Sound (1 / 10) s.health → Mild ops → ∃ s', s.run ops = .ok s' ∧ Sound (1 / 10) s'.health
  | [], s, _, _, hh, _ => ⟨s, rfl, hh⟩
  | .corrupt p :: t, s, g, _, hh, hm => by
    have : s.run (.corrupt p :: t) = (s.corrupt p).run t := by simp [State.run, State.step, Outcome.bind]
    rw [this]
    exact run_mild t _ ⟨g.div, g.untrained, g.sound, g.interval⟩ hm.1 hh hm.2
  | .forward nets now input :: t, s, g, hl, hh, hm => by
    have : s.run (.forward nets now input :: t) = (after s nets now input).run t := by simp [State.run, State.step, forward_eq s g, Outcome.bind]
    rw [this]
    exact run_mild t _ (good_after s g _ _ _) hl (answer_sound10 s _ hl hh) hm

/-- **C305 (floor).** In every history in which the level never exceeds 1e-6 the reliabilities stay between 0.1 and 1. -/
theorem C305_floor (n : ℕ) (t : ℤ) (ops : List Op) (h : Mild ops) : ∃ s, (new n t).run ops = .ok s ∧ Sound (1 / 10) s.health :=
  run_mild ops _ (good_new n t) (by show (1 : ℚ) / 10 ^ 8 ≤ 1 / 10 ^ 6; norm_num) (by unfold Sound new; norm_num) h

example : Mild [.corrupt (86400 / 10 ^ 7), .forward (fun _ => [⟨1, 1 / 2, 1 / 2⟩]) 0 [0], .forward (fun _ => [⟨1, 1 / 2, 1 / 2⟩]) 0 [0]] := by
  unfold Mild Mild Mild Mild; norm_num

/-- A network whose first copy stands out without two others agreeing. -/
def oddOne : List ℚ → List Elem := fun _ => [⟨1, 62 / 100, 52 / 100⟩]

/-- A network whose first copy is outvoted. -/
def outvoted : List ℚ → List Elem := fun _ => [⟨1, 1 / 2, 1 / 2⟩]

/-- **C305, violated.** The floor does not hold above 1e-6, where the selective vote lowers without bound, and then the "decrease" of a network that is outvoted raises its reliability: after 22 calls at level 1/86400 the first network is below 0.1,
and a call at level 1e-8 in which the two others agree against it brings it up to 0.1, and lowers none. -/
theorem C305_decrease_violated :
    ∃ s, (new 1 0).run (.corrupt 1 :: List.replicate 22 (.forward oddOne 0 [0])) = .ok s ∧ s.health.h1 < 1 / 10 ∧
      ∃ s', s.run [.corrupt (86400 / 10 ^ 8), .forward outvoted 0 [0]] = .ok s' ∧ s.health.h1 < s'.health.h1 ∧ s'.health.h1 = 1 / 10 := by
  obtain ⟨s, h, g⟩ := run_good (.corrupt 1 :: List.replicate 22 (.forward oddOne 0 [0])) _ (good_new 1 0)
  obtain ⟨s', h', _⟩ := run_good [.corrupt (86400 / 10 ^ 8), .forward outvoted 0 [0]] _ g
  have e : (match (new 1 0).run (.corrupt 1 :: List.replicate 22 (.forward oddOne 0 [0])) with
      | .ok s => match s.run [.corrupt (86400 / 10 ^ 8), .forward outvoted 0 [0]] with
        | .ok s' => decide (s.health.h1 < 1 / 10 ∧ s.health.h1 < s'.health.h1 ∧ s'.health.h1 = 1 / 10)
        | .ub => false
      | .ub => false) = true := by decide +kernel
  rw [h] at e
  dsimp only at e
  rw [h'] at e
  dsimp only at e
  have := of_decide_eq_true e
  exact ⟨s, h, this.1, s', h', this.2⟩

/-! ### C306: the protected network -/

/-- **C306 (answer).** After every history a call returns: at a level up to 1e-6 the standard vote under the present reliabilities; above 1e-6 the standard result, unless the selective and the weighted result are equal, then that one.
The result has one value per element. -/
theorem C306_answer (n : ℕ) (t : ℤ) (ops : List Op) : ∃ s, (new n t).run ops = .ok s ∧ ∀ nets now input, ∃ r s', s.forward nets now input = .ok (r, s') ∧ r.length = (nets input).length ∧
    (s.level ≤ 1 / 10 ^ 6 → (r, s'.health) = standard s.level s.checkpoints s.health (nets input)) ∧
    (1 / 10 ^ 6 < s.level → r = (standard s.level s.checkpoints (selective s.checkpoints s.health (nets input)).2 (nets input)).1 ∨ r = (selective s.checkpoints s.health (nets input)).1) := by
  have hlen : ∀ (f : Option ℚ → Health → Elem → ℚ × Health) (es : List Elem) (cks : List (Option ℚ)) (h : Health), (overElems f cks h es).1.length = es.length := by
    intro f es
    induction es with
    | nil => intro cks h; simp [overElems]
    | cons e es ih => intro cks h; rw [overElems]; simp [ih]
  obtain ⟨s, h, g⟩ := run_good ops _ (good_new n t)
  refine ⟨s, h, fun nets now input => ⟨_, _, forward_eq s g nets now input, ?_, ?_, ?_⟩⟩
  · unfold answer
    split
    · dsimp only
      split
      · exact hlen _ _ _ _
      · exact hlen _ _ _ _
    · exact hlen _ _ _ _
  · intro hl
    show ((answer s (nets input)).1, (answer s (nets input)).2) = _
    unfold answer
    rw [if_neg (not_lt.mpr hl)]
  · intro hl
    unfold answer
    rw [if_pos hl]
    dsimp only
    split
    · exact Or.inr rfl
    · exact Or.inl rfl

/-- **C306, outside the claim (selection and cache).** The scores by which the most reliable way of voting is chosen never change, and the error predictor is never trained: after every history the most reliable way is the standard one, and the cache of validated outputs is not used. -/
theorem C306_selection_limit (n : ℕ) (t : ℤ) (ops : List Op) : ∃ s, (new n t).run ops = .ok s ∧ Diversity.mostReliable s.div.entries = "standard_tmr" ∧ s.trained = false := by
  obtain ⟨s, h, g⟩ := run_good ops _ (good_new n t)
  exact ⟨s, h, by rw [g.div]; exact mostReliable_registered, g.untrained⟩

/-- **C306, violated (distribution).** The networks give probabilities, the vote does not: of three distributions over three classes, at level 1e-8, it makes numbers that add up to 0.7. -/
theorem C306_distribution_violated :
    ∃ s, (new 3 0).forward (fun _ => [⟨3 / 10, 35 / 100, 6 / 10⟩, ⟨6 / 10, 3 / 10, 3 / 10⟩, ⟨1 / 10, 35 / 100, 1 / 10⟩]) 0 [0] = .ok ([3 / 10, 3 / 10, 1 / 10], s) ∧
      (3 / 10 + 6 / 10 + 1 / 10 : ℚ) = 1 ∧ (35 / 100 + 3 / 10 + 35 / 100 : ℚ) = 1 ∧ (6 / 10 + 3 / 10 + 1 / 10 : ℚ) = 1 ∧ ([3 / 10, 3 / 10, 1 / 10] : List ℚ).sum = 7 / 10 := by
  refine ⟨after (new 3 0) (fun _ => [⟨3 / 10, 35 / 100, 6 / 10⟩, ⟨6 / 10, 3 / 10, 3 / 10⟩, ⟨1 / 10, 35 / 100, 1 / 10⟩]) 0 [0], ?_, by norm_num, by norm_num, by norm_num, by norm_num⟩
  · rw [forward_eq _ (good_new 3 0)]
    have : (answer (new 3 0) [⟨3 / 10, 35 / 100, 6 / 10⟩, ⟨6 / 10, 3 / 10, 3 / 10⟩, ⟨1 / 10, 35 / 100, 1 / 10⟩]).1 = [3 / 10, 3 / 10, 1 / 10] := by decide +kernel
    rw [this]

/-- Every network output in the history lies between `lo` and `hi`. -/
def Bounded (lo hi : ℚ) (ops : List Op) : Prop := ∀ nets now input, Op.forward nets now input ∈ ops → ∀ e ∈ nets input, Within lo hi e

/-- The checkpoints lie between `lo` and `hi`. -/
def Kept (lo hi : ℚ) (s : State) : Prop := ∀ m ∈ s.managers, ∀ c ∈ m.store, lo ≤ c.data ∧ c.data ≤ hi

theorem kept_checkpoints {lo hi : ℚ} {s : State} (k : Kept lo hi s) : ∀ ck ∈ s.checkpoints, ∀ c, ck = some c → lo ≤ c ∧ c ≤ hi := by
  intro ck hck c hc
  unfold State.checkpoints at hck
  obtain ⟨m, hm, rfl⟩ := List.mem_map.mp hck
  unfold Ckpt.getLatestCheckpoint at hc
  cases hl : m.store.getLast? with
  | none => rw [hl] at hc; simp at hc
  | some x =>
    rw [hl] at hc
    simp only [Option.map_some, Option.some.injEq] at hc
    rw [← hc]
    exact k m hm x (List.mem_of_getLast? hl)

theorem overElems_within {lo hi : ℚ} {f : Option ℚ → Health → Elem → ℚ × Health}
    (hs : ∀ ck h e, Sound 0 h → Sound 0 (f ck h e).2)
    (hf : ∀ ck h e, Sound 0 h → Within lo hi e → (∀ c, ck = some c → lo ≤ c ∧ c ≤ hi) → lo ≤ (f ck h e).1 ∧ (f ck h e).1 ≤ hi) :
    ∀ (es : List Elem) (cks : List (Option ℚ)) (h : Health), Sound 0 h → (∀ e ∈ es, Within lo hi e) → (∀ ck ∈ cks, ∀ c, ck = some c → lo ≤ c ∧ c ≤ hi) →
      ∀ x ∈ (overElems f cks h es).1, lo ≤ x ∧ x ≤ hi
  | [], _, _, _, _, _ => by intro x hx; simp [overElems] at hx
  | e :: es, cks, h, hh, he, hc => by
    intro x hx
    rw [overElems] at hx
    have hhead : ∀ c, cks.head?.getD none = some c → lo ≤ c ∧ c ≤ hi := by
      intro c hcc
      cases cks with
      | nil => simp at hcc
      | cons a t => exact hc a (by simp) c (by simpa using hcc)
    rcases List.mem_cons.mp hx with rfl | hx
    · exact hf _ _ _ hh (he e (by simp)) hhead
    · exact overElems_within hs hf es cks.tail _ (hs _ _ _ hh) (fun e' h' => he e' (by simp [h'])) (fun ck h' => hc ck (List.mem_of_mem_tail h')) x hx

theorem answer_within {lo hi : ℚ} (s : State) (g : Good s) (k : Kept lo hi s) (es : List Elem) (he : ∀ e ∈ es, Within lo hi e) : ∀ x ∈ (answer s es).1, lo ≤ x ∧ x ≤ hi := by
  have l0 : (0 : ℚ) ≤ 1 / 10 := by norm_num
  have hck := kept_checkpoints k
  have hstd : ∀ h, Sound 0 h → ∀ x ∈ (standard s.level s.checkpoints h es).1, lo ≤ x ∧ x ≤ hi := fun h hh =>
    overElems_within (fun ck h e x => standardElem_sound l0 _ ck x e) (fun ck h e hh he hc => (C304_hull s.level lo hi ck h e hh he hc).1) es _ h hh he hck
  unfold answer
  split
  · dsimp only
    split
    · exact overElems_within (fun ck h e x => selectiveElem_sound ck x e) (fun ck h e hh he hc => (C304_hull 0 lo hi ck h e hh he hc).2.1) es _ _ g.sound he hck
    · exact hstd _ (overElems_sound (fun ck h e x => selectiveElem_sound ck x e) es _ _ g.sound)
  · exact hstd _ g.sound

theorem kept_after {lo hi : ℚ} (s : State) (g : Good s) (k : Kept lo hi s) (nets : List ℚ → List Elem) (now : ℤ) (input : List ℚ) (he : ∀ e ∈ nets input, Within lo hi e) :
    Kept lo hi (after s nets now input) := by
  unfold after
  by_cases hc : (s.count + 1) % 5 = 0
  · intro m hm
    simp only [if_pos hc] at hm
    obtain ⟨i, hi', rfl⟩ := List.getElem_of_mem hm
    rw [List.getElem_zipWith]
    rw [List.length_zipWith] at hi'
    intro c hcm
    unfold Ckpt.createCheckpoint at hcm
    have hold : ∀ c ∈ (s.managers[i]'(lt_of_lt_of_le hi' (min_le_left _ _))).store, lo ≤ c.data ∧ c.data ≤ hi := k _ (List.getElem_mem _)
    have hnew := answer_within s g k (nets input) he _ (List.getElem_mem (lt_of_lt_of_le hi' (min_le_right _ _)))
    split at hcm
    · exact hold c hcm
    · dsimp only at hcm
      have hcm' : c ∈ (s.managers[i]'(lt_of_lt_of_le hi' (min_le_left _ _))).store ++ [⟨s.count + 1, (answer s (nets input)).1[i]'(lt_of_lt_of_le hi' (min_le_right _ _)), now⟩] := by
        split at hcm
        · exact List.mem_of_mem_drop hcm
        · exact hcm
      rcases List.mem_append.mp hcm' with h | h
      · exact hold c h
      · rw [List.mem_singleton] at h
        rw [h]
        exact hnew
  · intro m hm
    simp only [if_neg hc] at hm
    exact k m hm

theorem run_kept {lo hi : ℚ} : ∀ (ops : List Op) (s : State), Good s → Kept lo hi s → Bounded lo hi ops → ∃ s', s.run ops = .ok s' ∧ Good s' ∧ Kept lo hi s'
  | [], s, g, k, _ => ⟨s, rfl, g, k⟩
  | .corrupt p :: t, s, g, k, hb => by
    have : s.run (.corrupt p :: t) = (s.corrupt p).run t := by simp [State.run, State.step, Outcome.bind]
    rw [this]
    exact run_kept t _ ⟨g.div, g.untrained, g.sound, g.interval⟩ k (fun n w i hm => hb n w i (by simp [hm]))
  | .forward nets now input :: t, s, g, k, hb => by
    have : s.run (.forward nets now input :: t) = (after s nets now input).run t := by simp [State.run, State.step, forward_eq s g, Outcome.bind]
    rw [this]
    exact run_kept t _ (good_after s g _ _ _) (kept_after s g k nets now input (hb nets now input (by simp))) (fun n w i hm => hb n w i (by simp [hm]))

/-- **C306 (range).** If in the whole history and in the present call all outputs of all networks, damaged or not, lie in an interval (0 to 1 for probabilities), then so do all values the protected network returns, whatever the levels, times and checkpoints. -/
theorem C306_range (lo hi : ℚ) (n : ℕ) (t : ℤ) (ops : List Op) (hb : Bounded lo hi ops) (nets : List ℚ → List Elem) (now : ℤ) (input : List ℚ) (he : ∀ e ∈ nets input, Within lo hi e) :
    ∃ s r s', (new n t).run ops = .ok s ∧ s.forward nets now input = .ok (r, s') ∧ ∀ x ∈ r, lo ≤ x ∧ x ≤ hi := by
  obtain ⟨s, h, g, k⟩ := run_kept ops _ (good_new n t) (by
    intro m hm c hc
    have : m = Ckpt.new 3 30 t := List.eq_of_mem_replicate hm
    rw [this] at hc
    simp [Ckpt.new] at hc) hb
  exact ⟨s, _, _, h, forward_eq s g nets now input, answer_within s g k _ he⟩

example : Bounded 0 1 [.corrupt 1, .forward oddOne 40 [0]] := by
  intro nets now input h e he
  simp only [List.mem_cons, reduceCtorEq, Op.forward.injEq, List.not_mem_nil, or_false, false_or] at h
  obtain ⟨rfl, -, -⟩ := h
  simp only [oddOne, List.mem_singleton] at he
  subst he
  unfold Within
  norm_num

/-! ### C307: mission data -/

/-- **C307 (data).** Every mission that has data has one upset, multiple-upset and dose rate and one phase for every day; all rates are positive, and multiple upsets are rarer than upsets. -/
theorem C307_data (m : Mission) (d : Data) (h : data m = some d) :
    d.seu.length = d.days ∧ d.mbu.length = d.days ∧ d.tid.length = d.days ∧ d.labels.length = d.days ∧ 0 < d.days ∧
    (∀ x ∈ d.seu, 0 < x) ∧ (∀ x ∈ d.mbu, 0 < x) ∧ (∀ x ∈ d.tid, 0 < x) ∧ ∀ p ∈ d.seu.zip d.mbu, p.2 < p.1 := by
  cases m <;> simp only [data, Option.some.injEq, reduceCtorEq] at h <;> subst h <;> decide +kernel

/-- **C307 (days).** A day is accepted exactly if the mission has data and the day is one of its days. -/
theorem C307_days (m : Mission) (day : ℤ) : (configure m day).isSome = true ↔ ∃ d, data m = some d ∧ 0 ≤ day ∧ day < d.days := by
  unfold configure
  cases data m with
  | none => simp
  | some d =>
    dsimp only
    by_cases hc : day < 0 ∨ (d.days : ℤ) ≤ day
    · rw [if_pos hc]
      constructor
      · intro h; cases h
      · rintro ⟨d', hd, h0, h1⟩
        cases hd
        omega
    · rw [if_neg hc]
      push Not at hc
      exact ⟨fun _ => ⟨d, rfl, hc.1, hc.2⟩, fun _ => rfl⟩

/-- **C307 (environments).** The environments of all days of the missions: belt passes of the Van Allen and Artemis missions are in medium or geostationary orbit conditions, phases named after Europa in those of Europa, the other phases in a radiation belt in Jupiter's,
every third day of the station in the anomaly. -/
theorem C307_environments :
    (∀ day : ℕ, day < 31 → (configure .vanAllen day = some .meo ↔ day ∈ [4, 5, 13, 19]) ∧ (configure .vanAllen day = some .geo ↔ day ∈ [1, 2, 7, 12, 18, 22])) ∧
    (∀ day : ℕ, day < 26 → (configure .artemis day = some .meo ↔ day ∈ [1, 19, 20]) ∧ (configure .artemis day = some .lunar ↔ 3 ≤ day ∧ day ≤ 14)) ∧
    (∀ day : ℕ, day < 30 → (configure .europa day = some .europa ↔ (5 ≤ day ∧ day ≤ 10) ∨ (19 ≤ day ∧ day ≤ 24)) ∧ (configure .europa day = some .jupiter ↔ day ∈ [4, 11, 18, 25, 28])) ∧
    (∀ day : ℕ, day < 30 → (configure .iss day = some .meo ↔ day % 3 = 0) ∧ (configure .iss day = some .leo ↔ day % 3 ≠ 0)) ∧
    (∀ day : ℕ, day < 30 → (configure .mars day = some .interplanetary ↔ day < 25) ∧ (configure .mars day = some .marsSurface ↔ 25 ≤ day)) := by
  refine ⟨?_, ?_, ?_, ?_, ?_⟩ <;> decide +kernel

/-- **C307 (level).** The radiation level the network takes from the flip probability of a day is the upset rate times the unprotected share. -/
theorem C307_level (s : State) (seu protection : ℚ) : (s.corrupt (flipProbability seu protection)).level = seu * (1 - protection) := by
  unfold State.corrupt flipProbability
  dsimp only
  ring

/-- **C307, violated.** (1) The Lunar Reconnaissance Orbiter is a mission without data: every day of it raises an exception. (2) The "probability" of a flip is not one: the daily rate is multiplied by the seconds of a day, and on the day of the closest approach to Europa
it is above 3 at the highest protection there is (0.99) and above 90 at the usual one. (3) The dose rate of the "Low Earth Orbit" day of Artemis (day 21) is that of a belt transit, and that of the outer belt transit (day 19) is not. -/
theorem C307_violated :
    (∀ day, configure .lro day = none) ∧
    (∃ seu, europaData.seu[9]? = some seu ∧ europaData.labels[9]? = some "Europa Closest Approach (25 km)" ∧ (∀ p ≤ 99 / 100, 3 < flipProbability seu p) ∧ 90 < flipProbability seu (7 / 10)) ∧
    (artemisData.labels[21]? = some "Low Earth Orbit" ∧ artemisData.labels[19]? = some "Van Allen Outer Belt Transit" ∧ ∃ a b, artemisData.tid[21]? = some a ∧ artemisData.tid[19]? = some b ∧ 15 * b < a) := by
  refine ⟨fun _ => rfl, ⟨35000000 / 10 ^ 10, by decide +kernel, by decide +kernel, ?_, by unfold flipProbability; norm_num⟩, by decide +kernel, by decide +kernel, 15 / 10 ^ 10 * 15 * (1 + 21 * (5 / 1000)), 15 / 10 ^ 10 * (1 + 19 * (5 / 1000)), by decide +kernel, by decide +kernel, by norm_num⟩
  intro p hp
  unfold flipProbability
  linarith

/-! ### C308: summary -/

theorem baseline_bounds (r : ℝ) (h : 0 ≤ r) : 10 < baseline r ∧ baseline r ≤ 100 := by
  have h1 : Real.exp (-5 * r) ≤ 1 := Real.exp_le_one_iff.mpr (by linarith)
  have h2 := Real.exp_pos (-5 * r)
  unfold baseline
  exact ⟨lt_max_of_lt_right (by linarith), max_le (by norm_num) (by linarith)⟩

theorem baseline_ge (r : ℝ) : 10 ≤ baseline r := le_max_left _ _

theorem dayAccuracy_bounds (p : List ℕ) : 0 ≤ dayAccuracy p ∧ dayAccuracy p ≤ 1 := by
  unfold dayAccuracy
  have h : ((p.zip expectedClasses).countP fun q => decide (q.1 = q.2)) ≤ 10 := by
    refine le_trans List.countP_le_length ?_
    rw [List.length_zip]
    exact le_trans (min_le_right _ _) (le_of_eq rfl)
  have h' : ((((p.zip expectedClasses).countP fun q => decide (q.1 = q.2)) : ℕ) : ℝ) ≤ 10 := by exact_mod_cast h
  constructor
  · positivity
  · rw [div_le_one (by norm_num)]; exact h'

/-- **C308 (estimates).** The estimated accuracy is between 10 and 99 and the baseline between 10 and 100, for all rates, levels, names, predictions and draws. The accuracy of a day is between 0 and 1. -/
theorem C308_estimates (r : ℝ) (p : ℤ) (m ph : String) (v pr z : ℝ) (classes : List ℕ) :
    (10 ≤ computeAccuracy r p m ph v pr z ∧ computeAccuracy r p m ph v pr z ≤ 99) ∧ 10 ≤ baseline r ∧ (0 ≤ r → baseline r ≤ 100) ∧ (0 ≤ dayAccuracy classes ∧ dayAccuracy classes ≤ 1) := by
  refine ⟨?_, baseline_ge r, fun h => (baseline_bounds r h).2, dayAccuracy_bounds classes⟩
  unfold computeAccuracy
  exact ⟨le_max_left _ _, max_le (by norm_num) (min_le_left _ _)⟩

theorem sum_bounds : ∀ (l : List ℝ), (∀ x ∈ l, 0 ≤ x ∧ x ≤ 1) → 0 ≤ l.sum ∧ l.sum ≤ l.length
  | [], _ => by simp
  | x :: t, h => by
    have ih := sum_bounds t (fun y hy => h y (by simp [hy]))
    have hx := h x (by simp)
    simp only [List.sum_cons, List.length_cons, Nat.cast_add, Nat.cast_one]
    constructor <;> linarith [ih.1, ih.2, hx.1, hx.2]

theorem average_bounds (ds : List Day) (hne : ds ≠ []) (h : ∀ d ∈ ds, 0 ≤ d.accuracy ∧ d.accuracy ≤ 1) : 0 ≤ (ds.map Day.accuracy).sum / ds.length ∧ (ds.map Day.accuracy).sum / ds.length ≤ 1 := by
  have hb := sum_bounds (ds.map Day.accuracy) (by intro x hx; obtain ⟨d, hd, rfl⟩ := List.mem_map.mp hx; exact h d hd)
  rw [List.length_map] at hb
  have hp : (0 : ℝ) < ds.length := by exact_mod_cast List.length_pos_iff.mpr hne
  exact ⟨div_nonneg hb.1 hp.le, (div_le_one hp).mpr hb.2⟩

theorem worst_spec : ∀ (ds : List Day) (k : ℕ) (a : ℝ) (w : ℕ),
    (worst k (a, w) ds).1 ≤ a ∧ (∀ d ∈ ds, (worst k (a, w) ds).1 ≤ d.accuracy) ∧
    ((worst k (a, w) ds = (a, w)) ∨ ∃ i, ∃ hi : i < ds.length, (worst k (a, w) ds).2 = k + i ∧ (ds[i]).accuracy = (worst k (a, w) ds).1 ∧ (worst k (a, w) ds).1 < a)
  | [], k, a, w => by simp [worst]
  | d :: t, k, a, w => by
    rw [worst]
    by_cases hd : d.accuracy < a
    · simp only [hd, if_true]
      obtain ⟨h1, h2, h3⟩ := worst_spec t (k + 1) d.accuracy k
      refine ⟨le_trans h1 hd.le, ?_, Or.inr ?_⟩
      · intro x hx
        rcases List.mem_cons.mp hx with rfl | hx
        · exact h1
        · exact h2 x hx
      · rcases h3 with h3 | ⟨i, hi, ha, hb, hc⟩
        · refine ⟨0, by simp, by rw [h3]; rfl, by rw [h3]; rfl, by rw [h3]; exact hd⟩
        · refine ⟨i + 1, by simpa using hi, by rw [ha]; omega, by simpa using hb, lt_trans hc hd⟩
    · simp only [hd, if_false]
      obtain ⟨h1, h2, h3⟩ := worst_spec t (k + 1) a w
      refine ⟨h1, ?_, ?_⟩
      · intro x hx
        rcases List.mem_cons.mp hx with rfl | hx
        · exact le_trans h1 (not_lt.mp hd)
        · exact h2 x hx
      · rcases h3 with h3 | ⟨i, hi, ha, hb, hc⟩
        · exact Or.inl h3
        · exact Or.inr ⟨i + 1, by simpa using hi, by rw [ha]; omega, by simpa using hb, hc⟩

/-- **C308 (worst day).** For every non-empty list of days the worst day is one of them, its accuracy is the one reported and no day has a lower one; the average is between 0 and 1. -/
theorem C308_worst (ds : List Day) (hne : ds ≠ []) (h : ∀ d ∈ ds, 0 ≤ d.accuracy ∧ d.accuracy ≤ 1) :
    ∃ r, summary ds = .ok r ∧ (∃ hi : r.worstDay < ds.length, (ds[r.worstDay]).accuracy = r.worstAccuracy) ∧ (∀ d ∈ ds, r.worstAccuracy ≤ d.accuracy) ∧ r.average = (ds.map Day.accuracy).sum / ds.length ∧ 0 ≤ r.average ∧ r.average ≤ 1 := by
  unfold summary
  rw [if_neg hne]
  refine ⟨_, rfl, ?_, (worst_spec ds 0 100 0).2.1, rfl, (average_bounds ds hne h).1, (average_bounds ds hne h).2⟩
  obtain ⟨h1, h2, h3⟩ := worst_spec ds 0 100 0
  dsimp only
  rcases h3 with h3 | ⟨i, hi, ha, hb, -⟩
  · exfalso
    obtain ⟨d, t, rfl⟩ := List.exists_cons_of_ne_nil hne
    have a := h2 d (by simp)
    have b := (h d (by simp)).2
    rw [h3] at a
    norm_num at a
    linarith
  · rw [Nat.zero_add] at ha
    rw [ha]
    exact ⟨hi, hb⟩

example : ∀ d ∈ [(⟨0, 3 / 10⟩ : Day), ⟨1, 1⟩], 0 ≤ d.accuracy ∧ d.accuracy ≤ 1 := by
  intro d hd
  simp only [List.mem_cons, List.not_mem_nil, or_false] at hd
  rcases hd with rfl | rfl <;> norm_num

/-- **C308, violated (verdicts).** The accuracy is a share between 0 and 1, but it is rated as if it were a percentage: for every mission, even if every answer of every day is right, the protection is rated "LOW" and the mission suitability "POOR", and the
protection efficiency is at most 10 %. Without days the summary is undefined. -/
theorem C308_verdicts_violated :
    summary [] = .ub ∧
    ∀ ds : List Day, ds ≠ [] → (∀ d ∈ ds, 0 ≤ d.accuracy ∧ d.accuracy ≤ 1) → ∃ r, summary ds = .ok r ∧ r.effectiveness = "LOW" ∧ r.suitability = "POOR" ∧ r.efficiency ≤ 10 := by
  refine ⟨by unfold summary; rw [if_pos rfl], ?_⟩
  intro ds hne h
  obtain ⟨a0, a1⟩ := average_bounds ds hne h
  unfold summary
  rw [if_neg hne]
  refine ⟨_, rfl, ?_⟩
  dsimp only
  generalize (ds.map Day.accuracy).sum / (ds.length : ℝ) = avg at a0 a1
  generalize (ds.map Day.errorRate).sum / (ds.length : ℝ) = er
  have hb := baseline_ge er
  have he : avg / baseline er * 100 ≤ 10 := by
    have : avg / baseline er ≤ 1 / 10 := by
      rw [div_le_div_iff₀ (by linarith) (by norm_num)]
      nlinarith
    linarith
  refine ⟨?_, ?_, he⟩
  · rw [if_neg (by linarith), if_neg (by linarith)]
  · rw [if_neg (by linarith), if_neg (by linarith), if_neg (by linarith)]

/-- **C308, violated (test inputs).** The ten test inputs of a day are one and the same, but four different classes are expected of them: a network that answers the same to the same input, however good, is right on at most three of ten. -/
theorem C308_inputs_violated (classify : List ℚ → ℕ) : (∀ a ∈ testInputs, ∀ b ∈ testInputs, a = b) ∧ testInputs.length = 10 ∧ dayAccuracy (testInputs.map classify) ≤ 3 / 10 := by
  have e : testInputs = List.replicate 10 ((List.range 10).map fun j : ℕ => (j : ℚ) / 10) := by decide +kernel
  refine ⟨?_, by rw [e]; simp, ?_⟩
  · intro a ha b hb
    rw [e] at ha hb
    rw [List.eq_of_mem_replicate ha, List.eq_of_mem_replicate hb]
  · rw [e, List.map_replicate]
    generalize classify ((List.range 10).map fun j : ℕ => (j : ℚ) / 10) = c
    unfold dayAccuracy
    have : ((List.replicate 10 c).zip expectedClasses).countP (fun p => decide (p.1 = p.2)) ≤ 3 := by
      match c with
      | 0 => decide
      | 1 => decide
      | 2 => decide
      | 3 => decide
      | n + 4 => simp [expectedClasses, List.replicate]
    have h' : ((((List.replicate 10 c).zip expectedClasses).countP (fun p => decide (p.1 = p.2)) : ℕ) : ℝ) ≤ 3 := by exact_mod_cast this
    exact div_le_div_of_nonneg_right h' (by norm_num)

/-- **C304 (weighted average).** For every reliability and output: each result is the average of the three outputs weighted with the reliabilities, which stay; if they add up to zero they are set to 1 first and the result is the plain average. -/
theorem C304_weighted (h : Health) (es : List Elem) :
    (h.h1 + h.h2 + h.h3 ≠ 0 → (weighted h es).2 = h ∧ (weighted h es).1 = es.map fun e => (h.h1 * e.o1 + h.h2 * e.o2 + h.h3 * e.o3) / (h.h1 + h.h2 + h.h3)) ∧
    (h.h1 + h.h2 + h.h3 = 0 → (weighted h es).2 = ⟨1, 1, 1⟩ ∧ (weighted h es).1 = es.map fun e => (e.o1 + e.o2 + e.o3) / 3) := by
  constructor
  · intro ht
    unfold weighted
    dsimp only
    rw [if_neg ht, if_neg ht]
    refine ⟨rfl, List.map_congr_left fun e _ => ?_⟩
    ring
  · intro ht
    unfold weighted
    dsimp only
    rw [if_pos ht, if_pos ht]
    refine ⟨rfl, List.map_congr_left fun e _ => ?_⟩
    dsimp only
    ring

/-- The output of network `k`. -/
def Elem.get (e : Elem) : Fin 3 → ℚ
  | 0 => e.o1
  | 1 => e.o2
  | 2 => e.o3

/-- The reliability of network `k`. -/
def Health.get (h : Health) : Fin 3 → ℚ
  | 0 => h.h1
  | 1 => h.h2
  | 2 => h.h3

/-- Network `k` alone gives a value more than 0.2 from the mean of the three. -/
def Outlies (e : Elem) (k : Fin 3) : Prop := ∀ j, 1 / 5 < |Elem.get e j - (e.o1 + e.o2 + e.o3) / 3| ↔ j = k

/-- The result where no single output stands out. -/
def otherwise (ck : Option ℚ) (h : Health) (e : Elem) : ℚ × Health := match ck with
  | some c => nearest c h e
  | none => (mean e, h)

/-- **C304 (selective vote).** For every checkpoint, reliability and output: a single output more than 0.2 from the mean is left out, the result being the average of the others, and its network loses a tenth of its reliability; otherwise the result is an output
no other of which is nearer to the checkpoint or, without one, the mean. No reliability is left above 1. -/
theorem C304_selective (ck : Option ℚ) (h : Health) (e : Elem) :
    (∀ k, Outlies e k → (selectiveElem ck h e).1 = (e.o1 + e.o2 + e.o3 - Elem.get e k) / 2 ∧
      Health.get (selectiveElem ck h e).2 k = min 1 (Health.get h k * (9 / 10)) ∧ ∀ j, j ≠ k → Health.get (selectiveElem ck h e).2 j = min 1 (Health.get h j)) ∧
    ((¬ ∃ k, Outlies e k) → (∀ c, ck = some c → ∃ k, (selectiveElem ck h e).1 = Elem.get e k ∧ (∀ j, |Elem.get e k - c| ≤ |Elem.get e j - c|) ∧
        Health.get (selectiveElem ck h e).2 k = min 1 (Health.get h k * (105 / 100)) ∧ ∀ j, j ≠ k → Health.get (selectiveElem ck h e).2 j = min 1 (Health.get h j)) ∧
      (ck = none → (selectiveElem ck h e).1 = (e.o1 + e.o2 + e.o3) / 3 ∧ ∀ j, Health.get (selectiveElem ck h e).2 j = min 1 (Health.get h j))) := by
  have x1 : outlier (mean e) e.o1 = true ↔ 1 / 5 < |Elem.get e 0 - (e.o1 + e.o2 + e.o3) / 3| := by unfold outlier; rw [decide_eq_true_iff]; rfl
  have x2 : outlier (mean e) e.o2 = true ↔ 1 / 5 < |Elem.get e 1 - (e.o1 + e.o2 + e.o3) / 3| := by unfold outlier; rw [decide_eq_true_iff]; rfl
  have x3 : outlier (mean e) e.o3 = true ↔ 1 / 5 < |Elem.get e 2 - (e.o1 + e.o2 + e.o3) / 3| := by unfold outlier; rw [decide_eq_true_iff]; rfl
  have iff : ∀ k, Outlies e k ↔ (outlier (mean e) e.o1 = true ↔ (0 : Fin 3) = k) ∧ (outlier (mean e) e.o2 = true ↔ (1 : Fin 3) = k) ∧ (outlier (mean e) e.o3 = true ↔ (2 : Fin 3) = k) := by
    intro k
    rw [x1, x2, x3]
    constructor
    · intro h; exact ⟨h 0, h 1, h 2⟩
    · rintro ⟨a, b, c⟩ j
      match j with
      | 0 => exact a
      | 1 => exact b
      | 2 => exact c
  have fall : ∀ (A B C : Bool), outlier (mean e) e.o1 = A → outlier (mean e) e.o2 = B → outlier (mean e) e.o3 = C →
      (A && !B && !C) = false → (!A && B && !C) = false → (!A && !B && C) = false →
      selectiveRaw ck h e = otherwise ck h e := by
    rintro A B C rfl rfl rfl p q r
    unfold selectiveRaw
    dsimp only
    rw [p, q, r]
    rfl
  refine ⟨fun k hk => ?_, fun hk => ?_⟩
  · obtain ⟨a, b, c⟩ := (iff k).1 hk
    unfold selectiveElem selectiveRaw
    dsimp only
    match k with
    | 0 =>
      have a : outlier (mean e) e.o1 = true := a.2 rfl
      have b : outlier (mean e) e.o2 = false := by rw [← Bool.not_eq_true]; exact fun z => absurd (b.1 z) (by decide)
      have c : outlier (mean e) e.o3 = false := by rw [← Bool.not_eq_true]; exact fun z => absurd (c.1 z) (by decide)
      rw [a, b, c]
      refine ⟨?_, rfl, fun j hj => ?_⟩
      · change (e.o2 + e.o3) / 2 = (e.o1 + e.o2 + e.o3 - e.o1) / 2; ring
      · match j with
        | 0 => exact absurd rfl hj
        | 1 => rfl
        | 2 => rfl
    | 1 =>
      have b : outlier (mean e) e.o2 = true := b.2 rfl
      have a : outlier (mean e) e.o1 = false := by rw [← Bool.not_eq_true]; exact fun z => absurd (a.1 z) (by decide)
      have c : outlier (mean e) e.o3 = false := by rw [← Bool.not_eq_true]; exact fun z => absurd (c.1 z) (by decide)
      rw [a, b, c]
      refine ⟨?_, rfl, fun j hj => ?_⟩
      · change (e.o1 + e.o3) / 2 = (e.o1 + e.o2 + e.o3 - e.o2) / 2; ring
      · match j with
        | 0 => rfl
        | 1 => exact absurd rfl hj
        | 2 => rfl
    | 2 =>
      have c : outlier (mean e) e.o3 = true := c.2 rfl
      have a : outlier (mean e) e.o1 = false := by rw [← Bool.not_eq_true]; exact fun z => absurd (a.1 z) (by decide)
      have b : outlier (mean e) e.o2 = false := by rw [← Bool.not_eq_true]; exact fun z => absurd (b.1 z) (by decide)
      rw [a, b, c]
      refine ⟨?_, rfl, fun j hj => ?_⟩
      · change (e.o1 + e.o2) / 2 = (e.o1 + e.o2 + e.o3 - e.o3) / 2; ring
      · match j with
        | 0 => rfl
        | 1 => rfl
        | 2 => exact absurd rfl hj
  · have hf : selectiveRaw ck h e = otherwise ck h e := by
      have n0 := fun z => hk ⟨0, (iff 0).2 z⟩
      have n1 := fun z => hk ⟨1, (iff 1).2 z⟩
      have n2 := fun z => hk ⟨2, (iff 2).2 z⟩
      cases p : outlier (mean e) e.o1 <;> cases q : outlier (mean e) e.o2 <;> cases r : outlier (mean e) e.o3 <;> rw [p, q, r] at n0 n1 n2 <;>
        first
        | exact fall _ _ _ p q r (by decide) (by decide) (by decide)
        | exact absurd (by decide) n0
        | exact absurd (by decide) n1
        | exact absurd (by decide) n2
    unfold selectiveElem
    rw [hf]
    refine ⟨?_, ?_⟩
    · rintro c rfl
      unfold otherwise
      dsimp only
      unfold nearest
      dsimp only
      by_cases g1 : |e.o1 - c| ≤ |e.o2 - c| ∧ |e.o1 - c| ≤ |e.o3 - c|
      · rw [if_pos g1]
        refine ⟨0, rfl, fun j => ?_, rfl, fun j hj => ?_⟩
        · match j with
          | 0 => exact le_rfl
          | 1 => exact g1.1
          | 2 => exact g1.2
        · match j with
          | 0 => exact absurd rfl hj
          | 1 => rfl
          | 2 => rfl
      · rw [if_neg g1]
        by_cases g2 : |e.o2 - c| ≤ |e.o1 - c| ∧ |e.o2 - c| ≤ |e.o3 - c|
        · rw [if_pos g2]
          refine ⟨1, rfl, fun j => ?_, rfl, fun j hj => ?_⟩
          · match j with
            | 0 => exact g2.1
            | 1 => exact le_rfl
            | 2 => exact g2.2
          · match j with
            | 0 => rfl
            | 1 => exact absurd rfl hj
            | 2 => rfl
        · rw [if_neg g2]
          have g3 : |e.o3 - c| ≤ |e.o1 - c| ∧ |e.o3 - c| ≤ |e.o2 - c| := by
            rcases le_total |e.o1 - c| |e.o2 - c| with u | u
            · have : |e.o3 - c| < |e.o1 - c| := by by_contra w; exact g1 ⟨u, not_lt.1 w⟩
              exact ⟨this.le, this.le.trans u⟩
            · have : |e.o3 - c| < |e.o2 - c| := by by_contra w; exact g2 ⟨u, not_lt.1 w⟩
              exact ⟨this.le.trans u, this.le⟩
          refine ⟨2, rfl, fun j => ?_, rfl, fun j hj => ?_⟩
          · match j with
            | 0 => exact g3.1
            | 1 => exact g3.2
            | 2 => exact le_rfl
          · match j with
            | 0 => rfl
            | 1 => rfl
            | 2 => exact absurd rfl hj
    · rintro rfl
      refine ⟨rfl, fun j => ?_⟩
      match j with
      | 0 => rfl
      | 1 => rfl
      | 2 => rfl

theorem outlies_iff (v d : ℚ) : Outlies ⟨v, v, v + d⟩ 2 ↔ 3 / 10 < |d| ∧ |d| ≤ 3 / 5 := by
  have e1 : |v - (v + v + (v + d)) / 3| = |d| / 3 := by
    rw [show v - (v + v + (v + d)) / 3 = -(d / 3) by ring, abs_neg, abs_div]; norm_num
  have e2 : |v + d - (v + v + (v + d)) / 3| = 2 * |d| / 3 := by
    rw [show v + d - (v + v + (v + d)) / 3 = 2 * d / 3 by ring, abs_div, abs_mul]; norm_num
  constructor
  · intro h
    have h0 := h 0
    have h2 := h 2
    change 1 / 5 < |v - (v + v + (v + d)) / 3| ↔ _ at h0
    change 1 / 5 < |v + d - (v + v + (v + d)) / 3| ↔ _ at h2
    rw [e1] at h0
    rw [e2] at h2
    have h2 := h2.2 rfl
    have h0 : ¬ 1 / 5 < |d| / 3 := fun z => absurd (h0.1 z) (by decide)
    constructor <;> linarith
  · rintro ⟨a, b⟩ j
    match j with
    | 0 => change 1 / 5 < |v - (v + v + (v + d)) / 3| ↔ _; rw [e1]; exact ⟨fun z => by linarith, fun z => absurd z (by decide)⟩
    | 1 => change 1 / 5 < |v - (v + v + (v + d)) / 3| ↔ _; rw [e1]; exact ⟨fun z => by linarith, fun z => absurd z (by decide)⟩
    | 2 => change 1 / 5 < |v + d - (v + v + (v + d)) / 3| ↔ _; rw [e2]; exact ⟨fun _ => rfl, fun _ => by linarith⟩

example : Outlies ⟨0, 0, 0 + 1 / 2⟩ 2 := (outlies_iff 0 (1 / 2)).2 (by norm_num)

/-- **C304, violated (selective vote).** If two networks agree and the third is off by more than 0.6, it pulls the mean so far that all three count as outliers: nothing is left out and, without a checkpoint, the wrong output enters the result with a third of its error and its network keeps its reliability. -/
theorem C304_selective_violated (h : Health) (v d : ℚ) (hd : 3 / 5 < |d|) :
    (selectiveElem none h ⟨v, v, v + d⟩).1 = v + d / 3 ∧ (selectiveElem none h ⟨v, v, v + d⟩).2 = cap h := by
  have e1 : |v - (v + v + (v + d)) / 3| = |d| / 3 := by
    rw [show v - (v + v + (v + d)) / 3 = -(d / 3) by ring, abs_neg, abs_div]; norm_num
  have e2 : |v + d - (v + v + (v + d)) / 3| = 2 * |d| / 3 := by
    rw [show v + d - (v + v + (v + d)) / 3 = 2 * d / 3 by ring, abs_div, abs_mul]; norm_num
  have o1 : outlier (mean ⟨v, v, v + d⟩) v = true := by
    unfold outlier mean; rw [decide_eq_true_iff]; dsimp only; rw [e1]; linarith
  have o2 : outlier (mean ⟨v, v, v + d⟩) (v + d) = true := by
    unfold outlier mean; rw [decide_eq_true_iff]; dsimp only; rw [e2]; linarith
  unfold selectiveElem selectiveRaw
  dsimp only
  rw [o1, o2]
  refine ⟨?_, rfl⟩
  change (v + v + (v + d)) / 3 = v + d / 3
  ring

example : (3 : ℚ) / 5 < |1| := by norm_num

/-- **C306 (similarity).** The decision about the cache is the one of the formula with the square root: two inputs of one positive length are similar exactly if one over one plus their distance is above 0.95. -/
theorem C306_similar (a b : List ℚ) : similar a b = true ↔ a.length = b.length ∧ a ≠ [] ∧
    1 / (1 + Real.sqrt ((((a.zip b).map fun p => (p.1 - p.2) * (p.1 - p.2)).sum : ℚ) : ℝ)) > 95 / 100 := by
  have hn : 0 ≤ ((a.zip b).map fun p => (p.1 - p.2) * (p.1 - p.2)).sum := List.sum_nonneg fun x hx => by
    obtain ⟨p, _, rfl⟩ := List.mem_map.1 hx
    exact mul_self_nonneg _
  unfold similar
  generalize ((a.zip b).map fun p => (p.1 - p.2) * (p.1 - p.2)).sum = d at hn
  have e : 1 / (1 + Real.sqrt (d : ℝ)) > 95 / 100 ↔ d < 1 / 361 := by
    have hs := Real.sqrt_nonneg (d : ℝ)
    have hq := Real.sq_sqrt (show (0 : ℝ) ≤ (d : ℝ) by exact_mod_cast hn)
    rw [gt_iff_lt, lt_div_iff₀ (by linarith)]
    have c : d < 1 / 361 ↔ (d : ℝ) < 1 / 361 := by
      rw [show (1 / 361 : ℝ) = ((1 / 361 : ℚ) : ℝ) by norm_num]; exact Rat.cast_lt.symm
    rw [c]
    constructor
    · intro h; nlinarith
    · intro h; nlinarith [abs_le_of_sq_le_sq' (show Real.sqrt d ^ 2 ≤ (1 / 19) ^ 2 by nlinarith) (by norm_num)]
  rw [e]
  simp [and_assoc]


/-- **C308 (vulnerability).** A higher vulnerability never raises the accuracy, and lowers it by 20 points per unit as long as neither bound is met. -/
theorem C308_vulnerability (r : ℝ) (p : ℤ) (mission phase : String) (v w q z : ℝ) (h : v ≤ w) :
    computeAccuracy r p mission phase w q z ≤ computeAccuracy r p mission phase v q z ∧
    (computeAccuracy r p mission phase v q z < 99 → 10 < computeAccuracy r p mission phase w q z →
      computeAccuracy r p mission phase v q z - computeAccuracy r p mission phase w q z = 20 * (w - v)) := by
  unfold computeAccuracy
  dsimp only
  generalize (90 : ℝ) - _ * (1 - (p : ℝ) / 100) * _ = a
  have e : a - w * 20 + (q * 5 + z) ≤ a - v * 20 + (q * 5 + z) := by linarith
  refine ⟨max_le_max le_rfl (min_le_min le_rfl e), fun h1 h2 => ?_⟩
  have l1 : a - v * 20 + (q * 5 + z) < 99 := by
    by_contra g
    rw [min_eq_left (not_lt.1 g)] at h1
    norm_num at h1
  have l2 : 10 < a - w * 20 + (q * 5 + z) := by
    by_contra g
    rw [max_eq_left ((min_le_right _ _).trans (not_lt.1 g))] at h2
    exact lt_irrefl _ h2
  rw [min_eq_right l1.le, min_eq_right (e.trans l1.le), max_eq_right l2.le, max_eq_right (l2.le.trans e)]
  ring

/-- **C308 (ratings).** For every non-empty mission the ratings follow from the averages alone, with open lower bounds: an efficiency of exactly 120 is MEDIUM, of exactly 80 LOW, and so on. -/
theorem C308_ratings (ds : List Day) (hne : ds ≠ []) :
    ∃ r, summary ds = .ok r ∧
      r.efficiency = (ds.map Day.accuracy).sum / ds.length / baseline ((ds.map Day.errorRate).sum / ds.length) * 100 ∧
      (r.effectiveness = "HIGH" ↔ 120 < r.efficiency) ∧ (r.effectiveness = "MEDIUM" ↔ 80 < r.efficiency ∧ r.efficiency ≤ 120) ∧
      (r.effectiveness = "LOW" ↔ r.efficiency ≤ 80) ∧
      (r.suitability = "EXCELLENT" ↔ 75 < r.average) ∧ (r.suitability = "GOOD" ↔ 60 < r.average ∧ r.average ≤ 75) ∧
      (r.suitability = "FAIR" ↔ 40 < r.average ∧ r.average ≤ 60) ∧ (r.suitability = "POOR" ↔ r.average ≤ 40) := by
  unfold summary
  rw [if_neg hne]
  refine ⟨_, rfl, rfl, ?_⟩
  dsimp only
  generalize (ds.map Day.accuracy).sum / ds.length / baseline ((ds.map Day.errorRate).sum / ds.length) * 100 = e
  generalize (ds.map Day.accuracy).sum / ds.length = a
  refine ⟨?_, ?_, ?_, ?_, ?_, ?_, ?_⟩
  · by_cases h : 120 < e
    · simp [h]
    · rw [if_neg h]; by_cases g : 80 < e <;> simp [g, h]
  · by_cases h : 120 < e
    · simp [h]
    · rw [if_neg h]; by_cases g : 80 < e
      · simp [g, not_lt.1 h]
      · simp [g]
  · by_cases h : 120 < e
    · have : ¬ e ≤ 80 := by linarith
      simp [h, this]
    · rw [if_neg h]; by_cases g : 80 < e
      · simp [g]
      · simp [g, not_lt.1 g]
  · by_cases h : 75 < a
    · simp [h]
    · rw [if_neg h]; by_cases g : 60 < a
      · simp [g, h]
      · rw [if_neg g]; by_cases k : 40 < a <;> simp [k, h]
  · by_cases h : 75 < a
    · simp [h]
    · rw [if_neg h]; by_cases g : 60 < a
      · simp [g, not_lt.1 h]
      · rw [if_neg g]; by_cases k : 40 < a <;> simp [k, g]
  · by_cases h : 75 < a
    · have : ¬ a ≤ 60 := by linarith
      simp [h, this]
    · rw [if_neg h]; by_cases g : 60 < a
      · simp [g]
      · rw [if_neg g]; by_cases k : 40 < a
        · simp [k, not_lt.1 g]
        · simp [k]
  · by_cases h : 75 < a
    · have : ¬ a ≤ 40 := by linarith
      simp [h, this]
    · rw [if_neg h]; by_cases g : 60 < a
      · have : ¬ a ≤ 40 := by linarith
        simp [g, this]
      · rw [if_neg g]; by_cases k : 40 < a
        · simp [k]
        · simp [k, not_lt.1 k]

example : ∃ ds : List Day, ds ≠ [] ∧ (ds.map Day.accuracy).sum / ds.length = 41 := ⟨[⟨0, 41⟩], by simp, by simp⟩

end Verif.Props.MissionSim
