import Verif.Model.SimpleMonteCarlo
import Mathlib.Tactic.Linarith
import Mathlib.Tactic.NormNum
import Mathlib.Tactic.FieldSimp
import Mathlib.Tactic.Ring
/-! Properties C309–C311: the simplified Monte Carlo test (/repo/simplified_monte_carlo_test.py). -/
namespace Verif.Props.SimpleMC
open Verif.SimpleMC Verif Classical

/-! ### C309 — the protected values -/

/-- Two of the copies are the number `w`. -/
def TwoAre (w : ℝ) (t : Tmr) : Prop := (t.v1 = .fin w ∧ t.v2 = .fin w) ∨ (t.v1 = .fin w ∧ t.v3 = .fin w) ∨ (t.v2 = .fin w ∧ t.v3 = .fin w)

/-- No two copies compare equal. -/
def AllDiffer (t : Tmr) : Prop := ¬ XD.eq t.v1 t.v2 ∧ ¬ XD.eq t.v1 t.v3 ∧ ¬ XD.eq t.v2 t.v3

theorem eq_fin_iff (x : XD) (w : ℝ) : XD.eq x (.fin w) ↔ x = .fin w := by
  cases x with
  | fin r => simp [XD.eq]
  | _ => simp [XD.eq]

theorem fin_eq_iff (x : XD) (w : ℝ) : XD.eq (.fin w) x ↔ x = .fin w := by
  cases x with
  | fin r => simp only [XD.eq_fin, XD.fin.injEq]; exact eq_comm
  | _ => simp [XD.eq]

/-- C309: if two copies are the same number, whatever the third is, correction succeeds and makes all copies and the value that number. -/
theorem C309_correct_two (w : ℝ) (t : Tmr) (h : TwoAre w t) :
    t.correct = (true, { t with v1 := .fin w, v2 := .fin w, v3 := .fin w, value := .fin w }) := by
  obtain ⟨a, b, c, v, k⟩ := t
  simp only [TwoAre] at h
  rcases h with ⟨rfl, rfl⟩ | ⟨rfl, rfl⟩ | ⟨rfl, rfl⟩
  · simp [Tmr.correct]
  · by_cases hb : b = .fin w
    · subst hb; simp [Tmr.correct]
    · simp [Tmr.correct, fin_eq_iff, hb]
  · by_cases ha : a = .fin w
    · subst ha; simp [Tmr.correct]
    · simp [Tmr.correct, eq_fin_iff, ha]

/-- C309: correction fails exactly when no two copies compare equal, and then leaves everything as it is. -/
theorem C309_correct_fails (t : Tmr) : (t.correct.1 = false ↔ AllDiffer t) ∧ (AllDiffer t → t.correct = (false, t)) := by
  have h2 : AllDiffer t → t.correct = (false, t) := by
    rintro ⟨h1, h2, h3⟩
    simp [Tmr.correct, h1, h2, h3]
  refine ⟨⟨fun h => ?_, fun h => by rw [h2 h]⟩, h2⟩
  unfold Tmr.correct at h
  by_cases a : XD.eq t.v1 t.v2
  · rw [if_pos a] at h; exact absurd h (by simp)
  · rw [if_neg a] at h
    by_cases b : XD.eq t.v1 t.v3
    · rw [if_pos b] at h; exact absurd h (by simp)
    · rw [if_neg b] at h
      by_cases c : XD.eq t.v2 t.v3
      · rw [if_pos c] at h; exact absurd h (by simp)
      · exact ⟨a, b, c⟩

/-- C309: the check of the plain class fails exactly when no two copies compare equal, that is exactly when correction would fail. -/
theorem C309_check_plain (t : Tmr) : t.intact false ↔ ¬ AllDiffer t := by
  show t.anyPair ↔ _
  unfold Tmr.anyPair AllDiffer
  tauto

/-- C309: whenever the check of the plain class reports damage, correction cannot repair it. -/
theorem C309_check_plain_useless_violated (t : Tmr) (h : ¬ t.intact false) : t.correct.1 = false := by
  rw [C309_check_plain, not_not] at h
  exact (C309_correct_fails t).1.2 h

/-- C309: damage to one copy, any copy and any damage, passes the check of the plain class. -/
theorem C309_check_plain_single_violated (v : ℝ) (x : XD) :
    ({ Tmr.new (.fin v) with v1 := x } : Tmr).intact false ∧ ({ Tmr.new (.fin v) with v2 := x } : Tmr).intact false ∧
      ({ Tmr.new (.fin v) with v3 := x } : Tmr).intact false :=
  ⟨Or.inr (Or.inr rfl), Or.inr (Or.inl rfl), Or.inl rfl⟩

theorem checksum_new (v : ℝ) : (Tmr.new (.fin v)).checksum = .fin (3 * v) := by
  show XD.mul (.fin v) (.fin 3) = _
  rw [XD.mul_fin, mul_comm]

/-- C309: damage to one copy is seen by the check with a checksum exactly if the copy is no longer a number within 1e-5 of the value. -/
theorem C309_check_sum_single (v : ℝ) (x : XD) :
    ({ Tmr.new (.fin v) with v1 := x } : Tmr).intact true ↔ ∃ a : ℝ, x = .fin a ∧ |a - v| < 1 / 100000 := by
  show _ ∧ XD.lt (XD.abs (XD.sub (XD.add (XD.add x (.fin v)) (.fin v)) (Tmr.new (.fin v)).checksum)) _ ↔ _
  rw [checksum_new]
  constructor
  · rintro ⟨-, h⟩
    cases x with
    | fin a =>
      refine ⟨a, rfl, ?_⟩
      have h' : |a + v + v + -(3 * v)| < 1 / 100000 := h
      rwa [show a + v + v + -(3 * v) = a - v by ring] at h'
    | pinf => exact absurd h (fun h => h)
    | ninf => exact absurd h (fun h => h)
    | nan => exact absurd h (fun h => h)
  · rintro ⟨a, rfl, h⟩
    refine ⟨Or.inr (Or.inr rfl), ?_⟩
    show |a + v + v + -(3 * v)| < 1 / 100000
    rwa [show a + v + v + -(3 * v) = a - v by ring]

/-- C309: damage to two copies that cancels in the sum passes the check with a checksum, and the two copies outvote the value. -/
theorem C309_check_sum_cancels_limit (v d : ℝ) :
    let t : Tmr := { Tmr.new (.fin v) with v1 := .fin (v + d), v2 := .fin (v + d), v3 := .fin (v - 2 * d) }
    t.intact true ∧ t.correct.2.value = .fin (v + d) := by
  refine ⟨⟨Or.inl rfl, ?_⟩, ?_⟩
  · show XD.lt (XD.abs (XD.sub (XD.add (XD.add (.fin (v + d)) (.fin (v + d))) (.fin (v - 2 * d))) (Tmr.new (.fin v)).checksum)) _
    rw [checksum_new]
    show |v + d + (v + d) + (v - 2 * d) + -(3 * v)| < 1 / 100000
    rw [show v + d + (v + d) + (v - 2 * d) + -(3 * v) = 0 by ring]
    norm_num
  · rw [C309_correct_two (v + d) _ (Or.inl ⟨rfl, rfl⟩)]

example : TwoAre 1 { Tmr.new (.fin 1) with v1 := .nan } := Or.inr (Or.inr ⟨rfl, rfl⟩)
example : AllDiffer { Tmr.new (.fin 1) with v1 := .nan, v2 := .fin 2 } := by refine ⟨fun h => h, fun h => h, ?_⟩; show ¬ (2:ℝ) = 1; norm_num
example : ¬ ({ Tmr.new (.fin 1) with v1 := .fin 2 } : Tmr).intact true := by
  rw [C309_check_sum_single]
  rintro ⟨a, h, h'⟩
  injection h with h
  subst h
  norm_num at h'

/-! ### C310 — radiation on a network -/

/-- The copies that are never struck, the value and the checksum are those made from `v`. -/
def Good (v : ℝ) (t : Tmr) : Prop := t.v2 = .fin v ∧ t.v3 = .fin v ∧ t.value = .fin v ∧ t.checksum = .fin (3 * v)

theorem good_new (v : ℝ) : Good v (Tmr.new (.fin v)) := ⟨rfl, rfl, rfl, checksum_new v⟩

/-- Damage of `x` against `v` that the checksum notices. -/
def Seen (v : ℝ) (x : XD) : Prop := ¬ ∃ a : ℝ, x = .fin a ∧ |a - v| < 1 / 100000

theorem intact_good (v : ℝ) (t : Tmr) (x : XD) (h : Good v t) :
    ({ t with v1 := x } : Tmr).intact false ∧ (({ t with v1 := x } : Tmr).intact true ↔ ¬ Seen v x) := by
  obtain ⟨a, b, c, w, k⟩ := t
  obtain ⟨h1, h2, h3, h4⟩ := h
  dsimp only at h1 h2 h3 h4
  subst h1; subst h2; subst h3; subst h4
  refine ⟨Or.inr (Or.inr rfl), ?_⟩
  have := C309_check_sum_single v x
  rw [Seen, not_not, ← this]
  have e : ({ Tmr.new (.fin v) with v1 := x } : Tmr) = ⟨x, .fin v, .fin v, .fin v, .fin (3 * v)⟩ := by
    simp only [Tmr.new, XD.mul_fin, mul_comm v 3]
  rw [e]

/-- One strike: the counters and the state it leaves. -/
theorem strike_good (e : Bool) (f : XD → XD) (s : Stats) (t : Tmr) (v : ℝ) (h : Good v t) :
    Good v (strike e f s t).2 ∧
    (strike e f s t).1 = (if e = true ∧ Seen v (f t.v1) then ⟨s.flips + 1, s.detected + 1, s.corrected + 1⟩ else ⟨s.flips + 1, s.detected, s.corrected⟩) ∧
    (strike e f s t).2.v1 = (if e = true ∧ Seen v (f t.v1) then .fin v else f t.v1) := by
  have hi := intact_good v t (f t.v1) h
  have hg : Good v { t with v1 := f t.v1 } := h
  have hc := C309_correct_two v { t with v1 := f t.v1 } (Or.inr (Or.inr ⟨h.1, h.2.1⟩))
  unfold strike
  by_cases hq : e = true ∧ Seen v (f t.v1)
  · obtain ⟨rfl, hs⟩ := hq
    have hn : ¬ ({ t with v1 := f t.v1 } : Tmr).intact true := fun c => (hi.2.1 c) hs
    simp only [if_neg hn, hc, hs, and_self, if_true]
    exact ⟨⟨rfl, rfl, rfl, h.2.2.2⟩, trivial⟩
  · have hn : ({ t with v1 := f t.v1 } : Tmr).intact e := by
      cases e with
      | false => exact hi.1
      | true =>
        refine hi.2.2 fun c => hq ⟨rfl, c⟩
    simp only [if_pos hn, if_neg hq]
    exact ⟨hg, trivial, trivial⟩

/-- One exposure keeps `Good` for every parameter. -/
theorem radiate_good (e : Bool) (rate : ℝ) (ds : List (ℝ × (XD → XD))) : ∀ (s : Stats) (vs : List ℝ) (ts : List Tmr),
    List.Forall₂ Good vs ts → List.Forall₂ Good vs (radiate e rate ds s ts).2 := by
  induction ds with
  | nil => intro s vs ts h; cases ts <;> exact h
  | cons p ds ih =>
    obtain ⟨d, f⟩ := p
    intro s vs ts h
    cases h with
    | nil => exact .nil
    | cons h1 h2 =>
      rename_i v t vs' ts'
      simp only [radiate]
      refine .cons ?_ (ih _ _ _ h2)
      by_cases hd : d < rate
      · rw [if_pos hd]; exact (strike_good e f s t v h1).1
      · rw [if_neg hd]; exact h1

/-- Any number of exposures, one after the other, with any rates, draws and flips. -/
noncomputable def exposures (e : Bool) (xs : List (ℝ × List (ℝ × (XD → XD)))) (ts : List Tmr) : List Tmr :=
  xs.foldl (fun ts x => (radiate e x.1 x.2 {} ts).2) ts

theorem good_values {vs : List ℝ} {ts : List Tmr} (h : List.Forall₂ Good vs ts) : ts.map Tmr.value = vs.map .fin := by
  induction h with
  | nil => rfl
  | cons h1 _ ih => simp only [List.map_cons, ih, h1.2.2.1]

theorem good_fresh (vs : List ℝ) : List.Forall₂ Good vs (vs.map fun v => Tmr.new (.fin v)) := by
  induction vs with
  | nil => exact .nil
  | cons v vs ih => exact .cons (good_new v) ih

/-- C310: however often and however strongly a protected network is exposed, the values its forward pass reads are those it was made with. -/
theorem C310_values_survive (e : Bool) (vs : List ℝ) (xs : List (ℝ × List (ℝ × (XD → XD)))) :
    (exposures e xs (vs.map fun v => Tmr.new (.fin v))).map Tmr.value = vs.map .fin := by
  refine good_values ?_
  have : ∀ (xs : List (ℝ × List (ℝ × (XD → XD)))) (ts : List Tmr), List.Forall₂ Good vs ts → List.Forall₂ Good vs (exposures e xs ts) := by
    intro xs
    induction xs with
    | nil => intro ts h; exact h
    | cons x xs ih => intro ts h; exact ih _ (radiate_good e x.1 x.2 {} vs ts h)
  exact this xs _ (good_fresh vs)

/-- How many of the parameters are struck: draws below the rate. -/
noncomputable def hits (rate : ℝ) (n : ℕ) (ds : List (ℝ × (XD → XD))) : ℕ := (ds.take n).countP fun p => decide (p.1 < rate)

theorem hits_cons (rate : ℝ) (n : ℕ) (d : ℝ) (f : XD → XD) (ds : List (ℝ × (XD → XD))) :
    hits rate (n + 1) ((d, f) :: ds) = (if d < rate then 1 else 0) + hits rate n ds := by
  unfold hits
  rw [List.take_succ_cons, List.countP_cons]
  by_cases h : d < rate
  · simp [h, Nat.add_comm]
  · simp [h]

/-- C310: the flips counted are the draws below the rate, on protected networks. -/
theorem C310_flips_counted (e : Bool) (rate : ℝ) (ds : List (ℝ × (XD → XD))) : ∀ (s : Stats) (ts : List Tmr),
    (radiate e rate ds s ts).1.flips = s.flips + hits rate ts.length ds := by
  induction ds with
  | nil => intro s ts; cases ts <;> simp [radiate, hits]
  | cons p ds ih =>
    obtain ⟨d, f⟩ := p
    intro s ts
    cases ts with
    | nil => simp [radiate, hits]
    | cons t ts =>
      simp only [radiate, List.length_cons]
      rw [ih, hits_cons]
      by_cases hd : d < rate
      · rw [if_pos hd, if_pos hd]
        have : (strike e f s t).1.flips = s.flips + 1 := by
          unfold strike
          dsimp only
          split
          · rfl
          · split <;> rfl
        omega
      · rw [if_neg hd, if_neg hd]; dsimp only; omega

/-- C310: on unprotected networks too, and parameters not struck are left alone. -/
theorem C310_plain_flips (rate : ℝ) (ds : List (ℝ × (XD → XD))) : ∀ (n : ℕ) (vs : List XD), vs.length ≤ ds.length →
    (radiatePlain rate ds n vs).1 = n + hits rate vs.length ds ∧
    (radiatePlain rate ds n vs).2 = List.zipWith (fun p v => if p.1 < rate then p.2 v else v) ds vs := by
  induction ds with
  | nil =>
    intro n vs h
    have : vs = [] := List.length_eq_zero_iff.1 (by simpa using h)
    subst this
    simp [radiatePlain, hits]
  | cons p ds ih =>
    obtain ⟨d, f⟩ := p
    intro n vs h
    cases vs with
    | nil => simp [radiatePlain, hits]
    | cons v vs =>
      simp only [radiatePlain, List.length_cons, List.zipWith_cons_cons]
      have := ih (if d < rate then (n + 1, f v) else (n, v)).1 vs (by simpa using h)
      rw [this.1, this.2, hits_cons]
      by_cases hd : d < rate
      · simp [hd]; omega
      · simp [hd]

/-- C310: with the plain class nothing is ever detected or corrected, however many flips there are. -/
theorem C310_minimal_blind_violated (rate : ℝ) (ds : List (ℝ × (XD → XD))) (vs : List ℝ) :
    (radiate false rate ds {} (vs.map fun v => Tmr.new (.fin v))).1 = ⟨hits rate vs.length ds, 0, 0⟩ := by
  have : ∀ (ds : List (ℝ × (XD → XD))) (s : Stats) (vs : List ℝ) (ts : List Tmr), List.Forall₂ Good vs ts →
      (radiate false rate ds s ts).1.detected = s.detected ∧ (radiate false rate ds s ts).1.corrected = s.corrected := by
    intro ds
    induction ds with
    | nil => intro s vs ts h; cases ts <;> exact ⟨rfl, rfl⟩
    | cons p ds ih =>
      obtain ⟨d, f⟩ := p
      intro s vs ts h
      cases h with
      | nil => exact ⟨rfl, rfl⟩
      | cons h1 h2 =>
        rename_i v t vs' ts'
        simp only [radiate]
        have := ih (if d < rate then strike false f s t else (s, t)).1 _ _ h2
        rw [this.1, this.2]
        by_cases hd : d < rate
        · rw [if_pos hd, (strike_good false f s t v h1).2.1, if_neg (by simp)]
          exact ⟨rfl, rfl⟩
        · rw [if_neg hd]; exact ⟨rfl, rfl⟩
  have h := this ds {} vs _ (good_fresh vs)
  have hf := C310_flips_counted false rate ds {} (vs.map fun v => Tmr.new (.fin v))
  rw [List.length_map] at hf
  revert h hf
  generalize (radiate false rate ds {} (vs.map fun v => Tmr.new (.fin v))).1 = r
  obtain ⟨a, b, c⟩ := r
  rintro ⟨h1, h2⟩ h3
  simp only at h1 h2 h3
  subst h1; subst h2; subst h3
  simp

/-- The strikes on a fresh network that move the copy by 1e-5 or more, or out of the numbers. -/
noncomputable def seenHits (rate : ℝ) : List (ℝ × (XD → XD)) → List ℝ → ℕ
  | (d, f) :: ds, v :: vs => (if d < rate ∧ Seen v (f (.fin v)) then 1 else 0) + seenHits rate ds vs
  | _, _ => 0

/-- C310: with a checksum, exactly the strikes that move the copy by 1e-5 or more (or out of the numbers) are detected, and all of those are corrected. -/
theorem C310_enhanced_counts (rate : ℝ) (ds : List (ℝ × (XD → XD))) (vs : List ℝ) :
    (radiate true rate ds {} (vs.map fun v => Tmr.new (.fin v))).1.detected = seenHits rate ds vs ∧
    (radiate true rate ds {} (vs.map fun v => Tmr.new (.fin v))).1.corrected = seenHits rate ds vs := by
  have : ∀ (ds : List (ℝ × (XD → XD))) (s : Stats) (vs : List ℝ),
      (radiate true rate ds s (vs.map fun v => Tmr.new (.fin v))).1.detected = s.detected + seenHits rate ds vs ∧
      (radiate true rate ds s (vs.map fun v => Tmr.new (.fin v))).1.corrected = s.corrected + seenHits rate ds vs := by
    intro ds
    induction ds with
    | nil => intro s vs; cases vs <;> exact ⟨rfl, rfl⟩
    | cons p ds ih =>
      obtain ⟨d, f⟩ := p
      intro s vs
      cases vs with
      | nil => exact ⟨rfl, rfl⟩
      | cons v vs =>
        simp only [radiate, List.map_cons, seenHits]
        have := ih (if d < rate then strike true f s (Tmr.new (.fin v)) else (s, Tmr.new (.fin v))).1 vs
        rw [this.1, this.2]
        have hv : (Tmr.new (.fin v)).v1 = .fin v := rfl
        by_cases hd : d < rate
        · rw [if_pos hd, (strike_good true f s (Tmr.new (.fin v)) v (good_new v)).2.1, hv]
          by_cases hs : Seen v (f (.fin v))
          · simp only [hd, hs, and_self, if_true]; omega
          · simp only [hd, hs, and_false, if_false]; omega
        · simp only [hd, false_and, if_false]; omega
  have h := this ds {} vs
  simpa using h

/-- C310: on every network, the corrected errors are at most the detected ones and those at most the flips. -/
theorem C310_counts_ordered (e : Bool) (rate : ℝ) (ds : List (ℝ × (XD → XD))) : ∀ (s : Stats) (ts : List Tmr),
    s.corrected ≤ s.detected → s.detected ≤ s.flips →
    (radiate e rate ds s ts).1.corrected ≤ (radiate e rate ds s ts).1.detected ∧ (radiate e rate ds s ts).1.detected ≤ (radiate e rate ds s ts).1.flips := by
  induction ds with
  | nil => intro s ts h1 h2; cases ts <;> exact ⟨h1, h2⟩
  | cons p ds ih =>
    obtain ⟨d, f⟩ := p
    intro s ts h1 h2
    cases ts with
    | nil => exact ⟨h1, h2⟩
    | cons t ts =>
      simp only [radiate]
      have hst : (strike e f s t).1.corrected ≤ (strike e f s t).1.detected ∧ (strike e f s t).1.detected ≤ (strike e f s t).1.flips := by
        unfold strike
        dsimp only
        split
        · exact ⟨h1, by dsimp only; omega⟩
        · split
          · exact ⟨by dsimp only; omega, by dsimp only; omega⟩
          · exact ⟨by dsimp only; omega, by dsimp only; omega⟩
      refine ih _ _ ?_ ?_
      · by_cases hd : d < rate
        · rw [if_pos hd]; exact hst.1
        · rw [if_neg hd]; exact h1
      · by_cases hd : d < rate
        · rw [if_pos hd]; exact hst.2
        · rw [if_neg hd]; exact h2

/-- The flip of the sign of a value. -/
noncomputable def signFlip : XD → XD := XD.neg

example : (radiate true 1 [(0, signFlip), (2, signFlip)] {} ([1, 2].map fun v : ℝ => Tmr.new (.fin v))).1 = ⟨1, 1, 1⟩ := by
  have h := C310_enhanced_counts 1 [(0, signFlip), (2, signFlip)] [1, 2]
  have hf := C310_flips_counted true 1 [(0, signFlip), (2, signFlip)] {} ([1, 2].map fun v : ℝ => Tmr.new (.fin v))
  have hs : Seen 1 (signFlip (.fin 1)) := by
    rintro ⟨a, ha, hb⟩
    have ha : XD.fin (-1) = .fin a := ha
    injection ha with ha
    subst ha
    norm_num [abs_lt] at hb
  have e : seenHits 1 [(0, signFlip), (2, signFlip)] [1, 2] = 1 := by
    simp [seenHits, hs]
  have e2 : hits 1 2 [(0, signFlip), (2, signFlip)] = 1 := by
    rw [hits_cons, hits_cons]; norm_num [hits]
  rw [e] at h
  simp only [List.length_map, List.length_cons, List.length_nil] at hf
  rw [e2] at hf
  revert h hf
  generalize (radiate true 1 [(0, signFlip), (2, signFlip)] {} ([1, 2].map fun v : ℝ => Tmr.new (.fin v))).1 = r
  obtain ⟨a, b, c⟩ := r
  rintro ⟨h1, h2⟩ h3
  simp only at h1 h2 h3
  subst h1; subst h2; subst h3
  rfl

/-! ### C311 — rows and summary -/

/-- The weights made from the draws are numbers. -/
def Finite (s : Setup) : Prop := ∀ i x, ∃ r : ℝ, s.weight i x = .fin r

theorem fresh_fin (s : Setup) (hs : Finite s) (seed : ℕ) : ∃ vs : List ℝ, vs.length = s.size ∧ s.fresh seed = vs.map .fin := by
  choose g hg using hs
  refine ⟨(List.range s.size).map fun i : ℕ => g i (s.stream seed i), by simp, ?_⟩
  unfold Setup.fresh
  rw [List.map_map]
  exact List.map_congr_left fun i _ => hg i _

/-- The accuracy of the network of a seed without any radiation, measured with the same draws. -/
noncomputable def unharmed (s : Setup) (seed : ℕ) : ℝ := s.accuracy (s.fresh seed) fun i => s.stream seed (s.size + s.size + i)

/-- C311: at every error rate a trial of a protected network measures the accuracy of the undamaged network of its seed. -/
theorem C311_trial_accuracy (s : Setup) (hs : Finite s) (e : Bool) (rate : ℝ) (seed : ℕ) : (s.trial e rate seed).2 = unharmed s seed := by
  obtain ⟨vs, -, h⟩ := fresh_fin s hs seed
  have := C310_values_survive e vs [(rate, s.draws rate seed)]
  simp only [exposures, List.foldl_cons, List.foldl_nil] at this
  unfold Setup.trial unharmed
  dsimp only
  rw [h, List.map_map]
  have e1 : (Tmr.new ∘ XD.fin) = fun v => Tmr.new (.fin v) := rfl
  rw [e1, this]

/-- The accuracy all rows report. -/
noncomputable def commonAccuracy (s : Setup) : ℝ := (unharmed s 0 + unharmed s 1 + unharmed s 2) / 3

theorem row_accuracy (s : Setup) (hs : Finite s) (e : Bool) (baseline rate : ℝ) :
    (row rate baseline ((List.range 3).map fun seed : ℕ => s.trial e rate seed)).accuracy = commonAccuracy s := by
  have e3 : List.range 3 = [0, 1, 2] := rfl
  simp only [row, commonAccuracy, e3, List.map_cons, List.map_nil, List.sum_cons, List.sum_nil, List.length_cons, List.length_nil, C311_trial_accuracy s hs]
  push_cast
  norm_num
  ring

/-- C311: the accuracy and the percentage of a protected network are the same at every error rate. -/
theorem C311_rows_constant (s : Setup) (hs : Finite s) (e : Bool) (baseline : ℝ) (rates : List ℝ) :
    (s.rows e baseline rates).map (fun r => (r.rate, r.accuracy, r.percentage)) =
      rates.map fun r => (r, commonAccuracy s, if 0 < baseline then commonAccuracy s / baseline * 100 else 0) := by
  unfold Setup.rows
  rw [List.map_map]
  refine List.map_congr_left fun r _ => ?_
  have h := row_accuracy s hs e baseline r
  have hp : ∀ ts : List (Stats × ℝ), (row r baseline ts).percentage = if 0 < baseline then (row r baseline ts).accuracy / baseline * 100 else 0 := fun _ => rfl
  simp only [Function.comp]
  rw [hp, h]
  rfl

/-- A setup in which every network has accuracy `q`. -/
noncomputable def oneParam (q : ℝ) : Setup := ⟨fun _ _ => 0, fun _ _ _ x => x, 1, fun _ _ => .fin 0, fun _ _ => q⟩

theorem oneParam_finite (q : ℝ) : Finite (oneParam q) := fun _ _ => ⟨0, rfl⟩

/-- C311: the percentage compares with the accuracy of another network: without a single flip it can be 50 % or 200 %. -/
theorem C311_other_baseline_violated (rate : ℝ) :
    ((oneParam (1 / 2)).rows true 1 [rate]).map (·.percentage) = [50] ∧ ((oneParam (1 / 2)).rows true (1 / 4) [rate]).map (·.percentage) = [200] := by
  have hc : commonAccuracy (oneParam (1 / 2)) = 1 / 2 := by
    unfold commonAccuracy unharmed oneParam
    norm_num
  have h1 := C311_rows_constant (oneParam (1 / 2)) (oneParam_finite _) true 1 [rate]
  have h2 := C311_rows_constant (oneParam (1 / 2)) (oneParam_finite _) true (1 / 4) [rate]
  rw [hc] at h1 h2
  have k : ∀ l : List Row, l.map (·.percentage) = (l.map fun r => (r.rate, r.accuracy, r.percentage)).map (fun t => t.2.2) := by
    intro l; rw [List.map_map]; rfl
  rw [k, k, h1, h2]
  norm_num

/-- C311: averages, share and correction rate of a row, for three trials. -/
theorem C311_row_averages (rate baseline : ℝ) (a b c : Stats × ℝ) :
    (row rate baseline [a, b, c]).rate = rate ∧ (row rate baseline [a, b, c]).accuracy = (a.2 + b.2 + c.2) / 3 ∧
    (row rate baseline [a, b, c]).detected = ((a.1.detected : ℝ) + b.1.detected + c.1.detected) / 3 ∧
    (row rate baseline [a, b, c]).corrected = ((a.1.corrected : ℝ) + b.1.corrected + c.1.corrected) / 3 := by
  refine ⟨rfl, ?_, ?_, ?_⟩
  · simp only [row, List.map_cons, List.map_nil, List.sum_cons, List.sum_nil, List.length_cons, List.length_nil]
    push_cast; norm_num; ring
  · simp only [row, List.map_cons, List.map_nil, List.sum_cons, List.sum_nil]
    push_cast; ring
  · simp only [row, List.map_cons, List.map_nil, List.sum_cons, List.sum_nil]
    push_cast; ring

/-- C311: the correction rate lies between 0 and 100 if no trial corrects more than it detects. -/
theorem C311_correction_rate_range (rate baseline : ℝ) (ts : List (Stats × ℝ)) (h : ∀ t ∈ ts, t.1.corrected ≤ t.1.detected) :
    0 ≤ (row rate baseline ts).correctionRate ∧ (row rate baseline ts).correctionRate ≤ 100 := by
  have hle : (ts.map (·.1.corrected)).sum ≤ (ts.map (·.1.detected)).sum := by
    induction ts with
    | nil => simp
    | cons t ts ih =>
      simp only [List.map_cons, List.sum_cons]
      have := h t (by simp)
      have := ih fun x hx => h x (by simp [hx])
      omega
  have hle' : (((ts.map (·.1.corrected)).sum : ℕ) : ℝ) ≤ (((ts.map (·.1.detected)).sum : ℕ) : ℝ) := by exact_mod_cast hle
  have h0 : (0:ℝ) ≤ (((ts.map (·.1.corrected)).sum : ℕ) : ℝ) := Nat.cast_nonneg _
  simp only [row]
  by_cases hp : (0:ℝ) < (((ts.map (·.1.detected)).sum : ℕ) : ℝ) / 3
  · rw [if_pos hp]
    constructor
    · positivity
    · have : (((ts.map (·.1.corrected)).sum : ℕ) : ℝ) / 3 / ((((ts.map (·.1.detected)).sum : ℕ) : ℝ) / 3) ≤ 1 := by
        rw [div_le_one hp]; linarith
      linarith
  · rw [if_neg hp]; norm_num

/-- C311: with the plain class the correction rate is always 100 %, although nothing is corrected. -/
theorem C311_minimal_rate_violated (s : Setup) (hs : Finite s) (baseline : ℝ) (rates : List ℝ) (r : Row) (hr : r ∈ s.rows false baseline rates) :
    r.correctionRate = 100 ∧ r.corrected = 0 ∧ r.detected = 0 := by
  unfold Setup.rows at hr
  obtain ⟨q, -, rfl⟩ := List.mem_map.1 hr
  have hz : ∀ seed, (s.trial false q seed).1.detected = 0 ∧ (s.trial false q seed).1.corrected = 0 := by
    intro seed
    obtain ⟨vs, -, h⟩ := fresh_fin s hs seed
    unfold Setup.trial
    dsimp only
    rw [h, List.map_map]
    have e1 : (Tmr.new ∘ XD.fin) = fun v => Tmr.new (.fin v) := rfl
    rw [e1, C310_minimal_blind_violated]
    exact ⟨rfl, rfl⟩
  have e3 : List.range 3 = [0, 1, 2] := rfl
  simp [row, e3, hz]

/-- A setup in which every draw strikes. -/
noncomputable def allStruck : Setup := ⟨fun _ _ => 0, fun _ _ _ _ => .nan, 1, fun _ _ => .fin 1, fun _ _ => 1⟩

example : Finite allStruck ∧ (allStruck.trial false 1 0).1 = ⟨1, 0, 0⟩ ∧ (allStruck.trial true 1 0).1 = ⟨1, 1, 1⟩ := by
  refine ⟨fun _ _ => ⟨1, rfl⟩, ?_, ?_⟩
  · have := C310_minimal_blind_violated 1 [(0, fun _ => .nan)] [1]
    have h2 : hits 1 1 [((0:ℝ), fun _ => XD.nan)] = 1 := by rw [hits_cons]; norm_num [hits]
    simp only [List.length_cons, List.length_nil, Nat.zero_add] at this
    rw [h2] at this
    exact this
  · have h := C310_enhanced_counts 1 [(0, fun _ => .nan)] [1]
    have hf := C310_flips_counted true 1 [((0:ℝ), fun _ => XD.nan)] {} ([1].map fun v : ℝ => Tmr.new (.fin v))
    have hs : Seen 1 .nan := by rintro ⟨a, ha, -⟩; cases ha
    have e1 : seenHits 1 [((0:ℝ), fun _ => XD.nan)] [1] = 1 := by simp [seenHits, hs]
    have e2 : hits 1 1 [((0:ℝ), fun _ => XD.nan)] = 1 := by rw [hits_cons]; norm_num [hits]
    rw [e1] at h
    simp only [List.length_map, List.length_cons, List.length_nil, Nat.zero_add] at hf
    rw [e2] at hf
    show (radiate true 1 [((0:ℝ), fun _ => XD.nan)] {} ([1].map fun v : ℝ => Tmr.new (.fin v))).1 = _
    revert h hf
    generalize (radiate true 1 [((0:ℝ), fun _ => XD.nan)] {} ([1].map fun v : ℝ => Tmr.new (.fin v))).1 = r
    obtain ⟨a, b, c⟩ := r
    rintro ⟨h1, h2⟩ h3
    simp only at h1 h2 h3
    subst h1; subst h2; subst h3
    rfl

theorem foldl_max_spec (t : List Row) : ∀ m : ℝ, (∀ x ∈ t, x.rate ≤ t.foldl (fun m x => max m x.rate) m) ∧ m ≤ t.foldl (fun m x => max m x.rate) m ∧
    (t.foldl (fun m x => max m x.rate) m = m ∨ ∃ x ∈ t, x.rate = t.foldl (fun m x => max m x.rate) m) := by
  induction t with
  | nil => intro m; exact ⟨by simp, le_rfl, Or.inl rfl⟩
  | cons y t ih =>
    intro m
    obtain ⟨h1, h2, h3⟩ := ih (max m y.rate)
    simp only [List.foldl_cons]
    refine ⟨?_, le_trans (le_max_left _ _) h2, ?_⟩
    · intro x hx
      rcases List.mem_cons.1 hx with rfl | hx
      · exact le_trans (le_max_right _ _) h2
      · exact h1 x hx
    · rcases h3 with h3 | ⟨x, hx, h3⟩
      · rcases max_choice m y.rate with h | h
        · exact Or.inl (h3.trans h)
        · exact Or.inr ⟨y, by simp, (h3.trans h).symm⟩
      · exact Or.inr ⟨x, by simp [hx], h3⟩

/-- C311: the sustainable rate is the largest rate of a row with at least 90 %, and 0 if there is no such row. -/
theorem C311_sustainable_largest (rs : List Row) :
    ((∀ r ∈ rs, r.percentage < 90) → sustainable rs = 0) ∧
    ((∃ r ∈ rs, 90 ≤ r.percentage) → (∃ r ∈ rs, 90 ≤ r.percentage ∧ r.rate = sustainable rs) ∧ ∀ r ∈ rs, 90 ≤ r.percentage → r.rate ≤ sustainable rs) := by
  have hm : ∀ r, r ∈ rs.filter (fun r => decide (90 ≤ r.percentage)) ↔ r ∈ rs ∧ 90 ≤ r.percentage := by
    intro r; rw [List.mem_filter, decide_eq_true_iff]
  unfold sustainable
  revert hm
  generalize rs.filter (fun r => decide (90 ≤ r.percentage)) = l
  intro hm
  constructor
  · intro h
    cases l with
    | nil => rfl
    | cons r t =>
      have := (hm r).1 (by simp)
      exact absurd (h r this.1) (not_lt.2 this.2)
  · rintro ⟨r, hr, hp⟩
    cases l with
    | nil => exact absurd ((hm r).2 ⟨hr, hp⟩) (by simp)
    | cons a t =>
      obtain ⟨h1, h2, h3⟩ := foldl_max_spec t a.rate
      have hall : ∀ x ∈ rs, 90 ≤ x.percentage → x.rate ≤ t.foldl (fun m x => max m x.rate) a.rate := by
        intro x hx hpx
        rcases List.mem_cons.1 ((hm x).2 ⟨hx, hpx⟩) with rfl | h
        · exact h2
        · exact h1 x h
      refine ⟨?_, hall⟩
      rcases h3 with h3 | ⟨x, hx, h3⟩
      · exact ⟨a, ((hm a).1 (by simp)).1, ((hm a).1 (by simp)).2, h3.symm⟩
      · exact ⟨x, ((hm x).1 (by simp [hx])).1, ((hm x).1 (by simp [hx])).2, h3⟩

/-- A row with only rate and percentage. -/
noncomputable def plainRow (rate p : ℝ) : Row := ⟨rate, 0, p, 0, 0, 100⟩

/-- C311: rates below the sustainable one need not be sustained. -/
theorem C311_sustainable_gap_violated : sustainable [plainRow 1 50, plainRow 2 95] = 2 ∧ (plainRow 1 50).percentage < 90 := by
  constructor
  · have h := (C311_sustainable_largest [plainRow 1 50, plainRow 2 95]).2 ⟨plainRow 2 95, by simp, by norm_num [plainRow]⟩
    obtain ⟨r, hr, hp, he⟩ := h.1
    rcases List.mem_cons.1 hr with rfl | hr
    · norm_num [plainRow] at hp
    · rw [List.mem_singleton] at hr
      subst hr
      exact he.symm
  · norm_num [plainRow]

/-- C311: for a protected network the sustainable rate is either the largest rate tried or 0, whatever radiation does. -/
theorem C311_sustainable_all_or_nothing (s : Setup) (hs : Finite s) (e : Bool) (baseline : ℝ) (rates : List ℝ) :
    (∀ r ∈ rates, r ≤ sustainable (s.rows e baseline rates)) ∨ sustainable (s.rows e baseline rates) = 0 := by
  have hrow := C311_rows_constant s hs e baseline rates
  have hmem : ∀ x ∈ s.rows e baseline rates, x.rate ∈ rates ∧ x.percentage = if 0 < baseline then commonAccuracy s / baseline * 100 else 0 := by
    intro x hx
    have : (x.rate, x.accuracy, x.percentage) ∈ (s.rows e baseline rates).map (fun r => (r.rate, r.accuracy, r.percentage)) := List.mem_map.2 ⟨x, hx, rfl⟩
    rw [hrow] at this
    obtain ⟨q, hq, h⟩ := List.mem_map.1 this
    simp only [Prod.mk.injEq] at h
    exact ⟨h.1 ▸ hq, h.2.2.symm⟩
  have hex : ∀ q ∈ rates, ∃ x ∈ s.rows e baseline rates, x.rate = q := by
    intro q hq
    exact ⟨_, List.mem_map.2 ⟨q, hq, rfl⟩, rfl⟩
  by_cases h90 : 90 ≤ if 0 < baseline then commonAccuracy s / baseline * 100 else 0
  · left
    intro q hq
    obtain ⟨x, hx, rfl⟩ := hex q hq
    have hp : 90 ≤ x.percentage := by rw [(hmem x hx).2]; exact h90
    exact ((C311_sustainable_largest _).2 ⟨x, hx, hp⟩).2 x hx hp
  · right
    refine (C311_sustainable_largest _).1 fun x hx => ?_
    rw [(hmem x hx).2]
    exact not_le.1 h90

/-- C311: the class of a sample is one of the four, and those between keep their order. -/
theorem C311_label_range (n : ℤ) : 0 ≤ label n ∧ label n ≤ 3 ∧ (-2 ≤ n → n ≤ 1 → label n = n + 2) ∧ (n ≤ -2 → label n = 0) ∧ (1 ≤ n → label n = 3) := by
  unfold label
  omega

example : label 0 = 2 ∧ label (-7) = 0 ∧ label 9 = 3 := ⟨rfl, rfl, rfl⟩

/-- C310: the draws of one trial are used once: parameter `i` is struck exactly if draw number `size + i` of the seed is below the rate, after the draws that made the weights. -/
theorem C310_own_draws (s : Setup) (e : Bool) (rate : ℝ) (seed : ℕ) :
    (s.trial e rate seed).1.flips = (List.range s.size).countP fun i => decide (s.stream seed (s.size + i) < rate) := by
  unfold Setup.trial
  dsimp only
  rw [C310_flips_counted]
  have hl : ((s.fresh seed).map Tmr.new).length = s.size := by simp [Setup.fresh]
  have hd : (s.draws rate seed).length = s.size := by simp [Setup.draws]
  rw [hl, hits, List.take_of_length_le hd.le, Setup.draws, List.countP_map]
  show 0 + _ = _
  rw [Nat.zero_add]
  rfl

example : ∃ s : Setup, s.size = 2 ∧ s.stream 1 2 < s.stream 1 0 := ⟨⟨fun _ k => if k = 0 then 1 else 0, fun _ _ _ x => x, 2, fun _ x => .fin x, fun _ _ => 0⟩, rfl, by norm_num⟩

end Verif.Props.SimpleMC
