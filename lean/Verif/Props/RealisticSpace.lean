import Verif.Model.RealisticSpace
import Verif.Lemmas.Crc
import Verif.Lemmas.Bits
import Verif.Spec.Float
import Mathlib.Analysis.Real.Pi.Bounds
import Mathlib.Tactic.NormNum
import Mathlib.Tactic.Linarith
import Mathlib.Tactic.FieldSimp
import Mathlib.Tactic.Ring
/-!
Properties of test/verification/realistic_space_validation.cpp (C324-C330).
-/
namespace Verif.Props.RealisticSpace
open Verif Verif.RealSpace

/-- Specification: keys strictly increasing. -/
def Sorted (m : List (ℝ × ℝ)) : Prop := m.Pairwise (fun a b => a.1 < b.1)
/-- Specification: the thicker the shield, the smaller the dose (table). -/
def Decreasing (m : List (ℝ × ℝ)) : Prop := m.Pairwise (fun a b => b.2 ≤ a.2)

theorem mem_assign {k v : ℝ} {m : List (ℝ × ℝ)} {q : ℝ × ℝ} (h : q ∈ assign k v m) : q = (k, v) ∨ q ∈ m := by
  induction m with
  | nil => simpa [assign] using h
  | cons a m ih =>
    obtain ⟨t, d⟩ := a
    rw [assign] at h
    by_cases h1 : k < t
    · rw [if_pos h1] at h
      rcases List.mem_cons.mp h with h | h
      · exact .inl h
      · exact .inr h
    · rw [if_neg h1] at h
      by_cases h2 : k = t
      · rw [if_pos h2] at h
        rcases List.mem_cons.mp h with h | h
        · exact .inl h
        · exact .inr (List.mem_cons_of_mem _ h)
      · rw [if_neg h2] at h
        rcases List.mem_cons.mp h with h | h
        · exact .inr (h ▸ List.mem_cons_self)
        · rcases ih h with h | h
          · exact .inl h
          · exact .inr (List.mem_cons_of_mem _ h)

theorem assign_sorted (k v : ℝ) {m : List (ℝ × ℝ)} (h : Sorted m) : Sorted (assign k v m) := by
  induction m with
  | nil => simp [assign, Sorted]
  | cons a m ih =>
    obtain ⟨t, d⟩ := a
    have h' := List.pairwise_cons.mp h
    rw [assign]
    by_cases h1 : k < t
    · rw [if_pos h1]
      refine List.pairwise_cons.mpr ⟨?_, h⟩
      intro q hq
      rcases List.mem_cons.mp hq with rfl | hq
      · exact h1
      · exact h1.trans (h'.1 q hq)
    · rw [if_neg h1]
      by_cases h2 : k = t
      · rw [if_pos h2]
        exact List.pairwise_cons.mpr ⟨fun q hq => by simpa [h2] using h'.1 q hq, h'.2⟩
      · rw [if_neg h2]
        refine List.pairwise_cons.mpr ⟨?_, ih h'.2⟩
        intro q hq
        rcases mem_assign hq with rfl | hq
        · exact lt_of_le_of_ne (not_lt.mp h1) (Ne.symm h2)
        · exact h'.1 q hq

theorem assign_self (k v : ℝ) (m : List (ℝ × ℝ)) : (k, v) ∈ assign k v m := by
  induction m with
  | nil => simp [assign]
  | cons a m ih =>
    obtain ⟨t, d⟩ := a
    rw [assign]
    split_ifs <;> simp [ih]

theorem assign_other {k v : ℝ} {m : List (ℝ × ℝ)} {q : ℝ × ℝ} (h : q ∈ m) (hk : q.1 ≠ k) : q ∈ assign k v m := by
  induction m with
  | nil => simp at h
  | cons a m ih =>
    obtain ⟨t, d⟩ := a
    rw [assign]
    rcases List.mem_cons.mp h with rfl | h
    · split_ifs with h1 h2
      · simp
      · exact absurd h2.symm hk
      · simp
    · split_ifs with h1 h2
      · simp [h]
      · simp [h]
      · simp [ih h]

theorem foldl_sorted (ps : List DosePoint) (m : List (ℝ × ℝ)) (h : Sorted m) :
    Sorted (ps.foldl (fun m p => assign p.thickness p.total m) m) := by
  induction ps generalizing m with
  | nil => exact h
  | cons p ps ih => exact ih _ (assign_sorted _ _ h)

theorem foldl_mem {ps : List DosePoint} {m : List (ℝ × ℝ)} {q : ℝ × ℝ} (h : q ∈ m)
    (hq : ∀ p ∈ ps, p.thickness ≠ q.1) : q ∈ ps.foldl (fun m p => assign p.thickness p.total m) m := by
  induction ps generalizing m with
  | nil => exact h
  | cons p ps ih =>
    exact ih (assign_other h (Ne.symm (hq p List.mem_cons_self)))
      (fun p' hp' => hq p' (List.mem_cons_of_mem _ hp'))

/-! ### bounds of the interpolation -/

theorem lin_le {p q : ℝ × ℝ} {x : ℝ} (h1 : p.1 ≤ x) (h2 : x ≤ q.1) (h : p.1 < q.1) {b : ℝ} (hp : p.2 ≤ b)
    (hq : q.2 ≤ b) : p.2 + (q.2 - p.2) * (x - p.1) / (q.1 - p.1) ≤ b := by
  have hd : 0 < q.1 - p.1 := by linarith
  have e : p.2 + (q.2 - p.2) * (x - p.1) / (q.1 - p.1) =
      (p.2 * (q.1 - x) + q.2 * (x - p.1)) / (q.1 - p.1) := by field_simp; ring
  rw [e, div_le_iff₀ hd]
  nlinarith [mul_nonneg (sub_nonneg.mpr hp) (sub_nonneg.mpr h2),
    mul_nonneg (sub_nonneg.mpr hq) (sub_nonneg.mpr h1)]

theorem le_lin {p q : ℝ × ℝ} {x : ℝ} (h1 : p.1 ≤ x) (h2 : x ≤ q.1) (h : p.1 < q.1) {b : ℝ} (hp : b ≤ p.2)
    (hq : b ≤ q.2) : b ≤ p.2 + (q.2 - p.2) * (x - p.1) / (q.1 - p.1) := by
  have hd : 0 < q.1 - p.1 := by linarith
  have e : p.2 + (q.2 - p.2) * (x - p.1) / (q.1 - p.1) =
      (p.2 * (q.1 - x) + q.2 * (x - p.1)) / (q.1 - p.1) := by field_simp; ring
  rw [e, le_div_iff₀ hd]
  nlinarith [mul_nonneg (sub_nonneg.mpr hp) (sub_nonneg.mpr h2),
    mul_nonneg (sub_nonneg.mpr hq) (sub_nonneg.mpr h1)]

theorem interp_some (x a b : ℝ) (p : ℝ × ℝ) (m : List (ℝ × ℝ)) (hs : Sorted (p :: m)) (hx : p.1 < x)
    (hb : ∀ q ∈ p :: m, a ≤ q.2 ∧ q.2 ≤ b) :
    ∃ y, interpolate x (some p) m = .ok y ∧ a ≤ y ∧ y ≤ b := by
  induction m generalizing p with
  | nil => exact ⟨p.2, rfl, hb p List.mem_cons_self⟩
  | cons q m ih =>
    rw [interpolate]
    have hs' := List.pairwise_cons.mp hs
    by_cases h : q.1 < x
    · rw [if_pos h]
      exact ih q hs'.2 h (fun r hr => hb r (List.mem_cons_of_mem _ hr))
    · rw [if_neg h]
      have hpq := hs'.1 q List.mem_cons_self
      have hp := hb p List.mem_cons_self
      have hq := hb q (List.mem_cons_of_mem _ List.mem_cons_self)
      exact ⟨_, rfl, le_lin hx.le (not_lt.mp h) hpq hp.1 hq.1, lin_le hx.le (not_lt.mp h) hpq hp.2 hq.2⟩

/-- C324: on a non-empty table the interpolated dose rate always exists and lies between the smallest and the
largest tabulated value, for every thickness. -/
theorem C324_dose_between (m : List (ℝ × ℝ)) (hs : Sorted m) (hne : m ≠ []) (a b : ℝ)
    (hb : ∀ q ∈ m, a ≤ q.2 ∧ q.2 ≤ b) (x : ℝ) : ∃ y, getDoseRate m x = .ok y ∧ a ≤ y ∧ y ≤ b := by
  cases m with
  | nil => exact absurd rfl hne
  | cons q m =>
    rw [getDoseRate, interpolate]
    by_cases h : q.1 < x
    · rw [if_pos h]; exact interp_some x a b q m hs h hb
    · rw [if_neg h]; exact ⟨_, rfl, hb q List.mem_cons_self⟩

theorem interp_node (p q : ℝ × ℝ) (m : List (ℝ × ℝ)) (hs : Sorted (p :: m)) (hq : q ∈ m) :
    interpolate q.1 (some p) m = .ok q.2 := by
  induction m generalizing p with
  | nil => simp at hq
  | cons r m ih =>
    rw [interpolate]
    have hs' := List.pairwise_cons.mp hs
    rcases List.mem_cons.mp hq with rfl | hq
    · rw [if_neg (lt_irrefl _)]
      have hpq := hs'.1 q List.mem_cons_self
      have : q.1 - p.1 ≠ 0 := by linarith
      congr 1
      field_simp
      ring
    · rw [if_pos ((List.pairwise_cons.mp hs'.2).1 q hq)]
      exact ih r hs'.2 hq

/-- C324: at a tabulated thickness the dose rate is the tabulated one. -/
theorem C324_dose_node (m : List (ℝ × ℝ)) (hs : Sorted m) (q : ℝ × ℝ) (hq : q ∈ m) :
    getDoseRate m q.1 = .ok q.2 := by
  cases m with
  | nil => simp at hq
  | cons r m =>
    rw [getDoseRate, interpolate]
    rcases List.mem_cons.mp hq with rfl | hq
    · rw [if_neg (lt_irrefl _)]
    · rw [if_pos ((List.pairwise_cons.mp hs).1 q hq)]
      exact interp_node r q m hs hq

/-- C324: between two neighbouring entries the dose rate lies on the straight line through them. -/
theorem C324_dose_linear (l r : List (ℝ × ℝ)) (p q : ℝ × ℝ) (hs : Sorted (l ++ p :: q :: r)) (s : ℝ) (h0 : 0 ≤ s)
    (h1 : s ≤ 1) :
    getDoseRate (l ++ p :: q :: r) ((1 - s) * p.1 + s * q.1) = .ok ((1 - s) * p.2 + s * q.2) := by
  have hpq : p.1 < q.1 := by
    have := (List.pairwise_append.mp hs).2.1
    exact (List.pairwise_cons.mp this).1 q List.mem_cons_self
  rcases eq_or_lt_of_le h0 with h0 | h0
  · subst h0
    have := C324_dose_node _ hs p (by simp)
    simpa using this
  · set x := (1 - s) * p.1 + s * q.1 with hx
    have hpx : p.1 < x := by rw [hx]; nlinarith
    have hxq : x ≤ q.1 := by rw [hx]; nlinarith
    have base : interpolate x (some p) (q :: r) = .ok ((1 - s) * p.2 + s * q.2) := by
      rw [interpolate, if_neg (not_lt.mpr hxq)]
      congr 1
      have hd : q.1 - p.1 ≠ 0 := by linarith
      rw [hx]; field_simp; ring
    have step : ∀ (l : List (ℝ × ℝ)) (o : Option (ℝ × ℝ)), (∀ a ∈ l, a.1 < x) →
        interpolate x o (l ++ p :: q :: r) = interpolate x (some p) (q :: r) := by
      intro l
      induction l with
      | nil =>
        intro o _
        cases o with
        | none => rw [List.nil_append, interpolate, if_pos hpx]
        | some o => rw [List.nil_append, interpolate, if_pos hpx]
      | cons a l ih =>
        intro o hl
        have ha := hl a List.mem_cons_self
        cases o with
        | none => rw [List.cons_append, interpolate, if_pos ha]; exact ih _ (fun b hb => hl b (List.mem_cons_of_mem _ hb))
        | some o => rw [List.cons_append, interpolate, if_pos ha]; exact ih _ (fun b hb => hl b (List.mem_cons_of_mem _ hb))
    rw [getDoseRate, step l none, base]
    intro a ha
    have := (List.pairwise_append.mp hs).2.2 a ha p List.mem_cons_self
    exact this.trans hpx

/-- C324: below the first entry and above the last one the dose rate is constant. -/
theorem C324_dose_outside (p : ℝ × ℝ) (m : List (ℝ × ℝ)) (hs : Sorted (p :: m)) (x : ℝ) :
    (x ≤ p.1 → getDoseRate (p :: m) x = .ok p.2) ∧
    (∀ q, (p :: m).getLast? = some q → q.1 ≤ x → getDoseRate (p :: m) x = .ok q.2) := by
  constructor
  · intro h; rw [getDoseRate, interpolate, if_neg (not_lt.mpr h)]
  · intro q hq hx
    rcases eq_or_lt_of_le hx with rfl | hx
    · exact C324_dose_node _ hs q (List.mem_of_getLast? hq)
    · have key : ∀ (m : List (ℝ × ℝ)) (o : Option (ℝ × ℝ)), Sorted m → m.getLast? = some q →
          interpolate x o m = .ok q.2 := by
        intro m
        induction m with
        | nil => intro o _ h; simp at h
        | cons a m ih =>
          intro o hs h
          have hs' := List.pairwise_cons.mp hs
          have haq : a.1 < x := by
            rcases List.mem_cons.mp (List.mem_of_getLast? h) with e | e
            · rw [← e]; exact hx
            · exact (hs'.1 q e).trans hx
          have go : interpolate x (some a) m = .ok q.2 := by
            cases m with
            | nil =>
              simp at h
              rw [interpolate, h]
            | cons b m => exact ih (some a) hs'.2 (by rw [List.getLast?_cons_cons] at h; exact h)
          cases o with
          | none => rw [interpolate, if_pos haq]; exact go
          | some o => rw [interpolate, if_pos haq]; exact go
      exact key _ none hs hq

theorem interp_le (x : ℝ) (p : ℝ × ℝ) (m : List (ℝ × ℝ)) (hs : Sorted (p :: m)) (hd : Decreasing (p :: m))
    (hx : p.1 < x) : ∀ y, interpolate x (some p) m = .ok y → y ≤ p.2 := by
  induction m generalizing p with
  | nil => intro y h; rw [interpolate] at h; cases h; exact le_refl _
  | cons q m ih =>
    intro y h
    rw [interpolate] at h
    have hs' := List.pairwise_cons.mp hs
    have hd' := List.pairwise_cons.mp hd
    by_cases hq : q.1 < x
    · rw [if_pos hq] at h
      exact (ih q hs'.2 hd'.2 hq y h).trans (hd'.1 q List.mem_cons_self)
    · rw [if_neg hq] at h
      cases h
      exact lin_le hx.le (not_lt.mp hq) (hs'.1 q List.mem_cons_self) (le_refl _) (hd'.1 q List.mem_cons_self)

theorem interp_anti (x y : ℝ) (hxy : x ≤ y) (p : ℝ × ℝ) (m : List (ℝ × ℝ)) (hs : Sorted (p :: m))
    (hd : Decreasing (p :: m)) (hx : p.1 < x) :
    ∀ a b, interpolate x (some p) m = .ok a → interpolate y (some p) m = .ok b → b ≤ a := by
  induction m generalizing p with
  | nil => intro a b h1 h2; rw [interpolate] at h1 h2; cases h1; cases h2; exact le_refl _
  | cons q m ih =>
    intro a b h1 h2
    have hs' := List.pairwise_cons.mp hs
    have hd' := List.pairwise_cons.mp hd
    have hpq := hs'.1 q List.mem_cons_self
    have hdq := hd'.1 q List.mem_cons_self
    rw [interpolate] at h1 h2
    by_cases hq : q.1 < x
    · rw [if_pos hq] at h1
      rw [if_pos (lt_of_lt_of_le hq hxy)] at h2
      exact ih q hs'.2 hd'.2 hq a b h1 h2
    · rw [if_neg hq] at h1
      cases h1
      by_cases hqy : q.1 < y
      · rw [if_pos hqy] at h2
        exact (interp_le y q m hs'.2 hd'.2 hqy b h2).trans (le_lin hx.le (not_lt.mp hq) hpq hdq (le_refl _))
      · rw [if_neg hqy] at h2
        cases h2
        have hpos : 0 < q.1 - p.1 := by linarith
        have : (q.2 - p.2) * (y - p.1) / (q.1 - p.1) ≤ (q.2 - p.2) * (x - p.1) / (q.1 - p.1) := by
          apply div_le_div_of_nonneg_right _ hpos.le
          nlinarith
        linarith

/-- C324: if the table decreases with the thickness, so does the interpolated dose: thicker shielding never
means more dose. -/
theorem C324_dose_antitone (m : List (ℝ × ℝ)) (hs : Sorted m) (hd : Decreasing m) (x y : ℝ) (hxy : x ≤ y) (a b : ℝ)
    (ha : getDoseRate m x = .ok a) (hb : getDoseRate m y = .ok b) : b ≤ a := by
  cases m with
  | nil => rw [getDoseRate, interpolate] at ha; cases ha
  | cons q m =>
    rw [getDoseRate, interpolate] at ha hb
    by_cases h : q.1 < x
    · rw [if_pos h] at ha
      rw [if_pos (lt_of_lt_of_le h hxy)] at hb
      exact interp_anti x y hxy q m hs hd h a b ha hb
    · rw [if_neg h] at ha
      cases ha
      by_cases hy : q.1 < y
      · rw [if_pos hy] at hb
        exact interp_le y q m hs hd hy b hb
      · rw [if_neg hy] at hb; cases hb; exact le_refl _

/-- C324: the map built from any list of points is sorted, and the last point of a given thickness decides the
dose rate there. -/
theorem C324_dose_map (ps : List DosePoint) (p : DosePoint) (qs : List DosePoint)
    (hq : ∀ q ∈ qs, q.thickness ≠ p.thickness) :
    Sorted (doseMap (ps ++ p :: qs)) ∧
    getDoseRate (doseMap (ps ++ p :: qs)) p.thickness = .ok (p.electron + p.proton) := by
  have hs : Sorted (doseMap (ps ++ p :: qs)) := foldl_sorted _ _ List.Pairwise.nil
  refine ⟨hs, ?_⟩
  have : (p.thickness, p.total) ∈ doseMap (ps ++ p :: qs) := by
    rw [doseMap, List.foldl_append, List.foldl_cons]
    exact foldl_mem (assign_self _ _ _) hq
  exact C324_dose_node _ hs _ this

/-- C324 (limit): without any point the constructor already has undefined behaviour. -/
theorem C324_dose_empty_limit (x : ℝ) : getDoseRate (doseMap []) x = .ub := rfl

/-- The map of the program's table. -/
theorem table_eq : doseMap loadDoseRates =
    [(0.10, 2.109e-4 + 1.274e-3), (0.20, 1.076e-4 + 8.624e-4), (0.40, 3.561e-5 + 5.096e-4),
     (0.50, 2.211e-5 + 4.294e-4), (0.75, 6.123e-6 + 3.033e-4), (1.00, 2.071e-6 + 2.424e-4),
     (1.50, 6.100e-7 + 1.765e-4), (2.00, 3.524e-7 + 1.502e-4), (3.00, 2.060e-7 + 1.250e-4),
     (5.00, 1.055e-7 + 1.005e-4)] := by
  simp only [doseMap, loadDoseRates, DosePoint.total, List.foldl, assign]
  norm_num [assign]

/-- C324: the program's table: keys increasing, doses decreasing, and the doses at 1 mm and at 3 mm. -/
theorem C324_dose_program :
    Sorted (doseMap loadDoseRates) ∧ Decreasing (doseMap loadDoseRates) ∧
    getDoseRate (doseMap loadDoseRates) 1 = .ok 2.44471e-4 ∧
    getDoseRate (doseMap loadDoseRates) 3 = .ok 1.25206e-4 := by
  have hs : Sorted (doseMap loadDoseRates) := foldl_sorted _ _ List.Pairwise.nil
  refine ⟨hs, ?_, ?_, ?_⟩
  · rw [table_eq]; norm_num [Decreasing]
  · have := C324_dose_node _ hs (1.00, 2.071e-6 + 2.424e-4) (by rw [table_eq]; simp)
    norm_num at this ⊢; exact this
  · have := C324_dose_node _ hs (3.00, 2.060e-7 + 1.250e-4) (by rw [table_eq]; simp)
    norm_num at this ⊢; exact this

example : ∃ m : List (ℝ × ℝ), Sorted m ∧ Decreasing m ∧ m ≠ [] ∧ getDoseRate m 1.25 = .ok (2.107905e-4) :=
  ⟨_, C324_dose_program.1, C324_dose_program.2.1, by rw [table_eq]; simp, by
    have h := C324_dose_linear [(0.10, 2.109e-4 + 1.274e-3), (0.20, 1.076e-4 + 8.624e-4), (0.40, 3.561e-5 + 5.096e-4),
      (0.50, 2.211e-5 + 4.294e-4), (0.75, 6.123e-6 + 3.033e-4)] [(2.00, 3.524e-7 + 1.502e-4),
      (3.00, 2.060e-7 + 1.250e-4), (5.00, 1.055e-7 + 1.005e-4)] (1.00, 2.071e-6 + 2.424e-4)
      (1.50, 6.100e-7 + 1.765e-4) (by have := C324_dose_program.1; rw [table_eq] at this; exact this) (1/2)
      (by norm_num) (by norm_num)
    rw [table_eq]
    norm_num at h ⊢
    exact h⟩

/-! ### C325: the upset probability -/

open Classical in
theorem factor_def (lat lon radius : ℝ) : positionFactor lat lon radius =
    (7000 / radius) ^ 2 * (if inSAA lat lon then 8 else if |lat| > 60 then 3 else 1) := by
  rw [positionFactor]
  split_ifs <;> simp

/-- C325: the position factor is the squared ratio to 7000 km, eight times as high inside the South Atlantic
anomaly (latitude -40..0, longitude -60..30) and otherwise three times as high beyond 60 degrees of latitude. -/
theorem C325_factor_value (lat lon radius : ℝ) :
    ((-40 < lat ∧ lat < 0 ∧ -60 < lon ∧ lon < 30) → positionFactor lat lon radius = 8 * (7000 / radius) ^ 2) ∧
    ((lat > 60 ∨ lat < -60) → positionFactor lat lon radius = 3 * (7000 / radius) ^ 2) ∧
    (¬ (-40 < lat ∧ lat < 0 ∧ -60 < lon ∧ lon < 30) → -60 ≤ lat → lat ≤ 60 →
      positionFactor lat lon radius = (7000 / radius) ^ 2) := by
  rw [factor_def]
  refine ⟨fun h => ?_, fun h => ?_, fun h h1 h2 => ?_⟩
  · rw [if_pos ⟨h.2.1, h.1, h.2.2.1, h.2.2.2⟩]; ring
  · have h1 : ¬ inSAA lat lon := by
      rintro ⟨h1, h2, -⟩
      rcases h with h | h <;> linarith
    have h2 : |lat| > 60 := by
      rcases h with h | h
      · exact lt_of_lt_of_le h (le_abs_self _)
      · exact lt_of_lt_of_le (by linarith) (neg_le_abs lat)
    rw [if_neg h1, if_pos h2]; ring
  · have h3 : ¬ inSAA lat lon := fun ⟨a, b, c, d⟩ => h ⟨b, a, c, d⟩
    have h4 : ¬ |lat| > 60 := not_lt.mpr (abs_le.mpr ⟨h1, h2⟩)
    rw [if_neg h3, if_neg h4, mul_one]

theorem factor_nonneg (lat lon radius : ℝ) : 0 ≤ positionFactor lat lon radius := by
  rw [factor_def]; split_ifs <;> positivity

/-- C325: the factor decreases with the distance from the centre of the Earth. -/
theorem C325_factor_antitone (lat lon r r' : ℝ) (h0 : 0 < r) (h : r ≤ r') :
    positionFactor lat lon r' ≤ positionFactor lat lon r := by
  rw [factor_def, factor_def]
  have h1 : 7000 / r' ≤ 7000 / r := div_le_div_of_nonneg_left (by norm_num) h0 h
  have h2 : (7000 / r') ^ 2 ≤ (7000 / r) ^ 2 :=
    pow_le_pow_left₀ (div_nonneg (by norm_num) (h0.le.trans h)) h1 2
  apply mul_le_mul_of_nonneg_right h2
  split_ifs <;> norm_num

/-- C325: with the program's table the probability at the reference shield of 1 mm is `1e-7` times the position
factor. -/
theorem C325_seu_reference (lat lon radius : ℝ) :
    seuProbability loadDoseRates lat lon radius 1 = .ok (1e-7 * positionFactor lat lon radius) := by
  rw [seuProbability, C324_dose_program.2.2.1]
  show Outcome.bind (Outcome.ok _) _ = _
  simp only [Outcome.bind]
  congr 2
  norm_num

/-- C325: at 3 mm it is about half of that (125206/244471). -/
theorem C325_seu_space (lat lon radius : ℝ) : seuProbability loadDoseRates lat lon radius 3 =
    .ok (1e-7 * (125206 / 244471) * positionFactor lat lon radius) := by
  rw [seuProbability, C324_dose_program.2.2.1, C324_dose_program.2.2.2]
  simp only [Outcome.bind]
  congr 3
  norm_num

/-- C325: for any table with positive decreasing doses, thicker shielding never raises the upset probability, and
the probability is never negative. -/
theorem C325_seu_antitone (ps : List DosePoint) (hd : Decreasing (doseMap ps)) (hpos : ∀ q ∈ doseMap ps, 0 < q.2)
    (hne : doseMap ps ≠ []) (lat lon radius s t : ℝ) (hst : s ≤ t) :
    ∃ p q, seuProbability ps lat lon radius s = .ok p ∧ seuProbability ps lat lon radius t = .ok q ∧
      0 ≤ q ∧ q ≤ p := by
  have hs : Sorted (doseMap ps) := foldl_sorted _ _ List.Pairwise.nil
  have posdose : ∀ x, ∃ y, getDoseRate (doseMap ps) x = .ok y ∧ 0 < y := by
    have hmin : ∃ a, 0 < a ∧ ∀ q ∈ doseMap ps, a ≤ q.2 := by
      generalize doseMap ps = m at hpos
      clear hd hne hs
      induction m with
      | nil => exact ⟨1, one_pos, by simp⟩
      | cons q m ih =>
        obtain ⟨a, ha, h⟩ := ih (fun r hr => hpos r (List.mem_cons_of_mem _ hr))
        refine ⟨min a q.2, lt_min ha (hpos q List.mem_cons_self), ?_⟩
        intro r hr
        rcases List.mem_cons.mp hr with rfl | hr
        · exact min_le_right _ _
        · exact (min_le_left _ _).trans (h r hr)
    have hmax : ∃ b, ∀ q ∈ doseMap ps, q.2 ≤ b := by
      generalize doseMap ps = m
      induction m with
      | nil => exact ⟨0, by simp⟩
      | cons q m ih =>
        obtain ⟨b, h⟩ := ih
        refine ⟨max b q.2, ?_⟩
        intro r hr
        rcases List.mem_cons.mp hr with rfl | hr
        · exact le_max_right _ _
        · exact (h r hr).trans (le_max_left _ _)
    obtain ⟨a, ha, hmin⟩ := hmin
    obtain ⟨b, hmax⟩ := hmax
    intro x
    obtain ⟨y, hy, h1, -⟩ := C324_dose_between _ hs hne a b (fun q hq => ⟨hmin q hq, hmax q hq⟩) x
    exact ⟨y, hy, lt_of_lt_of_le ha h1⟩
  obtain ⟨r, hr, hr0⟩ := posdose 1
  obtain ⟨y, hy, hy0⟩ := posdose s
  obtain ⟨z, hz, hz0⟩ := posdose t
  refine ⟨1e-7 * (y / r) * positionFactor lat lon radius, 1e-7 * (z / r) * positionFactor lat lon radius,
    ?_, ?_, ?_, ?_⟩
  · rw [seuProbability, hr, hy]; rfl
  · rw [seuProbability, hr, hz]; rfl
  · exact mul_nonneg (mul_nonneg (by norm_num) (div_nonneg hz0.le hr0.le)) (factor_nonneg _ _ _)
  · apply mul_le_mul_of_nonneg_right _ (factor_nonneg _ _ _)
    apply mul_le_mul_of_nonneg_left _ (by norm_num)
    exact div_le_div_of_nonneg_right (C324_dose_antitone _ hs hd s t hst y z hy hz) hr0.le

/-- C325 (violated: "Validate against a known test point"): at the test point the comparison passes for every
radius and tolerance, because the expected value is special-cased there; one step beside it, at the same radius,
the model's own formula misses the expected flux by more than the tolerance. -/
theorem C325_validation_violated :
    (∀ radius tolerance : ℝ, 0 ≤ tolerance →
      validateTestPoint (-22.026387) 130.988743 radius 6.00801380e6 tolerance) ∧
    (∀ lat : ℝ, lat ≠ -22.026387 → -60 ≤ lat → lat ≤ 60 →
      ¬ validateTestPoint lat 130.988743 5795.79351 6.00801380e6 0.1) := by
  constructor
  · intro r t ht
    have : electronFlux (-22.026387) 130.988743 r = 6.00801380e6 := by
      rw [electronFlux, if_neg (by simp), mul_one]
    rw [validateTestPoint, this, sub_self, abs_zero, zero_div]
    exact ht
  · intro lat h h1 h2 hv
    have hf : electronFlux lat 130.988743 5795.79351 = 6.00801380e6 * (7000 / 5795.79351) ^ 2 := by
      rw [electronFlux, if_pos (Or.inl h), (C325_factor_value lat 130.988743 5795.79351).2.2 (by norm_num) h1 h2]
    rw [validateTestPoint, hf, abs_of_nonneg (by norm_num)] at hv
    norm_num at hv

example : ∃ p q, seuProbability loadDoseRates (-20) (-30) 7000 1 = .ok p ∧
    seuProbability loadDoseRates (-20) (-30) 7000 3 = .ok q ∧ p = 8e-7 ∧ 0 < q ∧ q < p := by
  refine ⟨_, _, C325_seu_reference _ _ _, C325_seu_space _ _ _, ?_, ?_, ?_⟩ <;>
  · rw [(C325_factor_value (-20) (-30) 7000).1 (by norm_num)]; norm_num

example : ∀ q ∈ doseMap loadDoseRates, 0 < q.2 := by rw [table_eq]; norm_num

/-! ### C326: the bit errors -/

/-- Specification: the state of the generator after `i + 1` steps. -/
def after (seed : BitVec 64) : Nat → BitVec 64
  | 0 => lcg seed
  | i + 1 => lcg (after seed i)

/-- Specification: the number (of ten million) drawn for bit `i`. -/
def drawn (seed : BitVec 64) (i : Nat) : Nat := (after seed i).toNat % 10000000

theorem errors_inv {w : Nat} (v : BitVec w) (p : ℝ) (seed : BitVec 64) (n : Nat) (hn : n ≤ w) :
    ∀ r, r = forN n (fun i (st : BitVec w × BitVec 64) =>
      (if ((lcg st.2).toNat % 10000000 : Nat) / (10000000 : ℝ) < p then st.1 ^^^ (1#w <<< i) else st.1,
       lcg st.2)) (v, seed) →
    lcg r.2 = after seed n ∧
    ∀ j, j < w → (r.1.getLsbD j = true ↔
      (v.getLsbD j = true ↔ ¬ (j < n ∧ (drawn seed j : ℝ) / 10000000 < p))) := by
  induction n with
  | zero => rintro r rfl; exact ⟨rfl, fun j _ => by simp [forN]⟩
  | succ n ih =>
    obtain ⟨h2, h3⟩ := ih (by omega) _ rfl
    rintro r rfl
    rw [forN]
    generalize forN n _ _ = s at h2 h3
    obtain ⟨b, g⟩ := s
    dsimp only at h2 h3 ⊢
    rw [h2]
    refine ⟨rfl, fun j hj => ?_⟩
    have hd : ((after seed n).toNat % 10000000 : Nat) = drawn seed n := rfl
    rw [hd]
    by_cases hp : (drawn seed n : ℝ) / 10000000 < p
    · rw [if_pos hp, BitVec.getLsbD_xor]
      have one : (1#w <<< n).getLsbD j = decide (j = n) := by
        rw [BitVec.getLsbD_shiftLeft, BitVec.getLsbD_one]
        have : 0 < w := by omega
        by_cases hjn : j = n
        · subst hjn; simp [hj, this]
        · by_cases hlt : j < n
          · simp [hlt, hjn]
          · have : j - n ≠ 0 := by omega
            simp [hjn, this]
      rw [one]
      by_cases hjn : j = n
      · subst hjn
        have := h3 j hj
        simp only [lt_irrefl, false_and, not_false_eq_true, iff_true] at this
        have hb : b.getLsbD j = v.getLsbD j := Bool.eq_iff_iff.mpr this
        rw [hb]
        cases v.getLsbD j <;> simp [hp]
      · have e : (j < n + 1) ↔ (j < n) := by omega
        rw [e]
        simp only [hjn, decide_false, Bool.xor_false]
        exact h3 j hj
    · rw [if_neg hp]
      refine (h3 j hj).trans ?_
      by_cases hjn : j = n
      · subst hjn; simp [hp]
      · have e : (j < n + 1) ↔ (j < n) := by omega
        rw [e]

/-- C326: bit `j` of the result differs from bit `j` of the value exactly if the number drawn for that bit is
below the probability. -/
theorem C326_errors_bit {w : Nat} (v : BitVec w) (p : ℝ) (seed : BitVec 64) (j : Nat) (hj : j < w) :
    (applyBitErrors v p seed).getLsbD j ≠ v.getLsbD j ↔ (drawn seed j : ℝ) / 10000000 < p := by
  have := (errors_inv v p seed w (le_refl _) _ rfl).2 j hj
  rw [applyBitErrors]
  simp only [hj, true_and] at this
  rw [ne_eq, Bool.eq_iff_iff, this]
  by_cases h : (drawn seed j : ℝ) / 10000000 < p <;> cases v.getLsbD j <;> simp [h]

/-- C326: the error pattern does not depend on the value. -/
theorem C326_errors_value {w : Nat} (v u : BitVec w) (p : ℝ) (seed : BitVec 64) :
    applyBitErrors v p seed ^^^ v = applyBitErrors u p seed ^^^ u := by
  apply BitVec.eq_of_getLsbD_eq
  intro j hj
  rw [BitVec.getLsbD_xor, BitVec.getLsbD_xor]
  have h1 := C326_errors_bit v p seed j hj
  have h2 := C326_errors_bit u p seed j hj
  rw [← h2] at h1
  revert h1
  cases (applyBitErrors v p seed).getLsbD j <;> cases v.getLsbD j <;>
    cases (applyBitErrors u p seed).getLsbD j <;> cases u.getLsbD j <;> simp

/-- C326: the value is unchanged exactly if every number drawn is at least the probability. -/
theorem C326_errors_none {w : Nat} (v : BitVec w) (p : ℝ) (seed : BitVec 64) :
    applyBitErrors v p seed = v ↔ ∀ j, j < w → p ≤ (drawn seed j : ℝ) / 10000000 := by
  constructor
  · intro h j hj
    by_contra hc
    exact (C326_errors_bit v p seed j hj).mpr (not_le.mp hc) (by rw [h])
  · intro h
    apply BitVec.eq_of_getLsbD_eq
    intro j hj
    by_contra hc
    exact absurd ((C326_errors_bit v p seed j hj).mp hc) (not_lt.mpr (h j hj))

/-- C326: with the same seed, a higher probability flips every bit that a lower one flips. -/
theorem C326_errors_monotone {w : Nat} (v : BitVec w) (p q : ℝ) (hpq : p ≤ q) (seed : BitVec 64) (j : Nat)
    (hj : j < w) (h : (applyBitErrors v p seed).getLsbD j ≠ v.getLsbD j) :
    (applyBitErrors v q seed).getLsbD j ≠ v.getLsbD j :=
  (C326_errors_bit v q seed j hj).mpr (lt_of_lt_of_le ((C326_errors_bit v p seed j hj).mp h) hpq)

/-- C326: probability zero changes nothing, probability one inverts every bit. -/
theorem C326_errors_extremes {w : Nat} (v : BitVec w) (seed : BitVec 64) :
    applyBitErrors v 0 seed = v ∧ applyBitErrors v 1 seed = ~~~ v := by
  constructor
  · rw [C326_errors_none]; intro j _; positivity
  · apply BitVec.eq_of_getLsbD_eq
    intro j hj
    have : (drawn seed j : ℝ) / 10000000 < 1 := by
      rw [div_lt_one (by norm_num)]
      have : drawn seed j < 10000000 := Nat.mod_lt _ (by norm_num)
      exact_mod_cast this
    have := (C326_errors_bit v 1 seed j hj).mpr this
    rw [BitVec.getLsbD_not]
    simp only [hj, decide_true, Bool.true_and]
    revert this
    cases (applyBitErrors v 1 seed).getLsbD j <;> cases v.getLsbD j <;> simp

/-- C326 (violated: flips happen "with the given probability"): the numbers drawn are multiples of one in ten
million, so all probabilities between two neighbouring multiples give the same errors: every probability up to
`1e-7`, however small, acts as `1e-7`. -/
theorem C326_errors_granularity_violated {w : Nat} (v : BitVec w) (seed : BitVec 64) (k : Nat) (p q : ℝ)
    (hp : (k : ℝ) / 10000000 < p ∧ p ≤ (k + 1 : ℝ) / 10000000)
    (hq : (k : ℝ) / 10000000 < q ∧ q ≤ (k + 1 : ℝ) / 10000000) :
    applyBitErrors v p seed = applyBitErrors v q seed := by
  have key : ∀ j x, (k : ℝ) / 10000000 < x → x ≤ (k + 1 : ℝ) / 10000000 →
      ((drawn seed j : ℝ) / 10000000 < x ↔ drawn seed j ≤ k) := by
    intro j x h1 h2
    constructor
    · intro h
      have h3 := lt_of_lt_of_le h h2
      rw [div_lt_div_iff_of_pos_right (by norm_num)] at h3
      have : drawn seed j < k + 1 := by exact_mod_cast h3
      omega
    · intro h
      refine lt_of_le_of_lt ?_ h1
      apply div_le_div_of_nonneg_right _ (by norm_num)
      exact_mod_cast h
  apply BitVec.eq_of_getLsbD_eq
  intro j hj
  have h1 := C326_errors_bit v p seed j hj
  have h2 := C326_errors_bit v q seed j hj
  rw [key j p hp.1 hp.2] at h1
  rw [key j q hq.1 hq.2] at h2
  rw [← h2] at h1
  revert h1
  cases (applyBitErrors v p seed).getLsbD j <;> cases (applyBitErrors v q seed).getLsbD j <;>
    cases v.getLsbD j <;> simp

example : ((0 : Nat) : ℝ) / 10000000 < 1e-9 ∧ (1e-9 : ℝ) ≤ ((0 : Nat) + 1 : ℝ) / 10000000 ∧
    ((0 : Nat) : ℝ) / 10000000 < 1e-7 ∧ (1e-7 : ℝ) ≤ ((0 : Nat) + 1 : ℝ) / 10000000 := by norm_num

/-! ### C327: the voter of the program -/

variable {α : Type _}

/-- The object after the three calls of `corrupt`. -/
theorem corrupt3 (crc : α → BitVec 32) (v a b c : α) :
    (((Tmr.new crc v).corrupt 0 a).corrupt 1 b).corrupt 2 c =
      ⟨fun k => if k.val = 2 then c else if k.val = 1 then b else a, fun _ => crc v⟩ := by
  simp only [Tmr.new, Tmr.corrupt]
  norm_num
  funext k
  match k with
  | 0 => rfl
  | 1 => rfl
  | 2 => rfl

/-- C327: `corrupt` with any index other than 0, 1, 2 has no effect, with one of them it replaces that copy. -/
theorem C327_corrupt_index (t : Tmr α) (index : Int) (v : α) :
    (index < 0 ∨ 3 ≤ index → t.corrupt index v = t) ∧
    (∀ k : Fin 3, (t.corrupt k.val v).values k = v ∧
      ∀ j : Fin 3, j ≠ k → (t.corrupt k.val v).values j = t.values j) := by
  refine ⟨fun h => ?_, fun k => ?_⟩
  · rw [Tmr.corrupt, if_neg (by omega)]
  · have hk : (k.val : Int) ≥ 0 ∧ (k.val : Int) < 3 := ⟨by omega, by omega⟩
    rw [Tmr.corrupt, if_pos hk]
    refine ⟨by simp, fun j hj => ?_⟩
    have : ¬ ((j.val : Int) = (k.val : Int)) := fun h => hj (Fin.ext (by exact_mod_cast h))
    simp [this]

theorem get_eq (eq : α → α → Bool) (crc : α → BitVec 32) (hinj : ∀ x y, crc x = crc y → x = y) (v a b c : α)
    (hrefl : eq v v = true) :
    ((a = v ∨ b = v ∨ c = v) →
      ((((Tmr.new crc v).corrupt 0 a).corrupt 1 b).corrupt 2 c).get eq crc = v) ∧
    (¬ (a = v ∨ b = v ∨ c = v) →
      ((((Tmr.new crc v).corrupt 0 a).corrupt 1 b).corrupt 2 c).get eq crc = vote eq a b c) := by
  rw [corrupt3, Tmr.get]
  have hb : ∀ x, (crc x == crc v) = true ↔ x = v := fun x => by
    rw [beq_iff_eq]; exact ⟨hinj x v, fun h => by rw [h]⟩
  have e0 : (fun k : Fin 3 => if k.val = 2 then c else if k.val = 1 then b else a) 0 = a := rfl
  have e1 : (fun k : Fin 3 => if k.val = 2 then c else if k.val = 1 then b else a) 1 = b := rfl
  have e2 : (fun k : Fin 3 => if k.val = 2 then c else if k.val = 1 then b else a) 2 = c := rfl
  simp only [Fin.isValue] at e0 e1 e2 ⊢
  simp only [e0, e1, e2]
  have hf : ∀ x, x ≠ v → (crc x == crc v) = false := fun x hx => by
    rw [← Bool.not_eq_true, hb]; exact hx
  have ht : (crc v == crc v) = true := (hb v).mpr rfl
  by_cases ha : a = v <;> by_cases hbv : b = v <;> by_cases hc : c = v <;>
    simp [ha, hbv, hc, hf, vote, hrefl]

/-- C327: if at least one of the three copies still holds the stored value, the read returns that value (values of
up to four bytes, where the checksum identifies the value). -/
theorem C327_read_intact {n : Nat} (hn : n ≤ 4) (eq : BitVec (8 * n) → BitVec (8 * n) → Bool)
    (v a b c : BitVec (8 * n)) (hrefl : eq v v = true) (h : a = v ∨ b = v ∨ c = v) :
    ((((Tmr.new (Crc.crcOfValue n) v).corrupt 0 a).corrupt 1 b).corrupt 2 c).get eq (Crc.crcOfValue n) = v :=
  (get_eq eq _ (fun _ _ h => crcOfValue_inj hn h) v a b c hrefl).1 h

/-- C327 (limit): with all three copies damaged the read falls back to the equality vote, so two copies with the
same damage outvote everything, without any notice. -/
theorem C327_read_common_limit {n : Nat} (hn : n ≤ 4) (eq : BitVec (8 * n) → BitVec (8 * n) → Bool)
    (v a c : BitVec (8 * n)) (hrefl : ∀ x, eq x x = true) (ha : a ≠ v) (hc : c ≠ v) :
    ((((Tmr.new (Crc.crcOfValue n) v).corrupt 0 a).corrupt 1 a).corrupt 2 c).get eq (Crc.crcOfValue n) = a := by
  rw [(get_eq eq _ (fun _ _ h => crcOfValue_inj hn h) v a a c (hrefl v)).2 (by simp [ha, hc]), vote, hrefl a]
  rfl

theorem vote_mem (eq : α → α → Bool) (a b c : α) : vote eq a b c = a ∨ vote eq a b c = b := by
  rw [vote]; split_ifs <;> simp

/-- C327: a trial succeeds exactly if at least one of its three copies got no bit error. -/
theorem C327_trial_iff (eq : BitVec 32 → BitVec 32 → Bool) (v : BitVec 32) (heq : ∀ x, eq x v = true ↔ x = v) (p : ℝ)
    (i : Nat) : trial eq v p i = true ↔
      ∃ k, k < 3 ∧ ∀ j, j < 32 → p ≤ (drawn (BitVec.ofNat 64 (i + 100 * k)) j : ℝ) / 10000000 := by
  have hcopy : (applyBitErrors v p (BitVec.ofNat 64 i) = v ∨ applyBitErrors v p (BitVec.ofNat 64 (i + 100)) = v ∨
      applyBitErrors v p (BitVec.ofNat 64 (i + 200)) = v) ↔
      ∃ k, k < 3 ∧ ∀ j, j < 32 → p ≤ (drawn (BitVec.ofNat 64 (i + 100 * k)) j : ℝ) / 10000000 := by
    rw [C326_errors_none, C326_errors_none, C326_errors_none]
    constructor
    · rintro (h | h | h)
      · exact ⟨0, by omega, h⟩
      · exact ⟨1, by omega, h⟩
      · exact ⟨2, by omega, h⟩
    · rintro ⟨k, hk, h⟩
      match k, hk with
      | 0, _ => exact .inl h
      | 1, _ => exact .inr (.inl h)
      | 2, _ => exact .inr (.inr h)
  rw [← hcopy, trial, heq]
  have hinj : ∀ x y : BitVec 32, Crc.crcOfValue 4 x = Crc.crcOfValue 4 y → x = y :=
    fun x y h => crcOfValue_inj (le_refl 4) h
  have hg := get_eq eq (Crc.crcOfValue 4) hinj v (applyBitErrors v p (BitVec.ofNat 64 i))
    (applyBitErrors v p (BitVec.ofNat 64 (i + 100))) (applyBitErrors v p (BitVec.ofNat 64 (i + 200)))
    ((heq v).mpr rfl)
  constructor
  · intro h
    by_contra hc
    have h2 := hg.2 hc
    rcases vote_mem eq (applyBitErrors v p (BitVec.ofNat 64 i)) (applyBitErrors v p (BitVec.ofNat 64 (i + 100)))
      (applyBitErrors v p (BitVec.ofNat 64 (i + 200))) with h3 | h3
    · exact hc (.inl ((h3.symm.trans h2.symm).trans h))
    · exact hc (.inr (.inl ((h3.symm.trans h2.symm).trans h)))
  · exact hg.1

theorem successes_succ (eq : BitVec 32 → BitVec 32 → Bool) (conv : Nat → BitVec 32) (p : ℝ) (n : Nat) :
    successes eq conv p (n + 1) =
      if trial eq (conv (n * 17 + 42)) p n = true then successes eq conv p n + 1 else successes eq conv p n := by
  rw [successes, forN, ← successes]

theorem successes_zero (eq : BitVec 32 → BitVec 32 → Bool) (conv : Nat → BitVec 32) (p : ℝ) :
    successes eq conv p 0 = 0 := by rw [successes, forN]

theorem successes_le (eq : BitVec 32 → BitVec 32 → Bool) (conv : Nat → BitVec 32) (p q : ℝ) (n : Nat)
    (h : ∀ i, i < n → trial eq (conv (i * 17 + 42)) p i = true → trial eq (conv (i * 17 + 42)) q i = true) :
    successes eq conv p n ≤ successes eq conv q n := by
  induction n with
  | zero => rw [successes_zero]; exact Nat.zero_le _
  | succ n ih =>
    have h1 := ih (fun i hi => h i (by omega))
    have h2 := h n (by omega)
    rw [successes_succ, successes_succ]
    by_cases hp : trial eq (conv (n * 17 + 42)) p n = true
    · rw [if_pos hp, if_pos (h2 hp)]; exact Nat.succ_le_succ h1
    · rw [if_neg hp]
      by_cases hq : trial eq (conv (n * 17 + 42)) q n = true
      · rw [if_pos hq]; exact Nat.le_succ_of_le h1
      · rw [if_neg hq]; exact h1

/-- Specification: the stored originals can be compared exactly (for `float`: neither NaN nor zero). -/
def Comparable (eq : BitVec 32 → BitVec 32 → Bool) (conv : Nat → BitVec 32) : Prop :=
  ∀ i x, eq x (conv (i * 17 + 42)) = true ↔ x = conv (i * 17 + 42)

/-- C327: IEEE comparison against a number that is neither NaN nor zero is exact. -/
theorem C327_float_comparable (v : BitVec 32) (hn : Spec.f32isNaN v = false) (hz : Spec.f32isZero v = false)
    (x : BitVec 32) : Spec.f32eq x v = true ↔ x = v := by
  rw [Spec.f32eq, hn, hz]
  constructor
  · intro h
    simp at h
    exact h.2
  · rintro rfl
    simp [hn]

/-- C327: a lower upset probability never lowers the number of successful trials. -/
theorem C327_successes_antitone (eq : BitVec 32 → BitVec 32 → Bool) (conv : Nat → BitVec 32) (hc : Comparable eq conv)
    (p q : ℝ) (h : p ≤ q) (n : Nat) : successes eq conv q n ≤ successes eq conv p n := by
  apply successes_le
  intro i _ ht
  rw [C327_trial_iff _ _ (hc i)] at ht ⊢
  obtain ⟨k, hk, h1⟩ := ht
  exact ⟨k, hk, fun j hj => h.trans (h1 j hj)⟩

theorem successes_bound (eq : BitVec 32 → BitVec 32 → Bool) (conv : Nat → BitVec 32) (p : ℝ) (n : Nat) :
    successes eq conv p n ≤ n := by
  induction n with
  | zero => rw [successes_zero]
  | succ n ih =>
    rw [successes_succ]
    by_cases hp : trial eq (conv (n * 17 + 42)) p n = true
    · rw [if_pos hp]; exact Nat.succ_le_succ ih
    · rw [if_neg hp]; exact Nat.le_succ_of_le ih

theorem seu_three (lat lon radius : ℝ) : seuProbability loadDoseRates lat lon radius (1 * 3) =
    .ok (1e-7 * (125206 / 244471) * positionFactor lat lon radius) := by
  rw [one_mul]; exact C325_seu_space lat lon radius

theorem rates_eq (eq : BitVec 32 → BitVec 32 → Bool) (conv : Nat → BitVec 32) (lat lon radius : ℝ) :
    testAtPosition eq conv loadDoseRates lat lon radius =
      .ok ((successes eq conv (1e-7 * positionFactor lat lon radius) 1000 : ℝ) / 1000 * 100,
        (successes eq conv (1e-7 * (125206 / 244471) * positionFactor lat lon radius) 1000 : ℝ) / 1000 * 100) := by
  rw [testAtPosition, C325_seu_reference, seu_three]
  rfl

/-- C327: at every position the reported rates are percentages, and the "space-optimized" one is at least the
"standard" one. -/
theorem C327_rates_ordered (eq : BitVec 32 → BitVec 32 → Bool) (conv : Nat → BitVec 32) (hc : Comparable eq conv)
    (lat lon radius : ℝ) : ∃ standard space : ℝ,
      testAtPosition eq conv loadDoseRates lat lon radius = .ok (standard, space) ∧
      0 ≤ standard ∧ standard ≤ space ∧ space ≤ 100 := by
  refine ⟨_, _, rates_eq eq conv lat lon radius, by positivity, ?_, ?_⟩
  · have := C327_successes_antitone eq conv hc (1e-7 * (125206 / 244471) * positionFactor lat lon radius)
      (1e-7 * positionFactor lat lon radius)
      (mul_le_mul_of_nonneg_right (by norm_num) (factor_nonneg _ _ _)) 1000
    have : (successes eq conv (1e-7 * positionFactor lat lon radius) 1000 : ℝ) ≤
      (successes eq conv (1e-7 * (125206 / 244471) * positionFactor lat lon radius) 1000 : ℝ) := by
      exact_mod_cast this
    linarith
  · have := successes_bound eq conv (1e-7 * (125206 / 244471) * positionFactor lat lon radius) 1000
    have : (successes eq conv (1e-7 * (125206 / 244471) * positionFactor lat lon radius) 1000 : ℝ) ≤ 1000 := by
      exact_mod_cast this
    linarith

/-- The floats 42.0 and 59.0. -/
example : Spec.f32isNaN 0x42280000#32 = false ∧ Spec.f32isZero 0x42280000#32 = false ∧
    Spec.f32isNaN 0x426C0000#32 = false ∧ Spec.f32isZero 0x426C0000#32 = false := by decide +kernel

example : Comparable Spec.f32eq (fun k => if k < 50 then 0x42280000#32 else 0x426C0000#32) := by
  intro i x
  dsimp only
  split_ifs
  · exact C327_float_comparable _ (by decide +kernel) (by decide +kernel) x
  · exact C327_float_comparable _ (by decide +kernel) (by decide +kernel) x

example : ((((Tmr.new (Crc.crcOfValue 4) 0x42280000#32).corrupt 0 0x42280001#32).corrupt 1 0x42280001#32).corrupt 2
    0x42280000#32).get Spec.f32eq (Crc.crcOfValue 4) = 0x42280000#32 :=
  C327_read_intact (n := 4) (le_refl 4) Spec.f32eq 0x42280000#32 0x42280001#32 0x42280001#32 0x42280000#32
    (by decide +kernel) (.inr (.inr rfl))

/-! ### C329: the whole program -/

/-- One step of the generator on natural numbers. -/
def nx (r : Nat) : Nat := (r * 6364136223846793005 + 1442695040888963407) % 2 ^ 64

/-- All draws of one seed, on natural numbers. -/
def scan : Nat → Nat → Nat → Bool
  | 0, _, _ => true
  | k + 1, r, lim => (Nat.ble lim (nx r % 10000000)) && scan k (nx r) lim

/-- The seeds `0 .. n-1`, except 327. -/
def scanAll : Nat → Nat → Bool
  | 0, _ => true
  | n + 1, lim => (Nat.beq n 327 || scan 32 n lim) && scanAll n lim

theorem scanned : scanAll 1200 258 = true := by decide +kernel

theorem lcg_nx (r : BitVec 64) : (lcg r).toNat = nx r.toNat := by
  rw [nx, lcg, BitVec.toNat_add, BitVec.toNat_mul, BitVec.toNat_ofNat, BitVec.toNat_ofNat, Nat.add_mod_mod,
    Nat.mod_add_mod, Nat.mod_eq_of_lt (show 6364136223846793005 < 2 ^ 64 by norm_num)]

theorem after_lcg (r : BitVec 64) (j : Nat) : after (lcg r) j = after r (j + 1) := by
  induction j with
  | zero => rw [after, after, after]
  | succ j ih =>
    have e : ∀ r, after r (j + 1) = lcg (after r j) := fun r => by rw [after]
    have e' : after r (j + 1 + 1) = lcg (after r (j + 1)) := by rw [after]
    rw [e (lcg r), ih, ← e']

theorem scan_spec (k : Nat) (r : BitVec 64) (lim : Nat) (h : scan k r.toNat lim = true) :
    ∀ j, j < k → lim ≤ drawn r j := by
  induction k generalizing r with
  | zero => intro j hj; omega
  | succ k ih =>
    rw [scan, ← lcg_nx r, Bool.and_eq_true] at h
    intro j hj
    cases j with
    | zero => rw [drawn, after]; exact Nat.le_of_ble_eq_true h.1
    | succ j =>
      have := ih (lcg r) h.2 j (by omega)
      rw [drawn, after_lcg] at this
      rw [drawn]; exact this

theorem scanAll_spec (n lim : Nat) (h : scanAll n lim = true) : ∀ s, s < n → s ≠ 327 → scan 32 s lim = true := by
  induction n with
  | zero => intro s hs; omega
  | succ n ih =>
    rw [scanAll, Bool.and_eq_true, Bool.or_eq_true] at h
    intro s hs hne
    rcases Nat.lt_succ_iff_lt_or_eq.mp hs with hs | rfl
    · exact ih h.2 s hs hne
    · rcases h.1 with h1 | h1
      · exact absurd (Nat.eq_of_beq_eq_true h1) hne
      · exact h1

theorem quiet_of (n lim : Nat) (h : scanAll n lim = true) (hn : n ≤ 100000) (s : Nat) (hs : s < n) (hne : s ≠ 327)
    (j : Nat) (hj : j < 32) : lim ≤ drawn (BitVec.ofNat 64 s) j := by
  have h1 := scanAll_spec n lim h s hs hne
  have e : (BitVec.ofNat 64 s).toNat = s := by
    rw [BitVec.toNat_ofNat]; exact Nat.mod_eq_of_lt (lt_of_lt_of_le hs (hn.trans (by norm_num)))
  rw [← e] at h1
  exact scan_spec 32 (BitVec.ofNat 64 s) lim h1 j hj

theorem quiet (s : Nat) (hs : s < 1200) (hne : s ≠ 327) (j : Nat) (hj : j < 32) :
    258 ≤ drawn (BitVec.ofNat 64 s) j := quiet_of 1200 258 scanned (by norm_num) s hs hne j hj

theorem trial_quiet (eq : BitVec 32 → BitVec 32 → Bool) (v : BitVec 32) (heq : ∀ x, eq x v = true ↔ x = v) (p : ℝ)
    (hp : p ≤ 258e-7) (i : Nat) (hi : i < 1000) : trial eq v p i = true := by
  rw [C327_trial_iff eq v heq]
  have lift : ∀ s, s < 1200 → s ≠ 327 → ∀ j, j < 32 → p ≤ (drawn (BitVec.ofNat 64 s) j : ℝ) / 10000000 := by
    intro s hs hne j hj
    have h1 : (258 : ℝ) ≤ (drawn (BitVec.ofNat 64 s) j : ℝ) := by exact_mod_cast quiet s hs hne j hj
    have h2 : (258 : ℝ) / 10000000 ≤ (drawn (BitVec.ofNat 64 s) j : ℝ) / 10000000 :=
      div_le_div_of_nonneg_right h1 (by norm_num)
    refine le_trans (hp.trans ?_) h2
    norm_num
  by_cases h : i = 327
  · exact ⟨1, by omega, lift _ (by omega) (by omega)⟩
  · exact ⟨0, by omega, lift _ (by omega) (by omega)⟩

theorem successes_quiet (eq : BitVec 32 → BitVec 32 → Bool) (conv : Nat → BitVec 32) (hc : Comparable eq conv)
    (p : ℝ) (hp : p ≤ 258e-7) (n : Nat) (hn : n ≤ 1000) : successes eq conv p n = n := by
  induction n with
  | zero => exact successes_zero _ _ _
  | succ n ih => rw [successes_succ, if_pos (trial_quiet eq _ (hc n) p hp n (by omega)), ih (by omega)]

/-- C329 (violated: "The space-optimized TMR implementation shows significant advantages in high-radiation
environments, particularly in the South Atlantic Anomaly and polar regions. The test confirms ..."): at every
position above 1300 km from the centre of the Earth (so everywhere outside it, anomaly and poles included) both
rates are exactly 100 %: the fixed seeds of the trials draw no upset that reaches two copies, and the test cannot
tell the two variants apart. -/
theorem C329_comparison_violated (eq : BitVec 32 → BitVec 32 → Bool) (conv : Nat → BitVec 32) (hc : Comparable eq conv)
    (lat lon radius : ℝ) (hr : 1300 ≤ radius) :
    testAtPosition eq conv loadDoseRates lat lon radius = .ok (100, 100) := by
  have hf : positionFactor lat lon radius ≤ 258 := by
    refine (C325_factor_antitone lat lon 1300 radius (by norm_num) hr).trans ?_
    rw [factor_def]
    split_ifs <;> norm_num
  have hf0 := factor_nonneg lat lon radius
  rw [rates_eq, successes_quiet eq conv hc _ (by norm_num; linarith) 1000 (le_refl _),
    successes_quiet eq conv hc _ (by norm_num; linarith) 1000 (le_refl _)]
  norm_num

/-- C329: yet the anomaly does draw upsets: bit 26 with the seed 327 flips there at 7000 km. -/
theorem C329_upset_exists (v : BitVec 32) :
    (applyBitErrors v (1e-7 * positionFactor (-20) (-30) 7000) (BitVec.ofNat 64 327)).getLsbD 26 ≠ v.getLsbD 26 := by
  rw [C326_errors_bit v _ _ 26 (by norm_num), (C325_factor_value (-20) (-30) 7000).1 (by norm_num)]
  have : drawn (BitVec.ofNat 64 327) 26 = 4 := by decide +kernel
  rw [this]
  norm_num

/-! ### C328: the orbit -/

/-- C328: the rotation keeps the distance: the reported radius is the radius of the orbit equation. -/
theorem C328_radius_eq (a ecc inc raan argp nu : ℝ) :
    (radiusLat a ecc inc raan argp nu).1 = |orbitRadius a ecc nu| := by
  rw [radiusLat, rotate, ← Real.sqrt_sq_eq_abs]
  dsimp only
  congr 1
  have h1 := Real.sin_sq_add_cos_sq nu
  have h2 := Real.sin_sq_add_cos_sq (argp + nu)
  have h3 := Real.sin_sq_add_cos_sq raan
  have h4 := Real.sin_sq_add_cos_sq inc
  generalize Real.sin nu = sn at *
  generalize Real.cos nu = cn at *
  generalize Real.sin (argp + nu) = su at *
  generalize Real.cos (argp + nu) = cu at *
  generalize Real.sin raan = sr at *
  generalize Real.cos raan = cr at *
  generalize Real.sin inc = si at *
  generalize Real.cos inc = ci at *
  generalize orbitRadius a ecc nu = r
  have e1 : ∀ P Q : ℝ, (P * cr - Q * ci * sr) * (P * cr - Q * ci * sr) +
      (P * sr + Q * ci * cr) * (P * sr + Q * ci * cr) + (Q * si) * (Q * si) = P ^ 2 + Q ^ 2 := by
    intro P Q
    linear_combination (P ^ 2 + Q ^ 2 * ci ^ 2) * h3 + Q ^ 2 * h4
  have e2 := e1 (r * (cn * cu - sn * su)) (r * (cn * su + sn * cu))
  have e3 : (r * (cn * cu - sn * su)) ^ 2 + (r * (cn * su + sn * cu)) ^ 2 = r ^ 2 := by
    linear_combination r ^ 2 * (su ^ 2 + cu ^ 2) * h1 + r ^ 2 * h2
  rw [e3] at e2
  rw [← e2]
  ring

/-- C328 (violated: the geocentric latitude of a point with true anomaly `nu` is
`asin(sin(inclination) * sin(argument of perigee + nu))`): the program turns the position by the true anomaly twice,
so the latitude is the one of the anomaly `2 nu`. -/
theorem C328_latitude_violated (a ecc inc raan argp nu : ℝ) (hr : 0 < orbitRadius a ecc nu) :
    (radiusLat a ecc inc raan argp nu).2 =
      Real.arcsin (Real.sin inc * Real.sin (argp + 2 * nu)) * 180 / Real.pi := by
  have h := C328_radius_eq a ecc inc raan argp nu
  rw [abs_of_pos hr] at h
  have e : (radiusLat a ecc inc raan argp nu).2 =
      Real.arcsin ((rotate inc raan (argp + nu) (orbitRadius a ecc nu * Real.cos nu)
        (orbitRadius a ecc nu * Real.sin nu)).2.2 / (radiusLat a ecc inc raan argp nu).1) * 180 / Real.pi := rfl
  rw [e, h, rotate]
  dsimp only
  have hs : Real.sin (argp + 2 * nu) = Real.sin (argp + nu) * Real.cos nu + Real.cos (argp + nu) * Real.sin nu := by
    rw [← Real.sin_add]; congr 1; ring
  have : (orbitRadius a ecc nu * Real.cos nu * Real.sin (argp + nu) * Real.sin inc +
      orbitRadius a ecc nu * Real.sin nu * Real.cos (argp + nu) * Real.sin inc) / orbitRadius a ecc nu =
      Real.sin inc * Real.sin (argp + 2 * nu) := by
    rw [hs]; field_simp
  rw [this]

/-- C328 (violated): with the program's elements a point a quarter turn after perigee, truly in the northern
hemisphere, is reported in the southern one. -/
theorem C328_hemisphere_violated (a ecc : ℝ) (hr : 0 < orbitRadius a ecc (Real.pi / 2)) :
    (radiusLat a ecc (22 * Real.pi / 180) (0 * Real.pi / 180) (45 * Real.pi / 180) (Real.pi / 2)).2 < 0 ∧
    0 < Real.arcsin (Real.sin (22 * Real.pi / 180) * Real.sin (45 * Real.pi / 180 + Real.pi / 2)) := by
  have hpi := Real.pi_pos
  have hi : 0 < Real.sin (22 * Real.pi / 180) := Real.sin_pos_of_pos_of_lt_pi (by linarith) (by linarith)
  constructor
  · rw [C328_latitude_violated _ _ _ _ _ _ hr]
    have h1 : Real.sin (45 * Real.pi / 180 + 2 * (Real.pi / 2)) = - Real.sin (45 * Real.pi / 180) := by
      rw [← Real.sin_add_pi]; congr 1; ring
    have h2 : 0 < Real.sin (45 * Real.pi / 180) := Real.sin_pos_of_pos_of_lt_pi (by linarith) (by linarith)
    have : Real.arcsin (Real.sin (22 * Real.pi / 180) * Real.sin (45 * Real.pi / 180 + 2 * (Real.pi / 2))) < 0 := by
      rw [Real.arcsin_lt_zero, h1]; nlinarith
    exact div_neg_of_neg_of_pos (by linarith) hpi
  · rw [Real.arcsin_pos]
    apply mul_pos hi
    rw [Real.sin_add_pi_div_two]
    exact Real.cos_pos_of_mem_Ioo ⟨by linarith, by linarith⟩

theorem arcsin_abs_le (inc s : ℝ) (h0 : 0 ≤ inc) (h1 : inc ≤ Real.pi / 2) (hs : |s| ≤ 1) :
    |Real.arcsin (Real.sin inc * s)| ≤ inc := by
  have hsi : 0 ≤ Real.sin inc := Real.sin_nonneg_of_nonneg_of_le_pi h0 (by linarith [Real.pi_pos])
  have hb := abs_le.mp hs
  have e : Real.arcsin (Real.sin inc) = inc := Real.arcsin_sin (by linarith [Real.pi_pos]) h1
  rw [abs_le]
  constructor
  · have : Real.arcsin (-Real.sin inc) ≤ Real.arcsin (Real.sin inc * s) :=
      Real.arcsin_le_arcsin (by nlinarith)
    rw [Real.arcsin_neg, e] at this
    exact this
  · have : Real.arcsin (Real.sin inc * s) ≤ Real.arcsin (Real.sin inc) :=
      Real.arcsin_le_arcsin (by nlinarith)
    rw [e] at this
    exact this

/-- C328: for every inclination up to 90 degrees the reported latitude never exceeds the inclination. -/
theorem C328_latitude_le (a ecc inc raan argp nu : ℝ) (hr : 0 < orbitRadius a ecc nu) (h0 : 0 ≤ inc)
    (h1 : inc ≤ Real.pi / 2) : |(radiusLat a ecc inc raan argp nu).2| ≤ inc * 180 / Real.pi := by
  rw [C328_latitude_violated _ _ _ _ _ _ hr]
  have h := arcsin_abs_le inc (Real.sin (argp + 2 * nu)) h0 h1 (Real.abs_sin_le_one _)
  rw [abs_div, abs_mul, abs_of_pos Real.pi_pos, abs_of_pos (show (0 : ℝ) < 180 by norm_num)]
  apply div_le_div_of_nonneg_right _ Real.pi_pos.le
  linarith

/-- C328: on an ellipse the distance stays between perigee and apogee. -/
theorem C328_radius_between (a ecc nu : ℝ) (ha : 0 < a) (h0 : 0 ≤ ecc) (h1 : ecc < 1) :
    a * (1 - ecc) ≤ orbitRadius a ecc nu ∧ orbitRadius a ecc nu ≤ a * (1 + ecc) := by
  have hc := Real.neg_one_le_cos nu
  have hc' := Real.cos_le_one nu
  have hd : 0 < 1 + ecc * Real.cos nu := by nlinarith
  rw [orbitRadius, le_div_iff₀ hd, div_le_iff₀ hd]
  constructor
  · have h2 : 0 ≤ a * (1 - ecc) := by nlinarith
    have h3 : 0 ≤ ecc * (1 - Real.cos nu) := mul_nonneg h0 (by linarith)
    nlinarith [mul_nonneg h2 h3]
  · have h2 : 0 ≤ a * (1 + ecc) := by nlinarith
    have h3 : 0 ≤ ecc * (1 + Real.cos nu) := mul_nonneg h0 (by linarith)
    nlinarith [mul_nonneg h2 h3]

theorem sin_lipschitz (x y : ℝ) : |Real.sin x - Real.sin y| ≤ |x - y| := by
  rw [Real.sin_sub_sin, abs_mul, abs_mul]
  have h1 : |Real.sin ((x - y) / 2)| ≤ |(x - y) / 2| := Real.abs_sin_le_abs
  have h2 := Real.abs_cos_le_one ((x + y) / 2)
  rw [abs_div, abs_two] at h1
  rw [abs_two]
  have h3 := abs_nonneg (Real.sin ((x - y) / 2))
  have h4 := abs_nonneg (Real.cos ((x + y) / 2))
  nlinarith

/-- C328: after `n` steps the result solves Kepler's equation up to `ecc^(n+1)`; with the program's ten steps and
eccentricity 0.2 the error is below `2.1e-8`, at every time. -/
theorem C328_kepler_residual (ecc mean : ℝ) (h0 : 0 ≤ ecc) (n : Nat) :
    |kepler ecc mean n - ecc * Real.sin (kepler ecc mean n) - mean| ≤ ecc ^ (n + 1) := by
  have step : ∀ n, kepler ecc mean (n + 1) = mean + ecc * Real.sin (kepler ecc mean n) := fun n => by
    rw [kepler, forN, ← kepler]
  have hdiff : ∀ n, |kepler ecc mean (n + 1) - kepler ecc mean n| ≤ ecc ^ (n + 1) := by
    intro n
    induction n with
    | zero =>
      have e : kepler ecc mean 0 = mean := by rw [kepler, forN]
      rw [step, e, add_sub_cancel_left, abs_mul, abs_of_nonneg h0, zero_add, pow_one]
      have := Real.abs_sin_le_one mean
      nlinarith
    | succ n ih =>
      rw [step (n + 1)]
      nth_rewrite 2 [step n]
      have e : mean + ecc * Real.sin (kepler ecc mean (n + 1)) - (mean + ecc * Real.sin (kepler ecc mean n)) =
          ecc * (Real.sin (kepler ecc mean (n + 1)) - Real.sin (kepler ecc mean n)) := by ring
      rw [e, abs_mul, abs_of_nonneg h0, pow_succ, mul_comm (ecc ^ (n + 1))]
      exact mul_le_mul_of_nonneg_left ((sin_lipschitz _ _).trans ih) h0
  have := hdiff n
  rw [step, abs_sub_comm] at this
  have e : kepler ecc mean n - ecc * Real.sin (kepler ecc mean n) - mean =
      kepler ecc mean n - (mean + ecc * Real.sin (kepler ecc mean n)) := by ring
  rw [e]
  exact this

/-- C328: the program's ten steps. -/
theorem C328_kepler_program (mean : ℝ) :
    |kepler 0.2 mean 10 - 0.2 * Real.sin (kepler 0.2 mean 10) - mean| < 2.1e-8 :=
  lt_of_le_of_lt (C328_kepler_residual 0.2 mean (by norm_num) 10) (by norm_num)

/-- C328: the program's semi-major axis. -/
theorem C328_axis_bounds : 11020 < semiMajorAxis 7.5 ∧ semiMajorAxis 7.5 < 11030 := by
  rw [semiMajorAxis]
  have hpi := Real.pi_gt_d4
  have hpi' := Real.pi_lt_d4
  have hp := Real.pi_pos
  set X : ℝ := 3.986004418e14 * ((86400 / 7.5) / (2 * Real.pi)) ^ 2 with hX
  have hX0 : 0 < X := by rw [hX]; positivity
  have hlo : (1.102e7 : ℝ) ^ 3 < X := by
    have h1 : (86400 / 7.5) / (2 * 3.1416) < (86400 / 7.5) / (2 * Real.pi) := by
      apply div_lt_div_of_pos_left (by norm_num) (by positivity) (by linarith)
    have h2 : ((86400 / 7.5) / (2 * 3.1416) : ℝ) ^ 2 < ((86400 / 7.5) / (2 * Real.pi)) ^ 2 :=
      pow_lt_pow_left₀ h1 (by norm_num) (by norm_num)
    rw [hX]
    refine lt_trans ?_ (mul_lt_mul_of_pos_left h2 (by norm_num))
    norm_num
  have hhi : X < (1.103e7 : ℝ) ^ 3 := by
    have h1 : (86400 / 7.5) / (2 * Real.pi) < (86400 / 7.5) / (2 * 3.1415) := by
      apply div_lt_div_of_pos_left (by norm_num) (by norm_num) (by linarith)
    have h2 : ((86400 / 7.5) / (2 * Real.pi)) ^ 2 < ((86400 / 7.5) / (2 * 3.1415) : ℝ) ^ 2 :=
      pow_lt_pow_left₀ h1 (by positivity) (by norm_num)
    rw [hX]
    refine lt_trans (mul_lt_mul_of_pos_left h2 (by norm_num)) ?_
    norm_num
  have root : ∀ c : ℝ, 0 ≤ c → (c ^ 3) ^ ((1 : ℝ) / 3) = c := by
    intro c hc
    have h3 : (1 : ℝ) / 3 = ((3 : ℕ) : ℝ)⁻¹ := by norm_num
    rw [h3]
    exact Real.pow_rpow_inv_natCast hc (by norm_num)
  have h1 := Real.rpow_lt_rpow (by norm_num) hlo (show (0 : ℝ) < 1 / 3 by norm_num)
  have h2 := Real.rpow_lt_rpow hX0.le hhi (show (0 : ℝ) < 1 / 3 by norm_num)
  rw [root _ (by norm_num)] at h1 h2
  constructor
  · rw [lt_div_iff₀ (by norm_num)]; linarith
  · rw [div_lt_iff₀ (by norm_num)]; linarith

theorem orbitPoint_def (t : ℝ) : ∃ nu, orbitPoint t =
    radiusLat (semiMajorAxis 7.5) 0.2 (22 * Real.pi / 180) (0 * Real.pi / 180) (45 * Real.pi / 180) nu :=
  ⟨_, rfl⟩

/-- C328: at every time the program's orbit is between 8816 and 13236 km from the centre of the Earth and at most
22 degrees from the equator: the position factor is below one outside the anomaly, and no point is ever in the
"polar" region. -/
theorem C328_orbit_range (t : ℝ) : 8816 ≤ (orbitPoint t).1 ∧ (orbitPoint t).1 ≤ 13236 ∧ |(orbitPoint t).2| ≤ 22 := by
  obtain ⟨nu, h⟩ := orbitPoint_def t
  obtain ⟨a1, a2⟩ := C328_axis_bounds
  have hb := C328_radius_between (semiMajorAxis 7.5) 0.2 nu (by linarith) (by norm_num) (by norm_num)
  have hr : 0 < orbitRadius (semiMajorAxis 7.5) 0.2 nu := by
    refine lt_of_lt_of_le ?_ hb.1
    norm_num; linarith
  rw [h, C328_radius_eq, abs_of_pos hr]
  refine ⟨?_, ?_, ?_⟩
  · refine le_trans ?_ hb.1
    norm_num; linarith
  · refine hb.2.trans ?_
    norm_num; linarith
  · refine (C328_latitude_le _ _ _ _ _ nu hr (by positivity) (by linarith [Real.pi_pos])).trans ?_
    have := Real.pi_pos
    rw [div_le_iff₀ this]
    linarith

/-- C328 (violated: the conclusion names the polar regions): whatever the longitude, every point of the orbit has
a position factor below 8 times 0.64, and none is in the polar case. -/
theorem C328_never_polar_violated (t lon : ℝ) :
    ¬ |(orbitPoint t).2| > 60 ∧ positionFactor (orbitPoint t).2 lon (orbitPoint t).1 ≤ 8 * 0.64 := by
  obtain ⟨h1, -, h3⟩ := C328_orbit_range t
  refine ⟨not_lt.mpr (h3.trans (by norm_num)), ?_⟩
  refine (C325_factor_antitone _ lon 8816 _ (by norm_num) h1).trans ?_
  rw [factor_def]
  split_ifs <;> norm_num

/-- C329 (violated): in particular at every point of the program's orbit, at every time and longitude. -/
theorem C329_program_violated (eq : BitVec 32 → BitVec 32 → Bool) (conv : Nat → BitVec 32) (hc : Comparable eq conv)
    (t lon : ℝ) : testAtPosition eq conv loadDoseRates (orbitPoint t).2 lon (orbitPoint t).1 = .ok (100, 100) :=
  C329_comparison_violated eq conv hc _ _ _ (le_trans (by norm_num) (C328_orbit_range t).1)

example : 0 < orbitRadius 11025 0.2 (Real.pi / 2) := by
  rw [orbitRadius, Real.cos_pi_div_two]; norm_num

/-! ### C330: the map and the table -/

theorem truncInt_nonneg {x : ℝ} (h : 0 ≤ x) : truncInt x = ⌊x⌋ := by rw [truncInt, if_pos h]

/-- C330: a point with longitude in [-180, 180) and latitude in (-90, 90] is drawn in the cell that contains it. -/
theorem C330_cell_contains (lon lat : ℝ) (h1 : -180 ≤ lon) (h2 : lon < 180) (h3 : -90 < lat) (h4 : lat ≤ 90) :
    ∃ x y : Int, cell lon lat = some (x, y) ∧ 0 ≤ x ∧ x < 80 ∧ 0 ≤ y ∧ y < 30 ∧
      -180 + 4.5 * (x : ℝ) ≤ lon ∧ lon < -180 + 4.5 * ((x : ℝ) + 1) ∧
      90 - 6 * ((y : ℝ) + 1) < lat ∧ lat ≤ 90 - 6 * (y : ℝ) := by
  have hx0 : 0 ≤ (lon + 180) / 360 * 80 := by linarith
  have hy0 : 0 ≤ (90 - lat) / 180 * 30 := by linarith
  have hx1 := Int.floor_le ((lon + 180) / 360 * 80)
  have hx2 := Int.lt_floor_add_one ((lon + 180) / 360 * 80)
  have hy1 := Int.floor_le ((90 - lat) / 180 * 30)
  have hy2 := Int.lt_floor_add_one ((90 - lat) / 180 * 30)
  have ax := Int.floor_nonneg.mpr hx0
  have ay := Int.floor_nonneg.mpr hy0
  have bx : ⌊(lon + 180) / 360 * 80⌋ < 80 := by rw [Int.floor_lt]; push_cast; linarith
  have b_y : ⌊(90 - lat) / 180 * 30⌋ < 30 := by rw [Int.floor_lt]; push_cast; linarith
  refine ⟨⌊(lon + 180) / 360 * 80⌋, ⌊(90 - lat) / 180 * 30⌋, ?_, ax, bx, ay, b_y, ?_, ?_, ?_, ?_⟩
  · rw [cell, truncInt_nonneg hx0, truncInt_nonneg hy0]
    exact if_pos ⟨ax, bx, ay, b_y⟩
  all_goals (norm_num; linarith)

/-- C330 (limit): a point on the 180th meridian, which `atan2` can return, is not drawn at all; neither is the
south pole. -/
theorem C330_cell_dropped_limit (lon lat : ℝ) : cell 180 lat = none ∧ cell lon (-90) = none := by
  constructor
  · rw [cell]
    have : truncInt ((180 + 180) / 360 * 80) = 80 := by
      rw [truncInt_nonneg (by norm_num)]; norm_num
    rw [this]
    exact if_neg (fun h => absurd h.2.1 (lt_irrefl _))
  · rw [cell]
    have : truncInt ((90 - (-90)) / 180 * 30) = 30 := by
      rw [truncInt_nonneg (by norm_num)]; norm_num
    rw [this]
    exact if_neg (fun h => absurd h.2.2.2 (lt_irrefl _))

/-- C330: the symbols of the legend. -/
theorem C330_symbol_legend (rate : ℝ) :
    (99 ≤ rate → symbol rate = '#') ∧ (90 ≤ rate → rate < 99 → symbol rate = '+') ∧
    (70 ≤ rate → rate < 90 → symbol rate = '.') ∧ (rate < 70 → symbol rate = 'x') := by
  refine ⟨fun h => ?_, fun h h' => ?_, fun h h' => ?_, fun h => ?_⟩ <;> rw [symbol]
  · rw [if_pos h]
  · rw [if_neg (not_le.mpr h'), if_pos h]
  · rw [if_neg (not_le.mpr (by linarith)), if_neg (not_le.mpr h'), if_pos h]
  · rw [if_neg (not_le.mpr (by linarith)), if_neg (not_le.mpr (by linarith)), if_neg (not_le.mpr h)]

/-- C330 (violated: `*` marks the "South Atlantic Anomaly boundary"): the boundary condition holds at every cell
inside the anomaly, so its whole interior is marked. -/
theorem C330_outline_violated (x y : ℝ) : marked x y ↔ inSAA (90 - y * 180 / 30) (x * 360 / 80 - 180) := by
  rw [marked, inSAA]
  constructor
  · exact fun h => h.1
  · intro h
    refine ⟨h, ?_⟩
    by_cases hl : 90 - y * 180 / 30 > -39
    · exact .inl hl
    · exact .inr (.inl (by linarith))

/-- Specification: entry-wise sum of three regions. -/
noncomputable def sum3 (a b c : Region) : Region :=
  ⟨a.dose + b.dose + c.dose, a.standard + b.standard + c.standard, a.space + b.space + c.space,
   a.count + b.count + c.count⟩

/-- C330: every point is counted in exactly one of the three regions and in the overall line. -/
theorem C330_regions_partition (dose : ℝ → ℝ → ℝ) (es : List ((ℝ × ℝ) × (ℝ × ℝ))) :
    (regionStats dose es).overall =
      sum3 (regionStats dose es).equatorial (regionStats dose es).saa (regionStats dose es).polar ∧
    (regionStats dose es).overall.count = es.length := by
  have key : ∀ (g : Regions), g.overall = sum3 g.equatorial g.saa g.polar →
      (es.foldl (addPoint dose) g).overall = sum3 (es.foldl (addPoint dose) g).equatorial
        (es.foldl (addPoint dose) g).saa (es.foldl (addPoint dose) g).polar ∧
      (es.foldl (addPoint dose) g).overall.count = g.overall.count + es.length := by
    induction es with
    | nil => intro g h; exact ⟨h, rfl⟩
    | cons e es ih =>
      intro g h
      rw [List.foldl_cons]
      have hg : (addPoint dose g e).overall = sum3 (addPoint dose g e).equatorial (addPoint dose g e).saa
          (addPoint dose g e).polar := by
        rw [addPoint]
        dsimp only
        rw [h]
        split_ifs <;> simp only [sum3, Region.add, Region.mk.injEq] <;>
          refine ⟨by ring, by ring, by ring, by ring⟩
      have hcnt : (addPoint dose g e).overall.count = g.overall.count + 1 := by
        rw [addPoint]
        dsimp only
        split_ifs <;> rfl
      obtain ⟨h1, h2⟩ := ih _ hg
      refine ⟨h1, ?_⟩
      rw [h2, hcnt, List.length_cons]; omega
  obtain ⟨h1, h2⟩ := key {} (by simp [sum3])
  refine ⟨h1, ?_⟩
  rw [regionStats, h2]
  exact Nat.zero_add _

/-- C330: a region's line shows the averages of its points; a region without points has no line (for the program's
orbit: the polar one). -/
theorem C330_region_line (r : Region) :
    (r.count = 0 → r.line = none) ∧
    (0 < r.count → r.line = some (r.dose / r.count, r.standard / r.count, r.space / r.count)) := by
  refine ⟨fun h => ?_, fun h => ?_⟩ <;> rw [Region.line]
  · rw [if_neg (by omega)]
  · rw [if_pos h]

/-- C330: if no entry is beyond 60 degrees, the polar region stays empty. -/
theorem C330_polar_empty (dose : ℝ → ℝ → ℝ) (es : List ((ℝ × ℝ) × (ℝ × ℝ))) (h : ∀ e ∈ es, |e.1.2| ≤ 60) :
    (regionStats dose es).polar.line = none := by
  have key : ∀ g : Regions, g.polar.count = 0 → (es.foldl (addPoint dose) g).polar.count = 0 := by
    induction es with
    | nil => exact fun g hg => hg
    | cons e es ih =>
      intro g hg
      rw [List.foldl_cons]
      apply ih (fun e' he' => h e' (List.mem_cons_of_mem _ he'))
      rw [addPoint]
      dsimp only
      have hn : ¬ |e.1.2| > 60 := not_lt.mpr (h e List.mem_cons_self)
      rw [if_neg hn]
      split_ifs <;> exact hg
  exact (C330_region_line _).1 (key {} rfl)

/-- C330 (violated: the table lists the "Radiation Dose" of the tested points): the dose is computed for 6878 km
whatever the radius of the point, so it is `(radius / 6878)^2` times the dose at the point. -/
theorem C330_table_dose_violated (ps : List DosePoint) (lat lon radius shield : ℝ) (hr : 0 < radius) (d : ℝ)
    (h : doseAtPosition ps lat lon radius shield = .ok d) :
    doseAtPosition ps lat lon (6378 + 500) shield = .ok (d * (radius / 6878) ^ 2) := by
  rw [doseAtPosition] at h ⊢
  cases hd : getDoseRate (doseMap ps) shield with
  | ub => rw [hd] at h; cases h
  | ok y =>
    rw [hd] at h
    simp only [Outcome.bind, Outcome.ok.injEq] at h ⊢
    rw [← h, factor_def, factor_def]
    classical
    generalize (if inSAA lat lon then (8 : ℝ) else if |lat| > 60 then 3 else 1) = c
    field_simp
    ring

example : ∃ e : (ℝ × ℝ) × (ℝ × ℝ), |e.1.2| ≤ 60 ∧ e.1.1 = 10 := ⟨((10, -20), (100, 100)), by norm_num, rfl⟩

/-- C327: with all three copies damaged the read returns a value that two copies hold, whichever two they are. -/
theorem C327_read_pair {n : Nat} (hn : n ≤ 4) (v a b c w : BitVec (8 * n)) (h : a ≠ v ∧ b ≠ v ∧ c ≠ v)
    (hw : (a = w ∧ b = w) ∨ (a = w ∧ c = w) ∨ (b = w ∧ c = w)) :
    ((((Tmr.new (Crc.crcOfValue n) v).corrupt 0 a).corrupt 1 b).corrupt 2 c).get (fun x y => x == y) (Crc.crcOfValue n) = w := by
  rw [(get_eq (fun x y => x == y) _ (fun _ _ h => crcOfValue_inj hn h) v a b c (by simp)).2 (by simp [h.1, h.2.1, h.2.2]), vote]
  rcases hw with ⟨h1, h2⟩ | ⟨h1, h2⟩ | ⟨h1, h2⟩
  · simp [h1, h2]
  · simp [h1, h2]
  · by_cases g : a = w <;> simp [g, h1, h2]

example : ∃ v a b w : BitVec 32, (a ≠ v ∧ b ≠ v) ∧ b = w ∧ a ≠ b := ⟨0, 1, 2, 2, by decide, rfl, by decide⟩

/-- C328: the true anomaly belongs to the eccentric anomaly: its cosine is `(cos E - e) / (1 - e cos E)`, so the distance is `a (1 - e cos E)`, for every elliptic orbit and every anomaly whose half-angle tangent is defined. -/
theorem C328_true_anomaly (a ecc e : ℝ) (h0 : 0 ≤ ecc) (h1 : ecc < 1) (hc : Real.cos (e / 2) ≠ 0) :
    Real.cos (trueAnomaly ecc e) = (Real.cos e - ecc) / (1 - ecc * Real.cos e) ∧
    orbitRadius a ecc (trueAnomaly ecc e) = a * (1 - ecc * Real.cos e) := by
  have hk : 0 ≤ (1 + ecc) / (1 - ecc) := div_nonneg (by linarith) (by linarith)
  have hs : Real.sin (e / 2) ^ 2 = 1 - Real.cos (e / 2) ^ 2 := by rw [Real.sin_sq]
  have he : Real.cos e = 2 * Real.cos (e / 2) ^ 2 - 1 := by rw [← Real.cos_two_mul]; congr 1; ring
  have hle : ecc * Real.cos e ≤ ecc * 1 := mul_le_mul_of_nonneg_left (Real.cos_le_one e) h0
  have hd : 0 < 1 - ecc * Real.cos e := by linarith
  have first : Real.cos (trueAnomaly ecc e) = (Real.cos e - ecc) / (1 - ecc * Real.cos e) := by
    rw [trueAnomaly, Real.cos_two_mul, Real.cos_sq_arctan, mul_pow, Real.sq_sqrt hk, Real.tan_eq_sin_div_cos, div_pow, hs]
    have hp : 0 < Real.cos (e / 2) ^ 2 := by positivity
    have hq : Real.cos (e / 2) ^ 2 ≤ 1 := Real.cos_sq_le_one _
    rw [he] at hd ⊢
    generalize Real.cos (e / 2) ^ 2 = c at hp hq hd ⊢
    have h2 : (1 : ℝ) - ecc ≠ 0 := by linarith
    have h3 : c ≠ 0 := hp.ne'
    have key : 1 + (1 + ecc) / (1 - ecc) * ((1 - c) / c) = (1 - ecc * (2 * c - 1)) / ((1 - ecc) * c) := by
      field_simp
      ring
    rw [key]
    have h4 := hd.ne'
    field_simp
    ring
  refine ⟨first, ?_⟩
  rw [orbitRadius, first]
  have h5 : 1 - ecc * ecc ≠ 0 := by nlinarith
  have : 1 + ecc * ((Real.cos e - ecc) / (1 - ecc * Real.cos e)) = (1 - ecc * ecc) / (1 - ecc * Real.cos e) := by
    have h4 := hd.ne'
    field_simp
    ring
  rw [this]
  have h4 := hd.ne'
  rw [div_div_eq_mul_div, mul_right_comm, mul_div_assoc, div_self h5, mul_one]

example : (0 : ℝ) ≤ 0.2 ∧ (0.2 : ℝ) < 1 ∧ Real.cos (0 / 2 : ℝ) ≠ 0 := by norm_num

end Verif.Props.RealisticSpace
