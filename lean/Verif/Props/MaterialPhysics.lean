import Verif.Model.MaterialPhysics
import Mathlib.Tactic.Linarith
import Mathlib.Tactic.Positivity
import Mathlib.Tactic.FieldSimp
import Mathlib.Analysis.SpecialFunctions.Exp
import Mathlib.Analysis.Complex.ExponentialBounds
/-!
Properties C361-C364: the formulas and the choice of materials of the material physics integration test.
-/
namespace Verif.Props.MatPhys
open Verif Verif.MatPhys

/-! ### C361: temperature -/

theorem threshold_cold (b t : ℝ) (h : t ≤ 150) : threshold b t = b * (1 / 10 + 9 / 10 * (t / 150)) := by
  unfold threshold
  rcases lt_or_eq_of_le h with h | h
  · rw [if_pos h]
  · subst h; rw [if_neg (by norm_num), if_neg (by norm_num)]; norm_num

theorem threshold_mid (b t : ℝ) (h1 : 150 ≤ t) (h2 : t ≤ 400) : threshold b t = b := by
  unfold threshold
  rw [if_neg (not_lt.2 h1), if_neg (not_lt.2 h2), mul_one]

theorem threshold_hot (b t : ℝ) (h : 400 ≤ t) : threshold b t = b * (1 + 1 / 2 * ((t - 400) / 100)) := by
  unfold threshold
  rcases lt_or_eq_of_le h with h | h
  · rw [if_neg (by linarith), if_pos h]
  · subst h; rw [if_neg (by norm_num), if_neg (by norm_num)]; norm_num

theorem factor_mono {s t : ℝ} (h : s ≤ t) : threshold 1 s ≤ threshold 1 t := by
  rcases le_total t 150 with a | a
  · rw [threshold_cold 1 s (by linarith), threshold_cold 1 t a]; linarith
  · rcases le_total t 400 with b | b
    · rw [threshold_mid 1 t a b]
      rcases le_total s 150 with c | c
      · rw [threshold_cold 1 s c]; linarith
      · rw [threshold_mid 1 s c (by linarith)]
    · rw [threshold_hot 1 t b]
      rcases le_total s 150 with c | c
      · rw [threshold_cold 1 s c]; linarith
      · rcases le_total s 400 with d | d
        · rw [threshold_mid 1 s c d]; linarith
        · rw [threshold_hot 1 s d]; linarith

theorem threshold_eq (b t : ℝ) : threshold b t = b * threshold 1 t := by unfold threshold; rw [one_mul]

/-- C361: the threshold is proportional to its base; its factor is between 0.1 and 1 for the temperatures up to 150 K, 1 up to 400 K and larger above, it never falls with the temperature and has no jumps: it changes by less than
0.6 % per kelvin of difference.  The four values of the test are met exactly. -/
theorem C361_threshold (b s t : ℝ) (h : s ≤ t) :
    threshold b t = b * threshold 1 t ∧ (0 ≤ b → threshold b s ≤ threshold b t) ∧ threshold 1 t - threshold 1 s ≤ 6 / 1000 * (t - s) ∧
    (0 ≤ t → 1 / 10 ≤ threshold 1 t) ∧ (t ≤ 400 → threshold 1 t ≤ 1) ∧ (150 ≤ t → t ≤ 400 → threshold 1 t = 1) ∧
    threshold 1 150 = 1 ∧ threshold 1 30 = 28 / 100 ∧ threshold 1 300 = 1 ∧ threshold 1 500 = 15 / 10 := by
  refine ⟨threshold_eq b t, fun hb => ?_, ?_, fun h0 => ?_, fun h4 => ?_, fun a c => threshold_mid 1 t a c, ?_, ?_, ?_, ?_⟩
  · rw [threshold_eq b s, threshold_eq b t]; exact mul_le_mul_of_nonneg_left (factor_mono h) hb
  · rcases le_total t 150 with a | a
    · rw [threshold_cold 1 s (by linarith), threshold_cold 1 t a]; linarith
    · rcases le_total t 400 with c | c
      · rw [threshold_mid 1 t a c]
        rcases le_total s 150 with d | d
        · rw [threshold_cold 1 s d]; linarith
        · rw [threshold_mid 1 s d (by linarith)]; linarith
      · rw [threshold_hot 1 t c]
        rcases le_total s 150 with d | d
        · rw [threshold_cold 1 s d]; linarith
        · rcases le_total s 400 with e | e
          · rw [threshold_mid 1 s d e]; linarith
          · rw [threshold_hot 1 s e]; linarith
  · refine le_trans (le_of_eq ?_) (factor_mono h0)
    rw [threshold_cold 1 0 (by norm_num)]; norm_num
  · refine le_trans (factor_mono h4) (le_of_eq ?_)
    exact threshold_mid 1 400 (by norm_num) le_rfl
  · exact threshold_mid 1 150 (by norm_num) (by norm_num)
  · rw [threshold_cold 1 30 (by norm_num)]; norm_num
  · exact threshold_mid 1 300 (by norm_num) (by norm_num)
  · rw [threshold_hot 1 500 (by norm_num)]; norm_num

theorem factor_pos {t : ℝ} (h : 0 ≤ t) : 0 < threshold 1 t := by
  have := (C361_threshold 1 t t le_rfl).2.2.2.1 h
  linarith

/-! ### C362: mechanical load -/

theorem enhancement_ge (d : ℝ) : 1 ≤ enhancement d := by
  unfold enhancement
  have : 0 ≤ Real.logb 10 (max 1 d) := Real.logb_nonneg (by norm_num) (le_max_left _ _)
  linarith

theorem enhancement_mono {c d : ℝ} (h : c ≤ d) : enhancement c ≤ enhancement d := by
  unfold enhancement
  have : Real.logb 10 (max 1 c) ≤ Real.logb 10 (max 1 d) :=
    Real.logb_le_logb_of_le (by norm_num) (lt_of_lt_of_le one_pos (le_max_left _ _)) (max_le_max le_rfl h)
  linarith

theorem stressFactor_nonneg {s y : ℝ} (hs : 0 ≤ s) (hy : 0 ≤ y) : 0 ≤ stressFactor s y := by
  unfold stressFactor
  split_ifs with h1 h2
  · linarith
  · have := Real.add_one_le_exp (2 * 1 : ℝ); linarith
  · have h : (0 : ℝ) ≤ 2 * min 1 (s / (7 / 10 * y)) := mul_nonneg (by norm_num) (le_min (by norm_num) (by positivity))
    have := Real.add_one_le_exp (2 * min 1 (s / (7 / 10 * y))); linarith

theorem stressFactor_mono {s t y : ℝ} (hs : 0 ≤ s) (h : s ≤ t) (hy : 0 ≤ y) : stressFactor s y ≤ stressFactor t y := by
  unfold stressFactor
  by_cases h1 : y = 0
  · rw [if_pos h1, if_pos h1, if_neg (not_lt.2 hs), if_neg (not_lt.2 (hs.trans h))]
  · rw [if_neg h1, if_neg h1]
    have hy' : 0 < 7 / 10 * y := mul_pos (by norm_num) (lt_of_le_of_ne hy (Ne.symm h1))
    have : min 1 (s / (7 / 10 * y)) ≤ min 1 (t / (7 / 10 * y)) := min_le_min le_rfl (div_le_div_of_nonneg_right h hy'.le)
    have := Real.exp_le_exp.2 (mul_le_mul_of_nonneg_left this (by norm_num : (0 : ℝ) ≤ 2))
    linarith

/-- C362: for all stresses and doses that are not negative and yield strengths that are positive: the load factor is at least 1, is 1 without stress, does not fall when stress or dose grows, and is the same from 70 % of the yield strength on. -/
theorem C362_load (s s' y d d' : ℝ) (hy : 0 < y) (hs : 0 ≤ s) (h : s ≤ s') (hd : d ≤ d') :
    1 ≤ load s y d ∧ load 0 y d = 1 ∧ load s y d ≤ load s' y d' ∧ (7 / 10 * y ≤ s → load s y d = 1 + (Real.exp 2 - 1) * enhancement d) := by
  refine ⟨?_, ?_, ?_, fun hc => ?_⟩
  · have := mul_nonneg (stressFactor_nonneg hs hy.le) (zero_le_one.trans (enhancement_ge d))
    unfold load; linarith
  · unfold load stressFactor
    rw [if_neg hy.ne', zero_div, min_eq_right zero_le_one, mul_zero, Real.exp_zero]
    ring
  · unfold load
    have := mul_le_mul (stressFactor_mono hs h hy.le) (enhancement_mono hd) (zero_le_one.trans (enhancement_ge d)) (stressFactor_nonneg (hs.trans h) hy.le)
    linarith
  · unfold load stressFactor
    have : (1 : ℝ) ≤ s / (7 / 10 * y) := by rw [le_div_iff₀ (by positivity)]; linarith
    rw [if_neg hy.ne', min_eq_left this, mul_one]

/-- C362: the assertions of the test hold not only for its dose but for every one: between 10 % and 40 % and between 40 % and 65 % of any yield strength the factor grows to more than 1.5 times. -/
theorem C362_growth (y d : ℝ) (hy : 0 < y) : load (4 / 10 * y) y d > load (1 / 10 * y) y d * (3 / 2) ∧ load (65 / 100 * y) y d > load (4 / 10 * y) y d * (3 / 2) := by
  have e := enhancement_ge d
  have n : ∀ c : ℝ, c ≤ 7 / 10 → stressFactor (c * y) y = Real.exp (2 * (c / (7 / 10))) - 1 := by
    intro c hc
    unfold stressFactor
    have : c * y / (7 / 10 * y) = c / (7 / 10) := by field_simp
    rw [if_neg hy.ne', this, min_eq_right (by rw [div_le_one (by norm_num)]; exact hc)]
  have s : ∀ p q : ℝ, 1 / 2 ≤ q → Real.exp (p + q) ≥ 3 / 2 * Real.exp p := by
    intro p q hq
    rw [Real.exp_add]
    have h1 := Real.add_one_le_exp q
    have h2 := Real.exp_pos p
    nlinarith
  unfold load
  rw [n _ (by norm_num), n _ (by norm_num), n _ (by norm_num)]
  have p1 := s (2 * (1 / 10 / (7 / 10))) (6 / 7) (by norm_num)
  have p2 := s (2 * (4 / 10 / (7 / 10))) (5 / 7) (by norm_num)
  rw [show (2 * (1 / 10 / (7 / 10)) + 6 / 7 : ℝ) = 2 * (4 / 10 / (7 / 10)) by norm_num] at p1
  rw [show (2 * (4 / 10 / (7 / 10)) + 5 / 7 : ℝ) = 2 * (65 / 100 / (7 / 10)) by norm_num] at p2
  have strict : ∀ p q : ℝ, 1 / 2 < q → Real.exp (p + q) > 3 / 2 * Real.exp p := by
    intro p q hq
    rw [Real.exp_add]
    have h1 := Real.add_one_le_exp q
    have h2 := Real.exp_pos p
    nlinarith
  have q1 := strict (2 * (1 / 10 / (7 / 10))) (6 / 7) (by norm_num)
  have q2 := strict (2 * (4 / 10 / (7 / 10))) (5 / 7) (by norm_num)
  rw [show (2 * (1 / 10 / (7 / 10)) + 6 / 7 : ℝ) = 2 * (4 / 10 / (7 / 10)) by norm_num] at q1
  rw [show (2 * (4 / 10 / (7 / 10)) + 5 / 7 : ℝ) = 2 * (65 / 100 / (7 / 10)) by norm_num] at q2
  generalize Real.exp (2 * (1 / 10 / (7 / 10))) = a at *
  generalize Real.exp (2 * (4 / 10 / (7 / 10))) = b at *
  generalize Real.exp (2 * (65 / 100 / (7 / 10))) = c at *
  generalize enhancement d = g at *
  constructor <;> nlinarith

/-- C362: water, whose yield strength is entered as 0 because it has none, gets the largest factor of all materials under every stress, and that without any stress: the quotient is not a number, and the minimum of 1 and that is 1. -/
theorem C362_water_violated (s d : ℝ) (hs : 0 ≤ s) :
    load s water.yield d = 1 + (Real.exp 2 - 1) * enhancement d ∧ load 0 water.yield d > 7 ∧ ∀ s' y, 0 < y → load s' y d ≤ load 0 water.yield d := by
  have w : ∀ s, 0 ≤ s → load s water.yield d = 1 + (Real.exp 2 - 1) * enhancement d := by
    intro s hs
    unfold load stressFactor
    have hw : water.yield = 0 := rfl
    rw [if_pos hw, if_neg (not_lt.2 hs), mul_one]
  have e := enhancement_ge d
  have e2 : Real.exp 2 > 7 := by
    have h : Real.exp 2 = Real.exp 1 * Real.exp 1 := by rw [← Real.exp_add]; norm_num
    have := Real.exp_one_gt_d9
    rw [h]; nlinarith
  refine ⟨w s hs, by rw [w 0 le_rfl]; nlinarith, fun s' y hy => ?_⟩
  rw [w 0 le_rfl]
  unfold load stressFactor
  rw [if_neg hy.ne']
  have : Real.exp (2 * min 1 (s' / (7 / 10 * y))) ≤ Real.exp 2 := Real.exp_le_exp.2 (by have := min_le_left 1 (s' / (7 / 10 * y)); linarith)
  nlinarith

/-! ### C363: combined damage -/

/-- A material whose numbers make sense. -/
def Sound (m : Material) : Prop := 0 < m.density ∧ 0 < m.displacement ∧ 0 ≤ m.yield ∧ 0 < m.vacuum ∧ 0 < m.ao

theorem sound_all : ∀ m ∈ materials, Sound m := by
  intro m hm
  simp only [materials, List.mem_cons, List.not_mem_nil, or_false] at hm
  rcases hm with rfl | rfl | rfl | rfl | rfl <;>
    (refine ⟨?_, ?_, ?_, ?_, ?_⟩ <;> simp only [aluminum, boronCarbide, lead, polyethylene, water] <;> norm_num)

theorem synergy_pos (t s y : ℝ) : 1 ≤ synergy t s y ∧ synergy t s y ≤ 3 / 2 := by unfold synergy; split_ifs <;> norm_num

theorem env_pos {m : Material} (h : Sound m) (v a : Bool) : 0 < envFactor m v a := by
  obtain ⟨_, _, _, hv, ha⟩ := h
  unfold envFactor
  cases v <;> cases a <;> simp [hv, ha]

theorem load_pos {s y d : ℝ} (hs : 0 ≤ s) (hy : 0 ≤ y) : 1 ≤ load s y d := by
  have := mul_nonneg (stressFactor_nonneg hs hy) (zero_le_one.trans (enhancement_ge d))
  unfold load; linarith

/-- C363: for every sound material and conditions that are not negative: the damage is not negative, is 0 exactly without dose, and does not fall with dose, temperature or stress; atomic oxygen and vacuum multiply it by the factors of the material. -/
theorem C363_damage (m : Material) (hm : Sound m) (d d' t t' s s' : ℝ) (hd : 0 ≤ d) (h1 : d ≤ d') (ht : 0 ≤ t) (h2 : t ≤ t') (hs : 0 ≤ s) (h3 : s ≤ s') (v a : Bool) :
    0 ≤ damage m d t s v a ∧ (damage m d t s v a = 0 ↔ d = 0) ∧ damage m d t s v a ≤ damage m d' t' s' v a ∧
    damage m d t s true a = damage m d t s false a * m.vacuum ∧ damage m d t s v true = damage m d t s v false * m.ao := by
  have hp := hm.2.1
  have hy := hm.2.2.1
  have f1 := factor_pos ht
  have f2 := load_pos (d := d) hs hy
  have f3 := env_pos hm v a
  have f4 := (synergy_pos t s m.yield).1
  have f5 : (0 : ℝ) < 1 / m.displacement := by positivity
  have f6 : 0 < load s m.yield d := by linarith
  have f7 : 0 < synergy t s m.yield := by linarith
  refine ⟨?_, ?_, ?_, ?_, ?_⟩
  · unfold damage baseDamage; positivity
  · unfold damage baseDamage
    constructor
    · intro h
      by_contra hne
      have : 0 < d := lt_of_le_of_ne hd (Ne.symm hne)
      have : 0 < 1 / m.displacement * d * threshold 1 t * load s m.yield d * envFactor m v a * synergy t s m.yield := by positivity
      linarith
    · rintro rfl; ring
  · unfold damage baseDamage
    have g1 := factor_mono h2
    have g2 : load s m.yield d ≤ load s' m.yield d' := by
      unfold load
      have := mul_le_mul (stressFactor_mono hs h3 hy) (enhancement_mono h1) (zero_le_one.trans (enhancement_ge d)) (stressFactor_nonneg (hs.trans h3) hy)
      linarith
    have g3 : synergy t s m.yield ≤ synergy t' s' m.yield := by
      unfold synergy
      split_ifs with p q q
      · exact le_rfl
      · exact absurd ⟨lt_of_lt_of_le p.1 h2, lt_of_lt_of_le p.2 h3⟩ q
      · norm_num
      · exact le_rfl
    have g0 : 1 / m.displacement * d ≤ 1 / m.displacement * d' := mul_le_mul_of_nonneg_left h1 f5.le
    have b0 : 0 ≤ 1 / m.displacement * d := by positivity
    have k1 := mul_le_mul g0 g1 f1.le (b0.trans g0)
    have b1 : 0 ≤ 1 / m.displacement * d * threshold 1 t := by positivity
    have k2 := mul_le_mul k1 g2 f6.le (b1.trans k1)
    have b2 : 0 ≤ 1 / m.displacement * d * threshold 1 t * load s m.yield d := by positivity
    have k3 := mul_le_mul_of_nonneg_right k2 f3.le
    have b3 : 0 ≤ 1 / m.displacement * d * threshold 1 t * load s m.yield d * envFactor m v a := by positivity
    exact mul_le_mul k3 g3 f7.le (b3.trans k3)
  · unfold damage envFactor; simp only [if_true, if_false, Bool.false_eq_true]; ring
  · unfold damage envFactor; simp only [if_true, if_false, Bool.false_eq_true]; ring

example : Sound aluminum ∧ Sound water := ⟨sound_all _ (by simp [materials]), sound_all _ (by simp [materials])⟩

/-- C363: the assertion of the test, for every dose: heat, half the yield strength, vacuum and atomic oxygen more than double the damage to aluminium. -/
theorem C363_extreme (d : ℝ) (hd : 0 < d) : damage aluminum d 450 (1 / 2 * aluminum.yield) true true > damage aluminum d 300 50 false false * 2 := by
  have l1 := load_pos (s := 50) (y := aluminum.yield) (d := d) (by norm_num) (by simp only [aluminum]; norm_num)
  have l2 : load 50 aluminum.yield d ≤ load (1 / 2 * aluminum.yield) aluminum.yield d := by
    refine (C362_load 50 (1 / 2 * aluminum.yield) aluminum.yield d d ?_ (by norm_num) ?_ le_rfl).2.2.1 <;> (simp only [aluminum]; norm_num)
  unfold damage baseDamage
  rw [threshold_hot 1 450 (by norm_num), threshold_mid 1 300 (by norm_num) (by norm_num)]
  have s1 : synergy 450 (1 / 2 * aluminum.yield) aluminum.yield = 3 / 2 := by unfold synergy; rw [if_pos]; simp only [aluminum]; norm_num
  have s2 : synergy 300 50 aluminum.yield = 1 := by unfold synergy; rw [if_neg]; norm_num
  have e1 : envFactor aluminum true true = 132 / 100 := by simp only [envFactor, aluminum, if_true]; norm_num
  have e2 : envFactor aluminum false false = 1 := by simp [envFactor]
  have e3 : aluminum.displacement = 16 := rfl
  rw [s1, s2, e1, e2, e3]
  generalize load 50 aluminum.yield d = x at *
  generalize load (1 / 2 * aluminum.yield) aluminum.yield d = z at *
  have := mul_le_mul_of_nonneg_left l2 hd.le
  have := mul_pos hd (lt_of_lt_of_le one_pos l1)
  nlinarith

/-- C363: cold is said to enhance damage and heat above 400 K to anneal it; the model does the opposite for every sound material, dose, stress and surroundings: below 150 K the damage is smaller than at room temperature, above 400 K larger. The factor meant for
the threshold, by which the damage would be divided, is multiplied. -/
theorem C363_temperature_violated (m : Material) (hm : Sound m) (d t s : ℝ) (hd : 0 < d) (ht : 0 ≤ t) (hs : 0 ≤ s) (v a : Bool) :
    (t < 150 → damage m d t s v a < damage m d 300 s v a) ∧ (400 < t → damage m d 300 s v a < damage m d t s v a) := by
  have hp := hm.2.1
  have f2 := load_pos (d := d) hs hm.2.2.1
  have f3 := env_pos hm v a
  have f5 : (0 : ℝ) < 1 / m.displacement := by positivity
  have f6 : 0 < load s m.yield d := by linarith
  have s300 : synergy 300 s m.yield = 1 := by unfold synergy; rw [if_neg]; norm_num
  have c : ∀ t, damage m d t s v a = 1 / m.displacement * d * load s m.yield d * envFactor m v a * (threshold 1 t * synergy t s m.yield) := by
    intro t; unfold damage baseDamage; ring
  have k : 0 < 1 / m.displacement * d * load s m.yield d * envFactor m v a := by positivity
  refine ⟨fun h => ?_, fun h => ?_⟩
  · rw [c, c]
    refine mul_lt_mul_of_pos_left ?_ k
    have : synergy t s m.yield = 1 := by unfold synergy; rw [if_neg]; rintro ⟨q, _⟩; linarith
    rw [s300, this, threshold_mid 1 300 (by norm_num) (by norm_num), threshold_cold 1 t h.le]
    linarith
  · rw [c, c]
    refine mul_lt_mul_of_pos_left ?_ k
    have := (synergy_pos t s m.yield).1
    rw [s300, threshold_mid 1 300 (by norm_num) (by norm_num), threshold_hot 1 t h.le]
    nlinarith

/-! ### C364: the choice of material -/

theorem fold_lt (f : Material → ℝ) (c : ℝ) (l : List Material) (h : ∀ m ∈ l, f m < c) (b : String × ℝ) (hb : b.2 < c) :
    (l.foldl (fun b m => if f m > b.2 then (m.name, f m) else b) b).2 < c := by
  induction l generalizing b with
  | nil => exact hb
  | cons m l ih =>
    rw [List.foldl_cons]
    apply ih (fun x hx => h x (by simp [hx]))
    split_ifs
    · exact h m (by simp)
    · exact hb

theorem fold_keep (f : Material → ℝ) (l : List Material) (b : String × ℝ) (h : ∀ m ∈ l, f m ≤ b.2) : l.foldl (fun b m => if f m > b.2 then (m.name, f m) else b) b = b := by
  induction l with
  | nil => rfl
  | cons m l ih =>
    rw [List.foldl_cons, if_neg (not_lt.2 (h m (by simp)))]
    exact ih fun x hx => h x (by simp [hx])

/-- C364: for every list of materials and every score: a material with a score above -1, above those before and not below those after it is the one chosen. -/
theorem C364_best (f : Material → ℝ) (l r : List Material) (m : Material) (h0 : -1 < f m) (h1 : ∀ x ∈ l, f x < f m) (h2 : ∀ x ∈ r, f x ≤ f m) : best f (l ++ m :: r) = (m.name, f m) := by
  unfold best
  rw [List.foldl_append, List.foldl_cons, if_pos (fold_lt f (f m) l h1 ("", -1) h0)]
  exact fold_keep f r _ h2

/-- The damage at a fifth of the yield strength, where heat and stress do not work together. -/
theorem damage_fifth (m : Material) (hm : Sound m) (d t : ℝ) (a : Bool) : damage m d t (2 / 10 * m.yield) true a = d * threshold 1 t * load (2 / 10 * m.yield) m.yield d * (m.vacuum * (if a then m.ao else 1) / m.displacement) := by
  have : synergy t (2 / 10 * m.yield) m.yield = 1 := by
    unfold synergy; rw [if_neg]; rintro ⟨_, q⟩; have := hm.2.2.1; linarith
  unfold damage baseDamage envFactor
  rw [this, if_pos rfl]
  ring

theorem load_fifth (y d : ℝ) (hy : 0 < y) : load (2 / 10 * y) y d = 1 + (Real.exp (4 / 7) - 1) * enhancement d := by
  unfold load stressFactor
  have : 2 / 10 * y / (7 / 10 * y) = 2 / 7 := by field_simp
  rw [if_neg hy.ne', this, min_eq_right (by norm_num)]
  norm_num

/-- C364: for every dose and every temperature that is not negative, with or without atomic oxygen, Polyethylene has the highest score of the five. -/
theorem C364_polyethylene (d t : ℝ) (hd : 0 ≤ d) (ht : 0 ≤ t) (a : Bool) (m : Material) (hm : m ∈ materials) (hne : m ≠ polyethylene) : score d t a m < score d t a polyethylene := by
  have x1 := factor_pos ht
  have hP : Sound polyethylene := sound_all _ (by simp [materials])
  have hM := sound_all m hm
  have lP : 1 ≤ load (2 / 10 * polyethylene.yield) polyethylene.yield d := load_pos (by simp only [polyethylene]; norm_num) (by simp only [polyethylene]; norm_num)
  have lM : load (2 / 10 * polyethylene.yield) polyethylene.yield d ≤ load (2 / 10 * m.yield) m.yield d := by
    rw [load_fifth polyethylene.yield d (by simp only [polyethylene]; norm_num)]
    by_cases h : m.yield = 0
    · have e := enhancement_ge d
      have : Real.exp (4 / 7) ≤ Real.exp 2 := Real.exp_le_exp.2 (by norm_num)
      unfold load stressFactor
      rw [if_pos h, h, if_neg (by norm_num), mul_one]
      nlinarith
    · rw [load_fifth m.yield d (lt_of_le_of_ne hM.2.2.1 (Ne.symm h))]
  have x0 : 0 ≤ d * threshold 1 t := by positivity
  have key : (1 + damage polyethylene d t (2 / 10 * polyethylene.yield) true a) * polyethylene.density < (1 + damage m d t (2 / 10 * m.yield) true a) * m.density := by
    rw [damage_fifth _ hP, damage_fifth _ hM]
    have k := mul_le_mul_of_nonneg_left lM x0
    have kp : 0 ≤ d * threshold 1 t * load (2 / 10 * polyethylene.yield) polyethylene.yield d := mul_nonneg x0 (by linarith)
    generalize d * threshold 1 t * load (2 / 10 * polyethylene.yield) polyethylene.yield d = p at *
    generalize d * threshold 1 t * load (2 / 10 * m.yield) m.yield d = q at *
    simp only [materials, List.mem_cons, List.not_mem_nil, or_false] at hm
    rcases hm with rfl | rfl | rfl | rfl | rfl
    · cases a <;> simp only [aluminum, polyethylene, if_true, if_false, Bool.false_eq_true] <;> linarith
    · cases a <;> simp only [boronCarbide, polyethylene, if_true, if_false, Bool.false_eq_true] <;> linarith
    · cases a <;> simp only [lead, polyethylene, if_true, if_false, Bool.false_eq_true] <;> linarith
    · exact absurd rfl hne
    · cases a <;> simp only [water, polyethylene, if_true, if_false, Bool.false_eq_true] <;> linarith
  have dP := (C363_damage polyethylene hP d d t t _ _ hd le_rfl ht le_rfl (show (0 : ℝ) ≤ 2 / 10 * polyethylene.yield by simp only [polyethylene]; norm_num) le_rfl true a).1
  have dM := (C363_damage m hM d d t t _ _ hd le_rfl ht le_rfl (show (0 : ℝ) ≤ 2 / 10 * m.yield by have := hM.2.2.1; positivity) le_rfl true a).1
  have f : ∀ u v : ℝ, 1 / (1 + u) / (v / 10) = 10 / ((1 + u) * v) := by intro u v; rw [div_div, mul_div_assoc', one_div_div]
  unfold score
  rw [f, f]
  have hp := hP.1
  exact div_lt_div_of_pos_left (by norm_num) (by positivity) key

/-- C364: so the optimisation always ends with Polyethylene, whatever the mission, its fluxes and its temperatures; the assertions of the test hold for all of them and do not depend on the mission. -/
theorem C364_optimal (mission : String) (p e tmin tmax : ℝ) (hp : 0 ≤ p) (he : 0 ≤ e) (ht : 0 ≤ tmin) (ht' : 0 ≤ tmax) :
    optimal mission p e tmin tmax = "Polyethylene" ∧ accepted mission (optimal mission p e tmin tmax) = true := by
  have h : optimal mission p e tmin tmax = "Polyethylene" := by
    unfold optimal
    have hd : (0 : ℝ) ≤ (p + e) * (1 / 100000) := by positivity
    have hT : (0 : ℝ) ≤ (tmin + tmax) / 2 := by positivity
    have ne : ∀ m : Material, m.name ≠ "Polyethylene" → m ≠ polyethylene := fun m h z => h (by rw [z]; rfl)
    have lt := C364_polyethylene _ _ hd hT (mission == "LEO")
    have hP : Sound polyethylene := sound_all _ (by simp [materials])
    have dP := (C363_damage polyethylene hP _ _ _ _ _ _ hd le_rfl hT le_rfl (show (0 : ℝ) ≤ 2 / 10 * polyethylene.yield by simp only [polyethylene]; norm_num) le_rfl true (mission == "LEO")).1
    have := C364_best (score ((p + e) * (1 / 100000)) ((tmin + tmax) / 2) (mission == "LEO")) [aluminum, boronCarbide, lead] [water] polyethylene ?_ ?_ ?_
    · exact congrArg Prod.fst this
    · have hp := hP.1
      have : 0 < score ((p + e) * (1 / 100000)) ((tmin + tmax) / 2) (mission == "LEO") polyethylene := by unfold score; positivity
      linarith
    · intro x hx
      simp only [List.mem_cons, List.not_mem_nil, or_false] at hx
      rcases hx with rfl | rfl | rfl <;> exact lt _ (by simp [materials]) (ne _ (by decide))
    · intro x hx
      simp only [List.mem_cons, List.not_mem_nil, or_false] at hx
      rcases hx with rfl
      exact (lt _ (by simp [materials]) (ne _ (by decide))).le
  refine ⟨h, ?_⟩
  rw [h]
  unfold accepted
  split_ifs <;> rfl

example : ∀ m ∈ ["LEO", "GEO", "MARS", "JUPITER"], ∃ p e a b, environment m = some (p, e, a, b) ∧ 0 ≤ p ∧ 0 ≤ e ∧ 0 ≤ a ∧ 0 ≤ b := by
  intro m hm
  simp only [List.mem_cons, List.not_mem_nil, or_false] at hm
  rcases hm with rfl | rfl | rfl | rfl
  · exact ⟨_, _, _, _, rfl, by norm_num, by norm_num, by norm_num, by norm_num⟩
  · exact ⟨_, _, _, _, if_neg (by decide), by norm_num, by norm_num, by norm_num, by norm_num⟩
  · exact ⟨_, _, _, _, if_neg (by decide), by norm_num, by norm_num, by norm_num, by norm_num⟩
  · exact ⟨_, _, _, _, if_neg (by decide), by norm_num, by norm_num, by norm_num, by norm_num⟩

end Verif.Props.MatPhys
