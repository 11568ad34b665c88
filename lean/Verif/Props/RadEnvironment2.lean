import Verif.Props.RadEnvironment
import Mathlib.Geometry.Euclidean.Angle.Unoriented.TriangleInequality
import Mathlib.Analysis.InnerProductSpace.PiL2
import Mathlib.Analysis.Real.Pi.Bounds
/-!
C118: distances between positions, and positions on an orbit.
-/
namespace Verif.RadEnvironment
open Real

/-! ### Specification -/

/-- Direction of a position from the centre of the Earth. -/
noncomputable def Pos.dir (p : Pos) : EuclideanSpace ℝ (Fin 3) :=
  !₂[cos (rad p.lat) * cos (rad p.lon), cos (rad p.lat) * sin (rad p.lon), sin (rad p.lat)]

/-- The point in space, in kilometres. -/
noncomputable def Pos.point (p : Pos) : EuclideanSpace ℝ (Fin 3) := (6371 + p.alt) • p.dir

/-- Angle at the centre of the Earth between two positions. -/
noncomputable def central (p q : Pos) : ℝ := InnerProductGeometry.angle p.dir q.dir

/-! ### Lemmas -/

theorem inner_dir (p q : Pos) : inner ℝ p.dir q.dir = cos (rad p.lat) * cos (rad q.lat) * cos (rad (q.lon - p.lon)) + sin (rad p.lat) * sin (rad q.lat) := by
  have e : rad (q.lon - p.lon) = rad q.lon - rad p.lon := by simp only [rad]; ring
  rw [e, cos_sub]
  simp only [Pos.dir, PiLp.inner_apply, Fin.sum_univ_three, RCLike.inner_apply, conj_trivial]
  simp
  ring

theorem norm_dir (p : Pos) : ‖p.dir‖ = 1 := by
  have h : ‖p.dir‖ ^ 2 = 1 := by
    rw [← real_inner_self_eq_norm_sq, inner_dir]
    simp only [sub_self, rad, zero_mul, zero_div, cos_zero, mul_one]
    nlinarith [sin_sq_add_cos_sq (p.lat * π / 180)]
  nlinarith [norm_nonneg p.dir]

theorem hav_eq (p q : Pos) : 1 - 2 * hav p q = inner ℝ p.dir q.dir := by
  rw [inner_dir, hav]
  have e : rad (q.lat - p.lat) = rad q.lat - rad p.lat := by simp only [rad]; ring
  have h1 : ∀ x : ℝ, sin (x / 2) * sin (x / 2) = (1 - cos x) / 2 := by
    intro x
    have := cos_two_mul (x / 2)
    have h2 := sin_sq_add_cos_sq (x / 2)
    rw [mul_div_cancel₀ x (two_ne_zero)] at this
    nlinarith
  have h3 := h1 (rad (q.lat - p.lat))
  have h4 := h1 (rad (q.lon - p.lon))
  rw [h3, mul_assoc, h4, e, cos_sub]
  ring

theorem inner_bounds (p q : Pos) : -1 ≤ inner ℝ p.dir q.dir ∧ inner ℝ p.dir q.dir ≤ 1 := by
  have := abs_real_inner_le_norm p.dir q.dir
  rw [norm_dir, norm_dir, mul_one] at this
  exact abs_le.mp this

theorem hav_bounds (p q : Pos) : 0 ≤ hav p q ∧ hav p q ≤ 1 := by
  have := hav_eq p q
  have h := inner_bounds p q
  constructor <;> linarith

theorem atan2_half {a : ℝ} (h0 : 0 ≤ a) (h1 : a ≤ 1) : 2 * atan2 (√a) (√(1 - a)) = arccos (1 - 2 * a) := by
  unfold atan2
  set z : ℂ := ⟨√(1 - a), √a⟩ with hz
  have hn : ‖z‖ = 1 := by
    have : ‖z‖ ^ 2 = 1 := by
      rw [← Complex.normSq_eq_norm_sq, Complex.normSq_mk, mul_self_sqrt (by linarith), mul_self_sqrt h0]; ring
    nlinarith [norm_nonneg z]
  have hz0 : z ≠ 0 := by intro h; rw [h] at hn; simp at hn
  have hc : cos (Complex.arg z) = √(1 - a) := by rw [Complex.cos_arg hz0, hn, div_one]
  have hp : 0 ≤ Complex.arg z := Complex.arg_nonneg_iff.mpr (sqrt_nonneg _)
  have hq : |Complex.arg z| ≤ π / 2 := Complex.abs_arg_le_pi_div_two_iff.mpr (sqrt_nonneg _)
  rw [abs_of_nonneg hp] at hq
  have : cos (2 * Complex.arg z) = 1 - 2 * a := by
    rw [cos_two_mul, hc, sq_sqrt (by linarith)]; ring
  rw [← this, arccos_cos (by linarith) (by linarith)]

theorem surface_eq (p q : Pos) : surface p q = 6371 * central p q := by
  obtain ⟨h0, h1⟩ := hav_bounds p q
  rw [surface, atan2_half h0 h1, hav_eq, central, InnerProductGeometry.angle, norm_dir, norm_dir]
  simp

theorem central_nonneg (p q : Pos) : 0 ≤ central p q := InnerProductGeometry.angle_nonneg _ _

theorem dist_eq (p q : Pos) : p.dist q = √((6371 * central p q) ^ 2 + (p.alt - q.alt) ^ 2) := by
  rw [Pos.dist, surface_eq]; congr 1; rw [abs_mul_abs_self]; ring

theorem minkowski {a b c d : ℝ} : √((a + c) ^ 2 + (b + d) ^ 2) ≤ √(a ^ 2 + b ^ 2) + √(c ^ 2 + d ^ 2) := by
  have h1 := sq_sqrt (by positivity : 0 ≤ a ^ 2 + b ^ 2)
  have h2 := sq_sqrt (by positivity : 0 ≤ c ^ 2 + d ^ 2)
  have n1 := sqrt_nonneg (a ^ 2 + b ^ 2)
  have n2 := sqrt_nonneg (c ^ 2 + d ^ 2)
  apply sqrt_le_iff.mpr ⟨by positivity, ?_⟩
  have : a * c + b * d ≤ √(a ^ 2 + b ^ 2) * √(c ^ 2 + d ^ 2) := by
    apply le_of_sq_le_sq _ (by positivity)
    rw [mul_pow, h1, h2]
    nlinarith [sq_nonneg (a * d - b * c)]
  nlinarith

theorem trunc_bounds (x : ℝ) (h : 0 ≤ x) : (trunc x : ℝ) ≤ x ∧ x < trunc x + 1 := by
  rw [trunc, if_pos h]; exact ⟨Int.floor_le x, Int.lt_floor_add_one x⟩

theorem fmod_bounds {x y : ℝ} (hx : 0 ≤ x) (hy : 0 < y) : 0 ≤ fmod x y ∧ fmod x y < y := by
  obtain ⟨h1, h2⟩ := trunc_bounds (x / y) (by positivity)
  rw [le_div_iff₀ hy] at h1
  rw [div_lt_iff₀ hy] at h2
  unfold fmod
  constructor <;> nlinarith

/-! ### C118 -/

/-- C118, distance: the distance is the hypotenuse of the great-circle distance at ground level (6371 km times the angle at the centre of the Earth) and the difference in altitude. -/
theorem C118_distance (p q : Pos) : p.dist q ^ 2 = (6371 * central p q) ^ 2 + (p.alt - q.alt) ^ 2 ∧ 0 ≤ p.dist q := by
  rw [dist_eq]
  exact ⟨sq_sqrt (by positivity), sqrt_nonneg _⟩

/-- C118, metric: the distance of a position to itself is 0, distance is symmetric, and going through a third position is never shorter; all for every latitude, longitude and altitude. -/
theorem C118_metric (p q r : Pos) : p.dist p = 0 ∧ p.dist q = q.dist p ∧ p.dist r ≤ p.dist q + q.dist r := by
  refine ⟨?_, ?_, ?_⟩
  · rw [dist_eq, central, InnerProductGeometry.angle_self (by rw [← norm_ne_zero_iff, norm_dir]; norm_num)]; simp
  · rw [dist_eq, dist_eq, central, central, InnerProductGeometry.angle_comm]; congr 2; ring
  · rw [dist_eq, dist_eq, dist_eq]
    refine le_trans ?_ minkowski
    apply sqrt_le_sqrt
    have h := InnerProductGeometry.angle_le_angle_add_angle p.dir q.dir r.dir
    have h' : 6371 * central p r ≤ 6371 * central p q + 6371 * central q r := by unfold central; linarith
    have h0 := central_nonneg p r
    have e : p.alt - r.alt = (p.alt - q.alt) + (q.alt - r.alt) := by ring
    rw [e]
    have := pow_le_pow_left₀ (by linarith : 0 ≤ 6371 * central p r) h' 2
    linarith

/-- C118, bounds: it is at least the difference in altitude and at least the great-circle distance, and positions at one altitude are never more than half a circumference apart. -/
theorem C118_bounds (p q : Pos) : |p.alt - q.alt| ≤ p.dist q ∧ 6371 * central p q ≤ p.dist q ∧ (p.alt = q.alt → p.dist q ≤ 6371 * π) := by
  rw [dist_eq]
  refine ⟨?_, ?_, ?_⟩
  · apply abs_le_sqrt; nlinarith [sq_nonneg (6371 * central p q)]
  · apply le_sqrt_of_sq_le; nlinarith [sq_nonneg (p.alt - q.alt)]
  · intro h
    have := InnerProductGeometry.angle_le_pi p.dir q.dir
    rw [h, sub_self]
    have h0 := central_nonneg p q
    rw [zero_pow two_ne_zero, add_zero, sqrt_sq (by linarith)]
    unfold central; linarith

/-- C118, vertical: straight above each other the distance is the difference in altitude. -/
theorem C118_vertical (lat lon a b : ℝ) : Pos.dist ⟨lat, lon, a⟩ ⟨lat, lon, b⟩ = |a - b| := by
  have : central ⟨lat, lon, a⟩ ⟨lat, lon, b⟩ = 0 := by
    have e : Pos.dir ⟨lat, lon, b⟩ = Pos.dir ⟨lat, lon, a⟩ := rfl
    rw [central, e]
    exact InnerProductGeometry.angle_self (by rw [← norm_ne_zero_iff, norm_dir]; norm_num)
  rw [dist_eq, this]; simp [sqrt_sq_eq_abs]

/-- C118, violated: the great-circle distance is taken at ground level whatever the altitude, so two satellites on opposite sides of the Earth at one altitude are reported π·6371 km apart; above 3637 km that is less than the straight line through the Earth. -/
theorem C118_altitude_violated (h : ℝ) (hh : 3637 ≤ h) :
    Pos.dist ⟨0, 0, h⟩ ⟨0, 180, h⟩ = 6371 * π ∧ Pos.dist ⟨0, 0, h⟩ ⟨0, 180, h⟩ < ‖Pos.point ⟨0, 0, h⟩ - Pos.point ⟨0, 180, h⟩‖ := by
  have e : Pos.dir ⟨0, 180, h⟩ = -Pos.dir ⟨0, 0, h⟩ := by
    ext i
    fin_cases i <;> simp [Pos.dir, rad, mul_div_cancel_left₀]
  have c : central ⟨0, 0, h⟩ ⟨0, 180, h⟩ = π := by
    rw [central, e]
    exact InnerProductGeometry.angle_self_neg_of_nonzero (by rw [← norm_ne_zero_iff, norm_dir]; norm_num)
  have d : Pos.dist ⟨0, 0, h⟩ ⟨0, 180, h⟩ = 6371 * π := by
    rw [dist_eq, c]; simp only [sub_self, ne_eq, OfNat.ofNat_ne_zero, not_false_eq_true, zero_pow, add_zero]
    exact sqrt_sq (by positivity)
  refine ⟨d, ?_⟩
  rw [d, Pos.point, Pos.point, e]
  simp only [smul_neg, sub_neg_eq_add]
  rw [← two_smul ℝ, smul_smul, norm_smul, norm_dir, mul_one, norm_eq_abs, abs_of_pos (by linarith)]
  have := pi_lt_d4
  linarith

/-- C118, orbit: a generated position keeps the altitude, its latitude never exceeds the inclination, and for times from the epoch on its longitude is at least −180 and below 180 degrees. -/
theorem C118_orbit (inclination alt t : ℝ) : (orbit inclination alt t).alt = alt ∧ |(orbit inclination alt t).lat| ≤ |inclination| ∧
    (0 ≤ t → -180 ≤ (orbit inclination alt t).lon ∧ (orbit inclination alt t).lon < 180) := by
  refine ⟨rfl, ?_, ?_⟩
  · simp only [orbit, abs_mul]
    have := abs_sin_le_one (fmod (t / period alt * 2 * π) (2 * π))
    nlinarith [abs_nonneg inclination]
  · intro h
    obtain ⟨h0, h1⟩ := fmod_bounds (x := t * 15) (y := 360) (by linarith) (by norm_num)
    simp only [orbit]
    constructor <;> linarith

/-- A quantity that repeats itself after `T`. -/
theorem sin_fmod (x : ℝ) : sin (fmod x (2 * π)) = sin x := by
  unfold fmod
  have := (sin_periodic.sub_int_mul_eq (x := x) (trunc (x / (2 * π))))
  rw [← this]; congr 1; ring

/-- C118, period: Kepler's third law, longer for higher orbits; after one period the latitude repeats, and at the epoch it is 0. -/
theorem C118_period {alt : ℝ} (h : -6371 < alt) : 0 < period alt ∧
    (period alt * 3600) ^ 2 * (3986 * 10 ^ 11) = 4 * π ^ 2 * ((6371 + alt) * 1000) ^ 3 ∧ (∀ b, alt < b → period alt < period b) ∧
    (∀ i t, (orbit i alt (t + period alt)).lat = (orbit i alt t).lat) ∧ ∀ i t, (orbit i alt t).lat = i * sin (2 * π * t / period alt) := by
  have hp := pi_pos
  have ha : 0 < (6371 + alt) * 1000 := by linarith
  have pos : 0 < period alt := by unfold period; positivity
  have lat : ∀ i t, (orbit i alt t).lat = i * sin (2 * π * t / period alt) := by
    intro i t
    simp only [orbit, sin_fmod]
    congr 2; ring
  refine ⟨pos, ?_, ?_, ?_, lat⟩
  · unfold period
    rw [div_mul_cancel₀ _ (by norm_num), mul_pow, sq_sqrt (by positivity)]
    field_simp
    ring
  · intro b hb
    unfold period
    apply div_lt_div_of_pos_right _ (by norm_num)
    apply mul_lt_mul_of_pos_left _ (by positivity)
    apply sqrt_lt_sqrt (by positivity)
    apply div_lt_div_of_pos_right _ (by norm_num)
    exact pow_lt_pow_left₀ (by linarith) ha.le (by norm_num)
  · intro i t
    rw [lat, lat]
    congr 1
    rw [mul_add, add_div, mul_div_assoc (2 * π) (period alt), div_self pos.ne', mul_one, sin_add_two_pi]

/-- C118, limit: the longitude is a function of the time alone; a satellite at any altitude goes round the Earth's meridians once in 24 hours. -/
theorem C118_longitude_limit (i j a b t : ℝ) (ht : 0 ≤ t) : (orbit i a t).lon = (orbit j b t).lon ∧ (orbit i a (t + 24)).lon = (orbit i a t).lon := by
  refine ⟨rfl, ?_⟩
  simp only [orbit, fmod, trunc]
  rw [if_pos (by positivity), if_pos (by positivity), show (t + 24) * 15 / 360 = t * 15 / 360 + 1 by ring, Int.floor_add_one]
  push_cast; ring

/-- C118, limit: before the epoch the longitude is −180 or lower, down to −540. -/
theorem C118_before_epoch_limit (i a : ℝ) : (orbit i a (-6)).lon = -270 := by
  simp only [orbit, fmod, trunc]
  rw [if_neg (by norm_num), show ((-6 : ℝ) * 15 / 360) = -(1 / 4) by norm_num, Int.ceil_neg, show ⌊(1 / 4 : ℝ)⌋ = 0 by norm_num]
  norm_num

/-! ### Cases -/

example : (-6371 : ℝ) < 550 := by norm_num
example : (3637 : ℝ) ≤ 35786 := by norm_num
example : (orbit 51 400 0).lat = 0 := by simp [orbit, fmod, trunc]

end Verif.RadEnvironment
