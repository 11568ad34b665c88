import Verif.Model.Materials
import Mathlib.Tactic.Linarith
import Mathlib.Tactic.NormNum
import Mathlib.Tactic.FieldSimp
import Mathlib.Analysis.Complex.ExponentialBounds
/-!
C282: materials. C283: mission environments.
-/
namespace Verif.Props.Materials
open Verif Verif.Materials

theorem factor_pos {m : Material} (h : 0 < m.density) (t : ℝ) : m.factor t = 1 + m.tolerance / 20 * (1 - Real.exp (-(m.density * t / 100))) := by
  unfold Material.factor
  rw [if_neg (not_le.2 h)]
  simp only
  rw [show -(m.density * t / 10) / 10 = -(m.density * t / 100) by ring]
  ring

/-- C282. For every material of positive density and a tolerance between 0 and 100 and every thickness that is not negative: the factor lies
between 1 and 1 + tolerance/20 ≤ 6 and is 1 for no thickness; more thickness, density or tolerance never protects less; the factor tends to nothing
above its bound however thick the material (strictly below it). -/
theorem C282_factor :
    (∀ (m : Material) (t : ℝ), 0 < m.density → 0 ≤ m.tolerance → m.tolerance ≤ 100 → 0 ≤ t → 1 ≤ m.factor t ∧ m.factor t ≤ 1 + m.tolerance / 20 ∧ m.factor t ≤ 6 ∧
      (0 < m.tolerance → m.factor t < 1 + m.tolerance / 20) ∧ (0 < m.tolerance → 0 < t → 1 < m.factor t)) ∧
    (∀ m : Material, m.factor 0 = 1) ∧
    (∀ (m m' : Material) (t t' : ℝ), 0 ≤ t → t ≤ t' → 0 ≤ m.density → m.density ≤ m'.density → 0 ≤ m.tolerance → m.tolerance ≤ m'.tolerance → m.factor t ≤ m'.factor t') := by
  have e1 : ∀ {m : Material} {t : ℝ}, 0 < m.density → 0 ≤ t → Real.exp (-(m.density * t / 100)) ≤ 1 := by
    intro m t h ht
    rw [Real.exp_le_one_iff]
    have := mul_nonneg h.le ht
    linarith
  refine ⟨?_, ?_, ?_⟩
  · intro m t h h0 h1 ht
    rw [factor_pos h]
    have a := e1 h ht
    have b := Real.exp_pos (-(m.density * t / 100))
    have c : 0 ≤ m.tolerance / 20 * (1 - Real.exp (-(m.density * t / 100))) := mul_nonneg (by linarith) (by linarith)
    have d : 0 ≤ m.tolerance / 20 * Real.exp (-(m.density * t / 100)) := mul_nonneg (by linarith) b.le
    refine ⟨by linarith, by linarith, by linarith, ?_, ?_⟩
    · intro hp
      have : 0 < m.tolerance / 20 * Real.exp (-(m.density * t / 100)) := mul_pos (by linarith) b
      linarith
    · intro hp htp
      have : Real.exp (-(m.density * t / 100)) < 1 := by
        rw [Real.exp_lt_one_iff]
        have := mul_pos h htp
        linarith
      have : 0 < m.tolerance / 20 * (1 - Real.exp (-(m.density * t / 100))) := mul_pos (by linarith) (by linarith)
      linarith
  · intro m
    rcases lt_or_ge 0 m.density with h | h
    · rw [factor_pos h]; simp
    · rw [Material.factor, if_pos h]
  · intro m m' t t' ht htt hd hdd h0 h1
    rcases hd.lt_or_eq with h | h
    · have h' : 0 < m'.density := lt_of_lt_of_le h hdd
      rw [factor_pos h, factor_pos h']
      have a := e1 h ht
      have b : Real.exp (-(m'.density * t' / 100)) ≤ Real.exp (-(m.density * t / 100)) := by
        rw [Real.exp_le_exp]
        have := mul_le_mul hdd htt ht h'.le
        linarith
      have : m.tolerance / 20 * (1 - Real.exp (-(m.density * t / 100))) ≤ m'.tolerance / 20 * (1 - Real.exp (-(m'.density * t' / 100))) :=
        mul_le_mul (by linarith) (by linarith) (by linarith) (by linarith)
      linarith
    · rw [Material.factor, if_pos h.symm.le]
      rcases (h.le.trans hdd).lt_or_eq with h' | h'
      · rw [factor_pos h']
        have a := e1 h' (ht.trans htt)
        have : 0 ≤ m'.tolerance / 20 * (1 - Real.exp (-(m'.density * t' / 100))) := mul_nonneg (by linarith) (by linarith)
        linarith
      · rw [Material.factor, if_pos h'.symm.le]

/-- The hypotheses are met by every entry of the table. -/
example : (getMaterial "Tungsten").density = 193 / 10 ∧ (getMaterial "Tungsten").tolerance = 90 := by
  simp [getMaterial, table, List.lookup]

/-- C282. The database: it has exactly eight names, a name in it gives a material that protects (density positive, tolerance in (0, 100]), and every
name that is not in it gives air, which protects not at all (factor 1 for every thickness). -/
theorem C282_database :
    (∀ n, n ∈ available ↔ n = "Aluminum" ∨ n = "Titanium" ∨ n = "Polyethylene" ∨ n = "Silicon" ∨ n = "Tantalum" ∨ n = "Tungsten" ∨ n = "Carbon Fiber" ∨ n = "Rad-Hard Electronics") ∧
    available.Nodup ∧
    (∀ n ∈ available, 0 < (getMaterial n).density ∧ 0 < (getMaterial n).tolerance ∧ (getMaterial n).tolerance ≤ 100) ∧
    (∀ n, n ∉ available → (getMaterial n).name = "Default" ∧ ∀ t, (getMaterial n).factor t = 1) := by
  have hm : ∀ n, n ∈ available ↔ n = "Aluminum" ∨ n = "Titanium" ∨ n = "Polyethylene" ∨ n = "Silicon" ∨ n = "Tantalum" ∨ n = "Tungsten" ∨ n = "Carbon Fiber" ∨ n = "Rad-Hard Electronics" := by
    intro n; simp [available, table]
  refine ⟨hm, by simp [available, table], ?_, ?_⟩
  · intro n hn
    rcases (hm n).1 hn with rfl | rfl | rfl | rfl | rfl | rfl | rfl | rfl <;> simp [getMaterial, table, List.lookup] <;> norm_num
  · intro n hn
    have : getMaterial n = air := by
      rw [hm] at hn
      simp only [not_or] at hn
      obtain ⟨h1, h2, h3, h4, h5, h6, h7, h8⟩ := hn
      have hb : ∀ s : String, n ≠ s → (n == s) = false := fun s h => by simpa using h
      simp [getMaterial, table, List.lookup, hb _ h1, hb _ h2, hb _ h3, hb _ h4, hb _ h5, hb _ h6, hb _ h7, hb _ h8]
    rw [this]
    refine ⟨rfl, fun t => ?_⟩
    have hd : (0 : ℝ) < air.density := by simp [air]
    rw [factor_pos hd]
    simp [air]

/-- C282. The order of the materials: at every positive thickness polyethylene protects less than carbon fibre, that less than aluminium, titanium,
tantalum and tungsten in this order; silicon protects less than aluminium, and the rad-hard package more than aluminium. -/
theorem C282_order (t : ℝ) (ht : 0 < t) :
    (getMaterial "Polyethylene").factor t < (getMaterial "Carbon Fiber").factor t ∧ (getMaterial "Carbon Fiber").factor t < (getMaterial "Aluminum").factor t ∧
    (getMaterial "Aluminum").factor t < (getMaterial "Titanium").factor t ∧ (getMaterial "Titanium").factor t < (getMaterial "Tantalum").factor t ∧
    (getMaterial "Tantalum").factor t < (getMaterial "Tungsten").factor t ∧ (getMaterial "Silicon").factor t < (getMaterial "Aluminum").factor t ∧
    (getMaterial "Aluminum").factor t < (getMaterial "Rad-Hard Electronics").factor t := by
  have key : ∀ m m' : Material, 0 < m.density → m.density ≤ m'.density → 0 < m.tolerance → m.tolerance < m'.tolerance → m.factor t < m'.factor t := by
    intro m m' h hd h0 h1
    rw [factor_pos h, factor_pos (lt_of_lt_of_le h hd)]
    have b : Real.exp (-(m'.density * t / 100)) ≤ Real.exp (-(m.density * t / 100)) := by
      rw [Real.exp_le_exp]
      have := mul_le_mul_of_nonneg_right hd ht.le
      linarith
    have a : Real.exp (-(m.density * t / 100)) < 1 := by
      rw [Real.exp_lt_one_iff]
      have := mul_pos h ht
      linarith
    have : m.tolerance / 20 * (1 - Real.exp (-(m.density * t / 100))) < m'.tolerance / 20 * (1 - Real.exp (-(m'.density * t / 100))) :=
      mul_lt_mul (by linarith) (by linarith) (by linarith) (by linarith)
    linarith
  refine ⟨?_, ?_, ?_, ?_, ?_, ?_, ?_⟩ <;> (apply key <;> simp [getMaterial, table, List.lookup] <;> norm_num)

example : "Lead" ∉ available ∧ "Aluminum" ∈ available := by simp [available, table]

/-- C282 fails in three ways. A material cannot be looked up by the name it carries: the names of the carbon fibre and of the rad-hard package both give
air. A negative thickness gives a factor below 1 for every material of the table, without bound. And the factor ranks the shielding material
polyethylene below titanium at every thickness, even for equal mass per area. -/
theorem C282_names_violated :
    ((∃ n ∈ available, getMaterial (getMaterial n).name ≠ getMaterial n ∧ (getMaterial (getMaterial n).name).name = "Default") ∧
      (getMaterial (getMaterial "Carbon Fiber").name).name = "Default" ∧ (getMaterial (getMaterial "Rad-Hard Electronics").name).name = "Default") ∧
    (∀ n ∈ available, ∀ t < 0, (getMaterial n).factor t < 1) ∧
    (∀ n ∈ available, ∀ b : ℝ, ∃ t < 0, (getMaterial n).factor t < b) ∧
    (∀ t t' : ℝ, 0 < t → (getMaterial "Polyethylene").density * t = (getMaterial "Titanium").density * t' →
      (getMaterial "Polyethylene").factor t < (getMaterial "Titanium").factor t') := by
  have c1 : (getMaterial (getMaterial "Carbon Fiber").name).name = "Default" := by simp [getMaterial, table, List.lookup, air]
  have c2 : (getMaterial (getMaterial "Rad-Hard Electronics").name).name = "Default" := by simp [getMaterial, table, List.lookup, air]
  refine ⟨⟨⟨"Carbon Fiber", by simp [available, table], ?_, c1⟩, c1, c2⟩, ?_, ?_, ?_⟩
  · intro h
    have := congrArg Material.name h
    rw [c1] at this
    simp [getMaterial, table, List.lookup] at this
  · intro n hn t ht
    obtain ⟨h1, h2, _⟩ := C282_database.2.2.1 n hn
    rw [factor_pos h1]
    have : 1 < Real.exp (-((getMaterial n).density * t / 100)) := by
      rw [Real.one_lt_exp_iff]
      have := mul_neg_of_pos_of_neg h1 ht
      linarith
    have := mul_pos (show 0 < (getMaterial n).tolerance / 20 by linarith) (sub_pos.2 this)
    linarith
  · intro n hn b
    obtain ⟨h1, h2, _⟩ := C282_database.2.2.1 n hn
    generalize getMaterial n = m at h1 h2
    -- 1 - exp x ≤ -x, so the factor is at most 1 - tolerance/20 * x for x = -(density * t / 100)
    refine ⟨-(100 * (20 * (|b| + 2) / m.tolerance) / m.density), by
      have : 0 < 100 * (20 * (|b| + 2) / m.tolerance) / m.density := by positivity
      linarith, ?_⟩
    rw [factor_pos h1, show -(m.density * -(100 * (20 * (|b| + 2) / m.tolerance) / m.density) / 100) = 20 * (|b| + 2) / m.tolerance by field_simp]
    have e := Real.add_one_le_exp (20 * (|b| + 2) / m.tolerance)
    have : m.tolerance / 20 * (1 - Real.exp (20 * (|b| + 2) / m.tolerance)) ≤ m.tolerance / 20 * (-(20 * (|b| + 2) / m.tolerance)) :=
      mul_le_mul_of_nonneg_left (by linarith) (by linarith)
    rw [show m.tolerance / 20 * (-(20 * (|b| + 2) / m.tolerance)) = -(|b| + 2) by field_simp] at this
    have := neg_abs_le b
    linarith
  · intro t t' ht h
    have hp : (getMaterial "Polyethylene").density = 94 / 100 ∧ (getMaterial "Polyethylene").tolerance = 30 := by simp [getMaterial, table, List.lookup]
    have hq : (getMaterial "Titanium").density = 45 / 10 ∧ (getMaterial "Titanium").tolerance = 70 := by simp [getMaterial, table, List.lookup]
    rw [factor_pos (by rw [hp.1]; norm_num), factor_pos (by rw [hq.1]; norm_num), ← h, hp.1, hp.2, hq.2]
    have : Real.exp (-(94 / 100 * t / 100)) < 1 := by
      rw [Real.exp_lt_one_iff]; linarith
    linarith

example : ∃ t t' : ℝ, 0 < t ∧ (getMaterial "Polyethylene").density * t = (getMaterial "Titanium").density * t' :=
  ⟨450, 94, by norm_num, by simp [getMaterial, table, List.lookup]; norm_num⟩

/-- C283. Mission environments: the total is the sum of the four fluxes whatever their order and grows with each; an environment is "high" exactly if the
total exceeds 10⁸, it lies in the anomaly or the solar activity exceeds 0.7; once high, more flux, more solar activity or entering the anomaly never
makes it low; the mean temperature lies between the two ends of any proper range; the default environment is not high and has mean 283 K. -/
theorem C283_environment :
    (∀ e : Environment, e.totalFlux = e.solarEvent + e.cosmic + e.electron + e.proton) ∧
    (∀ e : Environment, ¬e.isHigh ↔ e.proton + e.electron + e.cosmic + e.solarEvent ≤ 100000000 ∧ e.saa = false ∧ e.solarActivity ≤ 7 / 10) ∧
    (∀ e e' : Environment, e.proton ≤ e'.proton → e.electron ≤ e'.electron → e.cosmic ≤ e'.cosmic → e.solarEvent ≤ e'.solarEvent →
      (e.saa = true → e'.saa = true) → e.solarActivity ≤ e'.solarActivity → e.isHigh → e'.isHigh) ∧
    (∀ e : Environment, e.tempMin ≤ e.tempMax → e.tempMin ≤ e.averageTemperature ∧ e.averageTemperature ≤ e.tempMax ∧
      e.averageTemperature - e.tempMin = e.tempMax - e.averageTemperature) ∧
    (¬({} : Environment).isHigh ∧ ({} : Environment).averageTemperature = 283) := by
  refine ⟨fun e => by unfold Environment.totalFlux; ring, ?_, ?_, ?_, ?_⟩
  · intro e
    simp [Environment.isHigh, Environment.totalFlux]
  · intro e e' h1 h2 h3 h4 h5 h6 h
    unfold Environment.isHigh Environment.totalFlux at *
    rcases h with h | h | h
    · left; linarith
    · right; left; exact h5 h
    · right; right; linarith
  · intro e h
    unfold Environment.averageTemperature
    refine ⟨?_, ?_, ?_⟩ <;> linarith
  · constructor
    · simp [Environment.isHigh, Environment.totalFlux]; norm_num
    · simp [Environment.averageTemperature]; norm_num

example : ({ saa := true } : Environment).isHigh ∧ ¬({ proton := 99999999, solarActivity := 7 / 10 } : Environment).isHigh := by
  constructor
  · right; left; rfl
  · simp [Environment.isHigh, Environment.totalFlux]; norm_num

end Verif.Props.Materials
