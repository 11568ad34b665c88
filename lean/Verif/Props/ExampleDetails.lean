import Verif.Props.SimpleNN
import Verif.Props.MissionDemo
import Verif.Props.MaterialPhysics
import Verif.Props.LeoMission
/-! Details of the examples and tests of C364, C370, C372 and C392 that mutation showed to be unpinned: initial values, registered regions, length of the mission, assertions of a test. -/
namespace Verif.Props.ExampleDetails

section nn
open Verif Verif.Fixed Verif.SimpleNN

/-- `r` is the raw value of `x` rounded down to a multiple of 2^-24. -/
def Rounds (x : ℚ) (r : Int) : Prop := (r : ℚ) ≤ x * 2 ^ 24 ∧ x * 2 ^ 24 < r + 1

instance (x : ℚ) (r : Int) : Decidable (Rounds x r) := inferInstanceAs (Decidable (_ ∧ _))

/-- **C392 (initial values).** The weight from input `i` to unit `j` is read as `i/10 + j/5`, the one from unit `i` to the output as `3i/10`, and the inputs are 0.5 and 0.8, each rounded down to a multiple of 2^-24; the hidden sums of the program are within two such steps of `0.08 + 0.26 j`. -/
theorem C392_initial : (∀ (i : Fin 2) (j : Fin 3), Rounds (i.val / 10 + j.val / 5) (readW (Net.new.ih i j))) ∧ (∀ i : Fin 3, Rounds (i.val * 3 / 10) (readW (Net.new.ho i))) ∧
    Rounds (1 / 2) (input 0) ∧ Rounds (4 / 5) (input 1) ∧
    ∀ j : Fin 3, ∃ s, Net.new.sum input j = .ok s ∧ (s : ℚ) ≤ (8 / 100 + 26 / 100 * j.val) * 2 ^ 24 ∧ (8 / 100 + 26 / 100 * j.val) * 2 ^ 24 < s + 4 := by
  refine ⟨by decide +kernel, by decide +kernel, by decide +kernel, by decide +kernel, ?_⟩
  intro j
  fin_cases j
  · exact ⟨1342176, by decide +kernel, by norm_num, by norm_num⟩
  · exact ⟨5704251, by decide +kernel, by norm_num, by norm_num⟩
  · exact ⟨10066329, by decide +kernel, by norm_num, by norm_num⟩
end nn

section demo
open Verif.MissionDemo Verif.RadSimulator Verif.MissionSim Verif.Props.MissionDemo

theorem registered : ∀ (vs : List V) (s : Sim), (vs.foldl (fun (s : Sim) (v : V) => s.register (Crc.bytesOf 4 v) true) s).regions = s.regions ++ vs.map (fun v => ⟨Crc.bytesOf 4 v, true⟩)
  | [], s => by simp
  | v :: vs, s => by rw [List.foldl_cons, registered vs]; simp [Sim.register]

/-- **C370 (registration).** What the mission can strike is, for every weight drawn, one region that holds its four bytes and is declared protected; nothing else. -/
theorem C370_registered (eq : V → V → Bool) (crc : V → BitVec 32) (mission : String) (vs : List V) (hv : ∀ v ∈ vs, eq v v = true) (t0 : ℤ) (now : ℕ → ℤ) (rnd : ℕ → ℚ) (rng : ℕ → ℝ) (src : Src) :
    (start eq crc mission vs t0 now rnd rng src).1.regions = vs.map fun v => ⟨Crc.bytesOf 4 v, true⟩ := by
  have hc := (readAll_clean eq crc now rnd vs hv 0 _ (setUp_clean crc (Sim.update (Sim.new (Profile.standard mission) (Config.standard mission) rng src) (boost (Sim.new (Profile.standard mission) (Config.standard mission) rng src).env 50)).cfg (new_clean crc t0 vs))).1
  unfold start
  dsimp only
  rw [hc, registered]
  rfl

/-- **C370 (length).** A mission of the program that ends has gone through exactly ten steps of three seconds, and calls back at most once in each. -/
theorem C370_length (eq : V → V → Bool) (crc : V → BitVec 32) (mac : V → V → V) (mission : String) (vs : List V) (t0 : ℤ) (now : ℕ → ℤ) (rnd : ℕ → ℚ) (rng : ℕ → ℝ) (src : Src)
    (out : (V × (ℕ × ℕ)) × Net) (envs : List Params) (h : main eq crc mac mission vs t0 now rnd rng src = .ok (out, envs)) :
    ∃ u d m t, (start eq crc mission vs t0 now rnd rng src).1.run 30 3000 = .ok (envs, t) ∧ Steps 3000 (start eq crc mission vs t0 now rnd rng src).1 ⟨0, 0, 0⟩ envs u d 10 m ∧ envs.length ≤ 10 := by
  unfold main at h
  dsimp only at h
  obtain ⟨r, h1, h2⟩ := bind_ok.mp h
  simp only [R.ok.injEq, Prod.mk.injEq] at h2
  obtain ⟨-, rfl⟩ := h2
  obtain ⟨u, d, n, m, g1, g2, g3, -⟩ := run_steps (s := (start eq crc mission vs t0 now rnd rng src).1) (t := r.2) (l := r.1) h1
  have hn : n = 10 := by
    have : n ≠ 0 := by rintro rfl; norm_num at g2
    have := g3 this
    omega
  subst hn
  refine ⟨u, d, m, r.2, h1, g1, ?_⟩
  have len : ∀ {ms : ℤ} {s t : Sim} {c d : Clock} {l : List Params} {n m : ℕ}, Steps ms s c l t d n m → l.length ≤ n := by
    intro ms s t c d l n m h
    induction h with
    | nil => simp
    | cons a b ih =>
      have := a.calls
      rw [List.length_append]
      split_ifs at this <;> subst this <;> simp <;> omega
  exact len g1
end demo

section material
open Verif.MatPhys

/-- **C364 (assertions).** What the test accepts: of the three missions it names two materials each, and everything for other missions. -/
theorem C364_accepted (m b : String) : accepted m b = true ↔
    (m, b) ∈ [("LEO", "Aluminum"), ("LEO", "Polyethylene"), ("MARS", "Polyethylene"), ("MARS", "Water"), ("JUPITER", "Polyethylene"), ("JUPITER", "Boron Carbide")] ∨ m ∉ ["LEO", "MARS", "JUPITER"] := by
  unfold accepted
  by_cases h1 : m = "LEO"
  · subst h1; simp
  · by_cases h2 : m = "MARS"
    · subst h2; simp
    · by_cases h3 : m = "JUPITER"
      · subst h3; simp
      · simp [h1, h2, h3]

/-- **C364 (densities).** In the order polyethylene, water, boron carbide, aluminium, lead the materials get denser; none is more than twelve times as dense as another, and lead is between 11.3 and 11.4 times as dense as water. -/
theorem C364_density : (polyethylene.density < water.density ∧ water.density < boronCarbide.density ∧ boronCarbide.density < aluminum.density ∧ aluminum.density < lead.density) ∧
    (∀ a ∈ materials, ∀ b ∈ materials, a.density ≤ 12 * b.density) ∧ 113 / 10 * water.density < lead.density ∧ lead.density < 114 / 10 * water.density := by
  refine ⟨by simp only [polyethylene, water, boronCarbide, aluminum, lead]; norm_num, ?_, by simp only [water, lead]; norm_num, by simp only [water, lead]; norm_num⟩
  intro a ha b hb
  simp only [materials, List.mem_cons, List.not_mem_nil, or_false] at ha hb
  rcases ha with rfl | rfl | rfl | rfl | rfl <;> rcases hb with rfl | rfl | rfl | rfl | rfl <;> simp only [polyethylene, water, boronCarbide, aluminum, lead] <;> norm_num
end material

section leo
open Verif.QuantumField Verif.QuantumPhysics Verif.LeoMission

/-- **C336 (forced defects).** Defects are added only for electrons without any vacancies recorded, and then whatever interstitials and clusters are recorded: a quarter, seven tenths and a twentieth of a thousandth of the flux to interstitials, vacancies and clusters of electrons; those recorded before stay, and so do those of all other types. -/
theorem C336_forced (n : ℝ) (k : Particle) (d : Defects) :
    (k ≠ .electron → force n k d = d) ∧ ((∃ x l, d.vac k = some (x :: l)) → force n k d = d) ∧
    (d.vac .electron = none ∨ d.vac .electron = some [] →
      (force n .electron d).vac .electron = some [n * 0.0007] ∧ (force n .electron d).inter .electron = some ((d.inter .electron).getD [] ++ [n * 0.00025]) ∧
      (force n .electron d).clus .electron = some ((d.clus .electron).getD [] ++ [n * 0.00005]) ∧
      ∀ j, j ≠ .electron → (force n .electron d).vac j = d.vac j ∧ (force n .electron d).inter j = d.inter j ∧ (force n .electron d).clus j = d.clus j) := by
  refine ⟨fun h => ?_, fun ⟨x, l, h⟩ => ?_, fun h => ?_⟩
  · unfold force; rw [if_neg (fun g => h g.1)]
  · unfold force; rw [if_neg]; rintro ⟨-, g⟩; rw [h] at g; cases g
  · have g : (d.vac .electron).getD [] = [] := by rcases h with h | h <;> rw [h] <;> rfl
    unfold force
    rw [if_pos ⟨rfl, g⟩]
    refine ⟨?_, ?_, ?_, fun j hj => ?_⟩
    · simp only [putAt, if_true, g, List.nil_append, Option.some.injEq, List.cons.injEq, and_true]; ring
    · simp only [putAt, if_true]; congr 3; ring
    · simp only [putAt, if_true]; congr 3; ring
    · simp only [putAt, if_neg hj, and_self]

example : (∃ x l, Defects.default.vac .proton = some (x :: l)) ∧ Defects.default.vac .electron = none := by
  refine ⟨⟨1, [2, 3], by simp [Defects.default]⟩, by simp [Defects.default]⟩
end leo

end Verif.Props.ExampleDetails
