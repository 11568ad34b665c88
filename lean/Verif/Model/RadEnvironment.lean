import Verif.Model.Loop
import Mathlib.Analysis.SpecialFunctions.Trigonometric.Basic
import Mathlib.Analysis.SpecialFunctions.Complex.Arg
import Mathlib.Analysis.SpecialFunctions.Sqrt
/-!
Model of `neural::RadiationEnvironment`, `RadiationFlux` and `OrbitalPosition` (/repo/include/rad_ml/neural/radiation_environment.hpp).

Numbers are real; the exponential, the trigonometric functions and the root are the real ones.  Where the latitude is exactly a pole the division by the cosine gives an infinite L value in the code; the belts' factors are then 0.
`shielding_material_` is not initialised by the constructor, which reads it (undefined behaviour, radiation_environment.hpp:158-169, 409-416): here the constructor takes whatever value is found.
The solar particle model is created but never used and is left out.
-/
namespace Verif.RadEnvironment

/-- `RadiationFlux` (radiation_environment.hpp:30-84). -/
@[ext] structure Flux where
  electron : ℝ
  proton : ℝ
  ion : ℝ
  dose : ℝ

/-- `getTotalFlux` (radiation_environment.hpp:55-57). -/
noncomputable def Flux.total (f : Flux) : ℝ := f.electron + f.proton + f.ion

/-- `scale` (radiation_environment.hpp:64-69). -/
noncomputable def Flux.scale (f : Flux) (k : ℝ) : Flux := ⟨f.electron * k, f.proton * k, f.ion * k, f.dose * k⟩

/-- `operator+` (radiation_environment.hpp:77-84). -/
noncomputable def Flux.plus (f g : Flux) : Flux := ⟨f.electron + g.electron, f.proton + g.proton, f.ion + g.ion, f.dose + g.dose⟩

/-- `OrbitalPosition` (radiation_environment.hpp:90-93). -/
@[ext] structure Pos where
  lat : ℝ
  lon : ℝ
  alt : ℝ

/-- Degrees to radians. -/
noncomputable def rad (x : ℝ) : ℝ := x * Real.pi / 180

/-- `a` of the haversine formula (radiation_environment.hpp:114-121). -/
noncomputable def hav (p q : Pos) : ℝ :=
  Real.sin (rad (q.lat - p.lat) / 2) * Real.sin (rad (q.lat - p.lat) / 2) +
    Real.cos (rad p.lat) * Real.cos (rad q.lat) * Real.sin (rad (q.lon - p.lon) / 2) * Real.sin (rad (q.lon - p.lon) / 2)

/-- `std::atan2(y, x)`: the argument of x + iy. -/
noncomputable def atan2 (y x : ℝ) : ℝ := Complex.arg ⟨x, y⟩

/-- The surface distance (radiation_environment.hpp:122-125). -/
noncomputable def surface (p q : Pos) : ℝ := 6371 * (2 * atan2 (Real.sqrt (hav p q)) (Real.sqrt (1 - hav p q)))

/-- `distanceTo` (radiation_environment.hpp:111-131). -/
noncomputable def Pos.dist (p q : Pos) : ℝ := Real.sqrt (surface p q * surface p q + |p.alt - q.alt| * |p.alt - q.alt|)

/-- `SpaceMission` (radiation_environment.hpp:137-146). -/
inductive Mission where
  | leoEquatorial | leoPolar | meo | geo | lunar | mars | jupiter | solarProbe
  deriving DecidableEq, Repr

/-- The members that are read (radiation_environment.hpp:381-390); the effectiveness values are functions of thickness and material. -/
structure Env where
  mission : Mission
  activity : ℝ
  thickness : ℝ
  material : Int

/-- Constructor (radiation_environment.hpp:158-169); `garbage` is what the uninitialised material holds. -/
noncomputable def Env.new (m : Mission) (garbage : Int) : Env := ⟨m, 1 / 2, 5, garbage⟩

/-- `setSolarActivity` (radiation_environment.hpp:195-197). -/
noncomputable def Env.setActivity (e : Env) (a : ℝ) : Env := { e with activity := if a < 0 then 0 else if 1 < a then 1 else a }

/-- `setShielding` (radiation_environment.hpp:205-209). -/
noncomputable def Env.setShielding (e : Env) (t : ℝ) (material : Int := 0) : Env := { e with thickness := t, material := material }

/-- Attenuation per millimetre (radiation_environment.hpp:404-418): electrons. -/
noncomputable def attE (m : Int) : ℝ := if m = 1 then 1 / 10 else if m = 2 then 1 / 10 * 2 else 1 / 10
/-- Protons. -/
noncomputable def attP (m : Int) : ℝ := if m = 1 then 5 / 100 * (3 / 2) else 5 / 100
/-- Heavy ions. -/
noncomputable def attH (m : Int) : ℝ := if m = 1 then 1 / 100 else if m = 2 then 1 / 100 * (3 / 2) else 1 / 100

/-- The dose rate recomputed from the fluxes (radiation_environment.hpp:435-438, 458-461). -/
noncomputable def Flux.redose (f : Flux) : Flux := { f with dose := f.electron * (1 / 1000) + f.proton * (1 / 100) + f.ion * (1 / 10) }

/-- `applyShielding` (radiation_environment.hpp:429-439) with `updateShieldingEffectiveness` (402-422). -/
noncomputable def Env.shield (e : Env) (f : Flux) : Flux :=
  Flux.redose { f with
    electron := f.electron * Real.exp (-attE e.material * e.thickness)
    proton := f.proton * Real.exp (-attP e.material * e.thickness)
    ion := f.ion * Real.exp (-attH e.material * e.thickness) }

/-- `applySolarActivityEffects` (radiation_environment.hpp:446-462). -/
noncomputable def Env.solar (e : Env) (f : Flux) : Flux :=
  let g := 1 - 3 / 10 * e.activity
  let s := 1 + 10 * e.activity
  Flux.redose { f with
    electron := f.electron * g + f.electron * s * (1 / 2)
    proton := f.proton * g + f.proton * s
    ion := f.ion * g }

/-- South Atlantic anomaly (radiation_environment.hpp:489-517). -/
noncomputable def saa (p : Pos) : Flux :=
  let d := Real.sqrt ((p.lat - -30) * (p.lat - -30) + (p.lon - -40) * (p.lon - -40))
  if d > 20 then ⟨0, 0, 0, 0⟩
  else
    let i := Real.exp (-d * d / (2 * 10 * 10))
    ⟨10 ^ 4 * i, 10 ^ 6 * i, 100 * i, 1 / 10 * i⟩

/-- `l_value` (radiation_environment.hpp:534). -/
noncomputable def lValue (p : Pos) : ℝ := (6371 + p.alt) / 6371 / Real.cos (rad p.lat)

/-- A belt's factor around L = `c` (radiation_environment.hpp:537-540). -/
noncomputable def belt (p : Pos) (c w : ℝ) : ℝ :=
  if Real.cos (rad p.lat) = 0 then 0 else Real.exp (-(lValue p - c) * (lValue p - c) / w)

/-- Van Allen belts (radiation_environment.hpp:524-556). -/
noncomputable def vanAllen (p : Pos) : Flux :=
  let inner := belt p (3 / 2) (1 / 2)
  let outer := belt p (9 / 2) 2
  let k := if p.alt < 1000 then p.alt / 1000 else 1
  ⟨10 ^ 5 * outer * k, 10 ^ 5 * inner * k, 100 * (inner + outer) * k, 5 / 100 * (inner + outer) * k⟩

/-- Galactic cosmic rays (radiation_environment.hpp:563-597). -/
noncomputable def gcr (p : Pos) : Flux :=
  let m := 1 + 1 / 2 * |p.lat| / 90
  let k := if p.alt < 1000 then 7 / 10 + 3 / 10 * p.alt / 1000 else if p.alt < 20000 then 1 + 1 / 2 * (p.alt - 1000) / 19000 else 3 / 2
  ⟨10 ^ 3 * (m * k), 10 ^ 2 * (m * k), 10 * (m * k), 1 / 1000 * (m * k)⟩

/-- The environment of the mission before solar activity and shielding (radiation_environment.hpp:219-270). -/
noncomputable def raw (m : Mission) (p : Pos) : Flux :=
  match m with
  | .leoEquatorial => ((gcr p).plus (vanAllen p)).plus (saa p)
  | .leoPolar => ((gcr p).plus (vanAllen p)).plus (saa p)
  | .meo => (gcr p).plus ((vanAllen p).scale 3)
  | .lunar => (gcr p).scale (3 / 2)
  | .mars => (gcr p).scale 2
  | .jupiter => (gcr p).scale 1000
  | .solarProbe =>
    let distance : ℝ := 1
    if distance < 3 / 10 then (gcr p).scale (10 / (distance * distance)) else gcr p
  | .geo => gcr p

/-- `calculateRadiationFlux` (radiation_environment.hpp:217-279). -/
noncomputable def Env.flux (e : Env) (p : Pos) : Flux := e.shield (e.solar (raw e.mission p))

/-- `calculateSEUProbability` (radiation_environment.hpp:287-304); `device_sensitivity_` is 1. -/
noncomputable def Env.seu (e : Env) (p : Pos) : ℝ :=
  ((e.flux p).electron * (1 / 10 ^ 12) + (e.flux p).proton * (1 / 10 ^ 9) + (e.flux p).ion * (1 / 10 ^ 6)) * 1

/-- `simulateSolarFlare` (radiation_environment.hpp:312-332): the factor returned, and the environment afterwards; the decay function is stored and never called. -/
noncomputable def Env.flare (e : Env) (intensity : ℝ := 1) : ℝ × Env :=
  (1 + intensity * 100, { e with activity := min 1 (e.activity + intensity * (1 / 2)) })

/-- `generateHeatmap` (radiation_environment.hpp:340-349). -/
noncomputable def Env.heatmap (e : Env) (l : List Pos) : List ℝ := l.foldl (fun acc p => acc ++ [e.seu p]) []

/-- Truncation towards zero. -/
noncomputable def trunc (x : ℝ) : Int := if 0 ≤ x then ⌊x⌋ else ⌈x⌉

/-- `fmod`. -/
noncomputable def fmod (x y : ℝ) : ℝ := x - y * trunc (x / y)

/-- `calculateOrbitPeriod` in hours (radiation_environment.hpp:470-482). -/
noncomputable def period (alt : ℝ) : ℝ := 2 * Real.pi * Real.sqrt (((6371 + alt) * 1000) ^ 3 / (3986 * 10 ^ 11)) / 3600

/-- `generateOrbitPosition` (radiation_environment.hpp:359-375). -/
noncomputable def orbit (inclination alt t : ℝ) : Pos :=
  ⟨inclination * Real.sin (fmod (t / period alt * 2 * Real.pi) (2 * Real.pi)), fmod (t * 15) 360 - 180, alt⟩

end Verif.RadEnvironment
