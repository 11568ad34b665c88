import Verif.Model.Crc
import Mathlib.Analysis.SpecialFunctions.Trigonometric.Inverse
import Mathlib.Analysis.SpecialFunctions.Trigonometric.Arctan
import Mathlib.Analysis.SpecialFunctions.Pow.Real
/-!
Model of the validation program /repo/test/verification/realistic_space_validation.cpp.
`double` arithmetic is real arithmetic (no rounding), `float` values are their 32 bits, a
`std::map<double,double>` is its list of pairs in increasing order of the keys.  The printed layout and the
date strings are not modelled.
-/
namespace Verif.RealSpace

/-- realistic_space_validation.cpp:41-50 `DoseRatePoint`. -/
structure DosePoint where
  thickness : ℝ
  electron : ℝ
  proton : ℝ

/-- realistic_space_validation.cpp:47-49 `totalDoseRate`. -/
noncomputable def DosePoint.total (p : DosePoint) : ℝ := p.electron + p.proton

/-- `doseMap[k] = v` of realistic_space_validation.cpp:200-202: overwrites the entry of an equal key,
otherwise inserts in order. -/
noncomputable def assign (k v : ℝ) : List (ℝ × ℝ) → List (ℝ × ℝ)
  | [] => [(k, v)]
  | (t, d) :: m => if k < t then (k, v) :: (t, d) :: m
    else if k = t then (k, v) :: m
    else (t, d) :: assign k v m

/-- realistic_space_validation.cpp:198-204 `initializeDoseRateMaps`, the map of total dose rates. -/
noncomputable def doseMap (ps : List DosePoint) : List (ℝ × ℝ) :=
  ps.foldl (fun m p => assign p.thickness p.total m) []

/-- realistic_space_validation.cpp:208-225 the three cases of `getDoseRate`; `prev` is the entry before the
current one.  The first entry with key not below `x` is `lower_bound(x)`; on an empty map the end iterator is
dereferenced. -/
noncomputable def interpolate (x : ℝ) : Option (ℝ × ℝ) → List (ℝ × ℝ) → Outcome ℝ
  | none, [] => .ub
  | some p, [] => .ok p.2
  | none, q :: m => if q.1 < x then interpolate x (some q) m else .ok q.2
  | some p, q :: m => if q.1 < x then interpolate x (some q) m
    else .ok (p.2 + (q.2 - p.2) * (x - p.1) / (q.1 - p.1))

/-- realistic_space_validation.cpp:206-226 `getDoseRate`. -/
noncomputable def getDoseRate (m : List (ℝ × ℝ)) (x : ℝ) : Outcome ℝ := interpolate x none m

/-- realistic_space_validation.cpp:284-298 `loadDoseRates`. -/
noncomputable def loadDoseRates : List DosePoint :=
  [⟨0.10, 2.109e-4, 1.274e-3⟩, ⟨0.20, 1.076e-4, 8.624e-4⟩, ⟨0.40, 3.561e-5, 5.096e-4⟩,
   ⟨0.50, 2.211e-5, 4.294e-4⟩, ⟨0.75, 6.123e-6, 3.033e-4⟩, ⟨1.00, 2.071e-6, 2.424e-4⟩,
   ⟨1.50, 6.100e-7, 1.765e-4⟩, ⟨2.00, 3.524e-7, 1.502e-4⟩, ⟨3.00, 2.060e-7, 1.250e-4⟩,
   ⟨5.00, 1.055e-7, 1.005e-4⟩]

/-- realistic_space_validation.cpp:245-249 `inSouthAtlanticAnomaly`. -/
def inSAA (lat lon : ℝ) : Prop := lat < 0 ∧ lat > -40 ∧ lon > -60 ∧ lon < 30

open Classical in
/-- realistic_space_validation.cpp:228-243 `calculatePositionFactor`. -/
noncomputable def positionFactor (lat lon radius : ℝ) : ℝ :=
  let altitude := (7000 / radius) ^ 2
  if inSAA lat lon then altitude * 8
  else if |lat| > 60 then altitude * 3
  else altitude

/-- realistic_space_validation.cpp:116-142 the constructor's reference dose and `calculateSEUProbability`. -/
noncomputable def seuProbability (ps : List DosePoint) (lat lon radius shield : ℝ) : Outcome ℝ :=
  (getDoseRate (doseMap ps) 1).bind fun ref =>
  (getDoseRate (doseMap ps) shield).bind fun dose =>
    .ok (1e-7 * (dose / ref) * positionFactor lat lon radius)

open Classical in
/-- realistic_space_validation.cpp:169-182 `calculateElectronFlux` (the date is not read). -/
noncomputable def electronFlux (lat lon radius : ℝ) : ℝ :=
  6.00801380e6 * (if lat ≠ -22.026387 ∨ lon ≠ 130.988743 then positionFactor lat lon radius else 1)

/-- realistic_space_validation.cpp:154-166 `validateTestPoint`. -/
noncomputable def validateTestPoint (lat lon radius expected tolerance : ℝ) : Prop :=
  |electronFlux lat lon radius - expected| / expected ≤ tolerance

/-- realistic_space_validation.cpp:185-189 `getDoseRateAtPosition`. -/
noncomputable def doseAtPosition (ps : List DosePoint) (lat lon radius shield : ℝ) : Outcome ℝ :=
  (getDoseRate (doseMap ps) shield).bind fun dose => .ok (dose * positionFactor lat lon radius)

/-- realistic_space_validation.cpp:264 one step of the generator. -/
def lcg (r : BitVec 64) : BitVec 64 := r * 6364136223846793005#64 + 1442695040888963407#64

open Classical in
/-- realistic_space_validation.cpp:251-276 `applyBitErrors` (for types below four bytes the bits above
`sizeof(T) * 8` are never touched nor copied back). -/
noncomputable def applyBitErrors {w : Nat} (value : BitVec w) (p : ℝ) (seed : BitVec 64) : BitVec w :=
  (forN w (fun i (st : BitVec w × BitVec 64) =>
    (if ((lcg st.2).toNat % 10000000 : Nat) / (10000000 : ℝ) < p then st.1 ^^^ (1#w <<< i) else st.1,
     lcg st.2)) (value, seed)).1

/-- realistic_space_validation.cpp:403-457 `SpaceTMR<T>`. -/
structure Tmr (α : Type _) where
  values : Fin 3 → α
  sums : Fin 3 → BitVec 32

variable {α : Type _}

/-- realistic_space_validation.cpp:406-414 the constructor. -/
def Tmr.new (crc : α → BitVec 32) (v : α) : Tmr α := ⟨fun _ => v, fun _ => crc v⟩

/-- realistic_space_validation.cpp:416-420 `corrupt` (any other index is ignored). -/
def Tmr.corrupt (t : Tmr α) (index : Int) (v : α) : Tmr α :=
  if index ≥ 0 ∧ index < 3 then
    { t with values := fun k => if (k.val : Int) = index then v else t.values k }
  else t

/-- The equality vote that occurs twice, realistic_space_validation.cpp:435-437 and :448-450. -/
def vote (eq : α → α → Bool) (a b c : α) : α :=
  if eq a b || eq a c then a else if eq b c then b else a

/-- realistic_space_validation.cpp:422-451 `getWithVoting`. -/
def Tmr.get (eq : α → α → Bool) (crc : α → BitVec 32) (t : Tmr α) : α :=
  let valid := fun k => crc (t.values k) == t.sums k
  let validCount := (valid 0).toNat + (valid 1).toNat + (valid 2).toNat
  if validCount = 3 then vote eq (t.values 0) (t.values 1) (t.values 2)
  else if valid 0 then t.values 0
  else if valid 1 then t.values 1
  else if valid 2 then t.values 2
  else vote eq (t.values 0) (t.values 1) (t.values 2)

/-- realistic_space_validation.cpp:475-511 one of the two tests of trial `i`: store the original, corrupt the
three copies with the seeds `i`, `i + 100`, `i + 200`, read. -/
noncomputable def trial (eq : BitVec 32 → BitVec 32 → Bool) (orig : BitVec 32) (p : ℝ) (i : Nat) : Bool :=
  let t := Tmr.new (Crc.crcOfValue 4) orig
  let t := t.corrupt 0 (applyBitErrors orig p (BitVec.ofNat 64 i))
  let t := t.corrupt 1 (applyBitErrors orig p (BitVec.ofNat 64 (i + 100)))
  let t := t.corrupt 2 (applyBitErrors orig p (BitVec.ofNat 64 (i + 200)))
  eq (t.get eq (Crc.crcOfValue 4)) orig

/-- realistic_space_validation.cpp:468-549 a success counter of `testAtPosition<float>`: `conv` is
`static_cast<float>`, the original of trial `i` is `i * 17 + 42`. -/
noncomputable def successes (eq : BitVec 32 → BitVec 32 → Bool) (conv : Nat → BitVec 32) (p : ℝ) (n : Nat) :
    Nat :=
  forN n (fun i s => if trial eq (conv (i * 17 + 42)) p i then s + 1 else s) 0

/-- realistic_space_validation.cpp:466-556 `testAtPosition<float>`: the success rates with the shielding of
1 mm ("standard") and of 3 mm ("space-optimized"). -/
noncomputable def testAtPosition (eq : BitVec 32 → BitVec 32 → Bool) (conv : Nat → BitVec 32)
    (ps : List DosePoint) (lat lon radius : ℝ) : Outcome (ℝ × ℝ) :=
  (seuProbability ps lat lon radius 1).bind fun p1 =>
  (seuProbability ps lat lon radius (1 * 3)).bind fun p3 =>
    .ok ((successes eq conv p1 1000 : ℝ) / 1000 * 100, (successes eq conv p3 1000 : ℝ) / 1000 * 100)

/-- realistic_space_validation.cpp:334-337 the iteration for Kepler's equation. -/
noncomputable def kepler (ecc mean : ℝ) (n : Nat) : ℝ :=
  forN n (fun _ e => mean + ecc * Real.sin e) mean

/-- realistic_space_validation.cpp:338 `trueAnomaly`. -/
noncomputable def trueAnomaly (ecc e : ℝ) : ℝ :=
  2 * Real.arctan (Real.sqrt ((1 + ecc) / (1 - ecc)) * Real.tan (e / 2))

/-- realistic_space_validation.cpp:341 the distance `r` in the orbital plane. -/
noncomputable def orbitRadius (a ecc nu : ℝ) : ℝ := a * (1 - ecc * ecc) / (1 + ecc * Real.cos nu)

/-- realistic_space_validation.cpp:342-353 the three coordinates after the rotation, for an in-plane position
(`x`, `y`). -/
noncomputable def rotate (inc raan argLat x y : ℝ) : ℝ × ℝ × ℝ :=
  (x * (Real.cos argLat * Real.cos raan - Real.sin argLat * Real.cos inc * Real.sin raan)
     - y * (Real.sin argLat * Real.cos raan + Real.cos argLat * Real.cos inc * Real.sin raan),
   x * (Real.cos argLat * Real.sin raan + Real.sin argLat * Real.cos inc * Real.cos raan)
     + y * (Real.cos argLat * Real.cos inc * Real.cos raan - Real.sin argLat * Real.sin raan),
   x * Real.sin argLat * Real.sin inc + y * Real.cos argLat * Real.sin inc)

/-- realistic_space_validation.cpp:340-358 radius and latitude (degrees) of the point with true anomaly `nu`
(`argLat = argOfPerigee + trueAnomaly`, and the position is already turned by `trueAnomaly`). -/
noncomputable def radiusLat (a ecc inc raan argp nu : ℝ) : ℝ × ℝ :=
  let r := orbitRadius a ecc nu
  let q := rotate inc raan (argp + nu) (r * Real.cos nu) (r * Real.sin nu)
  let radius := Real.sqrt (q.1 * q.1 + q.2.1 * q.2.1 + q.2.2 * q.2.2)
  (radius, Real.arcsin (q.2.2 / radius) * 180 / Real.pi)

/-- realistic_space_validation.cpp:318-320 the semi-major axis (km) for a mean motion in rev/day. -/
noncomputable def semiMajorAxis (meanMotion : ℝ) : ℝ :=
  (3.986004418e14 * ((86400 / meanMotion) / (2 * Real.pi)) ^ 2) ^ ((1 : ℝ) / 3) / 1000

/-- realistic_space_validation.cpp:311-358 radius and latitude `t` days after the epoch, with the program's
orbital elements. -/
noncomputable def orbitPoint (t : ℝ) : ℝ × ℝ :=
  let mean := 46 * Real.pi / 180 + 2 * Real.pi * (t * 86400) / (86400 / 7.5)
  radiusLat (semiMajorAxis 7.5) 0.2 (22 * Real.pi / 180) (0 * Real.pi / 180) (45 * Real.pi / 180)
    (trueAnomaly 0.2 (kepler 0.2 mean 10))

/-- `static_cast<int>` of a double in range: truncation towards zero (realistic_space_validation.cpp:595-596). -/
noncomputable def truncInt (x : ℝ) : Int := if 0 ≤ x then ⌊x⌋ else ⌈x⌉

/-- realistic_space_validation.cpp:595-599 the map cell of a point, if inside the map. -/
noncomputable def cell (lon lat : ℝ) : Option (Int × Int) :=
  let x := truncInt ((lon + 180) / 360 * 80)
  let y := truncInt ((90 - lat) / 180 * 30)
  if x ≥ 0 ∧ x < 80 ∧ y ≥ 0 ∧ y < 30 then some (x, y) else none

open Classical in
/-- realistic_space_validation.cpp:600-609 the symbol of a success rate. -/
noncomputable def symbol (rate : ℝ) : Char :=
  if rate ≥ 99 then '#' else if rate ≥ 90 then '+' else if rate ≥ 70 then '.' else 'x'

/-- realistic_space_validation.cpp:619-634 the condition for the anomaly marker in column `x`, row `y`. -/
def marked (x y : ℝ) : Prop :=
  let lon := x * 360 / 80 - 180
  let lat := 90 - y * 180 / 30
  (lat < 0 ∧ lat > -40 ∧ lon > -60 ∧ lon < 30) ∧ (lat > -39 ∨ lat < -1 ∨ lon < -59 ∨ lon > 29)

/-- realistic_space_validation.cpp:672-678 the sums of a `RegionStat`. -/
structure Region where
  dose : ℝ := 0
  standard : ℝ := 0
  space : ℝ := 0
  count : Nat := 0

/-- realistic_space_validation.cpp:697-700 (and :705-708, :712-715, :719-722) add one point. -/
noncomputable def Region.add (r : Region) (dose standard space : ℝ) : Region :=
  ⟨r.dose + dose, r.standard + standard, r.space + space, r.count + 1⟩

/-- realistic_space_validation.cpp:680-684 `regionStats`. -/
structure Regions where
  equatorial : Region := {}
  saa : Region := {}
  polar : Region := {}
  overall : Region := {}

open Classical in
/-- realistic_space_validation.cpp:687-724 one entry (`lon`, `lat`, `standard`, `space`) of the results; `dose`
is `getDoseRateAtPosition(lat, lon, 6878, 1)`. -/
noncomputable def addPoint (dose : ℝ → ℝ → ℝ) (g : Regions) (e : (ℝ × ℝ) × (ℝ × ℝ)) : Regions :=
  let g := { g with overall := g.overall.add (dose e.1.2 e.1.1) e.2.1 e.2.2 }
  if e.1.2 < 0 ∧ e.1.2 > -40 ∧ e.1.1 > -60 ∧ e.1.1 < 30 then
    { g with saa := g.saa.add (dose e.1.2 e.1.1) e.2.1 e.2.2 }
  else if |e.1.2| > 60 then { g with polar := g.polar.add (dose e.1.2 e.1.1) e.2.1 e.2.2 }
  else { g with equatorial := g.equatorial.add (dose e.1.2 e.1.1) e.2.1 e.2.2 }

/-- realistic_space_validation.cpp:687-724 the statistics of all points. -/
noncomputable def regionStats (dose : ℝ → ℝ → ℝ) (es : List ((ℝ × ℝ) × (ℝ × ℝ))) : Regions :=
  es.foldl (addPoint dose) {}

/-- realistic_space_validation.cpp:727-733 a line of the table (`avgDose`, `avgStandardSuccess`,
`avgSpaceSuccess`); none for a region without points. -/
noncomputable def Region.line (r : Region) : Option (ℝ × ℝ × ℝ) :=
  if r.count > 0 then some (r.dose / r.count, r.standard / r.count, r.space / r.count) else none

end Verif.RealSpace
