import Mathlib.Data.Rat.Defs
import Mathlib.Algebra.Order.Ring.Rat

/-!
# The two programs that compare the baseline with the enhanced framework

src/enhancement_comparison.cpp and src/enhanced_vs_baseline_test.cpp.  Both programs call nothing of
the framework: every figure they print is computed by `testFramework` from the settings alone.
Doubles are exact rational numbers (every finite double is one; rounding is not modelled);
printing, colours and the measured time are not modelled.
-/
namespace Verif.EnhComp

/-- enhancement_comparison.cpp:25-32. -/
inductive Target | leo | geo | moon | mars | jupiter | solar
  deriving DecidableEq, Repr

/-- enhancement_comparison.cpp:47-53: name, the three settings, the target. -/
structure Env where
  name : String
  radiation : ℚ
  temperature : ℚ
  power : ℚ
  target : Target
  deriving DecidableEq

/-- enhancement_comparison.cpp:58-65. -/
structure Result where
  efficiency : ℚ
  errorRate : ℚ
  accuracy : ℚ
  resource : ℚ
  power : ℚ
  passed : Bool
  deriving DecidableEq

/-- enhancement_comparison.cpp:70-77 without the name; all flags are off by default. -/
structure Config where
  enhanced : Bool := false
  missions : Bool := false
  analyzer : Bool := false
  dynamic : Bool := false
  policy : Bool := false
  deriving DecidableEq

/-- enhancement_comparison.cpp:127-133. -/
def baselineCfg : Config := {}
/-- enhancement_comparison.cpp:135-141. -/
def enhancedCfg : Config :=
  { enhanced := true, missions := true, analyzer := true, dynamic := true, policy := true }

/-- The running values of `testFramework`: efficiency, error rate, resource and power usage
(enhancement_comparison.cpp:357-366). -/
structure Acc where
  eff : ℚ
  err : ℚ
  res : ℚ
  pow : ℚ

/-- The switch on the target, enhancement_comparison.cpp:376-392: what is added to the efficiency and
taken from the error rate. -/
def missionBonus : Target → ℚ × ℚ
  | .jupiter => (1/10, 2/100)
  | .solar => (8/100, 15/1000)
  | .mars => (7/100, 1/100)
  | _ => (5/100, 1/100)

/-- enhancement_comparison.cpp:355-366: the values before any enhancement. -/
def start (r : ℚ) : Acc := ⟨65/100, 1/10 + r * (3/10), 1, 1⟩

/-- enhancement_comparison.cpp:374-393. -/
def stepMission (on : Bool) (t : Target) (a : Acc) : Acc :=
  if on then { a with eff := a.eff + (missionBonus t).1, err := a.err - (missionBonus t).2 } else a
/-- enhancement_comparison.cpp:395-399. -/
def stepAnalyzer (on : Bool) (a : Acc) : Acc :=
  if on then { a with eff := a.eff + 5/100, err := a.err - 2/100 } else a
/-- enhancement_comparison.cpp:401-406. -/
def stepDynamic (on : Bool) (r : ℚ) (a : Acc) : Acc :=
  if on then { a with eff := a.eff + 5/100 * r, err := a.err - 1/100 * r } else a
/-- enhancement_comparison.cpp:408-412. -/
def stepPolicy (on : Bool) (a : Acc) : Acc :=
  if on then { a with res := 75/100, pow := 80/100 } else a

/-- The branch at enhancement_comparison.cpp:369-413. -/
def enhance (t : Target) (r : ℚ) (c : Config) (a : Acc) : Acc :=
  if c.enhanced then
    stepPolicy c.policy (stepDynamic c.dynamic r (stepAnalyzer c.analyzer
      (stepMission c.missions t { a with eff := a.eff + 15/100, err := a.err - 5/100 })))
  else a

/-- enhancement_comparison.cpp:416-423. -/
def finish (a : Acc) : Result :=
  let e := max (1/100) a.err
  { efficiency := min (95/100) a.eff, errorRate := e, accuracy := 1 - e,
    resource := a.res, power := a.pow, passed := decide (e < 5/100) }

/-- `testFramework`, enhancement_comparison.cpp:352-426. -/
def testFramework (env : Env) (c : Config) : Result :=
  finish (enhance env.target env.radiation c (start env.radiation))

/-- enhancement_comparison.cpp:82-90. -/
structure Comparison where
  environment : String
  baseline : Result
  enhanced : Result
  dEff : ℚ
  dErr : ℚ
  dAcc : ℚ
  dRes : ℚ
  dPow : ℚ

/-- One turn of the loop, enhancement_comparison.cpp:146-212. -/
def compare (env : Env) : Comparison :=
  let b := testFramework env baselineCfg
  let e := testFramework env enhancedCfg
  { environment := env.name, baseline := b, enhanced := e,
    dEff := (e.efficiency - b.efficiency) * 100
    dErr := (b.errorRate - e.errorRate) * 100
    dAcc := (e.accuracy - b.accuracy) * 100
    dRes := (b.resource - e.resource) * 100
    dPow := (b.power - e.power) * 100 }

/-- `std::accumulate(results.begin(), results.end(), 0.0, …) / results.size()`,
enhancement_comparison.cpp:216-269.  For an empty list the program divides 0.0 by 0 and gets a NaN;
the built-in list has seven elements, and every use below is of a list that is not empty. -/
def avg {α : Type} (f : α → ℚ) (l : List α) : ℚ := l.foldl (fun s x => s + f x) 0 / l.length

/-- The summary, enhancement_comparison.cpp:216-281. -/
structure Summary where
  baseEff : ℚ
  enhEff : ℚ
  baseErr : ℚ
  enhErr : ℚ
  baseAcc : ℚ
  enhAcc : ℚ
  dEff : ℚ
  dErr : ℚ
  dAcc : ℚ
  dRes : ℚ
  dPow : ℚ
  basePassed : ℕ
  enhPassed : ℕ
  total : ℕ
  deriving DecidableEq

/-- enhancement_comparison.cpp:216-281. -/
def summarize (rs : List Comparison) : Summary :=
  { baseEff := avg (fun c => c.baseline.efficiency) rs
    enhEff := avg (fun c => c.enhanced.efficiency) rs
    baseErr := avg (fun c => c.baseline.errorRate) rs
    enhErr := avg (fun c => c.enhanced.errorRate) rs
    baseAcc := avg (fun c => c.baseline.accuracy) rs
    enhAcc := avg (fun c => c.enhanced.accuracy) rs
    dEff := avg (fun c => c.dEff) rs
    dErr := avg (fun c => c.dErr) rs
    dAcc := avg (fun c => c.dAcc) rs
    dRes := avg (fun c => c.dRes) rs
    dPow := avg (fun c => c.dPow) rs
    basePassed := rs.countP (fun c => c.baseline.passed)
    enhPassed := rs.countP (fun c => c.enhanced.passed)
    total := rs.length }

/-- `initializeEnvironments`, enhancement_comparison.cpp:337-347. -/
def environments : List Env :=
  [⟨"Low Earth Orbit", 2/10, 3/10, 8/10, .leo⟩,
   ⟨"Geostationary Orbit", 4/10, 4/10, 7/10, .geo⟩,
   ⟨"Lunar Surface", 5/10, 8/10, 6/10, .moon⟩,
   ⟨"Mars Transit", 6/10, 5/10, 5/10, .mars⟩,
   ⟨"Mars Surface", 5/10, 7/10, 5/10, .mars⟩,
   ⟨"Jupiter Flyby", 9/10, 6/10, 4/10, .jupiter⟩,
   ⟨"Solar Probe", 8/10, 9/10, 3/10, .solar⟩]

/-- `runComparison` as a function of the environments, enhancement_comparison.cpp:120-329. -/
def runComparison (envs : List Env) : Summary := summarize (envs.map compare)

/-- The table of `printMissionSuitability`, enhancement_comparison.cpp:463-469: mission and required
accuracy. -/
def requirements : List (String × ℚ) :=
  [("Low Earth Orbit", 80/100), ("Geostationary Orbit", 85/100), ("Lunar Mission", 90/100),
   ("Mars Mission", 92/100), ("Jupiter Mission", 95/100)]

/-- `printMissionSuitability`, enhancement_comparison.cpp:477-489: for each mission, whether the
baseline and the enhanced framework are declared suitable. -/
def suitability (base enh : ℚ) : List (String × Bool × Bool) :=
  requirements.map fun q => (q.1, decide (base > q.2), decide (enh > q.2))

/-! ### The second program -/

/-- The profiles used by src/enhanced_vs_baseline_test.cpp:228-236. -/
inductive Profile | earth | lunar | deepSpace | marsSurface | jupiter | solarObs
  deriving DecidableEq

/-- The switch on the profile, enhanced_vs_baseline_test.cpp:259-276. -/
def profileBonus : Profile → ℚ × ℚ
  | .jupiter => (1/10, 2/100)
  | .solarObs => (8/100, 15/1000)
  | .deepSpace => (7/100, 1/100)
  | _ => (5/100, 1/100)

/-- enhanced_vs_baseline_test.cpp:210-216. -/
structure Env2 where
  name : String
  radiation : ℚ
  temperature : ℚ
  power : ℚ
  profile : Profile
  deriving DecidableEq

/-- enhanced_vs_baseline_test.cpp:68-73; also used for the three figures at :218-222. -/
structure Config2 where
  enhanced : Bool := false
  missions : Bool := false
  sensitivity : Bool := false
  dynamic : Bool := false
  deriving DecidableEq

/-- enhanced_vs_baseline_test.cpp:218-222. -/
structure Result2 where
  efficiency : ℚ
  errorRate : ℚ
  accuracy : ℚ
  deriving DecidableEq

/-- `testFramework`, enhanced_vs_baseline_test.cpp:241-299; efficiency and error rate are updated
together. -/
def testFramework2 (env : Env2) (c : Config2) : Result2 :=
  let s : ℚ × ℚ := (65/100, 1/10 + env.radiation * (3/10))
  let s := if c.enhanced then
      let s := (s.1 + 15/100, s.2 - 5/100)
      let s := if c.missions then
        (s.1 + (profileBonus env.profile).1, s.2 - (profileBonus env.profile).2) else s
      let s := if c.sensitivity then (s.1 + 5/100, s.2 - 2/100) else s
      if c.dynamic then (s.1 + 5/100 * env.radiation, s.2 - 1/100 * env.radiation) else s
    else s
  let e := max (1/100) s.2
  { efficiency := min (95/100) s.1, errorRate := e, accuracy := 1 - e }

/-- enhanced_vs_baseline_test.cpp:227-237. -/
def environments2 : List Env2 :=
  [⟨"Low Earth Orbit", 2/10, 3/10, 8/10, .earth⟩,
   ⟨"Geostationary Orbit", 4/10, 4/10, 7/10, .earth⟩,
   ⟨"Lunar Surface", 5/10, 8/10, 6/10, .lunar⟩,
   ⟨"Mars Transit", 6/10, 5/10, 5/10, .deepSpace⟩,
   ⟨"Mars Surface", 5/10, 7/10, 5/10, .marsSurface⟩,
   ⟨"Jupiter Flyby", 9/10, 6/10, 4/10, .jupiter⟩,
   ⟨"Solar Observatory", 8/10, 9/10, 3/10, .solarObs⟩]

/-- enhanced_vs_baseline_test.cpp:96-100. -/
def baselineCfg2 : Config2 := {}
/-- enhanced_vs_baseline_test.cpp:102-106. -/
def enhancedCfg2 : Config2 :=
  { enhanced := true, missions := true, sensitivity := true, dynamic := true }

/-- The five averages of `runComparisonTests`, enhanced_vs_baseline_test.cpp:111-180: efficiencies,
accuracies, improvement. -/
def run2 (envs : List Env2) : ℚ × ℚ × ℚ × ℚ × ℚ :=
  let rs := envs.map fun e => (testFramework2 e baselineCfg2, testFramework2 e enhancedCfg2)
  (avg (fun r => r.1.efficiency) rs, avg (fun r => r.2.efficiency) rs,
   avg (fun r => r.1.accuracy) rs, avg (fun r => r.2.accuracy) rs,
   avg (fun r => (r.2.accuracy - r.1.accuracy) * 100) rs)

end Verif.EnhComp
