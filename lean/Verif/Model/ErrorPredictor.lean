import Verif.Model.Loop
import Mathlib.Analysis.SpecialFunctions.Exp
import Mathlib.Analysis.SpecialFunctions.Log.Base
/-!
Model of `neural::ErrorPredictor<T>` and of the class of the same name at global scope (/repo/include/rad_ml/neural/error_predictor.hpp).

Numbers are real numbers or NaN (`none`); rounding, infinities and overflow are not modelled.  The sizes 3 and 5 of the layers are kept; the random initial weights are a parameter.
-/
namespace Verif.ErrorPredictor

/-- A number or NaN. -/
abbrev V := Option ℝ

/-- Arithmetic: NaN if an operand is. -/
def V.add (a b : V) : V := a.bind fun x => b.map fun y => x + y
/-- Difference. -/
def V.sub (a b : V) : V := a.bind fun x => b.map fun y => x - y
/-- Product. -/
def V.mul (a b : V) : V := a.bind fun x => b.map fun y => x * y

/-- `std::max(0.0, x)` (error_predictor.hpp:50, 167): the second argument only if 0 < x, so 0 for NaN. -/
noncomputable def V.relu (a : V) : V := match a with
  | some x => if 0 < x then some x else some 0
  | none => some 0

/-- `std::max(0, std::min(1, x))` (error_predictor.hpp:50-51): `min` gives its first argument, 1, for NaN. -/
noncomputable def V.clamp (a : V) : ℝ := match a with
  | some x => let m := if x < 1 then x else 1
              if 0 < m then m else 0
  | none => 1

/-- `1 / (1 + exp(-x))` (error_predictor.hpp:180). -/
noncomputable def V.sigmoid (a : V) : V := a.map fun x => 1 / (1 + Real.exp (-x))

/-- Weights and biases (error_predictor.hpp:194-197). -/
structure Net where
  w1 : Fin 3 → Fin 5 → V
  w2 : Fin 5 → V
  b1 : Fin 5 → V
  b2 : V

/-- The features (error_predictor.hpp:40-44, 63-67); the logarithm of a negative number is NaN (that of 0, -∞, is not modelled and is `none` too). -/
noncomputable def features (level : ℝ) : Fin 3 → V
  | 0 => if 0 < level + 1 / 10 ^ 10 then some (Real.logb 10 (level + 1 / 10 ^ 10)) else none
  | 1 => some (level * 10 ^ 7)
  | 2 => some 1

/-- Sum before the activation of hidden unit `i` (error_predictor.hpp:161-165). -/
def Net.pre (n : Net) (inp : Fin 3 → V) (i : Fin 5) : V :=
  V.add ((List.finRange 3).foldl (fun s j => V.add s (V.mul (inp j) (n.w1 j i))) (some 0)) (n.b1 i)

/-- `calculateHiddenLayer` (error_predictor.hpp:158-170). -/
noncomputable def Net.hidden (n : Net) (inp : Fin 3 → V) (i : Fin 5) : V := (n.pre inp i).relu

/-- Sum before the output's activation (error_predictor.hpp:175-178). -/
noncomputable def Net.z (n : Net) (inp : Fin 3 → V) : V :=
  V.add ((List.finRange 5).foldl (fun s j => V.add s (V.mul (n.hidden inp j) (n.w2 j))) (some 0)) n.b2

/-- `calculateOutputLayer` (error_predictor.hpp:172-183). -/
noncomputable def Net.out (n : Net) (inp : Fin 3 → V) : V := (n.z inp).sigmoid

/-- `predictErrorRate` (error_predictor.hpp:38-52). -/
noncomputable def Net.predict (n : Net) (level : ℝ) : ℝ := (n.out (features level)).clamp

/-- Error of hidden unit `i` (error_predictor.hpp:86-93). -/
noncomputable def Net.hiddenError (n : Net) (inp : Fin 3 → V) (err : V) (i : Fin 5) : V :=
  V.mul (V.add (some 0) (V.mul err (n.w2 i))) (match n.hidden inp i with | some h => if 0 < h then some 1 else some 0 | none => some 0)

/-- `updateModel` on given features (error_predictor.hpp:60-118); `learning_rate_` is 0.01. -/
noncomputable def Net.train (n : Net) (inp : Fin 3 → V) (target : V) : Net :=
  let err := V.sub target (n.out inp)
  let lr : V := some (1 / 100)
  { w2 := fun i => V.add (n.w2 i) (V.mul (V.mul lr err) (n.hidden inp i))
    b2 := V.add n.b2 (V.mul lr err)
    w1 := fun j i => V.add (n.w1 j i) (V.mul (V.mul lr (n.hiddenError inp err i)) (inp j))
    b1 := fun i => V.add (n.b1 i) (V.mul lr (n.hiddenError inp err i)) }

/-- `updateModel` (error_predictor.hpp:60-118). -/
noncomputable def Net.update (n : Net) (level : ℝ) (actual : ℝ) : Net := n.train (features level) (some actual)

/-- `initializeWeights` (error_predictor.hpp:121-156) with the random draws `d1`, `d2`. -/
noncomputable def Net.init (d1 : Fin 3 → Fin 5 → ℝ) (d2 : Fin 5 → ℝ) : Net :=
  { w1 := fun j i => if j = 0 ∧ i = 0 then some (15 / 100) else if j = 1 ∧ i = 0 then some (25 / 100) else if j = 0 ∧ i = 1 then some (30 / 100) else some (d1 j i)
    w2 := fun i => if i = 0 then some (20 / 100) else if i = 1 then some (35 / 100) else some (d2 i)
    b1 := fun _ => some 0
    b2 := some (5 / 100) }

/-- `predictErrorRate` of the class at global scope (error_predictor.hpp:210-226), in exact arithmetic. -/
def predictSimple (seu : ℚ) : ℚ :=
  if seu < 1 / 10 ^ 8 then 1 / 100 + (seu - 1 / 10 ^ 9) * 4 / (9 / 10 ^ 9)
  else if seu < 1 / 10 ^ 7 then 5 / 100 + (seu - 1 / 10 ^ 8) * (10 / 100) / (9 / 10 ^ 8)
  else if seu < 1 / 10 ^ 6 then 15 / 100 + (seu - 1 / 10 ^ 7) * (15 / 100) / (9 / 10 ^ 7)
  else 30 / 100 + min (60 / 100) ((seu - 1 / 10 ^ 6) * (60 / 100) / (9 / 10 ^ 6))

end Verif.ErrorPredictor
