import Verif.Model.Loop
import Mathlib.Data.Rat.Defs
import Mathlib.Algebra.Order.Ring.Rat
import Mathlib.Order.Basic
/-!
Model of `advanced::RadiationErrorPredictor` (/repo/include/rad_ml/advanced/error_prediction.hpp).

The calls of `calculateSimilarity` and `isPartiallyCorrupted` inside the class find its own static member templates (error_prediction.hpp:183-200), so the functions for
vectors of the same names at namespace scope (lines 205-240) are never considered; the members return 0.1 and false whatever their arguments.
Simplifications: the `float` constants are the decimals written; the order of outputs is linear (no NaN keys).  `correct_contexts_` is written but never read.
-/
namespace Verif.ErrorLookup

variable {I O : Type} [LinearOrder O]

/-- The members (error_prediction.hpp:168-176): the maps as lists in the order of the keys. -/
structure Pred (I O : Type) where
  trained : Bool := false
  detect : ℚ := 7 / 10
  confidence : ℚ := 8 / 10
  samples : List (O × O) := []
  contexts : List (O × I) := []

/-- Assignment to a key of a map (error_prediction.hpp:47-51). -/
def put {V : Type} : List (O × V) → O → V → List (O × V)
  | [], k, v => [(k, v)]
  | (k', v') :: t, k, v => if k < k' then (k, v) :: (k', v') :: t else if k' < k then (k', v') :: put t k v else (k', v) :: t

/-- `find` (error_prediction.hpp:75, 120). -/
def look {V : Type} (l : List (O × V)) (k : O) : Option V := (l.find? (·.1 = k)).map (·.2)

/-- `train` (error_prediction.hpp:36-56). -/
def Pred.train (p : Pred I O) (bad good : List (I × O)) : Bool × Pred I O :=
  if bad.length ≠ good.length ∨ bad = [] then (false, p)
  else (true, { p with
    trained := true
    samples := (bad.zip good).foldl (fun m x => put m x.1.2 x.2.2) p.samples
    contexts := (bad.zip good).foldl (fun m x => put m x.1.2 x.1.1) p.contexts })

/-- `calculateSimilarity` as called (error_prediction.hpp:183-187). -/
def similarity {A B : Type} (_ : A) (_ : B) : ℚ := 1 / 10

/-- `isPartiallyCorrupted` as called (error_prediction.hpp:192-196). -/
def partly {A B : Type} (_ : A) (_ : B) : Bool := false

/-- `detectErrorProbability` (error_prediction.hpp:65-100). -/
def Pred.probability (p : Pred I O) (input : I) (output : O) : ℚ :=
  if !p.trained then 1 / 2
  else if (look p.samples output).isSome then 9 / 10
  else if p.samples.any fun x => partly output x.1 then 7 / 10
  else p.contexts.foldl (fun m x => max m (similarity input x.2)) 0

/-- The search for the closest sample (error_prediction.hpp:126-135): key and similarity. -/
def closest (l : List (O × O)) (y : O) : Option O × ℚ :=
  l.foldl (fun (b : Option O × ℚ) x => if similarity y x.1 > b.2 then (some x.1, similarity y x.1) else b) (none, 0)

/-- `suggestCorrection` (error_prediction.hpp:109-143); a default-constructed `best_match` that is no key cannot occur (C107). -/
def Pred.suggest (p : Pred I O) (input : I) (y : O) : Option O :=
  if !p.trained || decide (p.probability input y < p.detect) then none
  else match look p.samples y with
    | some z => some z
    | none =>
      let b := closest p.samples y
      if b.2 > p.confidence then b.1.bind (look p.samples) else none

/-- `setErrorDetectionThreshold` (error_prediction.hpp:150-152). -/
def Pred.setDetect (p : Pred I O) (t : ℚ) : Pred I O := { p with detect := max 0 (min 1 t) }

/-- `setCorrectionConfidenceThreshold` (error_prediction.hpp:159-161). -/
def Pred.setConfidence (p : Pred I O) (t : ℚ) : Pred I O := { p with confidence := max 0 (min 1 t) }

/-- Calls that change the object. -/
inductive Op (I O : Type) where
  | train (bad good : List (I × O))
  | setDetect (t : ℚ)
  | setConfidence (t : ℚ)

/-- One call. -/
def Pred.step (p : Pred I O) : Op I O → Pred I O
  | .train b g => (p.train b g).2
  | .setDetect t => p.setDetect t
  | .setConfidence t => p.setConfidence t

/-- A history. -/
def Pred.run (ops : List (Op I O)) : Pred I O := ops.foldl Pred.step {}

end Verif.ErrorLookup
