import Mathlib.Order.Defs.LinearOrder
import Verif.Model.Loop
/-!
Model of `rad_ml::tmr::TemporalRedundancy<T, R>` (/repo/include/rad_ml/tmr/temporal_redundancy.hpp).

The operation may give different results on different runs (that is the point of the class), so it is a
function of the run number.  The delays between runs are not modelled.
-/
namespace Verif.Temporal

variable {α : Type _}

/-- `result_counts[k]++` on a `std::map<R, size_t>`, held as a list sorted by key
(temporal_redundancy.hpp:81-84). -/
def bump [LinearOrder α] (k : α) : List (α × Nat) → List (α × Nat)
  | [] => [(k, 1)]
  | (k', n) :: r =>
    if k < k' then (k, 1) :: (k', n) :: r
    else if k = k' then (k', n + 1) :: r
    else (k', n) :: bump k r

/-- `std::max_element` with `a.second < b.second` on a non-empty range: the first maximal element
(temporal_redundancy.hpp:87-91). -/
def maxElement (b : α × Nat) : List (α × Nat) → α × Nat
  | [] => b
  | e :: r => if b.2 < e.2 then maxElement e r else maxElement b r

/-- temporal_redundancy.hpp:79-94 `findMostCommonResult`; dereferencing `end()` of an empty map is undefined
behaviour. -/
def findMostCommonResult [LinearOrder α] (results : List α) : Outcome α :=
  match results.foldl (fun m r => bump r m) [] with
  | [] => .ub
  | e :: r => .ok (maxElement e r).1

/-- temporal_redundancy.hpp:41-57 `execute` with `num_executions_ = n`; `run i` is the result of the `i`-th
execution. -/
def execute [LinearOrder α] (n : Nat) (run : Nat → α) : Outcome α :=
  findMostCommonResult ((List.range n).map run)

end Verif.Temporal
