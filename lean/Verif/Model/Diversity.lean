import Verif.Model.Loop
import Mathlib.Data.Rat.Defs
import Mathlib.Algebra.Order.Ring.Rat
import Mathlib.Order.Basic
/-!
Model of `advanced::AlgorithmicDiversity` (/repo/include/rad_ml/advanced/algorithmic_diversity.hpp).

Simplifications: `double` is exact (ℚ); the order of the results is linear (so no NaN results: as keys of a `std::map` they are undefined);
an implementation is known by what it does in the call at hand: `run name = some r` if it returns `r`, `none` if it throws.  Nothing is assumed
about how that depends on the input, the history or the radiation.  The three maps have the same keys and are one list in the order of the names.
-/
namespace Verif.Diversity

/-- Score and history of one implementation (algorithmic_diversity.hpp:184-186). -/
structure Entry where
  score : ℚ
  hist : List Bool
  deriving DecidableEq, Repr

/-- The members (algorithmic_diversity.hpp:184-187). -/
structure State where
  entries : List (String × Entry) := []
  size : Nat := 10
  deriving DecidableEq, Repr

/-- Assignment to a key of a map (algorithmic_diversity.hpp:37-41). -/
def put : List (String × Entry) → String → Entry → List (String × Entry)
  | [], n, e => [(n, e)]
  | (n', e') :: t, n, e => if n < n' then (n, e) :: (n', e') :: t else if n' < n then (n', e') :: put t n e else (n', e) :: t

/-- `addImplementation` (algorithmic_diversity.hpp:34-42). -/
def State.add (s : State) (name : String) (initial : ℚ := 1) : State :=
  { s with entries := put s.entries name ⟨initial, List.replicate s.size true⟩ }

/-- `updateReliability` on the entry found (algorithmic_diversity.hpp:108-119); erasing from an empty history is undefined. -/
def Entry.update (e : Entry) (success : Bool) : Outcome Entry :=
  match e.hist with
  | [] => .ub
  | _ :: t =>
    let h := t ++ [success]
    .ok ⟨e.score * (9 / 10) + (h.count true : ℚ) / h.length * (1 - 9 / 10), h⟩

/-- `weighted_votes[result] += score` (algorithmic_diversity.hpp:69). -/
def addVote {R : Type} [LinearOrder R] : List (R × ℚ) → R → ℚ → List (R × ℚ)
  | [], r, w => [(r, 0 + w)]
  | (r', w') :: t, r, w => if r < r' then (r, 0 + w) :: (r', w') :: t else if r' < r then (r', w') :: addVote t r w else (r', w' + w) :: t

/-- The loop over the implementations (algorithmic_diversity.hpp:54-75): the entries afterwards and the votes. -/
def loop {R : Type} [LinearOrder R] (run : String → Option R) : List (String × Entry) → List (R × ℚ) → Outcome (List (String × Entry) × List (R × ℚ))
  | [], v => .ok ([], v)
  | (n, e) :: t, v =>
    if e.score < 2 / 10 then (loop run t v).bind fun x => .ok ((n, e) :: x.1, x.2)
    else match run n with
      | some r => (loop run t (addVote v r e.score)).bind fun x => .ok ((n, e) :: x.1, x.2)
      | none => (e.update false).bind fun e' => (loop run t v).bind fun x => .ok ((n, e') :: x.1, x.2)

/-- `std::max_element` by the second component: the first of the largest (algorithmic_diversity.hpp:89-93, 161-165). -/
def best {K : Type} : List (K × ℚ) → Option (K × ℚ)
  | [] => none
  | x :: t => some (t.foldl (fun m y => if m.2 < y.2 then y else m) x)

/-- `getMostReliableImplementation` (algorithmic_diversity.hpp:156-168). -/
def mostReliable (es : List (String × Entry)) : String := ((best (es.map fun p => (p.1, p.2.score))).map (·.1)).getD ""

/-- How `execute` ends. -/
inductive Res (R : Type) where
  | value (r : R)
  | noReliable
  | implThrew
  deriving DecidableEq, Repr

/-- `execute` (algorithmic_diversity.hpp:50-96); `again` is what a second call of an implementation does. -/
def State.execute {R : Type} [LinearOrder R] (s : State) (run again : String → Option R) : Outcome (Res R × State) :=
  (loop run s.entries []).bind fun x =>
    let s' := { s with entries := x.1 }
    match best x.2 with
    | some m => .ok (.value m.1, s')
    | none =>
      let n := mostReliable x.1
      if n ≠ "" then
        match again n with
        | some r => .ok (.value r, s')
        | none => .ok (.implThrew, s')
      else .ok (.noReliable, s')

/-- The entry of a name. -/
def State.find (s : State) (name : String) : Option Entry := (s.entries.find? (·.1 = name)).map (·.2)

/-- Update of one entry in the list (algorithmic_diversity.hpp:104-119). -/
def updateIn (name : String) (success : Bool) : List (String × Entry) → Outcome (List (String × Entry))
  | [] => .ok []
  | (n, e) :: t => if n = name then (e.update success).bind fun e' => .ok ((n, e') :: t) else (updateIn name success t).bind fun t' => .ok ((n, e) :: t')

/-- `updateReliability` (algorithmic_diversity.hpp:102-119). -/
def State.update (s : State) (name : String) (success : Bool) : Outcome State :=
  (updateIn name success s.entries).bind fun es => .ok { s with entries := es }

/-- `getReliability` (algorithmic_diversity.hpp:127-130). -/
def State.reliability (s : State) (name : String) : ℚ := ((s.find name).map (·.score)).getD 0

/-- `hasImplementation` (algorithmic_diversity.hpp:176-178). -/
def State.has (s : State) (name : String) : Bool := (s.find name).isSome

/-- `history.resize(n, fill_value)` (algorithmic_diversity.hpp:143-149). -/
def resize (h : List Bool) (n : Nat) : List Bool := h.take n ++ List.replicate (n - h.length) (h.getLast?.getD true)

/-- `setReliabilityHistorySize` (algorithmic_diversity.hpp:137-151). -/
def State.setSize (s : State) (n : Nat) : State :=
  { entries := s.entries.map fun p => (p.1, { p.2 with hist := resize p.2.hist n }), size := n }

/-- Calls that change the object. -/
inductive Op (R : Type) where
  | add (name : String) (initial : ℚ)
  | execute (run again : String → Option R)
  | update (name : String) (success : Bool)
  | setSize (n : Nat)

/-- One call. -/
def State.step {R : Type} [LinearOrder R] (s : State) : Op R → Outcome State
  | .add n i => .ok (s.add n i)
  | .execute run again => (s.execute run again).bind fun x => .ok x.2
  | .update n b => s.update n b
  | .setSize n => .ok (s.setSize n)

/-- A history. -/
def State.run {R : Type} [LinearOrder R] (s : State) : List (Op R) → Outcome State
  | [] => .ok s
  | o :: t => (s.step o).bind fun s' => s'.run t

end Verif.Diversity
