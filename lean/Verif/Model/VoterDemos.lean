import Verif.Model.ExtremeStress
import Mathlib.Algebra.Order.Floor.Defs
import Mathlib.Algebra.Order.Archimedean.Real.Basic
/-!
Model of the two voter demonstrations (/repo/examples/enhanced_features_test/simple_test.cpp and approx_tmr_test.cpp).

Their classes are, line for line, those of extreme_stress_test.cpp and are taken from Verif.Extreme (`int` as 32 bits); values in the programs (42, 99, 77, 3.14159, ...) are arguments.
The approximate voter of `float` is modelled here over the real numbers, without rounding.  Copies hit at random are a list of positions and values.  Not modelled: texts.
-/
namespace Verif.VoterDemos
open Verif.Extreme

/-- `corruptCopy` of the health-weighted voter (simple_test.cpp:73-77). -/
def hit (s : HW) (i : Nat) (v : V) : HW := { s with copies := corrupt s.copies i v }

/-- Values printed by test 1, in order, and the voter at its end (simple_test.cpp:97-134): initial value, value after corruption of a copy, value after the repair. -/
def test1 (v x : V) : (V × V × V) × HW :=
  let a := (HW.new v).get
  let b := (hit a.2 0 x).get
  let c := b.2.repair.get
  ((a.1, b.1, c.1), c.2)

/-- Test 2 (simple_test.cpp:137-171): a copy corrupted and repaired, then the other two corrupted: the value read and the voter after the repair. -/
def test2 (v x y : V) : V × HW :=
  let s := ((hit (HW.new v) 0 x).get.2).repair
  let r := (hit (hit s 1 y) 2 y).get
  (r.1, r.2.repair)

/-- Test 3 (simple_test.cpp:180-217): a fresh voter, the copies listed overwritten; value read and the voter after the repair. -/
def test3 (v : V) (hits : List (Fin 3 × V)) : V × HW :=
  let r := (hits.foldl (fun s h => hit s h.1 h.2) (HW.new v)).get
  (r.1, r.2.repair)

/-! ### The approximate voter of `float` -/

/-- `reducePrecision` of a `float` (approx_tmr_test.cpp:123-132). -/
noncomputable def reduceF (v : ℝ) : ℝ := (⌊v * 10⌋ : ℝ) / 10

/-- `limitRange` of a `float` (approx_tmr_test.cpp:145-151). -/
noncomputable def limitF (v : ℝ) : ℝ := max (min v 1000) (-1000)

/-- The copies of a voter with the three approximations of the program, exact, reduced, limited (approx_tmr_test.cpp:98, 174-179). -/
structure FT where
  c0 : ℝ
  c1 : ℝ
  c2 : ℝ

/-- `set` (approx_tmr_test.cpp:62-66), also what the constructor does. -/
noncomputable def FT.set (v : ℝ) : FT := ⟨v, reduceF v, limitF v⟩

open Classical in
/-- `get` (approx_tmr_test.cpp:34-60). -/
noncomputable def FT.get (s : FT) : ℝ := if s.c0 = s.c1 then s.c0 else if s.c0 = s.c2 then s.c0 else if s.c1 = s.c2 then s.c1 else s.c0

/-- `repair` (approx_tmr_test.cpp:73-79). -/
noncomputable def FT.repair (s : FT) : FT := FT.set s.get

/-- The part for `float` after the first reads (approx_tmr_test.cpp:193-216): the value `v` stored, the exact copy overwritten by `x`: value read before, after the corruption, and after the repair. -/
noncomputable def floatDemo (v x : ℝ) : ℝ × ℝ × ℝ :=
  let s := FT.set v
  let t : FT := { s with c0 := x }
  (s.get, t.get, t.repair.get)

/-- A trial of the random test of `int` (approx_tmr_test.cpp:258-297): the copies listed are overwritten; value read and value after the repair. -/
def intTrial (v : V) (hits : List (Fin 3 × V)) : Outcome (V × V) :=
  (AT.new v defaultTypes).bind fun s =>
    let t : AT := hits.foldl (fun s h => { s with copies := corrupt s.copies h.1 h.2 }) s
    t.repair.bind fun u => .ok (t.get, u.get)

end Verif.VoterDemos
