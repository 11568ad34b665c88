import Verif.Model.FixedPoint
import Verif.Model.Tmr
/-!
Model of examples/simple_nn/main.cpp: a network of two inputs, three hidden units and one output in `Fixed8_24` with voted weights.

Values of `Fixed8_24` are their raw values; the `double` arguments of the constructors are exact rationals.  Not modelled: texts.
-/
namespace Verif.SimpleNN
open Verif.Fixed

/-- A voted weight, `tmr_fixed_t` (simple_nn/main.cpp:13). -/
abbrev W := CoreTmr.State Int

/-- `get` of a weight: copies are compared by raw value (core/redundancy/tmr.hpp:39-52, fixed_point.hpp:122-124). -/
def readW (w : W) : Int := CoreTmr.get Fixed.eq w

/-- The two arrays of weights (simple_nn/main.cpp:77-78). -/
structure Net where
  ih : Fin 2 → Fin 3 → W
  ho : Fin 3 → W

/-- The rational values the weights are initialised with (simple_nn/main.cpp:24, 31). -/
def initial : (Fin 2 → Fin 3 → ℚ) × (Fin 3 → ℚ) := (fun i j => (i.val : ℚ) / 10 + (j.val : ℚ) / 5, fun i => (i.val : ℚ) * 3 / 10)

/-- The raw value of a weight by truncation (fixed_point.hpp:40-41); all initial weights are in range. -/
def raw (x : ℚ) : Int := truncate (x * scale 32 24)

/-- Constructor (simple_nn/main.cpp:19-33). -/
def Net.new : Net := ⟨fun i j => CoreTmr.set (raw (initial.1 i j)), fun i => CoreTmr.set (raw (initial.2 i))⟩

/-- `max_branchless` (simple_nn/main.cpp:81-87): the selected raw value is an `int`, so the constructor from `int` is called with it. -/
def maxBranchless (a b : Int) : Outcome Int :=
  let mask : BitVec 32 := -(if ge a b then 1#32 else 0#32)
  ofInt 32 24 ((mask &&& BitVec.ofInt 32 a) ||| (~~~ mask &&& BitVec.ofInt 32 b)).toInt

/-- `s += x * w` (simple_nn/main.cpp:43, 53). -/
def mac (x w : Int) (s : Outcome Int) : Outcome Int := s.bind fun s => (mul 32 24 x w).bind fun p => add 32 s p

/-- A hidden unit before the activation (simple_nn/main.cpp:40-44). -/
def Net.sum (n : Net) (x : Fin 2 → Int) (i : Fin 3) : Outcome Int := mac (x 1) (readW (n.ih 1 i)) (mac (x 0) (readW (n.ih 0 i)) (.ok 0))

/-- A hidden unit (simple_nn/main.cpp:39-47). -/
def Net.hidden (n : Net) (x : Fin 2 → Int) (i : Fin 3) : Outcome Int := (n.sum x i).bind fun s => maxBranchless s 0

/-- `predict` (simple_nn/main.cpp:36-57): the hidden units in order, then the output. -/
def Net.predict (n : Net) (x : Fin 2 → Int) : Outcome Int :=
  (n.hidden x 0).bind fun h0 => (n.hidden x 1).bind fun h1 => (n.hidden x 2).bind fun h2 =>
    mac h2 (readW (n.ho 2)) (mac h1 (readW (n.ho 1)) (mac h0 (readW (n.ho 0)) (.ok 0)))

/-- `repair` (simple_nn/main.cpp:60-73). -/
def Net.repair (n : Net) : Net := ⟨fun i j => CoreTmr.repair Fixed.eq (n.ih i j), fun i => CoreTmr.repair Fixed.eq (n.ho i)⟩

/-- The input of `main` (simple_nn/main.cpp:95). -/
def input : Fin 2 → Int := fun i => if i = 0 then raw (1 / 2) else raw (4 / 5)

end Verif.SimpleNN
