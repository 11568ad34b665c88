import Verif.Model.Loop
/-!
Model of the classes `GF256` and `RS8Bit8Sym` of /repo/rs_monte_carlo.py:12-340.

Python integers are natural numbers (bytes where the code has bytes). Lists are lists; the in-place division of `encode` is written on the list from position `i` on, since positions
before `i` are not read again. Indices that occur only with locator polynomials of more than one coefficient, which never arise (C274), read 0 outside a list.
-/
namespace Verif.PyRs

/-- One iteration of `mult_no_table` (rs_monte_carlo.py:48-55): `result`, `a`, `b`. -/
def mulStep (s : Nat × Nat × Nat) : Nat × Nat × Nat :=
  let a' := s.2.1 <<< 1
  (if s.2.2 &&& 1 == 1 then s.1 ^^^ s.2.1 else s.1, if s.2.1 &&& 0x80 != 0 then a' ^^^ 0x1B else a', s.2.2 >>> 1)

/-- `mult_no_table` (rs_monte_carlo.py:45-56). -/
def multNoTable (a b : Nat) : Nat := (forN 8 (fun _ s => mulStep s) (0, a, b)).1 &&& 0xFF

/-- The first `n` values of `x` in the loop of `__init__` (rs_monte_carlo.py:21-25). -/
def powers : Nat → Nat → List Nat
  | 0, _ => []
  | n + 1, x => x :: powers n (multNoTable x 0x03)

/-- `exp_table` (rs_monte_carlo.py:16, 21-28). -/
def expTable : List Nat := powers 255 1 ++ [1]

/-- `exp_table[i]`. -/
def exp (i : Nat) : Nat := expTable.getD i 0

/-- `log_table[i]` (rs_monte_carlo.py:17, 30-35): the first `j` below 255 with `exp_table[j] == i`, else 0. -/
def log (i : Nat) : Nat :=
  if i = 0 then 0
  else
    let j := (powers 255 1).idxOf i
    if j < 255 then j else 0

/-- `add`, `subtract` (rs_monte_carlo.py:37-43). -/
def add (a b : Nat) : Nat := a ^^^ b

/-- `mult` (rs_monte_carlo.py:58-62). -/
def mult (a b : Nat) : Nat := if a = 0 ∨ b = 0 then 0 else exp ((log a + log b) % 255)

/-- `div` (rs_monte_carlo.py:64-70); `none` is `ZeroDivisionError`. -/
def div (a b : Nat) : Option Nat := if a = 0 then some 0 else if b = 0 then none else some (exp ((log a + 255 - log b) % 255))

/-- `pow` (rs_monte_carlo.py:72-78). -/
def pow (a power : Nat) : Nat := if a = 0 then 0 else if power = 0 then 1 else exp ((log a * power) % 255)

/-- `_polynomial_multiply` (rs_monte_carlo.py:100-106): the row of `p1[i]` is added at offset `i`. -/
def polyMul (p q : List Nat) : List Nat :=
  forN p.length (fun i r => forN q.length (fun j (r : List Nat) => r.set (i + j) (add (r.getD (i + j) 0) (mult (p.getD i 0) (q.getD j 0)))) r)
    (List.replicate (p.length + q.length - 1) 0)

/-- `_generate_generator_polynomial` (rs_monte_carlo.py:92-98), `n_ecc_symbols = 8`. -/
def genPoly : List Nat := forN 8 (fun i g => polyMul g [1, exp i]) [1]

/-- `poly[i + j] ^= mult(divisor[j], coef)` for `j = 1, 2, …` (rs_monte_carlo.py:126-130) on the list from position `i + 1` on; zero coefficients of the divisor are skipped. -/
def addMultiple (coef : Nat) : List Nat → List Nat → List Nat
  | p :: ps, d :: ds => (if d ≠ 0 then add p (mult d coef) else p) :: addMultiple coef ps ds
  | ps, [] => ps
  | [], _ :: _ => []

/-- The division loop (rs_monte_carlo.py:123-130) for `n` positions; the list starts at the current position. -/
def divide : Nat → List Nat → List Nat
  | 0, l => l
  | _ + 1, [] => []
  | n + 1, c :: l => divide n (if c ≠ 0 then addMultiple c l (genPoly.drop 1) else l)

/-- `encode` (rs_monte_carlo.py:108-136). -/
def encode (data : List Nat) : List Nat := data ++ divide data.length (data ++ List.replicate 8 0)

/-- One syndrome (rs_monte_carlo.py:149-157). -/
def syndrome (data : List Nat) (i : Nat) : Nat :=
  forN data.length (fun j r => add r (mult (data.getD j 0) (pow (exp i) (data.length - 1 - j)))) 0

/-- `_calculate_syndromes` (rs_monte_carlo.py:138-158). -/
def syndromes (data : List Nat) : List Nat := (List.range 8).map (syndrome data)

/-- `delta` (rs_monte_carlo.py:176-178). -/
def delta (errorLoc synd : List Nat) (i : Nat) : Nat :=
  forN (errorLoc.length - 1) (fun k d => add d (mult (errorLoc.getD (k + 1) 0) (synd.getD (i - (k + 1)) 0))) (synd.getD i 0)

/-- `mult(old_loc[j], div(exp_table[255 - i], delta))` (rs_monte_carlo.py:186-191, 204-206); `delta` is not zero here. -/
def scaled (oldLoc : List Nat) (i d j : Nat) : Nat := mult (oldLoc.getD j 0) ((div (exp (255 - i)) d).getD 0)

/-- The locator if `old_loc` is the longer one (rs_monte_carlo.py:183-198). -/
def grow (errorLoc oldLoc : List Nat) (i d : Nat) : List Nat :=
  let term := d :: (List.range oldLoc.length).map (scaled oldLoc i d)
  (List.range (oldLoc.length + 1)).map fun j => add (errorLoc.getD j 0) (term.getD j 0)

/-- The locator otherwise (rs_monte_carlo.py:202-209); `old_loc` is not longer than `error_loc`. -/
def update (errorLoc oldLoc : List Nat) (i d : Nat) : List Nat :=
  let temp := forN oldLoc.length (fun j (t : List Nat) => t.set j (scaled oldLoc i d j)) (List.replicate errorLoc.length 0)
  forN (errorLoc.length - 1) (fun k (t : List Nat) => t.set (k + 1) (add (errorLoc.getD (k + 1) 0) (t.getD k 0))) temp

/-- One iteration (rs_monte_carlo.py:175-212): `error_loc`, `old_loc`. -/
def bmStep (synd : List Nat) (i : Nat) (s : List Nat × List Nat) : List Nat × List Nat :=
  let d := delta s.1 synd i
  if d ≠ 0 then
    if s.2.length > s.1.length then (grow s.1 s.2 i d, s.1) else (update s.1 s.2 i d, s.1)
  else s

/-- `_find_error_locator_polynomial` (rs_monte_carlo.py:160-214). -/
def errorLocator (synd : List Nat) : List Nat := (forN 8 (bmStep synd) ([1], [1])).1

/-- `exp_table[255 - i]` with Python's negative indices; `none` is `IndexError` (rs_monte_carlo.py:233). -/
def expNeg (i : Nat) : Option Nat := if i ≤ 255 then some (exp (255 - i)) else if i ≤ 511 then some (exp (511 - i)) else none

/-- The value of the reversed locator (rs_monte_carlo.py:228, 234-238). -/
def locatorValue (errorLoc : List Nat) (x : Nat) : Nat :=
  let l := errorLoc.reverse
  forN (l.length - 1) (fun k r => add r (mult (l.getD (k + 1) 0) (pow x (k + 1)))) (l.getD 0 0)

/-- `_find_error_positions` (rs_monte_carlo.py:216-242). -/
def errorPositions (errorLoc : List Nat) (n : Nat) : Option (List Nat) :=
  forN n (fun i (r : Option (List Nat)) => r.bind fun ps => (expNeg i).bind fun x => some (if locatorValue errorLoc x = 0 then ps ++ [n - 1 - i] else ps)) (some [])

/-- `decode` (rs_monte_carlo.py:295-340); `none` is an exception. `forney` stands for `_calculate_error_values` and the correction at positions found
(rs_monte_carlo.py:244-293, 326-338), which is never reached (C274 holds for every function there). -/
def decode (forney : List Nat → List Nat → List Nat → Option (List Nat × Bool)) (data : List Nat) : Option (List Nat × Bool) :=
  let synd := syndromes data
  if synd.all (· == 0) then some (data.take (data.length - 8), true)
  else
    (errorPositions (errorLocator synd) data.length).bind fun ps =>
      if ps.length = 0 then some (data.take (data.length - 8), false) else forney data ps synd

end Verif.PyRs
