import Verif.Model.EnhancedVoting
import Mathlib.Algebra.Order.Ring.Rat
/-!
The parts of `EnhancedVoting` that compute with `float` scores, over exact rationals.
-/
namespace Verif.Voting

/-- enhanced_voting.hpp:538-573 `weightedVote`.  Weights are rationals (rounding, NaN and infinite
weights are not modelled); `ga gb gc` are the indeterminate upper bytes of the `UintType` locals. -/
def weightedVote {w W : Nat} (eq : BitVec w → BitVec w → Bool) (ga gb gc : BitVec W)
    (a b c : BitVec w) (weight_a weight_b weight_c : ℚ) : BitVec w :=
  if eq a b && eq b c then a
  else if eq a b then a
  else if eq a c then a
  else if eq b c then b
  else
    let a_bits := loadInto ga a
    let b_bits := loadInto gb b
    let c_bits := loadInto gc c
    (forN w (fun i result =>
      let bit_a : ℚ := ((bit a_bits i).toNat : ℚ) * weight_a
      let bit_b : ℚ := ((bit b_bits i).toNat : ℚ) * weight_b
      let bit_c : ℚ := ((bit c_bits i).toNat : ℚ) * weight_c
      let majority_bit : BitVec W :=
        if bit_a + bit_b + bit_c ≥ (weight_a + weight_b + weight_c) / 2 then 1#W else 0#W
      result ||| (majority_bit <<< i)) 0#W).setWidth w

/-- Confidence part of enhanced_voting.hpp:412-443 (before classification), `N = sizeof(T)*8`. -/
def baseConfidence {W : Nat} (N : Nat) (a b c : BitVec W) : ℚ :=
  let bits_ab := countBits (a ^^^ b)
  let bits_ac := countBits (a ^^^ c)
  let bits_bc := countBits (b ^^^ c)
  let sc (n : Nat) : ℚ := 1/2 + 4/10 * (1 - (n : ℚ) / (N : ℚ))
  if bits_ab = 0 then 9/10
  else if bits_ac = 0 then 9/10
  else if bits_bc = 0 then 9/10
  else if bits_ab ≤ bits_ac ∧ bits_ab ≤ bits_bc then sc bits_ab
  else if bits_ac ≤ bits_ab ∧ bits_ac ≤ bits_bc then sc bits_ac
  else sc bits_bc

/-- enhanced_voting.hpp:415-443, the outlier pattern of the confidence variant (differs from
`diffPattern` in the `b == c` case, where it takes `diff_ac`). -/
def diffPatternC {W : Nat} (a_bits b_bits c_bits : BitVec W) : BitVec W :=
  let diff_ab := a_bits ^^^ b_bits
  let diff_ac := a_bits ^^^ c_bits
  let diff_bc := b_bits ^^^ c_bits
  let bits_ab := countBits diff_ab
  let bits_ac := countBits diff_ac
  let bits_bc := countBits diff_bc
  if bits_ab = 0 then diff_ac
  else if bits_ac = 0 then diff_ab
  else if bits_bc = 0 then diff_ac
  else if bits_ab ≤ bits_ac ∧ bits_ab ≤ bits_bc then diff_ab
  else if bits_ac ≤ bits_ab ∧ bits_ac ≤ bits_bc then diff_ac
  else diff_bc

/-- enhanced_voting.hpp:813-834 `burstPatternConfidence`. -/
def burstPatternConfidence {W : Nat} (diff : BitVec W) : ℚ :=
  let max_run := (runScan diff).1
  let total_bits := countBits diff
  if total_bits > 0 then (max_run : ℚ) / (total_bits : ℚ) else 0

/-- enhanced_voting.hpp:387-477 `detectFaultPatternWithConfidence` for `sizeof(T)*8 = W`
(4- and 8-byte types); scores are exact rationals. -/
def detectFaultPatternWithConfidence {W : Nat} (a b c : BitVec W) : Outcome (FaultPattern × ℚ) :=
  if countBits (a ^^^ b) = 0 ∧ countBits (a ^^^ c) = 0 ∧ countBits (b ^^^ c) = 0 then
    .ok (.unknown, 1)
  else
    let confidence := baseConfidence W a b c
    let diff_pattern := diffPatternC a b c
    if countBits diff_pattern = 1 then .ok (.singleBit, min (confidence + 1/10) (99/100))
    else if areAdjacentBits diff_pattern then .ok (.adjacentBits, confidence)
    else match areByteBoundary diff_pattern with
      | .ub => .ub
      | .ok true => .ok (.byteError, confidence)
      | .ok false =>
        if areWordBoundary diff_pattern then .ok (.wordError, confidence)
        else if areBurstPattern diff_pattern then
          .ok (.burstError, confidence * burstPatternConfidence diff_pattern)
        else .ok (.unknown, confidence * (8/10))

/-- enhanced_voting.hpp:580-592 `batchProcess` (C++20): element-wise adaptive voting; a single
undefined classification makes the whole call undefined. -/
def batchProcess (eq : BitVec 32 → BitVec 32 → Bool) (g : Garbage 32) :
    List (BitVec 32 × BitVec 32 × BitVec 32) → Outcome (List (BitVec 32))
  | [] => .ok []
  | (a, b, c) :: rest =>
    match detectFaultPattern a b c with
    | .ub => .ub
    | .ok p =>
      match batchProcess eq g rest with
      | .ub => .ub
      | .ok rs => .ok (adaptiveVote eq g a b c p :: rs)

end Verif.Voting
