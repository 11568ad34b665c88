import Verif.Model.Loop
/-!
Model of `rad_ml::core::redundancy::EnhancedVoting`
(/repo/include/rad_ml/core/redundancy/enhanced_voting.hpp).

`T` is an arithmetic type of `w = sizeof(T)*8` bits; values are their object representation
`BitVec w`.  C++ `==` on `T` is the argument `eq` (integer equality for integers, IEEE equality
for floating types), so that both families are covered.  `W` is the width of the local
`UintType` (32 if `sizeof(T) <= 4`, else 64).  `memcpy` of a `T` smaller than `UintType` leaves the
upper bytes indeterminate: these are modelled by the extra arguments `ga gb gc` (arbitrary).
-/
namespace Verif.Voting

/-- enhanced_voting.hpp:34-41 `FaultPattern`. -/
inductive FaultPattern where
  | singleBit | adjacentBits | byteError | wordError | burstError | unknown
  deriving DecidableEq, Repr

/-- `(x >> i) & 1`, the idiom of enhanced_voting.hpp:116-118. -/
def bit {w : Nat} (x : BitVec w) (i : Nat) : BitVec w := (x >>> i) &&& 1#w

/-- enhanced_voting.hpp:93-128 `bitLevelVote`. -/
def bitLevelVote {w : Nat} (a b c : BitVec w) : BitVec w :=
  forN w (fun i result =>
    let bit_a := bit a i
    let bit_b := bit b i
    let bit_c := bit c i
    let majority_bit := (bit_a &&& bit_b) ||| (bit_a &&& bit_c) ||| (bit_b &&& bit_c)
    result ||| (majority_bit <<< i)) 0#w

/-- enhanced_voting.hpp:71-78 `standardVote`. -/
def standardVote {w : Nat} (eq : BitVec w → BitVec w → Bool) (a b c : BitVec w) : BitVec w :=
  if eq a b then a
  else if eq a c then a
  else if eq b c then b
  else bitLevelVote a b c

/-- `std::memcpy(&x_bits, &x, sizeof(T))` into a `W`-bit variable whose previous (indeterminate)
content is `g`: the low `w` bits are replaced.  Used at enhanced_voting.hpp:152-155 and similar. -/
def loadInto {w W : Nat} (g : BitVec W) (x : BitVec w) : BitVec W :=
  (g &&& ~~~((BitVec.allOnes w).setWidth W)) ||| x.setWidth W

/-- enhanced_voting.hpp:603-610 `countBits`. -/
def countBits {W : Nat} (value : BitVec W) : Nat :=
  if _h : value.toNat = 0 then 0
  else (value &&& 1#W).toNat + countBits (value >>> 1)
termination_by value.toNat
decreasing_by
  simp only [BitVec.toNat_ushiftRight, Nat.shiftRight_eq_div_pow]
  omega

/-- enhanced_voting.hpp:703-705 `hammingDistance`. -/
def hammingDistance {W : Nat} (a b : BitVec W) : Nat := countBits (a ^^^ b)

/-- The search loop at enhanced_voting.hpp:736-739: lowest set bit of `d` at or above `pos`
(`d` is non-zero there; the search is cut off at `fuel` further positions). -/
def lowestSet {W : Nat} (d : BitVec W) : Nat → Nat → Nat
  | 0, pos => pos
  | fuel + 1, pos => if (d >>> pos) &&& 1#W = 0#W then lowestSet d fuel (pos + 1) else pos

/-- enhanced_voting.hpp:720-755 `reconstructFromClosestPair`. -/
def reconstructFromClosestPair {w W : Nat} (eq : BitVec w → BitVec w → Bool)
    (ga gb go : BitVec W) (a b outlier : BitVec w) : BitVec w :=
  if eq a b then a
  else
    let a_bits := loadInto ga a
    let b_bits := loadInto gb b
    let out_bits := loadInto go outlier
    let diff_ab := a_bits ^^^ b_bits
    if countBits diff_ab = 1 then
      let bit_mask := 1#W <<< lowestSet diff_ab W 0
      let out_bit := out_bits &&& bit_mask
      if a_bits &&& bit_mask = out_bit then a else b
    else bitLevelVote a b outlier

/-- enhanced_voting.hpp:147-175 `wordErrorVote`; `ga gb gc` are the indeterminate upper bytes in
this function, `ga' gb' gc'` those of the locals in the callee. -/
def wordErrorVote {w W : Nat} (eq : BitVec w → BitVec w → Bool)
    (ga gb gc ga' gb' gc' : BitVec W) (a b c : BitVec w) : BitVec w :=
  let a_bits := loadInto ga a
  let b_bits := loadInto gb b
  let c_bits := loadInto gc c
  let dist_ab := hammingDistance a_bits b_bits
  let dist_ac := hammingDistance a_bits c_bits
  let dist_bc := hammingDistance b_bits c_bits
  if dist_ab ≤ dist_ac ∧ dist_ab ≤ dist_bc then reconstructFromClosestPair eq ga' gb' gc' a b c
  else if dist_ac ≤ dist_ab ∧ dist_ac ≤ dist_bc then
    reconstructFromClosestPair eq ga' gb' gc' a c b
  else reconstructFromClosestPair eq ga' gb' gc' b c a

/-- enhanced_voting.hpp:766-778 `segmentBitVote`. -/
def segmentBitVote {W : Nat} (a b c : BitVec W) (segment_size : Nat) : BitVec W :=
  forN segment_size (fun i result =>
    let bit_a := bit a i
    let bit_b := bit b i
    let bit_c := bit c i
    let majority_bit := (bit_a &&& bit_b) ||| (bit_a &&& bit_c) ||| (bit_b &&& bit_c)
    result ||| (majority_bit <<< i)) 0#W

/-- `UintType mask = ((1ULL << 8) - 1) << shift` (enhanced_voting.hpp:208, :506): computed in 64 bits and
truncated to `UintType`. -/
def byteMask (W shift : Nat) : BitVec W := (((1#64 <<< 8) - 1#64) <<< shift).setWidth W

/-- Result of one segment, enhanced_voting.hpp:210-225. -/
def segmentVote {W : Nat} (segment_a segment_b segment_c : BitVec W) : BitVec W :=
  if segment_a = segment_b then segment_a
  else if segment_a = segment_c then segment_a
  else if segment_b = segment_c then segment_b
  else segmentBitVote segment_a segment_b segment_c 8

/-- enhanced_voting.hpp:191-232 `burstErrorVote` (NUM_SEGMENTS = sizeof(T)*8/8). -/
def burstErrorVote {w W : Nat} (ga gb gc : BitVec W) (a b c : BitVec w) : BitVec w :=
  let a_bits := loadInto ga a
  let b_bits := loadInto gb b
  let c_bits := loadInto gc c
  (forN (w / 8) (fun segment result =>
    let shift := segment * 8
    let mask := byteMask W shift
    let segment_a := (a_bits &&& mask) >>> shift
    let segment_b := (b_bits &&& mask) >>> shift
    let segment_c := (c_bits &&& mask) >>> shift
    result ||| (segmentVote segment_a segment_b segment_c <<< shift)) 0#W).setWidth w

/-- enhanced_voting.hpp:795-804 `selectMostConfidentResult`. -/
def selectMostConfidentResult {w : Nat} (eq : BitVec w → BitVec w → Bool)
    (a b c bit_result word_result burst_result : BitVec w) : BitVec w :=
  if eq bit_result a || eq bit_result b || eq bit_result c then bit_result
  else if eq word_result a || eq word_result b || eq word_result c then word_result
  else if eq burst_result a || eq burst_result b || eq burst_result c then burst_result
  else bit_result

/-- Indeterminate upper bytes read during one `adaptiveVote` call. -/
structure Garbage (W : Nat) where
  (ga gb gc ga' gb' gc' ha hb hc : BitVec W)

/-- enhanced_voting.hpp:250-286 `adaptiveVote`. -/
def adaptiveVote {w W : Nat} (eq : BitVec w → BitVec w → Bool) (g : Garbage W)
    (a b c : BitVec w) (pattern : FaultPattern) : BitVec w :=
  if eq a b then a
  else if eq a c then a
  else if eq b c then b
  else match pattern with
    | .singleBit => bitLevelVote a b c
    | .wordError => wordErrorVote eq g.ga g.gb g.gc g.ga' g.gb' g.gc' a b c
    | .burstError => burstErrorVote g.ha g.hb g.hc a b c
    | .adjacentBits => bitLevelVote a b c
    | .byteError => burstErrorVote g.ha g.hb g.hc a b c
    | .unknown =>
      selectMostConfidentResult eq a b c (bitLevelVote a b c)
        (wordErrorVote eq g.ga g.gb g.gc g.ga' g.gb' g.gc' a b c)
        (burstErrorVote g.ha g.hb g.hc a b c)

/-- enhanced_voting.hpp:492-519 `fastBitCorrection`; loop `i = 0, 8, 16, … < BITS` written over the
chunk index (`BITS` is a multiple of 8). -/
def fastBitCorrection {w W : Nat} (ga gb gc : BitVec W) (a b c : BitVec w) : BitVec w :=
  let a_bits := loadInto ga a
  let b_bits := loadInto gb b
  let c_bits := loadInto gc c
  (forN (w / 8) (fun k result =>
    let i := k * 8
    let mask := byteMask W i
    let chunk_a := (a_bits &&& mask) >>> i
    let chunk_b := (b_bits &&& mask) >>> i
    let chunk_c := (c_bits &&& mask) >>> i
    let majority := (chunk_a &&& chunk_b) ||| (chunk_a &&& chunk_c) ||| (chunk_b &&& chunk_c)
    result ||| (majority <<< i)) 0#W).setWidth w

/-! ### Fault-pattern detection -/

/-- enhanced_voting.hpp:622-623, the loop `while (temp & (temp + 1)) temp |= (temp + 1);`. -/
def fillLoop {W : Nat} (temp : BitVec W) : BitVec W :=
  if _h : temp &&& (temp + 1#W) = 0#W then temp else fillLoop (temp ||| (temp + 1#W))
termination_by 2 ^ W - temp.toNat
decreasing_by
  have hlt : temp.toNat < (temp ||| (temp + 1#W)).toNat := by
    have hle : temp.toNat ≤ (temp ||| (temp + 1#W)).toNat := by
      rw [BitVec.toNat_or]; exact Nat.left_le_or
    rcases Nat.lt_or_eq_of_le hle with h1 | h1
    · exact h1
    · exfalso
      have h2 : temp ||| (temp + 1#W) = temp := (BitVec.eq_of_toNat_eq h1).symm
      -- then temp+1 ⊆ temp as bit sets, so temp+1 ≤ temp, so temp+1 wrapped to 0
      have h3 : (temp + 1#W).toNat ≤ temp.toNat := by
        have : (temp + 1#W).toNat ≤ (temp ||| (temp + 1#W)).toNat := by
          rw [BitVec.toNat_or]; exact Nat.right_le_or
        rwa [h2] at this
      have hW : 0 < W := by
        rcases Nat.eq_zero_or_pos W with h0 | h0
        · subst h0
          exact absurd (BitVec.eq_nil _ |>.trans (BitVec.eq_nil _).symm) _h
        · exact h0
      have h4 : (temp + 1#W).toNat = 0 := by
        rw [BitVec.toNat_add] at h3 ⊢
        have h1W : (1#W).toNat = 1 := by
          simp [BitVec.toNat_ofNat, Nat.mod_eq_of_lt (Nat.one_lt_two_pow (by omega : W ≠ 0))]
        rw [h1W] at h3 ⊢
        have hlt := temp.isLt
        rcases Nat.lt_or_ge (temp.toNat + 1) (2 ^ W) with h5 | h5
        · rw [Nat.mod_eq_of_lt h5] at h3; omega
        · have : temp.toNat + 1 = 2 ^ W := by omega
          rw [this, Nat.mod_self]
      have h5 : temp + 1#W = 0#W := BitVec.eq_of_toNat_eq (by simpa using h4)
      apply _h
      rw [h5]; simp
  have := (temp ||| (temp + 1#W)).isLt
  omega

/-- enhanced_voting.hpp:619-625 `areAdjacentBits` (the integer result converts to `bool`). -/
def areAdjacentBits {W : Nat} (diff : BitVec W) : Bool :=
  decide ((fillLoop diff + 1#W) &&& diff ≠ 0#W)

/-- enhanced_voting.hpp:637 `UintType mask = 0xFF << (i * 8)`: the shift is performed on a 32-bit `int`
(C++20: defined modulo 2^32 for `i < 4`, undefined for `i*8 ≥ 32`), then converted to `UintType`
(sign-extended when `UintType` is 64 bits wide). -/
def byteBoundaryMask (W i : Nat) : Outcome (BitVec W) :=
  if i * 8 < 32 then .ok ((0xFF#32 <<< (i * 8)).signExtend W) else .ub

/-- Loop of enhanced_voting.hpp:636-639 from iteration `i`, `n` iterations left. -/
def areByteBoundaryFrom {W : Nat} (diff : BitVec W) : Nat → Nat → Outcome Bool
  | 0, _ => .ok false
  | n + 1, i =>
    match byteBoundaryMask W i with
    | .ub => .ub
    | .ok mask => if diff &&& mask = diff then .ok true else areByteBoundaryFrom diff n (i + 1)

/-- enhanced_voting.hpp:634-641 `areByteBoundary` (`sizeof(UintType) = W/8`). -/
def areByteBoundary {W : Nat} (diff : BitVec W) : Outcome Bool := areByteBoundaryFrom diff (W / 8) 0

/-- enhanced_voting.hpp:650-665 `areWordBoundary`. -/
def areWordBoundary {W : Nat} (diff : BitVec W) : Bool :=
  if W / 8 ≤ 4 then decide (16 < countBits diff)
  else if W / 8 = 8 then
    let lower_mask : BitVec W := 0xFFFFFFFF#W
    let upper_mask : BitVec W := 0xFFFFFFFF00000000#W
    decide (diff &&& lower_mask = diff) || decide (diff &&& upper_mask = diff)
  else false

/-- Run-length scan of enhanced_voting.hpp:676-686; state is `(longest_run, current_run)`. -/
def runScan {W : Nat} (diff : BitVec W) : Nat × Nat :=
  forN W (fun i s =>
    if (diff >>> i) &&& 1#W ≠ 0#W then (max s.1 (s.2 + 1), s.2 + 1) else (s.1, 0)) (0, 0)

/-- enhanced_voting.hpp:674-693 `areBurstPattern`; `longest_run >= total_bits * 0.6` (double) is taken
over exact arithmetic as `5*longest ≥ 3*total`. -/
def areBurstPattern {W : Nat} (diff : BitVec W) : Bool :=
  let longest_run := (runScan diff).1
  let total_bits := countBits diff
  decide (longest_run ≥ 3) && decide (5 * longest_run ≥ 3 * total_bits)

/-- Selection of the outlier's difference pattern, enhanced_voting.hpp:323-345. -/
def diffPattern {W : Nat} (a_bits b_bits c_bits : BitVec W) : BitVec W :=
  let diff_ab := a_bits ^^^ b_bits
  let diff_ac := a_bits ^^^ c_bits
  let diff_bc := b_bits ^^^ c_bits
  let bits_ab := countBits diff_ab
  let bits_ac := countBits diff_ac
  let bits_bc := countBits diff_bc
  if bits_ab = 0 then diff_ac
  else if bits_ac = 0 then diff_ab
  else if bits_bc = 0 then diff_ab
  else if bits_ab ≤ bits_ac ∧ bits_ab ≤ bits_bc then diff_ab
  else if bits_ac ≤ bits_ab ∧ bits_ac ≤ bits_bc then diff_ac
  else diff_bc

/-- enhanced_voting.hpp:301-373 `detectFaultPattern` for `sizeof(T)*8 = W` (4- and 8-byte types, where no
indeterminate bits are involved). -/
def detectFaultPattern {W : Nat} (a b c : BitVec W) : Outcome FaultPattern :=
  if countBits (a ^^^ b) = 0 ∧ countBits (a ^^^ c) = 0 then .ok .unknown
  else
    let diff_pattern := diffPattern a b c
    if countBits diff_pattern = 1 then .ok .singleBit
    else if areAdjacentBits diff_pattern then .ok .adjacentBits
    else match areByteBoundary diff_pattern with
      | .ub => .ub
      | .ok true => .ok .byteError
      | .ok false =>
        if areWordBoundary diff_pattern then .ok .wordError
        else if areBurstPattern diff_pattern then .ok .burstError
        else .ok .unknown

end Verif.Voting
