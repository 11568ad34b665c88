import Verif.Model.Crc
import Verif.Model.EnhancedVoting
/-!
Model of `rad_ml::core::redundancy::EnhancedTMR<T>`
(/repo/include/rad_ml/core/redundancy/enhanced_tmr.hpp).

`eq` is `==` on `T`, `crc` the checksum of the object representation of a value (instantiated with
`Crc.crcOfValue` in the properties).  Diagnostics written to `std::cerr` are not modelled; counters are
natural numbers.
-/
namespace Verif.ETmr

/-- core/redundancy/enhanced_tmr.hpp:92-96 `ErrorStats`. -/
structure Stats where
  detected : Nat := 0
  corrected : Nat := 0
  uncorrectable : Nat := 0
  deriving DecidableEq, Repr

/-- core/redundancy/enhanced_tmr.hpp:551-557 data members. -/
structure State (α : Type _) where
  vals : Fin 3 → α
  crcs : Fin 3 → BitVec 32
  stats : Stats := {}

variable {α : Type _}

/-- core/redundancy/enhanced_tmr.hpp:562-566 `recalculateChecksums`. -/
def recalculateChecksums (crc : α → BitVec 32) (s : State α) : State α :=
  { s with crcs := fun i => crc (s.vals i) }

/-- core/redundancy/enhanced_tmr.hpp:110-112 constructor (and :101-103 with `T{}`). -/
def new (crc : α → BitVec 32) (v : α) : State α :=
  recalculateChecksums crc { vals := fun _ => v, crcs := fun _ => 0#32 }

/-- core/redundancy/enhanced_tmr.hpp:224-229 `set`. -/
def set (crc : α → BitVec 32) (v : α) (s : State α) : State α :=
  recalculateChecksums crc { s with vals := fun _ => v }

/-- core/redundancy/enhanced_tmr.hpp:119-146 copy construction / copy assignment: replicas and checksums
are copied, statistics are zeroed. -/
def copyFrom (other : State α) : State α :=
  { vals := other.vals, crcs := other.crcs, stats := {} }

/-- core/redundancy/enhanced_tmr.hpp:574-577 `verifyChecksum`. -/
def verifyChecksum (crc : α → BitVec 32) (s : State α) (i : Fin 3) : Bool :=
  crc (s.vals i) == s.crcs i

/-- core/redundancy/enhanced_tmr.hpp:584-608 `performMajorityVoting`. -/
def performMajorityVoting (eq : α → α → Bool) (crc : α → BitVec 32) (s : State α) : α :=
  let ok := verifyChecksum crc s
  if eq (s.vals 0) (s.vals 1) then s.vals 0
  else if eq (s.vals 0) (s.vals 2) then s.vals 0
  else if eq (s.vals 1) (s.vals 2) then s.vals 1
  else if ok 0 && !ok 1 && !ok 2 then s.vals 0
  else if !ok 0 && ok 1 && !ok 2 then s.vals 1
  else if !ok 0 && !ok 1 && ok 2 then s.vals 2
  else s.vals 0

/-- core/redundancy/enhanced_tmr.hpp:615-622 `incrementErrorStats`. -/
def incrementErrorStats (corrected : Bool) (st : Stats) : Stats :=
  let st := { st with detected := st.detected + 1 }
  if corrected then { st with corrected := st.corrected + 1 }
  else { st with uncorrectable := st.uncorrectable + 1 }

/-- Number of replicas whose checksum is valid (core/redundancy/enhanced_tmr.hpp:155-165). -/
def validCount (crc : α → BitVec 32) (s : State α) : Nat :=
  (verifyChecksum crc s 0).toNat + (verifyChecksum crc s 1).toNat + (verifyChecksum crc s 2).toNat

/-- The "first valid copy" loops core/redundancy/enhanced_tmr.hpp:176-181 and :204-208. -/
def firstValid (crc : α → BitVec 32) (s : State α) : α :=
  if verifyChecksum crc s 0 then s.vals 0
  else if verifyChecksum crc s 1 then s.vals 1
  else s.vals 2

/-- core/redundancy/enhanced_tmr.hpp:153-217 `get`: the value returned and the new state (only the
mutable statistics change). -/
def get (eq : α → α → Bool) (crc : α → BitVec 32) (s : State α) : α × State α :=
  let ok := verifyChecksum crc s
  let n := validCount crc s
  let good (v : α) := (v, { s with stats := incrementErrorStats true s.stats })
  let bad (v : α) := (v, { s with stats := incrementErrorStats false s.stats })
  if n = 3 then (performMajorityVoting eq crc s, s)
  else if n = 1 then good (firstValid crc s)
  else if n = 2 then
    if ok 0 && ok 1 && eq (s.vals 0) (s.vals 1) then good (s.vals 0)
    else if ok 0 && ok 2 && eq (s.vals 0) (s.vals 2) then good (s.vals 0)
    else if ok 1 && ok 2 && eq (s.vals 1) (s.vals 2) then good (s.vals 1)
    else bad (firstValid crc s)
  else bad (performMajorityVoting eq crc s)

/-- core/redundancy/enhanced_tmr.hpp:236-248 `repair`; returns `true` always. -/
def repair (eq : α → α → Bool) (crc : α → BitVec 32) (s : State α) : Bool × State α :=
  let r := get eq crc s
  (true, recalculateChecksums crc { r.2 with vals := fun _ => r.1 })

/-- core/redundancy/enhanced_tmr.hpp:255-265 `verify`. -/
def verify (eq : α → α → Bool) (crc : α → BitVec 32) (s : State α) : Bool :=
  if verifyChecksum crc s 0 && verifyChecksum crc s 1 && verifyChecksum crc s 2 then
    eq (s.vals 0) (s.vals 1) && eq (s.vals 1) (s.vals 2)
  else false

/-- core/redundancy/enhanced_tmr.hpp:279-283 `resetErrorStats`. -/
def resetErrorStats (s : State α) : State α := { s with stats := {} }

/-- A radiation upset overwrites the value and the checksum of replica `k` (environment). -/
def corrupt (k : Fin 3) (x : α) (c : BitVec 32) (s : State α) : State α :=
  { s with vals := fun i => if i = k then x else s.vals i,
           crcs := fun i => if i = k then c else s.crcs i }

/-- A radiation upset that overwrites only the stored value of replica `k`. -/
def corruptValue (k : Fin 3) (x : α) (s : State α) : State α :=
  { s with vals := fun i => if i = k then x else s.vals i }

/-- API calls and upsets, for histories. -/
inductive Op (α : Type _) where
  | get
  | set (v : α)
  | repair
  | resetStats
  | upset (k : Fin 3) (x : α) (c : BitVec 32)

/-- One event. -/
def step (eq : α → α → Bool) (crc : α → BitVec 32) (s : State α) : Op α → State α
  | .get => (get eq crc s).2
  | .set v => set crc v s
  | .repair => (repair eq crc s).2
  | .resetStats => resetErrorStats s
  | .upset k x c => corrupt k x c s

/-- A history of events. -/
def run (eq : α → α → Bool) (crc : α → BitVec 32) (s : State α) (ops : List (Op α)) : State α :=
  ops.foldl (step eq crc) s

/-! ### The static voting helpers of `EnhancedTMR` that differ from `EnhancedVoting` -/

open Verif.Voting

/-- Loop body core/redundancy/enhanced_tmr.hpp:728-746. -/
def reconstructBody {W : Nat} (a_bits b_bits outlier_bits : BitVec W) (i : Nat) (result : BitVec W) :
    BitVec W :=
  let mask := (1#64 <<< i).setWidth W
  if (a_bits ^^^ b_bits) &&& mask ≠ 0#W then
    let bit_a := a_bits &&& mask
    let bit_b := b_bits &&& mask
    let bit_outlier := outlier_bits &&& mask
    if bit_a = bit_outlier then result ||| bit_a
    else if bit_b = bit_outlier then result ||| bit_b
    else result ||| bit_a
  else result

/-- core/redundancy/enhanced_tmr.hpp:713-751 `reconstructFromClosestPair`; `ga gb go` are the
indeterminate upper bytes of the locals when `sizeof(U) < sizeof(UintType)`. -/
def reconstructFromClosestPair {w W : Nat} (ga gb go : BitVec W) (a b outlier : BitVec w) : BitVec w :=
  let a_bits := loadInto ga a
  let b_bits := loadInto gb b
  let outlier_bits := loadInto go outlier
  let result := a_bits &&& ~~~(a_bits ^^^ b_bits)
  (forN w (reconstructBody a_bits b_bits outlier_bits) result).setWidth w

/-- core/redundancy/enhanced_tmr.hpp:364-390 `wordErrorVote`. -/
def wordErrorVote {w W : Nat} (ga gb gc ga' gb' gc' : BitVec W) (a b c : BitVec w) : BitVec w :=
  let a_bits := loadInto ga a
  let b_bits := loadInto gb b
  let c_bits := loadInto gc c
  let dist_ab := hammingDistance a_bits b_bits
  let dist_ac := hammingDistance a_bits c_bits
  let dist_bc := hammingDistance b_bits c_bits
  if dist_ab ≤ dist_ac ∧ dist_ab ≤ dist_bc then reconstructFromClosestPair ga' gb' gc' a b c
  else if dist_ac ≤ dist_ab ∧ dist_ac ≤ dist_bc then reconstructFromClosestPair ga' gb' gc' a c b
  else reconstructFromClosestPair ga' gb' gc' b c a

/-- core/redundancy/enhanced_tmr.hpp:775-802 `selectMostConfidentResult`. -/
def selectMostConfidentResult {w : Nat} (eq : BitVec w → BitVec w → Bool)
    (a b c bit_result word_result burst_result : BitVec w) : BitVec w :=
  let conf (r : BitVec w) : Nat := (eq r a).toNat + (eq r b).toNat + (eq r c).toNat
  if conf bit_result ≥ conf word_result ∧ conf bit_result ≥ conf burst_result then bit_result
  else if conf word_result ≥ conf bit_result ∧ conf word_result ≥ conf burst_result then word_result
  else burst_result

/-- core/redundancy/enhanced_tmr.hpp:446-482 `adaptiveVote` (`bitLevelVote` :322-358 and
`burstErrorVote` :396-439 are textually the same as in `EnhancedVoting`). -/
def adaptiveVote {w W : Nat} (eq : BitVec w → BitVec w → Bool) (g : Garbage W)
    (a b c : BitVec w) (pattern : FaultPattern) : BitVec w :=
  if eq a b then a
  else if eq a c then a
  else if eq b c then b
  else match pattern with
    | .singleBit => bitLevelVote a b c
    | .wordError => wordErrorVote g.ga g.gb g.gc g.ga' g.gb' g.gc' a b c
    | .burstError => burstErrorVote g.ha g.hb g.hc a b c
    | .adjacentBits => bitLevelVote a b c
    | .byteError => burstErrorVote g.ha g.hb g.hc a b c
    | .unknown =>
      selectMostConfidentResult eq a b c (bitLevelVote a b c)
        (wordErrorVote g.ga g.gb g.gc g.ga' g.gb' g.gc' a b c)
        (burstErrorVote g.ha g.hb g.hc a b c)

/-- core/redundancy/enhanced_tmr.hpp:641-647 `areAdjacentBits`. -/
def areAdjacentBits {W : Nat} (diff : BitVec W) : Bool :=
  if countBits diff ≤ 1 then true
  else
    let shifted := diff >>> 1
    decide (diff &&& shifted ≠ 0#W) && decide (countBits (diff ||| shifted) ≤ countBits diff + 1)

/-- core/redundancy/enhanced_tmr.hpp:666-675 `areWordBoundary`. -/
def areWordBoundary {W : Nat} (diff : BitVec W) : Bool :=
  if W / 8 ≤ 4 then true
  else
    let lower_mask : BitVec W := 0xFFFFFFFF#W
    let upper_mask : BitVec W := ~~~lower_mask
    decide (diff &&& lower_mask = diff) || decide (diff &&& upper_mask = diff)

/-- core/redundancy/enhanced_tmr.hpp:681-699 `areBurstPattern`; loop state
`(transitions, prev_bit)`. -/
def areBurstPattern {W : Nat} (diff : BitVec W) : Bool :=
  let st : Nat × Bool := forN W (fun i st =>
    let current_bit := diff.getLsbD i
    (if current_bit ≠ st.2 then st.1 + 1 else st.1, current_bit)) (0, false)
  decide (st.1 ≤ 4) && decide (countBits diff > 3)

/-- Conjunction of the three byte-boundary tests with C++ short-circuit (:517). -/
def byteBoundary3 {W : Nat} (d₁ d₂ d₃ : BitVec W) : Outcome Bool :=
  match areByteBoundary d₁ with
  | .ub => .ub
  | .ok false => .ok false
  | .ok true =>
    match areByteBoundary d₂ with
    | .ub => .ub
    | .ok false => .ok false
    | .ok true => areByteBoundary d₃

/-- core/redundancy/enhanced_tmr.hpp:489-526 `detectFaultPattern` for types as wide as `UintType`
(4 and 8 bytes).  `areByteBoundary` (:653-660) is textually that of `EnhancedVoting`. -/
def detectFaultPattern {W : Nat} (a b c : BitVec W) : Outcome FaultPattern :=
  let diff_ab := a ^^^ b
  let diff_ac := a ^^^ c
  let diff_bc := b ^^^ c
  let max_diff := max (max (countBits diff_ab) (countBits diff_ac)) (countBits diff_bc)
  let rest : Outcome FaultPattern :=
    if max_diff ≤ 32 ∧ areWordBoundary diff_ab = true ∧ areWordBoundary diff_ac = true ∧
        areWordBoundary diff_bc = true then .ok .wordError
    else if areBurstPattern diff_ab || areBurstPattern diff_ac || areBurstPattern diff_bc then
      .ok .burstError
    else .ok .unknown
  if max_diff = 1 then .ok .singleBit
  else if max_diff ≤ 3 ∧ areAdjacentBits diff_ab = true ∧ areAdjacentBits diff_ac = true ∧
      areAdjacentBits diff_bc = true then .ok .adjacentBits
  else if max_diff ≤ 8 then
    match byteBoundary3 diff_ab diff_ac diff_bc with
    | .ub => .ub
    | .ok true => .ok .byteError
    | .ok false => rest
  else rest

end Verif.ETmr
