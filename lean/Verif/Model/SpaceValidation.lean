import Verif.Model.SpaceTmr
import Mathlib.Data.Real.Basic
/-!
Model of the validation program of the space-optimised TMR
(/repo/test/verification/space_monte_carlo_validation.cpp).  Values are their `w`-bit object
representations; `conv` is `static_cast<T>`, `eq` is `==` on `T`, `crc` the checksum and `fb` the
no-majority fallback of `SpaceEnhancedTMR<T>`.  `int` counters are natural numbers (at most 25000 trials),
time measurements are arguments, the printed layout is not modelled.
-/
namespace Verif.SpaceVal
open Verif.ETmr (State verifyChecksum validCount)

/-- space_monte_carlo_validation.cpp:52-103 the error patterns of `SPACE_ENVIRONMENTS` (LEO, GEO, LUNAR,
SAA, SOLAR_STORM, JUPITER). -/
def patterns : List (List (BitVec 64)) :=
  [[0x1, 0x2, 0x4, 0x8, 0x10, 0x100, 0x1000, 0x10000],
   [0x3, 0x5, 0x11, 0x101, 0x303, 0x707, 0xF0F0, 0xFF00],
   [0x7, 0x15, 0x33, 0x555, 0xAAA, 0x3333, 0x7777, 0xFFFF],
   [0xF, 0x1F, 0x3F, 0x7F, 0xFF, 0xFFFF, 0xFFFFFF, 0xFFFFFFFF],
   [0xFF, 0xFFFF, 0xFFFFFF, 0xFFFFFFFF, 0xFFFFFFFFFF, 0xFFFFFFFFFFFF, 0x5A5A5A5A5A5A, 0xA5A5A5A5A5A5],
   [0xFFFFFFFFFFFFFFFF, 0x5555555555555555, 0xAAAAAAAAAAAAAAAA, 0x3333333333333333,
    0xCCCCCCCCCCCCCCCC, 0x0F0F0F0F0F0F0F0F, 0xF0F0F0F0F0F0F0F0, 0x00FF00FF00FF00FF]]

/-- space_monte_carlo_validation.cpp:193-199 the loop counting the bits of the pattern. -/
def patternBits (pattern : BitVec 64) : Nat :=
  (forN 64 (fun _ (st : Nat × BitVec 64) =>
    if st.2 ≠ 0#64 ∧ st.1 < 64 then (st.1 + 1, st.2 >>> 1) else st) (0, pattern)).1

/-- space_monte_carlo_validation.cpp:184-221 `applyBitPattern` (`start < w` at the only call, so the
subtraction is not negative). -/
def applyBitPattern {w : Nat} (value : BitVec w) (pattern : BitVec 64) (start : Nat) : BitVec w :=
  forN (min (patternBits pattern) (w - start)) (fun i bits =>
    if start + i ≥ w then bits
    else if (pattern >>> i) &&& 1#64 ≠ 0#64 then bits ^^^ (1#w <<< (start + i)) else bits) value

/-- space_monte_carlo_validation.cpp:160-171 `applyRadiationEffects` (`(sequence_num * 7)` in `uint64_t`,
no overflow for the sequence numbers used). -/
def applyRadiation {w : Nat} (value : BitVec w) (env seq : Nat) : BitVec w :=
  let ps := patterns.getD env []
  applyBitPattern value (ps.getD (seq % 8) 0#64) (seq * 7 % w)

/-- The three arguments of the calls of `setForTesting` (space_monte_carlo_validation.cpp:312-314). -/
def three {α : Type _} (a b c : α) (k : Fin 3) : α := if k = 0 then a else if k = 1 then b else c

/-- space_monte_carlo_validation.cpp:237-270 the three copies of trial `i`. -/
def copies {w : Nat} (v : BitVec w) (env i : Nat) : Fin 3 → BitVec w :=
  if i % 3 = 0 then three (applyRadiation v env i) v v
  else if i % 3 = 1 then three (applyRadiation v env i) (applyRadiation v env (i + 100)) v
  else three (applyRadiation v env i) (applyRadiation v env (i + 200)) (applyRadiation v env (i + 300))

/-- space_monte_carlo_validation.cpp:106-140 the counters of `SpaceTestResults` that are assigned. -/
structure Results where
  space_success : Nat := 0
  space_match_original : Nat := 0
  space_uncorrectable : Nat := 0
  errors_detected : Nat := 0
  errors_corrected : Nat := 0
  single_copy_errors : Nat := 0
  double_copy_errors : Nat := 0
  triple_copy_errors : Nat := 0
  checksum_guided_corrections : Nat := 0
  majority_vote_corrections : Nat := 0
  repair_mechanism_used : Nat := 0
  false_positives : Nat := 0
  false_negatives : Nat := 0
  deriving DecidableEq, Repr

variable {α : Type _}

/-- space_enhanced_tmr.hpp:348-353 `setForTesting`, three times (space_monte_carlo_validation.cpp:312-314):
the values change, the checksums do not. -/
def setCopies (c : Fin 3 → α) (s : State α) : State α := { s with vals := c }

/-- space_enhanced_tmr.hpp:385-393 `isCorruptionDetected`. -/
def isCorruptionDetected (crc : α → BitVec 32) (s : State α) : Bool :=
  !verifyChecksum crc s 0 || !verifyChecksum crc s 1 || !verifyChecksum crc s 2

/-- space_enhanced_tmr.hpp:439 `canRepair`. -/
def canRepair (crc : α → BitVec 32) (s : State α) : Bool := decide (0 < validCount crc s)

/-- space_monte_carlo_validation.cpp:283-309 `actual_corruption_exists` (`x != y` is `!(x == y)`). -/
def actualCorruption (eq : α → α → Bool) (i : Nat) (orig : α) (c : Fin 3 → α) : Bool :=
  if i % 3 = 0 then !eq (c 0) orig
  else if i % 3 = 1 then !eq (c 0) orig || !eq (c 1) orig
  else !eq (c 0) orig || !eq (c 1) orig || !eq (c 2) orig

/-- space_monte_carlo_validation.cpp:283-309 the three counters of corrupted trials. -/
def countKind (i : Nat) (actual : Bool) (r : Results) : Results :=
  if actual then
    if i % 3 = 0 then { r with single_copy_errors := r.single_copy_errors + 1 }
    else if i % 3 = 1 then { r with double_copy_errors := r.double_copy_errors + 1 }
    else { r with triple_copy_errors := r.triple_copy_errors + 1 }
  else r

/-- space_monte_carlo_validation.cpp:324-333 detection accuracy. -/
def countDetection (actual detected : Bool) (r : Results) : Results :=
  if actual && detected then { r with errors_detected := r.errors_detected + 1 }
  else if actual && !detected then { r with false_negatives := r.false_negatives + 1 }
  else if !actual && detected then { r with false_positives := r.false_positives + 1 }
  else r

/-- space_monte_carlo_validation.cpp:339-357 correction accuracy. -/
def countCorrection (actual correct : Bool) (valid : Nat) (r : Results) : Results :=
  let r := if actual && correct then
      let r := { r with errors_corrected := r.errors_corrected + 1 }
      if valid > 0 ∧ valid < 3 then
        { r with checksum_guided_corrections := r.checksum_guided_corrections + 1 }
      else if valid = 3 then { r with majority_vote_corrections := r.majority_vote_corrections + 1 }
      else r
    else r
  if correct then { r with space_match_original := r.space_match_original + 1 } else r

/-- space_monte_carlo_validation.cpp:359-380 success, repair branch, uncorrectable. -/
def countStatus (eq : α → α → Bool) (fb : α → α → α → Outcome α) (crc : α → BitVec 32) (orig : α)
    (status : STmr.Status) (s : State α) (r : Results) : Outcome Results :=
  if status = .success then .ok { r with space_success := r.space_success + 1 }
  else if canRepair crc s then
    (STmr.repair eq fb crc s).bind (fun (p : STmr.Status × State α) =>
      if p.1 = .success then
        let r := { r with repair_mechanism_used := r.repair_mechanism_used + 1 }
        (STmr.get eq fb crc p.2).1.bind (fun (q : STmr.Status × α) =>
          if eq q.2 orig then .ok { r with space_match_original := r.space_match_original + 1,
                                            space_success := r.space_success + 1 }
          else .ok r)
      else .ok r)
  else .ok { r with space_uncorrectable := r.space_uncorrectable + 1 }

/-- space_monte_carlo_validation.cpp:275-381 one trial. -/
def trial (eq : α → α → Bool) (fb : α → α → α → Outcome α) (crc : α → BitVec 32) (i : Nat) (orig : α)
    (c : Fin 3 → α) (r : Results) : Outcome Results :=
  let s := setCopies c (ETmr.new crc orig)
  let actual := actualCorruption eq i orig c
  let r := countDetection actual (isCorruptionDetected crc s) (countKind i actual r)
  (STmr.get eq fb crc s).1.bind (fun (q : STmr.Status × α) =>
    countStatus eq fb crc orig q.1 (STmr.get eq fb crc s).2
      (countCorrection actual (eq q.2 orig) (validCount crc s) r))

/-- space_monte_carlo_validation.cpp:233-381 the trials of `runComparisonTest` for given data. -/
def runTrials (eq : α → α → Bool) (fb : α → α → α → Outcome α) (crc : α → BitVec 32) (orig : Nat → α)
    (c : Nat → Fin 3 → α) (n : Nat) : Outcome Results :=
  forN n (fun i acc => acc.bind (trial eq fb crc i (orig i) (c i))) (.ok {})

/-- space_monte_carlo_validation.cpp:233-409 `runComparisonTest<T>(env)`: trial `i` stores `i * 17 + 42`
(25000 trials in the program). -/
def runComparison {w : Nat} (eq : BitVec w → BitVec w → Bool)
    (fb : BitVec w → BitVec w → BitVec w → Outcome (BitVec w)) (crc : BitVec w → BitVec 32)
    (conv : Nat → BitVec w) (env n : Nat) : Outcome Results :=
  runTrials eq fb crc (fun i => conv (i * 17 + 42)) (fun i => copies (conv (i * 17 + 42)) env i) n

/-- space_monte_carlo_validation.cpp:391-395 `error_detection_rate` (doubles as reals). -/
noncomputable def detectionRate (r : Results) : ℝ :=
  if r.errors_detected + r.false_negatives > 0 then
    (r.errors_detected : ℝ) / ((r.errors_detected + r.false_negatives : Nat) : ℝ)
  else 1

/-- space_monte_carlo_validation.cpp:396-399 `error_correction_rate`. -/
noncomputable def correctionRate (r : Results) : ℝ :=
  if r.errors_detected + r.false_negatives > 0 then
    (r.errors_corrected : ℝ) / ((r.errors_detected + r.false_negatives : Nat) : ℝ)
  else 1

/-- space_monte_carlo_validation.cpp:387-388 `space_accuracy`. -/
noncomputable def accuracy (r : Results) (total : Nat) : ℝ := (r.space_match_original : ℝ) / (total : ℝ)

/-- space_monte_carlo_validation.cpp:401-407 `performance_ratio`. -/
noncomputable def performanceRatio (ms : ℝ) : ℝ := if ms > 0.0001 then ms else 1

/-- space_monte_carlo_validation.cpp:581-582 the percentage printed per data type,
`space_success / total_trials * 100.0` (integer division). -/
noncomputable def printedSuccess (r : Results) (total : Nat) : ℝ :=
  ((r.space_success / total : Nat) : ℝ) * 100

end Verif.SpaceVal
