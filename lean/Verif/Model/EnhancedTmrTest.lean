import Verif.Model.EnhancedVoting
/-!
Model of the voting test (/repo/test/verification/enhanced_tmr_test.cpp) for types of `W` = 32 or 64 bits, with the voters of Verif.Voting.

Simplifications: values are bit patterns, `eq` is `==` of the type; the garbage read by the voters is an argument; `coin` is whether `rand()` is even.  Indices of bits and bytes are natural numbers.  An `assert` that fails ends the program: the result is then `.ok false`.  Not modelled: texts.
-/
namespace Verif.VoteTest
open Verif.Voting

variable {W : Nat}

/-- `injectSingleBitError` (enhanced_tmr_test.cpp:35-47): a shift by the width or more is undefined. -/
def single (v : BitVec W) (pos : Nat) : Outcome (BitVec W) := if pos < W then .ok (v ^^^ (1#W <<< pos)) else .ub

/-- `injectAdjacentBitErrors` (enhanced_tmr_test.cpp:50-66). -/
def adjacent (v : BitVec W) (start n : Nat) : BitVec W := forN n (fun i bits => bits ^^^ (1#W <<< ((start + i) % W))) v

/-- `injectByteError` (enhanced_tmr_test.cpp:68-82). -/
def byteError (v : BitVec W) (i : Nat) : Outcome (BitVec W) := if i * 8 < W then .ok (v ^^^ (0xFF#W <<< (i * 8))) else .ub

/-- `injectWordError` (enhanced_tmr_test.cpp:84-106). -/
def wordError (coin : Bool) (v : BitVec W) : BitVec W :=
  if W ≤ 32 then ~~~v else if coin then v ^^^ 0xFFFFFFFF#W else v ^^^ (0xFFFFFFFF#W <<< 32)

/-- `injectBurstError` (enhanced_tmr_test.cpp:108-127). -/
def burst (v : BitVec W) (start n : Nat) : BitVec W := v ^^^ forN n (fun i mask => mask ||| (1#W <<< ((start + i) % W))) 0#W

/-- The results of the five voting mechanisms. -/
structure Votes (W : Nat) where
  standard : BitVec W
  bit : BitVec W
  word : BitVec W
  burst : BitVec W
  adaptive : BitVec W

/-- All mechanisms on three copies, with the pattern detected (enhanced_tmr_test.cpp:326-346, 398-404). -/
def votes (eq : BitVec W → BitVec W → Bool) (g : Garbage W) (a b c : BitVec W) : Outcome (Votes W) :=
  (detectFaultPattern a b c).bind fun p =>
    .ok ⟨standardVote eq a b c, bitLevelVote a b c, wordErrorVote eq g.ga g.gb g.gc g.ga' g.gb' g.gc' a b c, burstErrorVote g.ha g.hb g.hc a b c, adaptiveVote eq g a b c p⟩

/-- A section of `testVotingMechanisms` (enhanced_tmr_test.cpp:135-162 and twins): the assertions `pre` on mechanisms that need no pattern, the detection, the assertion on the adaptive vote. -/
def sect (eq : BitVec W → BitVec W → Bool) (g : Garbage W) (pre : List (BitVec W)) (v a b c : BitVec W) : Outcome Bool :=
  if pre.all (fun r => eq r v) then (detectFaultPattern a b c).bind fun p => .ok (eq (adaptiveVote eq g a b c p) v)
  else .ok false

/-- The next section, unless an assertion has failed. -/
def andThen (x y : Outcome Bool) : Outcome Bool := x.bind fun b => if b then y else .ok false

/-- `testVotingMechanisms` (enhanced_tmr_test.cpp:129-361). -/
def testVoting (eq : BitVec W → BitVec W → Bool) (g : Garbage W) (coin : Bool) (v : BitVec W) : Outcome Bool :=
  andThen ((single v 3).bind fun a => sect eq g [standardVote eq a v v, bitLevelVote a v v] v a v v) <|
  andThen (sect eq g [standardVote eq (adjacent v 10 2) v v, bitLevelVote (adjacent v 10 2) v v] v (adjacent v 10 2) v v) <|
  andThen ((byteError v 0).bind fun a => sect eq g [bitLevelVote a v v, burstErrorVote g.ha g.hb g.hc a v v] v a v v) <|
  andThen (sect eq g [wordErrorVote eq g.ga g.gb g.gc g.ga' g.gb' g.gc' (wordError coin v) v v] v (wordError coin v) v v) <|
  andThen (sect eq g [burstErrorVote g.ha g.hb g.hc (burst v 12 5) v v] v (burst v 12 5) v v) <|
  andThen ((single v 5).bind fun a => (single v 15).bind fun b => sect eq g [bitLevelVote a b v] v a b v) <|
  (single v 7).bind fun a => (single v 8).bind fun b => (single v 9).bind fun c => (votes eq g a b c).bind fun _ => .ok true

/-- The kinds of damage of `runStatisticalTests` (enhanced_tmr_test.cpp:391-496). -/
inductive Kind where
  | single | adjacent | byte | word | burst

/-- The damaged copy of trial `i` (enhanced_tmr_test.cpp:394, 415, 436, 457, 478). -/
def damaged (k : Kind) (coin : Bool) (i : Nat) (v : BitVec W) : Outcome (BitVec W) :=
  match k with
  | .single => single v (i % W)
  | .adjacent => .ok (adjacent v (i % (W - 2)) (2 + i % 2))
  | .byte => byteError v (i % (W / 8))
  | .word => .ok (wordError coin v)
  | .burst => .ok (burst v (i % (W - 5)) (3 + i % 3))

/-- The counters of one kind (enhanced_tmr_test.cpp:373-379). -/
structure Results where
  standard : Nat := 0
  bit : Nat := 0
  word : Nat := 0
  burst : Nat := 0
  adaptive : Nat := 0
  deriving DecidableEq

/-- Counting one trial (enhanced_tmr_test.cpp:406-410 and twins). -/
def Results.add (eq : BitVec W → BitVec W → Bool) (v : BitVec W) (r : Results) (x : Votes W) : Results :=
  ⟨r.standard + (eq x.standard v).toNat, r.bit + (eq x.bit v).toNat, r.word + (eq x.word v).toNat, r.burst + (eq x.burst v).toNat, r.adaptive + (eq x.adaptive v).toNat⟩

/-- The counters of kind `k` after `n` trials with the originals `orig 0`, `orig 1`, ... (enhanced_tmr_test.cpp:389-496). -/
def stats (eq : BitVec W → BitVec W → Bool) (g : Nat → Garbage W) (coin : Nat → Bool) (orig : Nat → BitVec W) (k : Kind) : Nat → Outcome Results
  | 0 => .ok {}
  | n + 1 => (stats eq g coin orig k n).bind fun r => (damaged k (coin n) n (orig n)).bind fun a =>
    (votes eq (g n) a (orig n) (orig n)).bind fun x => .ok (r.add eq (orig n) x)

/-- What `main` does up to the statistical tests (enhanced_tmr_test.cpp:521-532): the four types in turn. -/
def mainVoting (eqf : BitVec 32 → BitVec 32 → Bool) (eqd : BitVec 64 → BitVec 64 → Bool) (g : Garbage 32) (h : Garbage 64) (c1 c2 : Bool) : Outcome Bool :=
  andThen (testVoting eqf g c1 0x40490FD0#32) <|
  andThen (testVoting eqd h c1 0x4005BF0995AAF790#64) <|
  andThen (testVoting (· == ·) g c2 42#32) <|
  testVoting (· == ·) h c2 0x7FFFFFFFFFFFFFFF#64

end Verif.VoteTest
