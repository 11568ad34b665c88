import Verif.Spec.Bits
import Verif.Model.EnhancedVoting
/-!
What the fault categories of `FaultPattern` mean for a difference word, independent of the code.
-/
namespace Verif.Spec
open Verif.Voting (FaultPattern)

/-- All set bits of `d` lie inside one aligned byte. -/
def InOneByte {W : Nat} (d : BitVec W) : Prop :=
  ∃ k, k < W / 8 ∧ ∀ i, d.getLsbD i = true → 8 * k ≤ i ∧ i < 8 * k + 8

/-- `d` contains `k` consecutive set bits. -/
def HasRun {W : Nat} (d : BitVec W) (k : Nat) : Prop :=
  ∃ s, s + k ≤ W ∧ ∀ i, i < k → d.getLsbD (s + i) = true

/-- `d` is exactly one block of `k ≥ 2` adjacent set bits (a multiple-cell upset). -/
def IsAdjacentBlock {W : Nat} (d : BitVec W) : Prop :=
  ∃ s k, 2 ≤ k ∧ s + k ≤ W ∧ ∀ i, d.getLsbD i = true ↔ (s ≤ i ∧ i < s + k)

/-- A burst: some run of at least 3 bits that holds at least 60% of the set bits. -/
def IsBurst {W : Nat} (d : BitVec W) : Prop := ∃ k, 3 ≤ k ∧ HasRun d k ∧ 3 * popcount d ≤ 5 * k

/-- The classification the library actually provides for a 32-bit difference word: the first
matching category in the order single bit, byte, word (> 16 bits), burst. -/
def Class32 (d : BitVec 32) : FaultPattern → Prop
  | .singleBit => popcount d = 1
  | .adjacentBits => False
  | .byteError => popcount d ≠ 1 ∧ InOneByte d
  | .wordError => ¬ InOneByte d ∧ 16 < popcount d
  | .burstError => ¬ InOneByte d ∧ popcount d ≤ 16 ∧ IsBurst d
  | .unknown => ¬ InOneByte d ∧ popcount d ≤ 16 ∧ ¬ IsBurst d

end Verif.Spec
