import Verif.Model.Loop
/-!
Models of the bit-level fault tools:
* `utils::BitManipulation` (/repo/include/rad_ml/utils/bit_manipulation.hpp);
* `testing::SystematicFaultInjector` (/repo/include/rad_ml/testing/fault_injection.hpp, /repo/src/testing/fault_injection.cpp);
* `testing::FaultInjector` (/repo/include/rad_ml/testing/fault_injector.hpp);
* `radiation::SEUSimulator` (/repo/include/rad_ml/radiation/seu_simulator.hpp).

Values are bit vectors holding the object representation (so that `float` and `double` are covered).  Random draws are
arguments; the range of each distribution is a hypothesis of the theorems.  `int` arithmetic is exact (positions stay far
below 2^31).  Both testing headers define a class `FaultInjectionResult`, with different members, so that they cannot be
included together.
-/
namespace Verif.FaultTools

/-! ### BitManipulation -/

/-- `flipBit` for `float`, `double` and the integers except `bool` (bit_manipulation.hpp:32-50, 59-77, 87-96). -/
def flipBit {w : Nat} (x : BitVec w) (p : Int) : BitVec w :=
  if p < 0 ∨ p ≥ w then x else x ^^^ (1#w <<< p.toNat)

/-- `flipBit<bool>` (bit_manipulation.hpp:87-96): the `int` result of `^` is converted back to `bool`. -/
def flipBool (b : Bool) (p : Int) : Bool :=
  if p < 0 ∨ p ≥ 8 then b else decide (b.toNat ^^^ (1 <<< p.toNat) ≠ 0)

/-- The loop `while (diff) { count += diff & 1; diff >>= 1; }` (bit_manipulation.hpp:131-135). -/
def popLoop (d : Nat) : Nat := if d = 0 then 0 else d % 2 + popLoop (d / 2)
termination_by d
decreasing_by omega

/-- The width of `UIntType` for a type of `n` bytes (bit_manipulation.hpp:109-118). -/
def uintBits (n : Nat) : Nat := if n = 8 then 64 else if n = 4 then 32 else if n = 2 then 16 else 8

/-- `countBitDifferences` for a type of `n` bytes (bit_manipulation.hpp:107-138); the union yields the first bytes
(little endian). -/
def countBitDifferences (n : Nat) (a b : BitVec (8 * n)) : Nat :=
  popLoop ((a.setWidth (uintBits n)) ^^^ (b.setWidth (uintBits n))).toNat

/-- `isBitSet` (bit_manipulation.hpp:149-171). -/
def isBitSet {w : Nat} (x : BitVec w) (p : Int) : Bool :=
  if p < 0 ∨ p ≥ w then false else decide (x &&& (1#w <<< p.toNat) ≠ 0#w)

/-! ### SystematicFaultInjector -/

/-- `FaultPattern` (fault_injection.hpp:87-96). -/
inductive Pattern where
  | singleBit | adjacentBits | byteError | wordError | stuckAtZero | stuckAtOne | rowColumn | burstError
  deriving DecidableEq, Repr

/-- The random draws of one call: `dis`, `num_bits_dis`, `bit_dis`, and the successive samples of the normal distribution
after the cast to `int`. -/
structure Draws where
  start : Int
  num : Nat
  bit : Nat
  normal : Nat → Int

/-- What the distributions guarantee for `total` bits. -/
def Draws.Valid (d : Draws) (total : Nat) : Prop :=
  0 ≤ d.start ∧ d.start < total ∧ (d.num = 2 ∨ d.num = 3) ∧ d.bit < total

/-- `starting_bit` after the adjustments (src/testing/fault_injection.cpp:43-50). -/
def startBit (total : Nat) (start : Int) (d : Draws) : Nat :=
  let s := if start < 0 then d.start else start
  (max (min s ((total : Int) - 1)) 0).toNat

/-- The bits of the aligned block of `k` bits around `s` (src/testing/fault_injection.cpp:76-83, 88-95). -/
def block (k total s : Nat) : List Nat := ((List.range k).map fun i => s / k * k + i).filter (· < total)

/-- The column part of ROW_COLUMN (src/testing/fault_injection.cpp:116-120). -/
def column (total s : Nat) : List Nat :=
  (((List.range ((total + 7) / 8)).map (8 * ·)).filter fun i => i ≠ s / 8 * 8 ∧ i + s % 8 < total).map (· + s % 8)

/-- `static_cast<int>(sample) % total_bits`, made nonnegative (src/testing/fault_injection.cpp:131-132). -/
def wrapBit (total : Nat) (x : Int) : Nat :=
  let b := x.tmod total
  (if b < 0 then b + total else b).toNat

/-- `getBitsToFlip` (src/testing/fault_injection.cpp:36-143) for `total > 0`. -/
def getBitsToFlip (p : Pattern) (total : Nat) (start : Int) (d : Draws) : List Nat :=
  let s := startBit total start d
  match p with
  | .singleBit => [s]
  | .adjacentBits => (List.range d.num).map fun i => (s + i) % total
  | .byteError => block 8 total s
  | .wordError => block 32 total s
  | .stuckAtZero => [s]
  | .stuckAtOne => [s]
  | .rowColumn => block 8 total s ++ column total s
  | .burstError => (List.range (5 + d.bit % 10)).map fun i => wrapBit total (d.normal i)

/-- `bits.reset`, `bits.set` or `bits.flip` (fault_injection.hpp:168-176). -/
def applyBit {w : Nat} (p : Pattern) (x : BitVec w) (i : Nat) : BitVec w :=
  if i < w then
    match p with
    | .stuckAtZero => x &&& ~~~(1#w <<< i)
    | .stuckAtOne => x ||| (1#w <<< i)
    | _ => x ^^^ (1#w <<< i)
  else x

/-- `injectFault` (fault_injection.hpp:148-183) on the object representation, read and written back completely.  `d1` are
the draws of `injectFault` itself (only `start` is used), `d2` those of `getBitsToFlip`. -/
def injectFault {w : Nat} (x : BitVec w) (p : Pattern) (pos : Int) (d1 d2 : Draws) : BitVec w :=
  let pos := if pos < 0 then d1.start else pos
  (getBitsToFlip p w pos d2).foldl (applyBit p) x

/-- Number of bytes of `std::bitset<8 * n>` when its words have 8 bytes (libstdc++ and libc++ on 64-bit systems; libc++ uses
`size_t` words). -/
def bitsetBytes (n : Nat) : Nat := (8 * n + 63) / 64 * 8

/-- The accesses of `injectFault` to the parameter `value` of `n` bytes (fault_injection.hpp:162-163 reads
`sizeof(bitset)` bytes from it): defined only if they stay inside the object.  Lines 180 reads `n` bytes of the bitset. -/
def injectFaultMem (n : Nat) (x : BitVec (8 * n)) (p : Pattern) (pos : Int) (d1 d2 : Draws) : Outcome (BitVec (8 * n)) :=
  if bitsetBytes n ≤ n then .ok (injectFault x p pos d1 d2) else .ub

/-! ### FaultInjector -/

/-- `FaultType` (fault_injector.hpp:18-24). -/
inductive FaultType where
  | singleBitFlip | multiBitFlip | stuckAtZero | stuckAtOne | randomValue
  deriving DecidableEq, Repr

/-- The byte after the fault (fault_injector.hpp:77-102); `bits` are the drawn bit indices, `byte` the drawn byte. -/
def faultByte (t : FaultType) (b : BitVec 8) (bits : List Nat) (byte : BitVec 8) : BitVec 8 :=
  match t with
  | .singleBitFlip => (bits.take 1).foldl (fun b i => b ^^^ (1#8 <<< i)) b
  | .multiBitFlip => bits.foldl (fun b i => b ^^^ (1#8 <<< i)) b
  | .stuckAtZero => 0x00#8
  | .stuckAtOne => 0xFF#8
  | .randomValue => byte

/-- `injectFault` (fault_injector.hpp:73-103) on the region `mem`, with drawn byte index `k`; undefined if the index is outside
the region (for an empty region `getRandomIndex(0)` draws from the whole range of `size_t`). -/
def injectByte (mem : List (BitVec 8)) (t : FaultType) (k : Nat) (bits : List Nat) (byte : BitVec 8) :
    Outcome (List (BitVec 8)) :=
  match mem[k]? with
  | some b => .ok (mem.set k (faultByte t b bits byte))
  | none => .ub

/-- `injectRandomBitFlip` (fault_injector.hpp:55-63). -/
def injectRandomBitFlip (mem : List (BitVec 8)) (k bit : Nat) : Outcome (List (BitVec 8)) :=
  match mem[k]? with
  | some b => .ok (mem.set k (b ^^^ (1#8 <<< bit)))
  | none => .ub

/-- The counters and the component in `testResilience`. -/
structure Trial (σ : Type) where
  comp : σ
  detected : Nat := 0
  corrected : Nat := 0

/-- One iteration (fault_injector.hpp:127-146).  The callables may change the component; `i` is the number of the trial (the
injected fault is usually random). -/
def trial {σ : Type} (inject : Nat → σ → σ) (verify : σ → Bool × σ) (repair : σ → σ) (i : Nat) (t : Trial σ) : Trial σ :=
  let c := inject i t.comp
  let v := verify c
  if !v.1 then
    let c := repair v.2
    let v := verify c
    { comp := v.2, detected := t.detected + 1, corrected := if v.1 then t.corrected + 1 else t.corrected }
  else { t with comp := v.2 }

/-- `testResilience` (fault_injector.hpp:115-157): the final state of the loop; a non-positive number of trials does nothing. -/
def testResilience {σ : Type} (inject : Nat → σ → σ) (verify : σ → Bool × σ) (repair : σ → σ) (trials : Int) (c : σ) : Trial σ :=
  forN trials.toNat (trial inject verify repair) { comp := c }

/-- The flags of the result (fault_injector.hpp:149-150). -/
def resultFlags {σ : Type} (t : Trial σ) : Bool × Bool := (decide (t.detected > 0), decide (t.corrected > 0))

/-! ### SEUSimulator -/

/-- Byte-addressed memory. -/
abbrev Mem := Nat → BitVec 8

/-- One flip (seu_simulator.hpp:80-90): byte `f.1` of the region at `base`, bit `f.2`. -/
def flipAt (m : Mem) (base : Nat) (f : Nat × Nat) : Mem :=
  fun a => if a = base + f.1 then m a ^^^ (1#8 <<< f.2) else m a

/-- `injectBitFlips` (seu_simulator.hpp:61-94); `flips` are the drawn positions, as many as the Poisson draw.  Returns the
number of flips and the memory. -/
def injectBitFlips (env : Bool) (m : Mem) (base size : Nat) (flips : List (Nat × Nat)) : Nat × Mem :=
  if !env ∨ base = 0 ∨ size = 0 then (0, m) else (flips.length, flips.foldl (fun m f => flipAt m base f) m)

/-- `simulateSEUs` (seu_simulator.hpp:104-122) with a callback: total (a `uint32`), memory, callback invocations.  Each region
comes with the flips drawn for it. -/
def simulateSEUs (env : Bool) (m : Mem) (regions : List ((Nat × Nat) × List (Nat × Nat))) :
    BitVec 32 × Mem × List (Nat × Nat × Nat) :=
  regions.foldl (fun s r =>
    let q := injectBitFlips env s.2.1 r.1.1 r.1.2 r.2
    (s.1 + BitVec.ofNat 32 q.1, q.2, if q.1 > 0 then s.2.2 ++ [(r.1.1, r.1.2, q.1)] else s.2.2)) (0#32, m, [])

end Verif.FaultTools
