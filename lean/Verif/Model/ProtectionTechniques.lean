import Verif.Model.Loop
/-!
Model of /repo/src/testing/protection_techniques.cpp (declared in /repo/include/rad_ml/testing/protection_techniques.hpp):
the Hamming(7,4) code and `applyProtectionTechnique`.

Random draws are arguments; the ranges of the distributions are hypotheses of the theorems.  `int` counters are natural
numbers (no overflow below 2^31 errors).  `std::cout` warnings are not modelled.  The class `ReedSolomonCode` of the same
file is never used; see Model/TestRs.lean.
-/
namespace Verif.Techniques

/-! ### Hamming(7,4) -/

/-- `(x >> i) & 1` (protection_techniques.cpp:21-24, 38-44). -/
def bitOf (x : BitVec 8) (i : Nat) : BitVec 8 := (x >>> i) &&& 1#8

/-- `HammingCode::encode` (protection_techniques.cpp:19-34). -/
def encode (data : BitVec 8) : BitVec 8 :=
  let d1 := bitOf data 0
  let d2 := bitOf data 1
  let d3 := bitOf data 2
  let d4 := bitOf data 3
  let p1 := d1 ^^^ d2 ^^^ d4
  let p2 := d1 ^^^ d3 ^^^ d4
  let p3 := d2 ^^^ d3 ^^^ d4
  (p1 <<< 0) ||| (p2 <<< 1) ||| (d1 <<< 2) ||| (p3 <<< 3) ||| (d2 <<< 4) ||| (d3 <<< 5) ||| (d4 <<< 6)

/-- The error position computed by `HammingCode::decode` (protection_techniques.cpp:37-52). -/
def errorPos (codeword : BitVec 8) : BitVec 8 :=
  let p1 := bitOf codeword 0
  let p2 := bitOf codeword 1
  let d1 := bitOf codeword 2
  let p3 := bitOf codeword 3
  let d2 := bitOf codeword 4
  let d3 := bitOf codeword 5
  let d4 := bitOf codeword 6
  let s1 := p1 ^^^ d1 ^^^ d2 ^^^ d4
  let s2 := p2 ^^^ d1 ^^^ d3 ^^^ d4
  let s3 := p3 ^^^ d2 ^^^ d3 ^^^ d4
  (s3 <<< 2) ||| (s2 <<< 1) ||| s1

/-- The data bits of a codeword (protection_techniques.cpp:40-44, 58-62, 66). -/
def dataOf (codeword : BitVec 8) : BitVec 8 :=
  (bitOf codeword 2 <<< 0) ||| (bitOf codeword 4 <<< 1) ||| (bitOf codeword 5 <<< 2) ||| (bitOf codeword 6 <<< 3)

/-- `HammingCode::decode` (protection_techniques.cpp:36-69). -/
def decode (codeword : BitVec 8) : BitVec 8 × Bool :=
  let e := errorPos codeword
  let c := if e ≠ 0 then codeword ^^^ (1#8 <<< (e.toNat - 1)) else codeword
  (dataOf c, decide (e ≠ 0))

/-! ### Events -/

/-- `RadiationEffectType` (testing/radiation_simulator.hpp:37-42). -/
inductive Effect where
  | singleBitFlip | multiBitUpset | latchup | transient
  deriving DecidableEq, Repr

/-- `RadiationEvent` without its description (testing/radiation_simulator.hpp:45-50). -/
structure Event where
  type : Effect
  offset : Nat
  bits : Nat

/-- The two counters of `ProtectionResult` (protection_techniques.hpp:16-24). -/
structure Result where
  corrections : Nat := 0
  total : Nat := 0
  deriving DecidableEq, Repr

/-- `memory[loc] ^= (1 << bit)`. -/
def flipAt (mem : List (BitVec 8)) (loc bit : Nat) : List (BitVec 8) := mem.modify loc (· ^^^ (1#8 <<< bit))

/-! ### TMR -/

/-- The draws of one event in `applyTMR` for copies 0, 1, 2 (protection_techniques.cpp:250-270): `loc k = none` if the base
location was chosen, `bit k = none` if the base bit was, `hit k` if the copy is struck. -/
structure TmrDraw where
  loc : Nat → Option Nat
  bit : Nat → Option Nat
  hit : Nat → Bool

/-- The memory and its two copies. -/
structure Copies where
  c0 : List (BitVec 8)
  c1 : List (BitVec 8)
  c2 : List (BitVec 8)

/-- One strike on copy `k` (protection_techniques.cpp:246-270). -/
def strike (n : Nat) (e : Event) (d : TmrDraw) (k : Nat) (m : List (BitVec 8)) : List (BitVec 8) :=
  if d.hit k then flipAt m ((d.loc k).getD (e.offset % n)) ((d.bit k).getD (e.bits % 8)) else m

/-- The loop over the events (protection_techniques.cpp:242-272). -/
def tmrStrikes (n : Nat) (evs : List (Event × TmrDraw)) (s : Copies) : Copies :=
  evs.foldl (fun s ed =>
    if ed.1.type ≠ .transient then
      ⟨strike n ed.1 ed.2 0 s.c0, strike n ed.1 ed.2 1 s.c1, strike n ed.1 ed.2 2 s.c2⟩
    else s) s

/-- The voted byte, `total_errors_found` and `corrected_bits`. -/
structure VoteByte where
  byte : BitVec 8 := 0
  found : Nat := 0
  corrected : Nat := 0

/-- One bit of the vote (protection_techniques.cpp:282-309). -/
def voteBit (a b c o : BitVec 8) (bit : Nat) (v : VoteByte) : VoteByte :=
  let bit0 := (bitOf a bit).toNat
  let bit1 := (bitOf b bit).toNat
  let bit2 := (bitOf c bit).toNat
  let orig := (bitOf o bit).toNat
  let votes := bit0 + bit1 + bit2
  let maj := if votes ≥ 2 then 1 else 0
  let wrong := bit0 ≠ orig ∨ bit1 ≠ orig ∨ bit2 ≠ orig
  { byte := v.byte ||| (BitVec.ofNat 8 maj <<< bit)
    found := if wrong then v.found + 1 else v.found
    corrected := if wrong ∧ maj = orig then v.corrected + 1 else v.corrected }

/-- The byte loop of the vote (protection_techniques.cpp:275-317). -/
def tmrVote (s : Copies) (original : List (BitVec 8)) (n : Nat) : List (BitVec 8) × Result :=
  forN n (fun i st =>
    let v := forN 8 (voteBit (st.1.getD i 0) (s.c1.getD i 0) (s.c2.getD i 0) (original.getD i 0))
      { byte := 0, found := st.2.total, corrected := st.2.corrections }
    (st.1.set i v.byte, { corrections := v.corrected, total := v.found })) (s.c0, {})

/-- `applyTMR` (protection_techniques.cpp:222-327): for an empty memory the distribution over `[0, -1]` is undefined (line 237);
an out-of-range draw would be an out-of-range access. -/
def applyTMR (mem : List (BitVec 8)) (evs : List (Event × TmrDraw)) : Outcome (List (BitVec 8) × Result) :=
  if mem.length = 0 then .ub
  else .ok (tmrVote (tmrStrikes mem.length evs ⟨mem, mem, mem⟩) mem mem.length)

/-! ### EDAC -/

/-- Encoding all bytes (protection_techniques.cpp:337-350). -/
def encodeAll (mem : List (BitVec 8)) : List (BitVec 8) :=
  mem.foldl (fun acc b => acc ++ [encode (b &&& 0x0F#8), encode ((b >>> 4) &&& 0x0F#8)]) []

/-- `num_bits_affected` (protection_techniques.cpp:365-370). -/
def numBits (t : Effect) : Nat :=
  match t with
  | .multiBitUpset => 2
  | .latchup => 3
  | _ => 1

/-- One event of `applyEDAC` (protection_techniques.cpp:359-382): the draws are pairs (second half?, bit). -/
def edacEvent (n : Nat) (s : List (BitVec 8) × Nat) (ed : Event × (Nat → Bool × Nat)) : List (BitVec 8) × Nat :=
  if ed.1.type ≠ .transient then
    forN (numBits ed.1.type) (fun i s =>
      (flipAt s.1 ((ed.1.offset % n) * 2 + (if (ed.2 i).1 then 1 else 0)) (ed.2 i).2, s.2 + 1)) s
  else s

/-- The decoding loop (protection_techniques.cpp:385-405). -/
def edacDecode (enc original : List (BitVec 8)) (n : Nat) (r : Result) : List (BitVec 8) × Result :=
  forN n (fun i st =>
    let lo := decode (enc.getD (i * 2) 0)
    let hi := decode (enc.getD (i * 2 + 1) 0)
    let corrected := (hi.1 <<< 4) ||| lo.1
    (st.1.set i corrected,
      if corrected = original.getD i 0 ∧ (lo.2 = true ∨ hi.2 = true) then { st.2 with corrections := st.2.corrections + 1 } else st.2))
    (original, r)

/-- `applyEDAC` (protection_techniques.cpp:329-406): `% memory.size()` is undefined for an empty memory and a non-transient
event. -/
def applyEDAC (mem : List (BitVec 8)) (evs : List (Event × (Nat → Bool × Nat))) : Outcome (List (BitVec 8) × Result) :=
  if mem.length = 0 ∧ evs.any (fun e => e.1.type ≠ .transient) then .ub
  else
    let s := evs.foldl (edacEvent mem.length) (encodeAll mem, 0)
    .ok (edacDecode s.1 mem mem.length { corrections := 0, total := s.2 })

/-! ### Scrubbing and no protection -/

/-- The strikes of `applyScrubbing` (protection_techniques.cpp:417-424). -/
def scrubStrikes (n : Nat) (evs : List Event) (s : List (BitVec 8) × Nat) : List (BitVec 8) × Nat :=
  evs.foldl (fun s e =>
    if e.type ≠ .transient then (flipAt s.1 (e.offset % n) (e.bits % 8), s.2 + 1) else s) s

/-- The comparison with the backup (protection_techniques.cpp:427-432). -/
def scrub (backup : List (BitVec 8)) (s : List (BitVec 8) × Result) (n : Nat) : List (BitVec 8) × Result :=
  forN n (fun i st =>
    if st.1.getD i 0 ≠ backup.getD i 0 then
      (st.1.set i (backup.getD i 0), { st.2 with corrections := st.2.corrections + 1 })
    else st) s

/-- `applyScrubbing` (protection_techniques.cpp:408-433). -/
def applyScrubbing (mem : List (BitVec 8)) (evs : List Event) : Outcome (List (BitVec 8) × Result) :=
  if mem.length = 0 ∧ evs.any (fun e => e.type ≠ .transient) then .ub
  else
    let s := scrubStrikes mem.length evs (mem, 0)
    .ok (scrub mem (s.1, { corrections := 0, total := s.2 }) mem.length)

/-- The case `NONE` of `applyProtectionTechnique` (protection_techniques.cpp:206-213). -/
def applyNone (mem : List (BitVec 8)) (evs : List Event) : List (BitVec 8) × Result :=
  (mem, { corrections := 0, total := (evs.filter (fun e => e.type ≠ .transient)).length })

end Verif.Techniques
