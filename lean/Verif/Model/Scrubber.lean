import Verif.Model.Crc
/-!
Model of `rad_ml::memory::MemoryScrubber` (/repo/include/rad_ml/memory/memory_scrubber.hpp).

Memory is a function from addresses to bytes that the environment may change between calls; a registered region is its
address, size and stored checksum.  Every public method body runs under `mutex_`, so methods are atomic steps; the
background thread only calls `scrubMemory`.  Not modelled: start/stop of the thread, moving a scrubber, clock values and
the error-rate figure.
-/
namespace Verif.Scrubber
open Verif.Crc

abbrev Mem := Nat → BitVec 8

/-- The bytes `[p, p + n)`. -/
def bytesAt (mem : Mem) (p n : Nat) : List (BitVec 8) := (List.range n).map fun i => mem (p + i)

/-- memory_scrubber.hpp:431-440 `calculateCRC32`, with the shipped table :461-525. -/
def crc (data : List (BitVec 8)) : BitVec 32 := crc32Table scrubberTable data

/-- memory_scrubber.hpp:340-348 `MemoryRegion`. -/
structure Region where
  id : Nat
  ptr : Nat
  size : Nat
  ecc : Bool
  crc : BitVec 32

/-- Scrubber state (memory_scrubber.hpp:351-359, statistics :262-266). -/
structure State where
  regions : List Region := []
  next : Nat := 1
  cycles : Nat := 0
  detected : Nat := 0
  corrected : Nat := 0

/-- memory_scrubber.hpp:101-116 `registerMemoryRegion`. -/
def register (mem : Mem) (s : State) (ptr size : Nat) : Nat × State :=
  (s.next, { s with regions := s.regions ++ [⟨s.next, ptr, size, false, crc (bytesAt mem ptr size)⟩], next := s.next + 1 })

/-- First region with the id removed (memory_scrubber.hpp:131-139). -/
def eraseId (h : Nat) : List Region → Option (List Region)
  | [] => none
  | r :: rs => if r.id = h then some rs else (eraseId h rs).map (r :: ·)

/-- memory_scrubber.hpp:124-142 `unregisterMemoryRegion`. -/
def unregister (s : State) (h : Nat) : Bool × State :=
  if h = 0 then (false, s)
  else match eraseId h s.regions with
    | some rs => (true, { s with regions := rs })
    | none => (false, s)

/-- First region with the id gets the flag (memory_scrubber.hpp:328-333). -/
def setFlag (h : Nat) (b : Bool) : List Region → Option (List Region)
  | [] => none
  | r :: rs => if r.id = h then some ({ r with ecc := b } :: rs) else (setFlag h b rs).map (r :: ·)

/-- memory_scrubber.hpp:325-336 `setECCProtection`. -/
def setECC (s : State) (h : Nat) (b : Bool) : Bool × State :=
  match setFlag h b s.regions with
  | some rs => (true, { s with regions := rs })
  | none => (false, s)

/-- Number of 64-byte blocks: iterations of `for (i = 0; i < memory_size; i += 64)`. -/
def blocks (size : Nat) : Nat := (size + 63) / 64

/-- Checksum of block `k` (memory_scrubber.hpp:371-372, 390-392). -/
def blockCrc (mem : Mem) (r : Region) (k : Nat) : BitVec 32 :=
  crc (bytesAt mem (r.ptr + 64 * k) (min 64 (r.size - 64 * k)))

/-- memory_scrubber.hpp:383-421 `scrubRegion`: errors detected in this region and the region afterwards (an ECC region
forgets its checksum at the first mismatch). -/
def scrubRegion (mem : Mem) (r : Region) : Nat × Region :=
  forN (blocks r.size) (fun k s =>
    if blockCrc mem r k ≠ s.2.crc then (s.1 + 1, if s.2.ecc then { s.2 with crc := 0#32 } else s.2) else s) (0, r)

/-- memory_scrubber.hpp:364-375 `calculateChecksums`: each block overwrites the single checksum. -/
def calculateChecksums (mem : Mem) (r : Region) : Region :=
  forN (blocks r.size) (fun k q => { q with crc := blockCrc mem r k }) { r with crc := 0#32 }

/-- memory_scrubber.hpp:149-166 `scrubMemory`.  Every detected error is also counted as corrected (:417). -/
def scrubMemory (mem : Mem) (s : State) : Nat × State :=
  let rs := s.regions.map (scrubRegion mem)
  let errors := (rs.map (·.1)).sum
  (errors, { s with regions := rs.map fun r => calculateChecksums mem r.2, cycles := s.cycles + 1,
                    detected := s.detected + errors, corrected := s.corrected + errors })

/-- memory_scrubber.hpp:316-319 `resetStatistics`. -/
def resetStatistics (s : State) : State := { s with cycles := 0, detected := 0, corrected := 0 }

/-- memory_scrubber.hpp:241-244 `getRegionCount`. -/
def getRegionCount (s : State) : Nat := s.regions.length

/-- memory_scrubber.hpp:251-259 `getTotalMemorySize`. -/
def getTotalMemorySize (s : State) : Nat := (s.regions.map (·.size)).sum

/-- API calls; `env` is a change of the memory contents by the program or by radiation. -/
inductive Op where
  | register (ptr size : Nat)
  | unregister (h : Nat)
  | setECC (h : Nat) (b : Bool)
  | scrub
  | reset

/-- One call with the memory contents at that time. -/
def step (mem : Mem) (s : State) : Op → State
  | .register p n => (register mem s p n).2
  | .unregister h => (unregister s h).2
  | .setECC h b => (setECC s h b).2
  | .scrub => (scrubMemory mem s).2
  | .reset => resetStatistics s

/-- A history of calls over constant memory. -/
def run (mem : Mem) (s : State) (ops : List Op) : State := ops.foldl (step mem) s

end Verif.Scrubber
