import Verif.Model.Loop
import Verif.Model.CrcTables
/-!
CRC-32 as computed by the library.  A memory region is the list of its bytes in address order.
-/
namespace Verif.Crc

/-- The bit step `crc = (crc >> 1) ^ (0xEDB88320 & -(crc & 1))`:
core/redundancy/enhanced_tmr.hpp:52, core/redundancy/space_enhanced_tmr.hpp:52-59,
tmr/health_weighted_tmr.hpp:209, tmr/approximate_tmr.hpp:276. -/
def bitStep (crc : BitVec 32) : BitVec 32 :=
  (crc >>> 1) ^^^ (0xEDB88320#32 &&& -(crc &&& 1#32))

/-- One byte: `crc ^= byte` then eight bit steps (core/redundancy/enhanced_tmr.hpp:50-53). -/
def byteStep (crc : BitVec 32) (b : BitVec 8) : BitVec 32 :=
  forN 8 (fun _ c => bitStep c) (crc ^^^ b.setWidth 32)

/-- core/redundancy/enhanced_tmr.hpp:45-57 `CRC::calculate`; the same loop is at
core/redundancy/space_enhanced_tmr.hpp:42-63, tmr/health_weighted_tmr.hpp:200-214,
tmr/approximate_tmr.hpp:267-281. -/
def crc32 (data : List (BitVec 8)) : BitVec 32 :=
  ~~~ (data.foldl byteStep 0xFFFFFFFF#32)

/-- The bit step of core/memory/unified_memory.hpp:986
`crc = (crc >> 1) ^ ((crc & 1) ? CRC32_POLYNOMIAL : 0)`. -/
def bitStepCond (crc : BitVec 32) : BitVec 32 :=
  (crc >>> 1) ^^^ (if crc &&& 1#32 ≠ 0#32 then 0xEDB88320#32 else 0#32)

/-- core/memory/unified_memory.hpp:977-991 `calculateCRC32`. -/
def crc32Unified (data : List (BitVec 8)) : BitVec 32 :=
  ~~~ (data.foldl (fun crc b => forN 8 (fun _ c => bitStepCond c) (crc ^^^ b.setWidth 32))
    0xFFFFFFFF#32)

/-- Table step `crc = (crc >> 8) ^ table[(crc ^ byte) & 0xFF]`
(core/memory/memory_scrubbing.hpp:81, memory/memory_scrubber.hpp:435-436, tmr/enhanced_tmr.hpp:57-58).
All tables have 256 entries, so the index is always in range. -/
def tableStep (table : List (BitVec 32)) (crc : BitVec 32) (b : BitVec 8) : BitVec 32 :=
  (crc >>> 8) ^^^ table.getD ((crc ^^^ b.setWidth 32) &&& 0xFF#32).toNat 0#32

/-- core/memory/memory_scrubbing.hpp:42-85 `compute_crc32`, memory/memory_scrubber.hpp:431-440
`calculateCRC32`, tmr/enhanced_tmr.hpp:52-62 `CRC32::calculate`, for a given table. -/
def crc32Table (table : List (BitVec 32)) (data : List (BitVec 8)) : BitVec 32 :=
  ~~~ (data.foldl (tableStep table) 0xFFFFFFFF#32)

/-- Inner loop of tmr/enhanced_tmr.hpp:33-39. -/
def genStep (c : BitVec 32) : BitVec 32 :=
  if c &&& 1#32 ≠ 0#32 then 0xEDB88320#32 ^^^ (c >>> 1) else c >>> 1

/-- tmr/enhanced_tmr.hpp:29-42: the table built by the `CRC32` constructor. -/
def generatedTable : List (BitVec 32) :=
  (List.range 256).map fun i => forN 8 (fun _ c => genStep c) (BitVec.ofNat 32 i)

/-- Object representation of a `w`-bit value: `n` bytes, least significant first (little endian).
Models `reinterpret_cast<const uint8_t*>(&value)` (core/redundancy/enhanced_tmr.hpp:46,68). -/
def bytesOf {w : Nat} (n : Nat) (x : BitVec w) : List (BitVec 8) :=
  (List.range n).map fun i => (x >>> (8 * i)).setWidth 8

/-- core/redundancy/enhanced_tmr.hpp:67-69 `CRC::calculateForValue`, for an `n`-byte type. -/
def crcOfValue (n : Nat) (x : BitVec (8 * n)) : BitVec 32 := crc32 (bytesOf n x)

end Verif.Crc
