import Verif.Model.Loop
/-!
Model of `rad_ml::memory::RadiationMappedAllocator`
(/repo/include/rad_ml/memory/radiation_mapped_allocator.hpp) for a 64-bit `size_t`.

Addresses and sizes are natural numbers below `2^64`; additions and subtractions of `size_t` wrap (`add64`, `sub64`).
`std::malloc` is an environment oracle: each `allocate` call carries the pointer malloc would return if it is called.
The probabilities stored in a zone never influence placement and are not modelled.  The sums of sizes reported by the
diagnostics are natural numbers (no wrap-around), the vulnerability score is an exact fraction instead of a `double`.
-/
namespace Verif.Mapped

/-- `size_t` addition. -/
def add64 (a b : Nat) : Nat := (a + b) % 2 ^ 64

/-- `size_t` subtraction. -/
def sub64 (a b : Nat) : Nat := (a + (2 ^ 64 - b % 2 ^ 64)) % 2 ^ 64

/-- radiation_mapped_allocator.hpp:23-28 `RadiationZone::Level`. -/
inductive Level where
  | high | moderate | light | unshielded
  deriving DecidableEq, Repr

/-- radiation_mapped_allocator.hpp:85-90 `DataCriticality`. -/
inductive Crit where
  | mission | important | moderate | low
  deriving DecidableEq, Repr

/-- radiation_mapped_allocator.hpp:388-394 `DataPlacement`. -/
inductive Placement where
  | high | moderate | minimal | unprotected | system
  deriving DecidableEq, Repr

/-- radiation_mapped_allocator.hpp:30-32 the fields of `RadiationZone` used for placement. -/
structure Zone where
  level : Level
  start : Nat
  stop : Nat
  deriving DecidableEq, Repr

/-- radiation_mapped_allocator.hpp:397-401 `AllocationRecord`. -/
structure Alloc where
  addr : Nat
  size : Nat
  level : Level
  deriving DecidableEq, Repr

/-- radiation_mapped_allocator.hpp:404-409 `MemoryRecord`. -/
structure MemRec where
  ptr : Nat
  size : Nat
  crit : Crit
  placement : Placement
  deriving DecidableEq, Repr

/-- radiation_mapped_allocator.hpp:412-419 the data members. -/
structure State where
  zones : List Zone
  allocs : List Alloc := []
  managed : List MemRec := []
  sys : List MemRec := []
  deriving DecidableEq, Repr

/-- radiation_mapped_allocator.hpp:422-432 `initialize_default_zones`. -/
def defaultZones : List Zone :=
  [⟨.high, 0x10000000, 0x10000000 + 1 * 1048576⟩, ⟨.moderate, 0x20000000, 0x20000000 + 4 * 1048576⟩,
   ⟨.light, 0x30000000, 0x30000000 + 8 * 1048576⟩, ⟨.unshielded, 0x40000000, 0x40000000 + 16 * 1048576⟩]

/-- radiation_mapped_allocator.hpp:441-444 the overlap test of two zones (both ends inclusive). -/
def zonesClash (a b : Zone) : Bool := decide (a.start ≤ b.stop) && decide (b.start ≤ a.stop)

/-- radiation_mapped_allocator.hpp:441-448 the nested loop over `i < j`. -/
def anyClash : List Zone → Bool
  | [] => false
  | z :: l => l.any (zonesClash z) || anyClash l

/-- radiation_mapped_allocator.hpp:435-449 `validate_zones` (true: no exception). -/
def validate (zs : List Zone) : Bool := !zs.isEmpty && !anyClash zs

/-- radiation_mapped_allocator.hpp:117-120 constructor with custom zones; `none` is the exception. -/
def construct (zs : List Zone) : Option State := if validate zs then some { zones := zs } else none

/-- radiation_mapped_allocator.hpp:106-110 default constructor. -/
def new : State := { zones := defaultZones }

/-- radiation_mapped_allocator.hpp:456-469 the level wanted for a criticality. -/
def targetLevel : Crit → Level
  | .mission => .high
  | .important => .moderate
  | .moderate => .light
  | .low => .unshielded

/-- `for (auto& zone : zones_) if (zone.level == l) return zone;`: index of the first match. -/
def findLevel (zs : List Zone) (l : Level) : Option Nat := zs.findIdx? (fun z => z.level == l)

/-- radiation_mapped_allocator.hpp:452-480 `select_zone_for_criticality`: index of the zone. -/
def selectZone (zs : List Zone) (c : Crit) : Nat := (findLevel zs (targetLevel c)).getD 0

/-- radiation_mapped_allocator.hpp:515-552 `find_fallback_zone`: index of the zone. -/
def fallbackZone (zs : List Zone) (c : Crit) : Nat :=
  match c with
  | .mission =>
    ((findLevel zs .moderate).orElse fun _ => (findLevel zs .light).orElse fun _ => findLevel zs .unshielded).getD 0
  | .important => ((findLevel zs .light).orElse fun _ => findLevel zs .unshielded).getD 0
  | .moderate => (findLevel zs .unshielded).getD 0
  | .low => 0

/-- Lexicographic `<=` of pairs, the order `std::sort` uses on `std::pair<size_t, size_t>`. -/
def pairLe (p q : Nat × Nat) : Bool := decide (p.1 < q.1) || (decide (p.1 = q.1) && decide (p.2 ≤ q.2))

/-- Sorting; `std::sort` on pairs has exactly one possible result because the order is total. -/
def insertPair (b : Nat × Nat) : List (Nat × Nat) → List (Nat × Nat)
  | [] => [b]
  | c :: l => if pairLe b c then b :: c :: l else c :: insertPair b l

/-- radiation_mapped_allocator.hpp:493 `std::sort`. -/
def sortPairs : List (Nat × Nat) → List (Nat × Nat)
  | [] => []
  | b :: l => insertPair b (sortPairs l)

/-- radiation_mapped_allocator.hpp:485-490 the blocks recorded for the zone's level. -/
def occupied (s : State) (l : Level) : List (Nat × Nat) :=
  (s.allocs.filter fun a => a.level == l).map fun a => (a.addr, a.size)

/-- radiation_mapped_allocator.hpp:496-510 the scan for the first gap (`none` is the `return 0` at the end). -/
def scan (stop size : Nat) : List (Nat × Nat) → Nat → Option Nat
  | [], cur => if size ≤ sub64 stop cur then some cur else none
  | b :: l, cur => if size ≤ sub64 b.1 cur then some cur else scan stop size l (add64 b.1 b.2)

/-- radiation_mapped_allocator.hpp:483-512 `find_available_space`. -/
def findSpace (s : State) (z : Zone) (size : Nat) : Nat :=
  (scan z.stop size (sortPairs (occupied s z.level)) z.start).getD 0

/-- A zone for reading an index that is always in range for the non-empty zone lists the constructors accept. -/
def zoneAt (zs : List Zone) (i : Nat) : Zone := (zs[i]?).getD ⟨.unshielded, 0, 0⟩

/-- radiation_mapped_allocator.hpp:151-165 placement recorded for diagnostics. -/
def placementOf : Level → Placement
  | .high => .high
  | .moderate => .moderate
  | .light => .minimal
  | .unshielded => .unprotected

/-- radiation_mapped_allocator.hpp:146-169 recording a successful managed allocation. -/
def record (s : State) (addr size : Nat) (l : Level) (c : Crit) : State :=
  { s with allocs := s.allocs ++ [⟨addr, size, l⟩], managed := s.managed ++ [⟨addr, size, c, placementOf l⟩] }

/-- radiation_mapped_allocator.hpp:129-173 `allocate`; `m` is what `std::malloc` returns if it is called.  Line 137
assigns through the reference `target_zone`, so the selected entry of `zones_` is overwritten by the fallback zone. -/
def allocate (s : State) (size : Nat) (c : Crit) (m : Nat) : Nat × State :=
  let i := selectZone s.zones c
  let z := zoneAt s.zones i
  let a := findSpace s z size
  if a = 0 then
    let f := zoneAt s.zones (fallbackZone s.zones c)
    let s := { s with zones := s.zones.set i f }
    let a := findSpace s f size
    if a = 0 then (m, { s with sys := s.sys ++ [⟨m, size, c, .system⟩] })
    else (a, record s a size f.level c)
  else (a, record s a size z.level c)

/-- What `deallocate` did with the pointer. -/
inductive Freed where
  | managed | system | unknown
  deriving DecidableEq, Repr

/-- radiation_mapped_allocator.hpp:181-219 `deallocate`; `unknown` is the `std::free` of a pointer in no record. -/
def deallocate (s : State) (p : Nat) : Freed × State :=
  if s.allocs.any (fun a => a.addr == p) then
    (.managed, { s with allocs := s.allocs.eraseP fun a => a.addr == p, managed := s.managed.eraseP fun r => r.ptr == p })
  else if s.sys.any (fun r => r.ptr == p) then
    (.system, { s with sys := s.sys.eraseP fun r => r.ptr == p })
  else (.unknown, s)

/-- radiation_mapped_allocator.hpp:282-303 `get_criticality_usage`. -/
def usage (s : State) (c : Crit) : Nat :=
  (((s.managed ++ s.sys).filter fun r => r.crit == c).map (·.size)).sum

/-- radiation_mapped_allocator.hpp:229-254 bytes reported per zone level by `get_diagnostics`. -/
def zoneBytes (s : State) (l : Level) : Nat := ((s.allocs.filter fun a => a.level == l).map (·.size)).sum

/-- radiation_mapped_allocator.hpp:554-567 `get_criticality_weight`. -/
def weight : Crit → Nat
  | .mission => 10
  | .important => 5
  | .moderate => 2
  | .low => 1

/-- radiation_mapped_allocator.hpp:570-585 `get_placement_factor` in tenths. -/
def factor10 : Placement → Nat
  | .high => 1
  | .moderate => 3
  | .minimal => 6
  | .unprotected => 8
  | .system => 10

/-- radiation_mapped_allocator.hpp:317-335 ten times the accumulated weighted risk; system memory always has factor 1. -/
def risk10 (s : State) : Nat :=
  (s.managed.map fun r => r.size * weight r.crit * factor10 r.placement).sum +
  (s.sys.map fun r => r.size * weight r.crit * factor10 .system).sum

/-- radiation_mapped_allocator.hpp:315-335 `total_bytes`. -/
def totalBytes (s : State) : Nat := ((s.managed ++ s.sys).map (·.size)).sum

/-- radiation_mapped_allocator.hpp:311-339 `calculate_vulnerability_score` as numerator and denominator
(`0.0` is `0/1`). -/
def vulnerability (s : State) : Nat × Nat :=
  if (s.managed ++ s.sys).isEmpty then (0, 1)
  else if totalBytes s > 0 then (risk10 s, 10 * (totalBytes s * 10)) else (0, 1)

/-- API calls. -/
inductive Op where
  | alloc (size : Nat) (c : Crit) (m : Nat)
  | dealloc (p : Nat)

/-- One call. -/
def step (s : State) : Op → State
  | .alloc n c m => (allocate s n c m).2
  | .dealloc p => (deallocate s p).2

/-- A history of calls. -/
def run (s : State) (ops : List Op) : State := ops.foldl step s

end Verif.Mapped
