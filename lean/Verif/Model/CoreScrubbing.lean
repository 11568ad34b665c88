import Verif.Model.Crc
/-!
Models of /repo/include/rad_ml/core/memory/memory_scrubbing.hpp (static CRC / backup helpers) and
/repo/include/rad_ml/core/memory/memory_scrubber.hpp (registry of scrubbed regions).

Memory regions are lists of bytes.  The scrubbing thread is modelled by the fact that every method body
runs under `mutex_` (core/memory/memory_scrubber.hpp:51,78,121), i.e. methods are atomic steps and the
thread only calls `scrubOnce`; the unsynchronised `running_`/`scrub_thread_` handling in `start`/`stop`
is not modelled.
-/
namespace Verif.CoreScrub
open Verif.Crc

/-- core/memory/memory_scrubbing.hpp:42-85 `compute_crc32`. -/
def computeCrc32 (data : List (BitVec 8)) : BitVec 32 := crc32Table scrubbingTable data

/-- core/memory/memory_scrubbing.hpp:29-32 `verify_crc`. -/
def verifyCrc (data : List (BitVec 8)) (stored : BitVec 32) : Bool := computeCrc32 data == stored

/-- `memcpy(dest, src, n)` on distinct buffers of elements: the first `n` elements of `dest` become those
of `src`; undefined if either buffer is shorter. -/
def memcpy {α : Type _} (dest src : List α) (n : Nat) : Outcome (List α) :=
  if n ≤ dest.length ∧ n ≤ src.length then .ok (src.take n ++ dest.drop n) else .ub

/-- core/memory/memory_scrubbing.hpp:95-98 `backup_memory` (`size` counts elements). -/
def backupMemory {α : Type _} (dest src : List α) (n : Nat) : Outcome (List α) := memcpy dest src n

/-- core/memory/memory_scrubbing.hpp:108-111 `restore_memory`. -/
def restoreMemory {α : Type _} (dest src : List α) (n : Nat) : Outcome (List α) := memcpy dest src n

/-- core/memory/memory_scrubbing.hpp:122-133 `compare_memory` (`eq` is `==`); reading past either buffer
is undefined. -/
def compareMemory {α : Type _} (eq : α → α → Bool) (a b : List α) (n : Nat) : Outcome Nat :=
  if n ≤ a.length ∧ n ≤ b.length then
    .ok (((a.zip b).take n).foldl (fun count p => if eq p.1 p.2 then count else count + 1) 0)
  else .ub

/-! ### The region registry -/

/-- core/memory/memory_scrubber.hpp:127-139: registered regions (handle and identity of the scrub
closure) and `next_handle_`, which starts at 0. -/
structure Registry (ρ : Type _) where
  regions : List (Nat × ρ) := []
  next : Nat := 0

variable {ρ : Type _}

/-- core/memory/memory_scrubber.hpp:46-66 `registerMemoryRegion`. -/
def register (r : Registry ρ) (region : ρ) : Nat × Registry ρ :=
  (r.next, { regions := r.regions ++ [(r.next, region)], next := r.next + 1 })

/-- First entry with the handle is removed (core/memory/memory_scrubber.hpp:80-85). -/
def eraseFirst (h : Nat) : List (Nat × ρ) → Option (List (Nat × ρ))
  | [] => none
  | e :: es => if e.1 = h then some es else (eraseFirst h es).map (e :: ·)

/-- core/memory/memory_scrubber.hpp:74-88 `unregisterMemoryRegion`. -/
def unregister (r : Registry ρ) (h : Nat) : Bool × Registry ρ :=
  match eraseFirst h r.regions with
  | some rs => (true, { r with regions := rs })
  | none => (false, r)

/-- core/memory/memory_scrubber.hpp:118-124 `scrubOnce`: the closures are run in order. -/
def scrubOnce {μ : Type _} (run : ρ → μ → μ) (r : Registry ρ) (mem : μ) : μ :=
  r.regions.foldl (fun m e => run e.2 m) mem

/-- API calls of the registry. -/
inductive Op (ρ : Type _) where
  | register (region : ρ)
  | unregister (h : Nat)

/-- One call; the state also remembers which handles were issued, for the statements. -/
def step (r : Registry ρ) : Op ρ → Registry ρ
  | .register x => (register r x).2
  | .unregister h => (unregister r h).2

/-- A history of calls. -/
def run (r : Registry ρ) (ops : List (Op ρ)) : Registry ρ := ops.foldl step r

end Verif.CoreScrub
