/-!
Model of `rad_ml::memory::UnifiedMemoryManager` and `RadiationTolerantPtr`
(/repo/include/rad_ml/core/memory/unified_memory.hpp) for a 64-bit `size_t`.

Addresses and sizes are natural numbers; `size_t` computations on sizes wrap modulo `2^64`.  The statistics counters are
64-bit words.  The heap is an environment: every `allocate` call carries the pointer `malloc`/`aligned_alloc` would return
(0 is a null pointer), `blocks` lists the heap blocks currently alive with their capacities and `mem` is the content of
memory.  Any access outside a live block is undefined behaviour.  Every public function of the manager holds `mutex_`
while it runs; a public function that is called while the same thread holds the mutex never returns (`deadlock`;
formally undefined for `std::mutex`).  Strings, time stamps, type names, log output and the callbacks registered for
corruption are not modelled (they have no effect on the modelled state), nor are exceptions thrown by the containers.
Reading uninitialised heap bytes (CRC set-up) is treated as reading arbitrary bytes.
-/
namespace Verif.Unified

/-- unified_memory.hpp:72-78 `MemoryProtectionLevel`. -/
inductive Level where
  | none | canary | crc | ecc | tmr
  deriving DecidableEq, Repr

/-- unified_memory.hpp:83-89 the flags that influence `allocate`. -/
structure Flags where
  zero : Bool := false
  aligned : Bool := false
  noThrow : Bool := false
  deriving DecidableEq, Repr

/-- unified_memory.hpp:24-48 `MemoryAllocationInfo`, the fields that are ever read. -/
structure Info where
  ptr : Nat
  orig : Nat
  size : Nat
  prot : Bool
  deriving DecidableEq, Repr

abbrev Count := BitVec 64

/-- unified_memory.hpp:53-66 `MemoryStats`. -/
structure Stats where
  curAllocs : Count := 0
  peakAllocs : Count := 0
  totAllocs : Count := 0
  totDeallocs : Count := 0
  curBytes : Count := 0
  peakBytes : Count := 0
  protAllocs : Count := 0
  protBytes : Count := 0
  detected : Count := 0
  repaired : Count := 0
  leaked : Count := 0
  deriving DecidableEq, Repr

/-- unified_memory.hpp:1057-1062 the data members (`allocs` is the `unordered_map`, newest entry first), with the heap. -/
structure State where
  allocs : List (Nat × Info) := []
  blocks : List (Nat × Nat) := []
  mem : Nat → Nat := fun _ => 0
  stats : Stats := {}
  level : Level := .none

/-- Outcome of a call: a result with the new state, an exception, undefined behaviour, or a call that never returns. -/
inductive Res (α : Type) where
  | ok (a : α) (s : State)
  | throws (s : State)
  | ub
  | deadlock

/-- `size_t` arithmetic. -/
def w64 (n : Nat) : Nat := n % 2 ^ 64

/-- unified_memory.hpp:701-727 `calculateProtectedSize`. -/
def protectedSize (size : Nat) : Level → Nat
  | .none => size
  | .canary => w64 (size + 2 * 8)
  | .crc => w64 (size + 4)
  | .ecc => w64 (size + size / 8)
  | .tmr => w64 (size * 3)

/-- `CANARY_VALUE` is not defined anywhere in the header; any fixed 64-bit constant, little-endian byte `i`. -/
def canaryByte (i : Nat) : Nat := (0xDEADBEEFCAFEBABE >>> (8 * i)) &&& 255

/-- A store of `n` bytes at address `a`. -/
def store (m : Nat → Nat) (a n : Nat) (v : Nat → Nat) : Nat → Nat :=
  fun x => if a ≤ x ∧ x < a + n then v (x - a) else m x

/-- unified_memory.hpp:779-786 parity of a byte. -/
def parity (b : Nat) : Nat := (List.range 8).foldl (fun p i => p ^^^ ((b >>> i) &&& 1)) 0

/-- unified_memory.hpp:772-792 byte `j` of the parity area written for the `size` bytes at `p`. -/
def eccByte (m : Nat → Nat) (p size j : Nat) : Nat :=
  (List.range 8).foldl (fun e i => if 8 * j + i < size ∧ parity (m (p + (8 * j + i))) ≠ 0 then e ||| (1 <<< i) else e) 0

/-- unified_memory.hpp:736-811 `setupMemoryProtection` on the `size` bytes at `p`, a block of capacity `cap`; `none` is an
access outside the block.  (The CRC computed at line 758 is discarded; the `is_protected` flag set there is handled by
the callers.) -/
def setup (m : Nat → Nat) (p size cap : Nat) : Level → Option (Nat → Nat)
  | .none => some m
  | .canary =>
    if 8 ≤ cap ∧ 8 ≤ size ∧ size ≤ cap then some (store (store m p 8 canaryByte) (p + size - 8) 8 canaryByte) else none
  | .crc => if size ≤ cap then some m else none
  | .ecc =>
    if size + (size + 7) / 8 ≤ cap then some (store m (p + size) ((size + 7) / 8) (eccByte m p size)) else none
  | .tmr =>
    if 3 * size ≤ cap then
      some (store (store m (p + size) size (fun i => m (p + i))) (p + 2 * size) size (fun i => m (p + i)))
    else none

/-- Key lookup in the map. -/
def State.find (s : State) (p : Nat) : Option Info := (s.allocs.find? fun e => e.1 == p).map (·.2)

/-- Capacity of the heap block that starts at `p` (0 if there is none: every access is then out of bounds). -/
def State.cap (s : State) (p : Nat) : Nat := ((s.blocks.find? fun b => b.1 == p).map (·.2)).getD 0

/-- Replace the entry of key `p`. -/
def State.update (s : State) (p : Nat) (f : Info → Info) : State :=
  { s with allocs := s.allocs.map fun e => if e.1 = p then (e.1, f e.2) else e }

/-- unified_memory.hpp:676-692 `trackAllocation` followed by the pointer fix-up of lines 188-193. -/
def State.track (s : State) (p ret size : Nat) : State :=
  let st := s.stats
  let cur := st.curAllocs + 1
  let bytes := st.curBytes + BitVec.ofNat 64 size
  { s with
    allocs := (p, ⟨ret, p, size, false⟩) :: s.allocs
    stats := { st with
      curAllocs := cur, totAllocs := st.totAllocs + 1, curBytes := bytes
      peakAllocs := if st.peakAllocs < cur then cur else st.peakAllocs
      peakBytes := if st.peakBytes < bytes then bytes else st.peakBytes } }

/-- Number of bytes `allocate` requests from the heap (unified_memory.hpp:139-158); `none`: division by zero. -/
def request (size : Nat) (f : Flags) (l : Level) (alignment : Nat) : Option Nat :=
  let adj := if l ≠ .none then protectedSize size l else size
  if f.aligned then
    if alignment = 0 then none else some (w64 (w64 (adj + alignment - 1) / alignment * alignment))
  else some adj

/-- unified_memory.hpp:133-209 `allocate`; `m` is what the heap returns.  The result is the returned pointer (0: null). -/
def State.allocate (s : State) (size : Nat) (f : Flags) (l : Level) (alignment m : Nat) : Res Nat :=
  let adj := if l ≠ .none then protectedSize size l else size
  match request size f l alignment with
  | none => .ub
  | some cap =>
    if m = 0 then (if f.noThrow then .ok 0 s else .throws s)
    else
      let s := { s with blocks := (m, cap) :: s.blocks }
      if f.zero ∧ cap < adj then .ub
      else
        let mem := if f.zero then store s.mem m adj (fun _ => 0) else s.mem
        let ret := if l = .canary then m + 8 else m
        match setup mem m adj cap l with
        | none => .ub
        | some mem => .ok ret ({ s with mem := mem }.track m ret size)

/-- unified_memory.hpp:281-335 `deallocate`.  For a protected block `verifyMemoryIntegrity` is called with the mutex
held. -/
def State.deallocate (s : State) (p : Nat) : Res Bool :=
  if p = 0 then .ok false s
  else match s.find p with
    | none => .ok false s
    | some i =>
      if i.prot then .deadlock
      else .ok true { s with
        allocs := s.allocs.filter fun e => e.1 != p
        blocks := s.blocks.filter fun b => b.1 != p
        stats := { s.stats with
          totDeallocs := s.stats.totDeallocs + 1, curAllocs := s.stats.curAllocs - 1
          curBytes := s.stats.curBytes - BitVec.ofNat 64 i.size } }

/-- unified_memory.hpp:361-365 `isAllocated`. -/
def State.isAllocated (s : State) (p : Nat) : Bool := (s.find p).isSome

/-- Sum of the sizes of a list of entries, as a 64-bit word. -/
def sizeSum (l : List (Nat × Info)) : Count := l.foldr (fun e a => a + BitVec.ofNat 64 e.2.size) 0

/-- unified_memory.hpp:381-401 `resetStats`. -/
def State.resetStats (s : State) : State :=
  { s with stats := {
      curAllocs := BitVec.ofNat 64 s.allocs.length
      curBytes := sizeSum s.allocs
      protAllocs := BitVec.ofNat 64 (s.allocs.filter (·.2.prot)).length
      protBytes := sizeSum (s.allocs.filter (·.2.prot)) } }

/-- unified_memory.hpp:408-443 `checkForLeaks` (the report text is not modelled). -/
def State.checkForLeaks (s : State) : Nat × State :=
  (s.allocs.length, { s with stats := { s.stats with leaked := BitVec.ofNat 64 s.allocs.length } })

/-- unified_memory.hpp:819-845 `removeMemoryProtection` for a tracked pointer. -/
def State.removeProtection (s : State) (p : Nat) (i : Info) : State :=
  if i.prot then
    { s.update p (fun i => { i with prot := false }) with
      stats := { s.stats with protAllocs := s.stats.protAllocs - 1, protBytes := s.stats.protBytes - BitVec.ofNat 64 i.size } }
  else s

/-- unified_memory.hpp:452-475 `protectMemory`. -/
def State.protect (s : State) (p : Nat) (l : Level) : Res Bool :=
  match s.find p with
  | none => .ok false s
  | some i =>
    let s := if i.prot then s.removeProtection p i else s
    if p = 0 then .ok false s
    else match setup s.mem p i.size (s.cap p) l with
      | none => .ub
      | some mem => .ok true
        { s.update p (fun i => { i with prot := true }) with
          mem := mem
          stats := { s.stats with protAllocs := s.stats.protAllocs + 1
                                  protBytes := s.stats.protBytes + BitVec.ofNat 64 i.size } }

/-- unified_memory.hpp:483-504 `unprotectMemory`: `removeMemoryProtection` updates the statistics, and lines 498-499 do so
again. -/
def State.unprotect (s : State) (p : Nat) : Res Bool :=
  match s.find p with
  | none => .ok false s
  | some i =>
    if !i.prot then .ok true s
    else if p = 0 then .ok false s
    else
      let s' := s.removeProtection p i
      .ok true { s'.update p (fun i => { i with prot := false }) with
        stats := { s'.stats with protAllocs := s'.stats.protAllocs - 1
                                 protBytes := s'.stats.protBytes - BitVec.ofNat 64 i.size } }

/-- unified_memory.hpp:512-606 `verifyMemoryIntegrity`: for a tracked pointer the protection level is fetched with
`getDefaultProtectionLevel()` (line 530), which locks the mutex already held. -/
def State.verify (s : State) (p : Nat) : Res Bool :=
  if s.allocs.any (fun e => e.2.ptr == p) then .deadlock else .ok false s

/-- unified_memory.hpp:612-616 `setDefaultProtectionLevel`. -/
def State.setLevel (s : State) (l : Level) : State := { s with level := l }

/-- The calls of the public interface; `allocate` carries the answer of the heap. -/
inductive Op where
  | allocate (size : Nat) (f : Flags) (l : Level) (alignment m : Nat)
  | deallocate (p : Nat)
  | protect (p : Nat) (l : Level)
  | unprotect (p : Nat)
  | verify (p : Nat)
  | resetStats
  | checkForLeaks
  | setLevel (l : Level)
  deriving DecidableEq, Repr

/-- What a call returns to its caller. -/
inductive Ret where
  | ptr (p : Nat)
  | bool (b : Bool)
  | count (n : Nat)
  | unit
  | exception
  deriving DecidableEq, Repr

/-- One call. `none`: the call does not return (undefined behaviour or deadlock). -/
def State.step (s : State) : Op → Option (Ret × State)
  | .allocate size f l a m =>
    match s.allocate size f l a m with
    | .ok p s' => some (.ptr p, s')
    | .throws s' => some (.exception, s')
    | .ub => none
    | .deadlock => none
  | .deallocate p => match s.deallocate p with | .ok b s' => some (.bool b, s') | _ => none
  | .protect p l => match s.protect p l with | .ok b s' => some (.bool b, s') | _ => none
  | .unprotect p => match s.unprotect p with | .ok b s' => some (.bool b, s') | _ => none
  | .verify p => match s.verify p with | .ok b s' => some (.bool b, s') | _ => none
  | .resetStats => some (.unit, s.resetStats)
  | .checkForLeaks => some (.count s.checkForLeaks.1, s.checkForLeaks.2)
  | .setLevel l => some (.unit, s.setLevel l)

end Verif.Unified

/-!
`RadiationTolerantPtr<T>` (unified_memory.hpp:1074-1296): a collection of such pointers, numbered by natural numbers, in
one program with the singleton manager.
-/
namespace Verif.Unified

/-- The manager, the pointer held by each `RadiationTolerantPtr` (0: null), the raw pointers given away by `release()`,
the number of `T` constructors and destructors run, and the number of `deallocate` calls that were rejected (the last four
are observations, not data members). -/
structure PtrState where
  mgr : State := {}
  slot : Nat → Nat := fun _ => 0
  given : List Nat := []
  ctors : Nat := 0
  dtors : Nat := 0
  rejected : Nat := 0

/-- A function changed at one point. -/
def setSlot (f : Nat → Nat) (i v : Nat) : Nat → Nat := fun j => if j = i then v else f j

/-- `UnifiedMemoryManager::getInstance().deallocate(p)` with the result ignored (unified_memory.hpp:1164, 1250, 1282);
`none`: the call does not return. -/
def PtrState.free (s : PtrState) (p : Nat) : Option PtrState :=
  match s.mgr.deallocate p with
  | .ok b m => some { s with mgr := m, rejected := if b then s.rejected else s.rejected + 1 }
  | _ => none

/-- unified_memory.hpp:1161-1167 `reset(p)`; no destructor of `T` is run. -/
def PtrState.reset (s : PtrState) (i p : Nat) : Option PtrState :=
  if s.slot i ≠ 0 then (s.free (s.slot i)).map fun s => { s with slot := setSlot s.slot i p }
  else some { s with slot := setSlot s.slot i p }

/-- unified_memory.hpp:1149-1154 `release()` by the user: the raw pointer is given away. -/
def PtrState.release (s : PtrState) (i : Nat) : PtrState :=
  { s with slot := setSlot s.slot i 0, given := if s.slot i ≠ 0 then s.slot i :: s.given else s.given }

/-- unified_memory.hpp:1103-1109 move assignment `i = std::move(j)`. -/
def PtrState.moveAssign (s : PtrState) (i j : Nat) : Option PtrState :=
  if i = j then some s
  else
    let p := s.slot j
    { s with slot := setSlot s.slot j 0 }.reset i p

/-- unified_memory.hpp:1236-1256 and 1267-1288 `i = make(...)` / `makeProtected(level, ...)` for a `T` of `size` bytes; `m`
is the answer of the heap, `ctorThrows` says whether the constructor of `T` throws.  (With the default flags a failed
allocation throws `bad_alloc`.)  The temporary returned by `make` is move-assigned to pointer `i`. -/
def PtrState.make (s : PtrState) (i size : Nat) (l : Level) (m : Nat) (ctorThrows : Bool) : Option PtrState :=
  match s.mgr.allocate size {} l 64 m with
  | .ok p mgr =>
    let s := { s with mgr := mgr }
    if p = 0 then some s
    else if ctorThrows then s.free p
    else { s with ctors := s.ctors + 1 }.reset i p
  | .throws mgr => some { s with mgr := mgr }
  | .ub => none
  | .deadlock => none

/-- The operations on the pointers; destroying a pointer is `reset i`. -/
inductive PtrOp where
  | make (i size : Nat) (l : Level) (m : Nat) (ctorThrows : Bool)
  | reset (i : Nat)
  | release (i : Nat)
  | move (i j : Nat)
  deriving DecidableEq, Repr

/-- One operation. -/
def PtrState.step (s : PtrState) : PtrOp → Option PtrState
  | .make i size l m c => s.make i size l m c
  | .reset i => s.reset i 0
  | .release i => some (s.release i)
  | .move i j => s.moveAssign i j

end Verif.Unified
