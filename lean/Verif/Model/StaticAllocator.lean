import Verif.Model.Loop
/-!
Model of `rad_ml::core::memory::StaticAllocator<T, Capacity>`
(/repo/include/rad_ml/core/memory/static_allocator.hpp) for a 64-bit `std::size_t`.

A pointer into `storage_` is represented by its byte offset.  `storage_` itself is aligned for
`std::max_align_t` (line 87), so for types that are not over-aligned an address is aligned iff its offset is.
-/
namespace Verif.StaticAlloc

/-- `sizeof(T)`, `alignof(T)` and `Capacity`. -/
structure Cfg where
  size : BitVec 64
  align : BitVec 64
  capacity : BitVec 64

/-- What `allocate` can do. -/
inductive Res where
  | ptr (offset : BitVec 64)
  | badAlloc
  deriving DecidableEq, Repr

/-- static_allocator.hpp:45-46 `(next_free_ + alignment - 1) & ~(alignment - 1)` (wrapping `size_t` arithmetic). -/
def alignedNext (c : Cfg) (next : BitVec 64) : BitVec 64 :=
  (next + c.align - 1) &&& ~~~ (c.align - 1)

/-- static_allocator.hpp:44-55 `allocate`; the state is `next_free_`.  `&storage_[aligned_next]` applies
`std::array::operator[]`, which is undefined unless `aligned_next < Capacity`. -/
def allocate (c : Cfg) (next n : BitVec 64) : Outcome (Res × BitVec 64) :=
  let a := alignedNext c next
  if a + n * c.size > c.capacity then .ok (.badAlloc, next)
  else if a < c.capacity then .ok (.ptr a, a + n * c.size)
  else .ub

/-- static_allocator.hpp:37 default constructor. -/
def new : BitVec 64 := 0

/-- static_allocator.hpp:40-41 converting copy constructor: `next_free_` is not initialised, so it holds whatever
was in memory (`junk`). -/
def copyConstructed (junk : BitVec 64) : BitVec 64 := junk

/-- static_allocator.hpp:58-61 `deallocate` does nothing. -/
def deallocate (next : BitVec 64) : BitVec 64 := next

/-- static_allocator.hpp:64-66 `reset`. -/
def reset (_next : BitVec 64) : BitVec 64 := 0

/-- static_allocator.hpp:69-71 `max_size`. -/
def maxSize (c : Cfg) : BitVec 64 := c.capacity / c.size

end Verif.StaticAlloc
