import Verif.Model.StaticAllocator
import Mathlib.Tactic.Ring
/-!
Property C31: `StaticAllocator` never hands out overlapping or out-of-range blocks.
-/
namespace Verif.Props.StaticAlloc
open Verif Verif.StaticAlloc

/-- An object type and pool that exist on a 64-bit implementation: the alignment is a power of two not above
`alignof(std::max_align_t)` = 16, it divides the (positive) size, and the allocator object itself (pool plus
counter, rounded up to its alignment) is no larger than `PTRDIFF_MAX`. -/
structure Legal (c : Cfg) : Prop where
  al : ∃ k, k ≤ 4 ∧ c.align = 1#64 <<< k
  dvd : c.align.toNat ∣ c.size.toNat
  pos : 0 < c.size.toNat
  cap : c.capacity.toNat ≤ 2 ^ 63 - 24

/-- Calls on the allocator. -/
inductive Op where
  | alloc (n : BitVec 64) | dealloc | reset

/-- A block handed out to the client: `n` objects at a byte offset. -/
structure Block where
  off : Nat
  n : Nat
  deriving DecidableEq, Repr

/-- Runs a history; the second component lists the blocks handed out since the last `reset`
(`reset` ends the lifetime of all of them), the third the number of refused requests. -/
def run (c : Cfg) : BitVec 64 × List Block → List Op → Outcome (BitVec 64 × List Block)
  | s, [] => .ok s
  | (next, live), .alloc n :: ops =>
    match allocate c next n with
    | .ok (.ptr off, next') => run c (next', ⟨off.toNat, n.toNat⟩ :: live) ops
    | .ok (.badAlloc, next') => run c (next', live) ops
    | .ub => .ub
  | (next, live), .dealloc :: ops => run c (deallocate next, live) ops
  | (next, _), .reset :: ops => run c (reset next, []) ops

/-- Byte `b` of the pool belongs to the block (exact, unbounded arithmetic). -/
def Block.covers (c : Cfg) (b : Block) (i : Nat) : Prop := b.off ≤ i ∧ i < b.off + b.n * c.size.toNat

/-- What the client relies on: blocks are aligned, inside the pool, and no byte belongs to two of them. -/
def Safe (c : Cfg) (live : List Block) : Prop :=
  (∀ b ∈ live, c.align.toNat ∣ b.off ∧ b.off + b.n * c.size.toNat ≤ c.capacity.toNat) ∧
  live.Pairwise fun b b' => ∀ i, ¬ (b.covers c i ∧ b'.covers c i)

/-- The smallest multiple of `m` that is at least `x`. -/
def roundUp (m x : Nat) : Nat := (x + m - 1) / m * m

theorem alignedNext_toNat (c : Cfg) (hc : Legal c) (next : BitVec 64) (h : next.toNat ≤ c.capacity.toNat) :
    (alignedNext c next).toNat = roundUp c.align.toNat next.toNat := by
  obtain ⟨k, hk, ha⟩ := hc.al
  have hcap := hc.cap
  have hal : c.align.toNat = 2 ^ k := by
    rw [ha]
    have : k = 0 ∨ k = 1 ∨ k = 2 ∨ k = 3 ∨ k = 4 := by omega
    rcases this with rfl | rfl | rfl | rfl | rfl <;> decide
  have hm : alignedNext c next = ((next + c.align - 1) >>> k) <<< k := by
    unfold alignedNext
    generalize next + c.align - 1 = x
    rw [ha]
    have : k = 0 ∨ k = 1 ∨ k = 2 ∨ k = 3 ∨ k = 4 := by omega
    apply BitVec.eq_of_getLsbD_eq
    intro i hi
    rw [BitVec.getLsbD_and, BitVec.getLsbD_not, BitVec.getLsbD_shiftLeft, BitVec.getLsbD_ushiftRight]
    have hlow : (1#64 <<< k - 1).getLsbD i = decide (i < k) := by
      rcases this with rfl | rfl | rfl | rfl | rfl
      · exact (by decide : ∀ i < 64, (1#64 <<< 0 - 1).getLsbD i = decide (i < 0)) i hi
      · exact (by decide : ∀ i < 64, (1#64 <<< 1 - 1).getLsbD i = decide (i < 1)) i hi
      · exact (by decide : ∀ i < 64, (1#64 <<< 2 - 1).getLsbD i = decide (i < 2)) i hi
      · exact (by decide : ∀ i < 64, (1#64 <<< 3 - 1).getLsbD i = decide (i < 3)) i hi
      · exact (by decide : ∀ i < 64, (1#64 <<< 4 - 1).getLsbD i = decide (i < 4)) i hi
    rw [hlow]
    by_cases hik : i < k
    · simp [hik]
    · have : k + (i - k) = i := by omega
      simp [hik, hi, this]
  rw [hm, BitVec.toNat_shiftLeft, BitVec.toNat_ushiftRight]
  have hpos : 0 < 2 ^ k := Nat.two_pow_pos k
  have h16 : 2 ^ k ≤ 16 := by
    have : 2 ^ k ≤ 2 ^ 4 := Nat.pow_le_pow_right (by omega) hk
    simpa using this
  have hx : (next + c.align - 1).toNat = next.toNat + 2 ^ k - 1 := by
    rw [BitVec.toNat_sub, BitVec.toNat_add, hal]
    simp
    omega
  rw [hx, Nat.shiftRight_eq_div_pow, Nat.shiftLeft_eq, roundUp, hal]
  have : (next.toNat + 2 ^ k - 1) / 2 ^ k * 2 ^ k ≤ next.toNat + 2 ^ k - 1 := Nat.div_mul_le_self _ _
  apply Nat.mod_eq_of_lt
  omega

theorem roundUp_bounds (m x : Nat) (hm : 0 < m) : x ≤ roundUp m x ∧ roundUp m x < x + m ∧ m ∣ roundUp m x := by
  refine ⟨?_, ?_, ⟨(x + m - 1) / m, by rw [roundUp, Nat.mul_comm]⟩⟩
  · have := Nat.lt_div_mul_add (a := x + m - 1) hm
    unfold roundUp; omega
  · have := Nat.div_mul_le_self (x + m - 1) m
    unfold roundUp; omega

theorem align_bounds (c : Cfg) (hc : Legal c) : 0 < c.align.toNat ∧ c.align.toNat ≤ 16 := by
  obtain ⟨k, hk, ha⟩ := hc.al
  rw [ha]
  have : k = 0 ∨ k = 1 ∨ k = 2 ∨ k = 3 ∨ k = 4 := by omega
  rcases this with rfl | rfl | rfl | rfl | rfl <;> decide

/-- `allocate` in exact arithmetic, for requests no larger than the largest possible object. -/
theorem allocate_exact (c : Cfg) (hc : Legal c) (next n : BitVec 64) (h : next.toNat ≤ c.capacity.toNat)
    (hn : n.toNat * c.size.toNat < 2 ^ 63) (hn0 : 0 < n.toNat) :
    let a := roundUp c.align.toNat next.toNat
    if a + n.toNat * c.size.toNat ≤ c.capacity.toNat then
      ∃ off next', allocate c next n = .ok (.ptr off, next') ∧ off.toNat = a ∧
        next'.toNat = a + n.toNat * c.size.toNat
    else allocate c next n = .ok (.badAlloc, next) := by
  intro a
  have hA := alignedNext_toNat c hc next h
  have hb := align_bounds c hc
  have hr := roundUp_bounds c.align.toNat next.toNat hb.1
  have hcap := hc.cap
  have hprod : (n * c.size).toNat = n.toNat * c.size.toNat := by
    rw [BitVec.toNat_mul]; exact Nat.mod_eq_of_lt (by omega)
  have hsum : (alignedNext c next + n * c.size).toNat = a + n.toNat * c.size.toNat := by
    rw [BitVec.toNat_add, hA, hprod]; exact Nat.mod_eq_of_lt (by omega)
  have hpp : 0 < n.toNat * c.size.toNat := Nat.mul_pos hn0 hc.pos
  by_cases hle : a + n.toNat * c.size.toNat ≤ c.capacity.toNat
  · rw [if_pos hle]
    refine ⟨alignedNext c next, alignedNext c next + n * c.size, ?_, hA, hsum⟩
    unfold allocate
    simp only
    rw [if_neg, if_pos]
    · rw [BitVec.lt_def, hA]; omega
    · rw [gt_iff_lt, BitVec.lt_def, hsum]; omega
  · rw [if_neg hle]
    unfold allocate
    simp only
    rw [if_pos]
    rw [gt_iff_lt, BitVec.lt_def, hsum]; omega

/-- A request for at least one and at most `PTRDIFF_MAX / sizeof(T)` objects. -/
def Op.sane (c : Cfg) : Op → Prop
  | .alloc n => 0 < n.toNat ∧ n.toNat * c.size.toNat < 2 ^ 63
  | _ => True

theorem run_inv (c : Cfg) (hc : Legal c) (ops : List Op) (hops : ∀ op ∈ ops, op.sane c) :
    ∀ (next : BitVec 64) (live : List Block), next.toNat ≤ c.capacity.toNat →
      (∀ b ∈ live, b.off + b.n * c.size.toNat ≤ next.toNat) → Safe c live →
      ∃ next' live', run c (next, live) ops = .ok (next', live') ∧ Safe c live' := by
  induction ops with
  | nil => intro next live _ _ hs; exact ⟨next, live, rfl, hs⟩
  | cons op ops ih =>
    intro next live hn hl hs
    have ih' := ih (fun o ho => hops o (List.mem_cons_of_mem _ ho))
    have hop := hops op List.mem_cons_self
    cases op with
    | dealloc => exact ih' next live hn hl hs
    | reset => exact ih' 0 [] (by simp) (by simp) ⟨by simp, List.Pairwise.nil⟩
    | alloc n =>
      have hr := roundUp_bounds c.align.toNat next.toNat (align_bounds c hc).1
      have he := allocate_exact c hc next n hn hop.2 hop.1
      simp only at he
      split at he
      next hle =>
        obtain ⟨off, next', e, ho, hn'⟩ := he
        have e2 : run c (next, live) (.alloc n :: ops) = run c (next', ⟨off.toNat, n.toNat⟩ :: live) ops := by
          simp only [run, e]
        rw [e2]
        apply ih'
        · omega
        · intro b hb
          rcases List.mem_cons.1 hb with rfl | hb
          · simp only; omega
          · have := hl b hb; omega
        · refine ⟨?_, List.pairwise_cons.2 ⟨?_, hs.2⟩⟩
          · intro b hb
            rcases List.mem_cons.1 hb with rfl | hb
            · exact ⟨by simp only; rw [ho]; exact hr.2.2, by simp only; omega⟩
            · exact hs.1 b hb
          · intro b hb i hi
            have := hl b hb
            obtain ⟨⟨h1, _⟩, _, h4⟩ := hi
            simp only at h1
            omega
      next hle =>
        have e2 : run c (next, live) (.alloc n :: ops) = run c (next, live) ops := by
          simp only [run, he]
        rw [e2]
        exact ih' next live hn hl hs

/-- **C31 (partial).** For every legal type and pool size and every history of allocate/deallocate/reset calls
whose requests are for at least one object and for at most `PTRDIFF_MAX` bytes, nothing is undefined and all
blocks handed out since the last reset are aligned, inside the pool and pairwise disjoint.
Missing: requests whose byte count wraps around, empty requests on an exhausted pool, and allocators made by
the converting copy constructor; for those the property is false, see the three `_violated` theorems. -/
theorem C31_blocks_disjoint_partial (c : Cfg) (hc : Legal c) (ops : List Op) (hops : ∀ op ∈ ops, op.sane c) :
    ∃ next live, run c (new, []) ops = .ok (next, live) ∧ Safe c live :=
  run_inv c hc ops hops new [] (by simp [new]) (by simp) ⟨by simp, List.Pairwise.nil⟩

/-- 4-byte objects aligned to 4, pool of 32 bytes. -/
def demo : Cfg := ⟨4, 4, 32⟩

theorem demo_legal : Legal demo := ⟨⟨2, by decide, by decide⟩, ⟨1, by decide⟩, by decide, by decide⟩

example : Legal demo ∧ (∀ op ∈ [Op.alloc 3, .alloc 9, .dealloc, .alloc 5, .reset, .alloc 8], op.sane demo) ∧
    run demo (new, []) [.alloc 3, .alloc 9, .dealloc, .alloc 5] = .ok (32, [⟨12, 5⟩, ⟨0, 3⟩]) := by
  refine ⟨demo_legal, ?_, by decide⟩
  simp [Op.sane, demo]

/-- **C31 (partial).** A request is refused only if it does not fit behind the blocks already handed out, and
`max_size()` objects always fit into a fresh allocator, one more never. -/
theorem C31_max_size_partial (c : Cfg) (hc : Legal c) (n : BitVec 64) (hn0 : 0 < n.toNat)
    (hn : n.toNat * c.size.toNat < 2 ^ 63) :
    (∃ off next, allocate c new n = .ok (.ptr off, next)) ↔ n.toNat ≤ (maxSize c).toNat := by
  have he := allocate_exact c hc new n (by simp [new]) hn hn0
  have h0 : roundUp c.align.toNat (new : BitVec 64).toNat = 0 := by
    have := (align_bounds c hc).1
    simp only [roundUp, new]
    have : (0#64).toNat + c.align.toNat - 1 < c.align.toNat := by simp; omega
    show ((0#64).toNat + c.align.toNat - 1) / c.align.toNat * c.align.toNat = 0
    rw [Nat.div_eq_of_lt this]; simp
  simp only [h0, Nat.zero_add] at he
  have hm : (maxSize c).toNat = c.capacity.toNat / c.size.toNat := by
    simp [maxSize, BitVec.toNat_udiv]
  rw [hm, Nat.le_div_iff_mul_le hc.pos]
  split at he
  next h =>
    obtain ⟨off, next, e, _⟩ := he
    exact ⟨fun _ => h, fun _ => ⟨off, next, e⟩⟩
  next h =>
    refine ⟨fun ⟨off, next, e⟩ => ?_, fun h' => absurd h' h⟩
    rw [e] at he; cases he

example : allocate demo new 8 = .ok (.ptr 0, 32) ∧ allocate demo new 9 = .ok (.badAlloc, 0) ∧ maxSize demo = 8 := by
  decide

/-- **C31 (violated).** `n * sizeof(T)` is not checked for overflow: a request for 2^62 four-byte objects from a
32-byte pool succeeds (the byte count wraps to 0), and the next request gets the same address. -/
theorem C31_huge_request_violated :
    Legal demo ∧ ∃ next live, run demo (new, []) [.alloc (1 <<< 62), .alloc 1] = .ok (next, live) ∧
      live = [⟨0, 1⟩, ⟨0, 2 ^ 62⟩] ∧ ¬ Safe demo live := by
  refine ⟨demo_legal, 4, [⟨0, 1⟩, ⟨0, 2 ^ 62⟩], by decide, rfl, ?_⟩
  intro h
  have := (h.1 ⟨0, 2 ^ 62⟩ (by simp)).2
  exact absurd this (by decide)

/-- **C31 (violated).** An empty request on an exactly full pool indexes one past the end of the storage array. -/
theorem C31_empty_request_violated : Legal demo ∧ run demo (new, []) [.alloc 8, .alloc 0] = .ub :=
  ⟨demo_legal, by decide⟩

/-- **C31 (violated).** The converting copy constructor leaves the counter uninitialised; for some memory
contents a one-object request then succeeds although the address is outside the pool (undefined indexing). -/
theorem C31_converted_copy_violated : Legal demo ∧ ∃ junk, run demo (copyConstructed junk, []) [.alloc 1] = .ub :=
  ⟨demo_legal, -4#64, by decide⟩

end Verif.Props.StaticAlloc
