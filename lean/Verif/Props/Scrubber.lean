import Verif.Model.Scrubber
import Verif.Lemmas.Bits
import Mathlib.Tactic.ByContra
/-!
Properties C37 and C59: the background memory scrubber `memory::MemoryScrubber`.
-/
namespace Verif.Props.Scrubber
open Verif Verif.Crc Verif.Scrubber

/-! ### The shipped table -/

/-- Indices whose table entry is 0: the genuine entry 0 and the four missing ones. -/
def Z (i : Nat) : Bool := i == 0 || decide (252 ≤ i)

/-- Table index used when byte `b` is folded into checksum state `c`. -/
def idx (c : BitVec 32) (b : BitVec 8) : Nat := ((c ^^^ b.setWidth 32) &&& 0xFF#32).toNat

/-- Index with a given most significant byte of the entry. -/
def topInv : List Nat :=
  [0, 61, 191, 126, 130, 195, 65, 4, 73, 12, 138, 203, 199, 134, 8, 69, 150, 215, 85, 24,
   28, 89, 219, 154, 211, 146, 20, 81, 77, 16, 142, 207, 113, 52, 178, 243, 239, 174, 48, 109,
   56, 117, 247, 182, 186, 251, 121, 0, 235, 170, 44, 105, 101, 40, 166, 231, 158, 223, 93, 32,
   36, 97, 227, 162, 230, 167, 41, 100, 104, 45, 171, 234, 163, 226, 96, 37, 33, 92, 222, 159,
   108, 49, 175, 238, 242, 179, 53, 112, 0, 120, 250, 187, 183, 246, 116, 57, 155, 218, 88, 29,
   25, 84, 214, 151, 206, 143, 17, 76, 80, 21, 147, 210, 5, 64, 194, 131, 127, 190, 60, 1,
   68, 9, 135, 198, 202, 139, 13, 72, 145, 208, 82, 23, 19, 78, 204, 141, 212, 149, 27, 86,
   90, 31, 153, 216, 15, 74, 200, 137, 133, 196, 70, 11, 62, 3, 125, 188, 192, 129, 7, 66,
   220, 157, 35, 94, 98, 39, 161, 224, 169, 232, 106, 47, 43, 102, 228, 165, 118, 59, 181, 244,
   248, 185, 0, 122, 55, 114, 240, 177, 173, 236, 110, 51, 123, 0, 184, 249, 245, 180, 58, 119,
   50, 111, 237, 172, 176, 241, 115, 54, 225, 160, 38, 99, 95, 34, 156, 221, 164, 229, 103, 42,
   46, 107, 233, 168, 10, 71, 197, 132, 136, 201, 75, 14, 67, 6, 128, 193, 189, 124, 2, 63,
   140, 205, 79, 18, 22, 83, 209, 144, 217, 152, 30, 91, 87, 26, 148, 213]

def norm (i : Nat) : Nat := if Z i then 0 else i

theorem top_norm : ∀ i : Fin 256, topInv.getD ((scrubberTable.getD i.val 0#32) >>> 24).toNat 0 = norm i.val := by decide +kernel

theorem z_zero : ∀ i : Fin 256, Z i.val = true → scrubberTable.getD i.val 0#32 = 0#32 := by decide +kernel

theorem idx_lt (c : BitVec 32) (b : BitVec 8) : idx c b < 256 := by
  unfold idx
  rw [BitVec.toNat_and]
  have : (0xFF#32).toNat = 255 := rfl
  rw [this]
  exact Nat.lt_of_le_of_lt Nat.and_le_right (by decide)

theorem step_eq (c : BitVec 32) (b : BitVec 8) :
    tableStep scrubberTable c b = (c >>> 8) ^^^ scrubberTable.getD (idx c b) 0#32 := rfl

theorem norm_eq_tab {i j : Nat} (hi : i < 256) (hj : j < 256) (h : norm i = norm j) :
    scrubberTable.getD i 0#32 = scrubberTable.getD j 0#32 := by
  unfold norm at h
  by_cases zi : Z i = true
  · by_cases zj : Z j = true
    · rw [z_zero ⟨i, hi⟩ zi, z_zero ⟨j, hj⟩ zj]
    · rw [if_pos zi, if_neg zj] at h
      subst h; exact absurd rfl zj
  · by_cases zj : Z j = true
    · rw [if_neg zi, if_pos zj] at h
      subst h; exact absurd rfl zi
    · rw [if_neg zi, if_neg zj] at h; rw [h]

theorem top_step (c : BitVec 32) (b : BitVec 8) :
    (tableStep scrubberTable c b) >>> 24 = (scrubberTable.getD (idx c b) 0#32) >>> 24 := by
  rw [step_eq, BitVec.ushiftRight_xor_distrib, ← BitVec.shiftRight_add]
  have : c >>> (8 + 24) = 0#32 := by
    apply BitVec.eq_of_getLsbD_eq; intro i hi
    rw [BitVec.getLsbD_ushiftRight, BitVec.getLsbD_of_ge _ _ (by omega), BitVec.getLsbD_zero]
  rw [this, BitVec.zero_xor]

theorem top_eq {s t : BitVec 32} {a b : BitVec 8}
    (h : (tableStep scrubberTable s a) >>> 24 = (tableStep scrubberTable t b) >>> 24) :
    norm (idx s a) = norm (idx t b) := by
  rw [top_step, top_step] at h
  rw [← top_norm ⟨_, idx_lt s a⟩, ← top_norm ⟨_, idx_lt t b⟩]
  simp only [h]

/-- A difference at byte `k + 1` or above survives one step at byte `k` or above. -/
theorem step_keeps {s t : BitVec 32} (b : BitVec 8) {k : Nat} (hk : k < 3)
    (h : s >>> (8 * (k + 1)) ≠ t >>> (8 * (k + 1))) :
    (tableStep scrubberTable s b) >>> (8 * k) ≠ (tableStep scrubberTable t b) >>> (8 * k) := by
  intro e
  have e24 : (tableStep scrubberTable s b) >>> 24 = (tableStep scrubberTable t b) >>> 24 := by
    have := congrArg (fun z : BitVec 32 => z >>> (24 - 8 * k)) e
    simp only [← BitVec.shiftRight_add] at this
    rwa [show 8 * k + (24 - 8 * k) = 24 by omega] at this
  have ht := norm_eq_tab (idx_lt s b) (idx_lt t b) (top_eq e24)
  rw [step_eq, step_eq, ht, BitVec.ushiftRight_xor_distrib, BitVec.ushiftRight_xor_distrib, BitVec.xor_left_inj,
    ← BitVec.shiftRight_add, ← BitVec.shiftRight_add, show 8 + 8 * k = 8 * (k + 1) by omega] at e
  exact h e

theorem idx_inj {c : BitVec 32} {a b : BitVec 8} (h : idx c a = idx c b) : a = b := by
  apply BitVec.eq_of_getLsbD_eq
  intro i hi
  have := congrArg (fun n => n.testBit i) h
  unfold idx at this
  simp only [BitVec.testBit_toNat] at this
  rw [BitVec.getLsbD_and, BitVec.getLsbD_and, BitVec.getLsbD_xor, BitVec.getLsbD_xor, BitVec.getLsbD_setWidth,
    BitVec.getLsbD_setWidth] at this
  have hff : (0xFF#32).getLsbD i = true := by
    have : ∀ i : Fin 8, (0xFF#32).getLsbD i.val = true := by decide
    exact this ⟨i, hi⟩
  have h32 : i < 32 := by omega
  rw [hff] at this
  simp only [h32, decide_true, Bool.true_and, Bool.and_true] at this
  revert this
  cases c.getLsbD i <;> simp

/-- Folding a common suffix of at most three bytes keeps a difference in the top byte visible. -/
theorem suffix_keeps (l : List (BitVec 8)) : ∀ {s t : BitVec 32}, l.length ≤ 3 →
    s >>> (8 * l.length) ≠ t >>> (8 * l.length) → l.foldl (tableStep scrubberTable) s ≠ l.foldl (tableStep scrubberTable) t := by
  induction l with
  | nil => intro s t _ h; simpa using h
  | cons b l ih =>
    intro s t hl h
    rw [List.length_cons] at hl h
    rw [List.foldl_cons, List.foldl_cons]
    exact ih (by omega) (step_keeps b (by omega) h)

/-- The checksum state before the byte that follows `pre`. -/
def stateAfter (pre : List (BitVec 8)) : BitVec 32 := pre.foldl (tableStep scrubberTable) 0xFFFFFFFF#32

theorem crc_split (pre suf : List (BitVec 8)) (b : BitVec 8) : Verif.Scrubber.crc (pre ++ b :: suf) =
    ~~~ (suf.foldl (tableStep scrubberTable) (tableStep scrubberTable (stateAfter pre) b)) := by
  unfold Verif.Scrubber.crc crc32Table stateAfter
  rw [List.foldl_append, List.foldl_cons]

theorem not_inj {a b : BitVec 32} : ~~~ a = ~~~ b ↔ a = b := by
  constructor
  · intro h
    have := congrArg (fun z => ~~~ z) h
    simpa using this
  · rintro rfl; rfl

/-- Changing one of the last four bytes changes the checksum unless both the old and the new byte hit a zero entry. -/
theorem crc_last4 (pre suf : List (BitVec 8)) (a b : BitVec 8) (hab : a ≠ b) (hl : suf.length ≤ 3) :
    Verif.Scrubber.crc (pre ++ a :: suf) = Verif.Scrubber.crc (pre ++ b :: suf) ↔
      (Z (idx (stateAfter pre) a) && Z (idx (stateAfter pre) b)) = true := by
  rw [crc_split, crc_split, not_inj]
  generalize stateAfter pre = c
  constructor
  · intro h
    by_contra hz
    apply suffix_keeps suf hl _ h
    intro e
    have e24 : (tableStep scrubberTable c a) >>> 24 = (tableStep scrubberTable c b) >>> 24 := by
      have := congrArg (fun z : BitVec 32 => z >>> (24 - 8 * suf.length)) e
      simp only [← BitVec.shiftRight_add] at this
      rwa [show 8 * suf.length + (24 - 8 * suf.length) = 24 by omega] at this
    have hn := top_eq e24
    unfold norm at hn
    have hne : idx c a ≠ idx c b := fun h => hab (idx_inj h)
    rw [Bool.and_eq_true, not_and] at hz
    by_cases za : Z (idx c a) = true
    · have zb := hz za
      rw [if_pos za, if_neg zb] at hn
      rw [← hn] at zb; exact zb rfl
    · rw [if_neg za] at hn
      by_cases zb : Z (idx c b) = true
      · rw [if_pos zb] at hn; rw [hn] at za; exact za rfl
      · rw [if_neg zb] at hn; exact hne hn
  · intro hz
    rw [Bool.and_eq_true] at hz
    have : tableStep scrubberTable c a = tableStep scrubberTable c b := by
      rw [step_eq, step_eq, z_zero ⟨_, idx_lt c a⟩ hz.1, z_zero ⟨_, idx_lt c b⟩ hz.2]
    rw [this]

/-! ### Regions -/

/-- The contents of a region. -/
def content (mem : Mem) (r : Region) : List (BitVec 8) := bytesAt mem r.ptr r.size

theorem crc_nil : Verif.Scrubber.crc [] = 0#32 := by decide

theorem blocks_small {n : Nat} (h : n ≤ 64) : blocks n = if n = 0 then 0 else 1 := by
  unfold blocks; split <;> omega

theorem blockCrc_zero (mem : Mem) (r : Region) (h : r.size ≤ 64) : blockCrc mem r 0 = Verif.Scrubber.crc (content mem r) := by
  unfold blockCrc content
  simp [h]

/-- A region of at most 64 bytes is checked against the checksum of its whole content. -/
theorem scrub_small (mem : Mem) (r : Region) (h : r.size ≤ 64) (h0 : r.size ≠ 0) :
    (scrubRegion mem r).1 = if Verif.Scrubber.crc (content mem r) = r.crc then 0 else 1 := by
  unfold scrubRegion
  rw [blocks_small h, if_neg h0]
  simp only [forN, blockCrc_zero mem r h]
  by_cases e : Verif.Scrubber.crc (content mem r) = r.crc <;> simp [e]

theorem scrub_keeps (mem : Mem) (r : Region) : (scrubRegion mem r).2.id = r.id ∧ (scrubRegion mem r).2.ptr = r.ptr ∧
    (scrubRegion mem r).2.size = r.size ∧ (scrubRegion mem r).2.ecc = r.ecc := by
  unfold scrubRegion
  exact forN_inv (fun _ (s : Nat × Region) => s.2.id = r.id ∧ s.2.ptr = r.ptr ∧ s.2.size = r.size ∧ s.2.ecc = r.ecc) _ _ _
    ⟨rfl, rfl, rfl, rfl⟩ (by
      intro i s _ hs
      split
      · split <;> exact hs
      · exact hs)

theorem calc_keeps (mem : Mem) (r : Region) : (calculateChecksums mem r).id = r.id ∧ (calculateChecksums mem r).ptr = r.ptr ∧
    (calculateChecksums mem r).size = r.size ∧ (calculateChecksums mem r).ecc = r.ecc := by
  unfold calculateChecksums
  exact forN_inv (fun _ (s : Region) => s.id = r.id ∧ s.ptr = r.ptr ∧ s.size = r.size ∧ s.ecc = r.ecc) _ _ _
    ⟨rfl, rfl, rfl, rfl⟩ (by intro i s _ hs; exact hs)

theorem calc_small (mem : Mem) (r : Region) (h : r.size ≤ 64) :
    (calculateChecksums mem r).crc = Verif.Scrubber.crc (content mem r) := by
  unfold calculateChecksums
  rw [blocks_small h]
  by_cases h0 : r.size = 0
  · rw [if_pos h0]
    unfold content; rw [h0]
    exact crc_nil.symm
  · rw [if_neg h0]
    simp only [forN]
    exact blockCrc_zero mem r h

/-- Every region is small and its stored checksum is that of the current memory. -/
def Good (mem : Mem) (s : State) : Prop := ∀ r ∈ s.regions, r.size ≤ 64 ∧ r.crc = Verif.Scrubber.crc (content mem r)

theorem sum_zero {l : List Nat} (h : ∀ x ∈ l, x = 0) : l.sum = 0 := by
  induction l with
  | nil => rfl
  | cons a l ih =>
    rw [List.sum_cons, h a (by simp), ih (fun x hx => h x (by simp [hx]))]

theorem good_scrub (mem : Mem) (s : State) (h : Good mem s) : (scrubMemory mem s).1 = 0 := by
  unfold scrubMemory
  simp only [List.map_map]
  apply sum_zero
  intro x hx
  rw [List.mem_map] at hx
  obtain ⟨r, hr, rfl⟩ := hx
  obtain ⟨h1, h2⟩ := h r hr
  simp only [Function.comp]
  by_cases h0 : r.size = 0
  · unfold scrubRegion
    rw [blocks_small h1, if_pos h0]; rfl
  · rw [scrub_small mem r h1 h0, if_pos h2.symm]

/-- After a scrub pass every small region matches the memory it was scrubbed on, whatever it held before. -/
theorem good_after_scrub (mem : Mem) (s : State) (h : ∀ r ∈ s.regions, r.size ≤ 64) : Good mem (scrubMemory mem s).2 := by
  unfold scrubMemory Good
  simp only [List.map_map]
  intro q hq
  rw [List.mem_map] at hq
  obtain ⟨r, hr, rfl⟩ := hq
  simp only [Function.comp]
  obtain ⟨a1, a2, a3, _⟩ := scrub_keeps mem r
  obtain ⟨b1, b2, b3, _⟩ := calc_keeps mem (scrubRegion mem r).2
  have hs : (scrubRegion mem r).2.size ≤ 64 := by rw [a3]; exact h r hr
  refine ⟨by rw [b3]; exact hs, ?_⟩
  rw [calc_small mem _ hs]
  unfold content
  rw [b2, b3]

theorem eraseId_mem {h : Nat} {l l' : List Region} (e : eraseId h l = some l') : ∀ r ∈ l', r ∈ l := by
  induction l generalizing l' with
  | nil => simp [eraseId] at e
  | cons a l ih =>
    unfold eraseId at e
    split at e
    · cases e; intro r hr; simp [hr]
    · rw [Option.map_eq_some_iff] at e
      obtain ⟨m, hm, rfl⟩ := e
      intro r hr
      rcases List.mem_cons.mp hr with rfl | hr
      · simp
      · simp [ih hm r hr]

theorem setFlag_mem {h : Nat} {b : Bool} {l l' : List Region} (e : setFlag h b l = some l') :
    ∀ r ∈ l', ∃ q ∈ l, r.size = q.size ∧ r.ptr = q.ptr ∧ r.crc = q.crc ∧ r.id = q.id := by
  induction l generalizing l' with
  | nil => simp [setFlag] at e
  | cons a l ih =>
    unfold setFlag at e
    split at e
    · cases e
      intro r hr
      rcases List.mem_cons.mp hr with rfl | hr
      · exact ⟨a, by simp, rfl, rfl, rfl, rfl⟩
      · exact ⟨r, by simp [hr], rfl, rfl, rfl, rfl⟩
    · rw [Option.map_eq_some_iff] at e
      obtain ⟨m, hm, rfl⟩ := e
      intro r hr
      rcases List.mem_cons.mp hr with rfl | hr
      · exact ⟨r, by simp, rfl, rfl, rfl, rfl⟩
      · obtain ⟨q, hq, h⟩ := ih hm r hr
        exact ⟨q, by simp [hq], h⟩

/-- The regions a history registers. -/
def smallOp : Op → Bool
  | .register _ n => decide (n ≤ 64)
  | _ => true

theorem good_step (mem : Mem) (s : State) (op : Op) (ho : smallOp op = true) (h : Good mem s) (hd : s.detected = 0) :
    Good mem (step mem s op) ∧ (step mem s op).detected = 0 := by
  cases op with
  | register p n =>
    refine ⟨?_, hd⟩
    intro r hr
    simp only [step, register, List.mem_append, List.mem_singleton] at hr
    rcases hr with hr | rfl
    · exact h r hr
    · exact ⟨by simpa [smallOp] using ho, rfl⟩
  | unregister k =>
    simp only [step, unregister]
    split
    · exact ⟨h, hd⟩
    · split
      · rename_i rs e
        exact ⟨fun r hr => h r (eraseId_mem e r hr), hd⟩
      · exact ⟨h, hd⟩
  | setECC k b =>
    simp only [step, setECC]
    split
    · rename_i rs e
      refine ⟨fun r hr => ?_, hd⟩
      obtain ⟨q, hq, e1, e2, e3, _⟩ := setFlag_mem e r hr
      obtain ⟨g1, g2⟩ := h q hq
      refine ⟨by rw [e1]; exact g1, ?_⟩
      unfold content at g2 ⊢
      rw [e1, e2, e3]; exact g2
    · exact ⟨h, hd⟩
  | scrub =>
    refine ⟨good_after_scrub mem s (fun r hr => (h r hr).1), ?_⟩
    change s.detected + (scrubMemory mem s).1 = 0
    rw [good_scrub mem s h, hd]
  | reset => exact ⟨h, rfl⟩

/-! ### C37 -/

/-- **C37 (no false alarms, regions up to 64 bytes).** For every history of registrations, removals, ECC switches,
scrub passes and statistics resets over unmodified memory in which every registered region has at most 64 bytes, a
scrub pass reports no error and the error counter is zero. -/
theorem C37_clean_small_partial (mem : Mem) (ops : List Op) (ho : ∀ op ∈ ops, smallOp op = true) :
    (scrubMemory mem (run mem {} ops)).1 = 0 ∧ (run mem {} ops).detected = 0 := by
  have key : ∀ (ops : List Op) (s : State), (∀ op ∈ ops, smallOp op = true) → Good mem s → s.detected = 0 →
      Good mem (run mem s ops) ∧ (run mem s ops).detected = 0 := by
    intro ops
    induction ops with
    | nil => intro s _ h hd; exact ⟨h, hd⟩
    | cons op ops ih =>
      intro s ho h hd
      obtain ⟨h', hd'⟩ := good_step mem s op (ho op (by simp)) h hd
      exact ih _ (fun o h => ho o (by simp [h])) h' hd'
  obtain ⟨h, hd⟩ := key ops {} ho (by intro r hr; simp at hr) rfl
  exact ⟨good_scrub mem _ h, hd⟩

example : (scrubMemory (fun a => BitVec.ofNat 8 a) (run (fun a => BitVec.ofNat 8 a) {}
    [.register 10 33, .scrub, .register 0 64, .unregister 1, .scrub])).1 = 0 :=
  (C37_clean_small_partial _ _ (by decide)).1

/-- **C37 (false alarms, violated).** An unmodified region of 65 bytes (bytes 0, 1, 2, …) is reported as corrupted by the
first pass and again by the second. -/
theorem C37_clean_large_violated : ∃ mem : Mem,
    (scrubMemory mem (register mem {} 0 65).2).1 ≠ 0 ∧
    (scrubMemory mem (scrubMemory mem (register mem {} 0 65).2).2).1 ≠ 0 :=
  ⟨fun a => BitVec.ofNat 8 a, by decide +kernel, by decide +kernel⟩

/-- Memory after address `a` has become `v`. -/
def poke (mem : Mem) (a : Nat) (v : BitVec 8) : Mem := fun k => if k = a then v else mem k

theorem bytesAt_split (mem : Mem) (p n off : Nat) (h : off < n) :
    bytesAt mem p n = bytesAt mem p off ++ mem (p + off) :: bytesAt mem (p + off + 1) (n - off - 1) := by
  unfold bytesAt
  have e : n = off + (1 + (n - off - 1)) := by omega
  conv => lhs; rw [e, List.range_add, List.map_append]
  congr 1
  rw [List.map_map, List.range_add, List.map_append]
  simp only [List.range_one, List.map_cons, List.map_nil, List.singleton_append, List.map_map, Function.comp]
  congr 1
  apply List.map_congr_left
  intro i _
  simp only [Function.comp]
  congr 1; omega

theorem bytesAt_poke (mem : Mem) (p n a : Nat) (v : BitVec 8) (h : a < p ∨ p + n ≤ a) :
    bytesAt (poke mem a v) p n = bytesAt mem p n := by
  unfold bytesAt
  apply List.map_congr_left
  intro i hi
  rw [List.mem_range] at hi
  unfold poke
  rw [if_neg (by omega)]

/-- **C37 (exact detection near the end of a region).** A region of at most 64 bytes is registered and one of its last
four bytes is then overwritten with a different value: the next pass reports exactly one error, unless the old and the
new byte both select one of the five zero entries of the shipped table, in which case it reports none. -/
theorem C37_detects_last_bytes_partial (mem : Mem) (p n off : Nat) (hn : n ≤ 64) (ho : off < n) (hl : n ≤ off + 4)
    (v : BitVec 8) (hv : v ≠ mem (p + off)) :
    (scrubMemory (poke mem (p + off) v) (register mem {} p n).2).1 =
      if (Z (idx (stateAfter (bytesAt mem p off)) (mem (p + off))) && Z (idx (stateAfter (bytesAt mem p off)) v)) = true
      then 0 else 1 := by
  have hreg : ((register mem {} p n).2).regions = [⟨1, p, n, false, Verif.Scrubber.crc (bytesAt mem p n)⟩] := rfl
  have : (scrubMemory (poke mem (p + off) v) (register mem {} p n).2).1 =
      (scrubRegion (poke mem (p + off) v) ⟨1, p, n, false, Verif.Scrubber.crc (bytesAt mem p n)⟩).1 := by
    unfold scrubMemory
    rw [hreg]
    simp
  rw [this, scrub_small _ _ (by exact hn) (by change n ≠ 0; omega)]
  have hc : content (poke mem (p + off) v) ⟨1, p, n, false, Verif.Scrubber.crc (bytesAt mem p n)⟩ =
      bytesAt mem p off ++ v :: bytesAt mem (p + off + 1) (n - off - 1) := by
    unfold content
    rw [bytesAt_split _ p n off ho, bytesAt_poke _ _ _ _ _ (by omega), bytesAt_poke _ _ _ _ _ (by omega)]
    unfold poke; rw [if_pos rfl]
  rw [hc]
  have hlen : (bytesAt mem (p + off + 1) (n - off - 1)).length ≤ 3 := by
    unfold bytesAt; rw [List.length_map, List.length_range]; omega
  have hiff := crc_last4 (bytesAt mem p off) (bytesAt mem (p + off + 1) (n - off - 1)) v (mem (p + off)) hv hlen
  have hfull : (⟨1, p, n, false, Verif.Scrubber.crc (bytesAt mem p n)⟩ : Region).crc =
      Verif.Scrubber.crc (bytesAt mem p off ++ mem (p + off) :: bytesAt mem (p + off + 1) (n - off - 1)) := by
    rw [← bytesAt_split mem p n off ho]
  rw [hfull]
  by_cases hz : (Z (idx (stateAfter (bytesAt mem p off)) (mem (p + off))) && Z (idx (stateAfter (bytesAt mem p off)) v)) = true
  · rw [if_pos hz, if_pos (hiff.mpr (by rw [Bool.and_comm]; exact hz))]
  · rw [if_neg hz, if_neg (fun e => hz (by rw [Bool.and_comm]; exact hiff.mp e))]

example : (scrubMemory (poke (fun _ => 7#8) 12 9#8) (register (fun _ => 7#8) {} 10 3).2).1 = 1 := by decide +kernel

/-- **C37 (missed corruption, violated).** A one-byte region holding 0 that is corrupted to 1, 2, 3 or 255 is reported as
clean. -/
theorem C37_missed_violated (v : BitVec 8) (hv : v = 1#8 ∨ v = 2#8 ∨ v = 3#8 ∨ v = 255#8) :
    (scrubMemory (poke (fun _ => 0#8) 0 v) (register (fun _ => 0#8) {} 0 1).2).1 = 0 := by
  rcases hv with rfl | rfl | rfl | rfl <;> decide +kernel

/-- **C37 (errors are forgotten).** Whatever the earlier contents, once a pass has run over the current memory all
regions of at most 64 bytes count as clean: the next pass over the same (possibly corrupted) memory reports nothing. -/
theorem C37_rebaselines (mem : Mem) (s : State) (h : ∀ r ∈ s.regions, r.size ≤ 64) :
    (scrubMemory mem (scrubMemory mem s).2).1 = 0 :=
  good_scrub mem _ (good_after_scrub mem s h)

/-- **C37 ('corrected' counter, violated).** A corrupted byte is counted as corrected although the memory still holds the
wrong value (the pass returns a state, not a new memory) and the following pass sees nothing wrong. -/
theorem C37_corrected_violated :
    let mem : Mem := fun _ => 7#8
    let bad := poke mem 12 9#8
    let s := (scrubMemory bad (register mem {} 10 3).2).2
    s.corrected = 1 ∧ bytesAt bad 10 3 ≠ bytesAt mem 10 3 ∧ (scrubMemory bad s).1 = 0 := by
  refine ⟨by decide +kernel, by decide +kernel, by decide +kernel⟩

/-- **C37 (exact count for plain regions of any size).** Without ECC, a pass counts the 64-byte blocks whose checksum
differs from the region's single stored checksum. -/
theorem C37_block_count (mem : Mem) (r : Region) (he : r.ecc = false) :
    (scrubRegion mem r).1 = ((List.range (blocks r.size)).filter fun k => blockCrc mem r k ≠ r.crc).length := by
  unfold scrubRegion
  have := forN_inv (fun n (s : Nat × Region) => s.2 = r ∧
      s.1 = ((List.range n).filter fun k => decide (blockCrc mem r k ≠ r.crc)).length) (blocks r.size)
    (fun k s => if blockCrc mem r k ≠ s.2.crc then (s.1 + 1, if s.2.ecc then { s.2 with crc := 0#32 } else s.2) else s) (0, r)
    ⟨rfl, rfl⟩ (by
      rintro i ⟨a, q⟩ _ ⟨hr, hq⟩
      change q = r at hr
      change a = _ at hq
      subst hr
      rw [List.range_succ, List.filter_append, List.length_append, ← hq]
      change (if blockCrc mem q i ≠ q.crc then (a + 1, if q.ecc = true then { q with crc := 0#32 } else q) else (a, q)).2 = q ∧
        (if blockCrc mem q i ≠ q.crc then (a + 1, if q.ecc = true then { q with crc := 0#32 } else q) else (a, q)).1 = _
      by_cases c : blockCrc mem q i ≠ q.crc
      · rw [if_pos c]
        refine ⟨by simp [he], ?_⟩
        change a + 1 = _
        rw [List.filter_cons]
        simp [c]
      · rw [if_neg c]
        refine ⟨rfl, ?_⟩
        change a = _
        rw [List.filter_cons]
        simp [not_not.mp c])
  exact this.2

/-! ### C59 -/

/-- Handles of the live regions. -/
def ids (s : State) : List Nat := s.regions.map (·.id)

theorem eraseId_spec {h : Nat} {l l' : List Region} (hn : (l.map (·.id)).Nodup) (e : eraseId h l = some l') :
    l' = l.filter (fun r => r.id ≠ h) ∧ h ∈ l.map (·.id) := by
  induction l generalizing l' with
  | nil => simp [eraseId] at e
  | cons a l ih =>
    rw [List.map_cons, List.nodup_cons] at hn
    unfold eraseId at e
    by_cases c : a.id = h
    · rw [if_pos c] at e
      cases e
      constructor
      · rw [List.filter_cons, if_neg (by simp [c])]
        rw [List.filter_eq_self.mpr]
        intro r hr
        have : r.id ≠ h := by
          intro e; apply hn.1; rw [c, ← e]; exact List.mem_map_of_mem hr
        simpa using this
      · simp [c]
    · rw [if_neg c, Option.map_eq_some_iff] at e
      obtain ⟨m, hm, rfl⟩ := e
      obtain ⟨h1, h2⟩ := ih hn.2 hm
      constructor
      · rw [List.filter_cons, if_pos (by simpa using c), h1]
      · rw [List.map_cons]; exact List.mem_cons_of_mem _ h2

theorem eraseId_none {h : Nat} {l : List Region} (e : eraseId h l = none) : h ∉ l.map (·.id) := by
  induction l with
  | nil => simp
  | cons a l ih =>
    unfold eraseId at e
    split at e
    · cases e
    · rename_i c
      rw [Option.map_eq_none_iff] at e
      rw [List.map_cons, List.mem_cons, not_or]
      exact ⟨Ne.symm c, ih e⟩

/-- All live handles are distinct, positive and below the next one. -/
def RegOk (s : State) : Prop := (ids s).Nodup ∧ ∀ i ∈ ids s, 1 ≤ i ∧ i < s.next

theorem setFlag_ids {h : Nat} {b : Bool} {l l' : List Region} (e : setFlag h b l = some l') :
    l'.map (·.id) = l.map (·.id) := by
  induction l generalizing l' with
  | nil => simp [setFlag] at e
  | cons a l ih =>
    unfold setFlag at e
    split at e
    · cases e; rfl
    · rw [Option.map_eq_some_iff] at e
      obtain ⟨m, hm, rfl⟩ := e
      simp [ih hm]

theorem scrub_ids (mem : Mem) (s : State) : ids (scrubMemory mem s).2 = ids s := by
  unfold ids scrubMemory
  simp only [List.map_map]
  apply List.map_congr_left
  intro r _
  simp only [Function.comp]
  rw [(calc_keeps mem _).1, (scrub_keeps mem r).1]

theorem regOk_step (mem : Mem) {s : State} (hs : RegOk s) (hp : 1 ≤ s.next) (op : Op) :
    RegOk (step mem s op) ∧ 1 ≤ (step mem s op).next := by
  obtain ⟨h1, h2⟩ := hs
  cases op with
  | register p n =>
    refine ⟨⟨?_, ?_⟩, by simp [step, register]⟩
    · simp only [step, register, ids, List.map_append, List.map_cons, List.map_nil]
      rw [List.nodup_append]
      refine ⟨h1, by simp, ?_⟩
      intro a ha b hb
      rw [List.mem_singleton] at hb
      subst hb
      have := (h2 a ha).2
      omega
    · intro i hi
      simp only [step, register, ids, List.map_append, List.map_cons, List.map_nil, List.mem_append, List.mem_singleton] at hi
      change 1 ≤ i ∧ i < s.next + 1
      rcases hi with hi | rfl
      · have := h2 i hi; omega
      · omega
  | unregister k =>
    simp only [step, unregister]
    split
    · exact ⟨⟨h1, h2⟩, hp⟩
    · split
      · rename_i rs e
        refine ⟨⟨?_, ?_⟩, hp⟩
        · change (rs.map (·.id)).Nodup
          rw [(eraseId_spec h1 e).1]
          exact h1.sublist (List.filter_sublist.map _)
        · intro i hi
          change i ∈ rs.map (·.id) at hi
          rw [List.mem_map] at hi
          obtain ⟨r, hr, rfl⟩ := hi
          exact h2 _ (List.mem_map_of_mem (eraseId_mem e r hr))
      · exact ⟨⟨h1, h2⟩, hp⟩
  | setECC k b =>
    simp only [step, setECC]
    split
    · rename_i rs e
      refine ⟨⟨?_, ?_⟩, hp⟩
      · change (rs.map (·.id)).Nodup
        rw [setFlag_ids e]; exact h1
      · intro i hi
        change i ∈ rs.map (·.id) at hi
        rw [setFlag_ids e] at hi
        exact h2 i hi
    · exact ⟨⟨h1, h2⟩, hp⟩
  | scrub =>
    refine ⟨⟨?_, ?_⟩, hp⟩
    · change (ids (scrubMemory mem s).2).Nodup
      rw [scrub_ids]; exact h1
    · intro i hi
      change i ∈ ids (scrubMemory mem s).2 at hi
      rw [scrub_ids] at hi
      exact h2 i hi
  | reset => exact ⟨⟨h1, h2⟩, hp⟩

theorem regOk_run (mem : Nat → Mem) (ops : List Op) : ∀ (k : Nat) (s : State), RegOk s → 1 ≤ s.next →
    RegOk ((ops.zipIdx k).foldl (fun s o => step (mem o.2) s o.1) s) := by
  induction ops with
  | nil => intro k s h _; exact h
  | cons op ops ih =>
    intro k s h hp
    rw [List.zipIdx_cons, List.foldl_cons]
    obtain ⟨h', hp'⟩ := regOk_step (mem k) h hp op
    exact ih _ _ h' hp'

/-- A history in which the memory may change arbitrarily between calls: `mem k` is the memory at call `k`. -/
def history (mem : Nat → Mem) (ops : List Op) : State := (ops.zipIdx 0).foldl (fun s o => step (mem o.2) s o.1) {}

/-- **C59.** After every history of calls (the memory changing arbitrarily between them): a new registration returns a
non-zero handle no live region has and adds exactly one region at the end; `unregisterMemoryRegion(h)` succeeds iff a
live region has handle `h`, and then removes exactly that region; scrub passes and ECC switches keep the set of handles. -/
theorem C59_registry (mem : Nat → Mem) (ops : List Op) (m : Mem) (p n h : Nat) :
    let s := history mem ops
    ((register m s p n).1 ≠ 0 ∧ (register m s p n).1 ∉ ids s ∧ ids (register m s p n).2 = ids s ++ [(register m s p n).1]) ∧
    ((unregister s h).1 = true ↔ h ∈ ids s) ∧
    ids (unregister s h).2 = (ids s).filter (· ≠ h) ∧ ids (scrubMemory m s).2 = ids s ∧
    getRegionCount s = (ids s).length := by
  intro s
  obtain ⟨hn, hb⟩ : RegOk s := regOk_run mem ops 0 {} ⟨by simp [ids], by simp [ids]⟩ (by decide)
  have hpos : 1 ≤ s.next := by
    have : ∀ (ops : List Op) k (s : State), 1 ≤ s.next → RegOk s →
        1 ≤ ((ops.zipIdx k).foldl (fun s o => step (mem o.2) s o.1) s).next := by
      intro ops
      induction ops with
      | nil => intro k s h _; exact h
      | cons op ops ih =>
        intro k s h hr
        rw [List.zipIdx_cons, List.foldl_cons]
        obtain ⟨h', hp'⟩ := regOk_step (mem k) hr h op
        exact ih _ _ hp' h'
    exact this ops 0 {} (by decide) ⟨by simp [ids], by simp [ids]⟩
  refine ⟨⟨?_, ?_, ?_⟩, ?_, ?_, scrub_ids m s, ?_⟩
  · change s.next ≠ 0; omega
  · intro hm
    have := (hb _ hm).2
    change s.next < s.next at this
    omega
  · simp [ids, register]
  · unfold unregister
    by_cases h0 : h = 0
    · rw [if_pos h0]
      simp only [Bool.false_eq_true, false_iff]
      intro hm; have := (hb h hm).1; omega
    · rw [if_neg h0]
      cases e : eraseId h s.regions with
      | none => simpa [ids] using eraseId_none e
      | some rs => simpa [ids] using (eraseId_spec hn e).2
  · unfold unregister
    by_cases h0 : h = 0
    · rw [if_pos h0]
      refine (List.filter_eq_self.mpr ?_).symm
      intro a ha
      have : a ≠ h := by intro e; have := (hb a ha).1; omega
      simpa using this
    · rw [if_neg h0]
      cases e : eraseId h s.regions with
      | none =>
        refine (List.filter_eq_self.mpr ?_).symm
        intro a ha
        have : a ≠ h := by rintro rfl; exact eraseId_none e ha
        simpa using this
      | some rs =>
        change rs.map (·.id) = _
        rw [(eraseId_spec hn e).1]
        unfold ids
        rw [List.filter_map]
        rfl
  · simp [getRegionCount, ids]

example : ids (history (fun _ _ => 0#8) [.register 0 4, .register 8 4, .unregister 1, .scrub, .register 0 4]) = [2, 3] := by
  decide +kernel

end Verif.Props.Scrubber
