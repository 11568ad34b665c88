import Verif.Model.MappedAllocator
/-!
Properties C40, C60, C61: the radiation-aware allocator `memory::RadiationMappedAllocator`.
-/
namespace Verif.Props.Mapped
open Verif Verif.Mapped

/-! ### Specification -/

/-- The half-open byte ranges `[a, a+n)` and `[b, b+m)` have no byte in common. -/
def Apart (a n b m : Nat) : Prop := a + n ≤ b ∨ b + m ≤ a

/-- A zone configuration in which every protection level has at most one zone, zones are proper address ranges above
address 0 and do not overlap. -/
structure GoodZones (zs : List Zone) : Prop where
  nonempty : zs ≠ []
  range : ∀ z ∈ zs, 0 < z.start ∧ z.start ≤ z.stop ∧ z.stop < 2 ^ 64
  apart : zs.Pairwise fun a b => a.level ≠ b.level ∧ (a.stop ≤ b.start ∨ b.stop ≤ a.start)

/-- Live blocks are pairwise disjoint and each lies in the configured zone of the level it was recorded for. -/
structure Sound (zs : List Zone) (s : State) : Prop where
  disjoint : s.allocs.Pairwise fun a b => Apart a.addr a.size b.addr b.size
  inZone : ∀ a ∈ s.allocs, ∃ z ∈ zs, z.level = a.level ∧ z.start ≤ a.addr ∧ a.addr + a.size ≤ z.stop

/-- Requests in the history are for at least one byte (and a `size_t`). -/
def NonZero : Op → Prop
  | .alloc n _ _ => 0 < n
  | .dealloc _ => True

/-! ### Sorting -/

theorem mem_insertPair {b x : Nat × Nat} {l : List (Nat × Nat)} : x ∈ insertPair b l ↔ x = b ∨ x ∈ l := by
  induction l with
  | nil => simp [insertPair]
  | cons c l ih =>
    unfold insertPair
    split
    · simp
    · rw [List.mem_cons, ih, List.mem_cons, or_left_comm]

theorem mem_sortPairs {x : Nat × Nat} {l : List (Nat × Nat)} : x ∈ sortPairs l ↔ x ∈ l := by
  induction l with
  | nil => simp [sortPairs]
  | cons c l ih => unfold sortPairs; rw [mem_insertPair, ih, List.mem_cons]

/-- Inserting into an ordered list of blocks a non-empty block apart from all of them keeps it ordered. -/
theorem insert_ordered {b : Nat × Nat} {l : List (Nat × Nat)} (hb : 0 < b.2) (hl : ∀ p ∈ l, 0 < p.2)
    (ho : l.Pairwise fun p q => p.1 + p.2 ≤ q.1) (ha : ∀ p ∈ l, Apart b.1 b.2 p.1 p.2) :
    (insertPair b l).Pairwise fun p q => p.1 + p.2 ≤ q.1 := by
  induction l with
  | nil => simp [insertPair]
  | cons c l ih =>
    rw [List.pairwise_cons] at ho
    have hc := ha c List.mem_cons_self
    have hc2 := hl c List.mem_cons_self
    unfold insertPair
    unfold Apart at hc
    by_cases h : pairLe b c = true
    · rw [if_pos h, List.pairwise_cons, List.pairwise_cons]
      have hbc : b.1 ≤ c.1 := by
        unfold pairLe at h
        simp only [Bool.or_eq_true, Bool.and_eq_true, decide_eq_true_eq] at h
        omega
      have h1 : b.1 + b.2 ≤ c.1 := by omega
      refine ⟨?_, ho⟩
      intro q hq
      rw [List.mem_cons] at hq
      rcases hq with rfl | hq
      · exact h1
      · have := ho.1 q hq; omega
    · rw [if_neg h, List.pairwise_cons]
      have hbc : c.1 ≤ b.1 := by
        unfold pairLe at h
        simp only [Bool.or_eq_true, Bool.and_eq_true, decide_eq_true_eq] at h
        omega
      refine ⟨?_, ih (fun p hp => hl p (List.mem_cons_of_mem _ hp)) ho.2 (fun p hp => ha p (List.mem_cons_of_mem _ hp))⟩
      intro q hq
      rw [mem_insertPair] at hq
      rcases hq with rfl | hq
      · omega
      · exact ho.1 q hq

theorem sort_ordered {l : List (Nat × Nat)} (hl : ∀ p ∈ l, 0 < p.2)
    (ha : l.Pairwise fun p q => Apart p.1 p.2 q.1 q.2) : (sortPairs l).Pairwise fun p q => p.1 + p.2 ≤ q.1 := by
  induction l with
  | nil => simp [sortPairs]
  | cons c l ih =>
    rw [List.pairwise_cons] at ha
    unfold sortPairs
    refine insert_ordered (hl c List.mem_cons_self) ?_ (ih (fun p hp => hl p (List.mem_cons_of_mem _ hp)) ha.2) ?_
    · intro p hp; exact hl p (List.mem_cons_of_mem _ (mem_sortPairs.mp hp))
    · intro p hp; exact ha.1 p (mem_sortPairs.mp hp)

/-! ### The gap search -/

theorem sub64_of_le {a b : Nat} (h : b ≤ a) (ha : a < 2 ^ 64) : sub64 a b = a - b := by
  unfold sub64
  rw [Nat.mod_eq_of_lt (a := b) (by omega)]
  have : a + (2 ^ 64 - b) = (a - b) + 2 ^ 64 := by omega
  rw [this, Nat.add_mod_right, Nat.mod_eq_of_lt (by omega)]

/-- The scan returns the lowest address of a free range of the requested size. -/
theorem scan_spec {stop size : Nat} (hs : stop < 2 ^ 64) : ∀ (l : List (Nat × Nat)) (cur : Nat), cur ≤ stop →
    (l.Pairwise fun p q => p.1 + p.2 ≤ q.1) → (∀ p ∈ l, cur ≤ p.1 ∧ p.1 + p.2 ≤ stop) →
    (∀ a, scan stop size l cur = some a → cur ≤ a ∧ a + size ≤ stop ∧ ∀ p ∈ l, Apart a size p.1 p.2) ∧
    (0 < size → ∀ b, cur ≤ b → b + size ≤ stop → (∀ p ∈ l, Apart b size p.1 p.2) → ∃ a, scan stop size l cur = some a ∧ a ≤ b) := by
  intro l
  induction l with
  | nil =>
    intro cur hc _ _
    unfold scan
    rw [sub64_of_le hc hs]
    constructor
    · intro a h
      split at h
      · cases h
        exact ⟨Nat.le_refl _, by omega, by simp⟩
      · cases h
    · intro _ b h1 h2 _
      rw [if_pos (by omega)]
      exact ⟨cur, rfl, h1⟩
  | cons c l ih =>
    intro cur hc ho hb
    rw [List.pairwise_cons] at ho
    have hcb := hb c List.mem_cons_self
    unfold scan
    rw [sub64_of_le hcb.1 (by omega)]
    have e : add64 c.1 c.2 = c.1 + c.2 := by unfold add64; exact Nat.mod_eq_of_lt (by omega)
    have IH := ih (c.1 + c.2) (by omega) ho.2 (fun p hp => ⟨ho.1 p hp, (hb p (List.mem_cons_of_mem _ hp)).2⟩)
    by_cases h : size ≤ c.1 - cur
    · rw [if_pos h]
      constructor
      · rintro a ⟨⟩
        refine ⟨Nat.le_refl _, by omega, ?_⟩
        intro p hp
        rw [List.mem_cons] at hp
        unfold Apart
        rcases hp with rfl | hp
        · omega
        · have := ho.1 p hp; omega
      · intro _ b h1 _ _; exact ⟨cur, rfl, h1⟩
    · rw [if_neg h, e]
      constructor
      · intro a ha
        obtain ⟨h1, h2, h3⟩ := IH.1 a ha
        refine ⟨by omega, h2, ?_⟩
        intro p hp
        rw [List.mem_cons] at hp
        rcases hp with rfl | hp
        · exact Or.inr h1
        · exact h3 p hp
      · intro hp b h1 h2 h3
        have := h3 c List.mem_cons_self
        unfold Apart at this
        exact IH.2 hp b (by omega) h2 (fun p hp => h3 p (List.mem_cons_of_mem _ hp))

/-! ### Invariant -/

theorem level_unique {zs : List Zone} (h : GoodZones zs) {a b : Zone} (ha : a ∈ zs) (hb : b ∈ zs)
    (e : a.level = b.level) : a = b := by
  have := h.apart
  clear h
  induction zs with
  | nil => cases ha
  | cons z l ih =>
    rw [List.pairwise_cons] at this
    rw [List.mem_cons] at ha hb
    rcases ha with rfl | ha <;> rcases hb with rfl | hb
    · rfl
    · exact absurd e (this.1 b hb).1
    · exact absurd e.symm (this.1 a ha).1
    · exact ih ha hb this.2

theorem zones_apart {zs : List Zone} (h : GoodZones zs) {a b : Zone} (ha : a ∈ zs) (hb : b ∈ zs)
    (e : a.level ≠ b.level) : a.stop ≤ b.start ∨ b.stop ≤ a.start := by
  have := h.apart
  clear h
  induction zs with
  | nil => cases ha
  | cons z l ih =>
    rw [List.pairwise_cons] at this
    rw [List.mem_cons] at ha hb
    rcases ha with rfl | ha <;> rcases hb with rfl | hb
    · exact absurd rfl e
    · exact (this.1 b hb).2
    · exact (this.1 a ha).2.symm
    · exact ih ha hb this.2

/-- Reachability invariant. -/
structure Inv (zs : List Zone) (s : State) : Prop where
  sound : Sound zs s
  sub : ∀ z ∈ s.zones, z ∈ zs
  len : s.zones ≠ []
  pos : ∀ a ∈ s.allocs, 0 < a.size
  sync : s.managed.map (fun r => (r.ptr, r.size, r.placement)) = s.allocs.map fun a => (a.addr, a.size, placementOf a.level)

theorem findLevel_lt {zs : List Zone} {l : Level} {i : Nat} (h : findLevel zs l = some i) : i < zs.length := by
  unfold findLevel at h
  rw [List.findIdx?_eq_some_iff_getElem] at h
  exact h.1

theorem getD_findLevel_lt {zs : List Zone} (h : zs ≠ []) (l : Level) : (findLevel zs l).getD 0 < zs.length := by
  have hp := List.length_pos_iff.mpr h
  cases e : findLevel zs l with
  | none => simpa using hp
  | some i => simpa using findLevel_lt e

theorem selectZone_lt {zs : List Zone} (h : zs ≠ []) (c : Crit) : selectZone zs c < zs.length := getD_findLevel_lt h _

theorem fallbackZone_lt {zs : List Zone} (h : zs ≠ []) (c : Crit) : fallbackZone zs c < zs.length := by
  have hp := List.length_pos_iff.mpr h
  unfold fallbackZone
  cases c with
  | mission =>
    cases e : findLevel zs .moderate with
    | some i => simpa using findLevel_lt e
    | none =>
      cases e : findLevel zs .light with
      | some i => simpa using findLevel_lt e
      | none => simpa using getD_findLevel_lt h .unshielded
  | important =>
    cases e : findLevel zs .light with
    | some i => simpa using findLevel_lt e
    | none => simpa using getD_findLevel_lt h .unshielded
  | moderate => exact getD_findLevel_lt h .unshielded
  | low => exact hp

theorem zoneAt_mem {zs : List Zone} {i : Nat} (h : i < zs.length) : zoneAt zs i ∈ zs := by
  unfold zoneAt
  rw [List.getElem?_eq_getElem h]
  exact List.getElem_mem h

theorem mem_occupied {s : State} {l : Level} {p : Nat × Nat} :
    p ∈ occupied s l ↔ ∃ a ∈ s.allocs, a.level = l ∧ (a.addr, a.size) = p := by
  unfold occupied
  simp [and_assoc]

theorem occupied_pairwise {zs : List Zone} {s : State} (h : Sound zs s) (l : Level) :
    (occupied s l).Pairwise fun p q => Apart p.1 p.2 q.1 q.2 := by
  unfold occupied
  rw [List.pairwise_map]
  exact h.disjoint.filter _

/-- `b` is the start of a free range of `size` bytes in zone `z`. -/
def Fits (s : State) (z : Zone) (size b : Nat) : Prop :=
  z.start ≤ b ∧ b + size ≤ z.stop ∧ ∀ a ∈ s.allocs, Apart b size a.addr a.size

theorem findSpace_spec {zs : List Zone} (hg : GoodZones zs) {s : State} (h : Inv zs s) {z : Zone} (hz : z ∈ zs) {size : Nat}
    (hs : 0 < size) :
    (findSpace s z size ≠ 0 → Fits s z size (findSpace s z size) ∧ ∀ b, Fits s z size b → findSpace s z size ≤ b) ∧
    (findSpace s z size = 0 → ∀ b, ¬ Fits s z size b) := by
  obtain ⟨h0, h1, h2⟩ := hg.range z hz
  have ho := sort_ordered (l := occupied s z.level) (by
    intro p hp
    obtain ⟨a, ha, _, rfl⟩ := mem_occupied.mp hp
    exact h.pos a ha) (occupied_pairwise h.sound _)
  have hin : ∀ p ∈ sortPairs (occupied s z.level), z.start ≤ p.1 ∧ p.1 + p.2 ≤ z.stop := by
    intro p hp
    obtain ⟨a, ha, hl, rfl⟩ := mem_occupied.mp (mem_sortPairs.mp hp)
    obtain ⟨w, hw, e, h3, h4⟩ := h.sound.inZone a ha
    rw [level_unique hg hw hz (e.trans hl)] at h3 h4
    exact ⟨h3, h4⟩
  have S := scan_spec (size := size) h2 _ z.start h1 ho hin
  have out : ∀ b, z.start ≤ b → b + size ≤ z.stop → (∀ p ∈ sortPairs (occupied s z.level), Apart b size p.1 p.2) →
      ∀ a ∈ s.allocs, Apart b size a.addr a.size := by
    intro b hb1 hb2 hb3 a ha
    by_cases e : a.level = z.level
    · exact hb3 (a.addr, a.size) (mem_sortPairs.mpr (mem_occupied.mpr ⟨a, ha, e, rfl⟩))
    · obtain ⟨w, hw, e', h3, h4⟩ := h.sound.inZone a ha
      have := zones_apart hg hw hz (by rw [e']; exact e)
      unfold Apart; omega
  have conv : ∀ b, Fits s z size b → ∃ a, scan z.stop size (sortPairs (occupied s z.level)) z.start = some a ∧ a ≤ b := by
    rintro b ⟨hb1, hb2, hb3⟩
    apply S.2 hs b hb1 hb2
    intro p hp
    obtain ⟨a, ha, _, rfl⟩ := mem_occupied.mp (mem_sortPairs.mp hp)
    exact hb3 a ha
  unfold findSpace
  cases e : scan z.stop size (sortPairs (occupied s z.level)) z.start with
  | none =>
    refine ⟨fun c => absurd rfl c, fun _ b hb => ?_⟩
    obtain ⟨a, ha, _⟩ := conv b hb
    rw [e] at ha; cases ha
  | some a =>
    obtain ⟨k1, k2, k3⟩ := S.1 a e
    refine ⟨fun _ => ⟨⟨k1, k2, out a k1 k2 k3⟩, ?_⟩, ?_⟩
    · intro b hb
      obtain ⟨a', ha', hle⟩ := conv b hb
      rw [e] at ha'; cases ha'
      exact hle
    · intro hz0
      change a = 0 at hz0
      omega

theorem inv_record {zs : List Zone} {s : State} (h : Inv zs s) {z : Zone} (hz : z ∈ zs) {size a : Nat} (hs : 0 < size)
    (c : Crit) (hf : Fits s z size a) : Inv zs (record s a size z.level c) := by
  obtain ⟨h1, h2, h3⟩ := hf
  refine ⟨⟨?_, ?_⟩, h.sub, h.len, ?_, ?_⟩
  · change (s.allocs ++ [_]).Pairwise _
    rw [List.pairwise_append]
    refine ⟨h.sound.disjoint, List.pairwise_singleton _ _, ?_⟩
    intro x hx y hy
    rw [List.mem_singleton] at hy
    subst hy
    exact (h3 x hx).symm
  · intro x hx
    change x ∈ s.allocs ++ [_] at hx
    rw [List.mem_append, List.mem_singleton] at hx
    rcases hx with hx | rfl
    · exact h.sound.inZone x hx
    · exact ⟨z, hz, rfl, h1, h2⟩
  · intro x hx
    change x ∈ s.allocs ++ [_] at hx
    rw [List.mem_append, List.mem_singleton] at hx
    rcases hx with hx | rfl
    · exact h.pos x hx
    · exact hs
  · change (s.managed ++ [_]).map _ = (s.allocs ++ [_]).map _
    rw [List.map_append, List.map_append, h.sync]
    rfl

theorem inv_setZone {zs : List Zone} {s : State} (h : Inv zs s) (i : Nat) {z : Zone} (hz : z ∈ s.zones) :
    Inv zs { s with zones := s.zones.set i z } := by
  refine ⟨⟨h.sound.disjoint, h.sound.inZone⟩, ?_, ?_, h.pos, h.sync⟩
  · intro x hx
    rcases List.mem_or_eq_of_mem_set hx with hx | rfl
    · exact h.sub x hx
    · exact h.sub _ hz
  · intro e
    have := congrArg List.length e
    simp only [List.length_set, List.length_nil] at this
    exact h.len (List.length_eq_zero_iff.mp this)

theorem inv_allocate {zs : List Zone} (hg : GoodZones zs) {s : State} (h : Inv zs s) {size : Nat} (hs : 0 < size) (c : Crit)
    (m : Nat) : Inv zs (allocate s size c m).2 := by
  unfold allocate
  simp only
  have hz := h.sub _ (zoneAt_mem (selectZone_lt h.len c))
  have hf := zoneAt_mem (fallbackZone_lt h.len c)
  have h' := inv_setZone h (selectZone s.zones c) hf
  split
  · split
    · exact ⟨⟨h'.sound.disjoint, h'.sound.inZone⟩, h'.sub, h'.len, h'.pos, h'.sync⟩
    · next e => exact inv_record h' (h.sub _ hf) hs c ((findSpace_spec hg h' (h.sub _ hf) hs).1 e).1
  · next e => exact inv_record h hz hs c ((findSpace_spec hg h hz hs).1 e).1

theorem eraseP_map_sync {l : List MemRec} {k : List Alloc} (p : Nat)
    (h : l.map (fun r => (r.ptr, r.size, r.placement)) = k.map fun a => (a.addr, a.size, placementOf a.level)) :
    (l.eraseP fun r => r.ptr == p).map (fun r => (r.ptr, r.size, r.placement)) =
      (k.eraseP fun a => a.addr == p).map fun a => (a.addr, a.size, placementOf a.level) := by
  induction l generalizing k with
  | nil =>
    cases k with
    | nil => rfl
    | cons b k => simp at h
  | cons a l ih =>
    cases k with
    | nil => simp at h
    | cons b k =>
      simp only [List.map_cons, List.cons.injEq, Prod.mk.injEq] at h
      obtain ⟨⟨h1, h2, h3⟩, h4⟩ := h
      by_cases e : b.addr = p
      · rw [List.eraseP_cons_of_pos (by simpa [h1] using e), List.eraseP_cons_of_pos (by simpa using e)]
        exact h4
      · rw [List.eraseP_cons_of_neg (by simpa [h1] using e), List.eraseP_cons_of_neg (by simpa using e)]
        simp only [List.map_cons, h1, h2, h3, ih h4]

theorem inv_deallocate {zs : List Zone} {s : State} (h : Inv zs s) (p : Nat) : Inv zs (deallocate s p).2 := by
  unfold deallocate
  split
  · refine ⟨⟨?_, ?_⟩, h.sub, h.len, ?_, eraseP_map_sync p h.sync⟩
    · exact h.sound.disjoint.sublist List.eraseP_sublist
    · exact fun a ha => h.sound.inZone a (List.mem_of_mem_eraseP ha)
    · exact fun a ha => h.pos a (List.mem_of_mem_eraseP ha)
  · split
    · exact ⟨⟨h.sound.disjoint, h.sound.inZone⟩, h.sub, h.len, h.pos, h.sync⟩
    · exact h

theorem inv_start {zs : List Zone} (hg : GoodZones zs) : Inv zs { zones := zs } :=
  ⟨⟨List.Pairwise.nil, by simp⟩, fun _ h => h, hg.nonempty, by simp, rfl⟩

theorem inv_run {zs : List Zone} (hg : GoodZones zs) (ops : List Op) (ho : ∀ o ∈ ops, NonZero o) {s : State} (h : Inv zs s) :
    Inv zs (run s ops) := by
  induction ops generalizing s with
  | nil => exact h
  | cons o ops ih =>
    refine ih (fun x hx => ho x (List.mem_cons_of_mem _ hx)) ?_
    have := ho o List.mem_cons_self
    cases o with
    | alloc n c m => exact inv_allocate hg h this c m
    | dealloc p => exact inv_deallocate h p

/-! ### C40 -/

theorem goodZones_default : GoodZones defaultZones := by
  refine ⟨by decide, by decide, by decide⟩

/-- **C40.** For every zone configuration with at most one proper zone per level (in particular the default one) and
every history of non-empty requests and releases of arbitrary pointers, with any results of the system allocator, the
live managed blocks are pairwise disjoint and inside the zone of their level.  Missing from the full statement:
zero-size requests, several zones of one level and reversed zones (see the theorems below). -/
theorem C40_disjoint_partial (zs : List Zone) (hg : GoodZones zs) (ops : List Op) (ho : ∀ o ∈ ops, NonZero o) :
    Sound zs (run { zones := zs } ops) :=
  (inv_run hg ops ho (inv_start hg)).sound

/-- The default configuration satisfies the hypothesis, and so does what the validating constructor accepts if levels
are distinct and zones are proper ranges above address 0. -/
theorem C40_default_partial (ops : List Op) (ho : ∀ o ∈ ops, NonZero o) : Sound defaultZones (run new ops) :=
  C40_disjoint_partial _ goodZones_default ops ho

theorem anyClash_false {zs : List Zone} (h : anyClash zs = false) : zs.Pairwise fun a b => zonesClash a b = false := by
  induction zs with
  | nil => exact List.Pairwise.nil
  | cons z l ih =>
    unfold anyClash at h
    rw [Bool.or_eq_false_iff, List.any_eq_false] at h
    exact List.Pairwise.cons (fun b hb => by simpa using h.1 b hb) (ih h.2)

/-- Every configuration the constructor accepts whose zones have distinct levels and are proper ranges above address 0
meets the hypothesis of `C40_disjoint_partial`. -/
theorem C40_constructor_partial (zs : List Zone) (s : State) (h : construct zs = some s)
    (hr : ∀ z ∈ zs, 0 < z.start ∧ z.start ≤ z.stop ∧ z.stop < 2 ^ 64) (hl : zs.Pairwise fun a b => a.level ≠ b.level)
    (ops : List Op) (ho : ∀ o ∈ ops, NonZero o) : Sound zs (run s ops) := by
  unfold construct validate at h
  split at h
  · next hv =>
    rw [Bool.and_eq_true] at hv
    cases h
    refine C40_disjoint_partial zs ⟨?_, hr, ?_⟩ ops ho
    · intro e; subst e; simp at hv
    · have := anyClash_false (by simpa using hv.2)
      refine (List.Pairwise.and hl this).imp_of_mem ?_
      intro a b ha hb hab
      refine ⟨hab.1, ?_⟩
      have := hab.2
      unfold zonesClash at this
      rw [Bool.and_eq_false_iff] at this
      simp only [decide_eq_false_iff_not] at this
      omega
  · cases h

/-- **C40 (zero-size requests, violated).** In the default configuration, after allocating 100 bytes and then 0 bytes
both calls return the same pointer; releasing the second block drops the record of the first, so a third request gets
memory that overlaps the first, still live, block. -/
theorem C40_zero_size_violated :
    let r1 := allocate new 100 .moderate 0
    let r2 := allocate r1.2 0 .moderate 0
    let r3 := allocate (deallocate r2.2 r2.1).2 100 .moderate 0
    r2.1 = r1.1 ∧ r3.1 = r1.1 ∧ r3.1 ≠ 0 := by decide

/-- **C40 (several zones of a level, violated).** A configuration accepted by the constructor (two light zones and one
unshielded zone) and a history of non-empty requests after which two live blocks occupy the same bytes: the fallback
overwrites the full zone entry by a copy of the unshielded zone, the second light zone becomes visible, and blocks of
the first one confuse the gap search. -/
theorem C40_duplicate_level_violated : ∃ zs s0, construct zs = some s0 ∧
    ∃ ops, (∀ o ∈ ops, NonZero o) ∧ ∃ a b, (run s0 ops).allocs = [a, ⟨3000, 100, .unshielded⟩, b, b] ∧ 0 < b.size := by
  refine ⟨[⟨.light, 1000, 1100⟩, ⟨.light, 2000, 2100⟩, ⟨.unshielded, 3000, 3100⟩], _, rfl,
    [.alloc 100 .moderate 0, .alloc 100 .moderate 0, .alloc 50 .moderate 0, .alloc 50 .moderate 0], ?_,
    ⟨1000, 100, .light⟩, ⟨2000, 50, .light⟩, by decide, by decide⟩
  intro o ho
  simp only [List.mem_cons, List.not_mem_nil, or_false] at ho
  rcases ho with rfl | rfl | rfl | rfl <;> (unfold NonZero; decide)

/-- **C40 (reversed zone, violated).** The constructor accepts a zone whose end lies before its start; blocks are then
placed past its end. -/
theorem C40_reversed_zone_violated : ∃ zs s0, construct zs = some s0 ∧
    (allocate s0 1000 .moderate 0).1 = 2000 ∧ zs = [⟨.light, 2000, 1000⟩] := by
  exact ⟨[⟨.light, 2000, 1000⟩], _, rfl, by decide, rfl⟩

/-- **C40 (release).** In every reachable state, releasing a live managed pointer removes exactly that block; other
blocks, and their diagnostic records, are untouched.  Releasing a pointer of no managed block leaves them all alone. -/
theorem C40_release (zs : List Zone) (hg : GoodZones zs) (ops : List Op) (ho : ∀ o ∈ ops, NonZero o) (p : Nat) :
    (deallocate (run { zones := zs } ops) p).2.allocs = (run { zones := zs } ops).allocs.filter (fun a => a.addr ≠ p) ∧
    ((deallocate (run { zones := zs } ops) p).1 = .managed ↔ ∃ a ∈ (run { zones := zs } ops).allocs, a.addr = p) := by
  have h := inv_run hg ops ho (inv_start hg)
  generalize run { zones := zs } ops = s at h
  have key : ∀ l : List Alloc, (l.Pairwise fun a b => Apart a.addr a.size b.addr b.size) → (∀ a ∈ l, 0 < a.size) →
      (l.eraseP fun a => a.addr == p) = l.filter fun a => a.addr ≠ p := by
    intro l hl hp
    induction l with
    | nil => rfl
    | cons a l ih =>
      rw [List.pairwise_cons] at hl
      by_cases e : a.addr = p
      · rw [List.eraseP_cons_of_pos (by simpa using e), List.filter_cons_of_neg (by simpa using e)]
        symm
        rw [List.filter_eq_self]
        intro b hb
        have h1 := hl.1 b hb
        have h2 := hp b (List.mem_cons_of_mem _ hb)
        have h3 := hp a List.mem_cons_self
        unfold Apart at h1
        simp only [ne_eq, decide_not, Bool.not_eq_eq_eq_not, Bool.not_true, decide_eq_false_iff_not]
        omega
      · rw [List.eraseP_cons_of_neg (by simpa using e), List.filter_cons_of_pos (by simpa using e),
          ih hl.2 (fun b hb => hp b (List.mem_cons_of_mem _ hb))]
  unfold deallocate
  by_cases c : s.allocs.any (fun a => a.addr == p) = true
  · rw [if_pos c]
    refine ⟨key _ h.sound.disjoint h.pos, ?_⟩
    simpa using c
  · rw [if_neg c]
    have hno : ∀ a ∈ s.allocs, a.addr ≠ p := by
      intro a ha e
      exact c (List.any_eq_true.mpr ⟨a, ha, by simpa using e⟩)
    have hfil : s.allocs.filter (fun a => a.addr ≠ p) = s.allocs := by
      rw [List.filter_eq_self]
      intro a ha; simpa using hno a ha
    split
    · exact ⟨hfil.symm, by simpa using hno⟩
    · exact ⟨hfil.symm, by simpa using hno⟩

example : ∀ o ∈ ([.alloc 100 .mission 0, .alloc 4096 .low 7, .dealloc 0x10000000, .alloc 8 .mission 0] : List Op),
    NonZero o := by
  intro o ho
  simp only [List.mem_cons, List.not_mem_nil, or_false] at ho
  rcases ho with rfl | rfl | rfl | rfl <;> (unfold NonZero; decide)

example : (run new [.alloc 100 .mission 0, .alloc 4096 .low 7, .alloc 8 .mission 0]).allocs.length = 3 := by decide

/-! ### C60 -/

/-- **C60 (first fit in the ideal zone).** In every reachable state, if the zone of the level wanted for the criticality
is still in the zone table and has a free range of the requested size, the request is served from that zone, at the
lowest address that fits, and is recorded with that level. -/
theorem C60_ideal_zone_partial (zs : List Zone) (hg : GoodZones zs) (ops : List Op) (ho : ∀ o ∈ ops, NonZero o)
    (size : Nat) (hs : 0 < size) (c : Crit) (m : Nat) (z : Zone) (hz : z ∈ (run { zones := zs } ops).zones)
    (hl : z.level = targetLevel c) (hfit : ∃ b, Fits (run { zones := zs } ops) z size b) :
    let r := allocate (run { zones := zs } ops) size c m
    Fits (run { zones := zs } ops) z size r.1 ∧ (∀ b, Fits (run { zones := zs } ops) z size b → r.1 ≤ b) ∧
    r.2.allocs = (run { zones := zs } ops).allocs ++ [⟨r.1, size, targetLevel c⟩] := by
  have h := inv_run hg ops ho (inv_start hg)
  generalize run { zones := zs } ops = s at *
  have hi : (zoneAt s.zones (selectZone s.zones c)) = z := by
    unfold selectZone
    cases e : findLevel s.zones (targetLevel c) with
    | none =>
      unfold findLevel at e
      rw [List.findIdx?_eq_none_iff] at e
      have := e z hz
      simp [hl] at this
    | some i =>
      have hlt := findLevel_lt e
      unfold findLevel at e
      rw [List.findIdx?_eq_some_iff_getElem] at e
      have hlev := e.2.1
      change zoneAt s.zones i = z
      apply level_unique hg (h.sub _ (zoneAt_mem hlt)) (h.sub _ hz)
      unfold zoneAt
      rw [List.getElem?_eq_getElem hlt, hl]
      simpa using hlev
  have S := findSpace_spec hg h (h.sub _ hz) hs
  have hne : findSpace s z size ≠ 0 := by
    intro e
    obtain ⟨b, hb⟩ := hfit
    exact S.2 e b hb
  unfold allocate
  simp only [hi]
  rw [if_neg hne]
  refine ⟨(S.1 hne).1, (S.1 hne).2, ?_⟩
  unfold record
  rw [hl]

/-- **C60 (system memory only as a last resort).** In every reachable state, a request that goes to the system allocator
could not have been served from the zone selected for it, nor from the fallback zone. -/
theorem C60_last_resort (zs : List Zone) (hg : GoodZones zs) (ops : List Op) (ho : ∀ o ∈ ops, NonZero o)
    (size : Nat) (hs : 0 < size) (c : Crit) (m : Nat)
    (hsys : (allocate (run { zones := zs } ops) size c m).2.allocs = (run { zones := zs } ops).allocs) :
    let s := run { zones := zs } ops
    (∀ b, ¬ Fits s (zoneAt s.zones (selectZone s.zones c)) size b) ∧
    (∀ b, ¬ Fits s (zoneAt s.zones (fallbackZone s.zones c)) size b) ∧
    (allocate s size c m).1 = m := by
  have h := inv_run hg ops ho (inv_start hg)
  generalize run { zones := zs } ops = s at *
  have hz := h.sub _ (zoneAt_mem (selectZone_lt h.len c))
  have hf := zoneAt_mem (fallbackZone_lt h.len c)
  have h' := inv_setZone h (selectZone s.zones c) hf
  have S := findSpace_spec hg h hz hs
  have S' := findSpace_spec hg h' (h.sub _ hf) hs
  have no : ∀ (t : State) a l, (record t a size l c).allocs ≠ t.allocs := by
    intro t a l e
    have := congrArg List.length e
    simp [record] at this
  unfold allocate at hsys ⊢
  simp only at hsys ⊢
  split at hsys
  · next e =>
    rw [if_pos e]
    split at hsys
    · next e' =>
      rw [if_pos e']
      exact ⟨S.2 e, S'.2 e', rfl⟩
    · exact absurd hsys (no _ _ _)
  · exact absurd hsys (no _ _ _)

/-- **C60 (ideal zone lost, violated).** Default zones: after the highly shielded zone has been full once, mission
critical data is placed in the moderately shielded zone for ever, even when the highly shielded zone is completely
free again. -/
theorem C60_ideal_zone_lost_violated :
    let s := run new [.alloc 1048576 .mission 0, .alloc 1 .mission 0, .dealloc 0x10000000]
    (∀ a ∈ s.allocs, a.level ≠ .high) ∧
    (allocate s 1 .mission 0).2.allocs.getLast? = some ⟨0x20000001, 1, .moderate⟩ := by decide

/-- **C60 (fallback direction, violated).** The fallback for low-importance data is the first zone of the table: with
the default zones, low-importance data spills into the highly shielded zone reserved for mission critical data. -/
theorem C60_fallback_direction_violated :
    (run new [.alloc 16777216 .low 0, .alloc 1 .low 0]).allocs.getLast? = some ⟨0x10000000, 1, .high⟩ := by decide

example : Fits new ⟨.high, 0x10000000, 0x10000000 + 1048576⟩ 100 0x10000000 := by
  refine ⟨by decide, by decide, by simp [new]⟩

/-! ### C61 -/

theorem sum_filter_crit (l : List MemRec) :
    (l.map (·.size)).sum = ((l.filter fun r => r.crit == .mission).map (·.size)).sum +
      ((l.filter fun r => r.crit == .important).map (·.size)).sum + ((l.filter fun r => r.crit == .moderate).map (·.size)).sum +
      ((l.filter fun r => r.crit == .low).map (·.size)).sum := by
  induction l with
  | nil => rfl
  | cons r l ih =>
    simp only [List.map_cons, List.sum_cons, ih]
    cases e : r.crit <;> simp [e] <;> omega

theorem sum_filter_level (l : List Alloc) :
    (l.map (·.size)).sum = ((l.filter fun r => r.level == .high).map (·.size)).sum +
      ((l.filter fun r => r.level == .moderate).map (·.size)).sum + ((l.filter fun r => r.level == .light).map (·.size)).sum +
      ((l.filter fun r => r.level == .unshielded).map (·.size)).sum := by
  induction l with
  | nil => rfl
  | cons r l ih =>
    simp only [List.map_cons, List.sum_cons, ih]
    cases e : r.level <;> simp [e] <;> omega

/-- **C61 (usage reports agree).** In every reachable state the per-criticality usage adds up to the bytes of the live
managed blocks plus the system blocks, and the per-zone usage adds up to the bytes of the live managed blocks. -/
theorem C61_usage (zs : List Zone) (hg : GoodZones zs) (ops : List Op) (ho : ∀ o ∈ ops, NonZero o) :
    let s := run { zones := zs } ops
    usage s .mission + usage s .important + usage s .moderate + usage s .low =
      (s.allocs.map (·.size)).sum + (s.sys.map (·.size)).sum ∧
    zoneBytes s .high + zoneBytes s .moderate + zoneBytes s .light + zoneBytes s .unshielded = (s.allocs.map (·.size)).sum := by
  have h := inv_run hg ops ho (inv_start hg)
  generalize run { zones := zs } ops = s at h
  intro s'
  refine ⟨?_, (sum_filter_level s.allocs).symm⟩
  have e := sum_filter_crit (s.managed ++ s.sys)
  have : s.managed.map (·.size) = s.allocs.map (·.size) := by
    have := congrArg (List.map fun x : Nat × Nat × Placement => x.2.1) h.sync
    rw [List.map_map, List.map_map] at this
    exact this
  rw [List.map_append, List.sum_append, this] at e
  exact e.symm

/-- **C61 (a request is charged to its criticality).** A successful request of `size` bytes adds `size` to the usage of
its criticality and nothing to any other, wherever it was placed. -/
theorem C61_charge (s : State) (size : Nat) (c d : Crit) (m : Nat) :
    usage (allocate s size c m).2 d = usage s d + if d = c then size else 0 := by
  have app : ∀ (a b : List MemRec) (r : MemRec), r.size = size → r.crit = c →
      (((a ++ [r] ++ b).filter fun r => r.crit == d).map (·.size)).sum =
        (((a ++ b).filter fun r => r.crit == d).map (·.size)).sum + if d = c then size else 0 := by
    intro a b r h1 h2
    simp only [List.filter_append, List.map_append, List.sum_append]
    by_cases e : d = c
    · subst e; simp [h1, h2]; omega
    · have : (r.crit == d) = false := by rw [h2]; simpa using fun x => e x.symm
      simp [this, e]
  unfold allocate
  simp only
  split
  · split
    · unfold usage
      rw [← List.append_assoc]
      have := app (s.managed ++ s.sys) [] ⟨m, size, c, .system⟩ rfl rfl
      simpa using this
    · unfold usage record; exact app s.managed s.sys _ rfl rfl
  · unfold usage record; exact app s.managed s.sys _ rfl rfl

theorem risk_le (l : List MemRec) (f : MemRec → Nat) (hf : ∀ r, f r ≤ 10 ∧ 1 ≤ f r) :
    (l.map fun r => r.size * weight r.crit * f r).sum ≤ 100 * (l.map (·.size)).sum ∧
    (l.map (·.size)).sum ≤ (l.map fun r => r.size * weight r.crit * f r).sum := by
  induction l with
  | nil => simp
  | cons r l ih =>
    simp only [List.map_cons, List.sum_cons]
    have hw : weight r.crit ≤ 10 ∧ 1 ≤ weight r.crit := by cases r.crit <;> decide
    have h1 : r.size * weight r.crit * f r ≤ r.size * 10 * 10 :=
      Nat.mul_le_mul (Nat.mul_le_mul_left _ hw.1) (hf r).1
    have h2 : r.size * 1 * 1 ≤ r.size * weight r.crit * f r :=
      Nat.mul_le_mul (Nat.mul_le_mul_left _ hw.2) (hf r).2
    omega

/-- **C61 (score range).** For every allocator state the vulnerability score lies between 0 and 1; with at least one
non-empty block it is at least 1/100. -/
theorem C61_score_range (s : State) :
    (vulnerability s).1 ≤ (vulnerability s).2 ∧ 0 < (vulnerability s).2 ∧
    (0 < totalBytes s → (vulnerability s).2 ≤ 100 * (vulnerability s).1) := by
  have h1 := risk_le s.managed (fun r => factor10 r.placement) (by intro r; cases r.placement <;> decide)
  have h2 := risk_le s.sys (fun _ => factor10 .system) (by intro r; decide)
  have ht : totalBytes s = (s.managed.map (·.size)).sum + (s.sys.map (·.size)).sum := by
    unfold totalBytes; rw [List.map_append, List.sum_append]
  unfold vulnerability
  by_cases e : (s.managed ++ s.sys).isEmpty = true
  · rw [if_pos e]
    refine ⟨by decide, by decide, fun hp => ?_⟩
    rw [List.isEmpty_iff] at e
    unfold totalBytes at hp
    rw [e] at hp; simp at hp
  · rw [if_neg e]
    by_cases hp : totalBytes s > 0
    · rw [if_pos hp]
      unfold risk10
      refine ⟨?_, ?_, fun _ => ?_⟩ <;> (simp only; omega)
    · rw [if_neg hp]
      exact ⟨by decide, by decide, fun h => absurd h hp⟩

example : vulnerability (run new [.alloc 100 .mission 0, .alloc 300 .low 0]) = (3400, 40000) := by decide

end Verif.Props.Mapped
