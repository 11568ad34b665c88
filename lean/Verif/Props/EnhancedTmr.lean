import Verif.Model.EnhancedTmr
import Verif.Lemmas.Crc
import Verif.Lemmas.Classify
/-!
Properties C10–C12, C47 and the EnhancedTMR part of C03.
-/
namespace Verif.Props
open Verif Verif.Spec Verif.Crc

variable {α : Type _}

/-- All replicas except possibly number `k` hold `v` with the checksum of `v`. -/
def Intact (crc : α → BitVec 32) (k : Fin 3) (v : α) (s : ETmr.State α) : Prop :=
  ∀ i, i ≠ k → s.vals i = v ∧ s.crcs i = crc v

theorem etmr_get_frame (eq : α → α → Bool) (crc : α → BitVec 32) (s : ETmr.State α) :
    (ETmr.get eq crc s).2.vals = s.vals ∧ (ETmr.get eq crc s).2.crcs = s.crcs := by
  unfold ETmr.get
  simp only
  repeat' split
  all_goals exact ⟨rfl, rfl⟩

theorem validCount_intact {crc : α → BitVec 32} {k : Fin 3} {v : α} {s : ETmr.State α}
    (h : Intact crc k v s) :
    ETmr.validCount crc s = if ETmr.verifyChecksum crc s k then 3 else 2 := by
  have ok : ∀ i, i ≠ k → ETmr.verifyChecksum crc s i = true := by
    intro i hi
    obtain ⟨h1, h2⟩ := h i hi
    simp [ETmr.verifyChecksum, h1, h2]
  unfold ETmr.validCount
  match k, ok with
  | 0, ok => rw [ok 1 (by decide), ok 2 (by decide)]; cases ETmr.verifyChecksum crc s 0 <;> rfl
  | 1, ok => rw [ok 0 (by decide), ok 2 (by decide)]; cases ETmr.verifyChecksum crc s 1 <;> rfl
  | 2, ok => rw [ok 0 (by decide), ok 1 (by decide)]; cases ETmr.verifyChecksum crc s 2 <;> rfl

theorem etmr_get_intact (eq : α → α → Bool) (crc : α → BitVec 32) (k : Fin 3) (v : α)
    (hv : eq v v = true) (s : ETmr.State α) (h : Intact crc k v s) :
    SameValue eq (ETmr.get eq crc s).1 v := by
  have hc := validCount_intact h
  have ok : ∀ i, i ≠ k → ETmr.verifyChecksum crc s i = true := by
    intro i hi
    obtain ⟨h1, h2⟩ := h i hi
    simp [ETmr.verifyChecksum, h1, h2]
  unfold ETmr.get
  simp only [hc]
  cases hk : ETmr.verifyChecksum crc s k with
  | true =>
    simp only [if_true]
    unfold ETmr.performMajorityVoting SameValue
    match k, h, ok, hk with
    | 0, h, ok, hk =>
      rw [(h 1 (by decide)).1, (h 2 (by decide)).1, hv]
      simp only [if_true]
      split
      · right; assumption
      · left; rfl
    | 1, h, ok, hk =>
      rw [(h 0 (by decide)).1, (h 2 (by decide)).1, hv]
      simp only [if_true]
      split <;> (left; rfl)
    | 2, h, ok, hk =>
      rw [(h 0 (by decide)).1, (h 1 (by decide)).1, hv]
      simp
  | false =>
    left
    match k, h, ok, hk with
    | 0, h, ok, hk => simp [hk, ok 1 (by decide), ok 2 (by decide), (h 1 (by decide)).1, (h 2 (by decide)).1, hv]
    | 1, h, ok, hk => simp [hk, ok 0 (by decide), ok 2 (by decide), (h 0 (by decide)).1, (h 2 (by decide)).1, hv]
    | 2, h, ok, hk => simp [ok 0 (by decide), ok 1 (by decide), (h 0 (by decide)).1, (h 1 (by decide)).1, hv]

/-- Events that can damage only replica `k` (its value and its checksum, arbitrarily) and otherwise only
read: the quantifier of C10. -/
def OnlyReplica (k : Fin 3) : ETmr.Op α → Prop
  | .get => True
  | .set _ => False
  | .repair => False
  | .resetStats => True
  | .upset i _ _ => i = k

instance (k : Fin 3) (op : ETmr.Op α) : Decidable (OnlyReplica k op) := by
  cases op <;> unfold OnlyReplica <;> infer_instance

theorem intact_run (eq : α → α → Bool) (crc : α → BitVec 32) (k : Fin 3) (v : α)
    (ops : List (ETmr.Op α)) (h : ∀ op ∈ ops, OnlyReplica k op) (s : ETmr.State α)
    (hs : Intact crc k v s) : Intact crc k v (ETmr.run eq crc s ops) := by
  induction ops generalizing s with
  | nil => exact hs
  | cons op ops ih =>
    apply ih (fun o ho => h o (List.mem_cons_of_mem _ ho))
    have hop := h op List.mem_cons_self
    cases op with
    | get =>
      obtain ⟨h1, h2⟩ := etmr_get_frame eq crc s
      intro i hi
      simp only [ETmr.step, h1, h2]; exact hs i hi
    | set x => exact absurd hop (by simp [OnlyReplica])
    | repair => exact absurd hop (by simp [OnlyReplica])
    | resetStats => exact hs
    | upset j x c =>
      have hj : j = k := hop
      subst hj
      intro i hi
      simp only [ETmr.step, ETmr.corrupt, hi, if_false]
      exact hs i hi

theorem intact_set (crc : α → BitVec 32) (k : Fin 3) (v : α) (s : ETmr.State α) :
    Intact crc k v (ETmr.set crc v s) := fun _ _ => ⟨rfl, rfl⟩

/-- **C10.** After `set(v)` in any state, every history of reads, statistics resets and arbitrary
overwrites of one replica — value and stored checksum, including consistently forged ones — leaves
`get()` returning `v`.  Holds for every equality with `v == v` and every checksum function. -/
theorem C10_one_replica_masked (eq : α → α → Bool) (crc : α → BitVec 32) (v : α) (hv : eq v v = true)
    (k : Fin 3) (s : ETmr.State α) (ops : List (ETmr.Op α)) (h : ∀ op ∈ ops, OnlyReplica k op) :
    SameValue eq (ETmr.get eq crc (ETmr.run eq crc (ETmr.set crc v s) ops)).1 v :=
  etmr_get_intact eq crc k v hv _ (intact_run eq crc k v ops h _ (intact_set crc k v s))

/-- **C10 (repair).** In the same situation, for types whose equality is identity, `repair()` succeeds,
leaves every replica equal to `v` with a valid checksum, and `verify()` holds afterwards. -/
theorem C10_repair_restores [DecidableEq α] (crc : α → BitVec 32) (v : α) (k : Fin 3)
    (s : ETmr.State α) (ops : List (ETmr.Op α)) (h : ∀ op ∈ ops, OnlyReplica k op) :
    let eq := fun a b : α => decide (a = b)
    let r := ETmr.repair eq crc (ETmr.run eq crc (ETmr.set crc v s) ops)
    r.1 = true ∧ (∀ i, r.2.vals i = v ∧ r.2.crcs i = crc v) ∧ ETmr.verify eq crc r.2 = true := by
  intro eq r
  have hg : (ETmr.get eq crc (ETmr.run eq crc (ETmr.set crc v s) ops)).1 = v := by
    rcases C10_one_replica_masked eq crc v (by simp [eq]) k s ops h with h | h
    · exact h
    · simpa [eq] using h
  have hv : ∀ i, r.2.vals i = v ∧ r.2.crcs i = crc v := by
    intro i
    simp only [r, ETmr.repair, ETmr.recalculateChecksums, hg, and_self]
  refine ⟨rfl, hv, ?_⟩
  unfold ETmr.verify ETmr.verifyChecksum
  simp [hv, eq]

/-- **C10 (verify).** In every state, `verify()` holds exactly when the three replicas are equal and each matches its
stored checksum (types whose equality is identity). -/
theorem C10_verify_iff [DecidableEq α] (crc : α → BitVec 32) (s : ETmr.State α) :
    ETmr.verify (fun a b : α => decide (a = b)) crc s = true ↔
      ∃ v, ∀ i, s.vals i = v ∧ s.crcs i = crc v := by
  unfold ETmr.verify ETmr.verifyChecksum
  constructor
  · intro h
    split at h
    · next hc =>
      simp only [Bool.and_eq_true, beq_iff_eq, decide_eq_true_eq] at h hc
      refine ⟨s.vals 0, fun i => ?_⟩
      match i with
      | 0 => exact ⟨rfl, hc.1.1.symm⟩
      | 1 => exact ⟨h.1.symm, by rw [h.1]; exact hc.1.2.symm⟩
      | 2 => exact ⟨(h.1.trans h.2).symm, by rw [h.1, h.2]; exact hc.2.symm⟩
    · cases h
  · rintro ⟨v, hv⟩
    simp [hv]

example : ETmr.verify (fun a b : Nat => decide (a = b)) (fun _ => 7#32)
    ⟨fun i => if i = 2 then 5 else 4, fun _ => 7#32, {}⟩ = false := by decide

/-- One exposure interval: any number of hits on one replica, then a repair. -/
def interval [DecidableEq α] (crc : α → BitVec 32) (s : ETmr.State α)
    (w : List (ETmr.Op α)) : ETmr.State α :=
  (ETmr.repair (fun a b => decide (a = b)) crc (ETmr.run (fun a b => decide (a = b)) crc s w)).2

/-- **C10 (scrubbing).** With a repair between damage to different replicas the value survives any
number of such intervals, whichever replica each of them hits. -/
theorem C10_scrubbing_forever [DecidableEq α] (crc : α → BitVec 32) (v : α) (s : ETmr.State α)
    (ws : List (List (ETmr.Op α))) (h : ∀ w ∈ ws, ∃ k, ∀ op ∈ w, OnlyReplica k op) :
    ∀ i, ((ws.foldl (interval crc) (ETmr.set crc v s)).vals i = v ∧
      (ws.foldl (interval crc) (ETmr.set crc v s)).crcs i = crc v) := by
  have gen : ∀ t : ETmr.State α, (∀ i, t.vals i = v ∧ t.crcs i = crc v) →
      ∀ i, (ws.foldl (interval crc) t).vals i = v ∧ (ws.foldl (interval crc) t).crcs i = crc v := by
    induction ws with
    | nil => intro t ht; exact ht
    | cons w ws ih =>
      intro t ht
      rw [List.foldl_cons]
      apply ih (fun w' hw' => h w' (List.mem_cons_of_mem _ hw'))
      obtain ⟨k, hk⟩ := h w List.mem_cons_self
      have h2 := C10_repair_restores crc v k t w hk
      have e : ETmr.set crc v t = t := by
        obtain ⟨tv, tc, ts⟩ := t
        simp only [ETmr.set, ETmr.recalculateChecksums, ETmr.State.mk.injEq, and_true]
        exact ⟨funext fun i => (ht i).1.symm, funext fun i => (ht i).2.symm⟩
      rw [e] at h2
      exact h2.2.1
  exact gen _ (fun i => ⟨rfl, rfl⟩)

/-- Non-vacuity of C10: a forged replica (valid checksum for the wrong value) and further noise. -/
example : (ETmr.get (fun a b => decide (a = b)) (crcOfValue 4)
    (ETmr.run (fun a b => decide (a = b)) (crcOfValue 4)
      (ETmr.set (crcOfValue 4) 7#32 (ETmr.new (crcOfValue 4) 0#32))
      [.upset 1 5#32 (crcOfValue 4 5#32), .get, .upset 1 6#32 (crcOfValue 4 6#32)])).1 = 7#32 := by
  decide +kernel
example : ∀ op ∈ [ETmr.Op.upset 1 5#32 1#32, .get, .upset 1 6#32 9#32], OnlyReplica 1 op := by decide

/-- The general form of C11: the stored checksums are intact, at least one value is intact and every
other value is either intact or changed its checksum. -/
theorem etmr_get_one_intact (eq : α → α → Bool) (crc : α → BitVec 32) (v : α) (s : ETmr.State α)
    (hc : ∀ i, s.crcs i = crc v) (hx : ∀ i, s.vals i = v ∨ crc (s.vals i) ≠ crc v)
    (h1 : ∃ i, s.vals i = v) : (ETmr.get eq crc s).1 = v := by
  have key : ∀ i, (ETmr.verifyChecksum crc s i = true ∧ s.vals i = v) ∨
      ETmr.verifyChecksum crc s i = false := by
    intro i
    rcases hx i with h | h
    · left; simp [ETmr.verifyChecksum, h, hc]
    · right; simp [ETmr.verifyChecksum, h, hc]
  have one : ∃ i, ETmr.verifyChecksum crc s i = true := by
    obtain ⟨i, hi⟩ := h1
    exact ⟨i, by simp [ETmr.verifyChecksum, hi, hc]⟩
  unfold ETmr.get
  simp only [ETmr.validCount, ETmr.firstValid, ETmr.performMajorityVoting]
  have k0 := key 0; have k1 := key 1; have k2 := key 2
  obtain ⟨i, hi⟩ := one
  have hi' : ETmr.verifyChecksum crc s 0 = true ∨ ETmr.verifyChecksum crc s 1 = true ∨
      ETmr.verifyChecksum crc s 2 = true := by
    match i, hi with
    | 0, hi => exact Or.inl hi
    | 1, hi => exact Or.inr (Or.inl hi)
    | 2, hi => exact Or.inr (Or.inr hi)
  rcases k0 with ⟨a0, b0⟩ | a0 <;> rcases k1 with ⟨a1, b1⟩ | a1 <;> rcases k2 with ⟨a2, b2⟩ | a2 <;>
    simp [a0, a1, a2] at hi' ⊢ <;> (try simp [*]) <;> (repeat' split) <;> rfl

/-- **C11.** For integer and floating types of at most four bytes: after `set(v)`, the stored values of
the replicas may be replaced by *anything* as long as one of them is untouched; `get()` returns exactly `v`
(also for NaN, since `eq` is arbitrary). -/
theorem C11_two_values_corrupted_small (n : Nat) (hn : n ≤ 4) (eq : BitVec (8 * n) → BitVec (8 * n) → Bool)
    (v : BitVec (8 * n)) (s : ETmr.State (BitVec (8 * n))) (x y : BitVec (8 * n)) (j k : Fin 3) :
    (ETmr.get eq (crcOfValue n)
      (ETmr.corruptValue j x (ETmr.corruptValue k y (ETmr.set (crcOfValue n) v s)))).1 = v := by
  apply etmr_get_one_intact
  · intro i; rfl
  · intro i
    by_cases h : (ETmr.corruptValue j x (ETmr.corruptValue k y (ETmr.set (crcOfValue n) v s))).vals i = v
    · exact Or.inl h
    · exact Or.inr fun hc => h (crcOfValue_inj hn hc)
  · have : ∃ i : Fin 3, i ≠ j ∧ i ≠ k := by revert j k; decide
    obtain ⟨i, h1, h2⟩ := this
    exact ⟨i, by simp [ETmr.corruptValue, ETmr.set, ETmr.recalculateChecksums, h1, h2]⟩

/-- **C11 (wide types).** For values of any size: two replicas may each be hit by an error burst confined
to 32 consecutive bits of the object representation (or left alone). -/
theorem C11_two_values_burst (n : Nat) (eq : BitVec (8 * n) → BitVec (8 * n) → Bool)
    (v : BitVec (8 * n)) (s : ETmr.State (BitVec (8 * n))) (x y : BitVec (8 * n)) (j k : Fin 3)
    (hx : x = v ∨ BurstDiffer 32 (bytesOf n x) (bytesOf n v))
    (hy : y = v ∨ BurstDiffer 32 (bytesOf n y) (bytesOf n v)) :
    (ETmr.get eq (crcOfValue n)
      (ETmr.corruptValue j x (ETmr.corruptValue k y (ETmr.set (crcOfValue n) v s)))).1 = v := by
  apply etmr_get_one_intact
  · intro i; rfl
  · intro i
    simp only [ETmr.corruptValue, ETmr.set, ETmr.recalculateChecksums]
    by_cases h1 : i = j
    · simp only [h1, if_true]
      rcases hx with h | h
      · exact Or.inl h
      · exact Or.inr (crc32_burst h)
    · simp only [h1, if_false]
      by_cases h2 : i = k
      · simp only [h2, if_true]
        rcases hy with h | h
        · exact Or.inl h
        · exact Or.inr (crc32_burst h)
      · simp [h2]
  · have : ∃ i : Fin 3, i ≠ j ∧ i ≠ k := by revert j k; decide
    obtain ⟨i, h1, h2⟩ := this
    exact ⟨i, by simp [ETmr.corruptValue, ETmr.set, ETmr.recalculateChecksums, h1, h2]⟩

/-- Non-vacuity of C11: two replicas replaced by the same wrong value — a plain majority vote would
return the wrong value. -/
example : (ETmr.get (fun a b => decide (a = b)) (crcOfValue 4)
    (ETmr.corruptValue 0 9#32 (ETmr.corruptValue 2 9#32 (ETmr.new (crcOfValue 4) 7#32)))).1 = 7#32 := by
  decide +kernel
example : BurstDiffer 32 (bytesOf 8 0x0000FF0000000000#64) (bytesOf 8 0x0#64) :=
  burst_of_bytes (p := [0#8, 0#8, 0#8, 0#8, 0#8]) (w₁ := [0xFF#8]) (w₂ := [0#8]) (s := [0#8, 0#8])
    rfl (by decide) (by decide)

/-! ### C12: statistics -/

/-- Every replica's checksum matches its value. -/
def AllValid (crc : α → BitVec 32) (s : ETmr.State α) : Prop := ∀ i, crc (s.vals i) = s.crcs i

theorem validCount_three (crc : α → BitVec 32) (s : ETmr.State α) :
    ETmr.validCount crc s = 3 ↔ AllValid crc s := by
  unfold ETmr.validCount AllValid
  have e : (∀ i, crc (s.vals i) = s.crcs i) ↔
      (ETmr.verifyChecksum crc s 0 = true ∧ ETmr.verifyChecksum crc s 1 = true ∧
       ETmr.verifyChecksum crc s 2 = true) := by
    simp only [ETmr.verifyChecksum, beq_iff_eq]
    constructor
    · intro h; exact ⟨h 0, h 1, h 2⟩
    · rintro ⟨h0, h1, h2⟩ i
      match i with
      | 0 => exact h0
      | 1 => exact h1
      | 2 => exact h2
  rw [e]
  cases ETmr.verifyChecksum crc s 0 <;> cases ETmr.verifyChecksum crc s 1 <;>
    cases ETmr.verifyChecksum crc s 2 <;> decide

/-- **C12 (one read).** A `get()` leaves the replicas alone and either touches no counter — exactly when
all three checksums are valid at that moment — or adds one to `detected` and exactly one of
`corrected`/`uncorrectable`. -/
theorem C12_get_accounts (eq : α → α → Bool) (crc : α → BitVec 32) (s : ETmr.State α) :
    let t := (ETmr.get eq crc s).2
    t.vals = s.vals ∧ t.crcs = s.crcs ∧
    (AllValid crc s → t.stats = s.stats) ∧
    (¬ AllValid crc s → t.stats.detected = s.stats.detected + 1 ∧
      ((t.stats.corrected = s.stats.corrected + 1 ∧ t.stats.uncorrectable = s.stats.uncorrectable) ∨
       (t.stats.corrected = s.stats.corrected ∧ t.stats.uncorrectable = s.stats.uncorrectable + 1))) := by
  intro t
  obtain ⟨h1, h2⟩ := etmr_get_frame eq crc s
  refine ⟨h1, h2, ?_, ?_⟩
  · intro h
    have := (validCount_three crc s).mpr h
    simp only [t, ETmr.get, this, if_true]
  · intro h
    have hn : ETmr.validCount crc s ≠ 3 := fun h' => h ((validCount_three crc s).mp h')
    simp only [t, ETmr.get, hn, if_false]
    repeat' split
    all_goals simp [ETmr.incrementErrorStats]

/-- **C12 (which counter).** With not all checksums valid, a read counts as *corrected* exactly when one
checksum is valid, or two are and the corresponding values are equal; otherwise it is uncorrectable. -/
theorem C12_corrected_iff (eq : α → α → Bool) (crc : α → BitVec 32) (s : ETmr.State α)
    (h : ¬ AllValid crc s) :
    (ETmr.get eq crc s).2.stats.corrected = s.stats.corrected + 1 ↔
      ((∃ i, crc (s.vals i) = s.crcs i ∧ ∀ j, j ≠ i → crc (s.vals j) ≠ s.crcs j) ∨
       (∃ i j, i < j ∧ crc (s.vals i) = s.crcs i ∧ crc (s.vals j) = s.crcs j ∧
          eq (s.vals i) (s.vals j) = true)) := by
  have hn : ETmr.validCount crc s ≠ 3 := fun h' => h ((validCount_three crc s).mp h')
  have e : ∀ i, (crc (s.vals i) = s.crcs i) ↔ ETmr.verifyChecksum crc s i = true := by
    intro i; simp [ETmr.verifyChecksum]
  simp only [e, ne_eq]
  have q1 : (∃ i, ETmr.verifyChecksum crc s i = true ∧ ∀ j, ¬ j = i → ¬ ETmr.verifyChecksum crc s j = true) ↔
      ETmr.validCount crc s = 1 := by
    unfold ETmr.validCount
    constructor
    · rintro ⟨i, h1, h2⟩
      match i, h1, h2 with
      | 0, h1, h2 => simp [h1, h2 1 (by decide), h2 2 (by decide)]
      | 1, h1, h2 => simp [h1, h2 0 (by decide), h2 2 (by decide)]
      | 2, h1, h2 => simp [h1, h2 0 (by decide), h2 1 (by decide)]
    · intro h
      have fin3 : ∀ P : Fin 3 → Prop, P 0 → P 1 → P 2 → ∀ j, P j := by
        intro P h0 h1 h2 j
        match j with
        | 0 => exact h0
        | 1 => exact h1
        | 2 => exact h2
      cases h0 : ETmr.verifyChecksum crc s 0 <;> cases h1 : ETmr.verifyChecksum crc s 1 <;>
        cases h2 : ETmr.verifyChecksum crc s 2 <;> simp [h0, h1, h2] at h
      · exact ⟨2, h2, fin3 _ (by simp [h0]) (by simp [h1]) (by simp)⟩
      · exact ⟨1, h1, fin3 _ (by simp [h0]) (by simp) (by simp [h2])⟩
      · exact ⟨0, h0, fin3 _ (by simp) (by simp [h1]) (by simp [h2])⟩
  have q2 : (∃ i j, i < j ∧ ETmr.verifyChecksum crc s i = true ∧ ETmr.verifyChecksum crc s j = true ∧
      eq (s.vals i) (s.vals j) = true) ↔
      ((ETmr.verifyChecksum crc s 0 = true ∧ ETmr.verifyChecksum crc s 1 = true ∧ eq (s.vals 0) (s.vals 1) = true) ∨
       (ETmr.verifyChecksum crc s 0 = true ∧ ETmr.verifyChecksum crc s 2 = true ∧ eq (s.vals 0) (s.vals 2) = true) ∨
       (ETmr.verifyChecksum crc s 1 = true ∧ ETmr.verifyChecksum crc s 2 = true ∧ eq (s.vals 1) (s.vals 2) = true)) := by
    constructor
    · rintro ⟨i, j, hij, h⟩
      match i, j, hij, h with
      | 0, 1, _, h => exact Or.inl h
      | 0, 2, _, h => exact Or.inr (Or.inl h)
      | 1, 2, _, h => exact Or.inr (Or.inr h)
      | 0, 0, hij, _ => exact absurd hij (by decide)
      | 1, 1, hij, _ => exact absurd hij (by decide)
      | 2, 2, hij, _ => exact absurd hij (by decide)
      | 1, 0, hij, _ => exact absurd hij (by decide)
      | 2, 0, hij, _ => exact absurd hij (by decide)
      | 2, 1, hij, _ => exact absurd hij (by decide)
    · rintro (h | h | h)
      · exact ⟨0, 1, by decide, h⟩
      · exact ⟨0, 2, by decide, h⟩
      · exact ⟨1, 2, by decide, h⟩
  rw [q1, q2]
  simp only [ETmr.get, hn, if_false]
  unfold ETmr.validCount at hn ⊢
  cases h0 : ETmr.verifyChecksum crc s 0 <;> cases h1 : ETmr.verifyChecksum crc s 1 <;>
    cases h2 : ETmr.verifyChecksum crc s 2 <;> simp [h0, h1, h2, ETmr.incrementErrorStats] at hn ⊢
  · cases h : eq (s.vals 1) (s.vals 2) <;> simp
  · cases h : eq (s.vals 0) (s.vals 2) <;> simp
  · cases h : eq (s.vals 0) (s.vals 1) <;> simp

/-- **C12 (histories).** For every history of reads, writes, repairs, resets and arbitrary upsets,
`detected = corrected + uncorrectable`. -/
theorem C12_statistics_consistent (eq : α → α → Bool) (crc : α → BitVec 32) (v : α)
    (ops : List (ETmr.Op α)) :
    let st := (ETmr.run eq crc (ETmr.new crc v) ops).stats
    st.detected = st.corrected + st.uncorrectable := by
  have gen : ∀ s : ETmr.State α, s.stats.detected = s.stats.corrected + s.stats.uncorrectable →
      (ETmr.run eq crc s ops).stats.detected
        = (ETmr.run eq crc s ops).stats.corrected + (ETmr.run eq crc s ops).stats.uncorrectable := by
    have hget : ∀ s : ETmr.State α, s.stats.detected = s.stats.corrected + s.stats.uncorrectable →
        (ETmr.get eq crc s).2.stats.detected
          = (ETmr.get eq crc s).2.stats.corrected + (ETmr.get eq crc s).2.stats.uncorrectable := by
      intro s hs
      obtain ⟨_, _, h3, h4⟩ := C12_get_accounts eq crc s
      by_cases hv : AllValid crc s
      · rw [h3 hv]; exact hs
      · obtain ⟨h5, h6 | h6⟩ := h4 hv <;> omega
    induction ops with
    | nil => intro s hs; exact hs
    | cons op ops ih =>
      intro s hs
      apply ih
      cases op with
      | get => exact hget s hs
      | set v => exact hs
      | repair => exact hget s hs
      | resetStats => rfl
      | upset k x c => exact hs
  exact gen _ rfl

/-- **C12 (copies).** Copy construction and assignment copy the replicas and their checksums and start
with fresh statistics. -/
theorem C12_copy (eq : α → α → Bool) (crc : α → BitVec 32) (s : ETmr.State α) :
    (ETmr.copyFrom s).vals = s.vals ∧ (ETmr.copyFrom s).crcs = s.crcs ∧
    (ETmr.copyFrom s).stats = ⟨0, 0, 0⟩ ∧
    (ETmr.get eq crc (ETmr.copyFrom s)).1 = (ETmr.get eq crc s).1 := by
  refine ⟨rfl, rfl, rfl, ?_⟩
  unfold ETmr.get ETmr.copyFrom ETmr.validCount ETmr.firstValid ETmr.performMajorityVoting
    ETmr.verifyChecksum
  simp only
  repeat' split
  all_goals rfl

/-- Non-vacuity of C12: two hits, three reads. -/
example : (ETmr.run (fun a b => decide (a = b)) (crcOfValue 4) (ETmr.new (crcOfValue 4) 7#32)
    [.get, .upset 1 5#32 0#32, .get, .upset 2 5#32 0#32, .upset 0 5#32 0#32, .get]).stats = ⟨2, 1, 1⟩ := by
  decide +kernel

/-! ### Voting helpers of `EnhancedTMR` -/

theorem getLsbD_reconstruct {w W : Nat} (hW : w ≤ W) (hW64 : W ≤ 64) (ga gb go : BitVec W)
    (a b o : BitVec w) (j : Nat) (hj : j < w) :
    (ETmr.reconstructFromClosestPair ga gb go a b o).getLsbD j
      = maj3 (a.getLsbD j) (b.getLsbD j) (o.getLsbD j) := by
  unfold ETmr.reconstructFromClosestPair
  simp only
  rw [BitVec.getLsbD_setWidth]
  have hmask : ∀ i, i < w → (1#64 <<< i).setWidth W = 1#W <<< i := by
    intro i hi
    apply BitVec.eq_of_getLsbD_eq
    intro k hk
    rw [getLsbD_one_shiftLeft (by omega), BitVec.getLsbD_setWidth, getLsbD_one_shiftLeft (by omega)]
    simp [hk]
  have hA : ∀ i, i < w → (Voting.loadInto ga a).getLsbD i = a.getLsbD i := by
    intro i hi; rw [getLsbD_loadInto hW]; simp only [hi, if_true]
  have hB : ∀ i, i < w → (Voting.loadInto gb b).getLsbD i = b.getLsbD i := by
    intro i hi; rw [getLsbD_loadInto hW]; simp only [hi, if_true]
  have hO : ∀ i, i < w → (Voting.loadInto go o).getLsbD i = o.getLsbD i := by
    intro i hi; rw [getLsbD_loadInto hW]; simp only [hi, if_true]
  generalize Voting.loadInto ga a = A at hA
  generalize Voting.loadInto gb b = B at hB
  generalize Voting.loadInto go o = O at hO
  -- invariant: after `n` iterations bits below `n` are the majority, the others are `a ∧ b`
  have inv := forN_inv
    (fun n (r : BitVec W) => ∀ k, k < w → r.getLsbD k =
      if k < n then maj3 (a.getLsbD k) (b.getLsbD k) (o.getLsbD k)
      else (a.getLsbD k && b.getLsbD k)) w (ETmr.reconstructBody A B O)
    (A &&& ~~~(A ^^^ B))
    (by
      intro k hk
      have hkW : k < W := by omega
      simp only [BitVec.getLsbD_and, BitVec.getLsbD_not, BitVec.getLsbD_xor, hA k hk, hB k hk, hkW,
        decide_true, Bool.true_and, Nat.not_lt_zero, if_false]
      cases a.getLsbD k <;> cases b.getLsbD k <;> rfl)
    (by
      intro i r hi hr k hk
      have hiW : i < W := by omega
      unfold ETmr.reconstructBody
      simp only [hmask i hi]
      have hz : ∀ x : BitVec W, (x &&& (1#W <<< i) = 0#W) ↔ x.getLsbD i = false := by
        intro x
        have := and_mask_eq_iff hiW x 0#W
        simp only [BitVec.zero_and, BitVec.getLsbD_zero] at this
        exact this
      have hand : ∀ (x : BitVec W), (x &&& (1#W <<< i)).getLsbD k = (x.getLsbD k && decide (k = i)) := by
        intro x; rw [BitVec.getLsbD_and, getLsbD_one_shiftLeft hiW]
      simp only [ne_eq, hz, and_mask_eq_iff hiW, BitVec.getLsbD_xor, hA i hi, hB i hi, hO i hi]
      have hrk := hr k hk
      by_cases hki : k = i
      · subst hki
        simp only [Nat.lt_irrefl, if_false] at hrk
        simp only [Nat.lt_succ_self, if_true]
        have hAk := hA k hk
        have hBk := hB k hk
        cases ha : a.getLsbD k <;> cases hb : b.getLsbD k <;> cases ho : o.getLsbD k <;>
          rw [ha] at hAk hrk <;> rw [hb] at hBk hrk <;>
          simp [BitVec.getLsbD_or, hrk, hand, hAk, hBk, maj3, -BitVec.getLsbD_eq_getElem, -BitVec.getElem_or]
      · have : (k < i + 1) = (k < i) := by simp; omega
        rw [if_congr (Iff.of_eq this) rfl rfl, ← hrk]
        repeat' split
        all_goals simp only [BitVec.getLsbD_or, hand, hki, decide_false, Bool.and_false, Bool.or_false])
  have hi := inv j hj
  simp only [hj, if_true] at hi
  simp only [hj, decide_true, Bool.true_and, hi]

theorem etmr_reconstruct_eq {w W : Nat} (hW : w ≤ W) (hW64 : W ≤ 64) (ga gb go : BitVec W)
    (a b o : BitVec w) :
    ETmr.reconstructFromClosestPair ga gb go a b o = Voting.bitLevelVote a b o := by
  apply bitMajority_unique
  intro i hi; exact getLsbD_reconstruct hW hW64 ga gb go a b o i hi

/-- **C03 (EnhancedTMR helpers).** For every type of at most eight bytes, every content of the
uninitialised upper bytes and every pattern, the word, burst and adaptive votes of `EnhancedTMR` are the
bitwise majority. -/
theorem C03_etmr_strategies_agree {w W : Nat} (h8 : 8 ∣ w) (hW : w ≤ W) (hW64 : W ≤ 64)
    (g : Voting.Garbage W) (a b c : BitVec w) (p : Voting.FaultPattern) :
    IsBitMajority a b c (ETmr.wordErrorVote g.ga g.gb g.gc g.ga' g.gb' g.gc' a b c) ∧
    IsBitMajority a b c (Voting.burstErrorVote g.ha g.hb g.hc a b c) ∧
    IsBitMajority a b c (ETmr.adaptiveVote (fun x y => decide (x = y)) g a b c p) := by
  have hw : ETmr.wordErrorVote g.ga g.gb g.gc g.ga' g.gb' g.gc' a b c = Voting.bitLevelVote a b c := by
    unfold ETmr.wordErrorVote
    simp only
    split
    · exact etmr_reconstruct_eq hW hW64 _ _ _ _ _ _
    · split
      · rw [etmr_reconstruct_eq hW hW64, bitLevelVote_swap23]
      · rw [etmr_reconstruct_eq hW hW64, bitLevelVote_rot]
  have hb := burstErrorVote_eq h8 hW hW64 g.ha g.hb g.hc a b c
  refine ⟨hw ▸ isBitMajority_bitLevelVote a b c, hb ▸ isBitMajority_bitLevelVote a b c, ?_⟩
  have ha : ETmr.adaptiveVote (fun x y => decide (x = y)) g a b c p = Voting.bitLevelVote a b c := by
    unfold ETmr.adaptiveVote
    split
    · rename_i h; have h : a = b := by simpa using h
      exact (bitLevelVote_twoAgree (Or.inl ⟨rfl, h.symm⟩)).symm
    · split
      · rename_i h; have h : a = c := by simpa using h
        exact (bitLevelVote_twoAgree (Or.inr (Or.inl ⟨rfl, h.symm⟩))).symm
      · split
        · rename_i h; have h : b = c := by simpa using h
          exact (bitLevelVote_twoAgree (Or.inr (Or.inr ⟨rfl, h.symm⟩))).symm
        · cases p <;> simp only [hw, hb]
          unfold ETmr.selectMostConfidentResult
          simp
  exact ha ▸ isBitMajority_bitLevelVote a b c

/-- Non-vacuity: three pairwise different copies. -/
example : ETmr.wordErrorVote 0#32 0#32 0#32 0#32 0#32 0#32 0b0011#32 0b0101#32 0b1001#32 = 0b0001#32 := by
  decide +kernel

/-! ### C47: fault-pattern detection of EnhancedTMR -/

/-- **C47.** `EnhancedTMR::detectFaultPattern` on 4-byte types never executes undefined behaviour, never
reports a burst or unknown pattern, reports a single-bit fault exactly when the largest pairwise
difference is one bit, and labels three *identical* copies as an adjacent-bit fault. -/
theorem C47_detect_fault_pattern_32 (a b c : BitVec 32) :
    ∃ p, ETmr.detectFaultPattern a b c = .ok p ∧ p ≠ .burstError ∧ p ≠ .unknown ∧
      (p = .singleBit ↔
        max (max (popcount (a ^^^ b)) (popcount (a ^^^ c))) (popcount (b ^^^ c)) = 1) ∧
      (a = b ∧ b = c → p = .adjacentBits) := by
  classical
  unfold ETmr.detectFaultPattern
  simp only [countBits_eq_popcount]
  have hle : max (max (popcount (a ^^^ b)) (popcount (a ^^^ c))) (popcount (b ^^^ c)) ≤ 32 := by
    have h1 := popcount_le (a ^^^ b); have h2 := popcount_le (a ^^^ c); have h3 := popcount_le (b ^^^ c)
    omega
  have hw : ∀ d : BitVec 32, ETmr.areWordBoundary d = true := by intro d; rfl
  have hbb : ∃ r, ETmr.byteBoundary3 (a ^^^ b) (a ^^^ c) (b ^^^ c) = .ok r := by
    unfold ETmr.byteBoundary3
    rw [areByteBoundary32, areByteBoundary32, areByteBoundary32]
    by_cases h1 : InOneByte (a ^^^ b)
    · by_cases h2 : InOneByte (a ^^^ c)
      · simp [h1, h2]
      · simp [h1, h2]
    · simp [h1]
  have hid : a = b ∧ b = c →
      max (max (popcount (a ^^^ b)) (popcount (a ^^^ c))) (popcount (b ^^^ c)) = 0 ∧
      ETmr.areAdjacentBits (a ^^^ b) = true ∧ ETmr.areAdjacentBits (a ^^^ c) = true ∧
      ETmr.areAdjacentBits (b ^^^ c) = true := by
    rintro ⟨rfl, rfl⟩
    simp only [BitVec.xor_self, popcount_zero, ETmr.areAdjacentBits, countBits_eq_popcount]
    simp
  generalize max (max (popcount (a ^^^ b)) (popcount (a ^^^ c))) (popcount (b ^^^ c)) = m at hle hid ⊢
  simp only [hw, hle, and_self, if_true]
  obtain ⟨r, hr⟩ := hbb
  by_cases h1 : m = 1
  · refine ⟨.singleBit, by simp [h1], by decide, by decide, by simp [h1], fun h => ?_⟩
    have := (hid h).1; omega
  · simp only [h1, if_false]
    split
    · exact ⟨.adjacentBits, rfl, by decide, by decide, by simp, fun _ => rfl⟩
    · rename_i hadj
      have hne : ¬ (a = b ∧ b = c) := by
        intro h
        obtain ⟨h0, h2⟩ := hid h
        exact hadj ⟨by omega, h2⟩
      rw [hr]
      split
      · cases r
        · exact ⟨.wordError, rfl, by decide, by decide, by simp, fun h => absurd h hne⟩
        · exact ⟨.byteError, rfl, by decide, by decide, by simp, fun h => absurd h hne⟩
      · exact ⟨.wordError, rfl, by decide, by decide, by simp, fun h => absurd h hne⟩

/-- **C47 (64-bit).** On 8-byte types the byte-boundary test shifts an `int` by 32 or more as soon as a
small difference reaches it: undefined behaviour for the copies `0, 0, 2^32 + 2`. -/
theorem C47_detect64_violated :
    ETmr.detectFaultPattern 0#64 0#64 0x100000002#64 = .ub := by
  decide +kernel

end Verif.Props
