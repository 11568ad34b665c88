import Verif.Model.Tmr
import Verif.Spec.Bits
/-!
Properties C06–C08: plain TMR.
-/
namespace Verif.Props
open Verif Verif.Spec

variable {α : Type _}

/-- Upsets and reads that leave every copy other than number `k` alone. -/
def OnlyCopy (k : Nat) : Tmr.Op α → Prop
  | .get => True
  | .set _ => False
  | .setRaw i _ => i = k ∨ 3 ≤ i
  | .resetStats => True

instance (k : Nat) (op : Tmr.Op α) : Decidable (OnlyCopy k op) := by
  cases op <;> unfold OnlyCopy <;> infer_instance

theorem tmr_get_copies (eq : α → α → Bool) (s : Tmr.State α) :
    (Tmr.get eq s).2.c0 = s.c0 ∧ (Tmr.get eq s).2.c1 = s.c1 ∧ (Tmr.get eq s).2.c2 = s.c2 := by
  cases hc : s.hasCallback <;> unfold Tmr.get <;> repeat' split
  all_goals simp [Tmr.notify, Tmr.bumpCorrected, Tmr.bumpUncorrectable, hc]

/-- Two of the three copies still hold `v`; the damaged one is number `k`. -/
def Healthy (k : Nat) (v : α) (s : Tmr.State α) : Prop :=
  (k ≠ 0 → s.c0 = v) ∧ (k ≠ 1 → s.c1 = v) ∧ (k ≠ 2 → s.c2 = v)

theorem healthy_run (eq : α → α → Bool) (k : Nat) (v : α) (ops : List (Tmr.Op α))
    (h : ∀ op ∈ ops, OnlyCopy k op) (s : Tmr.State α) (hs : Healthy k v s) :
    Healthy k v (Tmr.run eq s ops) := by
  induction ops generalizing s with
  | nil => exact hs
  | cons op ops ih =>
    unfold Tmr.run
    rw [List.foldl_cons]
    apply ih (fun o ho => h o (List.mem_cons_of_mem _ ho))
    have hop := h op List.mem_cons_self
    cases op with
    | get =>
      obtain ⟨h0, h1, h2⟩ := tmr_get_copies eq s
      unfold Healthy at *
      simp only [Tmr.step, h0, h1, h2]; exact hs
    | set v => exact absurd hop (by simp [OnlyCopy])
    | setRaw i x =>
      simp only [Tmr.step, Tmr.setRawCopy]
      split
      · have hik : i = k := by
          rcases hop with h | h
          · exact h
          · omega
        subst hik
        unfold Healthy at *
        split
        · rename_i h; subst h; simp at hs ⊢; exact hs
        · split
          · rename_i h; subst h; simp at hs ⊢; exact hs
          · have : i = 2 := by omega
            subst this; simp at hs ⊢; exact hs
      · exact hs
    | resetStats => exact hs

/-- **C06.** After `set(v)` — in any earlier state — every history of reads, statistics resets and
arbitrary overwrites of one copy `k` (any index) leaves `get()` returning `v`.  `eq` is the C++ equality;
the only assumption is that `v` equals itself (so `v` is not NaN). -/
theorem C06_single_copy_corruption_masked (eq : α → α → Bool) (v : α) (hv : eq v v = true) (k : Nat)
    (s : Tmr.State α) (ops : List (Tmr.Op α)) (h : ∀ op ∈ ops, OnlyCopy k op) :
    SameValue eq (Tmr.get eq (Tmr.run eq (Tmr.set s v) ops)).1 v := by
  have hh : Healthy k v (Tmr.run eq (Tmr.set s v) ops) :=
    healthy_run eq k v ops h _ (by unfold Healthy Tmr.set; simp)
  generalize Tmr.run eq (Tmr.set s v) ops = t at hh
  obtain ⟨h0, h1, h2⟩ := hh
  unfold Tmr.get SameValue
  rcases Nat.lt_or_ge k 3 with hk | hk
  · have : k = 0 ∨ k = 1 ∨ k = 2 := by omega
    rcases this with hk | hk | hk
    · subst hk
      have e1 := h1 (by decide); have e2 := h2 (by decide)
      simp only [e1, e2, hv, Bool.and_true, if_true]
      split
      · right; assumption
      · left; rfl
    · subst hk
      have e0 := h0 (by decide); have e2 := h2 (by decide)
      simp only [e0, e2, hv, if_true]
      repeat' split
      all_goals (left; rfl)
    · subst hk
      have e0 := h0 (by decide); have e1 := h1 (by decide)
      simp only [e0, e1, hv, if_true]
      repeat' split
      all_goals (left; rfl)
  · have e0 := h0 (by omega); have e1 := h1 (by omega); have e2 := h2 (by omega)
    simp [e0, e1, e2, hv]

/-- Non-vacuity of C06: a three-event history hitting copy 1, with an out-of-range access. -/
example : ∀ op ∈ [Tmr.Op.setRaw 1 99, .get, .setRaw 7 5, .setRaw 1 (42 : Nat)], OnlyCopy 1 op := by
  decide

/-- **C06 (repairing variant).** `core::redundancy::TripleModularRedundancy`: after `set(v)` and
an arbitrary upset of one copy, `get()` is `v`, and `repair()` restores all three copies to `v`. -/
theorem C06_core_tmr_masks_and_repairs [DecidableEq α] (v x : α) (k : Fin 3) :
    CoreTmr.get (fun a b => decide (a = b)) (CoreTmr.corrupt (CoreTmr.set v) k x) = v ∧
    CoreTmr.repair (fun a b => decide (a = b)) (CoreTmr.corrupt (CoreTmr.set v) k x) = CoreTmr.set v := by
  have hg : CoreTmr.get (fun a b => decide (a = b)) (CoreTmr.corrupt (CoreTmr.set v) k x) = v := by
    match k with
    | 0 =>
      by_cases h : x = v <;> simp [CoreTmr.corrupt, CoreTmr.set, CoreTmr.get, h]
    | 1 => simp [CoreTmr.corrupt, CoreTmr.set, CoreTmr.get]
    | 2 => simp [CoreTmr.corrupt, CoreTmr.set, CoreTmr.get]
  refine ⟨hg, ?_⟩
  unfold CoreTmr.repair
  rw [hg]; rfl

/-- C06 for `core` TMR histories: repeated upset–repair cycles, each hitting a different copy, never
lose the value. -/
theorem C06_core_tmr_scrubbed_forever [DecidableEq α] (v : α) (hits : List (Fin 3 × α)) :
    hits.foldl (fun s h => CoreTmr.repair (fun a b => decide (a = b)) (CoreTmr.corrupt s h.1 h.2))
      (CoreTmr.set v) = CoreTmr.set v := by
  induction hits with
  | nil => rfl
  | cons h hs ih =>
    rw [List.foldl_cons, (C06_core_tmr_masks_and_repairs v h.2 h.1).2]; exact ih

/-- **C07.** For every history of API calls from construction, the statistics satisfy
`detected = corrected + uncorrectable`, and when no callback is registered none is invoked. -/
theorem C07_statistics_consistent (eq : α → α → Bool) (v : α) (cb : Bool) (ops : List (Tmr.Op α)) :
    let s := Tmr.run eq (Tmr.mk v cb) ops
    s.stats.detected = s.stats.corrected + s.stats.uncorrectable ∧
    s.hasCallback = cb ∧ (cb = false → s.log = []) := by
  have gen : ∀ s : Tmr.State α,
      (s.stats.detected = s.stats.corrected + s.stats.uncorrectable ∧
        s.hasCallback = cb ∧ (cb = false → s.log = [])) →
      ((Tmr.run eq s ops).stats.detected
          = (Tmr.run eq s ops).stats.corrected + (Tmr.run eq s ops).stats.uncorrectable ∧
        (Tmr.run eq s ops).hasCallback = cb ∧ (cb = false → (Tmr.run eq s ops).log = [])) := by
    induction ops with
    | nil => intro s hs; exact hs
    | cons op ops ih =>
      intro s hs
      have : Tmr.run eq s (op :: ops) = Tmr.run eq (Tmr.step eq s op) ops := rfl
      rw [this]
      apply ih
      obtain ⟨h1, h2, h3⟩ := hs
      cases op with
      | get =>
        simp only [Tmr.step]
        subst h2
        cases hc : s.hasCallback <;> rw [hc] at h3 <;> unfold Tmr.get <;> repeat' split
        all_goals simp [Tmr.notify, Tmr.bumpCorrected, Tmr.bumpUncorrectable, hc]
        all_goals first
          | omega
          | exact ⟨by omega, h3 rfl⟩
      | set v => exact ⟨h1, h2, h3⟩
      | setRaw i v =>
        simp only [Tmr.step, Tmr.setRawCopy]
        repeat' split
        all_goals exact ⟨h1, h2, h3⟩
      | resetStats => exact ⟨rfl, h2, h3⟩
  exact gen _ ⟨rfl, rfl, fun _ => rfl⟩

/-- What one `get()` does, stated on the copies only: `agree` = all three equal. -/
theorem C07_get_effect [DecidableEq α] (s : Tmr.State α) :
    let r := Tmr.get (fun a b => decide (a = b)) s
    -- all copies agree: nothing is counted and no callback fires
    (s.c0 = s.c1 ∧ s.c1 = s.c2 → r.2 = s ∧ r.1 = s.c0) ∧
    -- exactly one outlier: one detected, one corrected, callback told (majority, outlier)
    (∀ m o, m ≠ o → ((s.c0 = m ∧ s.c1 = m ∧ s.c2 = o) ∨ (s.c0 = m ∧ s.c2 = m ∧ s.c1 = o) ∨
        (s.c1 = m ∧ s.c2 = m ∧ s.c0 = o)) →
      r.1 = m ∧ r.2.stats.detected = s.stats.detected + 1 ∧
      r.2.stats.corrected = s.stats.corrected + 1 ∧ r.2.stats.uncorrectable = s.stats.uncorrectable ∧
      r.2.log = (if s.hasCallback then s.log ++ [(m, o)] else s.log)) ∧
    -- all different: one detected, one uncorrectable, no callback, first copy returned
    (s.c0 ≠ s.c1 → s.c0 ≠ s.c2 → s.c1 ≠ s.c2 →
      r.1 = s.c0 ∧ r.2.stats.detected = s.stats.detected + 1 ∧
      r.2.stats.uncorrectable = s.stats.uncorrectable + 1 ∧
      r.2.stats.corrected = s.stats.corrected ∧ r.2.log = s.log) := by
  intro r
  refine ⟨?_, ?_, ?_⟩
  · rintro ⟨h1, h2⟩
    simp [r, Tmr.get, h1, h2]
  · intro m o hmo h
    have hom : o ≠ m := fun h => hmo h.symm
    rcases h with ⟨h0, h1, h2⟩ | ⟨h0, h2, h1⟩ | ⟨h1, h2, h0⟩
    · simp only [r, Tmr.get, h0, h1, h2, hmo, decide_true, decide_false, Bool.and_false,
        Bool.false_eq_true, if_false, if_true]
      unfold Tmr.notify
      cases hcb : s.hasCallback <;> simp [Tmr.bumpCorrected, hcb]
    · simp only [r, Tmr.get, h0, h1, h2, hmo, hom, decide_true, decide_false, Bool.and_false,
        Bool.false_eq_true, if_false, if_true]
      unfold Tmr.notify
      cases hcb : s.hasCallback <;> simp [Tmr.bumpCorrected, hcb]
    · simp only [r, Tmr.get, h0, h1, h2, hom, decide_true, decide_false, Bool.false_and,
        Bool.false_eq_true, if_false, if_true]
      unfold Tmr.notify
      cases hcb : s.hasCallback <;> simp [Tmr.bumpCorrected, hcb]
  · intro h1 h2 h3
    simp [r, Tmr.get, h1, h2, h3, Tmr.bumpUncorrectable]

/-- Non-vacuity of C07: one damaged copy, callback registered. -/
example : (Tmr.get (fun a b => decide (a = b)) (Tmr.setRawCopy (Tmr.mk 5 true) 2 (9 : Nat))).2.log = [(5, 9)] := by
  decide

/-- **C08.** Raw access is bounds-checked: an index outside 0..2 changes nothing on write and reads copy 0;
an index in range touches exactly that copy. -/
theorem C08_raw_access_bounds (s : Tmr.State α) (i : Nat) (x : α) :
    (3 ≤ i → Tmr.setRawCopy s i x = s ∧ Tmr.getRawCopy s i = s.c0) ∧
    (i < 3 → Tmr.getRawCopy (Tmr.setRawCopy s i x) i = x ∧
      ∀ j, j < 3 → j ≠ i → Tmr.getRawCopy (Tmr.setRawCopy s i x) j = Tmr.getRawCopy s j) := by
  constructor
  · intro h
    have : ¬ i < 3 := by omega
    simp [Tmr.setRawCopy, Tmr.getRawCopy, this]
  · intro h
    have hi : i = 0 ∨ i = 1 ∨ i = 2 := by omega
    constructor
    · rcases hi with hi | hi | hi <;> subst hi <;> simp [Tmr.setRawCopy, Tmr.getRawCopy]
    · intro j hj hji
      have hj' : j = 0 ∨ j = 1 ∨ j = 2 := by omega
      rcases hi with hi | hi | hi <;> rcases hj' with hj' | hj' | hj' <;> subst hi <;> subst hj' <;>
        simp [Tmr.setRawCopy, Tmr.getRawCopy] at hji ⊢

end Verif.Props
