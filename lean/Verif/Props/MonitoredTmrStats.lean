import Verif.Props.MonitoredTmr
import Mathlib.Data.List.Induction
/-!
Property C79: statistics, periodic verification, raw access and regeneration of `rad_ml::tmr::EnhancedTMR`.
-/
namespace Verif.Props.MTmrP
open Verif Verif.MTmr

variable {α : Type}

/-- The four counters. -/
def counters (s : State α) : Nat × Nat × Nat × Nat := (s.sets, s.gets, s.crcFailures, s.disagreements)

/-- How many copies do not match their checksum. -/
def badCount (crc : α → BitVec 32) (s : State α) : Nat :=
  (if crc s.c0.val = s.c0.crc then 0 else 1) + (if crc s.c1.val = s.c1.crc then 0 else 1) +
  (if crc s.c2.val = s.c2.crc then 0 else 1)

theorem verifyOne_counters (crc : α → BitVec 32) (i : Fin 3) (r : Bool × State α) :
    counters (verifyOne crc i r).2 = (r.2.sets, r.2.gets,
      r.2.crcFailures + (if crc (r.2.at i).val = (r.2.at i).crc then 0 else 1), r.2.disagreements) ∧
    (verifyOne crc i r).2.last = r.2.last ∧ (verifyOne crc i r).2.intervalMs = r.2.intervalMs := by
  unfold verifyOne counters
  simp only
  by_cases h : crc (r.2.at i).val = (r.2.at i).crc
  · rw [if_neg (by simpa using h)]; simp [h]
  · rw [if_pos h]
    match i with
    | 0 => simp only [State.modify]; rw [if_neg h]; exact ⟨rfl, trivial, trivial⟩
    | 1 => simp only [State.modify]; rw [if_neg h]; exact ⟨rfl, trivial, trivial⟩
    | 2 => simp only [State.modify]; rw [if_neg h]; exact ⟨rfl, trivial, trivial⟩

theorem verify_counters (crc : α → BitVec 32) (s : State α) :
    counters (verifyCRCs crc s).2 = (s.sets, s.gets, s.crcFailures + badCount crc s, s.disagreements) ∧
    (verifyCRCs crc s).2.last = s.last ∧ (verifyCRCs crc s).2.intervalMs = s.intervalMs := by
  unfold verifyCRCs
  generalize h0 : verifyOne crc 0 (true, s) = r0
  generalize h1 : verifyOne crc 1 r0 = r1
  have a := verifyOne_counters crc 0 (true, s)
  have b := verifyOne_counters crc 1 r0
  have c := verifyOne_counters crc 2 r1
  rw [h0] at a
  rw [h1] at b
  have e1 : (crc (r0.2.at 1).val = (r0.2.at 1).crc) ↔ (crc s.c1.val = s.c1.crc) := by
    have := bad_verifyOne crc 0 1 (true, s)
    rw [h0] at this
    exact not_iff_not.mp this
  have e2 : (crc (r1.2.at 2).val = (r1.2.at 2).crc) ↔ (crc s.c2.val = s.c2.crc) := by
    have := bad_verifyOne crc 1 2 r0
    rw [h1, ← h0, bad_verifyOne] at this
    exact not_iff_not.mp this
  simp only [counters, Prod.mk.injEq] at a b c ⊢
  simp only [e1] at b
  simp only [e2] at c
  have e0 : (true, s).2.at 0 = s.c0 := rfl
  rw [e0] at a
  obtain ⟨⟨a1, a2, a3, a4⟩, a5, a6⟩ := a
  obtain ⟨⟨b1, b2, b3, b4⟩, b5, b6⟩ := b
  obtain ⟨⟨c1, c2, c3, c4⟩, c5, c6⟩ := c
  unfold badCount
  exact ⟨⟨by rw [c1, b1, a1], by rw [c2, b2, a2], by rw [c3, b3, a3]; omega, by rw [c4, b4, a4]⟩, by rw [c5, b5, a5],
    by rw [c6, b6, a6]⟩

theorem select_counters (s : State α) (r : ℚ) : counters (select s r).2 = counters s ∧ (select s r).2.last = s.last := by
  unfold select
  split; · exact ⟨rfl, rfl⟩
  split; · exact ⟨rfl, rfl⟩
  split; · exact ⟨rfl, rfl⟩
  split; · exact ⟨rfl, rfl⟩
  exact ⟨rfl, rfl⟩

theorem vote_counters [DecidableEq α] (s : State α) (r : ℚ) :
    counters (vote (fun a b => decide (a = b)) s r).2 = (s.sets, s.gets, s.crcFailures,
      s.disagreements + (if s.c0.val = s.c1.val ∧ s.c1.val = s.c2.val then 0 else 1)) ∧
    (vote (fun a b => decide (a = b)) s r).2.last = s.last := by
  unfold vote
  simp only [Bool.and_eq_true, decide_eq_true_eq]
  split
  · exact ⟨rfl, rfl⟩
  · split
    · split; · exact ⟨rfl, rfl⟩
      split; · exact ⟨rfl, rfl⟩
      split; · exact ⟨rfl, rfl⟩
      exact select_counters _ r
    · split; · exact ⟨rfl, rfl⟩
      split; · exact ⟨rfl, rfl⟩
      split; · exact ⟨rfl, rfl⟩
      exact ⟨rfl, rfl⟩

/-- Whether a read at time `now` verifies the checksums first. -/
def Due (s : State α) (now : Int) : Prop := s.intervalMs * 1000000 ≤ now - s.last

/-- **C79 (a read, exactly).** In every state a read counts one access; it counts one disagreement exactly if the three copies
are not all equal; it verifies the checksums exactly if at least the configured interval has passed since the last
verification by a read, and then counts one failure per bad copy and restarts the interval. -/
theorem C79_read_bookkeeping [DecidableEq α] (crc : α → BitVec 32) (s : State α) (now : Int) (r : ℚ) :
    let t := (get (fun a b => decide (a = b)) crc s now r).2
    t.gets = s.gets + 1 ∧ t.sets = s.sets ∧
    t.disagreements = s.disagreements + (if s.c0.val = s.c1.val ∧ s.c1.val = s.c2.val then 0 else 1) ∧
    (Due s now → t.crcFailures = s.crcFailures + badCount crc s ∧ t.last = now) ∧
    (¬ Due s now → t.crcFailures = s.crcFailures ∧ t.last = s.last) := by
  intro t
  have key : ∀ u : State α, counters { (vote (fun a b => decide (a = b)) u r).2 with gets := (vote (fun a b => decide (a = b)) u r).2.gets + 1 } =
      (u.sets, u.gets + 1, u.crcFailures, u.disagreements + (if u.c0.val = u.c1.val ∧ u.c1.val = u.c2.val then 0 else 1)) ∧
      (vote (fun a b => decide (a = b)) u r).2.last = u.last := by
    intro u
    have := vote_counters u r
    simp only [counters, Prod.mk.injEq] at this ⊢
    obtain ⟨⟨h1, h2, h3, h4⟩, h5⟩ := this
    exact ⟨⟨h1, by rw [h2], h3, h4⟩, h5⟩
  by_cases hd : Due s now
  · have ht : t = { (vote (fun a b => decide (a = b)) { (verifyCRCs crc s).2 with last := now } r).2 with
        gets := (vote (fun a b => decide (a = b)) { (verifyCRCs crc s).2 with last := now } r).2.gets + 1 } := by
      show (get _ _ _ _ _).2 = _
      have hd' : now - s.last ≥ s.intervalMs * 1000000 := hd
      unfold MTmr.get
      simp only [if_pos hd']
    have k := key { (verifyCRCs crc s).2 with last := now }
    rw [← ht] at k
    have hl : t.last = now := by rw [ht]; exact k.2
    have hv := verify_counters crc s
    have hvals := vals_verify crc s
    have v0 : (verifyCRCs crc s).2.c0.val = s.c0.val := congrFun hvals 0
    have v1 : (verifyCRCs crc s).2.c1.val = s.c1.val := congrFun hvals 1
    have v2 : (verifyCRCs crc s).2.c2.val = s.c2.val := congrFun hvals 2
    simp only [counters, Prod.mk.injEq, v0, v1, v2] at k hv
    obtain ⟨⟨k1, k2, k3, k4⟩, _⟩ := k
    obtain ⟨⟨a1, a2, a3, a4⟩, _, _⟩ := hv
    exact ⟨by rw [k2, a2], by rw [k1, a1], by rw [k4, a4], fun _ => ⟨by rw [k3, a3], hl⟩, fun h => absurd hd h⟩
  · have ht : t = { (vote (fun a b => decide (a = b)) s r).2 with gets := (vote (fun a b => decide (a = b)) s r).2.gets + 1 } := by
      show (get _ _ _ _ _).2 = _
      have hd' : ¬ now - s.last ≥ s.intervalMs * 1000000 := hd
      unfold MTmr.get
      simp only [if_neg hd']
    have k := key s
    rw [← ht] at k
    have hl : t.last = s.last := by rw [ht]; exact k.2
    simp only [counters, Prod.mk.injEq] at k
    obtain ⟨⟨k1, k2, k3, k4⟩, _⟩ := k
    exact ⟨k2, k1, k4, fun h => absurd h hd, fun _ => ⟨k3, hl⟩⟩

/-- The calls made since the statistics were last reset. -/
def recent (ops : List (Op α)) : List (Op α) :=
  ops.foldl (fun l o => match o with | .resetStats => [] | o => l ++ [o]) []

/-- Reads. -/
def isGet : Op α → Bool
  | .get _ _ => true
  | _ => false
/-- Writes. -/
def isSet : Op α → Bool
  | .set _ => true
  | _ => false

theorem recent_snoc (ops : List (Op α)) (o : Op α) :
    recent (ops ++ [o]) = (match o with | .resetStats => [] | o => recent ops ++ [o]) := by
  unfold recent; rw [List.foldl_append]; rfl

/-- **C79 (access counters).** In every history of calls and faults the statistics report exactly the number of reads and writes
since they were last reset (or since construction). -/
theorem C79_access_counters [DecidableEq α] (crc : α → BitVec 32) (v : α) (now : Int) (ops : List (Op α)) :
    let s := run (fun a b => decide (a = b)) crc (new crc v now) ops
    s.gets = (recent ops).countP isGet ∧ s.sets = (recent ops).countP isSet := by
  induction ops using List.reverseRecOn with
  | nil => exact ⟨rfl, rfl⟩
  | append_singleton ops o ih =>
    simp only at ih ⊢
    have hr : run (fun a b => decide (a = b)) crc (new crc v now) (ops ++ [o]) =
        step (fun a b => decide (a = b)) crc (run (fun a b => decide (a = b)) crc (new crc v now) ops) o := by
      unfold run; rw [List.foldl_append]; rfl
    rw [hr, recent_snoc]
    generalize run (fun a b => decide (a = b)) crc (new crc v now) ops = s at ih ⊢
    obtain ⟨ih1, ih2⟩ := ih
    cases o with
    | get n r =>
      have h := C79_read_bookkeeping crc s n r
      simp only at h
      simp only [step, List.countP_append, List.countP_singleton, isGet, isSet]
      exact ⟨by rw [h.1, ih1]; rfl, by rw [h.2.1, ih2]; rfl⟩
    | verify =>
      have h := verify_counters crc s
      simp only [counters, Prod.mk.injEq] at h
      simp only [step, verify, List.countP_append, List.countP_singleton, isGet, isSet]
      exact ⟨by rw [h.1.2.1, ih1]; rfl, by rw [h.1.1, ih2]; rfl⟩
    | set w =>
      simp only [step, MTmr.set, recalculateCRCs, State.mapAll, List.countP_append, List.countP_singleton, isGet, isSet]
      exact ⟨by rw [ih1]; rfl, by rw [ih2]; rfl⟩
    | setRaw i w =>
      simp only [step, List.countP_append, List.countP_singleton, isGet, isSet]
      have : (setRawCopy crc s i w).gets = s.gets ∧ (setRawCopy crc s i w).sets = s.sets := by
        unfold setRawCopy
        simp only
        split; · exact ⟨rfl, rfl⟩
        split; · exact ⟨rfl, rfl⟩
        split; · exact ⟨rfl, rfl⟩
        exact ⟨rfl, rfl⟩
      exact ⟨by rw [this.1, ih1]; rfl, by rw [this.2, ih2]; rfl⟩
    | regenerate =>
      simp only [step, List.countP_append, List.countP_singleton, isGet, isSet]
      have : (regenerateCopies crc s).2.gets = s.gets ∧ (regenerateCopies crc s).2.sets = s.sets := by
        unfold regenerateCopies
        simp only
        split; · exact ⟨rfl, rfl⟩
        match bestIndex s with
        | 0 => exact ⟨rfl, rfl⟩
        | 1 => exact ⟨rfl, rfl⟩
        | 2 => exact ⟨rfl, rfl⟩
      exact ⟨by rw [this.1, ih1]; rfl, by rw [this.2, ih2]; rfl⟩
    | resetStats => exact ⟨rfl, rfl⟩
    | enable b =>
      simp only [step, List.countP_append, List.countP_singleton, isGet, isSet]
      exact ⟨by rw [ih1]; rfl, by rw [ih2]; rfl⟩
    | setInterval ms =>
      simp only [step, List.countP_append, List.countP_singleton, isGet, isSet]
      exact ⟨by rw [ih1]; rfl, by rw [ih2]; rfl⟩
    | fault i w =>
      simp only [step, List.countP_append, List.countP_singleton, isGet, isSet]
      match i with
      | 0 => exact ⟨by rw [← Nat.add_zero (List.countP _ _), ← ih1]; rfl, by rw [← Nat.add_zero (List.countP _ _), ← ih2]; rfl⟩
      | 1 => exact ⟨by rw [← Nat.add_zero (List.countP _ _), ← ih1]; rfl, by rw [← Nat.add_zero (List.countP _ _), ← ih2]; rfl⟩
      | 2 => exact ⟨by rw [← Nat.add_zero (List.countP _ _), ← ih1]; rfl, by rw [← Nat.add_zero (List.countP _ _), ← ih2]; rfl⟩
    | faultCrc i w =>
      simp only [step, List.countP_append, List.countP_singleton, isGet, isSet]
      match i with
      | 0 => exact ⟨by rw [← Nat.add_zero (List.countP _ _), ← ih1]; rfl, by rw [← Nat.add_zero (List.countP _ _), ← ih2]; rfl⟩
      | 1 => exact ⟨by rw [← Nat.add_zero (List.countP _ _), ← ih1]; rfl, by rw [← Nat.add_zero (List.countP _ _), ← ih2]; rfl⟩
      | 2 => exact ⟨by rw [← Nat.add_zero (List.countP _ _), ← ih1]; rfl, by rw [← Nat.add_zero (List.countP _ _), ← ih2]; rfl⟩

/-- **C79 (reset).** Resetting the statistics zeroes all counters, makes all copies fully trusted and leaves values and
checksums alone. -/
theorem C79_reset (s : State α) :
    counters (resetErrorStats s) = (0, 0, 0, 0) ∧
    ∀ i, ((resetErrorStats s).at i).health = 1 ∧ ((resetErrorStats s).at i).val = (s.at i).val ∧
      ((resetErrorStats s).at i).crc = (s.at i).crc := by
  refine ⟨rfl, fun i => ?_⟩
  match i with
  | 0 => exact ⟨rfl, rfl, rfl⟩
  | 1 => exact ⟨rfl, rfl, rfl⟩
  | 2 => exact ⟨rfl, rfl, rfl⟩

/-- **C79 (writing).** `set(v)` leaves three fully trusted copies of `v` that pass verification. -/
theorem C79_set (crc : α → BitVec 32) (s : State α) (v : α) :
    (∀ i, ((set crc s v).at i).val = v ∧ ((set crc s v).at i).health = 1) ∧ (verify crc (set crc s v)).1 = true := by
  have h : ∀ i, (set crc s v).at i = ⟨v, crc v, 1⟩ := by
    intro i
    match i with
    | 0 => rfl
    | 1 => rfl
    | 2 => rfl
  refine ⟨fun i => by rw [h i]; exact ⟨rfl, rfl⟩, (C69_verify_iff crc _).1.mpr fun i => by rw [h i]⟩

/-- `bestIndex` picks a copy of maximal health. -/
theorem best_max (s : State α) (j : Fin 3) : (s.at j).health ≤ (s.at (bestIndex s)).health := by
  unfold bestIndex
  simp only
  by_cases h1 : s.c1.health > s.c0.health
  · rw [if_pos h1]
    by_cases h2 : s.c2.health > (s.at 1).health
    · rw [if_pos h2]
      have : s.c2.health > s.c1.health := h2
      match j with
      | 0 => show s.c0.health ≤ s.c2.health; linarith
      | 1 => show s.c1.health ≤ s.c2.health; linarith
      | 2 => exact le_refl _
    · rw [if_neg h2]
      have : ¬ s.c2.health > s.c1.health := h2
      match j with
      | 0 => show s.c0.health ≤ s.c1.health; linarith
      | 1 => exact le_refl _
      | 2 => show s.c2.health ≤ s.c1.health; linarith
  · rw [if_neg h1]
    by_cases h2 : s.c2.health > (s.at 0).health
    · rw [if_pos h2]
      have : s.c2.health > s.c0.health := h2
      match j with
      | 0 => show s.c0.health ≤ s.c2.health; linarith
      | 1 => show s.c1.health ≤ s.c2.health; linarith
      | 2 => exact le_refl _
    · rw [if_neg h2]
      have : ¬ s.c2.health > s.c0.health := h2
      match j with
      | 0 => exact le_refl _
      | 1 => show s.c1.health ≤ s.c0.health; linarith
      | 2 => show s.c2.health ≤ s.c0.health; linarith

/-- **C79 (raw access).** `getRawCopy(i)` returns copy `i`, and a copy of maximal health for other indices; after
`setRawCopy(i, v)` with a valid index copy `i` is `v` and passes verification while the others are untouched, and with an
invalid index nothing changes. -/
theorem C79_raw_access (crc : α → BitVec 32) (s : State α) (v : α) :
    (∀ i : Fin 3, getRawCopy s i.val = (s.at i).val) ∧
    (∀ i, 3 ≤ i → ∃ k, getRawCopy s i = (s.at k).val ∧ ∀ j, (s.at j).health ≤ (s.at k).health) ∧
    (∀ i : Fin 3, ((setRawCopy crc s i.val v).at i).val = v ∧ ((setRawCopy crc s i.val v).at i).crc = crc v ∧
      ∀ j, j ≠ i → (setRawCopy crc s i.val v).at j = s.at j) ∧
    (∀ i, 3 ≤ i → setRawCopy crc s i v = s) := by
  refine ⟨fun i => ?_, fun i hi => ⟨bestIndex s, ?_, best_max s⟩, fun i => ?_, fun i hi => ?_⟩
  · match i with
    | 0 => rfl
    | 1 => rfl
    | 2 => rfl
  · unfold getRawCopy
    rw [if_neg (by omega), if_neg (by omega), if_neg (by omega)]
  · match i with
    | 0 => exact ⟨rfl, rfl, fun j hj => by match j with | 0 => exact absurd rfl hj | 1 => rfl | 2 => rfl⟩
    | 1 => exact ⟨rfl, rfl, fun j hj => by match j with | 0 => rfl | 1 => exact absurd rfl hj | 2 => rfl⟩
    | 2 => exact ⟨rfl, rfl, fun j hj => by match j with | 0 => rfl | 1 => rfl | 2 => exact absurd rfl hj⟩
  · unfold setRawCopy
    simp only
    rw [if_neg (by omega), if_neg (by omega), if_neg (by omega)]

/-- **C79 (regeneration).** `regenerateCopies()` fails, changing nothing, exactly if every copy has a health score below 0.6;
otherwise all copies get the value of one of the healthiest copies and pass verification. -/
theorem C79_regenerate (crc : α → BitVec 32) (s : State α) :
    ((regenerateCopies crc s).1 = false ↔ ∀ i, (s.at i).health < 3 / 5) ∧
    ((regenerateCopies crc s).1 = false → (regenerateCopies crc s).2 = s) ∧
    ((regenerateCopies crc s).1 = true → (verify crc (regenerateCopies crc s).2).1 = true ∧
      ∃ k, (∀ j, (s.at j).health ≤ (s.at k).health) ∧ ∀ i, ((regenerateCopies crc s).2.at i).val = (s.at k).val) := by
  by_cases h : (s.at (bestIndex s)).health < 3 / 5
  · have e : regenerateCopies crc s = (false, s) := by unfold regenerateCopies; simp only; rw [if_pos h]
    rw [e]
    exact ⟨⟨fun _ i => lt_of_le_of_lt (best_max s i) h, fun _ => rfl⟩, fun _ => rfl, fun h => absurd h (by simp)⟩
  · have hbest := best_max s
    have e1 : (regenerateCopies crc s).1 = true := by unfold regenerateCopies; simp only; rw [if_neg h]
    rw [e1]
    refine ⟨⟨fun h => absurd h (by simp), fun g => absurd (g _) h⟩, fun h => absurd h (by simp), fun _ => ?_⟩
    have hv : ∀ i, ((regenerateCopies crc s).2.at i).val = (s.at (bestIndex s)).val ∧
        ((regenerateCopies crc s).2.at i).crc = crc ((regenerateCopies crc s).2.at i).val := by
      unfold regenerateCopies
      simp only
      rw [if_neg h]
      generalize bestIndex s = b
      intro i
      match b, i with
      | 0, 0 => exact ⟨rfl, rfl⟩
      | 0, 1 => exact ⟨rfl, rfl⟩
      | 0, 2 => exact ⟨rfl, rfl⟩
      | 1, 0 => exact ⟨rfl, rfl⟩
      | 1, 1 => exact ⟨rfl, rfl⟩
      | 1, 2 => exact ⟨rfl, rfl⟩
      | 2, 0 => exact ⟨rfl, rfl⟩
      | 2, 1 => exact ⟨rfl, rfl⟩
      | 2, 2 => exact ⟨rfl, rfl⟩
    exact ⟨(C69_verify_iff crc _).1.mpr fun i => (hv i).2.symm, bestIndex s, hbest, fun i => (hv i).1⟩

/-- Both outcomes of regeneration and both kinds of read occur. -/
example : (∃ s : State Nat, ∀ i, (s.at i).health < 3 / 5) ∧ Due (new (fun _ : Nat => 0#32) 5 0) 5000000000 ∧
    ¬ Due (new (fun _ : Nat => 0#32) 5 0) 4999999999 := by
  refine ⟨⟨{ c0 := ⟨0, 0, 1 / 2⟩, c1 := ⟨0, 0, 1 / 2⟩, c2 := ⟨0, 0, 1 / 2⟩, last := 0 }, fun i => ?_⟩, ?_, ?_⟩
  · match i with
    | 0 => show (1 / 2 : ℚ) < 3 / 5; norm_num
    | 1 => show (1 / 2 : ℚ) < 3 / 5; norm_num
    | 2 => show (1 / 2 : ℚ) < 3 / 5; norm_num
  · show (5000 : Int) * 1000000 ≤ 5000000000 - 0; norm_num
  · show ¬ (5000 : Int) * 1000000 ≤ 4999999999 - 0; norm_num

end Verif.Props.MTmrP
