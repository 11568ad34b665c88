import Verif.Model.StressTest
import Mathlib.Tactic

/-!
# C295-C297: the stress test and the verification program
-/
namespace Verif.Props.StressTest
open Verif.Stress

variable {α : Type} (eq : α → α → Bool) (crc : α → BitVec 32)

/-! ## C295: the loop and its counters -/

/-- A property of the state kept by a report and by counting events holds after every run. -/
theorem loop_inv (D R start : Int) (P : State → Prop)
    (hr : ∀ s (x : Turn α), P s → x.cur - s.last ≥ R * ns → P (report eq crc s x))
    (he : ∀ s es, P s → P { s with t := countEvents s.t es })
    (s : State) (xs : List (Turn α)) (h : P s) : P (loop eq crc D R start s xs).2 := by
  induction xs generalizing s with
  | nil => exact h
  | cons x xs ih =>
    have hm : P (maybeReport eq crc R s x) := by
      unfold maybeReport
      by_cases hc : x.cur - s.last ≥ R * ns
      · rw [if_pos hc]; exact hr s x h hc
      · rw [if_neg hc]; exact h
    unfold loop
    dsimp only
    by_cases h1 : x.now - start < D * ns
    · rw [if_pos h1]
      by_cases h2 : interval D R start x.cur ≤ 0
      · rw [if_pos h2]; exact hm
      · rw [if_neg h2]; exact ih _ (he _ _ hm)
    · rw [if_neg h1]; exact h

theorem countKinds_spec (t : Totals) (es : List Kind) :
    (es.foldl countKind t).events = t.events ∧
      (es.foldl countKind t).flips = t.flips + BitVec.ofNat 64 (es.count .flip) ∧
      (es.foldl countKind t).multis = t.multis + BitVec.ofNat 64 (es.count .multi) ∧
      (es.foldl countKind t).latches = t.latches + BitVec.ofNat 64 (es.count .latch) ∧
      (es.foldl countKind t).transients = t.transients + BitVec.ofNat 64 (es.count .transient) ∧
      (es.foldl countKind t).detected = t.detected ∧
      (es.foldl countKind t).corrected = t.corrected ∧
      (es.foldl countKind t).uncorrectable = t.uncorrectable := by
  induction es generalizing t with
  | nil => simp
  | cons e es ih =>
    rw [List.foldl_cons]
    obtain ⟨h1, h2, h3, h4, h5, h6, h7, h8⟩ := ih (countKind t e)
    rw [h1, h2, h3, h4, h5, h6, h7, h8]
    cases e <;> simp [countKind, List.count_cons, BitVec.ofNat_add] <;> bv_omega

/-- C295: counting the events of a simulation adds the number of events of each kind to the counter of
that kind and the number of all events to the total, and leaves the error counters alone. -/
theorem C295_count_events (t : Totals) (es : List Kind) :
    countEvents t es =
      { t with events := t.events + BitVec.ofNat 64 es.length
               flips := t.flips + BitVec.ofNat 64 (es.count .flip)
               multis := t.multis + BitVec.ofNat 64 (es.count .multi)
               latches := t.latches + BitVec.ofNat 64 (es.count .latch)
               transients := t.transients + BitVec.ofNat 64 (es.count .transient) } := by
  obtain ⟨h1, h2, h3, h4, h5, h6, h7, h8⟩ :=
    countKinds_spec { t with events := t.events + BitVec.ofNat 64 es.length } es
  unfold countEvents
  generalize List.foldl countKind _ es = q at *
  obtain ⟨q1, q2, q3, q4, q5, q6, q7, q8⟩ := q
  simp only at h1 h2 h3 h4 h5 h6 h7 h8
  subst h1 h2 h3 h4 h5 h6 h7 h8
  rfl

theorem kinds_length (es : List Kind) :
    es.length = es.count .flip + es.count .multi + es.count .latch + es.count .transient := by
  induction es with
  | nil => rfl
  | cons e es ih => cases e <;> simp [List.count_cons] <;> omega

/-- C295: after any run the total of events is the sum of the four kinds. -/
theorem C295_events_add_up (D R start sys : Int) (xs : List (Turn α)) :
    let t := (loop eq crc D R start (begin_ start sys) xs).2.t
    t.events = t.flips + t.multis + t.latches + t.transients := by
  intro t
  refine loop_inv eq crc D R start
    (fun s => s.t.events = s.t.flips + s.t.multis + s.t.latches + s.t.transients)
    (fun s x h _ => h) ?_ (begin_ start sys) xs (by simp [begin_])
  intro s es h
  dsimp only
  rw [C295_count_events]
  dsimp only
  rw [h, kinds_length es, BitVec.ofNat_add, BitVec.ofNat_add, BitVec.ofNat_add]
  ac_rfl

/-- C295: after any run the errors detected are the sum, in 64 bits, of those counted as corrected and
those counted as uncorrectable. -/
theorem C295_errors_add_up (D R start sys : Int) (xs : List (Turn α)) :
    let t := (loop eq crc D R start (begin_ start sys) xs).2.t
    t.detected = t.corrected + t.uncorrectable := by
  intro t
  refine loop_inv eq crc D R start (fun s => s.t.detected = s.t.corrected + s.t.uncorrectable)
    ?_ ?_ (begin_ start sys) xs (by simp [begin_])
  · intro s x h _
    simp only [report, h]
    generalize BitVec.ofNat 64 _ = c; generalize s.t.corrected = a
    generalize s.t.uncorrectable = b; generalize x.errors = e
    have : c + (e - c) = e := by rw [BitVec.add_comm, BitVec.sub_add_cancel]
    calc a + b + e = a + b + (c + (e - c)) := by rw [this]
      _ = a + c + (b + (e - c)) := by ac_rfl
  · intro s es h
    dsimp only
    rw [C295_count_events]
    exact h

/-- C295: reports are at least `R` seconds apart: a run that has reported `n` times has lasted at least
`n * R` seconds, and the last report was the last entry kept. -/
theorem C295_report_spacing (D R start sys : Int) (xs : List (Turn α)) :
    let s := (loop eq crc D R start (begin_ start sys) xs).2
    start + s.records.length * (R * ns) ≤ s.last ∧
      (s.records = [] → s.last = start) ∧
      (∀ r, s.records.getLast? = some r → r.time = s.last) ∧
      (0 ≤ R → s.records.Pairwise fun a b => a.time + R * ns ≤ b.time) := by
  intro s
  have key : (start + s.records.length * (R * ns) ≤ s.last) ∧ (s.records = [] → s.last = start) ∧
      (∀ r, s.records.getLast? = some r → r.time = s.last) ∧
      (0 ≤ R → (s.records.Pairwise fun a b => a.time + R * ns ≤ b.time) ∧
        ∀ r ∈ s.records, r.time ≤ s.last) := by
    refine loop_inv eq crc D R start (fun s =>
      (start + s.records.length * (R * ns) ≤ s.last) ∧ (s.records = [] → s.last = start) ∧
      (∀ r, s.records.getLast? = some r → r.time = s.last) ∧
      (0 ≤ R → (s.records.Pairwise fun a b => a.time + R * ns ≤ b.time) ∧
        ∀ r ∈ s.records, r.time ≤ s.last)) ?_ (fun s es h => h) (begin_ start sys) xs ?_
    · intro s x ⟨h1, h2, h3, h4⟩ hd
      refine ⟨?_, ?_, ?_, ?_⟩
      · simp only [report, List.length_append, List.length_cons, List.length_nil]
        push_cast
        rw [add_mul]
        simp only [ns] at *
        nlinarith
      · intro h; simp [report] at h
      · intro r hr
        simp only [report, List.getLast?_append, List.getLast?_singleton, Option.some_or,
          Option.some.injEq] at hr
        subst hr; rfl
      · intro hR
        obtain ⟨h5, h6⟩ := h4 hR
        have hns : 0 ≤ R * ns := by simp only [ns]; nlinarith
        simp only [report]
        refine ⟨?_, ?_⟩
        · rw [List.pairwise_append]
          refine ⟨h5, List.pairwise_singleton _ _, ?_⟩
          intro a ha b hb
          simp only [List.mem_singleton] at hb
          subst hb
          have := h6 a ha
          dsimp only
          linarith
        · intro r hr
          rcases List.mem_append.1 hr with h | h
          · have := h6 r h; linarith
          · simp only [List.mem_singleton] at h; subst h; exact le_refl _
    · simp [begin_]
  exact ⟨key.1, key.2.1, key.2.2.1, fun h => (key.2.2.2 h).1⟩

/-- C295: a report records the totals as they are before its own scrub, adds the errors found to the
detected ones and the difference to the uncorrectable ones, and tells the protection about them. -/
theorem C295_report (R : Int) (s : State) (x : Turn α) :
    (R * ns ≤ x.cur - s.last →
      (maybeReport eq crc R s x).records = s.records ++ [⟨x.cur, s.t, s.prot.level⟩] ∧
      (maybeReport eq crc R s x).last = x.cur ∧
      (maybeReport eq crc R s x).t.detected = s.t.detected + x.errors ∧
      (maybeReport eq crc R s x).t.corrected =
        s.t.corrected + BitVec.ofNat 64 (x.vals.countP fun v =>
          !ETmr.verify eq crc v && ETmr.verify eq crc (ETmr.repair eq crc v).2) ∧
      (maybeReport eq crc R s x).t.events = s.t.events ∧
      (maybeReport eq crc R s x).prot =
        AdaptiveProt.update s.prot (UInt32.ofNat x.errors.toNat) 0 x.sys) ∧
    (x.cur - s.last < R * ns → maybeReport eq crc R s x = s) := by
  have hc : ∀ l : List (ETmr.State α), correctedIn eq crc l = l.countP fun v =>
      !ETmr.verify eq crc v && ETmr.verify eq crc (ETmr.repair eq crc v).2 := by
    intro l
    induction l with
    | nil => rfl
    | cons v l ih => rw [correctedIn, List.countP_cons, ih]; ring
  constructor
  · intro h
    unfold maybeReport
    rw [if_pos h]
    simp only [report, hc]
    exact ⟨trivial, trivial, trivial, trivial, trivial, trivial⟩
  · intro h
    unfold maybeReport
    rw [if_neg (by omega)]

/-- C295: a repaired value always passes the check again unless it is a value that differs from itself,
such as a NaN: "corrected" says nothing about whether the value is the right one. -/
theorem C295_corrected_counts_all (v : ETmr.State α)
    (h : eq (ETmr.get eq crc v).1 (ETmr.get eq crc v).1 = true) :
    ETmr.verify eq crc (ETmr.repair eq crc v).2 = true := by
  simp [ETmr.verify, ETmr.repair, ETmr.recalculateChecksums, ETmr.verifyChecksum, h]

/-- A value with two damaged copies that agree: it is "corrected" to the wrong value. -/
example :
    let eq : BitVec 8 → BitVec 8 → Bool := fun a b => a == b
    let crc : BitVec 8 → BitVec 32 := fun a => a.zeroExtend 32
    let v : ETmr.State (BitVec 8) := { vals := ![5, 5, 1], crcs := ![5, 5, 0] }
    ETmr.verify eq crc v = false ∧ ETmr.verify eq crc (ETmr.repair eq crc v).2 = true ∧
      (ETmr.get eq crc (ETmr.repair eq crc v).2).1 = 5 := by
  decide +kernel

/-- C295: as long as no round counts more corrected values than the scrub reported errors, the
uncorrectable count grows by the difference. -/
theorem C295_uncorrectable_partial (R : Int) (s : State) (x : Turn α)
    (h : R * ns ≤ x.cur - s.last) (hle : correctedIn eq crc x.vals ≤ x.errors.toNat)
    (hno : s.t.uncorrectable.toNat + (x.errors.toNat - correctedIn eq crc x.vals) < 2 ^ 64) :
    (maybeReport eq crc R s x).t.uncorrectable.toNat =
      s.t.uncorrectable.toNat + (x.errors.toNat - correctedIn eq crc x.vals) := by
  unfold maybeReport
  rw [if_pos h]
  simp only [report]
  generalize correctedIn eq crc x.vals = c at *
  have he := x.errors.isLt
  generalize x.errors = e at *
  generalize s.t.uncorrectable = u at *
  have hc : (BitVec.ofNat 64 c).toNat = c := by
    rw [BitVec.toNat_ofNat]; exact Nat.mod_eq_of_lt (by omega)
  rw [BitVec.toNat_add, BitVec.toNat_sub, hc]
  omega

theorem forN_count {β : Type} (f : Nat → Nat × β → Nat × β) (h : ∀ k s, (f k s).1 ≤ s.1 + 1)
    (n : Nat) (s : Nat × β) : (forN n f s).1 ≤ s.1 + n := by
  induction n with
  | zero => exact le_refl _
  | succ n ih => rw [forN]; have := h n (forN n f s); omega

theorem scrub_count (mem : Scrubber.Mem) (r : Scrubber.Region) :
    (Scrubber.scrubRegion mem r).1 ≤ Scrubber.blocks r.size := by
  unfold Scrubber.scrubRegion
  refine le_trans (forN_count _ ?_ _ _) (by simp)
  intro k s
  beta_reduce
  split
  · exact le_refl _
  · omega

/-- C295 (violated): "uncorrectable" is not a count.  A scrub of one region reports at most one error
per 64 bytes, so whenever at least 64 protected values of fewer than 64 bytes each are all repaired in
one round, more values are corrected than errors were reported and the counter, which is unsigned,
grows by almost 2^64. -/
theorem C295_uncorrectable_violated (R : Int) (s : State) (x : Turn α) (mem : Scrubber.Mem) (r : Scrubber.Region)
    (sz : Nat) (hsz : sz < 64) (hn : 64 ≤ x.vals.length) (hn' : x.vals.length < 2 ^ 32)
    (hreg : r.size = x.vals.length * sz)
    (herr : x.errors = BitVec.ofNat 64 (Scrubber.scrubRegion mem r).1)
    (h : R * ns ≤ x.cur - s.last) (hs : s.t.uncorrectable = 0)
    (hall : ∀ v ∈ x.vals, ETmr.verify eq crc v = false ∧
      ETmr.verify eq crc (ETmr.repair eq crc v).2 = true) :
    2 ^ 64 - 2 ^ 32 ≤ (maybeReport eq crc R s x).t.uncorrectable.toNat := by
  have hc : ∀ l : List (ETmr.State α), (∀ v ∈ l, ETmr.verify eq crc v = false ∧
      ETmr.verify eq crc (ETmr.repair eq crc v).2 = true) → correctedIn eq crc l = l.length := by
    intro l
    induction l with
    | nil => intro _; rfl
    | cons v l ih =>
      intro hl
      obtain ⟨h1, h2⟩ := hl v (by simp)
      rw [correctedIn, ih (fun w hw => hl w (by simp [hw])), h1, h2]
      simp; omega
  have hcc := hc x.vals hall
  have hb := scrub_count mem r
  have hbl : Scrubber.blocks r.size < x.vals.length := by
    unfold Scrubber.blocks
    rw [hreg]
    have : x.vals.length * sz ≤ x.vals.length * 63 := Nat.mul_le_mul_left _ (by omega)
    omega
  generalize (Scrubber.scrubRegion mem r).1 = e at *
  unfold maybeReport
  rw [if_pos h]
  simp only [report, hcc, hs, herr]
  rw [show (0 : BitVec 64) = 0#64 from rfl, BitVec.zero_add, BitVec.toNat_sub, BitVec.toNat_ofNat,
    BitVec.toNat_ofNat]
  omega

/-- The hypotheses can be met: 64 one-byte values with one copy damaged each. -/
example :
    let eq : BitVec 8 → BitVec 8 → Bool := fun a b => a == b
    let crc : BitVec 8 → BitVec 32 := fun a => a.zeroExtend 32
    let v : ETmr.State (BitVec 8) := { vals := ![1, 1, 7], crcs := ![1, 1, 1] }
    ∀ w ∈ List.replicate 64 v, ETmr.verify eq crc w = false ∧
      ETmr.verify eq crc (ETmr.repair eq crc w).2 = true := by
  intro eq crc v w hw
  rw [List.eq_of_mem_replicate hw]
  decide +kernel

/-- C295: a simulated interval lasts at least one second and at most `R`; within the last second of
the test nothing is simulated, and the loop ends. -/
theorem C295_interval (D R start cur : Int) (hR : 0 < R) :
    interval D R start cur ≤ R ∧
      (interval D R start cur ≤ 0 ↔ (D - 1) * ns < cur - start) := by
  refine ⟨min_le_left _ _, ?_⟩
  unfold interval
  rw [min_le_iff]
  have : ¬ R ≤ 0 := by omega
  simp only [this, false_or]
  simp only [ns]
  constructor
  · intro h
    by_contra hc
    have h1 : (1000000000 : Int) ≤ D * 1000000000 - (cur - start) := by linarith
    rw [Int.tdiv_eq_ediv_of_nonneg (by omega)] at h
    omega
  · intro h
    by_cases h0 : 0 ≤ D * 1000000000 - (cur - start)
    · rw [Int.tdiv_eq_ediv_of_nonneg h0]; omega
    · have : (D * 1000000000 - (cur - start)).tdiv 1000000000 =
          -((-(D * 1000000000 - (cur - start))) / 1000000000) := by
        rw [← Int.tdiv_eq_ediv_of_nonneg (by omega), Int.neg_tdiv]; omega
      rw [this]
      have := Int.ediv_nonneg (a := -(D * 1000000000 - (cur - start))) (b := 1000000000)
        (by omega) (by omega)
      omega

/-- C295: the loop ends: once a turn reads the clock after the end of the test, or within its last
second, no further turn is taken. -/
theorem C295_ends (D R start : Int) (hR : 0 < R) (s : State) (xs : List (Turn α))
    (h : ∃ x ∈ xs, D * ns ≤ x.now - start ∨ (D - 1) * ns < x.cur - start) :
    (loop eq crc D R start s xs).1 = true := by
  induction xs generalizing s with
  | nil => obtain ⟨x, hx, _⟩ := h; cases hx
  | cons x xs ih =>
    unfold loop
    dsimp only
    by_cases h1 : x.now - start < D * ns
    · rw [if_pos h1]
      by_cases h2 : interval D R start x.cur ≤ 0
      · rw [if_pos h2]
      · rw [if_neg h2]
        apply ih
        obtain ⟨y, hy, hh⟩ := h
        rcases List.mem_cons.1 hy with rfl | hy
        · exfalso
          rw [(C295_interval D R start y.cur hR).2] at h2
          rcases hh with hh | hh <;> omega
        · exact ⟨y, hy, hh⟩
    · rw [if_neg h1]

example : ∃ x ∈ ([⟨0, 0, 0, 0, [], []⟩, ⟨300 * ns, 300 * ns, 0, 0, [], []⟩] : List (Turn (BitVec 8))),
    300 * ns ≤ x.now - 0 ∨ (300 - 1) * ns < x.cur - 0 :=
  ⟨⟨300 * ns, 300 * ns, 0, 0, [], []⟩, by simp, Or.inl (by simp)⟩

/-- C295 (limit): a test of one second simulates nothing at all once the clock has moved. -/
theorem C295_one_second_limit (R start sys : Int) (hR : 0 < R) (x : Turn α) (xs : List (Turn α))
    (h : start < x.cur) (hlt : x.cur - start < R * ns) :
    (loop eq crc 1 R start (begin_ start sys) (x :: xs)).2.t = {} := by
  unfold loop
  dsimp only
  by_cases h1 : x.now - start < 1 * ns
  · rw [if_pos h1, if_pos ((C295_interval 1 R start x.cur hR).2.2 (by omega))]
    unfold maybeReport
    rw [if_neg (by simp only [begin_]; omega)]
    rfl
  · rw [if_neg h1]; rfl

/-- C295 (limit): the time simulated is not the time the test lasts: every turn simulates up to `R`
seconds however little time has passed, so any number of events can be counted in a test during which
the clock never moves. -/
theorem C295_simulated_time_limit (D R start sys : Int) (hD : 0 < D) (hR : 0 < R) (n : Nat) :
    (loop eq crc D R start (begin_ start sys)
      (List.replicate n ⟨start, start, sys, 0, [], [Kind.flip]⟩)).2.t.events = BitVec.ofNat 64 n := by
  have key : ∀ (n : Nat) (s : State), s.last = start →
      (loop eq crc D R start s
        (List.replicate n ⟨start, start, sys, 0, [], [Kind.flip]⟩)).2.t.events =
        s.t.events + BitVec.ofNat 64 n := by
    intro n
    induction n with
    | zero => intro s _; simp [loop]
    | succ n ih =>
      intro s hs
      rw [List.replicate_succ]
      unfold loop
      dsimp only
      have hns : (0 : Int) < R * ns := by simp only [ns]; omega
      rw [if_pos (by simp only [ns]; omega), if_neg (by
        rw [(C295_interval D R start start hR).2]; simp only [ns]; omega)]
      have hm : maybeReport eq crc R s (⟨start, start, sys, 0, [], [Kind.flip]⟩ : Turn α) = s :=
        (C295_report eq crc R s _).2 (by rw [hs]; dsimp only; omega)
      rw [hm]
      have := ih { s with t := countEvents s.t [Kind.flip] } hs
      refine Eq.trans this ?_
      dsimp only
      rw [C295_count_events]
      simp only [List.length_cons, List.length_nil]
      rw [BitVec.ofNat_add]
      bv_omega
  have := key n (begin_ start sys) rfl
  rw [this]; simp [begin_]

/-! ## C296: the results -/

/-- C296: if no more values are wrong than errors were detected, the recovery rate is the share of
detected errors that left no wrong value, between 0 and 100. -/
theorem C296_recovery_partial (d : BitVec 64) (w : Nat) (h : w ≤ d.toNat) (hd : 0 < d.toNat) :
    recoveryRate d w = 100 * (1 - (w : ℚ) / d.toNat) ∧ 0 ≤ recoveryRate d w ∧
      recoveryRate d w ≤ 100 ∧ (recoveryRate d w = 100 ↔ w = 0) := by
  have hlt := d.isLt
  have hw : (d - BitVec.ofNat 64 w).toNat = d.toNat - w := by
    rw [BitVec.toNat_sub, BitVec.toNat_ofNat]; omega
  have hd' : (0 : ℚ) < d.toNat := by exact_mod_cast hd
  have he : recoveryRate d w = 100 * (1 - (w : ℚ) / d.toNat) := by
    unfold recoveryRate
    rw [if_pos hd, hw, Nat.cast_sub h]
    field_simp
  have hr : 0 ≤ (w : ℚ) / d.toNat := by positivity
  have hr1 : (w : ℚ) / d.toNat ≤ 1 := by
    rw [div_le_one hd']; exact_mod_cast h
  refine ⟨he, by rw [he]; linarith, by rw [he]; linarith, ?_⟩
  rw [he]
  constructor
  · intro h100
    have : (w : ℚ) / d.toNat = 0 := by linarith
    rw [div_eq_zero_iff] at this
    rcases this with h | h
    · exact_mod_cast h
    · linarith
  · rintro rfl; simp

example : (3 : Nat) ≤ (7500#64 : BitVec 64).toNat ∧ 0 < (7500#64 : BitVec 64).toNat := by decide

/-- C296 (violated): the recovery rate and the verdict can be the opposite of the truth.  If more values
are wrong than errors were detected, the unsigned difference is huge and the protection is called
excellent; if nothing was detected, the rate is 100 however many values are wrong. -/
theorem C296_recovery_violated (d : BitVec 64) (w : Nat) (hw : d.toNat < w) (hmax : w ≤ 2 ^ 31) :
    99 < recoveryRate d w ∧ verdict (recoveryRate d w) = .excellent := by
  have h : 99 < recoveryRate d w := by
    unfold recoveryRate
    by_cases hd : d.toNat > 0
    · rw [if_pos hd]
      have hd' : (0 : ℚ) < d.toNat := by exact_mod_cast hd
      have hbig : d.toNat ≤ (d - BitVec.ofNat 64 w).toNat := by
        rw [BitVec.toNat_sub, BitVec.toNat_ofNat]; omega
      have : (1 : ℚ) ≤ ((d - BitVec.ofNat 64 w).toNat : ℚ) / d.toNat := by
        rw [le_div_iff₀ hd', one_mul]; exact_mod_cast hbig
      linarith
    · rw [if_neg hd]; norm_num
  exact ⟨h, by unfold verdict; rw [if_pos h]⟩

/-- All ten thousand values wrong, 7500 errors reported by the only scrub: "excellent". -/
example : verdict (recoveryRate 7500#64 10000) = .excellent ∧
    verdict (recoveryRate 0#64 10000) = .excellent :=
  ⟨(C296_recovery_violated 7500#64 10000 (by decide) (by norm_num)).2,
   (C296_recovery_violated 0#64 10000 (by decide) (by norm_num)).2⟩

/-- C296: the text chosen follows the limits 99, 95, 90 and 80 it names. -/
theorem C296_verdict (r : ℚ) :
    (verdict r = .excellent ↔ 99 < r) ∧ (verdict r = .veryGood ↔ 95 < r ∧ r ≤ 99) ∧
      (verdict r = .good ↔ 90 < r ∧ r ≤ 95) ∧ (verdict r = .moderate ↔ 80 < r ∧ r ≤ 90) ∧
      (verdict r = .insufficient ↔ r ≤ 80) := by
  unfold verdict
  split_ifs with h1 h2 h3 h4 <;> simp only [reduceCtorEq, false_iff, true_iff, not_and, not_lt,
    not_le, gt_iff_lt] at * <;> refine ⟨?_, ?_, ?_, ?_, ?_⟩ <;>
    first | linarith | (intro h; linarith) | (constructor <;> linarith)

/-- C296: a share of a part in a whole lies between 0 and 100, and the shares of the four kinds of
events add up to 100 as soon as there is an event (and no counter has wrapped). -/
theorem C296_shares (a b c d n : BitVec 64)
    (h : a.toNat + b.toNat + c.toNat + d.toNat = n.toNat) :
    (0 ≤ share a n ∧ share a n ≤ 100) ∧
      share a n + share b n + share c n + share d n = if n.toNat = 0 then 0 else 100 := by
  unfold share
  by_cases hn : n.toNat = 0
  · rw [if_pos hn, hn]
    have : a.toNat = 0 ∧ b.toNat = 0 ∧ c.toNat = 0 ∧ d.toNat = 0 := by omega
    rw [this.1, this.2.1, this.2.2.1, this.2.2.2]; norm_num
  · rw [if_neg hn]
    have hm : max 1 n.toNat = n.toNat := by omega
    rw [hm]
    have hp : (0 : ℚ) < n.toNat := by exact_mod_cast Nat.pos_of_ne_zero hn
    have hq : (a.toNat : ℚ) + b.toNat + c.toNat + d.toNat = n.toNat := by exact_mod_cast h
    have hle : (a.toNat : ℚ) ≤ n.toNat := by exact_mod_cast (show a.toNat ≤ n.toNat by omega)
    refine ⟨⟨by positivity, ?_⟩, ?_⟩
    · rw [div_le_iff₀ hp]; linarith
    · rw [← add_div, ← add_div, ← add_div, ← mul_add, ← mul_add, ← mul_add, hq]
      field_simp

example : (8#64).toNat + (1#64).toNat + (1#64).toNat + (0#64).toNat = (10#64).toNat := by decide

/-- C296: the integrity printed is the share of the values that are right. -/
theorem C296_integrity (off : α → Bool) (vs : List (ETmr.State α)) (_hv : vs ≠ [])
    (hlen : vs.length < 2 ^ 64) :
    integrity vs.length (incorrect eq crc off vs) =
      100 * (vs.countP fun v => !off (ETmr.get eq crc v).1 : Nat) / vs.length := by
  unfold integrity incorrect
  have h1 : vs.countP (fun v => off (ETmr.get eq crc v).1) +
      vs.countP (fun v => !off (ETmr.get eq crc v).1) = vs.length := by
    have := List.length_eq_countP_add_countP (fun v => off (ETmr.get eq crc v).1) (l := vs)
    rw [this]
    congr 2
    funext v
    cases off (ETmr.get eq crc v).1 <;> simp
  have h2 : (BitVec.ofNat 64 vs.length - BitVec.ofNat 64
      (vs.countP fun v => off (ETmr.get eq crc v).1)).toNat =
      vs.countP fun v => !off (ETmr.get eq crc v).1 := by
    rw [BitVec.toNat_sub, BitVec.toNat_ofNat, BitVec.toNat_ofNat]
    omega
  rw [h2]

/-- C296: once a report has been made the file has one row per report after an initial row, in the
order of the reports, with the seconds since the first report. -/
theorem C296_csv (r : Record) (rs : List Record) :
    ∃ rows, csv true (r :: rs) = .ok (some rows) ∧ rows.length = (r :: rs).length + 1 ∧
      (rows.tail.map fun q => (q.totals, q.level)) = (r :: rs).map (fun q => (q.totals, q.level)) ∧
      rows.tail.map (fun q => q.seconds) = (r :: rs).map (fun q => (q.time - r.time).tdiv ns) := by
  refine ⟨_, rfl, by simp, ?_, ?_⟩ <;> simp [Function.comp_def]

/-- C296 (violated): a test in which no report falls due, which is every test whose turns all start
less than the reporting interval after the beginning, ends in undefined behaviour when the file is
written: the program takes the front of an empty list of records. -/
theorem C296_csv_violated (D R start sys : Int) (xs : List (Turn α))
    (h : ∀ x ∈ xs, x.cur - start < R * ns) :
    (loop eq crc D R start (begin_ start sys) xs).2.records = [] ∧
      csv true (loop eq crc D R start (begin_ start sys) xs).2.records = .ub := by
  have key : ∀ (xs : List (Turn α)) (s : State), s.last = start → s.records = [] →
      (∀ x ∈ xs, x.cur - start < R * ns) → (loop eq crc D R start s xs).2.records = [] := by
    intro xs
    induction xs with
    | nil => intro s _ hr _; exact hr
    | cons x xs ih =>
      intro s hl hr hx
      have hm : maybeReport eq crc R s x = s :=
        (C295_report eq crc R s x).2 (by rw [hl]; exact hx x (by simp))
      unfold loop
      dsimp only
      rw [hm]
      by_cases h1 : x.now - start < D * ns
      · rw [if_pos h1]
        by_cases h2 : interval D R start x.cur ≤ 0
        · rw [if_pos h2]; exact hr
        · rw [if_neg h2]; exact ih _ hl hr (fun y hy => hx y (by simp [hy]))
      · rw [if_neg h1]; exact hr
  have := key xs (begin_ start sys) rfl rfl h
  exact ⟨this, by rw [this]; rfl⟩

/-- A test of ten seconds, as `stress_test 10` runs it with the interval of fifteen seconds. -/
example : duration (some 10) = 10 ∧
    ∀ x ∈ ([⟨0, 5, 0, 0, [], []⟩, ⟨10, 9 * ns, 0, 0, [], []⟩, ⟨10 * ns, 10 * ns, 0, 0, [], []⟩] :
      List (Turn (BitVec 8))), x.cur - 0 < 15 * ns := by
  refine ⟨rfl, ?_⟩
  simp [ns]

/-- C296: the duration is the argument if that is a positive number and five minutes otherwise. -/
theorem C296_duration (arg : Option Int) :
    0 < duration arg ∧ (∀ n, arg = some n → 0 < n → duration arg = n) ∧
      ((∀ n, arg = some n → n ≤ 0) → duration arg = 300) := by
  rcases arg with _ | n
  · simp [duration]
  · unfold duration
    dsimp only
    by_cases h : n > 0
    · rw [if_pos h]
      exact ⟨h, fun m hm _ => by simpa using hm, fun hh => absurd (hh n rfl) (by omega)⟩
    · rw [if_neg h]
      exact ⟨by norm_num, fun m hm hp => by simp at hm; omega, fun _ => rfl⟩

/-! ## C297: the verification program -/

/-- C297 (violated): the check of the adaptive protection fails whenever the program runs through it in
less than a second, whatever the ten reports say: updates within a second of the last assessment are
ignored.  The errors reported have no effect. -/
theorem C297_adaptive_violated (t0 t1 : Int) (ts : List Int)
    (h1 : t1 - t0 < ns) (hts : ∀ t ∈ ts, t - t0 < ns) :
    verifyAdaptive t0 t1 ts = (false, false) := by
  have hup : ∀ (p : AdaptiveProt.State) (a b : UInt32) (t : Int), p.last = t0 → t - t0 < ns →
      AdaptiveProt.update p a b t = p := by
    intro p a b t hl ht
    unfold AdaptiveProt.update
    dsimp only
    rw [if_neg]
    rw [hl]
    simp only [ns] at ht
    by_cases h0 : 0 ≤ t - t0
    · rw [Int.tdiv_eq_ediv_of_nonneg h0]; omega
    · have : (t - t0).tdiv 1000000000 = -((-(t - t0)) / 1000000000) := by
        rw [← Int.tdiv_eq_ediv_of_nonneg (by omega), Int.neg_tdiv]; omega
      rw [this]
      have := Int.ediv_nonneg (a := -(t - t0)) (b := 1000000000) (by omega) (by omega)
      omega
  have hf : ∀ (l : List Int) (p : AdaptiveProt.State), p.last = t0 → (∀ t ∈ l, t - t0 < ns) →
      l.foldl (fun p t => AdaptiveProt.update p 100 50 t) p = p := by
    intro l
    induction l with
    | nil => intro p _ _; rfl
    | cons t l ih =>
      intro p hl hh
      rw [List.foldl_cons, hup p 100 50 t hl (hh t (by simp))]
      exact ih p hl (fun u hu => hh u (by simp [hu]))
  unfold verifyAdaptive
  dsimp only
  rw [hup (AdaptiveProt.init 1 t0) 10 5 t1 rfl h1, hf _ _ rfl hts]
  simp [AdaptiveProt.init, AdaptiveProt.register]

example : (500 : Int) - 0 < ns ∧ ∀ t ∈ ([600, 700] : List Int), t - 0 < ns := by simp [ns]

/-- C297: once a report of 150 errors comes a second or more (and at most 45) after construction and
all others within a second of it, the check passes. -/
theorem C297_adaptive_passes (t0 t1 t : Int) (h1 : t1 - t0 < ns) (hlo : ns ≤ t - t0)
    (hhi : t - t0 < 46 * ns) (ts : List Int) (hts : ∀ u ∈ ts, u - t < ns) :
    (verifyAdaptive t0 t1 (t :: ts)).1 = true := by
  have hel : ∀ a b : Int, a - b < ns → ¬ 0 < (a - b).tdiv 1000000000 := by
    intro a b ht
    simp only [ns] at ht
    by_cases h0 : 0 ≤ a - b
    · rw [Int.tdiv_eq_ediv_of_nonneg h0]; omega
    · have : (a - b).tdiv 1000000000 = -((-(a - b)) / 1000000000) := by
        rw [← Int.tdiv_eq_ediv_of_nonneg (by omega), Int.neg_tdiv]; omega
      rw [this]
      have := Int.ediv_nonneg (a := -(a - b)) (b := 1000000000) (by omega) (by omega)
      omega
  have hf : ∀ (l : List Int) (p : AdaptiveProt.State), p.last = t → (∀ u ∈ l, u - t < ns) →
      l.foldl (fun p t => AdaptiveProt.update p 100 50 t) p = p := by
    intro l
    induction l with
    | nil => intro p _ _; rfl
    | cons u l ih =>
      intro p hl hh
      have : AdaptiveProt.update p 100 50 u = p := by
        unfold AdaptiveProt.update
        dsimp only
        rw [hl, if_neg (hel u t (hh u (by simp)))]
      rw [List.foldl_cons, this]
      exact ih p hl (fun v hv => hh v (by simp [hv]))
  have h0 : AdaptiveProt.update (AdaptiveProt.init 1 t0) 10 5 t1 = AdaptiveProt.init 1 t0 := by
    unfold AdaptiveProt.update
    dsimp only [AdaptiveProt.init]
    rw [if_neg (hel t1 t0 h1)]
  unfold verifyAdaptive
  dsimp only
  rw [h0, List.foldl_cons]
  have hE : 1 ≤ (t - t0).tdiv 1000000000 ∧ (t - t0).tdiv 1000000000 ≤ 45 := by
    simp only [ns] at hlo hhi
    rw [Int.tdiv_eq_ediv_of_nonneg (by omega)]; omega
  have hup : (AdaptiveProt.update (AdaptiveProt.register (AdaptiveProt.init 1 t0)).1 100 50 t).level
      = 3 ∧ (AdaptiveProt.update (AdaptiveProt.register (AdaptiveProt.init 1 t0)).1 100 50 t).last
      = t := by
    unfold AdaptiveProt.update
    dsimp only [AdaptiveProt.register, AdaptiveProt.init]
    generalize (t - t0).tdiv 1000000000 = E at hE
    rw [if_pos (by omega)]
    have hq : (100 + 50 : UInt32).toNat = 150 := rfl
    rw [hq]
    have hE1 : (1 : ℚ) ≤ E := by exact_mod_cast hE.1
    have hE2 : (E : ℚ) ≤ 45 := by exact_mod_cast hE.2
    have hflux : (1 : ℚ) ≤ 3 / 10 * (((150 : Nat) : ℚ) / E) + (1 - 3 / 10) * 0 := by
      have : (10 / 3 : ℚ) ≤ ((150 : Nat) : ℚ) / E := by
        rw [le_div_iff₀ (by linarith)]; push_cast; linarith
      linarith
    unfold AdaptiveProt.adjust
    dsimp only
    rw [if_pos hflux, if_pos (by decide)]
    simp [AdaptiveProt.notify]
  rw [hf _ _ hup.2 hts]
  rw [hup.1]
  show decide ((3 : AdaptiveProt.Level) > 1) = true
  decide

example : (500 : Int) - 0 < ns ∧ ns ≤ 2 * ns - 0 ∧ (2 : Int) * ns - 0 < 46 * ns := by simp [ns]

/-- C297 (violated): the check that a change of environment raises the rate fails for every pair of
environments: it compares the new rate with itself through a reference. -/
theorem C297_environment_violated (mem : Nat → ℚ) (member : Nat) (newRate : ℚ) :
    environmentUpdateWorks mem member newRate = false := by
  simp [environmentUpdateWorks]

/-- C297: `repairAll` repairs every value that fails the check, leaves the others alone and counts the
failures; afterwards every value whose vote equals itself passes. -/
theorem C297_repair_all (vs : List (ETmr.State α)) :
    (repairAll eq crc vs).1 = (vs.countP fun v => !ETmr.verify eq crc v) ∧
      (repairAll eq crc vs).2 = vs.map (fun v =>
        if ETmr.verify eq crc v = true then v else (ETmr.repair eq crc v).2) ∧
      ((∀ a, eq a a = true) → ∀ w ∈ (repairAll eq crc vs).2, ETmr.verify eq crc w = true) := by
  have h12 : (repairAll eq crc vs).1 = (vs.countP fun v => !ETmr.verify eq crc v) ∧
      (repairAll eq crc vs).2 = vs.map (fun v =>
        if ETmr.verify eq crc v = true then v else (ETmr.repair eq crc v).2) := by
    induction vs with
    | nil => exact ⟨rfl, rfl⟩
    | cons v vs ih =>
      obtain ⟨h1, h2⟩ := ih
      unfold repairAll
      dsimp only
      by_cases hv : ETmr.verify eq crc v = true
      · rw [if_neg (by simp [hv])]
        simp [List.countP_cons, hv, h1, h2]
      · rw [if_pos (by simp [hv])]
        simp [List.countP_cons, hv, h1, h2]
  refine ⟨h12.1, h12.2, ?_⟩
  intro heq w hw
  rw [h12.2] at hw
  obtain ⟨v, -, rfl⟩ := List.mem_map.1 hw
  by_cases hv : ETmr.verify eq crc v = true
  · rw [if_pos hv]; exact hv
  · rw [if_neg hv]; exact C295_corrected_counts_all eq crc v (heq _)

/-- C297: the recovery rate of the integrated test is 100 exactly if nothing failed the check or no
value is wrong afterwards; it is at most 100. -/
theorem C297_recovery (off : α → Bool) (vs : List (ETmr.State α)) :
    (integrated eq crc off vs).2.2 ≤ 100 ∧
      ((integrated eq crc off vs).2.2 = 100 ↔
        (integrated eq crc off vs).1 = 0 ∨ (integrated eq crc off vs).2.1 = 0) := by
  unfold integrated
  dsimp only
  generalize (repairAll eq crc vs).1 = n
  generalize incorrect eq crc off (repairAll eq crc vs).2 = w
  by_cases h : n > 0
  · rw [if_pos h]
    have hn : (0 : ℚ) < n := by exact_mod_cast h
    have hw : 0 ≤ (w : ℚ) / n := by positivity
    refine ⟨by linarith, ?_⟩
    constructor
    · intro hh
      right
      have : (w : ℚ) / n = 0 := by linarith
      rw [div_eq_zero_iff] at this
      rcases this with h' | h'
      · exact_mod_cast h'
      · linarith
    · rintro (h0 | h0)
      · omega
      · subst h0; simp
  · rw [if_neg h]
    have : n = 0 := by omega
    subst this
    simp

/-- C297 (violated): "recovery rate 100 %" does not mean that all values are right: values that pass
the check with a wrong content in all three copies are not counted as errors, and one such value next
to a repaired one gives a rate of zero. -/
theorem C297_recovery_violated :
    let eq : BitVec 8 → BitVec 8 → Bool := fun a b => a == b
    let crc : BitVec 8 → BitVec 32 := fun a => a.zeroExtend 32
    let off : BitVec 8 → Bool := fun a => a != 1
    let bad : ETmr.State (BitVec 8) := { vals := ![5, 5, 5], crcs := ![5, 5, 5] }
    let hit : ETmr.State (BitVec 8) := { vals := ![1, 1, 7], crcs := ![1, 1, 1] }
    integrated eq crc off [bad] = (0, 1, 100) ∧ integrated eq crc off [bad, hit] = (1, 1, 0) := by
  decide +kernel

end Verif.Props.StressTest
