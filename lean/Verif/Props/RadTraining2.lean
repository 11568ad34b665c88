import Verif.Props.RadTraining
import Mathlib.Data.List.Flatten
import Mathlib.Tactic.Positivity
/-!
C130: radiation-aware training; C133: its statistics; C134: the saved results.
-/
namespace Verif.RadTraining
open Verif.AutoSearch (Rng maxIdx)
open Verif.ArchTester (Env sig6)
open Verif.FaultTools (flipBit)

/-! ### Specification -/

/-- The samples of flat data: inputs of size `i` with labels of size `o`. -/
def samples (i o : ℕ) (data labels : List ℝ) : List (List ℝ × List ℝ) :=
  (List.range (data.length / i)).map fun k => ((data.drop (k * i)).take i, (labels.drop (k * o)).take o)

/-- A record of the samples a network was trained on. -/
structure Record {N : Type} (nw : Network N) (log : N → List (List ℝ × List ℝ)) : Prop where
  step : ∀ n x y, log (nw.step n x y) = log n ++ [(x, y)]
  set : ∀ n l, log (nw.set n l) = log n

/-- Training steps keep the sizes and shapes of a network. -/
structure Steady {N : Type} (nw : Network N) : Prop where
  inn : ∀ n x y, nw.inSize (nw.step n x y) = nw.inSize n
  out : ∀ n x y, nw.outSize (nw.step n x y) = nw.outSize n
  shape : ∀ n x y, SameShape (nw.layers n) (nw.layers (nw.step n x y))

theorem lib_steady : Steady lib := ⟨fun _ _ _ => rfl, fun _ _ _ => rfl, fun _ _ _ => rfl⟩

/-- Data that fits the network. -/
def Fits {N : Type} (nw : Network N) (n : N) (data labels : List ℝ) : Prop :=
  0 < nw.inSize n ∧ 0 < nw.outSize n ∧ nw.inSize n ∣ data.length ∧ labels.length = data.length / nw.inSize n * nw.outSize n

/-! ### Lemmas -/

theorem zip_samples (i o : ℕ) (data labels : List ℝ) : (chop i (data.length / i) data).zip (chop o (data.length / i) labels) = samples i o data labels := by
  unfold chop samples
  rw [List.zip_map', List.map_inj_left]
  intro a _
  rfl

theorem samples_length (i o : ℕ) (data labels : List ℝ) : (samples i o data labels).length = data.length / i := by simp [samples]

theorem train_eq {N : Type} {nw : Network N} {data labels : List ℝ} {cfg : Config} {s : State N} (h : Fits nw s.net data labels) :
    train nw data labels cfg s =
      (if s.trainer.target = true ∧ s.trainer.crit = none then s.critical nw (samples (nw.inSize s.net) (nw.outSize s.net) data labels) else .ok s : Outcome (State N)).bind fun s0 =>
      (frequency s0.trainer.prob).bind fun f =>
      (State.epochs nw (samples (nw.inSize s.net) (nw.outSize s.net) data labels) cfg.batch f cfg.epochs s0).bind fun s1 =>
        .ok (.stats (s1.trainer.stats.normalise (max 1 (cfg.epochs / f))), { s1 with trainer := { s1.trainer with stats := s1.trainer.stats.normalise (max 1 (cfg.epochs / f)) } }) := by
  obtain ⟨h1, h2, h3, h4⟩ := h
  unfold train
  simp only
  rw [if_neg (by omega), if_neg (by rw [Nat.mod_eq_zero_of_dvd h3, h4, Nat.mul_mod_left]; simp), if_neg (by rw [h4]; simp), zip_samples]

theorem trainFrom_ok {N : Type} (nw : Network N) (ps : List (List ℝ × List ℝ)) (start : ℕ) (n : N) : ∀ k, start + k ≤ ps.length → trainFrom nw ps start k n = .ok (((ps.drop start).take k).foldl (fun n p => nw.step n p.1 p.2) n)
  | 0, _ => rfl
  | k + 1, h => by
    have hk : start + k < ps.length := by omega
    unfold trainFrom
    rw [trainFrom_ok nw ps start n k (by omega)]
    simp only [Outcome.bind, List.getElem?_eq_getElem hk]
    rw [List.take_add_one, List.getElem?_drop, List.getElem?_eq_getElem hk, List.foldl_append]
    rfl

theorem wrap {M start size len : ℕ} (h1 : start < M) (h2 : start + size < M) (h3 : start ≤ len) : (min ((start % M + size) % M) len + M - start % M) % M = min (start + size) len - start := by
  rw [Nat.mod_eq_of_lt h1, Nat.mod_eq_of_lt h2, show min (start + size) len + M - start = (min (start + size) len - start) + M by omega, Nat.add_mod_right, Nat.mod_eq_of_lt (by omega)]

theorem bind_ok {α β : Type} (a : α) (f : α → Outcome β) : Outcome.bind (.ok a) f = f a := rfl

theorem batches_succ {N : Type} (nw : Network N) (ps : List (List ℝ × List ℝ)) (size b : ℕ) (n : N) : batches nw ps size (b + 1) n = (batches nw ps size b n).bind (batch nw ps size b) := rfl

theorem batchStart_eq {size b : ℕ} (hs : b * size < 2 ^ 64) : batchStart size b = b * size := Nat.mod_eq_of_lt hs

theorem batchCount_eq {size b len : ℕ} (h2 : b * size + size < 2 ^ 64) (hb : b * size ≤ len) : batchCount size len b = min (b * size + size) len - b * size := by
  unfold batchCount batchStart
  exact wrap (Nat.lt_of_le_of_lt (Nat.le_add_right _ _) h2) h2 hb

theorem batches_ok {N : Type} (nw : Network N) (ps : List (List ℝ × List ℝ)) {size : ℕ} (hM : ∀ b, b * size < ps.length → batchStart size b = b * size ∧ batchCount size ps.length b = min (b * size + size) ps.length - b * size) (n : N) (b : ℕ) (hb : b * size < ps.length + size) :
    batches nw ps size b n = .ok ((ps.take (b * size)).foldl (fun n p => nw.step n p.1 p.2) n) := by
  induction b with
  | zero => simp [batches]
  | succ b ih =>
    have hb : b * size < ps.length := by rw [Nat.add_mul] at hb; omega
    obtain ⟨hst, hct⟩ := hM b hb
    rw [batches_succ, ih (by omega), bind_ok, batch, hst, hct, trainFrom_ok nw ps _ _ _ (by omega)]
    congr 1
    rw [← List.foldl_append]
    congr 1
    rw [Nat.add_mul, Nat.one_mul, List.take_add]
    congr 1
    rcases Nat.le_total (b * size + size) ps.length with hc | hc
    · rw [Nat.min_eq_left hc, Nat.add_sub_cancel_left]
    · rw [Nat.min_eq_right hc, List.take_of_length_le (by simp), List.take_of_length_le (by simp; omega)]

/-- Batches of a usual size visit every sample once, in order. -/
theorem batches_all {N : Type} (nw : Network N) (ps : List (List ℝ × List ℝ)) {size : ℕ} (h0 : 0 < size) (h1 : size < 2 ^ 62) (h2 : ps.length < 2 ^ 62) (n : N) :
    batches nw ps size (numBatches ps.length size) n = .ok (ps.foldl (fun n p => nw.step n p.1 p.2) n) := by
  have hn : numBatches ps.length size = (ps.length + size - 1) / size := by
    unfold numBatches
    rw [show ps.length + size + 2 ^ 64 - 1 = (ps.length + size - 1) + 2 ^ 64 by omega, Nat.add_mod_right, Nat.mod_eq_of_lt (by omega)]
  have hle : numBatches ps.length size * size < ps.length + size := by
    rw [hn]
    have := Nat.div_mul_le_self (ps.length + size - 1) size
    omega
  rw [batches_ok nw ps (fun b hb => ⟨batchStart_eq (by omega), batchCount_eq (by omega) hb.le⟩) n _ hle, List.take_of_length_le]
  rw [hn]
  have := Nat.lt_div_mul_add h0 (a := ps.length + size - 1)
  omega

theorem foldl_inv {N P : Type} {f : N → P → N} {φ : N → Prop} (h : ∀ n p, φ n → φ (f n p)) : ∀ (ps : List P) (n : N), φ n → φ (ps.foldl f n)
  | [], _, hn => hn
  | p :: t, n, hn => foldl_inv h t (f n p) (h n p hn)

theorem record_fold {N : Type} {nw : Network N} {log : N → List (List ℝ × List ℝ)} (hr : Record nw log) : ∀ (ps : List (List ℝ × List ℝ)) (n : N), log (ps.foldl (fun n p => nw.step n p.1 p.2) n) = log n ++ ps
  | [], n => by simp
  | p :: t, n => by
    rw [List.foldl_cons, record_fold hr t, hr.step]
    simp

theorem injection_net {N : Type} (nw : Network N) (ps : List (List ℝ × List ℝ)) (s : State N) :
    (s.injection nw ps).net = ps.foldl (fun n p => nw.step n p.1 p.2) (nw.set s.net (s.trainer.inject (nw.layers s.net) s.rng).2.1) := rfl

theorem critical_ok {N : Type} {nw : Network N} (hw : Lawful nw) {ps : List (List ℝ × List ℝ)} {s s' : State N} (h : s.critical nw ps = .ok s') : s'.net = s.net ∧ ∃ c, s'.trainer = { s.trainer with crit := c } := by
  unfold State.critical at h
  cases hu : update nw (firstTen ps).1 (firstTen ps).2 s.net s.trainer.crit s.rng with
  | ub => rw [hu] at h; cases h
  | ok u =>
    obtain ⟨n, c, g⟩ := u
    rw [hu] at h
    simp only [Outcome.bind] at h
    cases h
    exact ⟨C132_restored hw hu, c, rfl⟩

/-- The parts of an epoch that succeeds. -/
theorem epoch_ok {N : Type} {nw : Network N} (hw : Lawful nw) {ps : List (List ℝ × List ℝ)} {batch f e : ℕ} {s s' : State N} (h : s.epoch nw ps batch f e = .ok s') :
    batch ≠ 0 ∧ ∃ n, batches nw ps batch (numBatches ps.length batch) s.net = .ok n ∧
      ∃ s1 : State N, s1 = (if e % f = 0 then State.injection nw ps { s with net := n } else { s with net := n }) ∧ (e % f = 0 → 10 * f < 2 ^ 31) ∧ s'.net = s1.net ∧ ∃ c, s'.trainer = { s1.trainer with crit := c } := by
  unfold State.epoch at h
  by_cases hb : batch = 0
  · rw [if_pos hb] at h; cases h
  · rw [if_neg hb] at h
    cases hn : batches nw ps batch (numBatches ps.length batch) s.net with
    | ub => rw [hn] at h; cases h
    | ok n =>
      rw [hn] at h
      simp only [Outcome.bind] at h
      refine ⟨hb, n, rfl, ?_⟩
      have fin : ∀ s1 : State N, (if s1.trainer.target = true ∧ s1.trainer.crit.isSome ∧ e % (10 * f) = 0 then s1.critical nw ps else .ok s1 : Outcome (State N)) = .ok s' → s'.net = s1.net ∧ ∃ c, s'.trainer = { s1.trainer with crit := c } := by
        intro s1 h1
        split at h1
        · exact critical_ok hw h1
        · cases h1; exact ⟨rfl, s'.trainer.crit, rfl⟩
      by_cases he : e % f = 0
      · rw [if_pos he] at h ⊢
        by_cases h10 : 10 * f ≥ 2 ^ 31
        · rw [if_pos h10] at h; cases h
        · rw [if_neg h10] at h
          exact ⟨_, rfl, fun _ => by omega, fin _ h⟩
      · rw [if_neg he] at h ⊢
        exact ⟨_, rfl, fun hh => absurd hh he, fin _ h⟩

theorem epochs_inv {N : Type} {nw : Network N} (hw : Lawful nw) {ps : List (List ℝ × List ℝ)} {batch f : ℕ} {φ : ℕ → N → Trainer → Prop}
    (hc : ∀ e n t c, φ e n t → φ e n { t with crit := c })
    (hs : ∀ e (s : State N) n, φ e s.net s.trainer → batches nw ps batch (numBatches ps.length batch) s.net = .ok n →
      φ (e + 1) (if e % f = 0 then State.injection nw ps { s with net := n } else { s with net := n }).net (if e % f = 0 then State.injection nw ps { s with net := n } else { s with net := n }).trainer) :
    ∀ (E : ℕ) {s s' : State N}, State.epochs nw ps batch f E s = .ok s' → φ 0 s.net s.trainer → φ E s'.net s'.trainer
  | 0, s, s', h, h0 => by cases h; exact h0
  | E + 1, s, s', h, h0 => by
    unfold State.epochs at h
    cases hn : State.epochs nw ps batch f E s with
    | ub => rw [hn] at h; cases h
    | ok s1 =>
      rw [hn] at h
      have ih := epochs_inv hw hc hs E hn h0
      obtain ⟨-, n, hb, s2, hs2, -, h3, c, h4⟩ := epoch_ok hw (show s1.epoch nw ps batch f E = .ok s' from h)
      rw [h3, h4, hs2]
      exact hc _ _ _ _ (hs E s1 n ih hb)

/-- A training that returns statistics, taken apart. -/
theorem train_ok {N : Type} {nw : Network N} (hw : Lawful nw) {data labels : List ℝ} {cfg : Config} {s s' : State N} {st : Stats} (hf : Fits nw s.net data labels) (h : train nw data labels cfg s = .ok (.stats st, s')) :
    ∃ s0 f s1, s0.net = s.net ∧ (∃ c, s0.trainer = { s.trainer with crit := c }) ∧ f = max 1 ⌊1 / s.trainer.prob⌋₊ ∧
      State.epochs nw (samples (nw.inSize s.net) (nw.outSize s.net) data labels) cfg.batch f cfg.epochs s0 = .ok s1 ∧
      st = s1.trainer.stats.normalise (max 1 (cfg.epochs / f)) ∧ s'.net = s1.net := by
  rw [train_eq hf] at h
  have main : ∀ s0 : State N, s0.net = s.net → (∃ c, s0.trainer = { s.trainer with crit := c }) →
      ((frequency s0.trainer.prob).bind fun f =>
      (State.epochs nw (samples (nw.inSize s.net) (nw.outSize s.net) data labels) cfg.batch f cfg.epochs s0).bind fun s1 =>
        .ok (.stats (s1.trainer.stats.normalise (max 1 (cfg.epochs / f))), { s1 with trainer := { s1.trainer with stats := s1.trainer.stats.normalise (max 1 (cfg.epochs / f)) } }) : Outcome (Res × State N)) = .ok (.stats st, s') →
      ∃ s0 f s1, s0.net = s.net ∧ (∃ c, s0.trainer = { s.trainer with crit := c }) ∧ f = max 1 ⌊1 / s.trainer.prob⌋₊ ∧
      State.epochs nw (samples (nw.inSize s.net) (nw.outSize s.net) data labels) cfg.batch f cfg.epochs s0 = .ok s1 ∧
      st = s1.trainer.stats.normalise (max 1 (cfg.epochs / f)) ∧ s'.net = s1.net := by
    intro s0 hs0 hc hh
    have hp : s0.trainer.prob = s.trainer.prob := by obtain ⟨c, hc⟩ := hc; rw [hc]
    cases hfr : frequency s0.trainer.prob with
    | ub => rw [hfr] at hh; cases hh
    | ok f =>
      rw [hfr] at hh
      simp only [Outcome.bind] at hh
      cases he : State.epochs nw (samples (nw.inSize s.net) (nw.outSize s.net) data labels) cfg.batch f cfg.epochs s0 with
      | ub => rw [he] at hh; cases hh
      | ok s1 =>
        rw [he] at hh
        simp only [Outcome.ok.injEq, Prod.mk.injEq, Res.stats.injEq] at hh
        refine ⟨s0, f, s1, hs0, hc, ?_, he, hh.1.symm, ?_⟩
        · unfold frequency at hfr
          split at hfr
          · cases hfr
          · cases hfr; rw [hp]
        · rw [← hh.2]
  by_cases ht : s.trainer.target = true ∧ s.trainer.crit = none
  · rw [if_pos ht] at h
    cases hcr : s.critical nw (samples (nw.inSize s.net) (nw.outSize s.net) data labels) with
    | ub => rw [hcr] at h; cases h
    | ok s0 =>
      rw [hcr] at h
      obtain ⟨h1, h2⟩ := critical_ok hw hcr
      exact main s0 h1 h2 h
  · rw [if_neg ht] at h
    exact main s rfl ⟨s.trainer.crit, rfl⟩ h

/-! ### C130 -/

/-- C130, rejected data: data or labels that are not whole samples, or not the same number, give one of the two messages, and network, trainer and engine are as before. -/
theorem C130_rejected {N : Type} {nw : Network N} {data labels : List ℝ} (cfg : Config) (s : State N) (hi : 0 < nw.inSize s.net) (ho : 0 < nw.outSize s.net) :
    (¬ (nw.inSize s.net ∣ data.length ∧ nw.outSize s.net ∣ labels.length) → train nw data labels cfg s = .ok (.sizes, s)) ∧
    (nw.inSize s.net ∣ data.length → nw.outSize s.net ∣ labels.length → data.length / nw.inSize s.net ≠ labels.length / nw.outSize s.net → train nw data labels cfg s = .ok (.counts, s)) := by
  unfold train
  simp only
  rw [if_neg (by omega)]
  constructor
  · intro h
    rw [if_pos]
    rw [Nat.dvd_iff_mod_eq_zero, Nat.dvd_iff_mod_eq_zero] at h
    tauto
  · intro h1 h2 h3
    rw [if_neg (by rw [Nat.mod_eq_zero_of_dvd h1, Nat.mod_eq_zero_of_dvd h2]; simp), if_pos]
    intro h
    apply h3
    rw [← h, Nat.mul_div_cancel _ ho]

/-- C130, samples: fitting data are cut into samples of the network's sizes that put together are the data. -/
theorem C130_samples {i o : ℕ} {data labels : List ℝ} (hd : i ∣ data.length) (hl : labels.length = data.length / i * o) (hi : 0 < i) :
    (samples i o data labels).length = data.length / i ∧ (∀ p ∈ samples i o data labels, p.1.length = i ∧ p.2.length = o) ∧
    ((samples i o data labels).map Prod.fst).flatten = data ∧ ((samples i o data labels).map Prod.snd).flatten = labels := by
  have key : ∀ (k m : ℕ) (l : List ℝ), l.length = m * k → ((List.range m).map fun a => (l.drop (a * k)).take k).flatten = l := by
    intro k m
    induction m with
    | zero => intro l hl; rw [Nat.zero_mul, List.length_eq_zero_iff] at hl; simp [hl]
    | succ m ih =>
      intro l hl
      rw [List.range_succ_eq_map, List.map_cons, List.flatten_cons, List.map_map]
      have := ih (l.drop k) (by rw [List.length_drop, hl, Nat.add_mul]; omega)
      have h2 : ((fun a => (l.drop (a * k)).take k) ∘ Nat.succ) = fun a => ((l.drop k).drop (a * k)).take k := by
        funext a
        simp only [Function.comp, List.drop_drop, Nat.succ_eq_add_one, Nat.add_mul, Nat.one_mul, Nat.add_comm k]
      rw [h2, this]
      simp
  obtain ⟨m, hm⟩ := hd
  have hm' : data.length / i = m := by rw [hm, Nat.mul_div_cancel_left _ hi]
  refine ⟨samples_length _ _ _ _, ?_, ?_, ?_⟩
  · intro p hp
    unfold samples at hp
    rw [List.mem_map] at hp
    obtain ⟨a, ha, rfl⟩ := hp
    rw [List.mem_range, hm'] at ha
    have hle : (a + 1) * i ≤ m * i := Nat.mul_le_mul_right _ ha
    have hle' : (a + 1) * o ≤ m * o := Nat.mul_le_mul_right _ ha
    rw [Nat.add_mul, Nat.one_mul] at hle hle'
    rw [hm'] at hl
    simp only [List.length_take, List.length_drop, hl, hm]
    rw [Nat.mul_comm i m]
    exact ⟨by omega, by omega⟩
  · unfold samples
    rw [List.map_map]
    refine key i _ data ?_
    rw [hm', hm, Nat.mul_comm]
  · unfold samples
    rw [List.map_map]
    exact key o _ labels hl

/-- C130, presentation: with a positive batch size every epoch trains on every sample exactly once, in order, and once more after every injection, which happens in the epochs that are multiples of the injection interval. -/
theorem C130_presented {N : Type} {nw : Network N} (hw : Lawful nw) {log : N → List (List ℝ × List ℝ)} (hr : Record nw log) {data labels : List ℝ} {cfg : Config} {s s' : State N} {st : Stats}
    (hf : Fits nw s.net data labels) (hb : 0 < cfg.batch ∧ cfg.batch < 2 ^ 31) (hl : data.length < 2 ^ 62) (h : train nw data labels cfg s = .ok (.stats st, s')) :
    log s'.net = log s.net ++ (List.range cfg.epochs).flatMap fun e =>
      samples (nw.inSize s.net) (nw.outSize s.net) data labels ++ if e % max 1 ⌊1 / s.trainer.prob⌋₊ = 0 then samples (nw.inSize s.net) (nw.outSize s.net) data labels else [] := by
  obtain ⟨s0, f, s1, h1, -, h2, h3, -, h4⟩ := train_ok hw hf h
  have hlen : (samples (nw.inSize s.net) (nw.outSize s.net) data labels).length < 2 ^ 62 := by
    rw [samples_length]
    exact lt_of_le_of_lt (Nat.div_le_self _ _) hl
  rw [h4, ← h2, ← h1]
  rw [← h1] at h3 hlen
  generalize samples (nw.inSize s0.net) (nw.outSize s0.net) data labels = ps at h3 hlen ⊢
  refine epochs_inv hw (φ := fun e n _ => log n = log s0.net ++ (List.range e).flatMap fun e => ps ++ if e % f = 0 then ps else []) (fun e n t c h => h) ?_ cfg.epochs h3 (by simp)
  intro e s n hn hbt
  rw [batches_all nw ps hb.1 (by omega) hlen] at hbt
  cases hbt
  rw [List.range_succ, List.flatMap_append, ← List.append_assoc, ← hn, List.flatMap_singleton]
  split
  · rw [injection_net, record_fold hr, hr.set]
    simp only
    rw [record_fold hr, List.append_assoc]
  · simp only
    rw [record_fold hr, List.append_nil]

theorem shape_full {a b : List Layer} (h : SameShape a b) : ∀ l : ℕ, (∃ x, a[l]? = some x ∧ Full x) → ∀ y, b[l]? = some y → Full y := by
  rintro l ⟨x, hx, h1, h2⟩ y hy
  have hl := congrArg (fun (m : List (List ℕ × ℕ)) => m[l]?) h
  simp only [List.getElem?_map, hx, hy, Option.map_some, Option.some.injEq, Prod.mk.injEq] at hl
  obtain ⟨hl, -⟩ := hl
  refine ⟨fun he => ?_, fun r hr he => ?_⟩
  · rw [he] at hl; simp at hl; exact h1 hl
  · have : (0 : ℕ) ∈ y.weights.map List.length := List.mem_map.mpr ⟨r, hr, by rw [he]; rfl⟩
    rw [← hl, List.mem_map] at this
    obtain ⟨r', hr', h0⟩ := this
    exact h2 r' hr' (List.length_eq_zero_iff.mp h0)

theorem shape_at {a b : List Layer} (h : SameShape a b) (l i j : ℕ) : (at3 (a.map Layer.weights) l i j).isSome = (at3 (b.map Layer.weights) l i j).isSome := by
  rw [at3_weights, at3_weights]
  have hl := congrArg (fun (m : List (List ℕ × ℕ)) => m[l]?) h
  simp only [List.getElem?_map] at hl
  cases ha : a[l]? with
  | none =>
    cases hb : b[l]? with
    | none => rfl
    | some y => rw [ha, hb] at hl; cases hl
  | some x =>
    cases hb : b[l]? with
    | none => rw [ha, hb] at hl; cases hl
    | some y =>
      rw [ha, hb] at hl
      simp only [Option.map_some, Option.some.injEq, Prod.mk.injEq] at hl
      have hr := congrArg (fun (m : List ℕ) => m[i]?) hl.1
      simp only [List.getElem?_map] at hr
      simp only [Option.bind_some]
      cases hx : x.weights[i]? with
      | none =>
        cases hy : y.weights[i]? with
        | none => rfl
        | some r => rw [hx, hy] at hr; cases hr
      | some q =>
        cases hy : y.weights[i]? with
        | none => rw [hx, hy] at hr; cases hr
        | some r =>
          rw [hx, hy] at hr
          simp only [Option.map_some, Option.some.injEq] at hr
          simp only [Option.bind_some]
          by_cases hj : j < q.length
          · rw [List.getElem?_eq_getElem hj, List.getElem?_eq_getElem (show j < r.length by omega)]; rfl
          · rw [List.getElem?_eq_none (by omega), List.getElem?_eq_none (by omega)]

/-- What keeps a training going: sizes, and with targeting also whole layers and a map covering the network. -/
structure Good {N : Type} (nw : Network N) (i o : ℕ) (n : N) (t : Trainer) : Prop where
  inn : nw.inSize n = i
  out : nw.outSize n = o
  full : t.target = true → ∀ a ∈ nw.layers n, Full a
  cover : t.target = true → ∀ m, t.crit = some m → ∀ l i j, (at3 ((nw.layers n).map Layer.weights) l i j).isSome → (at3 m l i j).isSome

theorem Good.shape {N : Type} {nw : Network N} {i o : ℕ} {n n' : N} {t t' : Trainer} (h : Good nw i o n t) (hi : nw.inSize n' = nw.inSize n) (ho : nw.outSize n' = nw.outSize n) (hs : SameShape (nw.layers n) (nw.layers n')) (ht : t'.target = t.target) (hc : t'.crit = t.crit) : Good nw i o n' t' := by
  refine ⟨hi.trans h.inn, ho.trans h.out, fun hh a ha => ?_, fun hh m hm l i j hx => ?_⟩
  · obtain ⟨l, hl⟩ := List.mem_iff_getElem?.mp ha
    have hlen : (nw.layers n).length = (nw.layers n').length := by
      have := congrArg List.length hs
      simpa using this
    obtain ⟨hlt, -⟩ := List.getElem?_eq_some_iff.mp hl
    exact shape_full hs l ⟨_, List.getElem?_eq_getElem (by omega), h.full (by rw [← ht]; exact hh) _ (List.getElem_mem _)⟩ a hl
  · rw [← shape_at hs] at hx
    exact h.cover (by rw [← ht]; exact hh) m (by rw [← hc]; exact hm) l i j hx

theorem Good.fold {N : Type} {nw : Network N} (hst : Steady nw) {i o : ℕ} {t : Trainer} (ps : List (List ℝ × List ℝ)) {n : N} (h : Good nw i o n t) : Good nw i o (ps.foldl (fun n p => nw.step n p.1 p.2) n) t :=
  foldl_inv (φ := fun n => Good nw i o n t) (fun _ _ h => h.shape (hst.inn _ _ _) (hst.out _ _ _) (hst.shape _ _ _) rfl rfl) ps n h

theorem flat_dvd {k : ℕ} : ∀ {l : List (List ℝ)}, (∀ x ∈ l, x.length = k) → k ∣ l.flatten.length
  | [], _ => by simp
  | x :: t, h => by
    rw [List.flatten_cons, List.length_append, h x (by simp)]
    exact (Nat.dvd_add_right (dvd_refl k)).mpr (flat_dvd fun y hy => h y (by simp [hy]))

theorem Good.critical {N : Type} {nw : Network N} (hw : Lawful nw) {i o : ℕ} (hi : 0 < i) (ho : 0 < o) {ps : List (List ℝ × List ℝ)} (hps : ps ≠ []) (hp : ∀ p ∈ ps, p.1.length = i ∧ p.2.length = o) {s : State N} (h : Good nw i o s.net s.trainer) (ht : s.trainer.target = true) :
    ∃ s', s.critical nw ps = .ok s' ∧ Good nw i o s'.net s'.trainer ∧ s'.trainer.prob = s.trainer.prob ∧ s'.net = s.net := by
  have ne : ∀ {l : List (List ℝ)} {k : ℕ}, 0 < k → l ≠ [] → (∀ x ∈ l, x.length = k) → l.flatten ≠ [] := by
    intro l k hk hl hx he
    obtain ⟨x, hx'⟩ := List.exists_mem_of_ne_nil l hl
    have := hx x hx'
    rw [List.flatten_eq_nil_iff.mp he x hx'] at this
    simp at this
    omega
  have h1 : ∀ x ∈ (ps.take 10).map Prod.fst, x.length = i := by
    intro x hx
    obtain ⟨p, hp', rfl⟩ := List.mem_map.mp hx
    exact (hp p (List.mem_of_mem_take hp')).1
  have h2 : ∀ x ∈ (ps.take 10).map Prod.snd, x.length = o := by
    intro x hx
    obtain ⟨p, hp', rfl⟩ := List.mem_map.mp hx
    exact (hp p (List.mem_of_mem_take hp')).2
  have hne : ps.take 10 ≠ [] := by
    intro he
    rw [List.take_eq_nil_iff] at he
    rcases he with he | he
    · omega
    · exact hps he
  obtain ⟨m, g', h3, h4⟩ := C132_total hw (n := s.net) (c := s.trainer.crit) (data := (firstTen ps).1) (labels := (firstTen ps).2) s.rng (by rw [h.inn]; exact hi) (by rw [h.out]; exact ho)
    ⟨by rw [h.inn]; exact flat_dvd h1, ne hi (by simpa using hne) h1⟩ ⟨by rw [h.out]; exact flat_dvd h2, ne ho (by simpa using hne) h2⟩ (h.full ht) (h.cover ht)
  refine ⟨⟨s.net, { s.trainer with crit := some m }, g'⟩, ?_, ⟨h.inn, h.out, h.full, fun _ m' hm' => by cases hm'; exact h4⟩, rfl, rfl⟩
  unfold State.critical
  rw [h3]
  rfl

theorem Good.injection {N : Type} {nw : Network N} (hw : Lawful nw) (hst : Steady nw) {i o : ℕ} (ps : List (List ℝ × List ℝ)) {s : State N} (h : Good nw i o s.net s.trainer) :
    Good nw i o (s.injection nw ps).net (s.injection nw ps).trainer ∧ (s.injection nw ps).trainer.target = s.trainer.target := by
  obtain ⟨k, ls', g', h1, h2, -⟩ := C131_flips s.trainer (nw.layers s.net) s.rng
  refine ⟨?_, rfl⟩
  rw [injection_net]
  refine Good.fold hst ps (h.shape (hw.in_set _ _) (hw.out_set _ _) ?_ rfl rfl)
  rw [hw.layers_set, h1]
  exact h2

/-- C130, total: with a positive batch size, a probability whose reciprocal is below 2^31/10 in size, and — if critical weights are targeted — at least one sample, no empty layer, and no map or one covering the network, training returns statistics for every stream of draws. -/
theorem C130_total {N : Type} {nw : Network N} (hw : Lawful nw) (hst : Steady nw) {data labels : List ℝ} {cfg : Config} {s : State N} (hf : Fits nw s.net data labels) (hb : 0 < cfg.batch ∧ cfg.batch < 2 ^ 31) (hl : data.length < 2 ^ 62)
    (hp : s.trainer.prob ≠ 0) (hp' : |1 / s.trainer.prob| < 2 ^ 31 / 10)
    (ht : s.trainer.target = true → data ≠ [] ∧ (∀ a ∈ nw.layers s.net, Full a) ∧ ∀ m, s.trainer.crit = some m → ∀ l i j, (at3 ((nw.layers s.net).map Layer.weights) l i j).isSome → (at3 m l i j).isSome) :
    ∃ st s', train nw data labels cfg s = .ok (.stats st, s') := by
  rw [train_eq hf]
  obtain ⟨hi, ho, hdvd, hlab⟩ := hf
  obtain ⟨hs1, hs2, -, -⟩ := C130_samples (i := nw.inSize s.net) (o := nw.outSize s.net) hdvd hlab hi
  have hne : s.trainer.target = true → samples (nw.inSize s.net) (nw.outSize s.net) data labels ≠ [] := by
    intro h he
    rw [he, List.length_nil] at hs1
    have := Nat.div_pos (Nat.le_of_dvd (List.length_pos_of_ne_nil (ht h).1) hdvd) hi
    omega
  have hlen : (samples (nw.inSize s.net) (nw.outSize s.net) data labels).length < 2 ^ 62 := by
    rw [hs1]
    exact lt_of_le_of_lt (Nat.div_le_self _ _) hl
  generalize samples (nw.inSize s.net) (nw.outSize s.net) data labels = ps at hs1 hs2 hne hlen ⊢
  have good : Good nw (nw.inSize s.net) (nw.outSize s.net) s.net s.trainer := ⟨rfl, rfl, fun h => (ht h).2.1, fun h => (ht h).2.2⟩
  have hfreq : frequency s.trainer.prob = .ok (max 1 ⌊1 / s.trainer.prob⌋₊) ∧ 10 * max 1 ⌊1 / s.trainer.prob⌋₊ < 2 ^ 31 := by
    obtain ⟨h1, h2⟩ := abs_lt.mp hp'
    constructor
    · unfold frequency
      rw [if_neg]
      rintro (h | h | h)
      · exact hp h
      · linarith
      · linarith
    · have : (⌊1 / s.trainer.prob⌋₊ : ℝ) < 2 ^ 31 / 10 := by
        by_cases h0 : 0 ≤ 1 / s.trainer.prob
        · exact lt_of_le_of_lt (Nat.floor_le h0) h2
        · rw [Nat.floor_of_nonpos (by linarith)]; norm_num
      have : (10 * ⌊1 / s.trainer.prob⌋₊ : ℝ) < (2 ^ 31 : ℕ) := by push_cast; linarith
      have : 10 * ⌊1 / s.trainer.prob⌋₊ < 2 ^ 31 := by exact_mod_cast this
      omega
  have start : ∃ s0 : State N, (if s.trainer.target = true ∧ s.trainer.crit = none then s.critical nw ps else .ok s : Outcome (State N)) = .ok s0 ∧ Good nw (nw.inSize s.net) (nw.outSize s.net) s0.net s0.trainer ∧ s0.trainer.prob = s.trainer.prob ∧ (s0.trainer.target = true → ps ≠ []) := by
    split
    · rename_i hh
      obtain ⟨s0, h1, h2, h3, -⟩ := good.critical hw hi ho (hne hh.1) hs2 hh.1
      exact ⟨s0, h1, h2, h3, fun _ => hne hh.1⟩
    · exact ⟨s, rfl, good, rfl, hne⟩
  obtain ⟨s0, h1, h2, h3, h4⟩ := start
  rw [h1]
  simp only [Outcome.bind]
  rw [h3, hfreq.1]
  simp only
  have run : ∀ E, ∃ s1, State.epochs nw ps cfg.batch (max 1 ⌊1 / s.trainer.prob⌋₊) E s0 = .ok s1 ∧ Good nw (nw.inSize s.net) (nw.outSize s.net) s1.net s1.trainer ∧ (s1.trainer.target = true → ps ≠ []) := by
    intro E
    induction E with
    | zero => exact ⟨s0, rfl, h2, h4⟩
    | succ E ih =>
      obtain ⟨s1, ih1, ih2, ih3⟩ := ih
      unfold State.epochs
      rw [ih1]
      simp only [Outcome.bind]
      unfold State.epoch
      rw [if_neg (by omega), batches_all nw ps hb.1 (by omega) hlen]
      simp only [Outcome.bind]
      have fin : ∀ s2 : State N, Good nw (nw.inSize s.net) (nw.outSize s.net) s2.net s2.trainer → (s2.trainer.target = true → ps ≠ []) →
          ∃ s3, (if s2.trainer.target = true ∧ s2.trainer.crit.isSome ∧ E % (10 * max 1 ⌊1 / s.trainer.prob⌋₊) = 0 then s2.critical nw ps else .ok s2 : Outcome (State N)) = .ok s3 ∧ Good nw (nw.inSize s.net) (nw.outSize s.net) s3.net s3.trainer ∧ (s3.trainer.target = true → ps ≠ []) := by
        intro s2 g2 n2
        split
        · rename_i hh
          obtain ⟨s3, k1, k2, -, -⟩ := g2.critical hw hi ho (n2 hh.1) hs2 hh.1
          exact ⟨s3, k1, k2, fun _ => n2 hh.1⟩
        · exact ⟨s2, rfl, g2, n2⟩
      have g1 : Good nw (nw.inSize s.net) (nw.outSize s.net) (ps.foldl (fun n p => nw.step n p.1 p.2) s1.net) s1.trainer := Good.fold hst ps ih2
      by_cases he : E % max 1 ⌊1 / s.trainer.prob⌋₊ = 0
      · rw [if_pos he, if_neg (by omega)]
        simp only
        obtain ⟨k1, k2⟩ := Good.injection hw hst ps (s := ⟨ps.foldl (fun n p => nw.step n p.1 p.2) s1.net, s1.trainer, s1.rng⟩) g1
        exact fin _ k1 (by rw [k2]; exact ih3)
      · rw [if_neg he]
        simp only
        exact fin ⟨ps.foldl (fun n p => nw.step n p.1 p.2) s1.net, s1.trainer, s1.rng⟩ g1 ih3
  obtain ⟨s1, h5, -⟩ := run cfg.epochs
  rw [h5]
  exact ⟨_, _, rfl⟩

theorem start_plain {N : Type} {nw : Network N} {data labels : List ℝ} {cfg : Config} {s : State N} (hf : Fits nw s.net data labels) (ht : s.trainer.target = false) :
    train nw data labels cfg s = (frequency s.trainer.prob).bind fun f =>
      (State.epochs nw (samples (nw.inSize s.net) (nw.outSize s.net) data labels) cfg.batch f cfg.epochs s).bind fun s1 =>
        .ok (.stats (s1.trainer.stats.normalise (max 1 (cfg.epochs / f))), { s1 with trainer := { s1.trainer with stats := s1.trainer.stats.normalise (max 1 (cfg.epochs / f)) } }) := by
  rw [train_eq hf, if_neg (by rw [ht]; simp)]
  rfl

theorem epochs_ub {N : Type} {nw : Network N} {ps : List (List ℝ × List ℝ)} {batch f : ℕ} {s : State N} (h : s.epoch nw ps batch f 0 = .ub) : ∀ E, 0 < E → State.epochs nw ps batch f E s = .ub
  | 1, _ => by unfold State.epochs; exact h
  | E + 2, _ => by
    unfold State.epochs
    rw [epochs_ub h (E + 1) (by omega)]
    rfl

/-- C130, violated: nothing checks the configuration.  A bit flip probability of 0 — no radiation — makes training undefined (an infinite interval is converted to an integer), a batch size of 0 divides by zero, and a probability below 10/2^31 overflows the interval. -/
theorem C130_config_violated {N : Type} {nw : Network N} {data labels : List ℝ} {cfg : Config} {s : State N} (hf : Fits nw s.net data labels) (ht : s.trainer.target = false) (he : 0 < cfg.epochs) :
    (s.trainer.prob = 0 → train nw data labels cfg s = .ub) ∧ (cfg.batch = 0 → train nw data labels cfg s = .ub) ∧ (0 < s.trainer.prob → s.trainer.prob ≤ 10 / 2 ^ 31 → (∃ k : ℕ, s.trainer.prob = 1 / k) → train nw data labels cfg s = .ub) := by
  refine ⟨fun hp => ?_, fun hb => ?_, fun hp hp' hk => ?_⟩
  · rw [start_plain hf ht]
    unfold frequency
    rw [if_pos (Or.inl hp)]
    rfl
  · rw [start_plain hf ht]
    cases frequency s.trainer.prob with
    | ub => rfl
    | ok f =>
      simp only [Outcome.bind]
      rw [epochs_ub _ _ he]
      unfold State.epoch
      rw [if_pos hb]
  · rw [start_plain hf ht]
    unfold frequency
    split
    · rfl
    · simp only [Outcome.bind]
      rw [epochs_ub _ _ he]
      unfold State.epoch
      split
      · rfl
      · cases batches nw (samples (nw.inSize s.net) (nw.outSize s.net) data labels) cfg.batch (numBatches (samples (nw.inSize s.net) (nw.outSize s.net) data labels).length cfg.batch) s.net with
        | ub => rfl
        | ok n =>
          simp only [Outcome.bind]
          rw [if_pos (Nat.zero_mod _), if_pos]
          obtain ⟨k, hk⟩ := hk
          have h1 : (2 ^ 31 / 10 : ℝ) ≤ k := by
            rw [hk] at hp hp'
            have hk0 : (0 : ℝ) < k := by
              by_contra hn
              have : (k : ℝ) = 0 := le_antisymm (not_lt.mp hn) (Nat.cast_nonneg k)
              rw [this] at hp; simp at hp
            rw [div_le_div_iff₀ hk0 (by norm_num)] at hp'
            linarith
          rw [hk, one_div_one_div, Nat.floor_natCast]
          have : ((2 ^ 31 : ℕ) : ℝ) ≤ ((10 * k : ℕ) : ℝ) := by push_cast; linarith
          have : 2 ^ 31 ≤ 10 * k := by exact_mod_cast this
          have := le_max_right 1 k
          omega

/-- C130, violated: a negative batch size −b is taken as 2^64 − b; with more than b samples the epochs then train on nothing at all, only the passes after an injection are left. -/
theorem C130_negative_batch_violated {N : Type} {nw : Network N} (hw : Lawful nw) {log : N → List (List ℝ × List ℝ)} (hr : Record nw log) {data labels : List ℝ} {cfg : Config} {s s' : State N} {st : Stats} (hf : Fits nw s.net data labels)
    {b : ℕ} (hb : 0 < b ∧ b < 2 ^ 31) (hc : cfg.batch = 2 ^ 64 - b) (hl : data.length < 2 ^ 62) (hn : b < data.length / nw.inSize s.net) (h : train nw data labels cfg s = .ok (.stats st, s')) :
    log s'.net = log s.net ++ (List.range cfg.epochs).flatMap fun e => if e % max 1 ⌊1 / s.trainer.prob⌋₊ = 0 then samples (nw.inSize s.net) (nw.outSize s.net) data labels else [] := by
  obtain ⟨s0, f, s1, h1, -, h2, h3, -, h4⟩ := train_ok hw hf h
  have hlen : (samples (nw.inSize s.net) (nw.outSize s.net) data labels).length < 2 ^ 62 ∧ b < (samples (nw.inSize s.net) (nw.outSize s.net) data labels).length := by
    rw [samples_length]
    exact ⟨lt_of_le_of_lt (Nat.div_le_self _ _) hl, hn⟩
  rw [h4, ← h2, ← h1]
  rw [← h1] at h3 hlen
  generalize samples (nw.inSize s0.net) (nw.outSize s0.net) data labels = ps at h3 hlen ⊢
  refine epochs_inv hw (φ := fun e n _ => log n = log s0.net ++ (List.range e).flatMap fun e => if e % f = 0 then ps else []) (fun e n t c h => h) ?_ cfg.epochs h3 (by simp)
  intro e s n hn hbt
  have h0 : numBatches ps.length cfg.batch = 0 := by
    unfold numBatches
    rw [hc, show ps.length + (2 ^ 64 - b) + 2 ^ 64 - 1 = (ps.length - b - 1 + 2 ^ 64) + 2 ^ 64 by omega, Nat.add_mod_right, Nat.add_mod_right, Nat.mod_eq_of_lt (by omega), Nat.div_eq_of_lt (by omega)]
  rw [h0] at hbt
  cases hbt
  rw [List.range_succ, List.flatMap_append, ← List.append_assoc, ← hn, List.flatMap_singleton]
  split
  · rw [injection_net, record_fold hr, hr.set]
  · simp only
    rw [List.append_nil]

/-- C130, violated: training on no samples is not rejected.  If critical weights are targeted and there is no map yet it reads past the end of the data. -/
theorem C130_empty_violated {N : Type} {nw : Network N} (cfg : Config) {s : State N} (hi : 0 < nw.inSize s.net) (ho : 0 < nw.outSize s.net) (ht : s.trainer.target = true) (hc : s.trainer.crit = none) : train nw [] [] cfg s = .ub := by
  rw [train_eq ⟨hi, ho, by simp, by simp⟩, if_pos ⟨ht, hc⟩]
  have : s.critical nw (samples (nw.inSize s.net) (nw.outSize s.net) [] []) = .ub := by
    have h0 : samples (nw.inSize s.net) (nw.outSize s.net) [] [] = [] := by simp [samples]
    rw [h0]
    unfold State.critical update firstTen
    simp only [List.take_nil, List.map_nil, List.flatten_nil, List.length_nil, Nat.zero_mod]
    rw [if_neg (by omega), if_neg (by simp), if_pos (by omega)]
    rfl
  rw [this]
  rfl

/-- Library networks: sizes, forward pass and loss. -/
def SameBehaviour (a b : Lib) : Prop := b.input = a.input ∧ b.output = a.output ∧ b.forward = a.forward ∧ b.loss = a.loss

theorem lib_fold (ps : List (List ℝ × List ℝ)) (n : Lib) : ps.foldl (fun n p => lib.step n p.1 p.2) n = n := by
  induction ps with
  | nil => rfl
  | cons p t ih => exact ih

theorem lib_trainFrom (ps : List (List ℝ × List ℝ)) (start : ℕ) (n n' : Lib) : ∀ k, trainFrom lib ps start k n = .ok n' → n' = n
  | 0, h => by cases h; rfl
  | k + 1, h => by
    unfold trainFrom at h
    cases h1 : trainFrom lib ps start k n with
    | ub => rw [h1] at h; cases h
    | ok m =>
      have := lib_trainFrom ps start n m k h1
      rw [h1] at h
      simp only [Outcome.bind] at h
      split at h
      · cases h
      · cases h; exact this

theorem lib_batches (ps : List (List ℝ × List ℝ)) (size : ℕ) (n n' : Lib) : ∀ b, batches lib ps size b n = .ok n' → n' = n
  | 0, h => by cases h; rfl
  | b + 1, h => by
    rw [batches_succ] at h
    cases h1 : batches lib ps size b n with
    | ub => rw [h1] at h; cases h
    | ok m =>
      have := lib_batches ps size n m b h1
      rw [h1, bind_ok, batch] at h
      rw [← this]
      exact lib_trainFrom ps _ m n' _ h

/-- C130, violated: training a library network for any number of epochs changes neither its outputs nor its loss for any input. -/
theorem C130_unlearned_violated {data labels : List ℝ} {cfg : Config} {s s' : State Lib} {st : Stats} (hf : Fits lib s.net data labels) (h : train lib data labels cfg s = .ok (.stats st, s')) : SameBehaviour s.net s'.net := by
  obtain ⟨s0, f, s1, h1, -, h2, h3, -, h4⟩ := train_ok lib_lawful hf h
  rw [h4]
  refine epochs_inv lib_lawful (φ := fun _ n _ => SameBehaviour s.net n) (fun e n t c h => h) ?_ cfg.epochs h3 (by rw [h1]; exact ⟨rfl, rfl, rfl, rfl⟩)
  intro e s2 n hn hb
  have := lib_batches _ _ _ _ _ hb
  rw [this]
  split
  · rw [injection_net, lib_fold]; exact hn
  · exact hn

/-- C130, violated: the flips of an injection are not undone.  With a certain probability, after one epoch every weight of a library network differs in one bit from before. -/
theorem C130_damage_violated {data labels : List ℝ} {cfg : Config} {s s' : State Lib} {st : Stats} (hf : Fits lib s.net data labels) (he : cfg.epochs = 1) (hp : 1 ≤ s.trainer.prob * factor s.trainer.env) (hc : s.trainer.target = false) (h : train lib data labels cfg s = .ok (.stats st, s')) :
    List.Forall₂ (fun a b => bitDiff a b = 1) (s.net.layers.flatMap fun a => a.weights.flatten) (s'.net.layers.flatMap fun a => a.weights.flatten) := by
  obtain ⟨s0, f, s1, h1, ⟨c, h1'⟩, h2, h3, -, h4⟩ := train_ok lib_lawful hf h
  rw [he] at h3
  have h5 : s0.epoch lib (samples (lib.inSize s.net) (lib.outSize s.net) data labels) cfg.batch f 0 = .ok s1 := h3
  obtain ⟨-, n, hb, s2, hs2, -, h6, -⟩ := epoch_ok lib_lawful h5
  have hn := lib_batches _ _ _ _ _ hb
  rw [h4]
  show List.Forall₂ _ _ (s1.net.layers.flatMap _)
  rw [h6, hs2, if_pos (Nat.zero_mod _), injection_net, lib_fold, hn, h1]
  show List.Forall₂ _ _ (((s0.trainer.inject s.net.layers s0.rng).2.1).flatMap _)
  unfold Trainer.inject
  apply injLayers_always
  intro l i j
  rw [h1', weightProb_eq]
  simp [weightCrit, hc]
  exact hp

/-! ### C133 -/

theorem inject_stats (t : Trainer) (ls : List Layer) (g : Rng) : (t.inject ls g).1.stats.drop = t.stats.drop ∧ (t.inject ls g).1.stats.recovery = t.stats.recovery := ⟨rfl, rfl⟩

theorem accuracy_range {N : Type} (nw : Network N) (n : N) {ps : List (List ℝ × List ℝ)} (h : ps ≠ []) : ∃ a, accuracy nw n ps = some a ∧ 0 ≤ a ∧ a ≤ 1 := by
  unfold accuracy
  rw [if_neg h]
  refine ⟨_, rfl, by positivity, ?_⟩
  have h0 : (0 : ℝ) < ps.length := by exact_mod_cast List.length_pos_of_ne_nil h
  rw [div_le_one h0]
  exact_mod_cast List.length_filter_le _ _

/-- Number of injections in the first `e` epochs. -/
def injections (f e : ℕ) : ℕ := ((List.range e).filter fun k => k % f = 0).length

theorem injections_succ (f e : ℕ) : injections f (e + 1) = injections f e + if e % f = 0 then 1 else 0 := by
  unfold injections
  rw [List.range_succ, List.filter_append, List.length_append]
  congr 1
  by_cases h : e % f = 0 <;> simp [h]

/-- The number of injections is the number of epochs divided by the interval, rounded up. -/
theorem injections_eq {f : ℕ} (hf : 0 < f) : ∀ e, injections f e = (e + f - 1) / f
  | 0 => by rw [Nat.div_eq_of_lt (by omega)]; rfl
  | e + 1 => by
    rw [injections_succ, injections_eq hf e]
    by_cases h : e % f = 0
    · rw [if_pos h]
      obtain ⟨k, rfl⟩ := Nat.dvd_of_mod_eq_zero h
      rw [show f * k + 1 + f - 1 = f * (k + 1) by rw [Nat.mul_add]; omega, Nat.mul_div_cancel_left _ hf]
      congr 1
      rw [show f * k + f - 1 = (f - 1) + f * k by omega, Nat.add_mul_div_left _ _ hf, Nat.div_eq_of_lt (by omega), Nat.zero_add]
    · rw [if_neg h]
      have hd := Nat.div_add_mod e f
      have hm := Nat.mod_lt e hf
      have h1 : e + f - 1 = (e % f - 1) + f * (e / f + 1) := by rw [Nat.mul_add]; omega
      have h2 : e + 1 + f - 1 = e % f + f * (e / f + 1) := by rw [Nat.mul_add]; omega
      rw [h1, h2, Nat.add_mul_div_left _ _ hf, Nat.add_mul_div_left _ _ hf, Nat.div_eq_of_lt hm, Nat.div_eq_of_lt (by omega), Nat.add_zero]

/-- C133, accounting: with accuracy `a` before an injection, `b` after it and `c` after retraining, the injection adds `a - b` to the drop and `(c - b) / max(0.001, a - b)` to the recovery. -/
theorem C133_accounting {N : Type} (nw : Network N) (ps : List (List ℝ × List ℝ)) (s : State N) {a b c d r : ℝ} (ha : accuracy nw s.net ps = some a)
    (hb : accuracy nw (nw.set s.net (s.trainer.inject (nw.layers s.net) s.rng).2.1) ps = some b) (hc : accuracy nw (s.injection nw ps).net ps = some c)
    (hd : (s.trainer.inject (nw.layers s.net) s.rng).1.stats.drop = some d) (hr : (s.trainer.inject (nw.layers s.net) s.rng).1.stats.recovery = some r) :
    (s.injection nw ps).trainer.stats.drop = some (d + (a - b)) ∧
    (s.injection nw ps).trainer.stats.recovery = some (r + (c - b) / (if a - b ≤ 1 / 1000 then 1 / 1000 else a - b)) := by
  have hc' : accuracy nw (ps.foldl (fun n p => nw.step n p.1 p.2) (nw.set s.net (s.trainer.inject (nw.layers s.net) s.rng).2.1)) ps = some c := hc
  have e : max (1 / 1000) (a - b) = if a - b ≤ 1 / 1000 then 1 / 1000 else a - b := by
    split
    · next h => exact max_eq_left h
    · next h => exact max_eq_right (not_le.1 h).le
  constructor
  · simp only [State.injection, ha, hb, hd, Option.bind_some, Option.map_some]
  · simp only [State.injection, ha, hb, hc', hr, Option.bind_some, Option.map_some, Option.getD_some, e]

/-- C133, bounds: for every network, a fresh trainer and at least one sample, the reported accuracy drop is a number of size at most injections / max(1, epochs / interval); so at most 1 if the interval divides a positive number of epochs. -/
theorem C133_bounded {N : Type} {nw : Network N} (hw : Lawful nw) {data labels : List ℝ} {cfg : Config} {s s' : State N} {st : Stats} (hf : Fits nw s.net data labels) (hd : data ≠ []) (hs : s.trainer.stats.drop = some 0) (h : train nw data labels cfg s = .ok (.stats st, s')) :
    ∃ d, st.drop = some d ∧ |d| ≤ ((cfg.epochs + max 1 ⌊1 / s.trainer.prob⌋₊ - 1) / max 1 ⌊1 / s.trainer.prob⌋₊ : ℕ) / (max 1 (cfg.epochs / max 1 ⌊1 / s.trainer.prob⌋₊) : ℕ) ∧
      (0 < cfg.epochs → max 1 ⌊1 / s.trainer.prob⌋₊ ∣ cfg.epochs → |d| ≤ 1) := by
  obtain ⟨s0, f, s1, h1, ⟨c, hc⟩, h2, h3, h4, -⟩ := train_ok hw hf h
  obtain ⟨hi, ho, hdvd, hlab⟩ := hf
  have hne : samples (nw.inSize s.net) (nw.outSize s.net) data labels ≠ [] := by
    intro he
    have hl := samples_length (nw.inSize s.net) (nw.outSize s.net) data labels
    rw [he, List.length_nil] at hl
    have := Nat.div_pos (Nat.le_of_dvd (List.length_pos_of_ne_nil hd) hdvd) hi
    omega
  generalize samples (nw.inSize s.net) (nw.outSize s.net) data labels = ps at h3 hne
  have hf0 : 0 < f := by rw [h2]; exact lt_of_lt_of_le Nat.one_pos (le_max_left _ _)
  have inv := epochs_inv hw (φ := fun e _ t => ∃ d, t.stats.drop = some d ∧ |d| ≤ injections f e) (fun e n t c h => h) (by
    rintro e s n ⟨d, hd1, hd2⟩ -
    rw [injections_succ]
    by_cases he : e % f = 0
    · simp only [if_pos he]
      obtain ⟨a, ha, ha0, ha1⟩ := accuracy_range nw n hne
      obtain ⟨b, hb, hb0, hb1⟩ := accuracy_range nw (nw.set n (s.trainer.inject (nw.layers n) s.rng).2.1) hne
      refine ⟨d + (a - b), ?_, ?_⟩
      · show Option.bind s.trainer.stats.drop _ = _
        rw [hd1]
        simp only [Option.bind_some]
        rw [ha, hb]
        rfl
      · have : |a - b| ≤ 1 := abs_le.mpr ⟨by linarith, by linarith⟩
        have := abs_add_le d (a - b)
        push_cast
        linarith
    · simp only [if_neg he, Nat.add_zero]
      exact ⟨d, hd1, hd2⟩) cfg.epochs h3 ⟨0, by rw [hc]; exact hs, by simp⟩
  obtain ⟨d, hd1, hd2⟩ := inv
  rw [injections_eq hf0] at hd2
  have hm : (0 : ℝ) < (max 1 (cfg.epochs / f) : ℕ) := by
    have : 0 < max 1 (cfg.epochs / f) := lt_of_lt_of_le Nat.one_pos (le_max_left _ _)
    exact_mod_cast this
  have hb : |d / (max 1 (cfg.epochs / f) : ℕ)| ≤ ((cfg.epochs + f - 1) / f : ℕ) / (max 1 (cfg.epochs / f) : ℕ) := by
    rw [abs_div, abs_of_pos hm]
    exact div_le_div_of_nonneg_right hd2 hm.le
  refine ⟨d / (max 1 (cfg.epochs / f) : ℕ), ?_, ?_, ?_⟩
  · rw [h4]
    unfold Stats.normalise
    rw [hd1]
    rfl
  · rw [← h2]; exact hb
  · rw [← h2]
    rintro hE ⟨k, hk⟩
    refine hb.trans ?_
    have hk0 : 0 < k := by rcases Nat.eq_zero_or_pos k with h0 | h0; (· subst h0; omega); exact h0
    have e1 : (cfg.epochs + f - 1) / f = k := by
      rw [hk, show f * k + f - 1 = (f - 1) + f * k by omega, Nat.add_mul_div_left _ _ hf0, Nat.div_eq_of_lt (by omega), Nat.zero_add]
    have e2 : max 1 (cfg.epochs / f) = k := by rw [hk, Nat.mul_div_cancel_left _ hf0]; omega
    rw [e1, e2, div_self (by exact_mod_cast hk0.ne')]

/-- Sum of the bits in which two networks differ. -/
def distance (a b : List Layer) : ℕ := (List.zipWith bitDiff (params a) (params b)).sum

theorem bitDiff_tri (a b c : Word) : bitDiff a c ≤ bitDiff a b + bitDiff b c := by
  unfold bitDiff
  induction List.range 32 with
  | nil => simp
  | cons i t ih =>
    simp only [List.countP_cons]
    have : (if (a.getLsbD i != c.getLsbD i) = true then 1 else 0) ≤ (if (a.getLsbD i != b.getLsbD i) = true then 1 else 0) + (if (b.getLsbD i != c.getLsbD i) = true then 1 else 0) := by
      cases a.getLsbD i <;> cases b.getLsbD i <;> cases c.getLsbD i <;> simp
    omega

theorem zip_tri : ∀ (a b c : List Word), a.length = b.length → (List.zipWith bitDiff a c).sum ≤ (List.zipWith bitDiff a b).sum + (List.zipWith bitDiff b c).sum
  | [], _, _, _ => by simp
  | x :: a, y :: b, [], _ => by simp
  | x :: a, y :: b, z :: c, h => by
    have := zip_tri a b c (by simpa using h)
    have := bitDiff_tri x y z
    simp only [List.zipWith_cons_cons, List.sum_cons]
    omega

/-- C133, flips: the reported number of flips of a library network grows by at least the number of bits in which its parameters differ afterwards from before. -/
theorem C133_flips {data labels : List ℝ} {cfg : Config} {s s' : State Lib} {st : Stats} (hf : Fits lib s.net data labels) (h : train lib data labels cfg s = .ok (.stats st, s')) :
    s.trainer.stats.flips + distance s.net.layers s'.net.layers ≤ st.flips ∧ SameShape s.net.layers s'.net.layers := by
  obtain ⟨s0, f, s1, h1, ⟨c, hc⟩, h2, h3, h4, h5⟩ := train_ok lib_lawful hf h
  have inv := epochs_inv lib_lawful (φ := fun _ n t => s.trainer.stats.flips + distance s.net.layers n.layers ≤ t.stats.flips ∧ SameShape s.net.layers n.layers ∧ (params s.net.layers).length = (params n.layers).length) (fun e n t c h => h) (by
    rintro e s2 n ⟨hd, hsh, hln⟩ hb
    have := lib_batches _ _ _ _ _ hb
    rw [this]
    by_cases he : e % f = 0
    · simp only [if_pos he]
      obtain ⟨k, ls', g', k1, k2, k3, k4⟩ := C131_flips s2.trainer s2.net.layers s2.rng
      rw [injection_net, lib_fold]
      have e1 : (lib.set s2.net (s2.trainer.inject (lib.layers s2.net) s2.rng).2.1).layers = ls' := by
        show (s2.trainer.inject s2.net.layers s2.rng).2.1 = ls'
        rw [k1]
      have e2 : (State.injection lib (samples (lib.inSize s.net) (lib.outSize s.net) data labels) { s2 with net := s2.net }).trainer.stats.flips = s2.trainer.stats.flips + k := by
        show (s2.trainer.inject s2.net.layers s2.rng).1.stats.flips = _
        rw [k1]
      simp only
      rw [e1, e2]
      refine ⟨?_, hsh.trans k2, hln.trans k3.length_eq⟩
      have := zip_tri (params s.net.layers) (params s2.net.layers) (params ls') hln
      unfold distance at hd ⊢
      omega
    · simp only [if_neg he]
      exact ⟨hd, hsh, hln⟩) cfg.epochs h3 (by
      rw [h1, hc]
      refine ⟨?_, rfl, rfl⟩
      have : distance s.net.layers s.net.layers = 0 := by
        unfold distance
        rw [List.sum_eq_zero]
        intro x hx
        rw [List.zipWith_self, List.mem_map] at hx
        obtain ⟨w, -, rfl⟩ := hx
        exact diff_self w
      simp [this])
  rw [h4, h5]
  exact ⟨inv.1, inv.2.1⟩

/-- C133, violated: for library networks the accuracy drop and the recovery measured are always 0, whatever bits are flipped; the report is the earlier value divided once more. -/
theorem C133_blind_violated {data labels : List ℝ} {cfg : Config} {s s' : State Lib} {st : Stats} (hf : Fits lib s.net data labels) (hd : data ≠ []) {a b : ℝ} (hs : s.trainer.stats.drop = some a ∧ s.trainer.stats.recovery = some b) (h : train lib data labels cfg s = .ok (.stats st, s')) :
    st.drop = some (a / (max 1 (cfg.epochs / max 1 ⌊1 / s.trainer.prob⌋₊) : ℕ)) ∧ st.recovery = some (b / (max 1 (cfg.epochs / max 1 ⌊1 / s.trainer.prob⌋₊) : ℕ)) := by
  obtain ⟨s0, f, s1, h1, ⟨c, hc⟩, h2, h3, h4, -⟩ := train_ok lib_lawful hf h
  obtain ⟨hi, ho, hdvd, hlab⟩ := hf
  have hne : samples (lib.inSize s.net) (lib.outSize s.net) data labels ≠ [] := by
    intro he
    have hl := samples_length (lib.inSize s.net) (lib.outSize s.net) data labels
    rw [he, List.length_nil] at hl
    have := Nat.div_pos (Nat.le_of_dvd (List.length_pos_of_ne_nil hd) hdvd) hi
    omega
  generalize samples (lib.inSize s.net) (lib.outSize s.net) data labels = ps at h3 hne
  have inv := epochs_inv lib_lawful (φ := fun _ _ t => t.stats.drop = some a ∧ t.stats.recovery = some b) (fun e n t c h => h) (by
    rintro e s n ⟨hd1, hd2⟩ -
    by_cases he : e % f = 0
    · simp only [if_pos he]
      obtain ⟨x, hx, -⟩ := accuracy_range lib n hne
      have hx' : ∀ ls, accuracy lib (lib.set n ls) ps = some x := fun ls => hx
      constructor
      · show Option.bind s.trainer.stats.drop _ = _
        rw [hd1]
        simp only [Option.bind_some]
        rw [hx, hx']
        simp
      · show Option.bind s.trainer.stats.recovery _ = _
        rw [hd2]
        simp only [Option.bind_some]
        rw [lib_fold, hx, hx']
        simp
    · simp only [if_neg he]
      exact ⟨hd1, hd2⟩) cfg.epochs h3 (by rw [hc]; exact hs)
  rw [h4, ← h2]
  unfold Stats.normalise
  rw [inv.1, inv.2]
  exact ⟨rfl, rfl⟩

/-- C133, violated: without samples the statistics are not numbers. -/
theorem C133_nan_violated {N : Type} {nw : Network N} (hw : Lawful nw) {cfg : Config} {s s' : State N} {st : Stats} (hi : 0 < nw.inSize s.net) (ho : 0 < nw.outSize s.net) (he : 0 < cfg.epochs) (h : train nw [] [] cfg s = .ok (.stats st, s')) : st.drop = none ∧ st.recovery = none := by
  obtain ⟨s0, f, s1, h1, -, h2, h3, h4, -⟩ := train_ok hw (data := []) (labels := []) ⟨hi, ho, by simp, by simp⟩ h
  have h0 : samples (nw.inSize s.net) (nw.outSize s.net) [] [] = [] := by simp [samples]
  rw [h0] at h3
  have inv := epochs_inv hw (φ := fun e _ t => 0 < e → t.stats.drop = none ∧ t.stats.recovery = none) (fun e n t c h => h) (by
    rintro e s n hn - -
    by_cases h0 : e % f = 0
    · simp only [if_pos h0]
      constructor
      · show Option.bind s.trainer.stats.drop _ = _
        cases s.trainer.stats.drop <;> rfl
      · show Option.bind s.trainer.stats.recovery _ = _
        cases s.trainer.stats.recovery <;> rfl
    · simp only [if_neg h0]
      exact hn (by rcases Nat.eq_zero_or_pos e with h | h; (· subst h; simp at h0); exact h)) cfg.epochs h3 (by omega) he
  rw [h4]
  unfold Stats.normalise
  rw [inv.1, inv.2]
  exact ⟨rfl, rfl⟩

/-- A network that learns: right exactly if its first weight is zero, and training sets all weights to zero. -/
noncomputable def learner : Network (List Layer) where
  inSize _ := 1
  outSize _ := 2
  forward n _ := if at3 (n.map Layer.weights) 0 0 0 = some 0#32 then [1, 0] else [0, 1]
  loss _ _ _ := 0
  step n _ _ := n.map fun a => ⟨a.weights.map fun r => r.map fun _ => 0#32, a.biases⟩
  layers n := n
  set _ l := l

theorem learner_lawful : Lawful learner := ⟨fun _ _ => rfl, fun _ _ _ => rfl, fun _ => rfl, fun _ _ => rfl, fun _ _ => rfl⟩

theorem learner_steady : Steady learner := by
  refine ⟨fun _ _ _ => rfl, fun _ _ _ => rfl, fun n x y => ?_⟩
  show _ = List.map _ (List.map _ n)
  rw [List.map_map]
  apply List.map_congr_left
  intro a _
  simp [Function.comp_def]

/-- Its only sample. -/
def one : List (List ℝ × List ℝ) := [([0], [1, 0])]

theorem maxIdx_10 : maxIdx [1, 0] = 0 := by norm_num [maxIdx, AutoSearch.maxIdx]
theorem maxIdx_01 : maxIdx [0, 1] = 1 := by norm_num [maxIdx, AutoSearch.maxIdx]

theorem learner_acc (n : List Layer) : accuracy learner n one = some (if at3 (n.map Layer.weights) 0 0 0 = some 0#32 then 1 else 0) := by
  unfold accuracy one
  rw [if_neg (by simp)]
  have h : learner.forward n [0] = if at3 (n.map Layer.weights) 0 0 0 = some 0#32 then [1, 0] else [0, 1] := rfl
  by_cases hz : at3 (n.map Layer.weights) 0 0 0 = some 0#32
  · rw [if_pos hz] at h ⊢
    simp [h]
  · rw [if_neg hz] at h ⊢
    simp [h, maxIdx_10, maxIdx_01]

theorem learner_step (n : List Layer) (x y : List ℝ) : at3 ((learner.step n x y).map Layer.weights) 0 0 0 = (at3 (n.map Layer.weights) 0 0 0).map fun _ => 0#32 := by
  rw [at3_weights, at3_weights]
  show (List.map _ n)[0]?.bind _ = _
  rw [List.getElem?_map]
  cases n[0]? with
  | none => rfl
  | some a =>
    simp only [Option.map_some, Option.bind_some, List.getElem?_map]
    cases a.weights[0]? with
    | none => rfl
    | some r => simp only [Option.map_some, Option.bind_some, List.getElem?_map]

theorem flip_ne (w : Word) {k : ℕ} (hk : k < 32) : flipBit w (k : ℕ) ≠ w := by
  intro h
  have := flip_diff w hk
  rw [h, diff_self] at this
  omega

theorem inject_first {t : Trainer} (hp : 1 ≤ t.prob * factor t.env) (ht : t.target = false) {ls : List Layer} (g : Rng) {w : Word} (h : at3 (ls.map Layer.weights) 0 0 0 = some w) :
    ∃ w', at3 ((t.inject ls g).2.1.map Layer.weights) 0 0 0 = some w' ∧ w' ≠ w := by
  have hpr : g.seq 0 < t.weightProb 0 0 0 := by
    rw [weightProb_eq]
    simp only [weightCrit, ht, Bool.false_eq_true, if_false, mul_zero, add_zero, mul_one]
    exact lt_of_lt_of_le (g.hi 0) hp
  cases ls with
  | nil => simp [at3] at h
  | cons a ls =>
    obtain ⟨ws, bs⟩ := a
    cases ws with
    | nil => simp [at3] at h
    | cons r ws =>
      cases r with
      | nil => simp [at3] at h
      | cons w0 r =>
        simp only [at3, List.map_cons, List.getElem?_cons_zero, Option.bind_some, Option.some.injEq] at h
        subst h
        refine ⟨(hit (t.weightProb 0 0 0) w0 g).1, ?_, ?_⟩
        · simp only [Trainer.inject, injLayers, injRows, injList, at3, List.map_cons, List.getElem?_cons_zero, Option.bind_some]
        · unfold hit
          rw [if_pos hpr]
          exact flip_ne w0 (bit_lt (g.next.lo 0) (g.next.hi 0))

theorem learner_injection {s : State (List Layer)} {d r : ℝ} (hp : 1 ≤ s.trainer.prob * factor s.trainer.env) (ht : s.trainer.target = false) (hn : at3 (s.net.map Layer.weights) 0 0 0 = some 0#32) (hs : s.trainer.stats.drop = some d ∧ s.trainer.stats.recovery = some r) :
    at3 ((s.injection learner one).net.map Layer.weights) 0 0 0 = some 0#32 ∧ (s.injection learner one).trainer.stats.drop = some (d + 1) ∧ (s.injection learner one).trainer.stats.recovery = some (r + 1) := by
  obtain ⟨w', h1, h2⟩ := inject_first hp ht s.rng hn
  have h3 : at3 ((s.injection learner one).net.map Layer.weights) 0 0 0 = some 0#32 := by
    rw [injection_net]
    show at3 ((learner.step (s.trainer.inject s.net s.rng).2.1 [0] [1, 0]).map Layer.weights) 0 0 0 = _
    rw [learner_step, h1]
    rfl
  have a1 : accuracy learner s.net one = some 1 := by rw [learner_acc, if_pos hn]
  have a2 : accuracy learner (s.trainer.inject s.net s.rng).2.1 one = some 0 := by rw [learner_acc, if_neg]; rw [h1]; simpa using h2
  have a3 : accuracy learner (s.injection learner one).net one = some 1 := by rw [learner_acc, if_pos h3]
  refine ⟨h3, ?_, ?_⟩
  · show Option.bind s.trainer.stats.drop _ = _
    rw [hs.1]
    show Option.map _ ((accuracy learner s.net one).bind fun a => (accuracy learner (s.trainer.inject s.net s.rng).2.1 one).map fun b => a - b) = _
    rw [a1, a2]
    simp
  · show Option.bind s.trainer.stats.recovery _ = _
    rw [hs.2]
    rw [injection_net] at a3
    have a2' : accuracy learner (learner.set s.net (s.trainer.inject (learner.layers s.net) s.rng).2.1) one = some 0 := a2
    simp only [Option.bind_some]
    rw [a3, a2', a1]
    norm_num

/-- What is reported for the learning network when every injection hits: each injection costs an accuracy of exactly 1. -/
theorem learner_train {cfg : Config} {s : State (List Layer)} {d r : ℝ} (hb : 0 < cfg.batch ∧ cfg.batch < 2 ^ 31) (hp : 1 ≤ s.trainer.prob * factor s.trainer.env) (hp0 : 1 / 100 ≤ s.trainer.prob) (ht : s.trainer.target = false)
    (hn : (at3 (s.net.map Layer.weights) 0 0 0).isSome) (hs : s.trainer.stats.drop = some d ∧ s.trainer.stats.recovery = some r) {f : ℕ} (hf : max 1 ⌊1 / s.trainer.prob⌋₊ = f) :
    ∃ st s', train learner [0] [1, 0] cfg s = .ok (.stats st, s') ∧ st.drop = some ((d + ((cfg.epochs + f - 1) / f : ℕ)) / (max 1 (cfg.epochs / f) : ℕ)) ∧ st.recovery = some ((r + ((cfg.epochs + f - 1) / f : ℕ)) / (max 1 (cfg.epochs / f) : ℕ)) := by
  have hfit : Fits learner s.net [0] [1, 0] := ⟨Nat.one_pos, Nat.two_pos, ⟨1, rfl⟩, by simp [learner]⟩
  have hpos : 0 < s.trainer.prob := by linarith
  obtain ⟨st, s', h⟩ := C130_total learner_lawful learner_steady (data := [0]) (labels := [1, 0]) (cfg := cfg) (s := s) hfit hb (by simp) hpos.ne' (by
    rw [abs_of_pos (by positivity)]
    have : 1 / s.trainer.prob ≤ 100 := by rw [div_le_iff₀ hpos]; linarith
    linarith) (by rw [ht]; simp)
  refine ⟨st, s', h, ?_⟩
  obtain ⟨s0, f', s1, h1, ⟨c, hc⟩, h2, h3, h4, -⟩ := train_ok learner_lawful hfit h
  have hff : f' = f := h2.trans hf
  rw [hff] at h3 h4
  have hone : samples (learner.inSize s.net) (learner.outSize s.net) [0] [1, 0] = one := by
    show samples 1 2 [0] [1, 0] = one
    simp [samples, one, List.range_succ]
  rw [hone] at h3
  have hf0 : 0 < f := by rw [← hf]; exact lt_of_lt_of_le Nat.one_pos (le_max_left _ _)
  have inv := epochs_inv learner_lawful (φ := fun e n t => (at3 (n.map Layer.weights) 0 0 0).isSome ∧ t.prob = s.trainer.prob ∧ t.env = s.trainer.env ∧ t.target = false ∧ t.stats.drop = some (d + injections f e) ∧ t.stats.recovery = some (r + injections f e)) (fun e n t c h => h) (by
    rintro e s2 n ⟨k1, k2, k3, k4, k5, k6⟩ hbt
    rw [batches_all learner one hb.1 (by omega) (by simp [one])] at hbt
    have hn0 : n = learner.step s2.net [0] [1, 0] := by cases hbt; rfl
    have hz : at3 (n.map Layer.weights) 0 0 0 = some 0#32 := by
      rw [hn0, learner_step]
      obtain ⟨w, hw⟩ := Option.isSome_iff_exists.mp k1
      rw [hw]; rfl
    rw [injections_succ]
    by_cases he : e % f = 0
    · simp only [if_pos he]
      obtain ⟨j1, j2, j3⟩ := learner_injection (s := ⟨n, s2.trainer, s2.rng⟩) (by simp only [k2, k3]; exact hp) k4 hz ⟨k5, k6⟩
      refine ⟨by rw [j1]; rfl, k2, k3, k4, ?_, ?_⟩
      · rw [j2]; push_cast; ring_nf
      · rw [j3]; push_cast; ring_nf
    · simp only [if_neg he, Nat.add_zero]
      exact ⟨by rw [hz]; rfl, k2, k3, k4, k5, k6⟩) cfg.epochs h3 (by
      rw [h1, hc]
      refine ⟨hn, rfl, rfl, ht, ?_, ?_⟩
      · rw [show injections f 0 = 0 from rfl]; simp [hs.1]
      · rw [show injections f 0 = 0 from rfl]; simp [hs.2])
  obtain ⟨-, -, -, -, i1, i2⟩ := inv
  rw [injections_eq hf0] at i1 i2
  rw [h4]
  unfold Stats.normalise
  rw [i1, i2]
  exact ⟨rfl, rfl⟩

/-- C133, violated: the sum over all injections is divided by the rounded down number of intervals, so the reported average is not the average.  With three epochs and an interval of two there are two injections; each makes the accuracy fall from 1 to 0, and an average drop of 2 is reported. -/
theorem C133_average_violated {s : State (List Layer)} (ht : s.trainer = Trainer.new (1 / 2) false .jupiter) (hn : (at3 (s.net.map Layer.weights) 0 0 0).isSome) :
    ∃ st s', train learner [0] [1, 0] { epochs := 3, batch := 32 } s = .ok (.stats st, s') ∧ st.drop = some 2 ∧ st.recovery = some 2 := by
  obtain ⟨st, s', h1, h2, h3⟩ := learner_train (cfg := { epochs := 3, batch := 32 }) (s := s) (d := 0) (r := 0) (f := 2) (by decide) (by rw [ht]; norm_num [Trainer.new, factor]) (by rw [ht]; norm_num [Trainer.new]) (by rw [ht]; rfl) hn (by rw [ht]; exact ⟨rfl, rfl⟩)
    (by rw [ht]; simp [Trainer.new])
  exact ⟨st, s', h1, by rw [h2]; norm_num, by rw [h3]; norm_num⟩

/-- C133, violated: the statistics are not reset, and what was already an average is divided again.  Training twice for two epochs, each injection costing an accuracy of 1, reports an average drop of 1 and then of 3/2. -/
theorem C133_repeat_violated {s : State (List Layer)} (ht : s.trainer.prob = 1 ∧ s.trainer.env = .mars ∧ s.trainer.target = false) (hn : (at3 (s.net.map Layer.weights) 0 0 0).isSome) :
    (s.trainer.stats.drop = some 0 → s.trainer.stats.recovery = some 0 → ∃ st s', train learner [0] [1, 0] { epochs := 2, batch := 32 } s = .ok (.stats st, s') ∧ st.drop = some 1) ∧
    (s.trainer.stats.drop = some 1 → s.trainer.stats.recovery = some 1 → ∃ st s', train learner [0] [1, 0] { epochs := 2, batch := 32 } s = .ok (.stats st, s') ∧ st.drop = some (3 / 2)) := by
  constructor
  · intro h1 h2
    obtain ⟨st, s', k1, k2, -⟩ := learner_train (cfg := { epochs := 2, batch := 32 }) (s := s) (f := 1) (by decide) (by rw [ht.1, ht.2.1]; norm_num [factor]) (by rw [ht.1]; norm_num) ht.2.2 hn ⟨h1, h2⟩ (by rw [ht.1]; simp)
    exact ⟨st, s', k1, by rw [k2]; norm_num⟩
  · intro h1 h2
    obtain ⟨st, s', k1, k2, -⟩ := learner_train (cfg := { epochs := 2, batch := 32 }) (s := s) (f := 1) (by decide) (by rw [ht.1, ht.2.1]; norm_num [factor]) (by rw [ht.1]; norm_num) ht.2.2 hn ⟨h1, h2⟩ (by rw [ht.1]; simp)
    exact ⟨st, s', k1, by rw [k2]; norm_num⟩

/-! ### C134 -/

/-- The entry of a line of the map. -/
def Line.entry : Line → Option (ℕ × ℕ × ℝ)
  | .crit l i v => some (l, i, v)
  | _ => none

theorem critLines_entry (m : Crit) : (critLines m).filterMap Line.entry = m.zipIdx.flatMap fun a => a.1.zipIdx.flatMap fun r => r.1.map fun v => (a.2, r.2, sig6 v) := by
  unfold critLines
  rw [List.filterMap_flatMap]
  congr 1
  funext a
  rw [List.filterMap_flatMap]
  congr 1
  funext r
  rw [List.filterMap_map]
  rw [← List.filterMap_eq_map]
  rfl

/-- C134, contents: if the directory can be made, the file opened and all lines fit, the file has the settings and statistics to six significant digits, followed — if there is a map — by exactly one line for every weight. -/
theorem C134_contents (t : Trainer) {room : ℕ} (h : t.lines.length ≤ room) : ∃ rest, t.save false true true room = (true, some ([.header, .prob (sig6 t.prob), .target t.target, .env t.env.toNat, .flips t.stats.flips, .drop (t.stats.drop.map sig6), .recovery (t.stats.recovery.map sig6)] ++ rest)) ∧
    (t.crit = none → rest = []) ∧
    ∀ m, t.crit = some m → (rest.filterMap Line.entry).length = (m.map fun a => (a.map List.length).sum).sum ∧
      (rest.filterMap Line.entry).map (fun e => e.2.2) = (m.flatten.flatten).map sig6 ∧ ∀ l i v, (l, i, v) ∈ rest.filterMap Line.entry ↔ ∃ j x, at3 m l i j = some x ∧ v = sig6 x := by
  refine ⟨match t.crit with
    | none => []
    | some m => [.blank, .critHeader, .critColumns] ++ critLines m, ?_, ?_, ?_⟩
  · unfold Trainer.save
    rw [List.take_of_length_le h]
    rfl
  · intro hc; rw [hc]
  · intro m hc
    rw [hc]
    simp only [List.filterMap_append]
    have h0 : [Line.blank, .critHeader, .critColumns].filterMap Line.entry = [] := rfl
    rw [h0, List.nil_append, critLines_entry]
    have vals : (m.zipIdx.flatMap fun a => a.1.zipIdx.flatMap fun r => r.1.map fun v => (a.2, r.2, sig6 v)).map (fun e => e.2.2) = (m.flatten.flatten).map sig6 := by
      rw [List.map_flatMap]
      have inner : ∀ a : List (List ℝ) × ℕ, List.map (fun e : ℕ × ℕ × ℝ => e.2.2) (a.1.zipIdx.flatMap fun r => r.1.map fun v => (a.2, r.2, sig6 v)) = (a.1.flatten).map sig6 := by
        intro a
        rw [List.map_flatMap]
        have : (fun r : List ℝ × ℕ => List.map (fun e : ℕ × ℕ × ℝ => e.2.2) (r.1.map fun v => (a.2, r.2, sig6 v))) = (fun r : List ℝ => r.map sig6) ∘ Prod.fst := by
          funext r; simp
        rw [this, List.flatMap_def, ← List.map_map, List.zipIdx_map_fst, List.map_flatten]
      have : (fun a : List (List ℝ) × ℕ => List.map (fun e : ℕ × ℕ × ℝ => e.2.2) (a.1.zipIdx.flatMap fun r => r.1.map fun v => (a.2, r.2, sig6 v))) = (fun a : List (List ℝ) => a.flatten.map sig6) ∘ Prod.fst := by
        funext a; exact inner a
      rw [this, List.flatMap_def, ← List.map_map, List.zipIdx_map_fst, List.map_flatten, List.map_flatten, List.flatten_flatten, List.map_map]
      congr 1
      apply List.map_congr_left
      intro a _
      simp [List.map_flatten]
    refine ⟨?_, vals, ?_⟩
    · have := congrArg List.length vals
      rw [List.length_map] at this
      rw [this, List.length_map, List.length_flatten, List.map_flatten, List.sum_flatten, List.map_map]
      rfl
    · intro l i v
      simp only [List.mem_flatMap, List.mem_map, List.mem_zipIdx_iff_getElem?, Prod.exists, Prod.mk.injEq]
      constructor
      · rintro ⟨a, l', ha, r, i', hr, x, hx, rfl, rfl, rfl⟩
        obtain ⟨j, hj⟩ := List.mem_iff_getElem?.mp hx
        exact ⟨j, x, by simp [at3, ha, hr, hj], rfl⟩
      · rintro ⟨j, x, hx, rfl⟩
        unfold at3 at hx
        obtain ⟨a, ha, hx⟩ := Option.bind_eq_some_iff.mp hx
        obtain ⟨r, hr, hx⟩ := Option.bind_eq_some_iff.mp hx
        exact ⟨a, l, ha, r, i, hr, x, List.mem_of_getElem? hx, rfl, rfl, rfl⟩

/-- C134, violated: a line says only the layer and the row of a weight, so the weights of a row cannot be told apart: two different maps that rate the two weights of a row the other way round have the same labels, and each label stands for the whole row. -/
theorem C134_label_violated (x y : ℝ) : (critLines [[[x, y]]]).filterMap Line.entry = [(0, 0, sig6 x), (0, 0, sig6 y)] := by
  rw [critLines_entry]
  rfl

/-- C134, violated: a file name without a directory is refused, and nothing is written. -/
theorem C134_bare_name_violated (t : Trainer) (canCreate canOpen : Bool) (room : ℕ) : t.save true canCreate canOpen room = (false, none) := rfl

/-- C134, violated: on a full device success is reported for a file with only its first lines. -/
theorem C134_full_violated (t : Trainer) {room : ℕ} (h : room < t.lines.length) : ∃ f, t.save false true true room = (true, some f) ∧ f.length < t.lines.length :=
  ⟨_, rfl, by rw [List.length_take]; omega⟩

/-! ### Cases -/

example : Fits lib tiny [3, 4] [1, 0, 0, 1] := ⟨by decide, by decide, ⟨2, rfl⟩, rfl⟩
example : ∃ st s', train lib [3, 4] [1, 0, 0, 1] { epochs := 3 } ⟨tiny, Trainer.new (1 / 2) true .jupiter, half⟩ = .ok (.stats st, s') :=
  C130_total lib_lawful lib_steady ⟨by decide, by decide, ⟨2, rfl⟩, rfl⟩ (by decide) (by simp) (by norm_num [Trainer.new]) (by norm_num [Trainer.new]) (fun _ => ⟨by simp, by simp [lib, tiny, Full], by simp [Trainer.new]⟩)
example : train lib [3] [1, 0, 0, 1] { epochs := 3 } ⟨tiny, Trainer.new, half⟩ = .ok (.counts, ⟨tiny, Trainer.new, half⟩) :=
  (C130_rejected _ _ (by decide) (by decide)).2 (by simp [lib, tiny]) (by simp [lib, tiny]) (by simp [lib, tiny])
/-- The library network with a record of what it was trained on. -/
noncomputable def recorder : Network (Lib × List (List ℝ × List ℝ)) where
  inSize n := n.1.input
  outSize n := n.1.output
  forward n x := n.1.forward x
  loss n x y := n.1.loss x y
  step n x y := (n.1, n.2 ++ [(x, y)])
  layers n := n.1.layers
  set n l := ({ n.1 with layers := l }, n.2)
example : Record recorder Prod.snd := ⟨fun _ _ _ => rfl, fun _ _ => rfl⟩
example : Lawful recorder := ⟨fun _ _ => rfl, fun _ _ _ => rfl, fun _ => rfl, fun _ _ => rfl, fun _ _ => rfl⟩
example : (at3 ((([⟨[[0#32]], []⟩] : List Layer)).map Layer.weights) 0 0 0).isSome := rfl
example : 2 < (Trainer.new).lines.length := by simp [Trainer.lines]

end Verif.RadTraining
