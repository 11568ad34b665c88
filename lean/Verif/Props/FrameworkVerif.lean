import Verif.Model.FrameworkVerif
import Verif.Props.MonitoredTmr
import Mathlib.Tactic.Linarith
import Mathlib.Tactic.NormNum
/-! Properties C377–C378: the framework verification test. -/
namespace Verif.Props.FwVerif
open Verif.FwVerif
open Classical

variable {F : Type} [DecidableEq F]

/-! ### The weights -/

/-- The first copy holds `x`, the others `w`; `d` errors were detected and corrected. -/
def st (x w : List F) (d : ℕ) : Tmr.State (List F) := { c0 := x, c1 := w, c2 := w, stats := ⟨d, d, 0⟩, hasCallback := false, log := [] }

theorem get_st (x w : List F) (d : ℕ) : Tmr.get same (st x w d) = (w, st x w (d + if x ≠ w then 1 else 0)) := by
  unfold Tmr.get same st
  by_cases h : x = w
  · subst h
    simp
  · simp [h, Tmr.notify, Tmr.bumpCorrected]

theorem set_st (x w y : List F) (d : ℕ) : Tmr.setRawCopy (st x w d) 0 y = st y w d := rfl

/-! ### The bias -/

/-- The first and the third copy hold `b`, and all copies match their checksums. -/
def Two (crc : F → BitVec 32) (b : F) (s : MTmr.State F) : Prop :=
  (s.c0.val = b ∧ s.c2.val = b) ∧ (crc s.c0.val = s.c0.crc ∧ crc s.c1.val = s.c1.crc ∧ crc s.c2.val = s.c2.crc)

theorem verify_two (crc : F → BitVec 32) (b : F) (s : MTmr.State F) (h : Two crc b s) : MTmr.verifyCRCs crc s = (true, s) := by
  obtain ⟨-, d, e, f⟩ := h
  have h0 : MTmr.verifyOne crc 0 (true, s) = (true, s) := by
    unfold MTmr.verifyOne
    dsimp only
    rw [if_neg]
    exact fun g => g d
  have h1 : MTmr.verifyOne crc 1 (true, s) = (true, s) := by
    unfold MTmr.verifyOne
    dsimp only
    rw [if_neg]
    exact fun g => g e
  have h2 : MTmr.verifyOne crc 2 (true, s) = (true, s) := by
    unfold MTmr.verifyOne
    dsimp only
    rw [if_neg]
    exact fun g => g f
  unfold MTmr.verifyCRCs
  rw [h0, h1, h2]

theorem select_two (crc : F → BitVec 32) (b : F) (s : MTmr.State F) (h : Two crc b s) (r : ℚ) : Two crc b (MTmr.select s r).2 := by
  unfold MTmr.select
  split_ifs <;> exact h

theorem vote_two (crc : F → BitVec 32) (b : F) (s : MTmr.State F) (h : Two crc b s) (r : ℚ) : Two crc b (MTmr.vote same s r).2 := by
  unfold MTmr.vote
  dsimp only
  split_ifs
  all_goals first | exact h | exact select_two crc b { s with disagreements := s.disagreements + 1 } h r

theorem get_two (crc : F → BitVec 32) (b : F) (s : MTmr.State F) (h : Two crc b s) (now : ℤ) (r : ℚ) :
    (MTmr.get same crc s now r).1 = b ∧ Two crc b (MTmr.get same crc s now r).2 := by
  refine ⟨(MTmrP.C67_majority_read crc s now r b 0 2 (by decide) h.1.1 h.1.2).1, ?_⟩
  unfold MTmr.get
  dsimp only
  by_cases g : now - s.last ≥ s.intervalMs * 1000000
  · rw [if_pos g, verify_two crc b s h]
    exact vote_two crc b { s with last := now } h r
  · rw [if_neg g]
    exact vote_two crc b s h r

omit [DecidableEq F] in
theorem raw_two (crc : F → BitVec 32) (b : F) (s : MTmr.State F) (h : Two crc b s) (v : F) : Two crc b (MTmr.setRawCopy crc s 1 v) :=
  ⟨h.1, h.2.1, rfl, h.2.2.2⟩

omit [DecidableEq F] in
theorem reset_two (crc : F → BitVec 32) (b : F) (s : MTmr.State F) (h : Two crc b s) : Two crc b (MTmr.resetErrorStats s) := h

/-! ### The network -/

/-- The output of the undamaged network. -/
noncomputable def out (w : World F) (ws : List F) (b : F) : XD := if w.inputs ≠ ws.length then .fin 0 else w.eval ws b

/-- The network with weights `ws` and bias `b`, of which one copy each may be damaged. -/
def Holds (w : World F) (b : F) (x ws : List F) (d : ℕ) (n : Net F) : Prop := n.weights = st x ws d ∧ Two w.crc b n.bias

theorem forward_holds (w : World F) {b : F} {x ws : List F} {d : ℕ} {n : Net F} (h : Holds w b x ws d n) :
    (n.forward w).1 = out w ws b ∧ Holds w b x ws (d + if x ≠ ws then 1 else 0) (n.forward w).2 := by
  obtain ⟨h1, h2⟩ := h
  obtain ⟨g1, g2⟩ := get_two w.crc b n.bias h2 (w.now n.reads) (w.rnd n.reads)
  unfold Net.forward
  dsimp only
  rw [h1, get_st, g1]
  exact ⟨rfl, rfl, g2⟩

/-- The first copy of the weights after pass `k`. -/
def first (scale : F → F) (x ws : List F) : ℕ → List F
  | 0 => x
  | k + 1 => if k % 3 = 0 then ws.modify (k % ws.length) scale else ws

/-- The errors detected after `k` passes. -/
def found (scale : F → F) (x ws : List F) : ℕ → ℕ
  | 0 => 0
  | k + 1 => found scale x ws k + (if first scale x ws k ≠ ws then 1 else 0) + (if first scale x ws (k + 1) ≠ ws then 1 else 0)

theorem strike_holds (w : World F) (scale : F → F) (hit : F) (k : ℕ) {b : F} {x ws : List F} {d : ℕ} {n : Net F} (h : Holds w b x ws d n) :
    Holds w b (if k % 3 = 0 then ws.modify (k % ws.length) scale else ws) ws (d + if x ≠ ws then 1 else 0) (n.strike w scale hit k) := by
  obtain ⟨h1, h2⟩ := h
  unfold Net.strike
  dsimp only
  rw [h1, get_st]
  dsimp only
  refine ⟨?_, ?_⟩
  · dsimp only
    split_ifs <;> rfl
  · dsimp only
    split_ifs
    · exact raw_two _ _ _ h2 _
    · exact h2

theorem loop_holds (w : World F) (scale : F → F) (hit : F) {b : F} {x ws : List F} {n : Net F} (h : Holds w b x ws 0 n) : ∀ k,
    (loop w scale hit (out w ws b) n k).1 = (if close (out w ws b) (out w ws b) (1 / 10) then k else 0) ∧
    Holds w b (first scale x ws k) ws (found scale x ws k) (loop w scale hit (out w ws b) n k).2
  | 0 => ⟨by simp [loop], h⟩
  | k + 1 => by
    obtain ⟨i1, i2⟩ := loop_holds w scale hit h k
    obtain ⟨f1, f2⟩ := forward_holds w (strike_holds w scale hit k i2)
    rw [loop]
    dsimp only
    refine ⟨?_, f2⟩
    rw [f1, i1]
    split_ifs <;> rfl

theorem close_self (x : XD) (d : ℝ) (hd : 0 < d) : close x x d ↔ ∃ r, x = .fin r := by
  unfold close
  cases x with
  | fin r =>
    refine ⟨fun _ => ⟨r, rfl⟩, fun _ => ?_⟩
    show |r + -r| < d
    rw [add_neg_cancel, abs_zero]
    exact hd
  | pinf => exact ⟨fun h => absurd h (XD.not_lt_nan_left _), fun ⟨_, h⟩ => nomatch h⟩
  | ninf => exact ⟨fun h => absurd h (XD.not_lt_nan_left _), fun ⟨_, h⟩ => nomatch h⟩
  | nan => exact ⟨fun h => absurd h (XD.not_lt_nan_left _), fun ⟨_, h⟩ => nomatch h⟩

/-- The first copy after the corruption of test 2. -/
def struck (ws : List F) (bad : F) : List F := if 1 < ws.length then ws.set 1 bad else ws

theorem tests_holds (w : World F) (ws : List F) (b bad badBias hit : F) (scale : F → F) (t0 : ℤ) :
    (tests w ws b bad badBias hit scale t0).1 = ⟨decide (struck ws bad ≠ ws), decide (close (out w ws b) (out w ws b) (1 / 100000)), true, if close (out w ws b) (out w ws b) (1 / 10) then 100 else 0⟩ ∧
    Holds w b (first scale (struck ws bad) ws 100) ws (found scale (struck ws bad) ws 100) (tests w ws b bad badBias hit scale t0).2 := by
  have h0 : Holds w b ws ws 0 (Net.new w.crc ws b t0) := ⟨rfl, ⟨rfl, rfl⟩, rfl, rfl, rfl⟩
  obtain ⟨o0, a0⟩ := forward_holds w h0
  rw [if_neg (fun h => h rfl), Nat.add_zero] at a0
  have ha : (((Net.new w.crc ws b t0).forward w).2.corruptWeight 1 bad).weights = st (struck ws bad) ws 0 := by
    have g : Tmr.get same (st ws ws 0) = (ws, st ws ws 0) := by rw [get_st, if_neg (fun h => h rfl)]
    unfold Net.corruptWeight
    dsimp only
    rw [a0.1, g]
    dsimp only
    unfold struck
    split_ifs <;> rfl
  have a1 : Holds w b (struck ws bad) ws 0 (((Net.new w.crc ws b t0).forward w).2.corruptWeight 1 bad) := ⟨ha, a0.2⟩
  unfold tests
  dsimp only
  generalize (Net.new w.crc ws b t0).forward w = r0 at *
  obtain ⟨o1, a2⟩ := forward_holds w a1
  rw [Nat.zero_add] at a2
  generalize (r0.2.corruptWeight 1 bad).forward w = r1 at *
  have a3 := (forward_holds w (n := r1.2.corruptBias w badBias) ⟨a2.1, raw_two w.crc b _ a2.2 badBias⟩).2
  generalize (r1.2.corruptBias w badBias).forward w = r2 at *
  have v := verify_two w.crc b _ a3.2
  unfold MTmr.verify
  rw [v, o0]
  dsimp only
  have a4 : Holds w b (struck ws bad) ws 0 (Net.reset { r2.2 with bias := r2.2.bias }) := by
    refine ⟨?_, reset_two w.crc b _ a3.2⟩
    show Tmr.resetErrorStats r2.2.weights = _
    rw [a3.1]
    rfl
  obtain ⟨l1, l2⟩ := loop_holds w scale hit a4 100
  refine ⟨?_, l2⟩
  rw [l1, o1, a2.1]
  congr 1
  unfold st
  dsimp only
  by_cases g : struck ws bad ≠ ws
  · simp [g]
  · simp [g]

theorem struck_ne (ws : List F) (bad : F) : struck ws bad ≠ ws ↔ ∃ v, ws[1]? = some v ∧ v ≠ bad := by
  unfold struck
  constructor
  · intro h
    split_ifs at h with hl
    · refine ⟨ws[1], List.getElem?_eq_getElem hl, fun e => h ?_⟩
      rw [← e]
      exact List.set_getElem_self hl
    · exact absurd rfl h
  · rintro ⟨v, hv, hne⟩ e
    obtain ⟨hl, rfl⟩ := List.getElem?_eq_some_iff.1 hv
    rw [if_pos hl] at e
    apply hne
    have : (ws.set 1 bad)[1]? = some bad := by rw [List.getElem?_set_self hl]
    rw [e, hv] at this
    exact Option.some.inj this

/-! ### C377: the verdict -/

/-- **C377 (verdict).** For every non-empty list of weights, bias, corruption, clock, random numbers, checksum and arithmetic: the test passes exactly if there is a second weight, the value written over it differs from it, and the undamaged network gives a finite output; the passes of test 4 all succeed or (output not finite) all fail. -/
theorem C377_verdict (w : World F) (ws : List F) (_ : ws ≠ []) (b bad badBias hit : F) (scale : F → F) (t0 : ℤ) :
    let r := (tests w ws b bad badBias hit scale t0).1
    (r.passed = true ↔ (∃ v, ws[1]? = some v ∧ v ≠ bad) ∧ ∃ y, (if w.inputs ≠ ws.length then XD.fin 0 else w.eval ws b) = .fin y) ∧
    ((∃ y, (if w.inputs ≠ ws.length then XD.fin 0 else w.eval ws b) = .fin y) → r.successes = 100) ∧
    (¬ (∃ y, (if w.inputs ≠ ws.length then XD.fin 0 else w.eval ws b) = .fin y) → r.successes = 0) := by
  dsimp only
  rw [(tests_holds w ws b bad badBias hit scale t0).1]
  have c1 := close_self (out w ws b) (1 / 100000) (by norm_num)
  have c2 := close_self (out w ws b) (1 / 10) (by norm_num)
  rw [← struck_ne]
  change (_ ↔ _ ∧ ∃ y, out w ws b = .fin y) ∧ ((∃ y, out w ws b = .fin y) → _) ∧ (¬ (∃ y, out w ws b = .fin y) → _)
  unfold Report.passed
  dsimp only
  by_cases h : ∃ y, out w ws b = .fin y
  · rw [if_pos (c2.2 h)]
    refine ⟨?_, fun _ => rfl, fun g => absurd h g⟩
    rw [decide_eq_true (c1.2 h)]
    simp [h]
  · rw [if_neg (fun g => h (c2.1 g))]
    refine ⟨?_, fun g => absurd g h, fun _ => rfl⟩
    simp [h]

/-- **C377 (damage does not show).** In the same generality, at the end two copies of the weights and of the bias still hold the values given at construction. -/
theorem C377_intact (w : World F) (ws : List F) (_ : ws ≠ []) (b bad badBias hit : F) (scale : F → F) (t0 : ℤ) :
    let n := (tests w ws b bad badBias hit scale t0).2
    (n.weights.c1 = ws ∧ n.weights.c2 = ws) ∧ n.bias.c0.val = b ∧ n.bias.c2.val = b := by
  have h := (tests_holds w ws b bad badBias hit scale t0).2
  dsimp only
  refine ⟨?_, h.2.1⟩
  rw [h.1]
  exact ⟨rfl, rfl⟩

example : [5, 3, 8] ≠ ([] : List ℕ) ∧ ∃ v, [5, 3, 8][1]? = some v ∧ v ≠ 50 := by simp

/-! ### C378: the statistics -/

theorem found_eq (scale : F → F) (x ws : List F) (hx : x ≠ ws) (hs : ∀ k, ws.modify (k % ws.length) scale ≠ ws) : ∀ k, found scale x ws k = (k + 2) / 3 + (if k = 0 then 0 else 1 + (k + 1) / 3)
  | 0 => rfl
  | k + 1 => by
    rw [found, found_eq scale x ws hx hs k]
    have e : (if first scale x ws (k + 1) ≠ ws then 1 else 0) = if k % 3 = 0 then 1 else 0 := by
      rw [first]
      by_cases g : k % 3 = 0
      · rw [if_pos g, if_pos (hs k), if_pos g]
      · rw [if_neg g, if_neg (fun h => h rfl), if_neg g]
    rw [e]
    rcases k with _ | k
    · rw [first, if_pos hx]
      rfl
    have e2 : (if first scale x ws (k + 1) ≠ ws then 1 else 0) = if k % 3 = 0 then 1 else 0 := by
      rw [first]
      by_cases g : k % 3 = 0
      · rw [if_pos g, if_pos (hs k), if_pos g]
      · rw [if_neg g, if_neg (fun h => h rfl), if_neg g]
    rw [e2, if_neg (Nat.succ_ne_zero _), if_neg (Nat.succ_ne_zero _)]
    have q : k % 3 = 0 ∧ (k + 1) % 3 = 1 ∨ k % 3 = 1 ∧ (k + 1) % 3 = 2 ∨ k % 3 = 2 ∧ (k + 1) % 3 = 0 := by omega
    rcases q with ⟨q, q'⟩ | ⟨q, q'⟩ | ⟨q, q'⟩
    · rw [q, q', if_pos rfl, if_neg (by decide)]; omega
    · rw [q, q', if_neg (by decide), if_neg (by decide)]; omega
    · rw [q, q', if_neg (by decide), if_pos rfl]; omega

/-- **C378 (limit: errors counted twice).** For every non-empty list of weights that test 2 and the factor 1.5 really change: the statistics printed at the end show 68 errors detected and 68 corrected, none uncorrectable, although test 4 damaged the weights in 34 passes only: a read does not repair, so that each error but the last is found again by the next read, and the damage of test 2 once more. -/
theorem C378_counted_twice_limit (w : World F) (ws : List F) (hw : ws ≠ []) (b bad badBias hit : F) (scale : F → F) (t0 : ℤ) (hb : ∃ v, ws[1]? = some v ∧ v ≠ bad) (hs : ∀ v ∈ ws, scale v ≠ v) :
    (tests w ws b bad badBias hit scale t0).2.weights.stats = ⟨68, 68, 0⟩ ∧ ((List.range 100).filter fun i => i % 3 = 0).length = 34 := by
  have h := (tests_holds w ws b bad badBias hit scale t0).2
  have hm : ∀ k, ws.modify (k % ws.length) scale ≠ ws := by
    intro k e
    have hl : k % ws.length < ws.length := Nat.mod_lt _ (List.length_pos_iff.2 hw)
    have : (ws.modify (k % ws.length) scale)[k % ws.length]? = some (scale ws[k % ws.length]) := by
      rw [List.getElem?_modify_eq, List.getElem?_eq_getElem hl]
      rfl
    rw [e, List.getElem?_eq_getElem hl] at this
    exact hs _ (List.getElem_mem hl) (Option.some.inj this).symm
  refine ⟨?_, by decide +kernel⟩
  rw [h.1, found_eq scale _ ws ((struck_ne ws bad).2 hb) hm]
  rfl

/-- **C378 (statistics consistent).** Whatever is written, all errors detected were corrected. -/
theorem C378_consistent (w : World F) (ws : List F) (b bad badBias hit : F) (scale : F → F) (t0 : ℤ) :
    (tests w ws b bad badBias hit scale t0).2.weights.stats.detected = (tests w ws b bad badBias hit scale t0).2.weights.stats.corrected ∧
    (tests w ws b bad badBias hit scale t0).2.weights.stats.uncorrectable = 0 := by
  rw [(tests_holds w ws b bad badBias hit scale t0).2.1]
  exact ⟨rfl, rfl⟩

/-- **C378 (limit: verification).** Whatever value is written over the second copy of the bias, `verify()` returns true and the test announces that the error was detected: writing a copy also writes its checksum. -/
theorem C378_verify_limit (w : World F) (ws : List F) (b bad badBias hit : F) (scale : F → F) (t0 : ℤ) : (tests w ws b bad badBias hit scale t0).1.verified = true := by
  rw [(tests_holds w ws b bad badBias hit scale t0).1]

/-- Counters of the bias after a read with two intact copies. -/
theorem get_counts (crc : F → BitVec 32) (b : F) (s : MTmr.State F) (h : Two crc b s) (now : ℤ) (r : ℚ) :
    let g := (MTmr.get same crc s now r).2
    g.c1.val = s.c1.val ∧ g.gets = s.gets + 1 ∧ g.crcFailures = s.crcFailures ∧ g.disagreements = s.disagreements + if s.c1.val = b then 0 else 1 := by
  have key : ∀ t : MTmr.State F, Two crc b t → (MTmr.vote same t r).2.c1.val = t.c1.val ∧ (MTmr.vote same t r).2.gets = t.gets ∧ (MTmr.vote same t r).2.crcFailures = t.crcFailures ∧
      (MTmr.vote same t r).2.disagreements = t.disagreements + if t.c1.val = b then 0 else 1 := by
    intro t ht
    unfold MTmr.vote same
    dsimp only
    rw [ht.1.1, ht.1.2]
    by_cases e : t.c1.val = b
    · rw [e]
      simp only [decide_true, Bool.and_self, if_true]
      exact ⟨e, rfl, rfl, rfl⟩
    · have e' : ¬ b = t.c1.val := fun h => e h.symm
      simp only [e, e', decide_false, Bool.false_and, Bool.false_eq_true, if_false, decide_true, if_true]
      split_ifs <;> exact ⟨rfl, rfl, rfl, rfl⟩
  unfold MTmr.get
  dsimp only
  by_cases g : now - s.last ≥ s.intervalMs * 1000000
  · rw [if_pos g, verify_two crc b s h]
    obtain ⟨k1, k2, k3, k4⟩ := key { s with last := now } h
    exact ⟨k1, congrArg (· + 1) k2, k3, k4⟩
  · rw [if_neg g]
    obtain ⟨k1, k2, k3, k4⟩ := key s h
    exact ⟨k1, congrArg (· + 1) k2, k3, k4⟩

theorem loop_counts (w : World F) (scale : F → F) (hit : F) (normal : XD) {b : F} {n : Net F} (h : Two w.crc b n.bias) (hz : n.bias.gets = 0 ∧ n.bias.crcFailures = 0 ∧ n.bias.disagreements = 0) : ∀ k,
    let q := (loop w scale hit normal n k).2
    Two w.crc b q.bias ∧ (0 < k → q.bias.c1.val = hit) ∧ q.bias.gets = k ∧ q.bias.crcFailures = 0 ∧ q.bias.disagreements = (if hit = b then 0 else k) ∧ q.reads = n.reads + k
  | 0 => ⟨h, fun h => absurd h (by decide), hz.1, hz.2.1, by rw [show (loop w scale hit normal n 0).2 = n from rfl, hz.2.2]; split_ifs <;> rfl, rfl⟩
  | k + 1 => by
    obtain ⟨i1, i2, i3, i4, i5, i6⟩ := loop_counts w scale hit normal h hz k
    rw [loop]
    dsimp only at i1 i2 i3 i4 i5 i6 ⊢
    generalize (loop w scale hit normal n k).2 = q at *
    have s1 : Two w.crc b (q.strike w scale hit k).bias := by
      unfold Net.strike
      dsimp only
      split_ifs
      · exact raw_two _ _ _ i1 _
      · exact i1
    have s2 : (q.strike w scale hit k).bias.c1.val = hit := by
      unfold Net.strike
      dsimp only
      by_cases g : k % 7 = 0
      · rw [if_pos g]; rfl
      · rw [if_neg g]
        refine i2 (Nat.pos_of_ne_zero fun e => g ?_)
        rw [e]
    have s3 : (q.strike w scale hit k).bias.gets = k ∧ (q.strike w scale hit k).bias.crcFailures = 0 ∧ (q.strike w scale hit k).bias.disagreements = (if hit = b then 0 else k) ∧ (q.strike w scale hit k).reads = q.reads := by
      unfold Net.strike
      dsimp only
      refine ⟨?_, ?_, ?_, rfl⟩ <;> split_ifs <;> first | exact i3 | exact i4 | (rw [‹hit = b›, if_pos rfl] at i5; exact i5) | (rw [if_neg ‹¬ hit = b›] at i5; exact i5)
    generalize q.strike w scale hit k = t at *
    obtain ⟨c1, c2, c3, c4⟩ := get_counts w.crc b t.bias s1 (w.now t.reads) (w.rnd t.reads)
    unfold Net.forward
    dsimp only
    refine ⟨(get_two w.crc b t.bias s1 _ _).2, fun _ => c1.trans s2, by rw [c2, s3.1], by rw [c3, s3.2.1], ?_, by rw [s3.2.2.2, i6]; rfl⟩
    rw [c4, s3.2.2.1, s2]
    split_ifs <;> rfl

/-- **C378 (statistics of the bias).** Whatever is written and whatever the clock says: the statistics printed for the bias show 100 reads, no failed checksum, and a disagreement at every read of test 4 (none if the value 0.9 is the bias itself), although the bias was struck in 15 of the 100 passes only; 103 forward passes were made. -/
theorem C378_bias_statistics (w : World F) (ws : List F) (b bad badBias hit : F) (scale : F → F) (t0 : ℤ) :
    let n := (tests w ws b bad badBias hit scale t0).2
    n.bias.gets = 100 ∧ n.bias.crcFailures = 0 ∧ n.bias.disagreements = (if hit = b then 0 else 100) ∧ n.reads = 103 := by
  have h0 : Two w.crc b (Net.new w.crc ws b t0).bias := ⟨⟨rfl, rfl⟩, rfl, rfl, rfl⟩
  have f : ∀ n : Net F, Two w.crc b n.bias → Two w.crc b (n.forward w).2.bias := fun n h => (get_two w.crc b n.bias h _ _).2
  dsimp only
  unfold tests
  dsimp only
  have a0 := f _ h0
  have r0 : ((Net.new w.crc ws b t0).forward w).2.reads = 1 := rfl
  generalize (Net.new w.crc ws b t0).forward w = q0 at *
  have a1 := f (q0.2.corruptWeight 1 bad) a0
  have r1 : ((q0.2.corruptWeight 1 bad).forward w).2.reads = 2 := congrArg (· + 1) r0
  generalize (q0.2.corruptWeight 1 bad).forward w = q1 at *
  have a2 := f (q1.2.corruptBias w badBias) (raw_two w.crc b _ a1 badBias)
  have r2 : ((q1.2.corruptBias w badBias).forward w).2.reads = 3 := congrArg (· + 1) r1
  generalize (q1.2.corruptBias w badBias).forward w = q2 at *
  have v : MTmr.verify w.crc q2.2.bias = (true, q2.2.bias) := verify_two w.crc b _ a2
  rw [v]
  dsimp only
  obtain ⟨-, -, l3, l4, l5, l6⟩ := loop_counts w scale hit q0.1 (n := Net.reset { q2.2 with bias := q2.2.bias }) (reset_two w.crc b _ a2) ⟨rfl, rfl, rfl⟩ 100
  exact ⟨l3, l4, l5, l6.trans (congrArg (· + 100) r2)⟩

example : ((List.range 100).filter fun i => i % 7 = 0).length = 15 := by decide +kernel

example : ∀ v ∈ [5, 3, 8], (fun v : ℕ => v + 1) v ≠ v := by simp

end Verif.Props.FwVerif
