import Verif.Model.HwAccel
import Mathlib.Tactic.Linarith
import Mathlib.Tactic.NormNum
import Mathlib.Tactic.Ring
import Mathlib.Data.List.Basic
/-!
Properties of the accelerator integration: execution (C109) and reliability figures (C110).
-/
namespace Verif.Props.HwAccelP
open Verif Verif.HwAccel

/-- Equality of values as C++ `==` gives it: symmetric and transitive (NaN equals nothing, the zeros each other). -/
structure PartialEq {F : Type} (eq : F → F → Bool) : Prop where
  symm : ∀ a b, eq a b = true → eq b a = true
  trans : ∀ a b c, eq a b = true → eq b c = true → eq a c = true

/-- At least two of three values equal `r`. -/
def TwoOf {F : Type} (eq : F → F → Bool) (r a b c : F) : Prop :=
  (eq r a = true ∧ eq r b = true) ∨ (eq r a = true ∧ eq r c = true) ∨ (eq r b = true ∧ eq r c = true)

theorem vote_right {F : Type} (eq : F → F → Bool) (avg : F → F → F → F) (he : PartialEq eq) (r a b c : F) (h : TwoOf eq r a b c) : eq r (vote eq avg a b c) = true := by
  unfold vote
  rcases h with ⟨h1, h2⟩ | ⟨h1, h2⟩ | ⟨h1, h2⟩
  · rw [if_pos (by simp [he.trans _ _ _ (he.symm _ _ h1) h2])]; exact h1
  · rw [if_pos (by simp [he.trans _ _ _ (he.symm _ _ h1) h2])]; exact h1
  · by_cases hc : (eq a b || eq a c) = true
    · rw [if_pos hc]
      rw [Bool.or_eq_true] at hc
      rcases hc with hc | hc
      · exact he.trans _ _ _ h1 (he.symm _ _ hc)
      · exact he.trans _ _ _ h2 (he.symm _ _ hc)
    · rw [if_neg hc, if_pos (he.trans _ _ _ (he.symm _ _ h1) h2)]; exact h1

theorem voteAll_ok {F : Type} (eq : F → F → Bool) (avg : F → F → F → F) (o0 o1 o2 : List F) (n : Nat) (h0 : n ≤ o0.length) (h1 : n ≤ o1.length) (h2 : n ≤ o2.length) :
    ∃ out, voteAll eq avg o0 o1 o2 n = .ok out ∧ out.length = n ∧ ∀ j a b c, j < n → o0[j]? = some a → o1[j]? = some b → o2[j]? = some c → out[j]? = some (vote eq avg a b c) := by
  induction n with
  | zero => exact ⟨[], rfl, rfl, by intro j a b c hj; omega⟩
  | succ n ih =>
    obtain ⟨out, e, hl, hv⟩ := ih (by omega) (by omega) (by omega)
    unfold voteAll at e ⊢
    unfold forN
    rw [e]
    have g0 : o0[n]? = some o0[n] := List.getElem?_eq_getElem (by omega)
    have g1 : o1[n]? = some o1[n] := List.getElem?_eq_getElem (by omega)
    have g2 : o2[n]? = some o2[n] := List.getElem?_eq_getElem (by omega)
    refine ⟨out ++ [vote eq avg o0[n] o1[n] o2[n]], ?_, by simp [hl], ?_⟩
    · simp only [Outcome.bind, g0, g1, g2]
    · intro j a b c hj ha hb hc
      by_cases hjn : j = n
      · subst hjn
        rw [g0] at ha; rw [g1] at hb; rw [g2] at hc
        rw [← Option.some.inj ha, ← Option.some.inj hb, ← Option.some.inj hc, List.getElem?_append_right (by omega), hl]
        simp
      · rw [List.getElem?_append_left (by omega)]
        exact hv j a b c (by omega) ha hb hc

/-- C109: with software voting on and any accelerator whose three executions succeed and fill the buffer, every element for which two of the three executions gave the right value has the right
value, whatever the third gave. -/
theorem C109_masking {F : Type} (eq : F → F → Bool) (avg : F → F → F → F) (he : PartialEq eq) (zero : F) (acc : Accel F) (g : Integ) (hg : g.sw = true) (input buf : List F)
    (hok : ∀ i < 3, (acc i input (List.replicate buf.length zero)).1 = true) (hlen : ∀ i < 3, (acc i input (List.replicate buf.length zero)).2.length = buf.length) :
    ∃ out, g.execute eq avg zero acc input buf = .ok (true, out) ∧ out.length = buf.length ∧
      ∀ (j : Nat) (r a b c : F), (acc 0 input (List.replicate buf.length zero)).2[j]? = some a → (acc 1 input (List.replicate buf.length zero)).2[j]? = some b →
        (acc 2 input (List.replicate buf.length zero)).2[j]? = some c → TwoOf eq r a b c → ∃ x, out[j]? = some x ∧ eq r x = true := by
  obtain ⟨out, h1, h2, h3⟩ := voteAll_ok eq avg (acc 0 input (List.replicate buf.length zero)).2 (acc 1 input (List.replicate buf.length zero)).2
    (acc 2 input (List.replicate buf.length zero)).2 buf.length (by rw [hlen 0 (by omega)]) (by rw [hlen 1 (by omega)]) (by rw [hlen 2 (by omega)])
  refine ⟨out, ?_, h2, ?_⟩
  · unfold Integ.execute
    rw [hg]
    simp only [Bool.not_true, Bool.false_eq_true, if_false]
    rw [hok 0 (by omega), hok 1 (by omega), hok 2 (by omega), h1]
    rfl
  · intro j r a b c ha hb hc ht
    have hj : j < buf.length := by
      rw [← hlen 0 (by omega)]
      exact (List.getElem?_eq_some_iff.1 ha).1
    exact ⟨_, h3 j a b c hj ha hb hc, vote_right eq avg he r a b c ht⟩

/-- An accelerator that doubles its input and errs in one element of its second run. -/
def demoAccel : Accel Int := fun i input _ => (true, if i = 1 then (input.map (2 * ·)).set 1 99 else input.map (2 * ·))

/-- Non-vacuity. -/
example : Integ.execute (fun a b => decide (a = b)) (fun a _ _ => a) 0 demoAccel ⟨{}, true⟩ [3, 4, 5] [0, 0, 0] = .ok (true, [6, 8, 10]) := by decide

/-- C109: a failing execution makes the whole fail, and the caller's buffer is left alone. -/
theorem C109_failure {F : Type} (eq : F → F → Bool) (avg : F → F → F → F) (zero : F) (acc : Accel F) (g : Integ) (hg : g.sw = true) (input buf : List F)
    (hf : ∃ i < 3, (acc i input (List.replicate buf.length zero)).1 = false) : g.execute eq avg zero acc input buf = .ok (false, buf) := by
  unfold Integ.execute
  rw [hg]
  simp only [Bool.not_true, Bool.false_eq_true, if_false]
  rw [if_pos]
  obtain ⟨i, hi, hf⟩ := hf
  have : i = 0 ∨ i = 1 ∨ i = 2 := by omega
  rcases this with rfl | rfl | rfl <;> simp [hf]

/-- Non-vacuity. -/
example : Integ.execute (fun a b => decide (a = b)) (fun a _ _ => a) 0 (fun i input _ => (decide (i ≠ 2), input)) ⟨{}, true⟩ [3, 4] [7, 7] = .ok (false, [7, 7]) := by decide

/-- C109 (negation): three executions that all differ are reported as a success; the value is their average, which may be none of them. -/
theorem C109_no_majority_violated {F : Type} (eq : F → F → Bool) (avg : F → F → F → F) (zero a b c : F) (acc : Accel F) (g : Integ) (hg : g.sw = true) (input : List F)
    (h0 : acc 0 input [zero] = (true, [a])) (h1 : acc 1 input [zero] = (true, [b])) (h2 : acc 2 input [zero] = (true, [c]))
    (hab : eq a b = false) (hac : eq a c = false) (hbc : eq b c = false) (x : F) :
    g.execute eq avg zero acc input [x] = .ok (true, [avg a b c]) := by
  unfold Integ.execute
  rw [hg]
  simp only [Bool.not_true, Bool.false_eq_true, if_false, List.length_singleton, List.replicate_one]
  rw [h0, h1, h2]
  simp [voteAll, forN, Outcome.bind, vote, hab, hac, hbc]

/-- Non-vacuity. -/
example : Integ.execute (fun a b => decide (a = b)) (fun a b c => (a + b + c) / 3) 0 (fun i _ _ => (true, [(100 * i : Int)])) ⟨{}, true⟩ [] [0] = .ok (true, [100]) := by decide

/-- C109 (negation): the class finds no accelerator and creates the base class, so whatever the configuration, input and voting mode, initialisation and every execution fail and nothing is
computed. -/
theorem C109_never_executes_violated {F : Type} (eq : F → F → Bool) (avg : F → F → F → F) (zero : F) (c : Config) (sw : Bool) (input buf : List F) :
    (Integ.new c).initialize.1 = false ∧ { Integ.new c with sw := sw }.execute eq avg zero baseExecute input buf = .ok (false, buf) := by
  refine ⟨rfl, ?_⟩
  cases sw <;> rfl

/-- Non-vacuity: a configuration that asks for an FPGA gets none. -/
example : (Integ.new { type := .fpga }).config.type = .none := by decide

/-! C110 -/

theorem scrub_nonneg (t : Scrub) : 0 ≤ t.r := by cases t <;> norm_num [Scrub.r]

theorem base_pos (c : Config) : 85 / 100 ≤ c.base := by
  unfold Config.base
  have h1 : 85 / 100 ≤ c.type.r := by cases c.type <;> norm_num [AType.r]
  have h2 : (0 : ℝ) ≤ if c.ecc then 3 / 100 else 0 := by split <;> norm_num
  have h3 : 0 ≤ c.tmr.r := by cases c.tmr <;> norm_num [HwTmr.r]
  have h5 : (0 : ℝ) ≤ if c.type = .fpga then c.scrub.r else 0 := by
    split
    · exact scrub_nonneg _
    · exact le_refl _
  linarith

/-- Rank of a TMR approach. -/
def tmrRank : HwTmr → Nat
  | .none => 0
  | .block => 1
  | .register => 2
  | .complete => 3

/-- C110: the reliability is a number above 0 and at most 0.999, never rises with the upset rate, and never falls when ECC is switched on or a more complete hardware TMR or a scrubbing strategy is chosen. -/
theorem C110_accelerator (c : Config) (rate rate' : ℝ) :
    0 < c.reliability rate ∧ c.reliability rate ≤ 999 / 1000 ∧ (rate ≤ rate' → c.reliability rate' ≤ c.reliability rate) ∧
    c.reliability rate ≤ { c with ecc := true }.reliability rate ∧
    (∀ s', s' ≠ .none → { c with scrub := .none }.reliability rate ≤ { c with scrub := s' }.reliability rate) ∧
    (∀ t, tmrRank c.tmr ≤ tmrRank t → c.reliability rate ≤ { c with tmr := t }.reliability rate) ∧
    c.reliability 0 = min (999 / 1000) c.base := by
  have hb := base_pos c
  have he := Real.exp_pos (-10 * rate)
  have mono : ∀ c' : Config, c.base ≤ c'.base → c.reliability rate ≤ c'.reliability rate := by
    intro c' h
    unfold Config.reliability
    exact min_le_min (le_refl _) (mul_le_mul_of_nonneg_right h (le_of_lt he))
  refine ⟨?_, min_le_left _ _, ?_, ?_, ?_, ?_, ?_⟩
  · unfold Config.reliability
    refine lt_min (by norm_num) (mul_pos (by linarith) he)
  · intro h
    unfold Config.reliability
    refine min_le_min (le_refl _) (mul_le_mul_of_nonneg_left (Real.exp_le_exp.2 (by linarith)) (by linarith))
  · apply mono
    unfold Config.base
    simp only [if_true]
    have : (if c.ecc then (3 / 100 : ℝ) else 0) ≤ 3 / 100 := by split <;> norm_num
    linarith
  · intro s' _
    unfold Config.reliability
    refine min_le_min (le_refl _) (mul_le_mul_of_nonneg_right ?_ (le_of_lt he))
    unfold Config.base
    simp only
    have h1 : (if c.type = AType.fpga then Scrub.none.r else 0) ≤ if c.type = AType.fpga then s'.r else 0 := by
      split
      · have h2 := scrub_nonneg s'
        have h3 : Scrub.none.r = 0 := rfl
        linarith
      · exact le_refl _
    linarith
  · intro t ht
    apply mono
    unfold Config.base
    simp only
    have : c.tmr.r ≤ t.r := by
      revert ht
      cases c.tmr <;> cases t <;> simp only [tmrRank, HwTmr.r] <;> intro ht <;> first | omega | norm_num
    linarith
  · unfold Config.reliability; simp

/-- Non-vacuity: the hardened ASIC with everything on is capped. -/
example : ({ type := .asic, tmr := .complete } : Config).reliability 0 = 999 / 1000 := by
  rw [(C110_accelerator _ 0 0).2.2.2.2.2.2]
  unfold Config.base
  norm_num [AType.r, HwTmr.r, (by decide : AType.none ≠ AType.fpga), (by decide : AType.asic ≠ AType.fpga)]

/-- C110: the reliability of the system is a probability; with software voting it is that of two out of three independent executions being right, otherwise the accelerator's; it never rises with
the upset rate. -/
theorem C110_system (g : Integ) (rate rate' : ℝ) :
    0 < g.reliability rate ∧ g.reliability rate < 1 ∧ (rate ≤ rate' → g.reliability rate' ≤ g.reliability rate) ∧
    (g.sw = false → g.reliability rate = g.config.reliability rate) ∧
    (g.sw = true → g.reliability rate = (g.config.reliability rate) ^ 3 + 3 * (g.config.reliability rate) ^ 2 * (1 - g.config.reliability rate)) := by
  have h := C110_accelerator g.config rate rate'
  have h' := C110_accelerator g.config rate' rate
  refine ⟨?_, ?_, ?_, ?_, ?_⟩
  · unfold Integ.reliability; simp only
    have h1 := h.1
    have h2 := h.2.1
    split
    · have : 0 < g.config.reliability rate * g.config.reliability rate := mul_pos h1 h1
      nlinarith
    · exact h1
  · unfold Integ.reliability; simp only
    have h1 := h.1
    have h2 := h.2.1
    split
    · have h3 : g.config.reliability rate < 1 := by linarith
      have h4 : 0 < (1 - g.config.reliability rate) * (1 - g.config.reliability rate) := mul_pos (by linarith) (by linarith)
      nlinarith [mul_pos h1 h4]
    · linarith
  · intro hr
    unfold Integ.reliability; simp only
    have hle := h.2.2.1 hr
    have hq := h'.1
    have hp := h.2.1
    split
    · have hd : 0 ≤ g.config.reliability rate - g.config.reliability rate' := by linarith
      generalize g.config.reliability rate = p at *
      generalize g.config.reliability rate' = q at *
      have : 0 ≤ (p - q) * (3 * (p + q) - 2 * (p * p + p * q + q * q)) := by
        apply mul_nonneg hd
        nlinarith [mul_nonneg (le_of_lt hq) (by linarith : (0:ℝ) ≤ 1 - p), mul_nonneg (by linarith : (0:ℝ) ≤ p) (by linarith : (0:ℝ) ≤ 1 - p), mul_nonneg (le_of_lt hq) (by linarith : (0:ℝ) ≤ 1 - q)]
      nlinarith
    · exact hle
  · intro hs; unfold Integ.reliability; simp only; rw [if_neg (by simp [hs])]
  · intro hs; unfold Integ.reliability; simp only; rw [if_pos hs]; ring

/-- Non-vacuity: reliability 0.88 becomes 0.960256 by voting. -/
example : (Integ.new {}).reliability 0 = 960256 / 1000000 := by
  have : (Integ.new {}).config.reliability 0 = 88 / 100 := by
    rw [(C110_accelerator _ 0 0).2.2.2.2.2.2]
    unfold Config.base
    have e : (Integ.new {}).config = {} := by decide
    rw [e]; norm_num [AType.r, HwTmr.r, (by decide : AType.none ≠ AType.fpga), (by decide : AType.asic ≠ AType.fpga)]
  rw [(C110_system _ 0 0).2.2.2.2 rfl, this]
  norm_num

/-- C110: software voting helps exactly when a single execution is right with probability above one half. -/
theorem C110_voting_helps (g : Integ) (rate : ℝ) :
    { g with sw := false }.reliability rate < { g with sw := true }.reliability rate ↔ 1 / 2 < g.config.reliability rate := by
  have h := C110_accelerator g.config rate rate
  unfold Integ.reliability
  simp only [if_true, Bool.false_eq_true, if_false]
  have h1 := h.1
  have h2 := h.2.1
  generalize g.config.reliability rate = p at *
  have e : 3 * p * p * (1 - p) + p * p * p - p = p * (1 - p) * (2 * p - 1) := by ring
  have hpp : 0 < p * (1 - p) := mul_pos h1 (by linarith)
  constructor
  · intro hlt
    by_contra hc
    have : p * (1 - p) * (2 * p - 1) ≤ 0 := mul_nonpos_of_nonneg_of_nonpos (le_of_lt hpp) (by linarith)
    linarith
  · intro hlt
    have : 0 < p * (1 - p) * (2 * p - 1) := mul_pos hpp (by linarith)
    linarith

/-- Non-vacuity: a single execution of the default configuration is right with probability 0.88. -/
example : 1 / 2 < (Integ.new {}).config.reliability 0 := by
  rw [(C110_accelerator _ 0 0).2.2.2.2.2.2]
  unfold Config.base
  have e : (Integ.new {}).config = {} := by decide
  rw [e]; norm_num [AType.r, HwTmr.r, (by decide : AType.none ≠ AType.fpga), (by decide : AType.asic ≠ AType.fpga)]

/-- C110 (negation): a configuration that mentions complete hardware TMR makes `initialize` switch software voting off although no accelerator is present, which lowers the system's reliability whenever a single
execution is right with probability above one half. -/
theorem C110_phantom_tmr_violated (c : Config) (hc : c.tmr = .complete) (rate : ℝ) (hp : 1 / 2 < (Integ.new c).config.reliability rate) :
    (Integ.new c).config.available = false ∧ (Integ.new c).initialize.2.sw = false ∧ (Integ.new c).initialize.2.reliability rate < (Integ.new c).reliability rate := by
  have e : (Integ.new c).config.tmr = .complete := by rw [← hc]; rfl
  have e2 : (Integ.new c).initialize.2 = { Integ.new c with sw := false } := by unfold Integ.initialize; rw [if_pos e]
  refine ⟨rfl, by rw [e2], ?_⟩
  rw [e2]
  exact (C110_voting_helps (Integ.new c) rate).2 hp

/-- Non-vacuity. -/
example : 1 / 2 < (Integ.new { tmr := .complete }).config.reliability 0 := by
  rw [(C110_accelerator _ 0 0).2.2.2.2.2.2]
  unfold Config.base
  have e : (Integ.new { tmr := .complete }).config = { tmr := .complete } := by decide
  rw [e]; norm_num [AType.r, HwTmr.r, (by decide : AType.none ≠ AType.fpga), (by decide : AType.asic ≠ AType.fpga)]

end Verif.Props.HwAccelP
