import Verif.Model.EnhancedMonteCarlo
import Verif.Props.MonteCarlo
import Verif.Props.PyMethods
/-!
C301–C303: the comparison of protection methods of enhanced_monte_carlo.py.
-/
namespace Verif.Props.EnhMC
open Verif Verif.EnhMC
open Classical

/-- `_calculate_error_values` and the correction of the Reed–Solomon decoder, an argument of its model. -/
abbrev Forney := List ℕ → List ℕ → List ℕ → Option (List ℕ × Bool)

/-! ### C301: trials -/

/-- A trial succeeds: no exception, success reported, value near the weight. -/
def Passes (m : PyMethods.Method) (rate : ℝ) (t : Trial) : Prop :=
  ∃ w, m.recover (MonteCarlo.applyErrors (m.protect t.v) rate t.draws) = some (w, true) ∧ t.near w = true

/-- A trial raises no exception. -/
def Returns (m : PyMethods.Method) (rate : ℝ) (t : Trial) : Prop := ∃ r, m.recover (MonteCarlo.applyErrors (m.protect t.v) rate t.draws) = some r

theorem trialOk_eq {m : PyMethods.Method} {rate : ℝ} {t : Trial} (h : Returns m rate t) : trialOk m rate t = some (decide (Passes m rate t)) := by
  obtain ⟨⟨w, b⟩, hr⟩ := h
  unfold trialOk Passes
  rw [hr]
  simp only [Option.map_some, Option.some.injEq, Prod.mk.injEq]
  cases b
  · simp
  · cases hn : t.near w <;> simp [hn]

theorem successes_eq (m : PyMethods.Method) (rate : ℝ) : ∀ ts : List Trial, (∀ t ∈ ts, Returns m rate t) → successes m rate ts = some ((ts.filter fun t => decide (Passes m rate t)).length)
  | [], _ => rfl
  | t :: ts, h => by
    rw [successes, trialOk_eq (h t (by simp)), successes_eq m rate ts (fun s hs => h s (by simp [hs]))]
    by_cases hp : Passes m rate t <;> simp [hp]

theorem successes_none (m : PyMethods.Method) (rate : ℝ) : ∀ ts : List Trial, (∃ t ∈ ts, ¬ Returns m rate t) → successes m rate ts = none
  | [], ⟨_, h, _⟩ => absurd h (by simp)
  | t :: ts, ⟨s, hs, hn⟩ => by
    rw [successes]
    by_cases ht : Returns m rate t
    · rw [trialOk_eq ht]
      have : s ∈ ts := by
        rcases List.mem_cons.1 hs with rfl | h
        · exact absurd ht hn
        · exact h
      rw [successes_none m rate ts ⟨s, this, hn⟩]
    · have : trialOk m rate t = none := by
        unfold trialOk
        cases hr : m.recover (MonteCarlo.applyErrors (m.protect t.v) rate t.draws) with
        | none => rfl
        | some r => exact absurd ⟨r, hr⟩ ht
      rw [this]

/-- **C301 (success rate).** For every method, error rate and non-empty list of trials none of which raises an exception, the success rate is the share of the trials that recover a value near the weight;
it lies between 0 and 1 and inside its interval, which does too. If a trial raises an exception, or there are no trials, there is no result. -/
theorem C301_rate (m : PyMethods.Method) (rate : ℝ) (ts : List Trial) :
    (ts ≠ [] → (∀ t ∈ ts, Returns m rate t) → ∃ p lo hi, rateRow m rate ts = some (p, lo, hi) ∧ p * ts.length = (ts.filter fun t => decide (Passes m rate t)).length ∧
      0 ≤ lo ∧ lo ≤ p ∧ p ≤ hi ∧ hi ≤ 1) ∧
    (ts = [] ∨ (∃ t ∈ ts, ¬ Returns m rate t) → rateRow m rate ts = none) := by
  constructor
  · intro hne hr
    have hl : 0 < ts.length := List.length_pos_iff.2 hne
    have hl' : (0 : ℝ) < ts.length := by exact_mod_cast hl
    have hk : ((ts.filter fun t => decide (Passes m rate t)).length : ℝ) ≤ ts.length := by exact_mod_cast List.length_filter_le _ _
    unfold rateRow
    rw [successes_eq m rate ts hr]
    simp only [hl.ne', if_false]
    have h := MonteCarlo.C286_interval ts.length hl (((ts.filter fun t => decide (Passes m rate t)).length : ℝ) / ts.length) (by positivity) ((div_le_one hl').2 hk)
    refine ⟨_, _, _, rfl, ?_, h.1, h.2.1, h.2.2.1, h.2.2.2⟩
    exact div_mul_cancel₀ _ hl'.ne'
  · rintro (rfl | h)
    · rfl
    · unfold rateRow
      rw [successes_none m rate ts h]

/-- All bytes are bytes. -/
def Fine (l : List ℕ) : Prop := ∀ x ∈ l, x < 256

/-- A method that recovers what it protected, as bytes. -/
def Faithful (m : PyMethods.Method) (v : PyMethods.Value) : Prop := Fine (m.protect v) ∧ m.recover (m.protect v) = some (v, true)

theorem pack_fine (l : List Bool) : Fine (PyMethods.packBits l) := by
  intro x hx
  obtain ⟨c, _, rfl⟩ := List.mem_map.1 hx
  exact PyMethods.byteOf_lt _

theorem tmr_roundtrip (v : PyMethods.Value) (hv : Spec.f32isNaN v = false) : PyMethods.tmrRecover (PyMethods.tmrProtect v) = (v, true) := by
  have e : PyMethods.tmrProtect v = PyMethods.floatBytes v ++ PyMethods.floatBytes v ++ PyMethods.floatBytes v := rfl
  obtain ⟨a, b, c, ha, hb, hc, h⟩ := PyMethods.tmr_copies (r := PyMethods.tmrProtect v) rfl (by
    intro x hx
    rw [e] at hx
    simp only [List.mem_append, or_self] at hx
    exact PyMethods.floatBytes_lt v x hx)
  rw [h]
  have ha' : PyMethods.bytesFloat (PyMethods.floatBytes v) = some a := ha
  have hb' : PyMethods.bytesFloat (PyMethods.floatBytes v) = some b := hb
  rw [PyMethods.bytesFloat_floatBytes] at ha' hb'
  obtain rfl := Option.some.inj ha'
  obtain rfl := Option.some.inj hb'
  simp [PyMethods.vote, PyMethods.f32eq_self hv]

theorem faithful_hamming (v : PyMethods.Value) : Faithful PyMethods.hamming v := ⟨pack_fine _, congrArg some (PyMethods.C275_single v).2.1⟩
theorem faithful_secded (v : PyMethods.Value) : Faithful PyMethods.secded v := ⟨pack_fine _, (PyMethods.C276_single_partial v).2.1⟩
theorem faithful_tmr (v : PyMethods.Value) (hv : Spec.f32isNaN v = false) : Faithful PyMethods.tmr v := by
  refine ⟨?_, congrArg some (tmr_roundtrip v hv)⟩
  intro x hx
  have : x ∈ PyMethods.floatBytes v ++ PyMethods.floatBytes v ++ PyMethods.floatBytes v := hx
  simp only [List.mem_append, or_self] at this
  exact PyMethods.floatBytes_lt v x this
theorem faithful_rs (forney : Forney) (v : PyMethods.Value) : Faithful (PyMethods.rs forney) v :=
  ⟨(PyRs.encode_spec (PyMethods.floatBytes_lt v)).1, (PyMethods.C278_rs_violated forney v).2.1⟩
theorem faithful_none (v : PyMethods.Value) : Faithful PyMethods.unprotected v := by
  refine ⟨PyMethods.floatBytes_lt v, ?_⟩
  obtain ⟨w, h1, h2⟩ := PyMethods.C277_none (PyMethods.floatBytes v) (by simp [PyMethods.floatBytes]) (PyMethods.floatBytes_lt v)
  have : (PyMethods.floatBytes v).take 4 = PyMethods.floatBytes v := rfl
  rw [this, PyMethods.bytesFloat_floatBytes] at h1
  obtain rfl := Option.some.inj h1
  exact congrArg some h2

theorem faithful_hybrid {m : PyMethods.Method} {ms : List PyMethods.Method} {v : PyMethods.Value} (hn : ms.length < 255) (h : ∀ n ∈ m :: ms, Faithful n v ∧ (n.protect v).length < 256) :
    Faithful (PyMethods.hybrid (m :: ms)) v := by
  refine ⟨?_, congrArg some ((PyMethods.C278_first m ms v).1 fun n hn => (h n hn).1.2)⟩
  intro x hx
  have hx' : x ∈ List.range (m :: ms).length ++ (m :: ms).map (fun n => (n.protect v).length) ++ (m :: ms).flatMap (fun n => n.protect v) := hx
  rcases List.mem_append.1 hx' with hx | hx
  · rcases List.mem_append.1 hx with hx | hx
    · have := List.mem_range.1 hx
      simp only [List.length_cons] at this
      omega
    · obtain ⟨n, hn, rfl⟩ := List.mem_map.1 hx
      exact (h n hn).2
  · obtain ⟨n, hn, hx⟩ := List.mem_flatMap.1 hx
    exact (h n hn).1.1 x hx

theorem faithful_create (forney : Forney) (name : String) (m : PyMethods.Method) (o : ℕ) (h : PyMethods.create forney name = some (m, o)) (v : PyMethods.Value) (hv : Spec.f32isNaN v = false) :
    Faithful m v := by
  have lt : (PyMethods.tmr.protect v).length = 12 := rfl
  have lr : ((PyMethods.rs forney).protect v).length = 12 := (PyMethods.C278_rs_violated forney v).1
  have lh : (PyMethods.hamming.protect v).length = 5 := PyMethods.hamming_length v
  unfold PyMethods.create at h
  split at h
  · obtain ⟨rfl, -⟩ := Prod.mk.inj (Option.some.inj h); exact faithful_none v
  split at h
  · obtain ⟨rfl, -⟩ := Prod.mk.inj (Option.some.inj h); exact faithful_hamming v
  split at h
  · obtain ⟨rfl, -⟩ := Prod.mk.inj (Option.some.inj h); exact faithful_secded v
  split at h
  · obtain ⟨rfl, -⟩ := Prod.mk.inj (Option.some.inj h); exact faithful_tmr v hv
  split at h
  · obtain ⟨rfl, -⟩ := Prod.mk.inj (Option.some.inj h); exact faithful_rs forney v
  split at h
  · obtain ⟨rfl, -⟩ := Prod.mk.inj (Option.some.inj h); exact faithful_rs forney v
  split at h
  · obtain ⟨rfl, -⟩ := Prod.mk.inj (Option.some.inj h)
    apply faithful_hybrid (by simp)
    intro n hn
    rcases List.mem_cons.1 hn with rfl | hn
    · exact ⟨faithful_tmr v hv, by omega⟩
    · rw [List.mem_singleton.1 hn]; exact ⟨faithful_rs forney v, by omega⟩
  split at h
  · obtain ⟨rfl, -⟩ := Prod.mk.inj (Option.some.inj h)
    apply faithful_hybrid (by simp)
    intro n hn
    rcases List.mem_cons.1 hn with rfl | hn
    · exact ⟨faithful_hamming v, by omega⟩
    · rw [List.mem_singleton.1 hn]; exact ⟨faithful_rs forney v, by omega⟩
  · cases h

/-- **C301 (no errors).** At error rate 0 every method the factory makes has success rate 1, for every list of weights that are numbers and are packed to within 1e-6. -/
theorem C301_errorfree (forney : Forney) (name : String) (m : PyMethods.Method) (o : ℕ) (h : PyMethods.create forney name = some (m, o)) (rate : ℝ) (hr : rate ≤ 0) (ts : List Trial) (hne : ts ≠ [])
    (ht : ∀ t ∈ ts, Spec.f32isNaN t.v = false ∧ t.near t.v = true ∧ ∀ k, 0 ≤ t.draws k) : ∃ lo hi, rateRow m rate ts = some (1, lo, hi) := by
  have pass : ∀ t ∈ ts, m.recover (MonteCarlo.applyErrors (m.protect t.v) rate t.draws) = some (t.v, true) := by
    intro t htt
    obtain ⟨h1, _, h3⟩ := ht t htt
    obtain ⟨hf, hrec⟩ := faithful_create forney name m o h t.v h1
    rw [(MonteCarlo.C285_channel (m.protect t.v) rate t.draws).2.2.2.1 hr h3 hf, hrec]
  obtain ⟨p, lo, hi, e, hp, -⟩ := (C301_rate m rate ts).1 hne (fun t htt => ⟨_, pass t htt⟩)
  have : (ts.filter fun t => decide (Passes m rate t)) = ts := by
    rw [List.filter_eq_self]
    intro t htt
    exact decide_eq_true ⟨_, pass t htt, (ht t htt).2.1⟩
  rw [this] at hp
  have hl : (0 : ℝ) < ts.length := by exact_mod_cast List.length_pos_iff.2 hne
  have : p = 1 := by
    have := mul_right_cancel₀ hl.ne' (hp.trans (one_mul _).symm)
    exact this
  exact ⟨lo, hi, by rw [e, this]⟩

example (forney : Forney) : ∃ m o, PyMethods.create forney "hybrid_rs4_tmr" = some (m, o) ∧ Spec.f32isNaN (0x3F800000#32) = false := ⟨_, _, rfl, by decide⟩

/-- **C301, violated (Reed–Solomon).** "rs4" and "rs8" are the same code: on the same trials they give the same success rates and thresholds, although one is listed with twice the overhead of the other.
And a trial in which one to eight of the twelve bytes are damaged fails: nothing is ever corrected. -/
theorem C301_rs_violated (forney : Forney) :
    (∀ rs : List (ℝ × List Trial), (run forney "rs4" rs).map (fun r => (r.success, r.threshold)) = (run forney "rs8" rs).map (fun r => (r.success, r.threshold))) ∧
    (∀ rs r, run forney "rs4" rs = some r → r.overhead = 1) ∧ (∀ rs r, run forney "rs8" rs = some r → r.overhead = 2) ∧
    (∀ (rate : ℝ) (t : Trial) (S : Finset ℕ), S.card ≤ 8 → (∀ k < 96, k / 8 ∉ S → rate ≤ t.draws k) → (∃ k < 96, t.draws k < rate) →
      trialOk (PyMethods.rs forney) rate t = some false) := by
  have c4 : PyMethods.create forney "rs4" = some (PyMethods.rs forney, 64) := rfl
  have c8 : PyMethods.create forney "rs8" = some (PyMethods.rs forney, 128) := rfl
  refine ⟨?_, ?_, ?_, ?_⟩
  · intro rs
    unfold run
    rw [c4, c8]
    dsimp only
    cases rows (PyMethods.rs forney) rs <;> rfl
  · intro rs r h
    unfold run at h
    rw [c4] at h
    dsimp only at h
    cases hr : rows (PyMethods.rs forney) rs with
    | none => rw [hr] at h; cases h
    | some xs => rw [hr] at h; obtain rfl := Option.some.inj h; norm_num
  · intro rs r h
    unfold run at h
    rw [c8] at h
    dsimp only at h
    cases hr : rows (PyMethods.rs forney) rs with
    | none => rw [hr] at h; cases h
    | some xs => rw [hr] at h; obtain rfl := Option.some.inj h; norm_num
  · intro rate t S hS hd ⟨k, hk, hf⟩
    have hlen : (PyMethods.rsProtect t.v).length = 12 := (PyMethods.C278_rs_violated forney t.v).1
    have hb : Fine (PyMethods.rsProtect t.v) := (faithful_rs forney t.v).1
    obtain ⟨hl, hlt, hbits, -⟩ := MonteCarlo.C285_channel (PyMethods.rsProtect t.v) rate t.draws
    have same : ∀ j, j ∉ S → (MonteCarlo.applyErrors (PyMethods.rsProtect t.v) rate t.draws)[j]? = (PyMethods.rsProtect t.v)[j]? := by
      intro j hj
      by_cases hj12 : j < 12
      · have e1 : (MonteCarlo.applyErrors (PyMethods.rsProtect t.v) rate t.draws)[j]? = some ((MonteCarlo.applyErrors (PyMethods.rsProtect t.v) rate t.draws).getD j 0) := by
          rw [List.getD_eq_getElem?_getD, List.getElem?_eq_getElem (by omega)]; rfl
        have e2 : (PyMethods.rsProtect t.v)[j]? = some ((PyMethods.rsProtect t.v).getD j 0) := by
          rw [List.getD_eq_getElem?_getD, List.getElem?_eq_getElem (by omega)]; rfl
        rw [e1, e2]
        congr 1
        have b1 : (MonteCarlo.applyErrors (PyMethods.rsProtect t.v) rate t.draws).getD j 0 < 256 := by
          rw [List.getD_eq_getElem?_getD, List.getElem?_eq_getElem (by omega)]; exact hlt _ (List.getElem_mem _)
        have b2 : (PyMethods.rsProtect t.v).getD j 0 < 256 := by
          rw [List.getD_eq_getElem?_getD, List.getElem?_eq_getElem (by omega)]; exact hb _ (List.getElem_mem _)
        apply Nat.eq_of_testBit_eq
        intro b
        by_cases hb8 : b < 8
        · rw [hbits j (by omega) b hb8, if_neg]
          have := hd (8 * j + b) (by omega) (by rw [show (8 * j + b) / 8 = j by omega]; exact hj)
          linarith
        · rw [Nat.testBit_lt_two_pow (lt_of_lt_of_le b1 (show 256 ≤ 2 ^ b from Nat.pow_le_pow_right (n := 2) (by omega) (show 8 ≤ b by omega))),
            Nat.testBit_lt_two_pow (lt_of_lt_of_le b2 (show 256 ≤ 2 ^ b from Nat.pow_le_pow_right (n := 2) (by omega) (show 8 ≤ b by omega)))]
      · rw [List.getElem?_eq_none (by omega), List.getElem?_eq_none (by omega)]
    have hne : MonteCarlo.applyErrors (PyMethods.rsProtect t.v) rate t.draws ≠ PyMethods.rsProtect t.v := by
      intro e
      have := hbits (k / 8) (by omega) (k % 8) (by omega)
      rw [e, Nat.div_add_mod, if_pos hf] at this
      revert this
      cases ((PyMethods.rsProtect t.v).getD (k / 8) 0).testBit (k % 8) <;> simp
    have := (PyMethods.C278_rs_violated forney t.v).2.2 _ S hlt (hl.trans hlen) hS same hne
    unfold trialOk
    show (PyMethods.rsRecover forney _).map _ = _
    rw [show (PyMethods.rs forney).protect t.v = PyMethods.rsProtect t.v from rfl, this]
    rfl

example : ({0} : Finset ℕ).card ≤ 8 ∧ (∀ k < 96, k / 8 ∉ ({0} : Finset ℕ) → (1 / 2 : ℝ) ≤ (fun k => if k = 3 then (0 : ℝ) else 1 / 2) k) := by
  refine ⟨by simp, fun k _ hk => ?_⟩
  have : k ≠ 3 := by rintro rfl; simp at hk
  simp [this]

/-! ### C302: the table -/

theorem keyLE_trans (shown : ℝ → ℝ) : ∀ a b c, keyLE shown a b → keyLE shown b c → keyLE shown a c := by
  intro a b c
  unfold keyLE
  cases a.threshold <;> cases b.threshold <;> cases c.threshold <;> simp only [imp_self, implies_true, false_implies, true_implies]
  exact le_trans

theorem keyLE_total (shown : ℝ → ℝ) : ∀ a b, keyLE shown a b ∨ keyLE shown b a := by
  intro a b
  unfold keyLE
  cases a.threshold <;> cases b.threshold <;> simp [le_total]

/-- **C302 (rows).** The table has each result once. -/
theorem C302_rows (shown : ℝ → ℝ) (rs : List Result) : (table shown rs).Perm rs := List.perm_insertionSort _ _

/-- **C302, violated (order).** The rows are said to be sorted "best performance first", but they are sorted by increasing threshold: a method that fails from a lower error rate on stands before one
that holds out longer, and a method whose success rate never fell below one half, the best there can be, stands after all that have a threshold. -/
theorem C302_order_violated (shown : ℝ → ℝ) (rs : List Result) :
    ((table shown rs).Pairwise fun a b => ¬ (∃ x y, a.threshold = some x ∧ b.threshold = some y ∧ shown y < shown x)) ∧
    ((table shown rs).Pairwise fun a b => a.threshold = none → b.threshold = none) := by
  have hp : (table shown rs).Pairwise (keyLE shown) := by
    have : IsTrans Result (keyLE shown) := ⟨keyLE_trans shown⟩
    have : Std.Total (keyLE shown) := ⟨keyLE_total shown⟩
    exact List.pairwise_insertionSort (keyLE shown) rs
  constructor
  · refine hp.imp ?_
    rintro a b h ⟨x, y, hx, hy, hl⟩
    unfold keyLE at h
    rw [hx, hy] at h
    exact absurd h (not_le.2 hl)
  · refine hp.imp ?_
    intro a b h ha
    unfold keyLE at h
    rw [ha] at h
    cases hb : b.threshold with
    | none => rfl
    | some y => rw [hb] at h; exact absurd h (by simp)

example : table id [⟨"good", 0, [], [], none⟩, ⟨"bad", 0, [], [], some 1⟩] = [⟨"bad", 0, [], [], some 1⟩, ⟨"good", 0, [], [], none⟩] := by
  simp [table, keyLE]

/-- The default rates. -/
theorem default_rate (k : ℕ) : (10 : ℝ) ^ (Real.logb 10 (1 / 10000) + k * ((Real.logb 10 (1 / 10) - Real.logb 10 (1 / 10000)) / ((20 : ℕ) - 1 : ℝ))) = 10 ^ ((-4 : ℝ) + k * 3 / 19) := by
  have h4 : Real.logb 10 (1 / 10000 : ℝ) = -4 := by
    rw [show (1 / 10000 : ℝ) = (10 : ℝ) ^ (-4 : ℝ) by rw [Real.rpow_neg (by norm_num)]; norm_num]
    exact Real.logb_rpow (by norm_num) (by norm_num)
  have h1 : Real.logb 10 (1 / 10 : ℝ) = -1 := by
    rw [show (1 / 10 : ℝ) = (10 : ℝ) ^ (-1 : ℝ) by rw [Real.rpow_neg (by norm_num)]; norm_num]
    exact Real.logb_rpow (by norm_num) (by norm_num)
  rw [h4, h1]
  congr 1
  norm_num
  ring

theorem rate_pow (k : ℕ) : ((10 : ℝ) ^ ((-4 : ℝ) + k * 3 / 19)) ^ 19 = (10 : ℝ) ^ (3 * k) / 10 ^ 76 := by
  rw [← Real.rpow_natCast, ← Real.rpow_mul (by norm_num)]
  rw [show ((-4 : ℝ) + k * 3 / 19) * ((19 : ℕ) : ℝ) = ((3 * k : ℕ) : ℝ) - ((76 : ℕ) : ℝ) by push_cast; ring, Real.rpow_sub (by norm_num), Real.rpow_natCast, Real.rpow_natCast]

theorem rate_mono {j k : ℕ} (h : j ≤ k) : (10 : ℝ) ^ ((-4 : ℝ) + j * 3 / 19) ≤ 10 ^ ((-4 : ℝ) + k * 3 / 19) := by
  apply Real.rpow_le_rpow_of_exponent_le (by norm_num)
  have : (j : ℝ) ≤ k := by exact_mod_cast h
  linarith

theorem rate_le (k : ℕ) {x : ℝ} (hx : 0 ≤ x) (h : (10 : ℝ) ^ (3 * k) / 10 ^ 76 ≤ x ^ 19) : (10 : ℝ) ^ ((-4 : ℝ) + k * 3 / 19) ≤ x := by
  rw [← rate_pow] at h
  exact le_of_pow_le_pow_left₀ (by norm_num) hx h

theorem rate_ge (k : ℕ) {x : ℝ} (h : x ^ 19 ≤ (10 : ℝ) ^ (3 * k) / 10 ^ 76) : x ≤ (10 : ℝ) ^ ((-4 : ℝ) + k * 3 / 19) := by
  rw [← rate_pow] at h
  exact le_of_pow_le_pow_left₀ (by norm_num) (by positivity) h

/-- None of the default rates is near one of the three of the table. -/
theorem default_far (k : ℕ) (c : Cells) (s : ℝ) : cell c ((10 : ℝ) ^ ((-4 : ℝ) + k * 3 / 19), s) = c := by
  have a1 : (10 : ℝ) ^ ((-4 : ℝ) + (6 : ℕ) * 3 / 19) ≤ 9 / 10000 := rate_le 6 (by norm_num) (by norm_num)
  have a2 : 11 / 10000 ≤ (10 : ℝ) ^ ((-4 : ℝ) + (7 : ℕ) * 3 / 19) := rate_ge 7 (by norm_num)
  have b1 : (10 : ℝ) ^ ((-4 : ℝ) + (12 : ℕ) * 3 / 19) ≤ 99 / 10000 := rate_le 12 (by norm_num) (by norm_num)
  have b2 : 101 / 10000 ≤ (10 : ℝ) ^ ((-4 : ℝ) + (13 : ℕ) * 3 / 19) := rate_ge 13 (by norm_num)
  have c1 : (10 : ℝ) ^ ((-4 : ℝ) + (17 : ℕ) * 3 / 19) ≤ 499 / 10000 := rate_le 17 (by norm_num) (by norm_num)
  have c2 : 501 / 10000 ≤ (10 : ℝ) ^ ((-4 : ℝ) + (18 : ℕ) * 3 / 19) := rate_ge 18 (by norm_num)
  have far : ∀ {lo hi mid : ℝ} {j : ℕ}, (10 : ℝ) ^ ((-4 : ℝ) + j * 3 / 19) ≤ lo → hi ≤ (10 : ℝ) ^ ((-4 : ℝ) + (j + 1 : ℕ) * 3 / 19) → lo = mid - 1 / 10000 → hi = mid + 1 / 10000 →
      ¬ |(10 : ℝ) ^ ((-4 : ℝ) + k * 3 / 19) - mid| < 1 / 10000 := by
    intro lo hi mid j h1 h2 e1 e2 h
    rw [abs_lt] at h
    rcases Nat.lt_or_ge j k with hk | hk
    · have := rate_mono (show j + 1 ≤ k from hk)
      linarith
    · have := rate_mono hk
      linarith
  unfold cell
  dsimp only
  rw [if_neg (far (j := 6) a1 a2 (by norm_num) (by norm_num)), if_neg (far (j := 12) b1 b2 (by norm_num) (by norm_num)), if_neg (far (j := 17) c1 c2 (by norm_num) (by norm_num))]

/-- **C302, violated (success columns).** With the default arguments (20 rates from 0.0001 to 0.1) no rate is near enough to 0.1 %, 1 % or 5 %: whatever the results, the three success columns of every row
are "N/A". -/
theorem C302_columns_violated (success : List ℝ) : cells (logspace (1 / 10000) (1 / 10) 20) success = {} := by
  have : ∀ (l : List (ℝ × ℝ)) (c : Cells), (∀ x ∈ l, x.1 ∈ logspace (1 / 10000) (1 / 10) 20) → l.foldl cell c = c := by
    intro l
    induction l with
    | nil => intro c _; rfl
    | cons x l ih =>
      intro c h
      rw [List.foldl_cons]
      have hx := h x (by simp)
      obtain ⟨k, _, hk⟩ := List.mem_map.1 hx
      rw [default_rate] at hk
      have : cell c x = c := by
        have := default_far k c x.2
        rw [hk] at this
        exact this
      rw [this]
      exact ih c fun y hy => h y (by simp [hy])
  exact this _ _ fun x hx => (List.of_mem_zip hx).1

/-! ### C303: the recommendations -/

theorem closest_spec (e : ℝ) : ∀ l : List ℝ, l ≠ [] → ∃ i, closest e l = some i ∧ i < l.length ∧ (∀ j < l.length, |l.getD i 0 - e| ≤ |l.getD j 0 - e|) ∧ ∀ j < i, |l.getD i 0 - e| < |l.getD j 0 - e|
  | [], h => absurd rfl h
  | [x], _ => ⟨0, rfl, by simp, by intro j hj; simp at hj; subst hj; exact le_rfl, by simp⟩
  | x :: y :: l, _ => by
    obtain ⟨i, hi, hl, hm, hf⟩ := closest_spec e (y :: l) (by simp)
    rw [closest, hi]
    dsimp only
    by_cases h : |x - e| ≤ |(y :: l).getD i 0 - e|
    · rw [if_pos h]
      refine ⟨0, rfl, by simp, ?_, by simp⟩
      intro j hj
      cases j with
      | zero => exact le_rfl
      | succ j => exact h.trans (hm j (by simpa using hj))
    · rw [if_neg h]
      refine ⟨i + 1, rfl, by simpa using hl, ?_, ?_⟩
      · intro j hj
        cases j with
        | zero => exact (not_le.1 h).le
        | succ j => exact hm j (by simpa using hj)
      · intro j hj
        cases j with
        | zero => exact not_le.1 h
        | succ j => exact hf j (by omega)

/-- The success rate a result shows at the tested rate closest to `e` (the first of two equally close). -/
def ShowsAt (e : ℝ) (r : Result) (s : ℝ) : Prop :=
  ∃ i < r.rates.length, r.success.getD i 0 = s ∧ (∀ j < r.rates.length, |r.rates.getD i 0 - e| ≤ |r.rates.getD j 0 - e|) ∧ ∀ j < i, |r.rates.getD i 0 - e| < |r.rates.getD j 0 - e|

/-- A proper result: some rates, and success rates that are shares. -/
def Proper (r : Result) : Prop := r.rates ≠ [] ∧ r.success.length = r.rates.length ∧ ∀ s ∈ r.success, 0 ≤ s ∧ s ≤ 1

theorem shows_range {e s : ℝ} {r : Result} (hp : Proper r) (h : ShowsAt e r s) : 0 ≤ s ∧ s ≤ 1 := by
  obtain ⟨i, hi, rfl, -⟩ := h
  rw [List.getD_eq_getElem?_getD, List.getElem?_eq_getElem (by rw [hp.2.1]; exact hi)]
  exact hp.2.2 _ (List.getElem_mem _)

theorem recommendFrom_spec (e : ℝ) : ∀ (rs : List Result), (∀ r ∈ rs, Proper r) → ∀ (b : Best) (n : ℕ),
    ∃ b', recommendFrom e (some b) rs = some (some b') ∧ (b' = b ∨ ∃ r ∈ rs, ∃ s, ShowsAt e r s ∧ b' = ⟨r.method, s, r.overhead⟩) ∧
      b.success ≤ b'.success + 5 / 100 * rs.length ∧ (∀ r ∈ rs, ∀ s, ShowsAt e r s → s ≤ b'.success + 5 / 100 * rs.length) := by
  intro rs
  induction rs with
  | nil => intro _ b n; exact ⟨b, rfl, Or.inl rfl, by simp, by simp⟩
  | cons r rs ih =>
    intro h b n
    obtain ⟨i, hi, hl, hm, hf⟩ := closest_spec e r.rates (h r (by simp)).1
    have hs : ShowsAt e r (r.success.getD i 0) := ⟨i, hl, rfl, hm, hf⟩
    have uniq : ∀ s, ShowsAt e r s → s = r.success.getD i 0 := by
      rintro s ⟨j, hj, rfl, hm', hf'⟩
      have : j = i := by
        rcases Nat.lt_trichotomy j i with q | q | q
        · exact absurd (hm' i hl) (not_le.2 (hf j q))
        · exact q
        · exact absurd (hm j hj) (not_le.2 (hf' i q))
      rw [this]
    have hlen : ((r :: rs).length : ℝ) = rs.length + 1 := by push_cast [List.length_cons]; ring
    rw [recommendFrom, hi]
    dsimp only
    by_cases hc : b.success + 5 / 100 < r.success.getD i 0 ∨ |r.success.getD i 0 - b.success| < 5 / 100 ∧ r.overhead < b.overhead
    · have hcons : consider (some b) r i = some ⟨r.method, r.success.getD i 0, r.overhead⟩ := by unfold consider; dsimp only; rw [if_pos hc]
      rw [hcons]
      obtain ⟨b', e1, e2, e3, e4⟩ := ih (fun q hq => h q (by simp [hq])) ⟨r.method, r.success.getD i 0, r.overhead⟩ n
      refine ⟨b', e1, ?_, ?_, ?_⟩
      · rcases e2 with rfl | ⟨q, hq, s, hs', rfl⟩
        · exact Or.inr ⟨r, by simp, _, hs, rfl⟩
        · exact Or.inr ⟨q, by simp [hq], s, hs', rfl⟩
      · dsimp only at e3
        rw [hlen]
        rcases hc with hc | ⟨hc, -⟩
        · linarith
        · rw [abs_lt] at hc; linarith
      · intro q hq s hs'
        rw [hlen]
        rcases List.mem_cons.1 hq with rfl | hq
        · rw [uniq s hs']; dsimp only at e3; linarith
        · have := e4 q hq s hs'; linarith
    · have hcons : consider (some b) r i = some b := by unfold consider; dsimp only; rw [if_neg hc]
      rw [hcons]
      obtain ⟨b', e1, e2, e3, e4⟩ := ih (fun q hq => h q (by simp [hq])) b n
      refine ⟨b', e1, ?_, ?_, ?_⟩
      · rcases e2 with rfl | ⟨q, hq, s, hs', rfl⟩
        · exact Or.inl rfl
        · exact Or.inr ⟨q, by simp [hq], s, hs', rfl⟩
      · rw [hlen]; linarith
      · intro q hq s hs'
        rw [hlen]
        rcases List.mem_cons.1 hq with rfl | hq
        · rw [uniq s hs']
          rw [not_or] at hc
          have := not_lt.1 hc.1
          linarith
        · have := e4 q hq s hs'; linarith

/-- **C303 (the recommendation).** For every environment and every non-empty list of proper results a method of the list is recommended, with the success rate it shows at the tested rate closest to that of the environment
and its overhead; no method shows a success rate that is better by more than 0.05 for each of the other methods. Without results there is no method. -/
theorem C303_recommendation (e : ℝ) (rs : List Result) (h : ∀ r ∈ rs, Proper r) :
    (rs = [] → recommend e rs = some none) ∧
    (rs ≠ [] → ∃ b, recommend e rs = some (some b) ∧ (∃ r ∈ rs, ∃ s, ShowsAt e r s ∧ b = ⟨r.method, s, r.overhead⟩) ∧
      ∀ r ∈ rs, ∀ s, ShowsAt e r s → s ≤ b.success + 5 / 100 * (rs.length - 1)) := by
  constructor
  · rintro rfl; rfl
  · intro hne
    cases rs with
    | nil => exact absurd rfl hne
    | cons r rs =>
      obtain ⟨i, hi, hl, hm, hf⟩ := closest_spec e r.rates (h r (by simp)).1
      have hs : ShowsAt e r (r.success.getD i 0) := ⟨i, hl, rfl, hm, hf⟩
      have uniq : ∀ s, ShowsAt e r s → s = r.success.getD i 0 := by
        rintro s ⟨j, hj, rfl, hm', hf'⟩
        have : j = i := by
          rcases Nat.lt_trichotomy j i with q | q | q
          · exact absurd (hm' i hl) (not_le.2 (hf j q))
          · exact q
          · exact absurd (hm j hj) (not_le.2 (hf' i q))
        rw [this]
      have h0 := (shows_range (h r (by simp)) hs).1
      have hcons : consider none r i = some ⟨r.method, r.success.getD i 0, r.overhead⟩ := by
        unfold consider; dsimp only; rw [if_pos (Or.inl (by linarith))]
      obtain ⟨b', e1, e2, e3, e4⟩ := recommendFrom_spec e rs (fun q hq => h q (by simp [hq])) ⟨r.method, r.success.getD i 0, r.overhead⟩ 0
      refine ⟨b', ?_, ?_, ?_⟩
      · rw [recommend, recommendFrom, hi]
        dsimp only
        rw [hcons, e1]
      · rcases e2 with rfl | ⟨q, hq, s, hs', rfl⟩
        · exact ⟨r, by simp, _, hs, rfl⟩
        · exact ⟨q, by simp [hq], s, hs', rfl⟩
      · intro q hq s hs'
        have hlen : (((r :: rs).length : ℝ) - 1) = rs.length := by push_cast [List.length_cons]; ring
        rw [hlen]
        rcases List.mem_cons.1 hq with rfl | hq
        · rw [uniq s hs']; exact e3
        · exact e4 q hq s hs'

/-- A result with one tested rate. -/
def single (name : String) (success overhead : ℝ) : Result := ⟨name, overhead, [0], [success], none⟩

example : Proper (single "a" 1 2) ∧ ShowsAt 0 (single "a" 1 2) 1 := by
  refine ⟨⟨by simp [single], rfl, ?_⟩, 0, by simp [single], rfl, ?_, by simp⟩
  · intro s hs
    obtain rfl := List.mem_singleton.1 hs
    norm_num
  · intro j hj
    obtain rfl : j = 0 := by simpa [single] using hj
    exact le_rfl

theorem consider_single (b : Best) (name : String) (s o e : ℝ) (rs : List Result) : recommendFrom e (some b) (single name s o :: rs) =
    recommendFrom e (if b.success + 5 / 100 < s ∨ |s - b.success| < 5 / 100 ∧ o < b.overhead then some ⟨name, s, o⟩ else some b) rs := rfl

/-- **C303, violated.** The recommendation drifts and depends on the order of the methods. Methods that are each 0.04 worse than the one before, at a slightly lower overhead, are each "very close" to the one before:
of `n + 1` such methods the last is recommended, with 0.04·n less than the first (with 26 methods one that never succeeds, though one always does). And of the same three methods another is recommended in another order. -/
theorem C303_drift_violated (e : ℝ) :
    (∀ n : ℕ, n ≤ 25 → recommend e ((List.range (n + 1)).map fun k : ℕ => single "m" (1 - 4 / 100 * (k : ℝ)) (100 - (k : ℝ))) = some (some ⟨"m", 1 - 4 / 100 * n, 100 - n⟩)) ∧
    (recommend e [single "a" 1 3, single "b" (96 / 100) 2, single "c" (92 / 100) 1] = some (some ⟨"c", 92 / 100, 1⟩) ∧
     recommend e [single "a" 1 3, single "c" (92 / 100) 1, single "b" (96 / 100) 2] = some (some ⟨"b", 96 / 100, 2⟩)) := by
  have first : ∀ (name : String) (s o : ℝ) (rs : List Result), 0 ≤ s → recommend e (single name s o :: rs) = recommendFrom e (some ⟨name, s, o⟩) rs := by
    intro name s o rs hs
    show recommendFrom e (if -1 + 5 / 100 < s ∨ |s - -1| < 5 / 100 then some ⟨name, s, o⟩ else none) rs = _
    rw [if_pos (Or.inl (by linarith))]
  refine ⟨?_, ?_, ?_⟩
  · intro n _
    have app : ∀ (l : List Result) (b : Option Best) (r : Result) (b' : Option Best), recommendFrom e b l = some b' → recommendFrom e b (l ++ [r]) = recommendFrom e b' [r] := by
      intro l
      induction l with
      | nil => intro b r b' h; obtain rfl := Option.some.inj h; rfl
      | cons x l ih =>
        intro b r b' h
        rw [List.cons_append, recommendFrom]
        rw [recommendFrom] at h
        cases hc : closest e x.rates with
        | none => rw [hc] at h; cases h
        | some i =>
          rw [hc] at h
          exact ih _ r b' h
    induction n with
    | zero =>
      show recommend e [single "m" (1 - 4 / 100 * ((0 : ℕ) : ℝ)) (100 - ((0 : ℕ) : ℝ))] = _
      rw [first _ _ _ _ (by norm_num)]
      rfl
    | succ n ih =>
      rw [List.range_succ, List.map_append]
      have := app _ none (single "m" (1 - 4 / 100 * ((n + 1 : ℕ) : ℝ)) (100 - ((n + 1 : ℕ) : ℝ))) _ (ih (by omega))
      rw [recommend]
      show recommendFrom e none (_ ++ [single "m" (1 - 4 / 100 * ((n + 1 : ℕ) : ℝ)) (100 - ((n + 1 : ℕ) : ℝ))]) = _
      rw [this, consider_single]
      rw [if_pos]
      · rfl
      · refine Or.inr ⟨?_, ?_⟩
        · rw [abs_lt]; push_cast; constructor <;> linarith
        · push_cast; linarith
  · rw [first _ _ _ _ (by norm_num), consider_single, if_pos (Or.inr ⟨by rw [abs_lt]; norm_num, by norm_num⟩), consider_single, if_pos (Or.inr ⟨by rw [abs_lt]; norm_num, by norm_num⟩)]
    rfl
  · rw [first _ _ _ _ (by norm_num), consider_single, if_neg, consider_single, if_pos (Or.inr ⟨by rw [abs_lt]; norm_num, by norm_num⟩)]
    · rfl
    · rintro (h | ⟨h, -⟩)
      · norm_num at h
      · rw [abs_lt] at h; norm_num at h

/-- **C303, violated (empty).** Without tested rates writing the recommendations raises an exception. -/
theorem C303_empty_violated (e : ℝ) (r : Result) (rs : List Result) (h : r.rates = []) : recommend e (r :: rs) = none := by
  rw [recommend, recommendFrom, h]
  rfl

theorem rows_eq (m : PyMethods.Method) (rs : List (ℝ × List Trial)) (h : ∀ x ∈ rs, x.2 ≠ [] ∧ ∀ t ∈ x.2, Returns m x.1 t) :
    ∃ xs, rows m rs = some xs ∧ xs.map (·.1) = rs.map fun x => ((x.2.filter fun t => decide (Passes m x.1 t)).length : ℝ) / x.2.length := by
  induction rs with
  | nil => exact ⟨[], rfl, rfl⟩
  | cons x rs ih =>
    obtain ⟨xs, h1, h2⟩ := ih fun y hy => h y (by simp [hy])
    obtain ⟨hne, hr⟩ := h x (by simp)
    obtain ⟨p, lo, hi, e, hp, _⟩ := (C301_rate m x.1 x.2).1 hne hr
    refine ⟨(p, lo, hi) :: xs, by simp only [rows]; rw [e]; simp only [h1], ?_⟩
    have hl : (0 : ℝ) < x.2.length := by exact_mod_cast List.length_pos_iff.2 hne
    rw [List.map_cons, List.map_cons, h2]
    congr 1
    rw [eq_div_iff hl.ne']
    exact hp

/-- **C301 (results).** For every method there is and all rates and trials none of which raises an exception: the results hold the name, the overhead in words of 64 bits, the rates, for each the share of the trials that pass, and the threshold computed from these. -/
theorem C301_results (forney : Forney) (name : String) (m : PyMethods.Method) (o : ℕ) (h : PyMethods.create forney name = some (m, o)) (rs : List (ℝ × List Trial))
    (hr : ∀ x ∈ rs, x.2 ≠ [] ∧ ∀ t ∈ x.2, Returns m x.1 t) :
    ∃ r, run forney name rs = some r ∧ r.method = name ∧ r.overhead * 64 = o ∧ r.rates = rs.map (·.1) ∧
      r.success = (rs.map fun x => ((x.2.filter fun t => decide (Passes m x.1 t)).length : ℝ) / x.2.length) ∧ r.threshold = MonteCarlo.threshold r.rates r.success := by
  obtain ⟨xs, h1, h2⟩ := rows_eq m rs hr
  refine ⟨⟨name, (o : ℝ) / 64, rs.map (·.1), xs.map (·.1), MonteCarlo.threshold (rs.map (·.1)) (xs.map (·.1))⟩, ?_, rfl, ?_, rfl, h2, rfl⟩
  · unfold run; rw [h]; simp only [h1]
  · dsimp only; ring

/-- **C302 (columns).** In every list of rates and success rates, each column shows in per cent the last success rate whose rate is within 0.0001 of the one in its heading. -/
theorem C302_columns (l r : List (ℝ × ℝ)) (x s : ℝ) :
    (|x - 1 / 1000| < 1 / 10000 → (∀ y ∈ r, ¬ |y.1 - 1 / 1000| < 1 / 10000) → ((l ++ (x, s) :: r).foldl cell {}).at01 = some (s * 100)) ∧
    (|x - 1 / 100| < 1 / 10000 → (∀ y ∈ r, ¬ |y.1 - 1 / 100| < 1 / 10000) → ((l ++ (x, s) :: r).foldl cell {}).at1 = some (s * 100)) ∧
    (|x - 5 / 100| < 1 / 10000 → (∀ y ∈ r, ¬ |y.1 - 5 / 100| < 1 / 10000) → ((l ++ (x, s) :: r).foldl cell {}).at5 = some (s * 100)) := by
  have k1 : ∀ (r : List (ℝ × ℝ)) (c : Cells), (∀ y ∈ r, ¬ |y.1 - 1 / 1000| < 1 / 10000) → (r.foldl cell c).at01 = c.at01 := by
    intro r
    induction r with
    | nil => intro c _; rfl
    | cons y r ih =>
      intro c hr
      rw [List.foldl_cons, ih _ fun z hz => hr z (by simp [hz])]
      unfold cell
      rw [if_neg (hr y (by simp))]
      split_ifs <;> rfl
  have k2 : ∀ (r : List (ℝ × ℝ)) (c : Cells), (∀ y ∈ r, ¬ |y.1 - 1 / 100| < 1 / 10000) → (r.foldl cell c).at1 = c.at1 := by
    intro r
    induction r with
    | nil => intro c _; rfl
    | cons y r ih =>
      intro c hr
      rw [List.foldl_cons, ih _ fun z hz => hr z (by simp [hz])]
      unfold cell
      rw [if_neg (hr y (by simp))]
      split_ifs <;> rfl
  have k3 : ∀ (r : List (ℝ × ℝ)) (c : Cells), (∀ y ∈ r, ¬ |y.1 - 5 / 100| < 1 / 10000) → (r.foldl cell c).at5 = c.at5 := by
    intro r
    induction r with
    | nil => intro c _; rfl
    | cons y r ih =>
      intro c hr
      rw [List.foldl_cons, ih _ fun z hz => hr z (by simp [hz])]
      unfold cell
      rw [if_neg (hr y (by simp))]
      split_ifs <;> rfl
  refine ⟨fun h hr => ?_, fun h hr => ?_, fun h hr => ?_⟩
  · rw [List.foldl_append, List.foldl_cons, k1 r _ hr]
    unfold cell
    rw [if_pos h]
  · rw [List.foldl_append, List.foldl_cons, k2 r _ hr]
    unfold cell
    rw [if_neg (by intro h'; rw [abs_lt] at h h'; linarith [h.1, h'.2]), if_pos h]
  · rw [List.foldl_append, List.foldl_cons, k3 r _ hr]
    unfold cell
    rw [if_neg (by intro h'; rw [abs_lt] at h h'; linarith [h.1, h'.2]), if_neg (by intro h'; rw [abs_lt] at h h'; linarith [h.1, h'.2]), if_pos h]

example : (([(1 / 1000, 9 / 10)] ++ ((5 / 100 : ℝ), (1 / 2 : ℝ)) :: [(1 / 10, 0)]).foldl cell {}).at5 = some (1 / 2 * 100) :=
  (C302_columns [(1 / 1000, 9 / 10)] [(1 / 10, 0)] (5 / 100) (1 / 2)).2.2 (by norm_num) (by intro y hy; simp only [List.mem_singleton] at hy; subst hy; norm_num [abs_lt])

end Verif.Props.EnhMC
