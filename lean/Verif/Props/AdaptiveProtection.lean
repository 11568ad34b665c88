import Verif.Model.AdaptiveProtection
import Mathlib.Tactic.Linarith
import Mathlib.Tactic.NormNum
import Mathlib.Tactic.Positivity
import Mathlib.Tactic.ByContra
import Mathlib.Tactic.FinCases
import Mathlib.Tactic.Ring
/-!
Property C44: the protection level follows the smoothed error rate.
-/
namespace Verif.Props.AdaptiveProt
open Verif.AdaptiveProt

/-! ### Specification -/

/-- The level for a flux: how many of the three thresholds (0.01, 0.1, 1 errors per second) it has reached. -/
def levelOf (flux : ℚ) : Nat := [1 / 100, 1 / 10, 1].countP (fun t : ℚ => t ≤ flux)

/-- The notifications received by listener `i`. -/
def received (s : State) (i : Nat) : List Level := (s.log.filter (fun x => x.1 = i)).map (·.2)

/-- An update of the environment: counts and time. -/
structure Upd where
  flips : UInt32
  comps : UInt32
  now : Int

def runU (s : State) (us : List Upd) : State := us.foldl (fun s u => update s u.flips u.comps u.now) s

/-! ### Level -/

theorem adjust_fields (s : State) : (adjust s).level.val = levelOf s.flux ∧ (adjust s).flux = s.flux ∧
    (adjust s).flips = s.flips ∧ (adjust s).comps = s.comps ∧ (adjust s).last = s.last ∧ (adjust s).listeners = s.listeners ∧
    (adjust s).next = s.next ∧
    (adjust s).log = s.log ++ (if (adjust s).level ≠ s.level then s.listeners.map (fun i => (i, (adjust s).level)) else []) := by
  have hl : ∀ x : ℚ, (if x ≥ 1 then (3 : Level) else if x ≥ 1 / 10 then 2 else if x ≥ 1 / 100 then 1 else 0).val = levelOf x := by
    intro x
    unfold levelOf
    simp only [List.countP_cons, List.countP_nil, decide_eq_true_eq, ge_iff_le]
    split
    · rw [if_pos (by linarith), if_pos (by linarith)]; rfl
    split
    · rw [if_pos (by linarith)]; rfl
    split
    · rfl
    · rfl
  unfold adjust
  simp only
  have := hl s.flux
  generalize (if s.flux ≥ 1 then (3 : Level) else if s.flux ≥ 1 / 10 then 2 else if s.flux ≥ 1 / 100 then 1 else 0) = r at this
  by_cases h : r ≠ s.level
  · rw [if_pos h]
    refine ⟨this, rfl, rfl, rfl, rfl, rfl, rfl, ?_⟩
    rw [if_pos (show (notify { s with level := r }).level ≠ s.level from h)]; rfl
  · rw [if_neg h]
    have h' : r = s.level := by simpa using h
    refine ⟨by rw [← h']; exact this, rfl, rfl, rfl, rfl, rfl, rfl, by simp⟩

/-- Whole seconds since the last assessment. -/
def elapsed (s : State) (now : Int) : Int := (now - s.last).tdiv 1000000000

/-- The total of the two counts reaches the flux only modulo 2^32. -/
def counted (u : Upd) : Nat := (u.flips.toNat + u.comps.toNat) % 2 ^ 32

/-- **C44 (an effective update).** At least one whole second after the last assessment, an update makes the flux
0.3·(errors per second) + 0.7·(old flux) — errors counted modulo 2^32 — and the level the one for the new flux. -/
theorem C44_update (s : State) (u : Upd) (h : 0 < elapsed s u.now) :
    let s' := update s u.flips u.comps u.now
    s'.flux = 3 / 10 * ((counted u : ℚ) / (elapsed s u.now : ℚ)) + 7 / 10 * s.flux ∧
    s'.level.val = levelOf s'.flux ∧ s'.last = u.now ∧ s'.flips = u.flips ∧ s'.comps = u.comps := by
  unfold elapsed at *
  simp only [update]
  rw [if_pos h]
  obtain ⟨h1, h2, h3, h4, h5, _⟩ := adjust_fields { s with flux := 3 / 10 * (((u.flips + u.comps).toNat : ℚ) / (((u.now - s.last).tdiv 1000000000 : Int) : ℚ)) + (1 - 3 / 10) * s.flux, flips := u.flips, comps := u.comps, last := u.now }
  refine ⟨?_, ?_, h5, h3, h4⟩
  · rw [h2]
    have : (u.flips + u.comps).toNat = counted u := by
      unfold counted; exact UInt32.toNat_add _ _
    simp only [this]
    ring
  · rw [h1, h2]

/-- **C44 (too early).** Within the same whole second an update changes nothing. -/
theorem C44_ignored (s : State) (u : Upd) (h : ¬ 0 < elapsed s u.now) : update s u.flips u.comps u.now = s := by
  unfold update elapsed at *
  simp only
  rw [if_neg (by simpa using h)]

/-- **C44 (bounds).** If every effective update reports at most `B` errors per second, the flux never exceeds `B` and is
never negative, for every history of updates from a fresh object. -/
theorem C44_flux_bounds (l : Level) (t0 : Int) (B : ℚ) (us : List Upd) :
    (∀ pre u post, us = pre ++ u :: post → 0 < elapsed (runU (init l t0) pre) u.now →
      (counted u : ℚ) ≤ B * (elapsed (runU (init l t0) pre) u.now : ℚ)) → 0 ≤ B →
    0 ≤ (runU (init l t0) us).flux ∧ (runU (init l t0) us).flux ≤ B := by
  intro h hB
  have gen : ∀ (us : List Upd) (s : State), (∀ pre u post, us = pre ++ u :: post → 0 < elapsed (runU s pre) u.now →
      (counted u : ℚ) ≤ B * (elapsed (runU s pre) u.now : ℚ)) → 0 ≤ s.flux → s.flux ≤ B →
      0 ≤ (runU s us).flux ∧ (runU s us).flux ≤ B := by
    intro us
    induction us with
    | nil => intro s _ h1 h2; exact ⟨h1, h2⟩
    | cons u us ih =>
      intro s hs h1 h2
      have hstep : ∀ pre w post, us = pre ++ w :: post → 0 < elapsed (runU (update s u.flips u.comps u.now) pre) w.now →
          (counted w : ℚ) ≤ B * (elapsed (runU (update s u.flips u.comps u.now) pre) w.now : ℚ) := by
        intro pre w post e hp
        exact hs (u :: pre) w post (by rw [e]; rfl) hp
      apply ih _ hstep
      · by_cases he : 0 < elapsed s u.now
        · rw [(C44_update s u he).1]
          have : (0 : ℚ) < (elapsed s u.now : ℚ) := by exact_mod_cast he
          positivity
        · rw [C44_ignored s u he]; exact h1
      · by_cases he : 0 < elapsed s u.now
        · rw [(C44_update s u he).1]
          have hp : (0 : ℚ) < (elapsed s u.now : ℚ) := by exact_mod_cast he
          have := hs [] u us rfl he
          have hq : (counted u : ℚ) / (elapsed s u.now : ℚ) ≤ B := (div_le_iff₀ hp).mpr this
          linarith
        · rw [C44_ignored s u he]; exact h2
  exact gen us _ h (le_refl _) hB

theorem levelOf_mono {a b : ℚ} (h : a ≤ b) : levelOf a ≤ levelOf b := by
  unfold levelOf
  apply List.countP_mono_left
  intro t _ ht
  simp only [decide_eq_true_eq] at ht ⊢
  exact le_trans ht h

theorem elapsed_congr {s s' : State} (h : s.last = s'.last) (now : Int) : elapsed s now = elapsed s' now := by
  unfold elapsed; rw [h]

/-- **C44 (monotone in the errors).** Take two histories with the same update times from fresh objects, where the second
reports at least as many errors at each update and no total exceeds 32 bits.  After at least one effective update the
second has at least the flux and at least the protection level of the first. -/
theorem C44_monotone (l : Level) (t0 : Int) (us : List (Upd × Upd))
    (ht : ∀ p ∈ us, p.1.now = p.2.now)
    (hle : ∀ p ∈ us, p.1.flips.toNat + p.1.comps.toNat ≤ p.2.flips.toNat + p.2.comps.toNat)
    (hfit : ∀ p ∈ us, p.2.flips.toNat + p.2.comps.toNat < 2 ^ 32) :
    (runU (init l t0) (us.map (·.1))).flux ≤ (runU (init l t0) (us.map (·.2))).flux ∧
    (runU (init l t0) (us.map (·.1))).level ≤ (runU (init l t0) (us.map (·.2))).level := by
  have gen : ∀ (us : List (Upd × Upd)) (s s' : State), (∀ p ∈ us, p.1.now = p.2.now) →
      (∀ p ∈ us, p.1.flips.toNat + p.1.comps.toNat ≤ p.2.flips.toNat + p.2.comps.toNat) →
      (∀ p ∈ us, p.2.flips.toNat + p.2.comps.toNat < 2 ^ 32) → s.last = s'.last → s.flux ≤ s'.flux → s.level ≤ s'.level →
      (runU s (us.map (·.1))).flux ≤ (runU s' (us.map (·.2))).flux ∧
      (runU s (us.map (·.1))).level ≤ (runU s' (us.map (·.2))).level := by
    intro us
    induction us with
    | nil => intro s s' _ _ _ _ hf hl; exact ⟨hf, hl⟩
    | cons p us ih =>
      intro s s' ht hle hfit hlast hf hl
      have ht0 := ht p List.mem_cons_self
      have hle0 := hle p List.mem_cons_self
      have hfit0 := hfit p List.mem_cons_self
      have step : (update s p.1.flips p.1.comps p.1.now).last = (update s' p.2.flips p.2.comps p.2.now).last ∧
          (update s p.1.flips p.1.comps p.1.now).flux ≤ (update s' p.2.flips p.2.comps p.2.now).flux ∧
          (update s p.1.flips p.1.comps p.1.now).level ≤ (update s' p.2.flips p.2.comps p.2.now).level := by
        have hel : elapsed s p.1.now = elapsed s' p.2.now := by rw [ht0]; exact elapsed_congr hlast _
        by_cases he : 0 < elapsed s p.1.now
        · have u1 := C44_update s p.1 he
          have u2 := C44_update s' p.2 (by rw [← hel]; exact he)
          obtain ⟨a1, a2, a3, _⟩ := u1
          obtain ⟨b1, b2, b3, _⟩ := u2
          have hcount : (counted p.1 : ℚ) ≤ (counted p.2 : ℚ) := by
            unfold counted
            rw [Nat.mod_eq_of_lt (by omega), Nat.mod_eq_of_lt (by omega)]
            exact_mod_cast hle0
          have hp : (0 : ℚ) < (elapsed s p.1.now : ℚ) := by exact_mod_cast he
          have hflux : (update s p.1.flips p.1.comps p.1.now).flux ≤ (update s' p.2.flips p.2.comps p.2.now).flux := by
            rw [a1, b1, ← hel]
            have := div_le_div_of_nonneg_right hcount (le_of_lt hp)
            linarith
          refine ⟨by rw [a3, b3, ht0], hflux, ?_⟩
          rw [Fin.le_def, a2, b2]
          exact levelOf_mono hflux
        · rw [C44_ignored s p.1 he, C44_ignored s' p.2 (by rw [← hel]; exact he)]
          exact ⟨hlast, hf, hl⟩
      exact ih _ _ (fun q hq => ht q (List.mem_cons_of_mem _ hq)) (fun q hq => hle q (List.mem_cons_of_mem _ hq))
        (fun q hq => hfit q (List.mem_cons_of_mem _ hq)) step.1 step.2.1 step.2.2
  exact gen us _ _ ht hle hfit rfl (le_refl _) (le_refl _)

/-- A steady history: `n` updates, each one second after the previous one and each reporting `k` errors. -/
def steady (k : UInt32) (t : Int) : Nat → List Upd
  | 0 => []
  | n + 1 => ⟨k, 0, t + 1000000000⟩ :: steady k (t + 1000000000) n

/-- **C44 (convergence).** Under a steady rate of `k` errors per second the distance of the flux from `k` shrinks by the
factor 0.7 with every update; so the level becomes and stays the one of the true rate unless that is a threshold. -/
theorem C44_convergence (s : State) (k : UInt32) (n : Nat) :
    (runU s (steady k s.last n)).flux - (k.toNat : ℚ) = (7 / 10) ^ n * (s.flux - (k.toNat : ℚ)) := by
  induction n generalizing s with
  | zero => simp [steady, runU]
  | succ n ih =>
    have he : elapsed s (s.last + 1000000000) = 1 := by
      unfold elapsed; rw [show s.last + 1000000000 - s.last = 1000000000 by omega]; rfl
    have hu := C44_update s ⟨k, 0, s.last + 1000000000⟩ (by simp only; rw [he]; omega)
    obtain ⟨u1, _, u3, _⟩ := hu
    simp only at u1 u3
    have := ih (update s k 0 (s.last + 1000000000))
    rw [u3] at this
    change (runU (update s k 0 (s.last + 1000000000)) (steady k (s.last + 1000000000) n)).flux - _ = _
    rw [this, u1, he]
    have hc : counted ⟨k, 0, s.last + 1000000000⟩ = k.toNat := by
      unfold counted
      have := k.toNat_lt
      simp only [UInt32.toNat_zero, Nat.add_zero]
      exact Nat.mod_eq_of_lt (by omega)
    rw [hc]
    push_cast
    ring

/-! ### Other calls -/

theorem notify_fields (s : State) : (notify s).level = s.level ∧ (notify s).listeners = s.listeners ∧
    (notify s).log = s.log ++ s.listeners.map (fun i => (i, s.level)) ∧ (notify s).next = s.next := ⟨rfl, rfl, rfl, rfl⟩

/-- **C44 (raising the level).** `temporarilyIncreaseLevel` raises the level by exactly one, up to MAXIMUM, and leaves the
flux estimate alone. -/
theorem C44_increase (s : State) (ms : UInt32) :
    (increase s ms).level.val = min (s.level.val + 1) 3 ∧ (increase s ms).flux = s.flux := by
  unfold increase
  obtain ⟨l, _⟩ := s
  fin_cases l <;> simp [notify]

/-- **C44 (configurations).** A higher level never has less redundancy, a longer scrubbing interval, or a feature switched
off. -/
theorem C44_configs_monotone : ∀ a b : Level, a ≤ b →
    (configs a).redundancy ≤ (configs b).redundancy ∧ (configs b).scrubMs ≤ (configs a).scrubMs ∧
    ((configs a).temporal = true → (configs b).temporal = true) ∧ ((configs a).checkpoint = true → (configs b).checkpoint = true) := by
  decide

structure Inv (s : State) : Prop where
  nodup : s.listeners.Nodup
  fresh : ∀ i ∈ s.listeners, i < s.next

theorem apply_effect (s : State) (o : Op) :
    (apply s o).log = s.log ++ (if (apply s o).level ≠ s.level then s.listeners.map (fun i => (i, (apply s o).level)) else []) ∧
    (Inv s → Inv (apply s o)) := by
  cases o with
  | update f c now =>
    by_cases he : 0 < elapsed s now
    · have hu : apply s (.update f c now) = adjust { s with flux := 3 / 10 * (((f + c).toNat : ℚ) / (((now - s.last).tdiv 1000000000 : Int) : ℚ)) + (1 - 3 / 10) * s.flux, flips := f, comps := c, last := now } := by
        simp only [apply, update]
        unfold elapsed at he
        rw [if_pos he]
      obtain ⟨_, _, _, _, _, h6, h7, h8⟩ := adjust_fields { s with flux := 3 / 10 * (((f + c).toNat : ℚ) / (((now - s.last).tdiv 1000000000 : Int) : ℚ)) + (1 - 3 / 10) * s.flux, flips := f, comps := c, last := now }
      rw [hu]
      exact ⟨h8, fun h => ⟨by rw [h6]; exact h.nodup, by rw [h6, h7]; exact h.fresh⟩⟩
    · have hu : apply s (.update f c now) = s := C44_ignored s ⟨f, c, now⟩ he
      rw [hu]; exact ⟨by simp, id⟩
  | increase ms =>
    simp only [apply, increase]
    split
    · next h =>
      have hne : s.level + 1 ≠ s.level := by
        generalize s.level = l at h
        fin_cases l <;> decide
      refine ⟨?_, fun h => ⟨h.nodup, h.fresh⟩⟩
      rw [if_pos (show (notify { s with level := s.level + 1 }).level ≠ s.level from hne)]; rfl
    · exact ⟨by simp, id⟩
  | setInitial l =>
    simp only [apply, setInitial]
    split
    · next h =>
      refine ⟨?_, fun h => ⟨h.nodup, h.fresh⟩⟩
      rw [if_pos (show (notify { s with level := l }).level ≠ s.level from Ne.symm h)]; rfl
    · exact ⟨by simp, id⟩
  | register =>
    refine ⟨by simp [apply, register], fun h => ⟨?_, ?_⟩⟩
    · simp only [apply, register]
      rw [List.nodup_append]
      refine ⟨h.nodup, by simp, ?_⟩
      intro a ha b hb
      have := h.fresh a ha
      simp only [List.mem_singleton] at hb
      omega
    · intro i hi
      simp only [apply, register, List.mem_append, List.mem_singleton] at hi ⊢
      rcases hi with hi | rfl
      · have := h.fresh i hi; omega
      · omega
  | unregister i =>
    simp only [apply, unregister]
    split
    · refine ⟨by simp, fun h => ⟨h.nodup.filter _, ?_⟩⟩
      intro j hj
      exact h.fresh j (List.mem_of_mem_filter hj)
    · exact ⟨by simp, id⟩

theorem inv_run (l : Level) (t0 : Int) (ops : List Op) : Inv (run (init l t0) ops) := by
  have gen : ∀ (ops : List Op) s, Inv s → Inv (run s ops) := by
    intro ops
    induction ops with
    | nil => intro s h; exact h
    | cons o ops ih => intro s h; exact ih _ ((apply_effect s o).2 h)
  exact gen ops _ ⟨List.nodup_nil, by simp [init]⟩

theorem received_map (l : List Nat) (hn : l.Nodup) (i : Nat) (e : Level) :
    (((l.map (fun j => (j, e))).filter (fun x => decide (x.1 = i))).map (·.2)) = if i ∈ l then [e] else [] := by
  induction l with
  | nil => simp
  | cons j l ih =>
    have hn' := List.nodup_cons.mp hn
    rw [List.map_cons]
    by_cases hj : j = i
    · subst hj
      rw [List.filter_cons_of_pos (by simp), List.map_cons, ih hn'.2, if_neg hn'.1]
      simp
    · rw [List.filter_cons_of_neg (by simpa using hj), ih hn'.2]
      simp [List.mem_cons, Ne.symm hj]

/-- **C44 (notification).** In every history each call notifies each registered listener exactly once with the new level
if it changed the level, and nobody otherwise. -/
theorem C44_notification (l : Level) (t0 : Int) (ops : List Op) (o : Op) (i : Nat) :
    let s := run (init l t0) ops
    let s' := apply s o
    received s' i = received s i ++ (if s'.level ≠ s.level ∧ i ∈ s.listeners then [s'.level] else []) := by
  intro s s'
  have hi : Inv s := inv_run l t0 ops
  have key := (apply_effect s o).1
  unfold received
  change ((s'.log.filter _).map _) = _
  rw [show s'.log = _ from key, List.filter_append, List.map_append]
  congr 1
  by_cases h : s'.level ≠ s.level
  · rw [if_pos h, received_map _ hi.nodup]
    simp [h]
    rfl
  · rw [if_neg h, if_neg (fun q => h q.1)]; rfl

/-- **C44 (handles).** Registering returns a handle no listener has; unregistering succeeds exactly for registered handles
and removes exactly that listener. -/
theorem C44_handles (l : Level) (t0 : Int) (ops : List Op) (i : Nat) :
    let s := run (init l t0) ops
    (register s).2 ∉ s.listeners ∧ ((unregister s i).2 = true ↔ i ∈ s.listeners) ∧
    (∀ j, j ∈ (unregister s i).1.listeners ↔ j ∈ s.listeners ∧ j ≠ i) := by
  intro s
  have hi : Inv s := inv_run l t0 ops
  refine ⟨?_, ?_, ?_⟩
  · intro h
    have := hi.fresh _ h
    simp only [register] at this
    omega
  · unfold unregister; split <;> simp_all
  · intro j
    unfold unregister; split
    · simp
    · next h => constructor
                · intro hj; exact ⟨hj, fun e => h (e ▸ hj)⟩
                · exact fun q => q.1

/-! ### What fails -/

/-- **C44 (wrap-around, violated).** 4294967295 bit flips plus one computation error in a second count as zero errors: the
flux stays 0 and the level drops to MINIMAL. -/
theorem C44_wrap_violated :
    (update (init 1 0) 4294967295 1 1000000000).level = 0 ∧ (update (init 1 0) 4294967295 1 1000000000).flux = 0 := by
  have he : elapsed (init 1 0) 1000000000 = 1 := by decide
  have hu := C44_update (init 1 0) ⟨4294967295, 1, 1000000000⟩ (by simp only; rw [he]; omega)
  obtain ⟨u1, u2, _⟩ := hu
  simp only at u1 u2
  have hc : counted ⟨4294967295, 1, 1000000000⟩ = 0 := by decide
  rw [hc, he] at u1
  have hf : (update (init 1 0) 4294967295 1 1000000000).flux = 0 := by rw [u1]; simp [init]
  refine ⟨?_, hf⟩
  apply Fin.ext
  rw [u2, hf]
  simp [levelOf]

/-- **C44 (lost reports, violated).** Errors reported less than a second after the last assessment are lost: a million bit
flips at 0.9 s followed by a clean report at 1 s leave the flux at 0 and the level at MINIMAL. -/
theorem C44_lost_violated :
    (runU (init 1 0) [⟨1000000, 0, 900000000⟩, ⟨0, 0, 1000000000⟩]).flux = 0 ∧
    (runU (init 1 0) [⟨1000000, 0, 900000000⟩, ⟨0, 0, 1000000000⟩]).level = 0 := by
  have h1 : update (init 1 0) 1000000 0 900000000 = init 1 0 := C44_ignored (init 1 0) ⟨1000000, 0, 900000000⟩ (by decide)
  have he : elapsed (init 1 0) 1000000000 = 1 := by decide
  have hu := C44_update (init 1 0) ⟨0, 0, 1000000000⟩ (by simp only; rw [he]; omega)
  obtain ⟨u1, u2, _⟩ := hu
  simp only at u1 u2
  have hc : counted ⟨0, 0, 1000000000⟩ = 0 := by decide
  rw [hc, he] at u1
  have hf : (update (init 1 0) 0 0 1000000000).flux = 0 := by rw [u1]; simp [init]
  simp only [runU, List.foldl_cons, List.foldl_nil]
  rw [h1]
  refine ⟨hf, ?_⟩
  apply Fin.ext
  rw [u2, hf]
  simp [levelOf]

/-- **C44 (temporary increase, violated).** The increase is not kept for the requested duration (the next assessment
overrides it), and without assessments it is never taken back: no call other than those of the API changes the state. -/
theorem C44_temporary_violated :
    (increase (init 1 0) 60000).level = 2 ∧ (update (increase (init 1 0) 60000) 0 0 1000000000).level = 0 := by
  refine ⟨by decide, ?_⟩
  have he : elapsed (increase (init 1 0) 60000) 1000000000 = 1 := by decide
  have hu := C44_update (increase (init 1 0) 60000) ⟨0, 0, 1000000000⟩ (by simp only; rw [he]; omega)
  obtain ⟨u1, u2, _⟩ := hu
  simp only at u1 u2
  have hc : counted ⟨0, 0, 1000000000⟩ = 0 := by decide
  rw [hc, he, (C44_increase (init 1 0) 60000).2] at u1
  have hf : (update (increase (init 1 0) 60000) 0 0 1000000000).flux = 0 := by rw [u1]; simp [init]
  apply Fin.ext
  rw [u2, hf]
  simp [levelOf]

/-- A second at 5 errors/s raises the level from STANDARD to MAXIMUM. -/
example : (update (init 1 0) 5 0 1000000000).level = 3 := by
  have he : elapsed (init 1 0) 1000000000 = 1 := by decide
  have hu := C44_update (init 1 0) ⟨5, 0, 1000000000⟩ (by simp only; rw [he]; omega)
  obtain ⟨u1, u2, _⟩ := hu
  simp only at u1 u2
  have hc : counted ⟨5, 0, 1000000000⟩ = 5 := by decide
  rw [hc, he] at u1
  apply Fin.ext
  rw [u2, u1]
  simp only [levelOf, List.countP_cons, List.countP_nil, init]
  norm_num

end Verif.Props.AdaptiveProt
