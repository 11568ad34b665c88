import Verif.Props.PhysicsDriven
import Mathlib.Analysis.Complex.ExponentialBounds
/-!
C93: the multi-scale manager of /repo/include/rad_ml/tmr/physics_driven_protection.hpp.
-/
namespace Verif.Props.PhysP
open Verif Verif.Strat Verif.Phys

/-! ### Specification -/

/-- The documented period of each scale in nanoseconds: a millisecond (the "microsecond" scale), a second, a minute, an hour, a day. -/
def period (s : Fin 5) : ℤ :=
  match s with
  | 0 => 1000000
  | 1 => 1000000000
  | 2 => 60 * 1000000000
  | 3 => 3600 * 1000000000
  | 4 => 24 * 3600 * 1000000000

theorem interval_eq : interval = period := by
  funext s; revert s; decide

/-- A scale is due at `now`: at least its interval has passed since its last update. -/
def Due (m : Multi) (now : ℤ) (s : Fin 5) : Prop := now - m.last s ≥ period s

/-- A call of the manager. -/
structure Call where
  now : ℤ
  env : PEnv

/-- A history of calls (the material does not change). -/
noncomputable def runMulti (tol : ℚ) (m : Multi) : List Call → Outcome Multi
  | [] => .ok m
  | c :: l => (m.update c.now c.env tol).bind fun r => runMulti tol r.1 l

theorem bind_ok {α β : Type} (x : Outcome α) (f : α → Outcome β) (y : β) : x.bind f = .ok y ↔ ∃ a, x = .ok a ∧ f a = .ok y := by
  cases x with
  | ok a => simp [Outcome.bind]
  | ub => simp [Outcome.bind]

theorem loop_ok (now : ℤ) (e : PEnv) (tol : ℚ) (l : List (Fin 5)) : ∀ (m m' : Multi) (h h' : Fin 5), l.Nodup →
    scaleLoop now e tol l (m, h) = .ok (m', h') →
    (∀ s, s ∈ l → Due m now s → m'.last s = now ∧ scaleState s e tol = .ok (m'.state s)) ∧
    (∀ s, ¬ (s ∈ l ∧ Due m now s) → m'.last s = m.last s ∧ m'.state s = m.state s) ∧
    ((∀ s ∈ l, ¬ Due m now s) → h' = h) ∧ ((∃ s ∈ l, Due m now s) → h' ∈ l ∧ Due m now h' ∧ (l.Pairwise (· < ·) → ∀ s ∈ l, Due m now s → s ≤ h')) := by
  induction l with
  | nil =>
    intro m m' h h' _ hr
    have hr' : (m, h) = (m', h') := by simpa [scaleLoop] using hr
    simp only [Prod.mk.injEq] at hr'
    obtain ⟨rfl, rfl⟩ := hr'
    simp
  | cons s l ih =>
    intro m m' h h' hnd hr
    have hsl : s ∉ l := (List.nodup_cons.1 hnd).1
    have hl : l.Nodup := (List.nodup_cons.1 hnd).2
    rw [scaleLoop] at hr
    by_cases hd : now - m.last s ≥ period s
    · rw [interval_eq, if_pos hd, bind_ok] at hr
      obtain ⟨k, hk, hr⟩ := hr
      obtain ⟨i1, i2, i3, i4⟩ := ih _ _ _ _ hl hr
      have hdue : ∀ t, t ∈ l → (Due ⟨Function.update m.last s now, Function.update m.state s k⟩ now t ↔ Due m now t) := by
        intro t ht
        have : t ≠ s := fun h => hsl (h ▸ ht)
        simp [Due, Function.update_of_ne this]
      refine ⟨?_, ?_, ?_, ?_⟩
      · intro t ht htd
        rcases List.mem_cons.1 ht with rfl | ht'
        · have := i2 t (fun hh => hsl hh.1)
          rw [this.1, this.2]
          simp [hk]
        · exact i1 t ht' ((hdue t ht').2 htd)
      · intro t ht
        have hts : t ≠ s := fun hh => ht ⟨hh ▸ List.mem_cons_self, hh ▸ hd⟩
        have := i2 t (fun hh => ht ⟨List.mem_cons_of_mem _ hh.1, (hdue t hh.1).1 hh.2⟩)
        rw [this.1, this.2]
        simp [Function.update_of_ne hts]
      · intro hall
        exact absurd hd (hall s List.mem_cons_self)
      · intro _
        by_cases hex : ∃ t ∈ l, Due m now t
        · obtain ⟨t, ht, htd⟩ := hex
          obtain ⟨j1, j2, j3⟩ := i4 ⟨t, ht, (hdue t ht).2 htd⟩
          refine ⟨List.mem_cons_of_mem _ j1, (hdue _ j1).1 j2, ?_⟩
          intro hp u hu hud
          rw [List.pairwise_cons] at hp
          rcases List.mem_cons.1 hu with rfl | hu'
          · exact (hp.1 _ j1).le
          · exact j3 hp.2 u hu' ((hdue u hu').2 hud)
        · have hh : h' = s := i3 fun t ht htd => hex ⟨t, ht, (hdue t ht).1 htd⟩
          subst hh
          refine ⟨List.mem_cons_self, hd, ?_⟩
          intro _ u hu hud
          rcases List.mem_cons.1 hu with rfl | hu'
          · exact le_rfl
          · exact absurd ⟨u, hu', hud⟩ hex
    · rw [interval_eq, if_neg hd] at hr
      obtain ⟨i1, i2, i3, i4⟩ := ih _ _ _ _ hl hr
      refine ⟨?_, ?_, ?_, ?_⟩
      · intro t ht htd
        rcases List.mem_cons.1 ht with rfl | ht'
        · exact absurd htd hd
        · exact i1 t ht' htd
      · intro t ht
        exact i2 t fun hh => ht ⟨List.mem_cons_of_mem _ hh.1, hh.2⟩
      · intro hall
        exact i3 fun t ht => hall t (List.mem_cons_of_mem _ ht)
      · rintro ⟨t, ht, htd⟩
        rcases List.mem_cons.1 ht with rfl | ht'
        · exact absurd htd hd
        · obtain ⟨j1, j2, j3⟩ := i4 ⟨t, ht', htd⟩
          refine ⟨List.mem_cons_of_mem _ j1, j2, ?_⟩
          intro hp u hu hud
          rw [List.pairwise_cons] at hp
          rcases List.mem_cons.1 hu with rfl | hu'
          · exact absurd hud hd
          · exact j3 hp.2 u hu' hud

/-- C93: one call updates exactly the scales that are due, each to the value computed from the environment of this call, leaves the others
alone, and returns the slowest scale it updated. -/
theorem C93_update (m m' : Multi) (now : ℤ) (e : PEnv) (tol : ℚ) (high : Fin 5) (h : m.update now e tol = .ok (m', high)) :
    (∀ s, Due m now s → m'.last s = now ∧ scaleState s e tol = .ok (m'.state s)) ∧
    (∀ s, ¬ Due m now s → m'.last s = m.last s ∧ m'.state s = m.state s) ∧
    ((∃ s, Due m now s) → Due m now high ∧ ∀ s, Due m now s → s ≤ high) := by
  have hall : ∀ s : Fin 5, s ∈ ([0, 1, 2, 3, 4] : List (Fin 5)) := by decide
  obtain ⟨a, b, _, d⟩ := loop_ok now e tol _ m m' 0 high (by decide) h
  refine ⟨fun s hs => a s (hall s) hs, fun s hs => b s (fun hh => hs hh.2), ?_⟩
  rintro ⟨s, hs⟩
  obtain ⟨_, d2, d3⟩ := d ⟨s, hall s, hs⟩
  exact ⟨d2, fun t ht => d3 (by decide) t (hall t) ht⟩

/-- C93 (negation): the call is said to return the highest scale that was updated; when none was, it returns MICROSECOND as if that had
been. -/
theorem C93_nothing_updated_violated (m m' : Multi) (now : ℤ) (e : PEnv) (tol : ℚ) (high : Fin 5) (h : m.update now e tol = .ok (m', high))
    (hn : ∀ s, ¬ Due m now s) : high = 0 ∧ m'.last = m.last ∧ m'.state = m.state := by
  obtain ⟨_, b, c, _⟩ := loop_ok now e tol _ m m' 0 high (by decide) h
  refine ⟨c fun s _ => hn s, ?_, ?_⟩
  · funext s; exact (b s fun hh => hn s hh.2).1
  · funext s; exact (b s fun hh => hn s hh.2).2

/-- Non-vacuity of both: a call right after construction and one two seconds later. -/
example (e : PEnv) (tol : ℚ) : (Multi.new 0).update 5 e tol = .ok (Multi.new 0, 0) := by
  simp [Multi.update, scaleLoop, Multi.new, interval]

/-- Number of calls of a history at which scale `s` was due. -/
noncomputable def updates (tol : ℚ) (s : Fin 5) (m : Multi) : List Call → Nat
  | [] => 0
  | c :: l => (if c.now - m.last s ≥ period s then 1 else 0) +
      (match m.update c.now c.env tol with
       | .ok r => updates tol s r.1 l
       | .ub => 0)

theorem interval_pos (s : Fin 5) : 0 < period s := by revert s; decide

/-- C93: scale `s` is updated at most once per interval: over any history, the number of updates times the interval is at most the time
from its first reference to its last update. -/
theorem C93_rate (tol : ℚ) (s : Fin 5) (calls : List Call) (m m' : Multi) (h : runMulti tol m calls = .ok m') :
    (updates tol s m calls : ℤ) * period s ≤ m'.last s - m.last s := by
  induction calls generalizing m with
  | nil =>
    have : m = m' := by simpa [runMulti] using h
    subst this
    simp [updates]
  | cons c l ih =>
    rw [runMulti, bind_ok] at h
    obtain ⟨r, hr, h⟩ := h
    have i := ih r.1 h
    obtain ⟨a, b, _⟩ := C93_update m r.1 c.now c.env tol r.2 hr
    rw [updates, hr]
    simp only
    by_cases hd : c.now - m.last s ≥ period s
    · rw [if_pos hd]
      rw [(a s hd).1] at i
      push_cast
      linarith
    · rw [if_neg hd]
      rw [(b s hd).1] at i
      push_cast
      linarith

/-- C93: after any history of calls, each scale is either untouched since construction or shows the value
computed from the environment reported at its last update, which is one of the calls; and it is never older than its interval at the
last call. -/
theorem C93_history (tol : ℚ) (t0 : ℤ) (calls : List Call) (m : Multi) (h : runMulti tol (Multi.new t0) calls = .ok m) (s : Fin 5) :
    ((m.last s = t0 ∧ m.state s = 0) ∨ ∃ c ∈ calls, c.now = m.last s ∧ scaleState s c.env tol = .ok (m.state s)) ∧
    (∀ c, calls.getLast? = some c → c.now - m.last s < period s) := by
  induction calls using List.reverseRecOn generalizing m with
  | nil =>
    have : Multi.new t0 = m := by simpa [runMulti] using h
    subst this
    exact ⟨Or.inl ⟨rfl, rfl⟩, by simp⟩
  | append_singleton l x ih =>
    have split : ∀ (l : List Call) (a : Multi), runMulti tol a (l ++ [x]) = .ok m →
        ∃ b, runMulti tol a l = .ok b ∧ ∃ hi, b.update x.now x.env tol = .ok (m, hi) := by
      intro l
      induction l with
      | nil =>
        intro a ha
        rw [List.nil_append, runMulti, bind_ok] at ha
        obtain ⟨r, hr, h⟩ := ha
        have : r.1 = m := by simpa [runMulti] using h
        subst this
        exact ⟨a, rfl, r.2, hr⟩
      | cons c l ihl =>
        intro a ha
        rw [List.cons_append, runMulti, bind_ok] at ha
        obtain ⟨r, hr, h⟩ := ha
        obtain ⟨b, hb, hi⟩ := ihl _ h
        exact ⟨b, by rw [runMulti, bind_ok]; exact ⟨r, hr, hb⟩, hi⟩
    obtain ⟨b, hb, hi, hu⟩ := split l _ h
    obtain ⟨i1, _⟩ := ih b hb
    obtain ⟨u1, u2, _⟩ := C93_update b m x.now x.env tol hi hu
    by_cases hd : Due b x.now s
    · obtain ⟨v1, v2⟩ := u1 s hd
      refine ⟨Or.inr ⟨x, by simp, v1.symm, v2⟩, ?_⟩
      intro c hc
      have : x = c := by simpa using hc
      subst this
      rw [v1, sub_self]
      exact interval_pos s
    · obtain ⟨v1, v2⟩ := u2 s hd
      refine ⟨?_, ?_⟩
      · rw [v1, v2]
        rcases i1 with i1 | ⟨c, hc, i1⟩
        · exact Or.inl i1
        · exact Or.inr ⟨c, List.mem_append_left _ hc, i1⟩
      · intro c hc
        have : x = c := by simpa using hc
        subst this
        rw [v1]
        exact not_le.1 hd

/-- Non-vacuity: a call half a millisecond and one a millisecond after construction, in a quiet environment. -/
example : ∃ m, runMulti 50 (Multi.new 0) [⟨500000, ⟨⟨30000000, 0, false, 0⟩, 290, 300⟩⟩, ⟨1000000, ⟨⟨30000000, 0, false, 0⟩, 290, 300⟩⟩] = .ok m ∧ m.state 0 = 3 ∧ m.state 1 = 0 := by
  have hc : castInt ((30000000 : ℝ) / 10 ^ 7) = .ok 3 := by
    rw [castInt, if_pos (by norm_num), if_pos (by norm_num)]
    congr 1
    rw [Int.floor_eq_iff]
    norm_num
  refine ⟨⟨Function.update (fun _ => 0) 0 1000000, Function.update (fun _ => 0) 0 3⟩, ?_, ?_, ?_⟩
  · have h1 : (Multi.new 0).update 500000 ⟨⟨30000000, 0, false, 0⟩, 290, 300⟩ 50 = .ok (Multi.new 0, 0) := by
      simp [Multi.update, scaleLoop, Multi.new, interval]
    have h2 : (Multi.new 0).update 1000000 ⟨⟨30000000, 0, false, 0⟩, 290, 300⟩ 50 =
        .ok (⟨Function.update (fun _ => 0) 0 1000000, Function.update (fun _ => 0) 0 3⟩, 0) := by
      simp [Multi.update, scaleLoop, Multi.new, interval, scaleState, hc, Outcome.bind]
    simp [runMulti, h1, h2, Outcome.bind]
  · simp
  · simp

/-! ### Range of the states -/

theorem castInt_ok (x : ℝ) (k : ℤ) (h : castInt x = .ok k) : (0 ≤ x → k = ⌊x⌋) ∧ (0 ≤ x → 0 ≤ k) := by
  unfold castInt at h
  split at h
  · have hk : (if 0 ≤ x then ⌊x⌋ else ⌈x⌉) = k := by simpa using h
    refine ⟨fun hx => by rw [if_pos hx] at hk; exact hk.symm, fun hx => ?_⟩
    rw [if_pos hx] at hk
    rw [← hk]
    exact Int.floor_nonneg.2 hx
  · simp at h

/-- An environment with physical values: nonnegative fluxes and solar activity, temperature above 0 K. -/
def Physical (e : PEnv) : Prop := 0 ≤ e.proton ∧ 0 ≤ e.electron ∧ 0 ≤ e.solar ∧ 0 < e.temp

theorem tf_pos (e : PEnv) (h : 0 < e.temp) : 0 < tempThreshold 1 (e.temp : ℝ) := (C91_temperature 1).2.1 _ (by exact_mod_cast h) one_pos

theorem tf_lt (e : PEnv) (h : 0 < e.temp) : tempThreshold 1 (e.temp : ℝ) < 8 := by
  have hT : (0 : ℝ) < (e.temp : ℝ) := by exact_mod_cast h
  rw [tempThreshold, if_neg hT.ne', one_mul]
  have h1 : -(4 / 100) / (8617 / 10 ^ 8) * (1 / (e.temp : ℝ) - 1 / 295) ≤ 2 := by
    have hi : 0 < 1 / (e.temp : ℝ) := by positivity
    have : -(4 / 100) / (8617 / 10 ^ 8) * (1 / (e.temp : ℝ) - 1 / 295) ≤ -(4 / 100) / (8617 / 10 ^ 8) * (0 - 1 / 295) :=
      mul_le_mul_of_nonpos_left (by linarith) (by norm_num)
    refine this.trans (by norm_num)
  have h2 : Real.exp 2 < 8 := by
    have he : Real.exp 2 = Real.exp 1 * Real.exp 1 := by rw [← Real.exp_add]; norm_num
    have := Real.exp_one_lt_d9
    have h0 := Real.exp_pos 1
    rw [he]
    nlinarith
  exact lt_of_le_of_lt (Real.exp_le_exp.2 h1) h2

theorem state_range (s : Fin 5) (e : PEnv) (tol : ℚ) (hp : Physical e) (ht : 0 < tol) (k : ℤ) (h : scaleState s e tol = .ok k) :
    0 ≤ k ∧ (s ≠ 0 → k ≤ 10) ∧ (s = 0 → k = ⌊(e.proton : ℝ) / 10 ^ 7⌋) := by
  obtain ⟨p1, p2, p3, p4⟩ := hp
  have q1 : (0 : ℝ) ≤ (e.proton : ℝ) := by exact_mod_cast p1
  have q2 : (0 : ℝ) ≤ (e.electron : ℝ) := by exact_mod_cast p2
  have q3 : (0 : ℝ) ≤ (e.solar : ℝ) := by exact_mod_cast p3
  have hmin : ∀ x : ℝ, 0 ≤ x → ((castInt x).bind fun k => .ok (min 10 k)) = .ok k → 0 ≤ k ∧ k ≤ 10 := by
    intro x hx hh
    rw [bind_ok] at hh
    obtain ⟨a, ha, hk⟩ := hh
    have hk' : min 10 a = k := by simpa using hk
    have := (castInt_ok x a ha).2 hx
    rw [← hk']
    exact ⟨le_min (by norm_num) this, min_le_left _ _⟩
  fin_cases s
  · have := castInt_ok _ _ h
    exact ⟨this.2 (by positivity), by simp, fun _ => this.1 (by positivity)⟩
  · simp only [scaleState] at h
    have hk : (if e.saa = true then (10 : ℤ) else if e.solar > 7 / 10 then 8 else 5) = k := by simpa using h
    refine ⟨?_, fun _ => ?_, by simp⟩ <;> rw [← hk] <;> split_ifs <;> norm_num
  · simp only [scaleState] at h
    have fin : ∀ k' : ℤ, Outcome.ok k' = Outcome.ok k → k' = k := fun k' hh => by simpa using hh
    split_ifs at h
    · rw [← fin _ h]; refine ⟨by norm_num, fun _ => by norm_num, by simp⟩
    · rw [← fin _ h]; refine ⟨by norm_num, fun _ => by norm_num, by simp⟩
    · rw [← fin _ h]; refine ⟨by norm_num, fun _ => by norm_num, by simp⟩
    · have := hmin _ (by positivity) h
      exact ⟨this.1, fun _ => this.2, by simp⟩
  · simp only [scaleState] at h
    rw [if_neg ht.ne'] at h
    have hq : (0 : ℝ) < (tol : ℝ) := by exact_mod_cast ht
    have htf := tf_pos e p4
    have := hmin _ (by positivity) h
    exact ⟨this.1, fun _ => this.2, by simp⟩
  · have := hmin _ (by positivity) h
    exact ⟨this.1, fun _ => this.2, by simp⟩

/-- C93: in physical environments the states are nonnegative and, but for the fastest scale, at most ten; the protection factor is at
least 1. -/
theorem C93_range_partial (tol : ℚ) (ht : 0 < tol) (t0 : ℤ) (calls : List Call) (hp : ∀ c ∈ calls, Physical c.env) (m : Multi)
    (h : runMulti tol (Multi.new t0) calls = .ok m) :
    (∀ s, 0 ≤ m.state s) ∧ (∀ s, s ≠ 0 → m.state s ≤ 10) ∧ 1 ≤ m.factor := by
  have key : ∀ s, 0 ≤ m.state s ∧ (s ≠ 0 → m.state s ≤ 10) := by
    intro s
    rcases (C93_history tol t0 calls m h s).1 with ⟨_, h0⟩ | ⟨c, hc, _, hs⟩
    · rw [h0]; exact ⟨le_rfl, fun _ => by norm_num⟩
    · have := state_range s c.env tol (hp c hc) ht _ hs
      exact ⟨this.1, this.2.1⟩
  refine ⟨fun s => (key s).1, fun s => (key s).2, ?_⟩
  have hw : ∀ s : Fin 5, (1 : ℚ) ≤ 1 + weight s * (m.state s : ℚ) / 10 := by
    intro s
    have h1 : (0 : ℚ) ≤ (m.state s : ℚ) := by exact_mod_cast (key s).1
    have h2 : (0 : ℚ) ≤ weight s := by fin_cases s <;> simp [weight] <;> norm_num
    have := mul_nonneg h2 h1
    linarith
  have step : ∀ (l : List (Fin 5)) (f : ℚ), 1 ≤ f → 1 ≤ l.foldl (fun f s => f * (1 + weight s * (m.state s : ℚ) / 10)) f := by
    intro l
    induction l with
    | nil => exact fun f hf => hf
    | cons s l ih =>
      intro f hf
      refine ih _ ?_
      have := hw s
      nlinarith
  exact step _ 1 le_rfl

example : Physical ⟨⟨30000000, 0, false, 0⟩, 290, 300⟩ := by simp [Physical, PEnv.temp]; norm_num

/-- C93 (negation): the fastest scale is not limited to the 0-10 scale of the others: its state is a ten-millionth of the proton flux, so
the protection factor, and with it the delay between redundant executions, has no bound. -/
theorem C93_unbounded_violated (B : Nat) (hB : B < 10 ^ 9) : ∃ (e : PEnv) (m : Multi), Physical e ∧
    runMulti 50 (Multi.new 0) [⟨1000000, e⟩] = .ok m ∧ m.state 0 = B ∧ m.factor = 1 + (B : ℚ) / 50 := by
  refine ⟨⟨⟨B * 10 ^ 7, 0, false, 0⟩, 290, 300⟩, ⟨Function.update (fun _ => 0) 0 1000000, Function.update (fun _ => 0) 0 B⟩, ?_, ?_, ?_, ?_⟩
  · simp [Physical, PEnv.temp]; norm_num
  · have hB' : (B : ℝ) < 10 ^ 9 := by exact_mod_cast hB
    have h0 : (0 : ℝ) ≤ B := Nat.cast_nonneg B
    have hc : castInt (B : ℝ) = .ok (B : ℤ) := by
      rw [castInt, if_pos ⟨by linarith [show (-(2 ^ 31) - 1 : ℝ) < 0 by norm_num], by linarith [show (10 ^ 9 : ℝ) < 2 ^ 31 by norm_num]⟩, if_pos h0]
      simp
    simp [runMulti, Multi.update, scaleLoop, Multi.new, interval, scaleState, hc, Outcome.bind]
  · simp
  · simp [Multi.factor, weight]
    ring

example : (500 : Nat) < 10 ^ 9 := by norm_num

/-- The documented share of each scale, in percent. -/
def percent (s : Fin 5) : ℚ :=
  match s with
  | 0 => 20
  | 1 => 30
  | 2 => 20
  | 3 => 20
  | 4 => 10

theorem factor_eq (m : Multi) : m.factor = (1 + percent 0 * m.state 0 / 1000) * (1 + percent 1 * m.state 1 / 1000) * (1 + percent 2 * m.state 2 / 1000) *
    (1 + percent 3 * m.state 3 / 1000) * (1 + percent 4 * m.state 4 / 1000) := by
  simp only [Multi.factor, weight, percent, List.foldl_cons, List.foldl_nil]
  ring

/-- C93: the protection factor: 1 when no scale asks for protection; raising one scale from 0 to 10 multiplies it by 1 plus the share of that
scale, and in general each scale acts on it independently of the others and in proportion to its share. -/
theorem C93_factor (m : Multi) (s : Fin 5) (k : ℤ) :
    ((∀ t, m.state t = 0) → m.factor = 1) ∧
    (m.state s = 0 → Multi.factor ⟨m.last, Function.update m.state s 10⟩ = m.factor * (1 + percent s / 100)) ∧
    Multi.factor ⟨m.last, Function.update m.state s k⟩ * (1 + percent s / 100 * m.state s / 10) = m.factor * (1 + percent s / 100 * k / 10) := by
  have gen : Multi.factor ⟨m.last, Function.update m.state s k⟩ * (1 + percent s / 100 * m.state s / 10) = m.factor * (1 + percent s / 100 * k / 10) := by
    rw [factor_eq, factor_eq]
    fin_cases s <;> simp [Function.update, percent] <;> ring
  refine ⟨?_, ?_, gen⟩
  · intro h
    rw [factor_eq]
    simp [h]
  · intro h
    rw [factor_eq, factor_eq]
    fin_cases s <;> simp at h <;> simp [Function.update, percent, h] <;> first | ring1 | (left; norm_num)

/-- Non-vacuity: a manager whose second scale is at 5 and whose others are at 0. -/
example : Multi.factor ⟨fun _ => 0, Function.update (fun _ => 0) 1 5⟩ = 23 / 20 := by
  rw [factor_eq]; simp [percent]; norm_num

theorem castInt_defined (x : ℝ) (h0 : 0 ≤ x) (h1 : x < 2 ^ 31) : ∃ k, castInt x = .ok k := by
  rw [castInt, if_pos ⟨by linarith [show (-(2 ^ 31) - 1 : ℝ) < 0 by norm_num], h1⟩]
  exact ⟨_, rfl⟩

theorem loop_defined (now : ℤ) (e : PEnv) (tol : ℚ) (l : List (Fin 5)) (hd : ∀ s, ∃ k, scaleState s e tol = .ok k) :
    ∀ m : Multi × Fin 5, ∃ r, scaleLoop now e tol l m = .ok r := by
  induction l with
  | nil => exact fun m => ⟨m, rfl⟩
  | cons s l ih =>
    rintro ⟨m, h⟩
    rw [scaleLoop]
    split
    · obtain ⟨k, hk⟩ := hd s
      rw [hk]
      exact ih _
    · exact ih _

/-- C93: for a material of tolerance at least a thousandth, physical environments of total flux below 2·10^16 and solar activity at most
one, every call is defined, at any time and in any state. -/
theorem C93_defined_partial (m : Multi) (now : ℤ) (e : PEnv) (tol : ℚ) (ht : 1 / 1000 ≤ tol) (hp : Physical e)
    (hf : e.proton + e.electron < 2 * 10 ^ 16) (hs : e.solar ≤ 1) : ∃ r, m.update now e tol = .ok r := by
  obtain ⟨p1, p2, p3, p4⟩ := hp
  have q1 : (0 : ℝ) ≤ (e.proton : ℝ) := by exact_mod_cast p1
  have q2 : (0 : ℝ) ≤ (e.electron : ℝ) := by exact_mod_cast p2
  have q3 : (0 : ℝ) ≤ (e.solar : ℝ) := by exact_mod_cast p3
  have q4 : (e.solar : ℝ) ≤ 1 := by exact_mod_cast hs
  have q5 : (e.proton : ℝ) + (e.electron : ℝ) < 2 * 10 ^ 16 := by exact_mod_cast hf
  have q6 : (1 : ℝ) / 1000 ≤ (tol : ℝ) := by
    have : ((1 / 1000 : ℚ) : ℝ) ≤ (tol : ℝ) := by exact_mod_cast ht
    simpa using this
  refine loop_defined now e tol _ ?_ _
  have hmin : ∀ x : ℝ, 0 ≤ x → x < 2 ^ 31 → ∃ k, ((castInt x).bind fun k => .ok (min 10 k)) = .ok k := by
    intro x h0 h1
    obtain ⟨k, hk⟩ := castInt_defined x h0 h1
    rw [hk]
    exact ⟨_, rfl⟩
  intro s
  fin_cases s
  · refine castInt_defined _ (by positivity) ?_
    rw [div_lt_iff₀ (by norm_num)]
    have : (2 * 10 ^ 16 : ℝ) ≤ 2 ^ 31 * 10 ^ 7 := by norm_num
    linarith
  · exact ⟨_, rfl⟩
  · simp only [scaleState]
    split_ifs
    · exact ⟨_, rfl⟩
    · exact ⟨_, rfl⟩
    · exact ⟨_, rfl⟩
    · refine hmin _ (by positivity) ?_
      have h1 : ((e.proton : ℝ) + e.electron) / 10 ^ 8 < 2 * 10 ^ 8 := by
        rw [div_lt_iff₀ (by norm_num)]; linarith
      have : (2 * 10 ^ 8 * 10 : ℝ) < 2 ^ 31 := by norm_num
      linarith
  · simp only [scaleState]
    have htol : tol ≠ 0 := by rintro rfl; norm_num at ht
    rw [if_neg htol]
    have h1 := tf_pos e p4
    have h2 := tf_lt e p4
    have h3 : (0 : ℝ) < (tol : ℝ) / 100 := by linarith
    refine hmin _ (by positivity) ?_
    rw [div_lt_iff₀ h3]
    have : (1 : ℝ) / 100000 ≤ (tol : ℝ) / 100 := by linarith
    have : (2 : ℝ) ^ 31 * (1 / 100000) ≤ 2 ^ 31 * ((tol : ℝ) / 100) := mul_le_mul_of_nonneg_left this (by norm_num)
    have h4 : (40 : ℝ) < 2 ^ 31 * (1 / 100000) := by norm_num
    linarith
  · refine hmin _ (by positivity) ?_
    have : (10 : ℝ) < 2 ^ 31 := by norm_num
    linarith

example : Physical ⟨⟨5000000000, 0, true, 1⟩, 310, 350⟩ ∧ (1 : ℚ) / 1000 ≤ 50 := by
  constructor
  · simp [Physical, PEnv.temp]; norm_num
  · norm_num

/-- C93 (negation): for a material of tolerance 0 the first call an hour after construction is undefined (the health metric is infinite
when converted), and a proton flux of 3·10^16 makes a call undefined after a millisecond. -/
theorem C93_undefined_violated :
    (∀ (e : PEnv) (now : ℤ), Physical e → e.proton + e.electron < 2 * 10 ^ 16 → period 3 ≤ now → (Multi.new 0).update now e 0 = .ub) ∧
    (∀ (e : PEnv) (now : ℤ) (tol : ℚ), 3 * 10 ^ 16 ≤ e.proton → period 0 ≤ now → (Multi.new 0).update now e tol = .ub) := by
  refine ⟨?_, ?_⟩
  · intro e now hp hf hn
    cases hu : (Multi.new 0).update now e 0 with
    | ub => rfl
    | ok r =>
      exfalso
      have hd : Due (Multi.new 0) now 3 := by simpa [Due, Multi.new] using hn
      have := ((C93_update _ r.1 now e 0 r.2 hu).1 3 hd).2
      simp [scaleState] at this
  · intro e now tol hf hn
    cases hu : (Multi.new 0).update now e tol with
    | ub => rfl
    | ok r =>
      exfalso
      have hd : Due (Multi.new 0) now 0 := by simpa [Due, Multi.new] using hn
      have h1 := ((C93_update _ r.1 now e tol r.2 hu).1 0 hd).2
      have q1 : (3 * 10 ^ 16 : ℝ) ≤ (e.proton : ℝ) := by exact_mod_cast hf
      simp only [scaleState] at h1
      rw [castInt, if_neg] at h1
      · simp at h1
      · rintro ⟨_, h2⟩
        rw [div_lt_iff₀ (by norm_num)] at h2
        have : (2 ^ 31 * 10 ^ 7 : ℝ) < 3 * 10 ^ 16 := by norm_num
        linarith

example : period 3 ≤ 3600000000000 := by decide

end Verif.Props.PhysP
