import Verif.Model.Benchmark
import Verif.Props.MonitoredTmr
import Verif.Props.HealthTmr
import Mathlib.Tactic.Linarith
import Mathlib.Tactic.NormNum
import Mathlib.Tactic.FieldSimp
import Mathlib.Algebra.BigOperators.Group.List.Basic
import Mathlib.Data.String.Basic
/-!
Properties C256–C261: the benchmark framework.
-/
namespace Verif.Props.BenchP
open Verif Verif.Bench

variable {α σ : Type}

/-! ### Loops -/

theorem foldO_inv {β ι : Type} (f : β → ι → Outcome β) (P : ℕ → β → Prop) (hs : ∀ n b x b', P n b → f b x = .ok b' → P (n + 1) b') :
    ∀ (xs : List ι) (n : ℕ) (b r : β), P n b → foldO f b xs = .ok r → P (n + xs.length) r
  | [], n, b, r, hb, h => by
    simp only [foldO, Outcome.ok.injEq] at h
    subst h; exact hb
  | x :: xs, n, b, r, hb, h => by
    simp only [foldO] at h
    cases hf : f b x with
    | ub => rw [hf] at h; exact absurd h (by simp [Outcome.bind])
    | ok b' =>
      rw [hf] at h
      have := foldO_inv f P hs xs (n + 1) b' r (hs n b x b' hb hf) h
      rw [List.length_cons, show n + (xs.length + 1) = n + 1 + xs.length by omega]
      exact this

theorem foldO_ok {β ι : Type} (f : β → ι → Outcome β) (P : β → Prop) (hs : ∀ b x, P b → ∃ b', f b x = .ok b' ∧ P b') :
    ∀ (xs : List ι) (b : β), P b → ∃ r, foldO f b xs = .ok r ∧ P r
  | [], b, hb => ⟨b, rfl, hb⟩
  | x :: xs, b, hb => by
    obtain ⟨b', h1, h2⟩ := hs b x hb
    obtain ⟨r, h3, h4⟩ := foldO_ok f P hs xs b' h2
    exact ⟨r, by simp only [foldO, h1]; exact h3, h4⟩

theorem bind_ok {β γ : Type} {x : Outcome β} {f : β → Outcome γ} {c : γ} (h : x.bind f = .ok c) : ∃ b, x = .ok b ∧ f b = .ok c := by
  cases x with
  | ub => exact absurd h (by simp [Outcome.bind])
  | ok b => exact ⟨b, rfl, h⟩

/-! ### C256: counting -/

theorem examine_counts [LinearOrder α] (k : Kit α) (t₁ t₂ : Int × ℚ) (o cur : α) (c : Cell α) :
    (examine k t₁ t₂ o cur c).2.1 ≤ (examine k t₁ t₂ o cur c).1 ∧ (examine k t₁ t₂ o cur c).1 ≤ 1 := by
  unfold examine
  split
  · exact ⟨le_refl _, Nat.zero_le _⟩
  · cases c <;> dsimp only <;> (repeat' split) <;> simp

theorem scan_counts [LinearOrder α] (k : Kit α) (clock : ℕ → (Int × ℚ) × (Int × ℚ)) :
    ∀ (ps : List (Cell α)) (i : ℕ) (os cs : List α) (r : ℕ × ℕ × List α × List (Cell α)), scan k clock i os cs ps = .ok r →
      r.2.1 ≤ r.1 ∧ r.1 ≤ ps.length ∧ r.2.2.1.length = cs.length ∧ r.2.2.2.length = ps.length
  | [], i, os, cs, r, h => by
    simp only [scan, Outcome.ok.injEq] at h
    subst h; exact ⟨le_refl _, Nat.zero_le _, rfl, rfl⟩
  | p :: ps, i, [], cs, r, h => by simp [scan] at h
  | p :: ps, i, o :: os, [], r, h => by simp [scan] at h
  | p :: ps, i, o :: os, c :: cs, r, h => by
    simp only [scan] at h
    obtain ⟨q, h1, h2⟩ := bind_ok h
    obtain ⟨a1, a2, a3, a4⟩ := scan_counts k clock ps (i + 1) os cs q h1
    simp only [Outcome.ok.injEq] at h2
    subst h2
    obtain ⟨b1, b2⟩ := examine_counts k (clock i).1 (clock i).2 o c p
    refine ⟨?_, ?_, ?_, ?_⟩
    · dsimp only; omega
    · dsimp only; rw [List.length_cons]; omega
    · dsimp only; rw [List.length_cons, List.length_cons, a3]
    · dsimp only; rw [List.length_cons, List.length_cons, a4]

theorem scan_ok_iff [LinearOrder α] (k : Kit α) (clock : ℕ → (Int × ℚ) × (Int × ℚ)) :
    ∀ (ps : List (Cell α)) (i : ℕ) (os cs : List α), os.length = cs.length → ((∃ r, scan k clock i os cs ps = .ok r) ↔ ps.length ≤ os.length)
  | [], i, os, cs, h => ⟨fun _ => Nat.zero_le _, fun _ => ⟨(0, 0, cs, []), by simp [scan]⟩⟩
  | p :: ps, i, [], cs, h => by simp [scan]
  | p :: ps, i, o :: os, [], h => by simp at h
  | p :: ps, i, o :: os, c :: cs, h => by
    have ih := scan_ok_iff k clock ps (i + 1) os cs (by simpa using h)
    simp only [scan, List.length_cons, Nat.add_le_add_iff_right, ← ih]
    constructor
    · rintro ⟨r, hr⟩
      obtain ⟨q, h1, _⟩ := bind_ok hr
      exact ⟨q, h1⟩
    · rintro ⟨r, hr⟩
      rw [hr]; exact ⟨_, rfl⟩

/-- The sum over the ten intervals of a component of the interval counters. -/
def sumIv (f : ℕ × ℕ × ℕ → ℕ) (iv : ℕ → ℕ × ℕ × ℕ) : ℕ := ((List.range 10).map fun j => f (iv j)).sum

theorem sumIv_update (f : ℕ × ℕ × ℕ → ℕ) (iv : ℕ → ℕ × ℕ × ℕ) (j : ℕ) (hj : j < 10) (v : ℕ × ℕ × ℕ) (d : ℕ) (hv : f v = f (iv j) + d) :
    sumIv f (Function.update iv j v) = sumIv f iv + d := by
  unfold sumIv
  have : ∀ m, ((List.range m).map fun i => f (Function.update iv j v i)).sum = ((List.range m).map fun i => f (iv i)).sum + if j < m then d else 0 := by
    intro m
    induction m with
    | zero => simp
    | succ m ih =>
      rw [List.range_succ, List.map_append, List.map_append, List.sum_append, List.sum_append, ih]
      simp only [List.map_cons, List.map_nil, List.sum_cons, List.sum_nil, add_zero]
      by_cases hm : m = j
      · subst hm
        rw [Function.update_self, hv, if_neg (lt_irrefl _), if_pos (Nat.lt_succ_self _)]; omega
      · rw [Function.update_of_ne hm]
        by_cases h2 : j < m
        · rw [if_pos h2, if_pos (by omega)]; omega
        · rw [if_neg h2, if_neg (by omega)]; omega
  rw [this, if_pos hj]

/-- What the counters satisfy after `m` intervals. -/
structure Counted (cells : ℕ) (m : ℕ) (a : Acc σ α) : Prop where
  le : a.corrected ≤ a.detected
  bound : a.detected ≤ m * cells
  size : a.cells.length = cells
  ivle : ∀ j, (a.iv j).2.2 ≤ (a.iv j).2.1
  tot : a.total = sumIv (·.1) a.iv
  det : a.detected = sumIv (·.2.1) a.iv
  cor : a.corrected = sumIv (·.2.2) a.iv

theorem counted_interval [LinearOrder α] (k : Kit α) (S : Sim σ α) (ms : ℤ) (clock : ℕ → ℕ → (Int × ℚ) × (Int × ℚ)) (orig : List α) (c m : ℕ)
    (x y : Acc σ α × List α) (j : ℕ) (hj : j < 10) (hx : Counted c m x.1) (h : interval k S ms clock orig x j = .ok y) : Counted c (m + 1) y.1 := by
  simp only [interval] at h
  obtain ⟨r, h1, h2⟩ := bind_ok h
  simp only [Outcome.ok.injEq] at h2
  subst h2
  obtain ⟨a1, a2, a3, a4⟩ := scan_counts k _ _ _ _ _ _ h1
  rw [hx.size] at a2 a4
  have := hx.le
  have := hx.bound
  refine ⟨?_, ?_, a4, ?_, ?_, ?_, ?_⟩
  · dsimp only; omega
  · dsimp only; rw [Nat.succ_mul]; omega
  · intro i
    by_cases hi : i = j
    · subst hi
      have := hx.ivle i
      dsimp only; rw [Function.update_self]; dsimp only; omega
    · dsimp only; rw [Function.update_of_ne hi]; exact hx.ivle i
  · dsimp only; rw [sumIv_update (·.1) _ _ hj _ _ rfl, ← hx.tot]
  · dsimp only; rw [sumIv_update (·.2.1) _ _ hj _ _ rfl, ← hx.det]
  · dsimp only; rw [sumIv_update (·.2.2) _ _ hj _ _ rfl, ← hx.cor]

theorem foldO_inv_mem {β ι : Type} (f : β → ι → Outcome β) (P : ℕ → β → Prop) :
    ∀ (xs : List ι) (n : ℕ) (b r : β), (∀ n b x b', x ∈ xs → P n b → f b x = .ok b' → P (n + 1) b') → P n b → foldO f b xs = .ok r → P (n + xs.length) r
  | [], n, b, r, _, hb, h => by
    simp only [foldO, Outcome.ok.injEq] at h
    subst h; exact hb
  | x :: xs, n, b, r, hs, hb, h => by
    simp only [foldO] at h
    obtain ⟨b', hf, h⟩ := bind_ok h
    have := foldO_inv_mem f P xs (n + 1) b' r (fun n b x b' hx => hs n b x b' (List.mem_cons_of_mem _ hx)) (hs n b x b' (List.mem_cons_self ..) hb hf) h
    rw [List.length_cons, show n + (xs.length + 1) = n + 1 + xs.length by omega]
    exact this

theorem counted_iteration [LinearOrder α] (k : Kit α) (S : Sim σ α) (ms : ℤ) (clock : ℕ → ℕ → ℕ → (Int × ℚ) × (Int × ℚ)) (orig : List α) (c m : ℕ)
    (a b : Acc σ α) (n : ℕ) (ha : Counted c m a) (h : iteration k S ms clock orig a n = .ok b) : Counted c (m + 10) b := by
  simp only [iteration] at h
  obtain ⟨y, h1, h2⟩ := bind_ok h
  simp only [Outcome.ok.injEq] at h2
  subst h2
  have := foldO_inv_mem (interval k S ms (clock n) orig) (fun m (x : Acc σ α × List α) => Counted c m x.1) (List.range 10) m (a, orig) y
    (fun m x j y hj hx h => counted_interval k S ms (clock n) orig c m x y j (List.mem_range.mp hj) hx h) ha h1
  rwa [List.length_range] at this

theorem counted_loop [LinearOrder α] (k : Kit α) (S : Sim σ α) (clock : ℕ → ℕ → ℕ → (Int × ℚ) × (Int × ℚ)) (sc : Scenario) (orig : List α)
    (cells : List (Cell α)) (st : σ) (a : Acc σ α) (h : loop k S clock sc orig cells st = .ok a) : Counted cells.length (10 * sc.iterations) a := by
  have h0 : Counted cells.length 0 ({ cells := cells, sim := st } : Acc σ α) :=
    ⟨le_refl _, Nat.zero_le _, rfl, fun _ => le_refl _, rfl, rfl, rfl⟩
  unfold loop at h
  split at h
  · rename_i hz
    simp only [Outcome.ok.injEq] at h
    subst h; rw [hz]; exact h0
  · obtain ⟨ms, _, h⟩ := bind_ok h
    have := foldO_inv (iteration k S ms clock orig) (fun n a => Counted cells.length (10 * n) a)
      (fun n b x b' hb hf => counted_iteration k S ms clock orig _ _ b b' x hb hf) (List.range sc.iterations) 0 _ a h0 h
    rwa [List.length_range, zero_add] at this

/-- **C256.** For every simulator, scenario, data and list of elements a benchmark that ends counts consistently: corrections never exceed detections, detections never
exceed ten for each iteration and element, totals are the sums over the ten intervals, both series have ten points; with at least one error the rates are the
counted shares of the errors and the undetected share is the rest to 1; without an error they are 1, 1 and 0. -/
theorem C256_counts [LinearOrder α] (k : Kit α) (S : Sim σ α) (clock : ℕ → ℕ → ℕ → (Int × ℚ) × (Int × ℚ)) (sc : Scenario) (orig : List α)
    (cells : List (Cell α)) (st : σ) (a : Acc σ α) (h : loop k S clock sc orig cells st = .ok a) :
    (reliability sc a).corrected ≤ (reliability sc a).detected ∧ (reliability sc a).detected ≤ 10 * sc.iterations * cells.length ∧
    (reliability sc a).total = ((List.range 10).map fun j => (a.iv j).1).sum ∧ (reliability sc a).detected = ((List.range 10).map fun j => (a.iv j).2.1).sum ∧
    (reliability sc a).corrected = ((List.range 10).map fun j => (a.iv j).2.2).sum ∧
    (reliability sc a).errorSeries.length = 10 ∧ (reliability sc a).correctionSeries.length = 10 ∧
    (∀ x ∈ (reliability sc a).correctionSeries, 0 ≤ x ∧ x ≤ 1) ∧
    (0 < (reliability sc a).total → (reliability sc a).detectionRate * (reliability sc a).total = (reliability sc a).detected ∧
      (reliability sc a).correctionRate * (reliability sc a).total = (reliability sc a).corrected ∧
      (reliability sc a).detectionRate + (reliability sc a).sdcRate = 1 ∧ (reliability sc a).mttf * (reliability sc a).total = sc.duration) ∧
    ((reliability sc a).total = 0 → (reliability sc a).detectionRate = 1 ∧ (reliability sc a).correctionRate = 1 ∧ (reliability sc a).sdcRate = 0) := by
  have hc := counted_loop k S clock sc orig cells st a h
  refine ⟨hc.le, hc.bound, hc.tot, hc.det, hc.cor, by simp [reliability], by simp [reliability], ?_, ?_, ?_⟩
  · intro x hx
    simp only [reliability, List.mem_map] at hx
    obtain ⟨i, _, rfl⟩ := hx
    split
    · rename_i hp
      have h1 : ((a.iv i).2.2 : ℝ) ≤ (a.iv i).2.1 := by exact_mod_cast hc.ivle i
      have h2 : (0 : ℝ) < (a.iv i).2.1 := by exact_mod_cast hp
      exact ⟨by positivity, (div_le_one h2).mpr h1⟩
    · norm_num
  · intro ht
    have ht' : a.total > 0 := ht
    have h2 : (a.total : ℝ) ≠ 0 := by exact_mod_cast ht'.ne'
    simp only [reliability, if_pos ht']
    exact ⟨div_mul_cancel₀ _ h2, div_mul_cancel₀ _ h2, by ring, div_mul_cancel₀ _ h2⟩
  · intro ht
    have ht' : ¬ a.total > 0 := by have : a.total = 0 := ht; omega
    simp only [reliability, if_neg ht']
    simp

/-- **C256 (definedness).** A benchmark is defined exactly if nothing is iterated, or the milliseconds of an interval fit into an `int` and there are no more
elements than bytes. -/
theorem C256_defined [LinearOrder α] (k : Kit α) (S : Sim σ α) (clock : ℕ → ℕ → ℕ → (Int × ℚ) × (Int × ℚ)) (sc : Scenario) (orig : List α)
    (cells : List (Cell α)) (st : σ) :
    (∃ a, loop k S clock sc orig cells st = .ok a) ↔
      sc.iterations = 0 ∨ ((-(2 ^ 31) - 1 < sc.duration * 100 ∧ sc.duration * 100 < 2 ^ 31) ∧ cells.length ≤ orig.length) := by
  have hd : sc.duration / 10 * 1000 = sc.duration * 100 := by ring
  unfold loop
  by_cases hz : sc.iterations = 0
  · rw [if_pos hz]; exact ⟨fun _ => Or.inl hz, fun _ => ⟨_, rfl⟩⟩
  · rw [if_neg hz]
    unfold intervalMs Phys.castInt
    rw [hd]
    by_cases hr : -(2 ^ 31) - 1 < sc.duration * 100 ∧ sc.duration * 100 < 2 ^ 31
    · rw [if_pos hr]
      simp only [Outcome.bind]
      generalize (if 0 ≤ sc.duration * 100 then ⌊sc.duration * 100⌋ else ⌈sc.duration * 100⌉) = ms
      constructor
      · rintro ⟨a, h⟩
        refine Or.inr ⟨hr, ?_⟩
        obtain ⟨n, hn⟩ : ∃ n, sc.iterations = n + 1 := ⟨sc.iterations - 1, by omega⟩
        rw [hn, List.range_succ_eq_map] at h
        simp only [foldO] at h
        obtain ⟨b, h1, _⟩ := bind_ok h
        simp only [iteration] at h1
        obtain ⟨y, h2, _⟩ := bind_ok h1
        rw [show List.range 10 = 0 :: [1, 2, 3, 4, 5, 6, 7, 8, 9] from rfl] at h2
        simp only [foldO] at h2
        obtain ⟨z, h3, _⟩ := bind_ok h2
        simp only [interval] at h3
        obtain ⟨r, h4, _⟩ := bind_ok h3
        exact (scan_ok_iff k _ _ _ _ _ (S.keeps _ _ _).symm).mp ⟨r, h4⟩
      · rintro (h | ⟨_, hl⟩)
        · exact absurd h hz
        · have hI : ∀ (n : ℕ) (x : Acc σ α × List α) (j : ℕ), (x.1.cells.length ≤ orig.length ∧ x.2.length = orig.length) →
              ∃ y, interval k S ms (clock n) orig x j = .ok y ∧ (y.1.cells.length ≤ orig.length ∧ y.2.length = orig.length) := by
            rintro n x j ⟨hx1, hx2⟩
            have hk : orig.length = (S.hit x.1.sim x.2 ms).2.1.length := by rw [S.keeps, hx2]
            obtain ⟨r, hr⟩ := (scan_ok_iff k (clock n j) x.1.cells 0 orig _ hk).mpr hx1
            obtain ⟨_, _, a3, a4⟩ := scan_counts k _ _ _ _ _ _ hr
            refine ⟨_, by simp only [interval, hr]; rfl, ?_, ?_⟩
            · dsimp only; omega
            · dsimp only; rw [a3, ← hk]
          have hJ : ∀ (a : Acc σ α) (n : ℕ), a.cells.length ≤ orig.length →
              ∃ b, iteration k S ms clock orig a n = .ok b ∧ b.cells.length ≤ orig.length := by
            intro a n ha
            obtain ⟨y, h1, h2, _⟩ := foldO_ok (interval k S ms (clock n) orig) _ (hI n) (List.range 10) (a, orig) ⟨ha, rfl⟩
            refine ⟨y.1, ?_, h2⟩
            simp only [iteration, h1]; rfl
          obtain ⟨r, h1, _⟩ := foldO_ok (iteration k S ms clock orig) _ hJ (List.range sc.iterations) { cells := cells, sim := st } hl
          exact ⟨r, h1⟩
    · rw [if_neg hr]
      simp only [Outcome.bind]
      constructor
      · rintro ⟨a, h⟩; exact absurd h (by simp)
      · rintro (h | ⟨h, _⟩)
        · exact absurd h hz
        · exact absurd h hr

/-- A simulator that reports no event and changes nothing. -/
def idle : Sim Unit (Fin 256) := ⟨fun s d _ => (0, d, s), fun _ _ _ => rfl⟩

example : ∃ a, loop (byteKit fun _ => 0) idle (fun _ _ _ => ((0, 0), (0, 0))) ⟨"LEO", 3, 60, 5, 2, false, true, false⟩ [1, 2] [.other, .other] () = .ok a :=
  (C256_defined _ _ _ _ _ _ _).mpr (Or.inr ⟨by norm_num, le_refl _⟩)

/-- **C256, violated.** The mean time to failure is the duration of one iteration over the errors of all of them: the same rate of errors gives a time that shrinks with
the number of iterations, without bound. And a duration under 10 ms simulates nothing at all. -/
theorem C256_time_violated (sc : Scenario) (a : Acc σ α) (e : ℕ) (he : 0 < e) (hn : 0 < sc.iterations) (ht : a.total = e * sc.iterations) :
    (reliability sc a).mttf = sc.duration / e / sc.iterations ∧
    (0 ≤ sc.duration → sc.duration < 1 / 100 → intervalMs sc = .ok 0) := by
  constructor
  · have : a.total > 0 := by rw [ht]; positivity
    simp only [reliability, if_pos this]
    rw [ht]
    push_cast
    rw [div_div]
  · intro h0 h1
    unfold intervalMs Phys.castInt
    have h2 : 0 ≤ sc.duration / 10 * 1000 := by positivity
    have h3 : sc.duration / 10 * 1000 < 1 := by linarith
    rw [if_pos ⟨by linarith, by linarith⟩, if_pos h2]
    congr 1
    exact Int.floor_eq_zero_iff.mpr ⟨h2, h3⟩

example : (0 : ℕ) < 3 ∧ (15 : ℕ) = 3 * 5 := by decide

/-! ### C257: detection -/

/-- The element reads as `o`, by the values of its copies. -/
def Reads (o : α) : Cell α → Prop
  | .enhanced s => s.c0.val = o ∧ s.c1.val = o ∧ s.c2.val = o
  | .health s => s.c0.val = o ∧ s.c1.val = o ∧ s.c2.val = o
  | .approx _ => False
  | .other => True

theorem enhanced_get [LinearOrder α] (crc : α → BitVec 32) (s : MTmr.State α) (o : α) (h : s.c0.val = o ∧ s.c1.val = o ∧ s.c2.val = o) (now : Int) (r : ℚ) :
    (MTmr.get same crc s now r).1 = o ∧ Reads o (.enhanced (MTmr.get same crc s now r).2) := by
  have hv : MTmrP.vals s = fun _ => o := by
    funext j
    match j with
    | 0 => exact h.1
    | 1 => exact h.2.1
    | 2 => exact h.2.2
  have hg := MTmrP.vals_get (same (α := α)) crc s now r
  rw [hv] at hg
  refine ⟨?_, congrFun hg 0, congrFun hg 1, congrFun hg 2⟩
  unfold MTmr.get
  dsimp only
  have hq : ∀ t : MTmr.State α, MTmrP.vals t = (fun _ => o) → (MTmr.vote same t r).1 = o := by
    intro t ht
    exact MTmrP.vote_majority t r o 0 1 (by decide) (congrFun ht 0) (congrFun ht 1)
  split
  · refine hq _ ?_
    have := MTmrP.vals_verify crc s
    rw [hv] at this
    exact this
  · exact hq _ hv

theorem health_get [LinearOrder α] (crc : α → BitVec 32) (s : HTmr.State α) (o : α) (h : s.c0.val = o ∧ s.c1.val = o ∧ s.c2.val = o) :
    (HTmr.get crc s).1 = o ∧ Reads o (.health (HTmr.get crc s).2) := by
  have hp0 := penalised_val crc s 0
  have hp1 := penalised_val crc s 1
  have hp2 := penalised_val crc s 2
  simp only [HTmr.State.at] at hp0 hp1 hp2
  rw [h.1] at hp0; rw [h.2.1] at hp1; rw [h.2.2] at hp2
  unfold HTmr.get
  dsimp only
  split
  · unfold HTmr.performWeightedVoting
    rw [if_pos ⟨hp0.trans hp1.symm, hp1.trans hp2.symm⟩]
    exact ⟨hp0, ((update_val _ _).1.trans hp0), ((update_val _ _).1.trans hp1), ((update_val _ _).1.trans hp2)⟩
  · split
    · exact ⟨h.1, hp0, hp1, hp2⟩
    · split
      · exact ⟨h.2.1, hp0, hp1, hp2⟩
      · split
        · exact ⟨h.2.2, hp0, hp1, hp2⟩
        · generalize HTmr.bestIndex (HTmr.penalised crc s) = b
          match b with
          | 0 => exact ⟨hp0, hp0, hp1, hp2⟩
          | 1 => exact ⟨hp1, hp0, hp1, hp2⟩
          | 2 => exact ⟨hp2, hp0, hp1, hp2⟩

theorem examine_reads [LinearOrder α] (k : Kit α) (t₁ t₂ : Int × ℚ) (o cur : α) (c : Cell α) (h : Reads o c) :
    ∃ c', examine k t₁ t₂ o cur c = (0, 0, cur, c') ∧ Reads o c' := by
  unfold examine
  split
  · exact ⟨c, rfl, h⟩
  · cases c with
    | enhanced s =>
      obtain ⟨h1, h2⟩ := enhanced_get k.crc s o h t₁.1 t₁.2
      dsimp only
      rw [if_pos h1]
      exact ⟨_, rfl, h2⟩
    | health s =>
      obtain ⟨h1, h2⟩ := health_get k.crc s o h
      dsimp only
      rw [if_pos h1]
      exact ⟨_, rfl, h2⟩
    | approx s => exact h.elim
    | other => exact ⟨_, rfl, trivial⟩

theorem scan_reads [LinearOrder α] (k : Kit α) (clock : ℕ → (Int × ℚ) × (Int × ℚ)) :
    ∀ (ps : List (Cell α)) (i : ℕ) (os cs : List α), os.length = cs.length → ps.length ≤ os.length → List.Forall₂ Reads (os.take ps.length) ps →
      ∃ ps', scan k clock i os cs ps = .ok (0, 0, cs, ps') ∧ ps'.length = ps.length ∧ List.Forall₂ Reads (os.take ps.length) ps'
  | [], i, os, cs, _, _, _ => ⟨[], by simp [scan], rfl, by simp⟩
  | p :: ps, i, [], cs, _, h, _ => by simp at h
  | p :: ps, i, o :: os, [], h, _, _ => by simp at h
  | p :: ps, i, o :: os, c :: cs, h, hl, hr => by
    rw [List.length_cons, List.take_succ_cons, List.forall₂_cons] at hr
    obtain ⟨ps', h1, h2, h3⟩ := scan_reads k clock ps (i + 1) os cs (by simpa using h) (by simpa using hl) hr.2
    obtain ⟨c', h4, h5⟩ := examine_reads k (clock i).1 (clock i).2 o c p hr.1
    refine ⟨c' :: ps', ?_, by simp [h2], ?_⟩
    · simp only [scan, h1, h4]; rfl
    · rw [List.length_cons, List.take_succ_cons, List.forall₂_cons]; exact ⟨h5, h3⟩

/-- What stays true of a benchmark of elements that read as the original: nothing is detected, and errors and simulator are those of a run without elements. -/
structure Blind (orig : List α) (n : ℕ) (a b : Acc σ α) : Prop where
  det : a.detected = 0 ∧ a.corrected = 0
  detB : b.detected = 0 ∧ b.corrected = 0
  tot : a.total = b.total
  sim : a.sim = b.sim
  iv : a.iv = b.iv
  none : ∀ j, (a.iv j).2 = (0, 0)
  size : a.cells.length = n
  reads : List.Forall₂ Reads (orig.take n) a.cells
  bare : b.cells = []

theorem blind_interval [LinearOrder α] (k : Kit α) (S : Sim σ α) (ms : ℤ) (clock : ℕ → ℕ → (Int × ℚ) × (Int × ℚ)) (orig : List α) (n : ℕ) (hn : n ≤ orig.length)
    (a b : Acc σ α) (cur : List α) (hc : cur.length = orig.length) (h : Blind orig n a b) (j : ℕ) :
    ∃ a' b' cur', interval k S ms clock orig (a, cur) j = .ok (a', cur') ∧ interval k S ms clock orig (b, cur) j = .ok (b', cur') ∧
      Blind orig n a' b' ∧ cur'.length = orig.length := by
  have hk : orig.length = (S.hit a.sim cur ms).2.1.length := by rw [S.keeps, hc]
  obtain ⟨ps', h1, h2, h3⟩ := scan_reads k (clock j) a.cells 0 orig _ hk (by rw [h.size]; exact hn) (by rw [h.size]; exact h.reads)
  have e1 : interval k S ms clock orig (a, cur) j = .ok (⟨a.total + (S.hit a.sim cur ms).1, a.detected + 0, a.corrected + 0,
      Function.update a.iv j ((a.iv j).1 + (S.hit a.sim cur ms).1, (a.iv j).2.1 + 0, (a.iv j).2.2 + 0), ps', (S.hit a.sim cur ms).2.2⟩, (S.hit a.sim cur ms).2.1) := by
    simp only [interval, h1]; rfl
  have e2 : interval k S ms clock orig (b, cur) j = .ok (⟨b.total + (S.hit a.sim cur ms).1, b.detected + 0, b.corrected + 0,
      Function.update b.iv j ((b.iv j).1 + (S.hit a.sim cur ms).1, (b.iv j).2.1 + 0, (b.iv j).2.2 + 0), [], (S.hit a.sim cur ms).2.2⟩, (S.hit a.sim cur ms).2.1) := by
    simp only [interval, h.bare, scan, ← h.sim]; rfl
  refine ⟨_, _, _, e1, e2, ?_, hk.symm⟩
  refine ⟨⟨h.det.1, h.det.2⟩, ⟨h.detB.1, h.detB.2⟩, ?_, rfl, ?_, ?_, by rw [h2]; exact h.size, ?_, rfl⟩
  · dsimp only; rw [h.tot]
  · dsimp only; rw [h.iv]
  · intro i
    by_cases hi : i = j
    · subst hi
      have := h.none i
      dsimp only
      rw [Function.update_self]
      rw [Prod.ext_iff] at this
      simp only [this.1, this.2, add_zero]
    · dsimp only
      rw [Function.update_of_ne hi]; exact h.none i
  · rw [h.size] at h3; exact h3

theorem blind_fold [LinearOrder α] (k : Kit α) (S : Sim σ α) (ms : ℤ) (clock : ℕ → ℕ → (Int × ℚ) × (Int × ℚ)) (orig : List α) (n : ℕ) (hn : n ≤ orig.length) :
    ∀ (js : List ℕ) (a b : Acc σ α) (cur : List α), cur.length = orig.length → Blind orig n a b →
      ∃ a' b' cur', foldO (interval k S ms clock orig) (a, cur) js = .ok (a', cur') ∧ foldO (interval k S ms clock orig) (b, cur) js = .ok (b', cur') ∧
        Blind orig n a' b'
  | [], a, b, cur, _, h => ⟨a, b, cur, rfl, rfl, h⟩
  | j :: js, a, b, cur, hc, h => by
    obtain ⟨a1, b1, c1, h1, h2, h3, h4⟩ := blind_interval k S ms clock orig n hn a b cur hc h j
    obtain ⟨a2, b2, c2, h5, h6, h7⟩ := blind_fold k S ms clock orig n hn js a1 b1 c1 h4 h3
    exact ⟨a2, b2, c2, by simp only [foldO, h1]; exact h5, by simp only [foldO, h2]; exact h6, h7⟩

theorem blind_run [LinearOrder α] (k : Kit α) (S : Sim σ α) (ms : ℤ) (clock : ℕ → ℕ → ℕ → (Int × ℚ) × (Int × ℚ)) (orig : List α) (n : ℕ)
    (hn : n ≤ orig.length) :
    ∀ (is : List ℕ) (a b : Acc σ α), Blind orig n a b →
      ∃ a' b', foldO (iteration k S ms clock orig) a is = .ok a' ∧ foldO (iteration k S ms clock orig) b is = .ok b' ∧ Blind orig n a' b'
  | [], a, b, h => ⟨a, b, rfl, rfl, h⟩
  | i :: is, a, b, h => by
    obtain ⟨a1, b1, c1, h1, h2, h3⟩ := blind_fold k S ms (clock i) orig n hn (List.range 10) a b orig rfl h
    obtain ⟨a2, b2, h4, h5, h6⟩ := blind_run k S ms clock orig n hn is a1 b1 h3
    refine ⟨a2, b2, ?_, ?_, h6⟩
    · simp only [foldO, iteration, h1]; exact h4
    · simp only [foldO, iteration, h2]; exact h5

/-- **C257, violated.** The exposure hits a plain copy of the data, never the protected elements. Whatever the simulator does, elements of `EnhancedTMR` or
`HealthWeightedTMR` (or unprotected bytes) that hold their data detect nothing and correct nothing: with one error or more the detection rate is 0 and the
"silent data corruption" 1, and all reliability metrics are those of a run with no protection at all. -/
theorem C257_detection_violated [LinearOrder α] (k : Kit α) (S : Sim σ α) (clock : ℕ → ℕ → ℕ → (Int × ℚ) × (Int × ℚ)) (sc : Scenario) (orig : List α)
    (cells : List (Cell α)) (st : σ) (hc : List.Forall₂ Reads orig cells) (a : Acc σ α) (h : loop k S clock sc orig cells st = .ok a) :
    (reliability sc a).detected = 0 ∧ (reliability sc a).corrected = 0 ∧
    (0 < (reliability sc a).total → (reliability sc a).detectionRate = 0 ∧ (reliability sc a).sdcRate = 1) ∧
    ∃ b, loop k S clock sc orig [] st = .ok b ∧ b.sim = a.sim ∧ reliability sc b = reliability sc a := by
  have hl := hc.length_eq
  have h0 : Blind orig cells.length ({ cells := cells, sim := st } : Acc σ α) { cells := [], sim := st } :=
    ⟨⟨rfl, rfl⟩, ⟨rfl, rfl⟩, rfl, rfl, rfl, fun _ => rfl, rfl, by rw [← hl, List.take_length]; exact hc, rfl⟩
  obtain ⟨b, hb, hB⟩ : ∃ b, loop k S clock sc orig [] st = .ok b ∧ Blind orig cells.length a b := by
    unfold loop at h ⊢
    split at h
    · rename_i hz
      simp only [Outcome.ok.injEq] at h
      subst h
      rw [if_pos hz]; exact ⟨_, rfl, h0⟩
    · rename_i hz
      rw [if_neg hz]
      obtain ⟨ms, h1, h2⟩ := bind_ok h
      obtain ⟨a', b, h3, h4, h5⟩ := blind_run k S ms clock orig cells.length hl.ge (List.range sc.iterations) _ _ h0
      rw [h2] at h3
      simp only [Outcome.ok.injEq] at h3
      subst h3
      exact ⟨b, by rw [h1]; exact h4, h5⟩
  refine ⟨hB.det.1, hB.det.2, ?_, b, hb, hB.sim.symm, ?_⟩
  · intro ht
    have ht' : a.total > 0 := ht
    simp only [reliability, if_pos ht', hB.det.1]
    simp
  · simp only [reliability, hB.det.1, hB.det.2, hB.detB.1, hB.detB.2, hB.tot, hB.iv]

/-- **C257 (fresh elements).** The elements a suite makes for the configurations with triple redundancy, with health weights and without protection satisfy the hypothesis. -/
theorem C257_fresh (k : Kit α) (now : Int) (hard : ℕ → ℕ → ℝ → α → Cell α) (c : Config) (hh : c.hardening = false)
    (ha : c.approx = false ∨ c.enhanced = true ∨ c.health = true) (data : List α) :
    (protectAll k now hard c data).length = data.length ∧ List.Forall₂ Reads data (protectAll k now hard c data) := by
  have h1 : ∀ i v, Reads v (protectOne k now hard data.length c i v) := by
    intro i v
    unfold protectOne
    rw [if_neg (by rw [hh]; decide)]
    split
    · exact ⟨rfl, rfl, rfl⟩
    · split
      · exact ⟨rfl, rfl, rfl⟩
      · split
        · rename_i x1 x2 x3
          rcases ha with h | h | h
          · rw [h] at x3; cases x3
          · exact absurd h x1
          · exact absurd h x2
        · split
          · exact ⟨rfl, rfl, rfl⟩
          · trivial
  have h2 : ∀ (xs : List α) (n : ℕ), List.Forall₂ Reads xs ((xs.zipIdx n).map fun x => protectOne k now hard data.length c x.2 x.1) := by
    intro xs
    induction xs with
    | nil => intro n; simp
    | cons x xs ih => intro n; simp only [List.zipIdx_cons, List.map_cons, List.forall₂_cons]; exact ⟨h1 _ _, ih _⟩
  exact ⟨by simp [protectAll], h2 data 0⟩

example : (defaultConfig.hardening = false ∧ defaultConfig.enhanced = true) := ⟨rfl, rfl⟩

/-! ### C258: approximate elements -/

/-- The element made for the byte `o` with the approximations of the benchmark. -/
def approxOf (k : Kit α) (o : α) : Cell α := .approx (ATmr.set k.ap benchTypes k.crc o)

theorem same_iff [DecidableEq α] (a b : α) : same a b = true ↔ a = b := by simp [same]

theorem approx_get [LinearOrder α] (k : Kit α) (o : α) : ATmr.get same benchTypes (ATmr.set k.ap benchTypes k.crc o) = k.ap.reduce o := by
  unfold ATmr.get
  rw [show (ATmr.set k.ap benchTypes k.crc o).copies 0 = o from rfl, show (ATmr.set k.ap benchTypes k.crc o).copies 1 = k.ap.reduce o from rfl,
    show (ATmr.set k.ap benchTypes k.crc o).copies 2 = k.ap.reduce o from rfl]
  simp only [same_iff, if_true]
  by_cases h : o = k.ap.reduce o
  · rw [if_pos h]; exact h
  · rw [if_neg h, if_neg h]

theorem examine_approx [LinearOrder α] (k : Kit α) (hi : ∀ v, k.ap.reduce (k.ap.reduce v) = k.ap.reduce v) (t₁ t₂ : Int × ℚ) (o cur w : α)
    (hw : k.ap.reduce w = k.ap.reduce o) (ho : k.ap.reduce o ≠ o) :
    ∃ w', k.ap.reduce w' = k.ap.reduce o ∧ examine k t₁ t₂ o cur (approxOf k w) = (if cur = o then 0 else 1, 0, cur, approxOf k w') := by
  unfold examine approxOf
  by_cases hc : cur = o
  · exact ⟨w, hw, by rw [if_pos hc, if_pos hc]⟩
  · refine ⟨k.ap.reduce w, by rw [hi, hw], ?_⟩
    rw [if_neg hc, if_neg hc]
    dsimp only
    rw [approx_get, hw, if_neg ho]
    unfold ATmr.repair
    rw [approx_get, approx_get, hi, hw, if_neg ho]

/-- The number of positions in which two byte arrays differ. -/
def mismatches [DecidableEq α] : List α → List α → ℕ
  | o :: os, c :: cs => (if c = o then 0 else 1) + mismatches os cs
  | _, _ => 0

theorem scan_approx [LinearOrder α] (k : Kit α) (hi : ∀ v, k.ap.reduce (k.ap.reduce v) = k.ap.reduce v) (clock : ℕ → (Int × ℚ) × (Int × ℚ)) :
    ∀ (os cs ws : List α) (i : ℕ), os.length = cs.length → List.Forall₂ (fun o w => k.ap.reduce w = k.ap.reduce o ∧ k.ap.reduce o ≠ o) os ws →
      ∃ ws', List.Forall₂ (fun o w => k.ap.reduce w = k.ap.reduce o ∧ k.ap.reduce o ≠ o) os ws' ∧
        scan k clock i os cs (ws.map (approxOf k)) = .ok (mismatches os cs, 0, cs, ws'.map (approxOf k))
  | [], [], [], i, _, h => ⟨[], h, rfl⟩
  | [], c :: cs, _, i, h, _ => by simp at h
  | [], [], w :: ws, i, _, h => by cases h
  | o :: os, [], _, i, h, _ => by simp at h
  | o :: os, c :: cs, [], i, _, h => by cases h
  | o :: os, c :: cs, w :: ws, i, hl, h => by
    rw [List.forall₂_cons] at h
    obtain ⟨ws', h1, h2⟩ := scan_approx k hi clock os cs ws (i + 1) (by simpa using hl) h.2
    obtain ⟨w', h3, h4⟩ := examine_approx k hi (clock i).1 (clock i).2 o c w h.1.1 h.1.2
    refine ⟨w' :: ws', List.forall₂_cons.mpr ⟨⟨h3, h.1.2⟩, h1⟩, ?_⟩
    rw [List.map_cons, scan, h2, h4]
    simp only [mismatches, Outcome.bind, List.map_cons, zero_add]

/-- The data after each of `n` exposures that follow one another, and the simulator after them. -/
def exposures (S : Sim σ α) (ms : ℤ) : ℕ → σ → List α → List (List α) × σ
  | 0, st, _ => ([], st)
  | n + 1, st, d =>
    let r := exposures S ms n (S.hit st d ms).2.2 (S.hit st d ms).2.1
    ((S.hit st d ms).2.1 :: r.1, r.2)

/-- The data after each exposure of `n` iterations of ten, each of which begins with the original data. -/
def allExposures (S : Sim σ α) (ms : ℤ) (orig : List α) : ℕ → σ → List (List α)
  | 0, _ => []
  | n + 1, st => (exposures S ms 10 st orig).1 ++ allExposures S ms orig n (exposures S ms 10 st orig).2

/-- What stays true of a benchmark of approximate elements. -/
def Rounded [LinearOrder α] (k : Kit α) (orig : List α) (a : Acc σ α) : Prop :=
  ∃ ws, List.Forall₂ (fun o w => k.ap.reduce w = k.ap.reduce o ∧ k.ap.reduce o ≠ o) orig ws ∧ a.cells = ws.map (approxOf k)

theorem approx_fold [LinearOrder α] (k : Kit α) (hi : ∀ v, k.ap.reduce (k.ap.reduce v) = k.ap.reduce v) (S : Sim σ α) (ms : ℤ)
    (clock : ℕ → ℕ → (Int × ℚ) × (Int × ℚ)) (orig : List α) :
    ∀ (js : List ℕ) (a b : Acc σ α) (cur cur' : List α), cur.length = orig.length → Rounded k orig a →
      foldO (interval k S ms clock orig) (a, cur) js = .ok (b, cur') →
      Rounded k orig b ∧ b.corrected = a.corrected ∧ b.sim = (exposures S ms js.length a.sim cur).2 ∧
        b.detected = a.detected + ((exposures S ms js.length a.sim cur).1.map (mismatches orig)).sum
  | [], a, b, cur, cur', _, hr, h => by
    simp only [foldO, Outcome.ok.injEq, Prod.mk.injEq] at h
    obtain ⟨rfl, rfl⟩ := h
    exact ⟨hr, rfl, rfl, rfl⟩
  | j :: js, a, b, cur, cur', hc, ⟨ws, h1, h2⟩, h => by
    have hk : orig.length = (S.hit a.sim cur ms).2.1.length := by rw [S.keeps, hc]
    obtain ⟨ws', h3, h4⟩ := scan_approx k hi (clock j) orig _ ws 0 hk h1
    simp only [foldO, interval, h2, h4, Outcome.bind] at h
    obtain ⟨r1, r2, r3, r4⟩ := approx_fold k hi S ms clock orig js _ b _ cur' hk.symm ⟨ws', h3, rfl⟩ h
    refine ⟨r1, by rw [r2]; rfl, by rw [r3]; rfl, ?_⟩
    rw [r4]
    simp only [List.length_cons, exposures, List.map_cons, List.sum_cons]
    omega

theorem approx_run [LinearOrder α] (k : Kit α) (hi : ∀ v, k.ap.reduce (k.ap.reduce v) = k.ap.reduce v) (S : Sim σ α) (ms : ℤ)
    (clock : ℕ → ℕ → ℕ → (Int × ℚ) × (Int × ℚ)) (orig : List α) :
    ∀ (is : List ℕ) (a b : Acc σ α), Rounded k orig a → foldO (iteration k S ms clock orig) a is = .ok b →
      b.corrected = a.corrected ∧ b.detected = a.detected + ((allExposures S ms orig is.length a.sim).map (mismatches orig)).sum
  | [], a, b, _, h => by
    simp only [foldO, Outcome.ok.injEq] at h
    subst h; exact ⟨rfl, rfl⟩
  | i :: is, a, b, hr, h => by
    simp only [foldO] at h
    obtain ⟨c, h1, h2⟩ := bind_ok h
    simp only [iteration] at h1
    obtain ⟨⟨c', cur'⟩, h3, h4⟩ := bind_ok h1
    simp only [Outcome.ok.injEq] at h4
    subst h4
    obtain ⟨r1, r2, r3, r4⟩ := approx_fold k hi S ms (clock i) orig _ a c' orig cur' rfl hr h3
    obtain ⟨q1, q2⟩ := approx_run k hi S ms clock orig is c' b r1 h2
    rw [List.length_range] at r3 r4
    refine ⟨q1.trans r2, ?_⟩
    rw [q2, r4, r3]
    simp only [List.length_cons, allExposures, List.map_append, List.sum_append]
    omega

/-- **C258, violated.** With the approximations the benchmark asks for, an undamaged element reads as its rounded value, as the two rounded copies outvote the exact
one. So for data of which no element is a fixed point of the rounding, every interval of every iteration counts each position the simulator has ever changed as "detected",
again and again until the iteration ends, and corrects none, although no element was ever hit. -/
theorem C258_approximate_violated [LinearOrder α] (k : Kit α) (hi : ∀ v, k.ap.reduce (k.ap.reduce v) = k.ap.reduce v) (S : Sim σ α)
    (clock : ℕ → ℕ → ℕ → (Int × ℚ) × (Int × ℚ)) (sc : Scenario) (orig : List α) (ho : ∀ o ∈ orig, k.ap.reduce o ≠ o) (st : σ) (ms : ℤ)
    (hms : intervalMs sc = .ok ms) (a : Acc σ α) (h : loop k S clock sc orig (orig.map fun o => .approx (ATmr.set k.ap benchTypes k.crc o)) st = .ok a) :
    (∀ o, ATmr.get same benchTypes (ATmr.set k.ap benchTypes k.crc o) = k.ap.reduce o) ∧
    (reliability sc a).detected = ((allExposures S ms orig sc.iterations st).map (mismatches orig)).sum ∧
    (reliability sc a).corrected = 0 := by
  refine ⟨approx_get k, ?_⟩
  have h0 : Rounded k orig ({ cells := orig.map (approxOf k), sim := st } : Acc σ α) := by
    refine ⟨orig, ?_, rfl⟩
    rw [List.forall₂_same]
    exact fun o hm => ⟨rfl, ho o hm⟩
  unfold loop at h
  split at h
  · rename_i hz
    simp only [Outcome.ok.injEq] at h
    subst h
    rw [hz]; exact ⟨rfl, rfl⟩
  · rw [hms] at h
    obtain ⟨r1, r2⟩ := approx_run k hi S ms clock orig (List.range sc.iterations) _ a h0 h
    rw [List.length_range] at r2
    refine ⟨?_, r1⟩
    have : a.detected = _ := r2
    rw [show (reliability sc a).detected = a.detected from rfl, this]
    exact Nat.zero_add _

/-- For bytes the rounding clears the two lowest bits: its fixed points are the multiples of 4. -/
theorem C258_byte_rounding (crc : Fin 256 → BitVec 32) (v : Fin 256) :
    ((byteKit crc).ap.reduce v).val = v.val / 4 * 4 ∧ (byteKit crc).ap.reduce ((byteKit crc).ap.reduce v) = (byteKit crc).ap.reduce v ∧
    ((byteKit crc).ap.reduce v = v ↔ v.val % 4 = 0) := by
  have h : ∀ v : Fin 256, (((ATmr.reduceUnsigned (BitVec.ofFin (w := 8) v)).toFin : Fin 256).val = v.val / 4 * 4 ∧
      ((ATmr.reduceUnsigned (BitVec.ofFin (w := 8) (ATmr.reduceUnsigned (BitVec.ofFin (w := 8) v)).toFin)).toFin : Fin 256)
        = (ATmr.reduceUnsigned (BitVec.ofFin (w := 8) v)).toFin ∧ (((ATmr.reduceUnsigned (BitVec.ofFin (w := 8) v)).toFin : Fin 256) = v ↔ v.val % 4 = 0)) := by
    decide +kernel
  exact h v

/-- A simulator that reports one event and changes one byte in the first of ten calls and then nothing. -/
def once : Sim ℕ (Fin 256) :=
  ⟨fun st d _ => if st % 10 = 0 then (1, d.map fun v => v + 1, st + 1) else (0, d, st + 1), fun st d _ => by split <;> simp⟩

/-- **C258, violated: rates.** A single upset of one unprotected byte gives a detection rate of 1000 % and minus 900 % of silent corruptions. -/
theorem C258_rate_violated : ∃ (sc : Scenario) (a : Acc ℕ (Fin 256)),
    loop (byteKit fun _ => 0) once (fun _ _ _ => ((0, 0), (0, 0))) sc [1] [.approx (ATmr.set (byteKit fun _ => 0).ap benchTypes (fun _ => 0) 1)] 0 = .ok a ∧
    (reliability sc a).total = 1 ∧ (reliability sc a).detectionRate = 10 ∧ (reliability sc a).sdcRate = -9 := by
  let sc : Scenario := { profile := "LEO", intensity := 3, duration := 60, iterations := 1, size := 1 }
  have hms : intervalMs sc = .ok 6000 := by
    unfold intervalMs Phys.castInt
    have : sc.duration / 10 * 1000 = 6000 := by show (60 : ℝ) / 10 * 1000 = 6000; norm_num
    rw [this, if_pos (by norm_num), if_pos (by norm_num)]
    congr 1
    exact_mod_cast Int.floor_intCast (R := ℝ) 6000
  obtain ⟨a, ha⟩ := (C256_defined (byteKit fun _ => 0) once (fun _ _ _ => ((0, 0), (0, 0))) sc [1]
    [.approx (ATmr.set (byteKit fun _ => 0).ap benchTypes (fun _ => 0) 1)] 0).mpr (Or.inr ⟨⟨by show (_ : ℝ) < 60 * 100; norm_num, by show (60 * 100 : ℝ) < _; norm_num⟩, le_refl _⟩)
  have hd := (C258_approximate_violated (byteKit fun _ => 0) (fun v => (C258_byte_rounding _ v).2.1) once _ sc [1] (by
    intro o ho
    rw [List.mem_singleton] at ho
    subst ho
    exact fun h => absurd ((C258_byte_rounding _ 1).2.2.mp h) (by decide)) 0 6000 hms a ha).2.1
  have ht : a.total = 1 := by
    have h := ha
    unfold loop at h
    rw [if_neg (show ¬ sc.iterations = 0 by decide), hms] at h
    have : (foldO (iteration (byteKit fun _ => 0) once 6000 (fun _ _ _ => ((0, 0), (0, 0))) [1])
      ({ cells := [.approx (ATmr.set (byteKit fun _ => 0).ap benchTypes (fun _ => 0) 1)], sim := 0 } : Acc ℕ (Fin 256)) (List.range 1)).bind (fun a => .ok a.total) = .ok 1 := by
      decide +kernel
    simp only [Outcome.bind] at h
    rw [show List.range sc.iterations = List.range 1 from rfl] at h
    rw [h] at this
    simpa [Outcome.bind] using this
  have hd' : a.detected = 10 := hd.trans (by decide +kernel)
  refine ⟨sc, a, ha, ht, ?_, ?_⟩
  · simp only [reliability, ht, hd']; norm_num
  · simp only [reliability, ht, hd']; norm_num

example : (7 : Fin 256).val % 4 ≠ 0 := by decide

/-! ### C259: suites -/

theorem suite_fold [LinearOrder α] (E : Env σ α) (sc : Scenario) (data : List α) :
    ∀ (configs : List (String × Config)) (x y : List (String × Entry) × σ), foldO (suiteStep E sc data) x configs = .ok y →
      ∃ es, y.1 = x.1 ++ es ∧ es.map (·.1) = configs.map (·.1) ∧
        ∀ e ∈ es, e.2.perf.memory = 7 * data.length ∧ e.2.perf.resources = 10 * data.length ∧ e.2.rel.errorSeries.length = 10 ∧
          e.2.rel.correctionSeries.length = 10 ∧ e.2.rel.corrected ≤ e.2.rel.detected ∧ e.2.rel.detected ≤ 10 * sc.iterations * data.length
  | [], x, y, h => by
    simp only [foldO, Outcome.ok.injEq] at h
    subst h; exact ⟨[], by simp, rfl, by simp⟩
  | c :: cs, x, y, h => by
    simp only [foldO] at h
    obtain ⟨z, h1, h2⟩ := bind_ok h
    simp only [suiteStep] at h1
    obtain ⟨a, h3, h4⟩ := bind_ok h1
    simp only [Outcome.ok.injEq] at h4
    subst h4
    obtain ⟨es, h5, h6, h7⟩ := suite_fold E sc data cs _ y h2
    have hl : (protectAll E.kit (E.now c.1) E.hard c.2 data).length = data.length := by simp [protectAll]
    refine ⟨(c.1, ⟨reliability sc a, performance sc (E.times c.1) data.length (protectAll E.kit (E.now c.1) E.hard c.2 data).length a.detected⟩) :: es, ?_, ?_, ?_⟩
    · rw [h5, List.append_assoc, List.singleton_append]
    · rw [List.map_cons, List.map_cons, h6]
    · intro e he
      rcases List.mem_cons.mp he with rfl | he
      · have hk := C256_counts E.kit E.sim (E.clock c.1) sc data _ _ a h3
        rw [hl] at hk
        refine ⟨?_, ?_, hk.2.2.2.2.2.1, hk.2.2.2.2.2.2.1, hk.1, hk.2.1⟩
        · simp only [performance, hl]; omega
        · simp only [performance, hl]; omega
      · exact h7 e he

/-- **C259.** For every environment, scenario and map of configurations a suite that ends has exactly one result for each configuration, in the order of the names, each with
consistent counters and ten points over time. -/
theorem C259_suite [LinearOrder α] (E : Env σ α) (sc : Scenario) (gen : ℕ → List α) (configs : List (String × Config)) (res : List (String × Entry))
    (h : suite E sc gen configs = .ok res) :
    res.map (·.1) = configs.map (·.1) ∧ ∀ e ∈ res, e.2.rel.errorSeries.length = 10 ∧ e.2.rel.correctionSeries.length = 10 ∧
      e.2.rel.corrected ≤ e.2.rel.detected ∧ e.2.rel.detected ≤ 10 * sc.iterations * (gen sc.size).length := by
  unfold suite at h
  obtain ⟨y, h1, h2⟩ := bind_ok h
  simp only [Outcome.ok.injEq] at h2
  subst h2
  obtain ⟨es, h3, h4, h5⟩ := suite_fold E sc _ configs _ y h1
  rw [List.nil_append] at h3
  rw [h3]
  exact ⟨h4, fun e he => ⟨(h5 e he).2.2.1, (h5 e he).2.2.2.1, (h5 e he).2.2.2.2.1, (h5 e he).2.2.2.2.2⟩⟩

theorem suite_ok [LinearOrder α] (E : Env σ α) (sc : Scenario) (data : List α) (hd : -(2 ^ 31) - 1 < sc.duration * 100 ∧ sc.duration * 100 < 2 ^ 31) :
    ∀ (configs : List (String × Config)) (x : List (String × Entry) × σ), ∃ y, foldO (suiteStep E sc data) x configs = .ok y
  | [], x => ⟨x, rfl⟩
  | c :: cs, x => by
    obtain ⟨a, ha⟩ := (C256_defined E.kit E.sim (E.clock c.1) sc data (protectAll E.kit (E.now c.1) E.hard c.2 data) x.2).mpr
      (Or.inr ⟨hd, by simp [protectAll]⟩)
    obtain ⟨y, hy⟩ := suite_ok E sc data hd cs (x.1 ++ [(c.1, ⟨reliability sc a, performance sc (E.times c.1) data.length
      (protectAll E.kit (E.now c.1) E.hard c.2 data).length a.detected⟩)], a.sim)
    refine ⟨y, ?_⟩
    simp only [foldO, suiteStep, ha]
    exact hy

/-- **C259 (definedness).** A suite is defined for all data, configurations and simulators if its duration is less than 21474836 seconds. -/
theorem C259_defined [LinearOrder α] (E : Env σ α) (sc : Scenario) (gen : ℕ → List α) (configs : List (String × Config))
    (hd : 0 ≤ sc.duration ∧ sc.duration < 21474836) : ∃ res, suite E sc gen configs = .ok res := by
  obtain ⟨y, hy⟩ := suite_ok E sc (gen sc.size) ⟨by linarith [hd.1], by linarith [hd.2]⟩ configs ([], E.start sc.profile sc.intensity)
  exact ⟨y.1, by unfold suite; rw [hy]; rfl⟩

example : (0 : ℝ) ≤ 180 ∧ (180 : ℝ) < 21474836 := by norm_num

/-- **C259, violated: costs.** Memory, circuit and their comparison are the same for every configuration, seven times the data and ten units for each byte, whether there is
any protection or not. -/
theorem C259_costs_violated [LinearOrder α] (E : Env σ α) (sc : Scenario) (gen : ℕ → List α) (configs : List (String × Config)) (res : List (String × Entry))
    (h : suite E sc gen configs = .ok res) (e : String × Entry) (he : e ∈ res) :
    e.2.perf.memory = 7 * (gen sc.size).length ∧ e.2.perf.resources = 10 * (gen sc.size).length := by
  unfold suite at h
  obtain ⟨y, h1, h2⟩ := bind_ok h
  simp only [Outcome.ok.injEq] at h2
  subst h2
  obtain ⟨es, h3, _, h5⟩ := suite_fold E sc _ configs _ y h1
  rw [List.nil_append] at h3
  rw [h3] at he
  exact ⟨(h5 e he).1, (h5 e he).2.1⟩

/-- **C259, violated: no iterations.** A scenario of no iterations gives a time, an energy and a throughput that are not numbers, and perfect rates. -/
theorem C259_zero_violated (sc : Scenario) (hz : sc.iterations = 0) (times : ℕ → ℕ) (size cells detected : ℕ) (a : Acc σ α) (ha : a.total = 0) :
    (performance sc times size cells detected).time = .nan ∧ (performance sc times size cells detected).energy = .nan ∧
    (performance sc times size cells detected).throughput = .nan ∧ (reliability sc a).detectionRate = 1 ∧ (reliability sc a).correctionRate = 1 := by
  have h : XD.div (.fin (((List.range sc.iterations).map times).sum : ℕ)) (.fin sc.iterations) = .nan := by
    rw [hz]; simp [XD.div]
  unfold performance
  rw [h]
  refine ⟨rfl, rfl, rfl, ?_, ?_⟩
  · simp only [reliability, ha]; simp
  · simp only [reliability, ha]; simp

example : ({ cells := [], sim := () } : Acc Unit (Fin 256)).total = 0 := rfl

/-- A simulator of one event in its life. -/
def burst : Sim ℕ (Fin 256) :=
  ⟨fun st d _ => if st = 0 then (1, d.map fun v => v + 1, st + 1) else (0, d, st + 1), fun st d _ => by split <;> simp⟩

/-- No protection. -/
noncomputable def bare : Config := ⟨false, false, false, false, false, 0⟩

/-- **C259, violated: exposure.** The configurations share one simulator, so they are not exposed to the same radiation: two equal configurations get a
detection rate of 0 and of 1. -/
theorem C259_exposure_violated : ∃ (E : Env ℕ (Fin 256)) (sc : Scenario) (gen : ℕ → List (Fin 256)) (e₁ e₂ : Entry),
    suite E sc gen [("a", bare), ("b", bare)] = .ok [("a", e₁), ("b", e₂)] ∧ e₁.rel.detectionRate = 0 ∧ e₂.rel.detectionRate = 1 := by
  let E : Env ℕ (Fin 256) := ⟨byteKit fun _ => 0, burst, fun _ _ => 0, fun _ => 0, fun _ _ _ _ => ((0, 0), (0, 0)), fun _ _ => 500, fun _ _ _ _ => .other⟩
  let sc : Scenario := { profile := "LEO", intensity := 3, duration := 60, iterations := 1, size := 1 }
  have hms : intervalMs sc = .ok 6000 := by
    unfold intervalMs Phys.castInt
    have : sc.duration / 10 * 1000 = 6000 := by show (60 : ℝ) / 10 * 1000 = 6000; norm_num
    rw [this, if_pos (by norm_num), if_pos (by norm_num)]
    congr 1
    exact_mod_cast Int.floor_intCast (R := ℝ) 6000
  have hp : ∀ now, protectAll E.kit now E.hard bare [1] = [.other] := fun _ => rfl
  have hl : ∀ st, loop E.kit E.sim (fun _ _ _ => ((0, 0), (0, 0))) sc [1] [.other] st =
      foldO (iteration (byteKit fun _ => 0) burst 6000 (fun _ _ _ => ((0, 0), (0, 0))) [1]) { cells := [.other], sim := st } (List.range 1) := by
    intro st
    unfold loop
    rw [if_neg (show ¬ sc.iterations = 0 by decide), hms]
    rfl
  obtain ⟨a, ha⟩ : ∃ a, foldO (iteration (byteKit fun _ => 0) burst 6000 (fun _ _ _ => ((0, 0), (0, 0))) [1])
      ({ cells := [.other], sim := 0 } : Acc ℕ (Fin 256)) (List.range 1) = .ok a := by
    rw [← hl]
    exact (C256_defined _ _ _ sc [1] [.other] 0).mpr (Or.inr ⟨⟨by show (_ : ℝ) < 60 * 100; norm_num, by show (60 * 100 : ℝ) < _; norm_num⟩, le_refl _⟩)
  have hA : (foldO (iteration (byteKit fun _ => 0) burst 6000 (fun _ _ _ => ((0, 0), (0, 0))) [1])
      ({ cells := [.other], sim := 0 } : Acc ℕ (Fin 256)) (List.range 1)).bind (fun a => .ok (a.total, a.detected, a.sim)) = .ok (1, 0, 10) := by decide +kernel
  rw [ha] at hA
  simp only [Outcome.bind, Outcome.ok.injEq, Prod.mk.injEq] at hA
  obtain ⟨t1, d1, s1⟩ := hA
  obtain ⟨b, hb⟩ : ∃ b, foldO (iteration (byteKit fun _ => 0) burst 6000 (fun _ _ _ => ((0, 0), (0, 0))) [1])
      ({ cells := [.other], sim := 10 } : Acc ℕ (Fin 256)) (List.range 1) = .ok b := by
    rw [← hl]
    exact (C256_defined _ _ _ sc [1] [.other] 10).mpr (Or.inr ⟨⟨by show (_ : ℝ) < 60 * 100; norm_num, by show (60 * 100 : ℝ) < _; norm_num⟩, le_refl _⟩)
  have hB : (foldO (iteration (byteKit fun _ => 0) burst 6000 (fun _ _ _ => ((0, 0), (0, 0))) [1])
      ({ cells := [.other], sim := 10 } : Acc ℕ (Fin 256)) (List.range 1)).bind (fun a => .ok a.total) = .ok 0 := by decide +kernel
  rw [hb] at hB
  simp only [Outcome.bind, Outcome.ok.injEq] at hB
  refine ⟨E, sc, fun _ => [1], ⟨reliability sc a, performance sc (fun _ => 500) 1 1 a.detected⟩, ⟨reliability sc b, performance sc (fun _ => 500) 1 1 b.detected⟩, ?_, ?_, ?_⟩
  · unfold suite
    simp only [foldO, suiteStep, hp]
    rw [show E.clock "a" = fun _ _ _ => ((0, 0), (0, 0)) from rfl, hl]
    rw [show E.start sc.profile sc.intensity = 0 from rfl, ha]
    simp only [Outcome.bind]
    rw [hl, s1, hb]
    rfl
  · simp only [reliability, t1, d1]; simp
  · simp only [reliability, hB]; simp

/-- **C259 (pattern).** The patterned data have the requested size, and byte `i` is `i` modulo 256. -/
theorem C259_patterned (size : ℕ) : (patterned size).length = size ∧ ∀ i (h : i < (patterned size).length), ((patterned size)[i]).val = i % 256 := by
  refine ⟨by simp [patterned], fun i h => ?_⟩
  simp [patterned, Fin.ofNat]

/-! ### C260: summary -/

/-- The value of a metric in a configuration. -/
def valueOf (c : String × List (String × XD)) (m : String) : Option XD := (c.2.find? fun e => decide (e.1 = m)).map (·.2)

open Classical in
/-- The best entry so far updated with a configuration's value. -/
noncomputable def better (m config : String) (v : XD) : Option (String × XD) → Option (String × XD)
  | none => some (config, v)
  | some old => if (mentionsError m = true ∧ XD.lt v old.2) ∨ (mentionsError m = false ∧ XD.lt old.2 v) then some (config, v) else some old

theorem bestStep_self (config : String) (b : String → Option (String × XD)) (m : String) (v : XD) : bestStep config b (m, v) m = better m config v (b m) := by
  unfold bestStep better
  dsimp only
  cases hb : b m with
  | none => simp
  | some old =>
    dsimp only
    split
    · simp
    · exact hb

theorem bestStep_other (config : String) (b : String → Option (String × XD)) (m m' : String) (v : XD) (h : m' ≠ m) : bestStep config b (m, v) m' = b m' := by
  unfold bestStep
  dsimp only
  cases hb : b m with
  | none => simp [Function.update_of_ne h]
  | some old =>
    dsimp only
    split
    · simp [Function.update_of_ne h]
    · rfl

theorem inner_absent (config m : String) : ∀ (ms : List (String × XD)) (b : String → Option (String × XD)), m ∉ ms.map (·.1) → ms.foldl (bestStep config) b m = b m
  | [], b, _ => rfl
  | x :: xs, b, h => by
    rw [List.map_cons, List.mem_cons, not_or] at h
    rw [List.foldl_cons, inner_absent config m xs _ h.2]
    exact bestStep_other config b x.1 m x.2 h.1

theorem inner_present (config m : String) : ∀ (ms : List (String × XD)) (b : String → Option (String × XD)) (v : XD), (ms.map (·.1)).Nodup → (m, v) ∈ ms →
    ms.foldl (bestStep config) b m = better m config v (b m)
  | x :: xs, b, v, hn, h => by
    rw [List.map_cons, List.nodup_cons] at hn
    rw [List.foldl_cons]
    rcases List.mem_cons.mp h with h | h
    · subst h
      rw [inner_absent config m xs _ hn.1]
      exact bestStep_self config b m v
    · have hne : m ≠ x.1 := by
        rintro rfl
        exact hn.1 (List.mem_map.mpr ⟨_, h, rfl⟩)
      rw [inner_present config m xs _ v hn.2 h, bestStep_other config b x.1 m x.2 hne]

/-- The order in which the summary compares: for a metric that mentions "error" smaller is better, for all others larger. -/
def Beats (m : String) (x y : ℝ) : Prop := if mentionsError m then x ≤ y else y ≤ x

theorem best_fold (m : String) : ∀ (cmp : List (String × List (String × XD))) (b : String → Option (String × XD)) (f : String × List (String × XD) → ℝ),
    (∀ c ∈ cmp, (c.2.map (·.1)).Nodup ∧ (m, XD.fin (f c)) ∈ c.2) → ∀ n x, b m = some (n, XD.fin x) →
    ∃ n' x', cmp.foldl (fun b c => c.2.foldl (bestStep c.1) b) b m = some (n', XD.fin x') ∧ Beats m x' x ∧ (∀ c ∈ cmp, Beats m x' (f c)) ∧
      ((n', x') = (n, x) ∨ ∃ c ∈ cmp, c.1 = n' ∧ f c = x')
  | [], b, f, _, n, x, hb => ⟨n, x, hb, by unfold Beats; split <;> exact le_refl _, by simp, Or.inl rfl⟩
  | c :: cs, b, f, h, n, x, hb => by
    obtain ⟨hn, hm⟩ := h c (List.mem_cons_self ..)
    have hi := inner_present c.1 m c.2 b _ hn hm
    rw [hb] at hi
    unfold better at hi
    dsimp only at hi
    rw [List.foldl_cons]
    by_cases hq : (mentionsError m = true ∧ XD.lt (XD.fin (f c)) (XD.fin x)) ∨ (mentionsError m = false ∧ XD.lt (XD.fin x) (XD.fin (f c)))
    · rw [if_pos hq] at hi
      obtain ⟨n', x', h1, h2, h3, h4⟩ := best_fold m cs _ f (fun d hd => h d (List.mem_cons_of_mem _ hd)) c.1 (f c) hi
      refine ⟨n', x', h1, ?_, ?_, ?_⟩
      · unfold Beats at h2 ⊢
        rcases hq with ⟨e, hq⟩ | ⟨e, hq⟩
        · rw [if_pos e] at h2 ⊢
          rw [XD.lt_fin] at hq; linarith
        · rw [if_neg (by rw [e]; decide)] at h2 ⊢
          rw [XD.lt_fin] at hq; linarith
      · intro d hd
        rcases List.mem_cons.mp hd with rfl | hd
        · exact h2
        · exact h3 d hd
      · rcases h4 with h4 | ⟨d, hd, h5⟩
        · rw [Prod.mk.injEq] at h4
          exact Or.inr ⟨c, List.mem_cons_self .., h4.1.symm, h4.2.symm⟩
        · exact Or.inr ⟨d, List.mem_cons_of_mem _ hd, h5⟩
    · rw [if_neg hq] at hi
      obtain ⟨n', x', h1, h2, h3, h4⟩ := best_fold m cs _ f (fun d hd => h d (List.mem_cons_of_mem _ hd)) n x hi
      refine ⟨n', x', h1, h2, ?_, ?_⟩
      · intro d hd
        rcases List.mem_cons.mp hd with rfl | hd
        · rw [not_or] at hq
          unfold Beats at h2 ⊢
          cases e : mentionsError m with
          | true =>
            simp only [e, if_true, true_and, XD.lt_fin] at h2 hq ⊢
            have := hq.1
            linarith
          | false =>
            simp only [e, Bool.false_eq_true, if_false, true_and, XD.lt_fin] at h2 hq ⊢
            have := hq.2
            linarith
        · exact h3 d hd
      · rcases h4 with h4 | ⟨d, hd, h5⟩
        · exact Or.inl h4
        · exact Or.inr ⟨d, List.mem_cons_of_mem _ hd, h5⟩

/-- **C260.** For every table of finite metrics, the "best" configuration of a metric is one of the configurations, with its own value, which no other configuration
surpasses in the direction of comparison. -/
theorem C260_best (m : String) (cmp : List (String × List (String × XD))) (hne : cmp ≠ []) (f : String × List (String × XD) → ℝ)
    (h : ∀ c ∈ cmp, (c.2.map (·.1)).Nodup ∧ (m, XD.fin (f c)) ∈ c.2) :
    ∃ c ∈ cmp, bestConfigs cmp m = some (c.1, XD.fin (f c)) ∧ ∀ d ∈ cmp, Beats m (f c) (f d) := by
  match cmp, hne with
  | c :: cs, _ =>
    obtain ⟨hn, hm⟩ := h c (List.mem_cons_self ..)
    have hi : c.2.foldl (bestStep c.1) (fun _ => none) m = some (c.1, XD.fin (f c)) := inner_present c.1 m c.2 (fun _ => none) _ hn hm
    obtain ⟨n', x', h1, h2, h3, h4⟩ := best_fold m cs _ f (fun d hd => h d (List.mem_cons_of_mem _ hd)) _ _ hi
    rcases h4 with h4 | ⟨d, hd, h5, h6⟩
    · rw [Prod.mk.injEq] at h4
      refine ⟨c, List.mem_cons_self .., ?_, ?_⟩
      · unfold bestConfigs; rw [List.foldl_cons, h1, h4.1, h4.2]
      · intro d hd
        rcases List.mem_cons.mp hd with rfl | hd
        · unfold Beats; split <;> exact le_refl _
        · rw [← h4.2]; exact h3 d hd
    · refine ⟨d, List.mem_cons_of_mem _ hd, ?_, ?_⟩
      · unfold bestConfigs; rw [List.foldl_cons, h1, h5, h6]
      · intro e he
        rw [h6]
        rcases List.mem_cons.mp he with rfl | he
        · exact h2
        · exact h3 e he

/-- **C260, violated.** `error_correction_rate` mentions "error", so the configuration recommended "based on error correction performance" is one that corrects least,
and never one that corrects more than another; the "best" time and memory use are the largest. -/
theorem C260_recommendation_violated (cmp : List (String × List (String × XD))) (hne : cmp ≠ []) (rate time mem : String × List (String × XD) → ℝ)
    (h : ∀ c ∈ cmp, (c.2.map (·.1)).Nodup ∧ ("error_correction_rate", XD.fin (rate c)) ∈ c.2 ∧ ("execution_time_ms", XD.fin (time c)) ∈ c.2 ∧
      ("memory_usage_bytes", XD.fin (mem c)) ∈ c.2) :
    (∃ c ∈ cmp, recommendation cmp = some (some c.1) ∧ ∀ d ∈ cmp, rate c ≤ rate d) ∧
    ∃ r t u : String × List (String × XD), r ∈ cmp ∧ t ∈ cmp ∧ u ∈ cmp ∧
      bestLines cmp = [("error_correction_rate", r.1, .fin (rate r)), ("execution_time_ms", t.1, .fin (time t)), ("memory_usage_bytes", u.1, .fin (mem u))] ∧
      ∀ d ∈ cmp, rate r ≤ rate d ∧ time d ≤ time t ∧ mem d ≤ mem u := by
  have e1 : mentionsError "error_correction_rate" = true := by decide +kernel
  have e2 : mentionsError "execution_time_ms" = false := by decide +kernel
  have e3 : mentionsError "memory_usage_bytes" = false := by decide +kernel
  obtain ⟨r, r1, r2, r3⟩ := C260_best "error_correction_rate" cmp hne rate fun c hc => ⟨(h c hc).1, (h c hc).2.1⟩
  obtain ⟨t, t1, t2, t3⟩ := C260_best "execution_time_ms" cmp hne time fun c hc => ⟨(h c hc).1, (h c hc).2.2.1⟩
  obtain ⟨u, u1, u2, u3⟩ := C260_best "memory_usage_bytes" cmp hne mem fun c hc => ⟨(h c hc).1, (h c hc).2.2.2⟩
  have q1 : ∀ d ∈ cmp, rate r ≤ rate d := fun d hd => by have := r3 d hd; unfold Beats at this; rwa [if_pos e1] at this
  refine ⟨⟨r, r1, ?_, q1⟩, r, t, u, r1, t1, u1, ?_, fun d hd => ⟨q1 d hd, ?_, ?_⟩⟩
  · unfold recommendation
    rw [if_neg (by simpa using hne), r2]; rfl
  · unfold bestLines
    simp only [List.filterMap_cons, List.filterMap_nil, r2, t2, u2, Option.map_some]
  · have := t3 d hd; unfold Beats at this; rwa [if_neg (by rw [e2]; decide)] at this
  · have := u3 d hd; unfold Beats at this; rwa [if_neg (by rw [e3]; decide)] at this

/-- The metrics a suite compares meet the hypotheses: every configuration has the eight metrics, each once. -/
theorem C260_suite_metrics (e : Entry) :
    (e.compared.map (·.1)).Nodup ∧ ("error_correction_rate", XD.fin e.rel.correctionRate) ∈ e.compared ∧ ("execution_time_ms", e.perf.time) ∈ e.compared ∧
    ("memory_usage_bytes", XD.fin e.perf.memory) ∈ e.compared := by
  refine ⟨?_, ?_, ?_, ?_⟩
  · show ["circuit_resources", "energy_consumption", "error_correction_rate", "error_detection_rate", "execution_time_ms", "memory_usage_bytes",
      "silent_data_corruption_rate", "throughput"].Nodup
    decide +kernel
  · unfold Entry.compared; exact List.mem_cons_of_mem _ (List.mem_cons_of_mem _ (List.mem_cons_self ..))
  · unfold Entry.compared; exact List.mem_cons_of_mem _ (List.mem_cons_of_mem _ (List.mem_cons_of_mem _ (List.mem_cons_of_mem _ (List.mem_cons_self ..))))
  · unfold Entry.compared
    exact List.mem_cons_of_mem _ (List.mem_cons_of_mem _ (List.mem_cons_of_mem _ (List.mem_cons_of_mem _ (List.mem_cons_of_mem _ (List.mem_cons_self ..)))))

/-! ### C261: export -/

theorem row_fold (i : ℕ) : ∀ (series : List (String × List ℝ)) (row : List ℝ),
    ((∀ s ∈ series, i < s.2.length) → foldO (fun row (s : String × List ℝ) => match s.2[i]? with | some v => Outcome.ok (row ++ [v]) | none => .ub) row series
      = .ok (row ++ series.map fun s => s.2.getD i 0)) ∧
    ((∃ s ∈ series, s.2.length ≤ i) → foldO (fun row (s : String × List ℝ) => match s.2[i]? with | some v => Outcome.ok (row ++ [v]) | none => .ub) row series = .ub)
  | [], row => ⟨fun _ => by simp [foldO], by simp⟩
  | s :: ss, row => by
    constructor
    · intro h
      have hs := h s (List.mem_cons_self ..)
      have := (row_fold i ss (row ++ [s.2[i]])).1 fun t ht => h t (List.mem_cons_of_mem _ ht)
      simp only [foldO, List.getElem?_eq_getElem hs, Outcome.bind, this, List.map_cons, List.append_assoc, List.singleton_append]
      congr 3
      rw [List.getD_eq_getElem?_getD, List.getElem?_eq_getElem hs]; rfl
    · rintro ⟨t, ht, hl⟩
      by_cases hs : i < s.2.length
      · have ht' : t ∈ ss := by
          rcases List.mem_cons.mp ht with rfl | h
          · omega
          · exact h
        simp only [foldO, List.getElem?_eq_getElem hs, Outcome.bind]
        exact (row_fold i ss _).2 ⟨t, ht', hl⟩
      · simp only [foldO, List.getElem?_eq_none (by omega : s.2.length ≤ i), Outcome.bind]

theorem table_fold (series : List (String × List ℝ)) : ∀ (is : List ℕ) (rows : List (List ℝ)),
    ((∀ i ∈ is, ∀ s ∈ series, i < s.2.length) → foldO (fun rows i => (foldO (fun row (s : String × List ℝ) => match s.2[i]? with
        | some v => Outcome.ok (row ++ [v]) | none => .ub) [] series).bind fun row => .ok (rows ++ [row])) rows is
      = .ok (rows ++ is.map fun i => series.map fun s => s.2.getD i 0)) ∧
    ((∃ i ∈ is, ∃ s ∈ series, s.2.length ≤ i) → foldO (fun rows i => (foldO (fun row (s : String × List ℝ) => match s.2[i]? with
        | some v => Outcome.ok (row ++ [v]) | none => .ub) [] series).bind fun row => .ok (rows ++ [row])) rows is = .ub)
  | [], rows => ⟨fun _ => by simp [foldO], by simp⟩
  | i :: is, rows => by
    by_cases hi : ∀ s ∈ series, i < s.2.length
    · have h1 := (row_fold i series []).1 hi
      constructor
      · intro h
        have h2 := (table_fold series is (rows ++ [series.map fun s => s.2.getD i 0])).1 fun j hj => h j (List.mem_cons_of_mem _ hj)
        rw [foldO, h1]
        simp only [Outcome.bind, List.nil_append, List.map_cons]
        refine h2.trans ?_
        simp
      · rintro ⟨j, hj, s, hs, hl⟩
        have hj' : j ∈ is := by
          rcases List.mem_cons.mp hj with rfl | h
          · have := hi s hs; omega
          · exact h
        rw [foldO, h1]
        exact (table_fold series is _).2 ⟨j, hj', s, hs, hl⟩
    · push Not at hi
      have h1 := (row_fold i series []).2 hi
      constructor
      · intro h
        obtain ⟨s, hs, hl⟩ := hi
        have := h i (List.mem_cons_self ..) s hs
        omega
      · intro _
        rw [foldO, h1]; rfl

/-- **C261.** If all components have as many points as the first, the exported table has one row for each point with the values of all components in order; so it is for
every result of a suite, with ten rows. -/
theorem C261_time_table (series : List (String × List ℝ)) (n : ℕ) (hne : series ≠ []) (h : ∀ s ∈ series, s.2.length = n) :
    timeTable series = .ok ((List.range n).map fun i => series.map fun s => s.2.getD i 0) := by
  match series, hne with
  | s :: ss, _ =>
    unfold timeTable
    dsimp only
    have hs := h s (List.mem_cons_self ..)
    refine ((table_fold (s :: ss) (List.range s.2.length) []).1 ?_).trans ?_
    · intro i hi t ht
      rw [h t ht, ← hs]; exact List.mem_range.mp hi
    · rw [List.nil_append, hs]

example [LinearOrder α] (E : Env σ α) (sc : Scenario) (gen : ℕ → List α) (configs : List (String × Config)) (res : List (String × Entry))
    (h : suite E sc gen configs = .ok res) : ∀ s ∈ res.map fun e => (e.1, e.2.rel.errorSeries), s.2.length = 10 := by
  intro s hs
  obtain ⟨e, he, rfl⟩ := List.mem_map.mp hs
  exact ((C259_suite E sc gen configs res h).2 e he).1

/-- **C261 (definedness).** In general the export is defined exactly if no component has fewer points than the first in the order of names; points beyond are left out. -/
theorem C261_defined (s : String × List ℝ) (ss : List (String × List ℝ)) :
    (∃ t, timeTable (s :: ss) = .ok t) ↔ ∀ c ∈ ss, s.2.length ≤ c.2.length := by
  constructor
  · rintro ⟨t, ht⟩ c hc
    by_contra hl
    have : timeTable (s :: ss) = .ub := by
      unfold timeTable
      exact (table_fold (s :: ss) (List.range s.2.length) []).2 ⟨c.2.length, List.mem_range.mpr (by omega), c, List.mem_cons_of_mem _ hc, le_refl _⟩
    rw [this] at ht; cases ht
  · intro h
    refine ⟨_, (table_fold (s :: ss) (List.range s.2.length) []).1 ?_⟩
    intro i hi t ht
    have hi := List.mem_range.mp hi
    rcases List.mem_cons.mp ht with rfl | ht
    · exact hi
    · have := h t ht; omega

/-- **C261, violated.** A component with fewer points, as in results put together by hand, makes the export read past the end. -/
theorem C261_short_violated : timeTable [("a", [1, 1 / 2]), ("b", [1])] = .ub := by
  by_contra h
  have : ∃ t, timeTable [("a", [1, 1 / 2]), ("b", [1])] = .ok t := by
    cases hq : timeTable [("a", [1, 1 / 2]), ("b", [1])] with
    | ub => exact absurd hq h
    | ok t => exact ⟨t, rfl⟩
  have := (C261_defined _ _).mp this ("b", [1]) (by simp)
  simp at this

theorem mem_insertName (n m : String) : ∀ ns : List String, m ∈ insertName n ns ↔ m = n ∨ m ∈ ns
  | [] => by simp [insertName]
  | x :: xs => by
    unfold insertName
    split
    · simp
    · split
      · rename_i h; subst h; simp
      · rw [List.mem_cons, mem_insertName n m xs, List.mem_cons]; tauto

theorem sorted_insertName (n : String) : ∀ ns : List String, ns.Pairwise (· < ·) → (insertName n ns).Pairwise (· < ·)
  | [], _ => by simp [insertName]
  | x :: xs, h => by
    rw [List.pairwise_cons] at h
    unfold insertName
    split
    · rename_i hn
      rw [List.pairwise_cons]
      refine ⟨fun y hy => ?_, List.pairwise_cons.mpr h⟩
      rcases List.mem_cons.mp hy with rfl | hy
      · exact hn
      · exact lt_trans hn (h.1 y hy)
    · rename_i hn
      split
      · exact List.pairwise_cons.mpr h
      · rename_i hne
        rw [List.pairwise_cons]
        refine ⟨fun y hy => ?_, sorted_insertName n xs h.2⟩
        rcases (mem_insertName n y xs).mp hy with rfl | hy
        · exact lt_of_le_of_ne (not_lt.mp hn) (Ne.symm hne)
        · exact h.1 y hy

theorem names_inner (ms : List (String × XD)) : ∀ ns : List String, ns.Pairwise (· < ·) →
    (ms.foldl (fun ns m => insertName m.1 ns) ns).Pairwise (· < ·) ∧ ∀ n, n ∈ ms.foldl (fun ns m => insertName m.1 ns) ns ↔ n ∈ ns ∨ n ∈ ms.map (·.1) := by
  induction ms with
  | nil => exact fun ns h => ⟨h, by simp⟩
  | cons x xs ih =>
    intro ns h
    obtain ⟨h1, h2⟩ := ih (insertName x.1 ns) (sorted_insertName _ _ h)
    refine ⟨h1, fun n => ?_⟩
    rw [List.foldl_cons, h2, mem_insertName, List.map_cons, List.mem_cons]; tauto

theorem names_spec (cmp : List (String × List (String × XD))) : ∀ ns : List String, ns.Pairwise (· < ·) →
    (cmp.foldl (fun ns c => c.2.foldl (fun ns m => insertName m.1 ns) ns) ns).Pairwise (· < ·) ∧
    ∀ n, n ∈ cmp.foldl (fun ns c => c.2.foldl (fun ns m => insertName m.1 ns) ns) ns ↔ n ∈ ns ∨ ∃ c ∈ cmp, n ∈ c.2.map (·.1) := by
  induction cmp with
  | nil => exact fun ns h => ⟨h, by simp⟩
  | cons x xs ih =>
    intro ns h
    obtain ⟨h1, h2⟩ := names_inner x.2 ns h
    obtain ⟨h3, h4⟩ := ih _ h1
    refine ⟨h3, fun n => ?_⟩
    rw [List.foldl_cons, h4, h2]; simp only [List.mem_cons, exists_eq_or_imp]; tauto

/-- **C261 (comparison).** The exported comparison has a row for each configuration and a column for each metric any configuration has, every name once and in order; a field
holds the configuration's value of the metric, or nothing if it has none. -/
theorem C261_comparison (cmp : List (String × List (String × XD))) (hn : ∀ c ∈ cmp, (c.2.map (·.1)).Nodup) :
    (metricNames cmp).Pairwise (· < ·) ∧ (∀ n, n ∈ metricNames cmp ↔ ∃ c ∈ cmp, n ∈ c.2.map (·.1)) ∧
    (compareRows cmp).map (·.1) = cmp.map (·.1) ∧
    (∀ r ∈ compareRows cmp, r.2.length = (metricNames cmp).length) ∧
    ∀ i (hi : i < cmp.length) j (hj : j < (metricNames cmp).length), ∀ v : XD,
      (((compareRows cmp).getD i ("", [])).2.getD j none = some v ↔ ((metricNames cmp)[j], v) ∈ (cmp[i]).2) := by
  obtain ⟨h1, h2⟩ := names_spec cmp [] (by simp)
  refine ⟨h1, fun n => (h2 n).trans (by simp), ?_, ?_, ?_⟩
  · simp [compareRows]
  · intro r hr
    obtain ⟨c, _, rfl⟩ := List.mem_map.mp hr
    simp
  · intro i hi j hj v
    have e : (compareRows cmp).getD i ("", []) = (cmp[i].1, (metricNames cmp).map fun n => ((cmp[i]).2.find? fun m => m.1 = n).map (·.2)) := by
      rw [List.getD_eq_getElem?_getD, compareRows, List.getElem?_map, List.getElem?_eq_getElem hi]; rfl
    rw [e]
    dsimp only
    rw [List.getD_eq_getElem?_getD, List.getElem?_map, List.getElem?_eq_getElem hj]
    simp only [Option.map_some, Option.getD_some]
    have hn' := hn _ (List.getElem_mem hi)
    generalize (metricNames cmp)[j] = n
    generalize (cmp[i]).2 = ms at hn'
    clear e
    induction ms with
    | nil => simp
    | cons x xs ih =>
      rw [List.map_cons, List.nodup_cons] at hn'
      rw [List.find?_cons]
      by_cases hx : x.1 = n
      · simp only [hx, decide_true, Option.map_some, Option.some.injEq, List.mem_cons]
        constructor
        · rintro rfl; exact Or.inl (by rw [← hx])
        · rintro (h | h)
          · rw [← h]
          · exact absurd (List.mem_map.mpr ⟨_, h, rfl⟩) (by rw [← hx]; exact hn'.1)
      · simp only [hx, decide_false]
        refine (ih hn'.2).trans ?_
        rw [List.mem_cons]
        constructor
        · exact Or.inr
        · rintro (h | h)
          · exact absurd (by rw [← h]) hx
          · exact h

example : metricNames [("a", [("x", .nan), ("y", .pinf)]), ("b", [("y", .nan), ("z", .ninf)])] = ["x", "y", "z"] := by decide +kernel

/-- **C257 (an enhanced element).** Every error detected on an element of the enhanced kind is corrected: the detection and the correction counters agree, and the byte is either
left alone or made the original. -/
theorem C257_enhanced_corrected [LinearOrder α] (k : Kit α) (t₁ t₂ : Int × ℚ) (o cur : α) (s : MTmr.State α) :
    (examine k t₁ t₂ o cur (.enhanced s)).2.1 = (examine k t₁ t₂ o cur (.enhanced s)).1 ∧
    ((examine k t₁ t₂ o cur (.enhanced s)).1 = 0 ∧ (examine k t₁ t₂ o cur (.enhanced s)).2.2.1 = cur ∨
     (examine k t₁ t₂ o cur (.enhanced s)).1 = 1 ∧ (examine k t₁ t₂ o cur (.enhanced s)).2.2.1 = o) := by
  have hg : ∀ (t : MTmr.State α), (MTmr.get same k.crc (MTmr.set k.crc t o) t₂.1 t₂.2).1 = o := fun t =>
    (enhanced_get k.crc _ o ⟨rfl, rfl, rfl⟩ t₂.1 t₂.2).1
  unfold examine
  by_cases h : cur = o
  · rw [if_pos h]; exact ⟨rfl, Or.inl ⟨rfl, rfl⟩⟩
  · rw [if_neg h]
    dsimp only
    by_cases h2 : (MTmr.get same k.crc s t₁.1 t₁.2).1 = o
    · rw [if_pos h2]; exact ⟨rfl, Or.inl ⟨rfl, rfl⟩⟩
    · rw [if_neg h2, if_pos (hg _)]; exact ⟨rfl, Or.inr ⟨rfl, rfl⟩⟩

example (k : Kit ℕ) (s : MTmr.State ℕ) (h : s.c0.val = 9 ∧ s.c1.val = 9 ∧ s.c2.val = 9) : (examine k (0, 0) (0, 0) 7 8 (.enhanced s)).1 = 1 := by
  rcases (C257_enhanced_corrected k (0, 0) (0, 0) 7 8 s).2 with h1 | h1
  · exfalso
    have := (enhanced_get k.crc s 9 h 0 0).1
    have h2 := h1.1
    have h3 := h1.2
    unfold examine at h2
    rw [if_neg (by decide)] at h2
    dsimp only at h2
    rw [if_neg (by rw [this]; decide)] at h2
    split at h2 <;> simp at h2
  · exact h1.1

end Verif.Props.BenchP
