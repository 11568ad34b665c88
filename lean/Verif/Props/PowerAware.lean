import Verif.Model.PowerAware
import Mathlib.Tactic.Linarith
import Mathlib.Tactic.Positivity
import Mathlib.Tactic.FieldSimp
import Mathlib.Tactic.Ring
import Mathlib.Data.List.Sort
import Mathlib.Algebra.BigOperators.Group.List.Basic
/-!
C100-C104: power-aware protection (/repo/include/rad_ml/power/power_aware_protection.hpp).
-/
namespace Verif.Props.PowerP
open Verif Verif.Power

/-! ### Specification -/

/-- A component within the documented ranges, with a real range of levels and a protection that costs power. -/
structure Valid (c : Comp) : Prop where
  lo0 : 0 ≤ c.lo
  lohi : c.lo < c.hi
  hi1 : c.hi ≤ 1
  p0 : 0 ≤ c.pLo
  pp : c.pLo ≤ c.pHi
  c0 : 0 ≤ c.crit
  c1 : c.crit ≤ 1

/-- What `std::sort` guarantees: the positions, each once, in the order of decreasing criticality. -/
def SortDesc (srt : List ℚ → List Nat) : Prop :=
  ∀ l, (srt l).Perm (List.range l.length) ∧ (srt l).Pairwise fun i j => l.getD j 0 ≤ l.getD i 0

/-- Power the components need at their minimum levels. -/
def minPower (m : Mgr) : ℚ := (m.list.map (·.pLo)).sum

/-- Only valid components are registered. -/
def Good : Op → Prop
  | .register c => Valid c
  | .update _ c => Valid c
  | _ => True

/-- `a` offers more (criticality-weighted) protection per watt than `b`. -/
def Better (a b : Comp) : Prop := a.crit * (a.hi - a.lo) * (b.pHi - b.pLo) > b.crit * (b.hi - b.lo) * (a.pHi - a.pLo)

/-! ### Components -/

/-- Level as a fraction of the range. -/
def nrm (c : Comp) : ℚ := (c.cur - c.lo) / (c.hi - c.lo)

/-- Power. -/
def pw (c : Comp) : ℚ := c.pLo + nrm c * (c.pHi - c.pLo)

theorem power_eq (c : Comp) (h : c.lo < c.hi) : c.power = some (pw c) := by
  unfold Comp.power pw nrm
  rw [if_neg (by linarith : ¬ c.hi - c.lo = 0)]

theorem total_foldl (l : List Comp) (h : ∀ c ∈ l, c.lo < c.hi) (s : ℚ) :
    l.foldl (fun s c => s.bind fun s => c.power.map fun p => s + p) (some s) = some (s + (l.map pw).sum) := by
  induction l generalizing s with
  | nil => simp
  | cons c l ih =>
    rw [List.foldl_cons, power_eq c (h c List.mem_cons_self)]
    simp only [Option.bind_some, Option.map_some]
    rw [ih (fun d hd => h d (List.mem_cons_of_mem _ hd))]
    simp [add_assoc]

theorem total_eq (l : List Comp) (h : ∀ c ∈ l, c.lo < c.hi) : total l = some ((l.map pw).sum) := by
  unfold total
  rw [total_foldl l h 0, zero_add]

theorem total_none (l : List Comp) (h : ∃ c ∈ l, c.lo = c.hi) : total l = none := by
  have key : ∀ (l : List Comp), l.foldl (fun (s : Option ℚ) c => s.bind fun s => c.power.map fun p => s + p) none = none := by
    intro l
    induction l with
    | nil => rfl
    | cons c l ih => exact ih
  have gen : ∀ (l : List Comp) (s : Option ℚ), (∃ c ∈ l, c.lo = c.hi) →
      l.foldl (fun (s : Option ℚ) c => s.bind fun s => c.power.map fun p => s + p) s = none := by
    intro l
    induction l with
    | nil => rintro s ⟨c, hc, _⟩; simp at hc
    | cons d l ih =>
      rintro s ⟨c, hc, he⟩
      rw [List.foldl_cons]
      rcases List.mem_cons.1 hc with rfl | hc
      · have : c.power = none := by unfold Comp.power; rw [if_pos (by rw [he]; ring)]
        rw [this]
        cases s <;> simpa using key l
      · exact ih _ ⟨c, hc, he⟩
  exact gen l _ h

/-- The invariant of one component during the second pass: a whole number of steps above the minimum. -/
structure Grid (c : Comp) : Prop where
  lohi : c.lo < c.hi
  pp : c.pLo ≤ c.pHi
  c0 : 0 ≤ c.crit
  k : ∃ k : Nat, k ≤ 100 ∧ c.cur = c.lo + k * ((c.hi - c.lo) / 100)

theorem grid_nrm (c : Comp) (h : Grid c) : 0 ≤ nrm c ∧ nrm c ≤ 1 ∧ c.lo ≤ c.cur ∧ c.cur ≤ c.hi := by
  obtain ⟨k, hk, hc⟩ := h.k
  have hd : 0 < c.hi - c.lo := by linarith [h.lohi]
  have hk' : (k : ℚ) ≤ 100 := by exact_mod_cast hk
  have hk0 : (0 : ℚ) ≤ k := Nat.cast_nonneg k
  have h1 : 0 ≤ (k : ℚ) * ((c.hi - c.lo) / 100) := by positivity
  have h2 : (k : ℚ) * ((c.hi - c.lo) / 100) ≤ 100 * ((c.hi - c.lo) / 100) := mul_le_mul_of_nonneg_right hk' (by linarith)
  refine ⟨div_nonneg (by linarith) hd.le, ?_, by linarith, by linarith⟩
  unfold nrm
  rw [div_le_one hd]
  linarith

theorem grid_next (c : Comp) (h : Grid c) (hlt : c.cur < c.hi) :
    Grid c.next ∧ nrm c.next = nrm c + 1 / 100 ∧ pw c.next = pw c + (c.pHi - c.pLo) / 100 ∧ c.next.cur = c.cur + c.stepSize := by
  obtain ⟨k, hk, hc⟩ := h.k
  have hd : 0 < c.hi - c.lo := by linarith [h.lohi]
  have hk1 : k + 1 ≤ 100 := by
    by_contra hcon
    have : k = 100 := by omega
    rw [this] at hc
    have : c.cur = c.hi := by rw [hc]; push_cast; ring
    linarith
  have hk' : (k : ℚ) + 1 ≤ 100 := by exact_mod_cast hk1
  have hle : c.cur + c.stepSize ≤ c.hi := by
    unfold Comp.stepSize
    rw [hc]
    have := mul_le_mul_of_nonneg_right hk' (by linarith : (0 : ℚ) ≤ (c.hi - c.lo) / 100)
    linarith
  have hn : c.next.cur = c.cur + c.stepSize := min_eq_left hle
  have hnr : nrm c.next = nrm c + 1 / 100 := by
    have : nrm c.next = (c.cur + c.stepSize - c.lo) / (c.hi - c.lo) := by unfold nrm; rw [hn]; rfl
    rw [this, nrm, Comp.stepSize]
    field_simp
    ring
  refine ⟨⟨h.lohi, h.pp, h.c0, k + 1, hk1, ?_⟩, hnr, ?_, hn⟩
  · rw [hn, hc]
    show _ = c.lo + _ * ((c.hi - c.lo) / 100)
    unfold Comp.stepSize
    push_cast
    ring
  · show c.pLo + nrm c.next * (c.pHi - c.pLo) = c.pLo + nrm c * (c.pHi - c.pLo) + (c.pHi - c.pLo) / 100
    rw [hnr]
    ring

theorem grid_extra (c : Comp) (h : Grid c) (hlt : c.cur < c.hi) : c.extra = some ((c.pHi - c.pLo) / 100) := by
  obtain ⟨h1, _, h3, _⟩ := grid_next c h hlt
  unfold Comp.extra
  rw [power_eq c.next h1.lohi, power_eq c h.lohi]
  simp only [Option.bind_some, Option.map_some, Option.some.injEq]
  rw [h3]
  ring

/-! ### The search -/

/-- Position `i` is a candidate with ratio `ρ`. -/
def Elig (l : List Comp) (r : ℚ) (i : Nat) (ρ : Ratio) : Prop :=
  ∃ c a, l[i]? = some c ∧ c.cur < c.hi ∧ c.extra = some a ∧ a ≤ r ∧ benefit (c.stepSize * c.crit) a = some ρ

theorem gt_trans (a b c : Ratio) (h1 : a.gt b = true) (h2 : c.gt b = false) : c.gt a = false := by
  cases a <;> cases b <;> cases c <;> simp [Ratio.gt] at * <;> linarith

theorem gt_irrefl (a : Ratio) : a.gt a = false := by cases a <;> simp [Ratio.gt]

theorem gt_zero_trans (a b : Ratio) (h1 : a.gt b = true) (h2 : b = .fin 0 ∨ b.gt (.fin 0) = true) : a.gt (.fin 0) = true := by
  cases a <;> cases b <;> simp [Ratio.gt] at * <;> first | linarith | (rcases h2 with h2 | h2 <;> linarith)

theorem consider_cases (l : List Comp) (r : ℚ) (best : Option Nat × Ratio) (i : Nat) :
    (∃ ρ, Elig l r i ρ ∧ ρ.gt best.2 = true ∧ consider l r best i = (some i, ρ)) ∨
    (consider l r best i = best ∧ ∀ ρ, Elig l r i ρ → ρ.gt best.2 = false) := by
  unfold consider
  cases hc : l[i]? with
  | none => right; exact ⟨rfl, by rintro ρ ⟨c, a, h, _⟩; rw [hc] at h; cases h⟩
  | some c =>
    simp only
    by_cases h1 : c.cur ≥ c.hi
    · rw [if_pos h1]; right
      refine ⟨rfl, ?_⟩
      rintro ρ ⟨d, a, h, hd, _⟩
      rw [hc] at h; cases h
      linarith
    · rw [if_neg h1]
      cases he : c.extra with
      | none =>
        right; refine ⟨rfl, ?_⟩
        rintro ρ ⟨d, a, h, hd, ha, _⟩
        rw [hc] at h; cases h
        rw [he] at ha; cases ha
      | some a =>
        simp only
        by_cases h2 : a > r
        · rw [if_pos h2]; right
          refine ⟨rfl, ?_⟩
          rintro ρ ⟨d, b, h, hd, hb, hbr, _⟩
          rw [hc] at h; cases h
          rw [he] at hb; cases hb
          linarith
        · rw [if_neg h2]
          cases hb : benefit (c.stepSize * c.crit) a with
          | none =>
            right; refine ⟨rfl, ?_⟩
            rintro ρ ⟨d, b, h, hd, hb', _, hben⟩
            rw [hc] at h; cases h
            rw [he] at hb'; cases hb'
            rw [hb] at hben; cases hben
          | some ρ =>
            simp only
            have hel : Elig l r i ρ := ⟨c, a, hc, not_le.1 h1, he, not_lt.1 h2, hb⟩
            by_cases h3 : ρ.gt best.2 = true
            · left; exact ⟨ρ, hel, h3, by rw [if_pos h3]⟩
            · right
              refine ⟨by rw [if_neg h3], ?_⟩
              rintro ρ' ⟨d, b, h, hd, hb', _, hben⟩
              rw [hc] at h; cases h
              rw [he] at hb'; cases hb'
              rw [hb] at hben; cases hben
              simpa using h3

theorem pick_fold (l : List Comp) (r : ℚ) (order : List Nat) : ∀ best : Option Nat × Ratio,
    (best.1 = none → best.2 = .fin 0) → (∀ i, best.1 = some i → best.2.gt (.fin 0) = true ∧ Elig l r i best.2) →
    let z := order.foldl (consider l r) best
    (z.1 = none → z.2 = .fin 0) ∧ (∀ i, z.1 = some i → z.2.gt (.fin 0) = true ∧ Elig l r i z.2) ∧
    (∀ ρ : Ratio, ρ.gt best.2 = false → ρ.gt z.2 = false) ∧ ∀ i ∈ order, ∀ ρ, Elig l r i ρ → ρ.gt z.2 = false := by
  induction order with
  | nil => intro best h1 h2; exact ⟨h1, h2, fun _ h => h, by simp⟩
  | cons i order ih =>
    intro best h1 h2
    simp only [List.foldl_cons]
    rcases consider_cases l r best i with ⟨ρ, hel, hgt, he⟩ | ⟨he, hno⟩
    · rw [he]
      have hpos : ρ.gt (.fin 0) = true := by
        refine gt_zero_trans ρ best.2 hgt ?_
        cases hb : best.1 with
        | none => exact Or.inl (h1 hb)
        | some j => exact Or.inr (h2 j hb).1
      obtain ⟨a, b, c, d⟩ := ih (some i, ρ) (by simp) (by intro j hj; cases hj; exact ⟨hpos, hel⟩)
      refine ⟨a, b, fun σ hσ => c σ (gt_trans ρ best.2 σ hgt hσ), ?_⟩
      intro j hj σ hσ
      rcases List.mem_cons.1 hj with rfl | hj
      · obtain ⟨c1, a1, q1, _, q3, _, q5⟩ := hel
        obtain ⟨c2, a2, w1, _, w3, _, w5⟩ := hσ
        rw [q1] at w1; cases w1
        rw [q3] at w3; cases w3
        rw [q5] at w5; cases w5
        exact c ρ (gt_irrefl ρ)
      · exact d j hj σ hσ
    · rw [he]
      obtain ⟨a, b, c, d⟩ := ih best h1 h2
      refine ⟨a, b, c, ?_⟩
      intro j hj σ hσ
      rcases List.mem_cons.1 hj with rfl | hj
      · exact c σ (hno σ hσ)
      · exact d j hj σ hσ

theorem pick_some (order : List Nat) (l : List Comp) (r : ℚ) (i : Nat) (h : pick order l r = some i) :
    ∃ ρ, Elig l r i ρ ∧ ρ.gt (.fin 0) = true ∧ ∀ j ∈ order, ∀ σ, Elig l r j σ → σ.gt ρ = false := by
  obtain ⟨_, b, _, d⟩ := pick_fold l r order (none, .fin 0) (fun _ => rfl) (by simp)
  have := b i h
  exact ⟨_, this.2, this.1, d⟩

theorem pick_none (order : List Nat) (l : List Comp) (r : ℚ) (h : pick order l r = none) :
    ∀ j ∈ order, ∀ σ, Elig l r j σ → σ.gt (.fin 0) = false := by
  obtain ⟨a, _, _, d⟩ := pick_fold l r order (none, .fin 0) (fun _ => rfl) (by simp)
  have h0 := a h
  intro j hj σ hσ
  have := d j hj σ hσ
  rw [h0] at this
  exact this

/-! ### The second pass -/

theorem upgrade_inv (order : List Nat) (P : Nat → List Comp → ℚ → Prop)
    (step : ∀ n l r i c, P (n + 1) l r → 0 < r → pick order l r = some i → l[i]? = some c → P n (l.set i c.next) (r - c.extra.getD 0)) :
    ∀ n l r, P n l r → ∃ n', P n' (upgrade order n l r).1 (upgrade order n l r).2 ∧
      (n' = 0 ∨ (upgrade order n l r).2 ≤ 0 ∨ pick order (upgrade order n l r).1 (upgrade order n l r).2 = none) := by
  intro n
  induction n with
  | zero => intro l r h; exact ⟨0, h, Or.inl rfl⟩
  | succ n ih =>
    intro l r h
    rw [upgrade]
    by_cases hr : r > 0
    · rw [if_pos hr]
      cases hp : pick order l r with
      | none => exact ⟨n + 1, h, Or.inr (Or.inr hp)⟩
      | some i =>
        simp only
        cases hc : l[i]? with
        | none =>
          obtain ⟨ρ, ⟨c, a, h1, _⟩, _⟩ := pick_some order l r i hp
          rw [hc] at h1; cases h1
        | some c => exact ih _ _ (step n l r i c h hr hp hc)
    · rw [if_neg hr]
      exact ⟨n + 1, h, Or.inr (Or.inl (not_lt.1 hr))⟩

theorem sum_set (f : Comp → ℚ) (l : List Comp) (i : Nat) (c x : Comp) (h : l[i]? = some c) :
    ((l.set i x).map f).sum = (l.map f).sum + (f x - f c) := by
  induction l generalizing i with
  | nil => simp at h
  | cons d l ih =>
    cases i with
    | zero =>
      simp only [List.getElem?_cons_zero, Option.some.injEq] at h
      subst h
      simp only [List.set_cons_zero, List.map_cons, List.sum_cons]
      ring
    | succ i =>
      simp only [List.getElem?_cons_succ] at h
      simp only [List.set_cons_succ, List.map_cons, List.sum_cons]
      rw [ih i h]
      ring

theorem map_set_same (l : List Comp) (i : Nat) (c x : Comp) (h : l[i]? = some c) (hx : x.toMin = c.toMin) :
    (l.set i x).map Comp.toMin = l.map Comp.toMin := by
  rw [List.map_set, hx]
  apply List.ext_getElem?
  intro j
  rw [List.getElem?_set]
  split
  · rename_i hij
    subst hij
    have hlt : i < l.length := (List.getElem?_eq_some_iff.1 h).1
    simp only [List.length_map, hlt, if_true, List.getElem?_map, h, Option.map_some]
  · rfl

theorem mem_set_grid (l : List Comp) (i : Nat) (x : Comp) (h : ∀ c ∈ l, Grid c) (hx : Grid x) : ∀ c ∈ l.set i x, Grid c := by
  intro c hc
  rcases List.mem_or_eq_of_mem_set hc with h1 | h1
  · exact h c h1
  · exact h1 ▸ hx

/-- What holds during the second pass with `n` steps left: `base` are the components at their minimum. -/
structure Pass (base : List Comp) (avail : ℚ) (n : Nat) (l : List Comp) (r : ℚ) : Prop where
  base : l.map Comp.toMin = base
  grid : ∀ c ∈ l, Grid c
  rem : r = avail - (l.map pw).sum
  nonneg : 0 ≤ r
  left : n ≤ 100
  used : (l.map nrm).sum = (100 - n) / 100
  prio : ∀ (i j : Nat) (a b : Comp), l[i]? = some a → l[j]? = some b → Better a b → b.lo < b.cur → a.cur < a.hi → r < (a.pHi - a.pLo) / 100

theorem benefit_better (a b : Comp) (ha : Grid a) (hb : Grid b) (h : Better a b) (ρ : Ratio)
    (hρ : benefit (b.stepSize * b.crit) ((b.pHi - b.pLo) / 100) = some ρ) :
    ∃ σ, benefit (a.stepSize * a.crit) ((a.pHi - a.pLo) / 100) = some σ ∧ σ.gt ρ = true := by
  have da : 0 < a.hi - a.lo := by linarith [ha.lohi]
  have db : 0 < b.hi - b.lo := by linarith [hb.lohi]
  have pa := ha.pp
  have pb := hb.pp
  have ca := ha.c0
  have cb := hb.c0
  unfold Better at h
  have hbd : b.pHi - b.pLo ≠ 0 := by
    intro h0
    rw [h0] at h
    have : 0 ≤ b.crit * (b.hi - b.lo) * (a.pHi - a.pLo) := mul_nonneg (mul_nonneg cb db.le) (by linarith)
    linarith
  have hbp : 0 < b.pHi - b.pLo := lt_of_le_of_ne (by linarith) (Ne.symm hbd)
  unfold benefit at hρ
  rw [if_pos (by intro h0; apply hbd; linarith)] at hρ
  cases hρ
  unfold benefit
  by_cases h0 : a.pHi - a.pLo = 0
  · have hnum : 0 < a.stepSize * a.crit := by
      rw [h0] at h
      have : 0 < a.crit := by
        rcases ca.lt_or_eq with h1 | h1
        · exact h1
        · rw [← h1] at h; simp at h
      unfold Comp.stepSize
      positivity
    rw [if_neg (by rw [h0]; simp), if_pos hnum]
    exact ⟨_, rfl, rfl⟩
  · have hap : 0 < a.pHi - a.pLo := lt_of_le_of_ne (by linarith) (Ne.symm h0)
    rw [if_pos (by intro h1; apply h0; linarith)]
    refine ⟨_, rfl, ?_⟩
    simp only [Ratio.gt, decide_eq_true_eq, Comp.stepSize, gt_iff_lt]
    rw [div_lt_div_iff₀ (by linarith) (by linarith)]
    nlinarith

theorem pass_step (order : List Nat) (base : List Comp) (avail : ℚ) (ho : ∀ i < base.length, i ∈ order) (n : Nat) (l : List Comp) (r : ℚ) (i : Nat) (c : Comp)
    (h : Pass base avail (n + 1) l r) (_hr : 0 < r) (hp : pick order l r = some i) (hc : l[i]? = some c) :
    Pass base avail n (l.set i c.next) (r - c.extra.getD 0) := by
  obtain ⟨ρ, ⟨c', a, q1, q2, q3, q4, q5⟩, _, hmax⟩ := pick_some order l r i hp
  rw [hc] at q1
  cases q1
  have hmem : c ∈ l := List.mem_of_getElem? hc
  have hg := h.grid c hmem
  obtain ⟨g1, g2, g3, g4⟩ := grid_next c hg q2
  have hex := grid_extra c hg q2
  rw [hex] at q3
  cases q3
  rw [hex, Option.getD_some]
  have hlen : l.length = base.length := by rw [← h.base]; simp
  have hcost : 0 ≤ (c.pHi - c.pLo) / 100 := by have := hg.pp; linarith
  refine ⟨?_, mem_set_grid l i _ h.grid g1, ?_, by linarith, by have := h.left; omega, ?_, ?_⟩
  · rw [← h.base]
    exact map_set_same l i c _ hc rfl
  · rw [sum_set pw l i c _ hc, g3, h.rem]
    ring
  · rw [sum_set nrm l i c _ hc, g2, h.used]
    push_cast
    ring
  · intro i' j' a' b' hi' hj' hbt hbl hal
    have hile : i < l.length := (List.getElem?_eq_some_iff.1 hc).1
    rw [List.getElem?_set] at hi' hj'
    -- the old component at position i'
    by_cases hii : i = i'
    · rw [if_pos hii, if_pos hile] at hi'
      cases hi'
      by_cases hjj : i = j'
      · rw [if_pos hjj, if_pos hile] at hj'
        cases hj'
        exact absurd hbt (lt_irrefl _)
      · rw [if_neg hjj] at hj'
        have hold := h.prio i j' c b' hc hj' hbt hbl q2
        show r - _ < (c.pHi - c.pLo) / 100
        linarith
    · rw [if_neg hii] at hi'
      by_cases hjj : i = j'
      · rw [if_pos hjj, if_pos hile] at hj'
        cases hj'
        by_contra hcon
        have hga := h.grid a' (List.mem_of_getElem? hi')
        have hafford : ¬ r < (a'.pHi - a'.pLo) / 100 := by intro hlt; apply hcon; linarith
        obtain ⟨σ, hσ, hgt⟩ := benefit_better a' c hga hg hbt ρ q5
        have hin : i' ∈ order := ho i' (by rw [← hlen]; exact (List.getElem?_eq_some_iff.1 hi').1)
        have := hmax i' hin σ ⟨a', _, hi', hal, grid_extra a' hga hal, not_lt.1 hafford, hσ⟩
        rw [hgt] at this
        cases this
      · rw [if_neg hjj] at hj'
        have := h.prio i' j' a' b' hi' hj' hbt hbl hal
        linarith

theorem toMin_idem (l : List Comp) : (l.map Comp.toMin).map Comp.toMin = l.map Comp.toMin := by
  rw [List.map_map]; rfl

theorem pass_start (l : List Comp) (avail : ℚ) (hv : ∀ c ∈ l, Valid c) (hf : (l.map (·.pLo)).sum ≤ avail) :
    total (l.map Comp.toMin) = some ((l.map (·.pLo)).sum) ∧
    Pass (l.map Comp.toMin) avail 100 (l.map Comp.toMin) (avail - (l.map (·.pLo)).sum) := by
  have hmem : ∀ c ∈ l.map Comp.toMin, c.lo < c.hi ∧ c.pLo ≤ c.pHi ∧ 0 ≤ c.crit ∧ c.cur = c.lo := by
    intro c hc
    obtain ⟨d, hd, rfl⟩ := List.mem_map.1 hc
    exact ⟨(hv d hd).lohi, (hv d hd).pp, (hv d hd).c0, rfl⟩
  have hs : ((l.map Comp.toMin).map pw).sum = (l.map (·.pLo)).sum := by
    rw [List.map_map]
    congr 1
    apply List.map_congr_left
    intro c _
    simp [pw, nrm, Comp.toMin]
  have hn : ((l.map Comp.toMin).map nrm).sum = 0 := by
    rw [List.map_map]
    have : (nrm ∘ Comp.toMin) = fun _ => (0 : ℚ) := by funext c; simp [nrm, Comp.toMin]
    rw [this]; simp
  refine ⟨by rw [total_eq _ fun c hc => (hmem c hc).1, hs], toMin_idem l, ?_, by rw [hs], by linarith, le_rfl, by rw [hn]; norm_num, ?_⟩
  · intro c hc
    obtain ⟨a, b, d, e⟩ := hmem c hc
    exact ⟨a, b, d, 0, by norm_num, by rw [e]; simp⟩
  · intro i j a b _ hj _ hlt
    have := (hmem b (List.mem_of_getElem? hj)).2.2.2
    linarith

/-- The outcome of the second pass. -/
theorem rebalance_feasible (order : List Nat) (l : List Comp) (avail : ℚ) (hv : ∀ c ∈ l, Valid c) (ho : ∀ i < l.length, i ∈ order)
    (hf : (l.map (·.pLo)).sum ≤ avail) :
    ∃ n r, Pass (l.map Comp.toMin) avail n (rebalance order l avail) r ∧ (n = 0 ∨ r ≤ 0 ∨ pick order (rebalance order l avail) r = none) := by
  obtain ⟨h1, h2⟩ := pass_start l avail hv hf
  have hre : rebalance order l avail = (upgrade order 100 (l.map Comp.toMin) (avail - (l.map (·.pLo)).sum)).1 := by
    unfold rebalance
    dsimp only
    rw [h1]
    simp only
    rw [if_neg (not_lt.2 hf)]
  obtain ⟨n, hn, hstop⟩ := upgrade_inv order (Pass (l.map Comp.toMin) avail)
    (fun n l' r i c h hr hp hc => pass_step order _ avail (by simpa using ho) n l' r i c h hr hp hc) 100 _ _ h2
  rw [hre]
  exact ⟨n, _, hn, hstop⟩

theorem rebalance_short (order : List Nat) (l : List Comp) (avail : ℚ) (hv : ∀ c ∈ l, c.lo < c.hi) (hf : avail < (l.map (·.pLo)).sum) :
    rebalance order l avail = l.map Comp.emergency := by
  have hs : ((l.map Comp.toMin).map pw).sum = (l.map (·.pLo)).sum := by
    rw [List.map_map]
    congr 1
    apply List.map_congr_left
    intro c _
    simp [pw, nrm, Comp.toMin]
  unfold rebalance
  dsimp only
  rw [total_eq _ (by intro c hc; obtain ⟨d, hd, rfl⟩ := List.mem_map.1 hc; exact hv d hd), hs]
  simp only
  rw [if_pos hf, List.map_map]
  rfl

theorem rebalance_degenerate (order : List Nat) (l : List Comp) (avail : ℚ) (h : ∃ c ∈ l, c.lo = c.hi) :
    rebalance order l avail = l.map Comp.toMin := by
  unfold rebalance
  dsimp only
  rw [total_none]
  obtain ⟨c, hc, he⟩ := h
  exact ⟨c.toMin, List.mem_map_of_mem hc, he⟩

/-! ### Rebalancing changes levels only -/

theorem upgrade_strip (order : List Nat) : ∀ n l r, (upgrade order n l r).1.map Comp.toMin = l.map Comp.toMin := by
  intro n
  induction n with
  | zero => intro l r; rfl
  | succ n ih =>
    intro l r
    rw [upgrade]
    split
    · split
      · rfl
      · split
        · rfl
        · rename_i c hc
          rw [ih]
          exact map_set_same _ _ c _ hc rfl
    · rfl

theorem rebalance_strip (order : List Nat) (l : List Comp) (avail : ℚ) : (rebalance order l avail).map Comp.toMin = l.map Comp.toMin := by
  unfold rebalance
  dsimp only
  split
  · exact toMin_idem l
  · split
    · rw [List.map_map, List.map_map]
      apply List.map_congr_left
      intro c _
      simp only [Function.comp]
      unfold Comp.emergency
      split <;> rfl
    · rw [upgrade_strip, toMin_idem]

theorem rebalance_congr (order : List Nat) (l l' : List Comp) (avail : ℚ) (h : l.map Comp.toMin = l'.map Comp.toMin) :
    rebalance order l avail = rebalance order l' avail := by
  unfold rebalance
  rw [h]

theorem strip_crit (l l' : List Comp) (h : l.map Comp.toMin = l'.map Comp.toMin) : l.map (·.crit) = l'.map (·.crit) := by
  have : ∀ l : List Comp, l.map (·.crit) = (l.map Comp.toMin).map (·.crit) := by intro l; rw [List.map_map]; rfl
  rw [this l, this l', h]

/-! ### Histories -/

/-- The configuration of a manager: what was registered, without the levels. -/
def config (m : Mgr) : List (Nat × Comp) := m.comps.map fun p => (p.1, p.2.toMin)

/-- What holds after every history. -/
structure Inv (srt : List ℚ → List Nat) (m : Mgr) : Prop where
  sorted : (m.comps.map (·.1)).Pairwise (· < ·)
  bound : ∀ p ∈ m.comps, p.1 < m.next
  bal : m.list = rebalance (srt (m.list.map (·.crit))) m.list m.budget

theorem rebalance_length (order : List Nat) (l : List Comp) (avail : ℚ) : (rebalance order l avail).length = l.length := by
  have := congrArg List.length (rebalance_strip order l avail)
  simpa using this

theorem balance_list (srt : List ℚ → List Nat) (m : Mgr) :
    (m.balance srt).list = rebalance (srt (m.list.map (·.crit))) m.list m.budget ∧ (m.balance srt).comps.map (·.1) = m.comps.map (·.1) := by
  have hl : (m.comps.map (·.1)).length = (rebalance (srt (m.list.map (·.crit))) m.list m.budget).length := by
    rw [rebalance_length]; simp [Mgr.list]
  constructor
  · show List.map (·.2) (List.zip _ _) = _
    exact List.map_snd_zip hl.ge
  · show List.map (·.1) (List.zip _ _) = _
    exact List.map_fst_zip hl.le

theorem zip_config (l : List (Nat × Comp)) (x : List Comp) (h : x.map Comp.toMin = (l.map (·.2)).map Comp.toMin) :
    ((l.map (·.1)).zip x).map (fun p => (p.1, p.2.toMin)) = l.map fun p => (p.1, p.2.toMin) := by
  induction l generalizing x with
  | nil => rfl
  | cons a l ih =>
    cases x with
    | nil => simp at h
    | cons b x =>
      simp only [List.map_cons, List.cons.injEq] at h
      simp only [List.map_cons, List.zip_cons_cons, ih x h.2, h.1]

theorem balance_config (srt : List ℚ → List Nat) (m : Mgr) : config (m.balance srt) = config m :=
  zip_config m.comps _ (rebalance_strip _ _ _)

theorem balance_inv (srt : List ℚ → List Nat) (m : Mgr) (h1 : (m.comps.map (·.1)).Pairwise (· < ·)) (h2 : ∀ p ∈ m.comps, p.1 < m.next) :
    Inv srt (m.balance srt) := by
  obtain ⟨a, b⟩ := balance_list srt m
  refine ⟨by rw [b]; exact h1, ?_, ?_⟩
  · intro p hp
    have : p.1 ∈ (m.balance srt).comps.map (·.1) := List.mem_map_of_mem hp
    rw [b] at this
    obtain ⟨q, hq, hqe⟩ := List.mem_map.1 this
    rw [← hqe]
    exact h2 q hq
  · have hs : (m.balance srt).list.map Comp.toMin = m.list.map Comp.toMin := by rw [a]; exact rebalance_strip _ _ _
    have hb : (m.balance srt).budget = m.budget := rfl
    rw [strip_crit _ _ hs, rebalance_congr _ _ _ _ hs, hb]
    exact a

theorem step_inv (srt : List ℚ → List Nat) (m : Mgr) (o : Op) (h : Inv srt m) : Inv srt (m.step srt o) := by
  cases o with
  | register c =>
    apply balance_inv
    · show (List.map (·.1) (m.comps ++ [(m.next, c.toMin)])).Pairwise (· < ·)
      rw [List.map_append, List.pairwise_append]
      refine ⟨h.sorted, by simp, ?_⟩
      intro a ha b hb
      obtain ⟨p, hp, rfl⟩ := List.mem_map.1 ha
      have : b = m.next := by simpa using hb
      rw [this]
      exact h.bound p hp
    · intro p hp
      rcases List.mem_append.1 hp with hp | hp
      · have := h.bound p hp
        show p.1 < m.next + 1
        omega
      · have : p = (m.next, c.toMin) := by simpa using hp
        rw [this]
        show m.next < m.next + 1
        omega
  | update id c =>
    show Inv srt (m.update srt id c).2
    unfold Mgr.update
    split
    · have hk : (m.comps.map fun (p : Nat × Comp) => if p.1 = id then (id, c) else p).map (·.1) = m.comps.map (·.1) := by
        rw [List.map_map]
        apply List.map_congr_left
        intro p _
        simp only [Function.comp]
        split
        · rename_i hid; exact hid.symm
        · rfl
      apply balance_inv
      · have := h.sorted
        rw [← hk] at this
        exact this
      · intro p hp
        have : p.1 ∈ (m.comps.map fun (p : Nat × Comp) => if p.1 = id then (id, c) else p).map (·.1) := List.mem_map_of_mem hp
        rw [hk] at this
        obtain ⟨q, hq, hqe⟩ := List.mem_map.1 this
        rw [← hqe]
        exact h.bound q hq
    · exact h
  | remove id =>
    show Inv srt (m.remove srt id).2
    unfold Mgr.remove
    split
    · apply balance_inv
      · exact h.sorted.sublist ((List.filter_sublist).map _)
      · intro p hp
        exact h.bound p (List.mem_of_mem_filter hp)
    · exact h
  | setState s =>
    show Inv srt (m.setState srt s)
    unfold Mgr.setState
    split
    · exact balance_inv srt _ h.sorted h.bound
    · exact h

theorem new_inv (srt : List ℚ → List Nat) (w : ℚ) (st : PState) : Inv srt (Mgr.new w st) := by
  refine ⟨by simp [Mgr.new], by simp [Mgr.new], ?_⟩
  have : ∀ order avail, rebalance order [] avail = [] := by
    intro order avail
    have := rebalance_strip order [] avail
    simpa using this
  exact (this _ _).symm

theorem run_inv (srt : List ℚ → List Nat) (ops : List Op) (m : Mgr) (h : Inv srt m) : Inv srt (m.run srt ops) := by
  induction ops generalizing m with
  | nil => exact h
  | cons o ops ih => exact ih _ (step_inv srt m o h)

/-- A state reached from construction by valid registrations and updates, removals and changes of the power state. -/
def Reach (srt : List ℚ → List Nat) (m : Mgr) : Prop := ∃ w st ops, (∀ o ∈ ops, Good o) ∧ m = (Mgr.new w st).run srt ops

theorem reach_inv (srt : List ℚ → List Nat) (m : Mgr) (h : Reach srt m) : Inv srt m := by
  obtain ⟨w, st, ops, _, rfl⟩ := h
  exact run_inv srt ops _ (new_inv srt w st)

theorem valid_toMin (c : Comp) : Valid c.toMin ↔ Valid c := ⟨fun ⟨a, b, c, d, e, f, g⟩ => ⟨a, b, c, d, e, f, g⟩, fun ⟨a, b, c, d, e, f, g⟩ => ⟨a, b, c, d, e, f, g⟩⟩

theorem valid_config (m : Mgr) : (∀ p ∈ m.comps, Valid p.2) ↔ ∀ p ∈ config m, Valid p.2 := by
  unfold config
  constructor
  · intro h p hp
    obtain ⟨q, hq, rfl⟩ := List.mem_map.1 hp
    exact (valid_toMin _).2 (h q hq)
  · intro h p hp
    have := h _ (List.mem_map_of_mem (f := fun p => (p.1, p.2.toMin)) hp)
    exact (valid_toMin _).1 this

theorem step_valid (srt : List ℚ → List Nat) (m : Mgr) (o : Op) (ho : Good o) (h : ∀ p ∈ m.comps, Valid p.2) : ∀ p ∈ (m.step srt o).comps, Valid p.2 := by
  have hb : ∀ x : Mgr, (∀ p ∈ x.comps, Valid p.2) → ∀ p ∈ (x.balance srt).comps, Valid p.2 := by
    intro x hx
    rw [valid_config, balance_config, ← valid_config]
    exact hx
  cases o with
  | register c =>
    refine hb _ ?_
    intro p hp
    rcases List.mem_append.1 hp with hp | hp
    · exact h p hp
    · have : p = (m.next, c.toMin) := by simpa using hp
      rw [this]
      exact (valid_toMin c).2 ho
  | update id c =>
    show ∀ p ∈ (m.update srt id c).2.comps, Valid p.2
    unfold Mgr.update
    split
    · refine hb _ ?_
      intro p hp
      obtain ⟨q, hq, rfl⟩ := List.mem_map.1 hp
      by_cases hid : q.1 = id
      · rw [if_pos hid]; exact ho
      · rw [if_neg hid]; exact h q hq
    · exact h
  | remove id =>
    show ∀ p ∈ (m.remove srt id).2.comps, Valid p.2
    unfold Mgr.remove
    split
    · exact hb _ fun p hp => h p (List.mem_of_mem_filter hp)
    · exact h
  | setState s =>
    show ∀ p ∈ (m.setState srt s).comps, Valid p.2
    unfold Mgr.setState
    split
    · exact hb _ h
    · exact h

theorem reach_valid (srt : List ℚ → List Nat) (m : Mgr) (h : Reach srt m) : ∀ c ∈ m.list, Valid c := by
  obtain ⟨w, st, ops, hg, rfl⟩ := h
  have key : ∀ (ops : List Op) (m : Mgr), (∀ o ∈ ops, Good o) → (∀ p ∈ m.comps, Valid p.2) → ∀ p ∈ (m.run srt ops).comps, Valid p.2 := by
    intro ops
    induction ops with
    | nil => intro m _ h; exact h
    | cons o ops ih =>
      intro m ho h
      exact ih _ (fun x hx => ho x (List.mem_cons_of_mem _ hx)) (step_valid srt m o (ho o List.mem_cons_self) h)
  intro c hc
  obtain ⟨p, hp, rfl⟩ := List.mem_map.1 hc
  exact key ops _ hg (by simp [Mgr.new]) p hp

theorem level_mem (m : Mgr) (hs : (m.comps.map (·.1)).Pairwise (· < ·)) (id : Nat) (c : Comp) (h : (id, c) ∈ m.comps) : m.level id = some c.cur := by
  unfold Mgr.level
  have : m.comps.find? (fun p => decide (p.1 = id)) = some (id, c) := by
    generalize m.comps = l at hs h
    induction l with
    | nil => simp at h
    | cons a l ih =>
      rw [List.map_cons, List.pairwise_cons] at hs
      rcases List.mem_cons.1 h with rfl | h
      · simp
      · have : a.1 < id := hs.1 id (List.mem_map_of_mem (f := (·.1)) h)
        rw [List.find?_cons_of_neg (by simp; omega)]
        exact ih hs.2 h
  rw [this]
  rfl

/-- The outcome for a reachable manager whose minimum need fits. -/
theorem reach_pass (srt : List ℚ → List Nat) (hs : SortDesc srt) (m : Mgr) (h : Reach srt m) (hf : minPower m ≤ m.budget) :
    ∃ n r, Pass (m.list.map Comp.toMin) m.budget n m.list r ∧ (n = 0 ∨ r ≤ 0 ∨ pick (srt (m.list.map (·.crit))) m.list r = none) ∧
      ∀ i < m.list.length, i ∈ srt (m.list.map (·.crit)) := by
  have ho : ∀ i < m.list.length, i ∈ srt (m.list.map (·.crit)) := by
    intro i hi
    rw [(hs _).1.mem_iff]
    simpa using hi
  obtain ⟨n, r, h1, h2⟩ := rebalance_feasible (srt (m.list.map (·.crit))) m.list m.budget (reach_valid srt m h) ho hf
  rw [← (reach_inv srt m h).bal] at h1 h2
  exact ⟨n, r, h1, h2, ho⟩

/-! ### C100 -/

/-- C100: after any history, if the components can be powered at their minimum levels at all, the power in use is within the budget of the
current power state, every component has at least its minimum and at most its maximum level, and that is the level reported for it. -/
theorem C100_budget (srt : List ℚ → List Nat) (hs : SortDesc srt) (m : Mgr) (h : Reach srt m) (hf : minPower m ≤ m.budget) :
    (∃ u, m.usage = some u ∧ minPower m ≤ u ∧ u ≤ m.budget) ∧ ∀ id c, (id, c) ∈ m.comps → m.level id = some c.cur ∧ c.lo ≤ c.cur ∧ c.cur ≤ c.hi := by
  obtain ⟨n, r, p, _, _⟩ := reach_pass srt hs m h hf
  constructor
  · refine ⟨_, total_eq m.list fun c hc => (p.grid c hc).lohi, ?_, ?_⟩
    · have : ∀ l : List Comp, (∀ c ∈ l, Grid c) → (l.map (·.pLo)).sum ≤ (l.map pw).sum := by
        intro l
        induction l with
        | nil => intro _; simp
        | cons c l ih =>
          intro hl
          have h1 := ih fun d hd => hl d (List.mem_cons_of_mem _ hd)
          have hg := hl c List.mem_cons_self
          have h2 : c.pLo ≤ pw c := by
            have := mul_nonneg (grid_nrm c hg).1 (by have := hg.pp; linarith : (0 : ℚ) ≤ c.pHi - c.pLo)
            unfold pw; linarith
          simp only [List.map_cons, List.sum_cons]
          linarith
      exact this _ p.grid
    · have := p.rem
      have := p.nonneg
      linarith
  · intro id c hc
    have hg := p.grid c (List.mem_map_of_mem (f := (·.2)) hc)
    exact ⟨level_mem m (reach_inv srt m h).sorted id c hc, (grid_nrm c hg).2.2⟩

/-- An insertion sort of the positions, as an instance of `std::sort`. -/
def demoSort (l : List ℚ) : List Nat := (List.range l.length).insertionSort fun i j => l.getD j 0 ≤ l.getD i 0

theorem demoSort_ok : SortDesc demoSort := by
  intro l
  refine ⟨List.perm_insertionSort _ _, ?_⟩
  have : Std.Total (fun i j : Nat => l.getD j 0 ≤ l.getD i 0) := ⟨fun i j => le_total _ _⟩
  have : IsTrans Nat (fun i j : Nat => l.getD j 0 ≤ l.getD i 0) := ⟨fun i j k h1 h2 => le_trans h2 h1⟩
  exact List.pairwise_insertionSort _ _

/-- Two components: navigation and a camera. -/
def nav : Comp := { name := "nav", lo := 1 / 2, hi := 1, cur := 0, pLo := 10, pHi := 20, crit := 9 / 10 }
/-- The camera. -/
def cam : Comp := { name := "cam", lo := 1 / 5, hi := 4 / 5, cur := 0, pLo := 5, pHi := 15, crit := 3 / 10 }

theorem nav_valid : Valid nav := by constructor <;> norm_num [nav]
theorem cam_valid : Valid cam := by constructor <;> norm_num [cam]

/-- Both registered with a budget of 40 W, then science operation (36 W). -/
def demo : Mgr := (Mgr.new 40).run demoSort [.register cam, .register nav, .setState .science]

theorem demo_reach : Reach demoSort demo := ⟨40, .nominal, _, by
  intro o ho
  simp only [List.mem_cons, List.not_mem_nil, or_false] at ho
  rcases ho with rfl | rfl | rfl
  · exact cam_valid
  · exact nav_valid
  · trivial, rfl⟩

/-- Non-vacuity: navigation is at its maximum, the camera untouched, although ten watts are left. -/
example : minPower demo ≤ demo.budget ∧ demo.level 1 = some 1 ∧ demo.level 0 = some (1 / 5) ∧ demo.usage = some 25 ∧ demo.budget = 36 := by
  decide +kernel

end Verif.Props.PowerP
