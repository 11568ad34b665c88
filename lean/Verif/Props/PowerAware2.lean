import Verif.Props.PowerAware
import Mathlib.Analysis.Complex.ExponentialBounds
/-!
C100 (negation) and C101-C104: power-aware protection (/repo/include/rad_ml/power/power_aware_protection.hpp).
-/
namespace Verif.Props.PowerP
open Verif Verif.Power

theorem mem_list (m : Mgr) (id : Nat) (c : Comp) (h : (id, c) ∈ m.comps) : c ∈ m.list := List.mem_map_of_mem (f := (·.2)) h

theorem mem_getElem (l : List Comp) (c : Comp) (h : c ∈ l) : ∃ i : Nat, l[i]? = some c := List.mem_iff_getElem?.1 h

/-- The documented share of the total budget of each power state, in percent. -/
def percent : PState → ℚ
  | .emergency => 20
  | .low => 40
  | .nominal => 70
  | .science => 90
  | .peak => 100

/-- C100: the budget is the documented share of the total given at construction, whatever the history: never more than the total, and never less in a higher power state. -/
theorem C100_shares (srt : List ℚ → List Nat) (w : ℚ) (hw : 0 ≤ w) (st : PState) (ops : List Op) :
    let m := (Mgr.new w st).run srt ops
    m.budget = w * percent m.state / 100 ∧ m.budget ≤ w ∧ ∀ s, percent m.state ≤ percent s → m.budget ≤ (m.setState srt s).budget := by
  intro m
  have hwatts : ∀ (ops : List Op) (m : Mgr), (m.run srt ops).watts = m.watts := by
    intro ops
    induction ops with
    | nil => intro m; rfl
    | cons o t ih =>
      intro m
      have e : m.run srt (o :: t) = (m.step srt o).run srt t := rfl
      rw [e, ih]
      cases o with
      | register c => rfl
      | update id c => simp only [Mgr.step, Mgr.update]; split <;> rfl
      | remove id => simp only [Mgr.step, Mgr.remove]; split <;> rfl
      | setState s => simp only [Mgr.step, Mgr.setState]; split <;> rfl
  have h1 : m.watts = w := hwatts ops _
  have hb : ∀ s, fraction s = percent s / 100 := by intro s; cases s <;> norm_num [fraction, percent]
  have hp : ∀ s, percent s ≤ 100 := by intro s; cases s <;> norm_num [percent]
  refine ⟨?_, ?_, ?_⟩
  · unfold Mgr.budget; rw [h1, hb]; ring
  · unfold Mgr.budget; rw [h1, hb]
    have := hp m.state
    nlinarith
  · intro s hs
    unfold Mgr.setState
    split
    · show m.watts * fraction m.state ≤ m.watts * fraction s
      rw [h1, hb, hb]
      apply mul_le_mul_of_nonneg_left _ hw
      linarith
    · exact le_refl _

/-- Non-vacuity: 40 W in science operation. -/
example : demo.budget = 36 := by decide +kernel

/-- C100 (negation): one component whose minimum and maximum levels are equal disables the manager: whatever the budget, every component stays
at its minimum and the power in use is reported as not a number. -/
theorem C100_degenerate_violated (srt : List ℚ → List Nat) (w : ℚ) (st : PState) (ops : List Op) (m : Mgr) (hm : m = (Mgr.new w st).run srt ops)
    (d : Comp) (hd : d ∈ m.list) (he : d.lo = d.hi) :
    m.usage = none ∧ ∀ id c, (id, c) ∈ m.comps → m.level id = some c.lo := by
  have hi : Inv srt m := hm ▸ run_inv srt ops _ (new_inv srt w st)
  have hb := hi.bal
  rw [rebalance_degenerate _ _ _ ⟨d, hd, he⟩] at hb
  refine ⟨total_none _ ⟨d, hd, he⟩, ?_⟩
  intro id c hc
  rw [level_mem m hi.sorted id c hc]
  have : c ∈ m.list.map Comp.toMin := by rw [← hb]; exact mem_list m id c hc
  obtain ⟨e, _, rfl⟩ := List.mem_map.1 this
  rfl

/-- Non-vacuity: a component with the fixed level 1/2 beside the camera, with a megawatt. -/
example : ((Mgr.new 1000000).run demoSort [.register cam, .register { lo := 1 / 2, hi := 1 / 2, cur := 0, pLo := 1, pHi := 1, crit := 1 }]).level 0 = some (1 / 5) := by
  decide +kernel

/-! ### C101 -/

/-- C101: protection is bought where it is worth most: if a component that offers more criticality-weighted protection per watt than another is not at its
maximum although the other was raised above its minimum, then the power left does not pay for one more step (a hundredth of the range) of it. -/
theorem C101_priority (srt : List ℚ → List Nat) (hs : SortDesc srt) (m : Mgr) (h : Reach srt m) (hf : minPower m ≤ m.budget)
    (ia ib : Nat) (a b : Comp) (ha : (ia, a) ∈ m.comps) (hb : (ib, b) ∈ m.comps) (hbt : Better a b) (hl : b.lo < b.cur) (hh : a.cur < a.hi) :
    ∃ u, m.usage = some u ∧ m.budget - u < (a.pHi - a.pLo) / 100 := by
  obtain ⟨n, r, p, _, _⟩ := reach_pass srt hs m h hf
  obtain ⟨i, hi⟩ := mem_getElem _ _ (mem_list m ia a ha)
  obtain ⟨j, hj⟩ := mem_getElem _ _ (mem_list m ib b hb)
  refine ⟨_, total_eq m.list fun c hc => (p.grid c hc).lohi, ?_⟩
  have := p.prio i j a b hi hj hbt hl hh
  rw [p.rem] at this
  exact this

/-- Non-vacuity: navigation is the better of the two, is raised first, and the better one below its maximum stops for want of power. -/
example : Better nav cam ∧ minPower ((Mgr.new 28).run demoSort [.register cam, .register nav]) ≤ ((Mgr.new 28).run demoSort [.register cam, .register nav]).budget ∧
    ((Mgr.new 28).run demoSort [.register cam, .register nav]).level 1 = some (1 / 2 + 23 / 100) := by
  refine ⟨by norm_num [Better, nav, cam], ?_, ?_⟩ <;> decide +kernel

/-- C101: the manager stops only when all hundred steps are used, the budget is used up, or no component that matters can be raised further: each
has criticality 0, is at its maximum, or needs more than what is left for one more step. -/
theorem C101_exhausted_partial (srt : List ℚ → List Nat) (hs : SortDesc srt) (m : Mgr) (h : Reach srt m) (hf : minPower m ≤ m.budget) :
    ∃ u, m.usage = some u ∧ ((m.list.map nrm).sum = 1 ∨ u = m.budget ∨
      ∀ id c, (id, c) ∈ m.comps → c.crit = 0 ∨ c.cur = c.hi ∨ m.budget - u < (c.pHi - c.pLo) / 100) := by
  obtain ⟨n, r, p, hstop, ho⟩ := reach_pass srt hs m h hf
  refine ⟨_, total_eq m.list fun c hc => (p.grid c hc).lohi, ?_⟩
  rcases hstop with h0 | h0 | h0
  · left
    rw [p.used, h0]
    norm_num
  · right; left
    have := p.nonneg
    have := p.rem
    linarith
  · right; right
    intro id c hc
    have hg := p.grid c (mem_list m id c hc)
    obtain ⟨i, hi⟩ := mem_getElem _ _ (mem_list m id c hc)
    by_cases hcr : c.crit = 0
    · exact Or.inl hcr
    right
    by_cases hlt : c.cur < c.hi
    · right
      rw [← p.rem]
      by_contra hcon
      have hcp : 0 < c.crit := lt_of_le_of_ne hg.c0 (Ne.symm hcr)
      have hd : 0 < c.hi - c.lo := by linarith [hg.lohi]
      have hnum : 0 < c.stepSize * c.crit := by unfold Comp.stepSize; positivity
      have hin := ho i (List.getElem?_eq_some_iff.1 hi).1
      by_cases hz : (c.pHi - c.pLo) / 100 = 0
      · have := pick_none _ _ _ h0 i hin .inf ⟨c, _, hi, hlt, grid_extra c hg hlt, not_lt.1 hcon, by
          unfold benefit; rw [if_neg (by simpa using hz), if_pos hnum]⟩
        simp [Ratio.gt] at this
      · have hpos : 0 < (c.pHi - c.pLo) / 100 := lt_of_le_of_ne (by have := hg.pp; linarith) (Ne.symm hz)
        have := pick_none _ _ _ h0 i hin (.fin (c.stepSize * c.crit / ((c.pHi - c.pLo) / 100))) ⟨c, _, hi, hlt, grid_extra c hg hlt, not_lt.1 hcon, by
          unfold benefit; rw [if_pos hz]⟩
        have hq := div_pos hnum hpos
        simp only [Ratio.gt, decide_eq_false_iff_not, gt_iff_lt, not_lt] at this
        linarith
    · left
      exact le_antisymm (grid_nrm c hg).2.2.2 (not_lt.1 hlt)

/-- Non-vacuity of the second and third cases, and of the first: `demo` above stops with 11 W left and the camera at its minimum. -/
example : minPower demo ≤ demo.budget ∧ (demo.list.map nrm).sum = 1 := by decide +kernel

/-- C101 (negation): "maximizes protection effectiveness under the current power budget": the hundred steps are shared by all components, so the
levels, as fractions of their ranges, never sum to more than 1, however much power there is; two components never are both at their maximum. -/
theorem C101_step_limit_violated (srt : List ℚ → List Nat) (hs : SortDesc srt) (m : Mgr) (h : Reach srt m) (hf : minPower m ≤ m.budget) :
    (m.list.map nrm).sum ≤ 1 ∧
    ∀ ia ib a b, ia ≠ ib → (ia, a) ∈ m.comps → (ib, b) ∈ m.comps → ¬ (a.cur = a.hi ∧ b.cur = b.hi) := by
  obtain ⟨n, r, p, _, _⟩ := reach_pass srt hs m h hf
  have hsum : (m.list.map nrm).sum ≤ 1 := by
    rw [p.used, div_le_one (by norm_num)]
    have : (0 : ℚ) ≤ n := Nat.cast_nonneg n
    linarith
  refine ⟨hsum, ?_⟩
  rintro ia ib a b hne ha hb ⟨h1, h2⟩
  have one : ∀ c, Grid c → c.cur = c.hi → nrm c = 1 := by
    intro c hg hc
    unfold nrm
    rw [hc]
    exact div_self (by linarith [hg.lohi])
  have hnn : ∀ l : List (Nat × Comp), (∀ p ∈ l, Grid p.2) → 0 ≤ ((l.map (·.2)).map nrm).sum := by
    intro l hl
    apply List.sum_nonneg
    intro x hx
    rw [List.map_map] at hx
    obtain ⟨q, hq, rfl⟩ := List.mem_map.1 hx
    exact (grid_nrm _ (hl q hq)).1
  have two : ∀ l : List (Nat × Comp), (∀ p ∈ l, Grid p.2) → ∀ x y : Nat × Comp, x ≠ y → x ∈ l → y ∈ l → nrm x.2 = 1 → nrm y.2 = 1 → 2 ≤ ((l.map (·.2)).map nrm).sum := by
    intro l
    induction l with
    | nil => intro _ x y _ hx; simp at hx
    | cons q l ih =>
      intro hl x y hxy hx hy n1 n2
      have hl' : ∀ p ∈ l, Grid p.2 := fun p hp => hl p (List.mem_cons_of_mem _ hp)
      have hone : ∀ z ∈ l, nrm z.2 = 1 → 1 ≤ ((l.map (·.2)).map nrm).sum := by
        intro z hz nz
        rw [← nz]
        apply List.single_le_sum
        · intro w hw
          rw [List.map_map] at hw
          obtain ⟨q, hq, rfl⟩ := List.mem_map.1 hw
          exact (grid_nrm _ (hl' q hq)).1
        · exact List.mem_map_of_mem (List.mem_map_of_mem (f := (·.2)) hz)
      have hq := (grid_nrm q.2 (hl q List.mem_cons_self)).1
      simp only [List.map_cons, List.sum_cons]
      rcases List.mem_cons.1 hx with ex | hx'
      · rcases List.mem_cons.1 hy with ey | hy'
        · exact absurd (ex.trans ey.symm) hxy
        · have := hone y hy' n2
          rw [← ex]
          linarith
      · rcases List.mem_cons.1 hy with ey | hy'
        · have := hone x hx' n1
          rw [← ey]
          linarith
        · have := ih hl' x y hxy hx' hy' n1 n2; linarith
  have hg : ∀ q ∈ m.comps, Grid q.2 := fun q hq => p.grid _ (mem_list m q.1 q.2 hq)
  have := two m.comps hg (ia, a) (ib, b) (by intro he; exact hne (congrArg Prod.fst he)) ha hb (one a (hg _ ha) h1) (one b (hg _ hb) h2)
  have e : m.list = m.comps.map (·.2) := rfl
  rw [e] at hsum
  linarith

/-- Non-vacuity: with a million watts the camera still is at its minimum. -/
example : ((Mgr.new 1000000).run demoSort [.register cam, .register nav]).level 0 = some (1 / 5) := by decide +kernel

/-- C101 (limit): more power may mean less protection for a component: a rise from NOMINAL to PEAK_PERFORMANCE takes the second component from 7 % to 0. -/
theorem C101_more_power_limit : ∃ (a b : Comp), Valid a ∧ Valid b ∧
    ((Mgr.new 10).run demoSort [.register a, .register b]).level 1 = some (7 / 100) ∧
    ((Mgr.new 10).run demoSort [.register a, .register b, .setState .peak]).level 1 = some 0 := by
  refine ⟨{ lo := 0, hi := 1, cur := 0, pLo := 0, pHi := 1000, crit := 9 / 10 }, { lo := 0, hi := 1, cur := 0, pLo := 0, pHi := 100, crit := 1 / 20 }, ?_, ?_, ?_, ?_⟩
  · constructor <;> norm_num
  · constructor <;> norm_num
  · decide +kernel
  · decide +kernel

/-! ### C102 -/

theorem reach_short (srt : List ℚ → List Nat) (m : Mgr) (h : Reach srt m) (hf : m.budget < minPower m) : m.list = m.list.map Comp.emergency := by
  have hb := (reach_inv srt m h).bal
  rw [rebalance_short _ _ _ (fun c hc => (reach_valid srt m h c hc).lohi) hf] at hb
  exact hb

theorem emergency_cur (l : List Comp) (h : l = l.map Comp.emergency) : ∀ c ∈ l, c.cur = if c.crit > 7 / 10 then c.lo else c.lo / 2 := by
  intro c hc
  rw [h] at hc
  obtain ⟨d, _, rfl⟩ := List.mem_map.1 hc
  unfold Comp.emergency
  by_cases hd : d.crit > 7 / 10
  · rw [if_pos hd]; simp [hd]
  · rw [if_neg hd]
    simp only [hd, if_false]
    ring

theorem sum_le_sum (l : List Comp) (f g : Comp → ℚ) (h : ∀ c ∈ l, f c ≤ g c) : (l.map f).sum ≤ (l.map g).sum := by
  induction l with
  | nil => simp
  | cons c l ih =>
    simp only [List.map_cons, List.sum_cons]
    exact add_le_add (h c List.mem_cons_self) (ih fun d hd => h d (List.mem_cons_of_mem _ hd))

/-- C102: when even the minimum levels need more power than the budget of the power state, every component of criticality above 0.7 gets exactly its minimum level
and every other exactly half of it, and the power reported is at most what the minimum levels need. -/
theorem C102_emergency (srt : List ℚ → List Nat) (m : Mgr) (h : Reach srt m) (hf : m.budget < minPower m) :
    (∀ id c, (id, c) ∈ m.comps → m.level id = some (if c.crit > 7 / 10 then c.lo else c.lo / 2)) ∧
    ∃ u, m.usage = some u ∧ u ≤ minPower m := by
  have hv := reach_valid srt m h
  have he := emergency_cur _ (reach_short srt m h hf)
  refine ⟨?_, _, total_eq m.list fun c hc => (hv c hc).lohi, ?_⟩
  · intro id c hc
    rw [level_mem m (reach_inv srt m h).sorted id c hc, he c (mem_list m id c hc)]
  · apply sum_le_sum
    intro c hc
    have hd : 0 < c.hi - c.lo := by linarith [(hv c hc).lohi]
    have hcur : c.cur ≤ c.lo := by
      rw [he c hc]
      have := (hv c hc).lo0
      split <;> linarith
    have hn : nrm c ≤ 0 := div_nonpos_of_nonpos_of_nonneg (by linarith) hd.le
    have := mul_nonpos_of_nonpos_of_nonneg hn (by linarith [(hv c hc).pp] : 0 ≤ c.pHi - c.pLo)
    unfold pw
    linarith

/-- Non-vacuity: 10 W, of which 7 may be used, for the two components that need 15. -/
example : ((Mgr.new 10).run demoSort [.register cam, .register nav]).budget < minPower ((Mgr.new 10).run demoSort [.register cam, .register nav]) ∧
    ((Mgr.new 10).run demoSort [.register cam, .register nav]).level 0 = some (1 / 10) := by decide +kernel

/-- C102 (negation): the budget is not kept: if all components are critical, the power in use is that of the minimum levels, above the budget. -/
theorem C102_over_budget_violated (srt : List ℚ → List Nat) (m : Mgr) (h : Reach srt m) (hf : m.budget < minPower m) (hc : ∀ c ∈ m.list, c.crit > 7 / 10) :
    ∃ u, m.usage = some u ∧ u = minPower m ∧ m.budget < u := by
  have hv := reach_valid srt m h
  have he := emergency_cur _ (reach_short srt m h hf)
  have hu : (m.list.map pw).sum = minPower m := by
    unfold minPower
    congr 1
    apply List.map_congr_left
    intro c hcm
    have := he c hcm
    rw [if_pos (hc c hcm)] at this
    unfold pw nrm
    rw [this]
    simp
  exact ⟨_, total_eq m.list fun c hcm => (hv c hcm).lohi, hu, by rw [hu]; exact hf⟩

/-- Non-vacuity: navigation alone with a budget of 10 W. -/
example : Reach demoSort ((Mgr.new 10).run demoSort [.register nav]) ∧ ((Mgr.new 10).run demoSort [.register nav]).usage = some 10 ∧
    ((Mgr.new 10).run demoSort [.register nav]).budget = 7 := by
  refine ⟨⟨10, .nominal, _, ?_, rfl⟩, by decide +kernel, by decide +kernel⟩
  intro o ho
  simp only [List.mem_cons, List.not_mem_nil, or_false] at ho
  subst ho
  exact nav_valid

/-- C102 (negation): the power reported below the minimum level is extrapolated and may be negative: any component that is not critical and whose
protection is expensive compared with its minimum power shows it. -/
theorem C102_negative_power_violated (srt : List ℚ → List Nat) (c : Comp) (hv : Valid c) (hc : c.crit ≤ 7 / 10)
    (hx : 2 * c.pLo * (c.hi - c.lo) < c.lo * (c.pHi - c.pLo)) (w : ℚ) (hw : w * (7 / 10) < c.pLo) :
    ∃ u, ((Mgr.new w).run srt [.register c]).usage = some u ∧ u < 0 := by
  have hr : Reach srt ((Mgr.new w).run srt [.register c]) := ⟨w, .nominal, [.register c], by simpa [Good] using hv, rfl⟩
  have hl : ((Mgr.new w).run srt [.register c]).list = rebalance (srt [c.crit]) [c.toMin] (w * (7 / 10)) := (balance_list srt _).1
  rw [rebalance_short _ _ _ (by intro d hd; have : d = c.toMin := by simpa using hd
                                rw [this]; exact hv.lohi) (by simpa [Comp.toMin] using hw)] at hl
  have hd : 0 < c.hi - c.lo := by linarith [hv.lohi]
  have hcur : (Comp.emergency c.toMin) = { c with cur := c.lo * (1 / 2) } := by
    unfold Comp.emergency Comp.toMin
    rw [if_neg (not_lt.2 hc)]
  refine ⟨pw (Comp.emergency c.toMin), ?_, ?_⟩
  · unfold Mgr.usage
    rw [hl]
    simp only [List.map_cons, List.map_nil]
    rw [total_eq _ (by intro d hd; have : d = Comp.emergency c.toMin := by simpa using hd
                       rw [this, hcur]; exact hv.lohi)]
    simp
  · rw [hcur]
    unfold pw nrm
    simp only
    have : (c.lo * (1 / 2) - c.lo) / (c.hi - c.lo) * (c.pHi - c.pLo) = -(c.lo * (c.pHi - c.pLo)) / (2 * (c.hi - c.lo)) := by
      field_simp
      ring
    rw [this]
    have h2 : -(c.lo * (c.pHi - c.pLo)) / (2 * (c.hi - c.lo)) < -c.pLo := by
      rw [div_lt_iff₀ (by linarith)]
      nlinarith
    linarith

/-- Non-vacuity. -/
example : Valid { lo := 9 / 10, hi := 1, cur := 0, pLo := 1, pHi := 2, crit := 1 / 2 } ∧ 2 * 1 * (1 - 9 / 10 : ℚ) < 9 / 10 * (2 - 1) := by
  constructor
  · constructor <;> norm_num
  · norm_num

/-! ### C103 -/

/-- Specification of the registry: a map and the next identifier. -/
structure Spec where
  next : Nat := 0
  map : Nat → Option Comp := fun _ => none
  state : PState

/-- What each call does to the registry. -/
def Spec.step (s : Spec) : Op → Spec
  | .register c => { s with next := s.next + 1, map := fun i => if i = s.next then some c else s.map i }
  | .update id c => { s with map := fun i => if i = id ∧ (s.map id).isSome then some c else s.map i }
  | .remove id => { s with map := fun i => if i = id then none else s.map i }
  | .setState p => { s with state := p }

/-- The component registered under an identifier. -/
def lookup (m : Mgr) (id : Nat) : Option Comp := (m.comps.find? (·.1 = id)).map (·.2)

theorem find_map (l : List (Nat × Comp)) (id : Nat) : ((l.map fun p => (p.1, p.2.toMin)).find? (·.1 = id)).map (·.2) = ((l.find? (·.1 = id)).map (·.2)).map Comp.toMin := by
  induction l with
  | nil => rfl
  | cons a l ih =>
    simp only [List.map_cons]
    by_cases h : a.1 = id
    · rw [List.find?_cons_of_pos (by simpa using h), List.find?_cons_of_pos (by simpa using h)]
      rfl
    · rw [List.find?_cons_of_neg (by simpa using h), List.find?_cons_of_neg (by simpa using h)]
      exact ih

theorem lookup_balance (srt : List ℚ → List Nat) (m : Mgr) (id : Nat) : (lookup (m.balance srt) id).map Comp.toMin = (lookup m id).map Comp.toMin := by
  unfold lookup
  rw [← find_map, ← find_map]
  have := balance_config srt m
  unfold config at this
  rw [this]

theorem find_none (l : List (Nat × Comp)) (id : Nat) (h : ∀ p ∈ l, p.1 < id) : l.find? (·.1 = id) = none := by
  rw [List.find?_eq_none]
  intro p hp
  have := h p hp
  simp
  omega

/-- Agreement of the manager with the specification. -/
structure Agree (m : Mgr) (s : Spec) : Prop where
  next : m.next = s.next
  map : ∀ id, (lookup m id).map Comp.toMin = (s.map id).map Comp.toMin
  state : m.state = s.state

theorem has_iff (m : Mgr) (id : Nat) : m.has id = (lookup m id).isSome := by
  unfold Mgr.has lookup
  cases m.comps.find? (·.1 = id) <;> rfl

theorem agree_has (m : Mgr) (s : Spec) (h : Agree m s) (id : Nat) : m.has id = (s.map id).isSome := by
  rw [has_iff]
  have := congrArg Option.isSome (h.map id)
  simpa using this

theorem agree_step (srt : List ℚ → List Nat) (m : Mgr) (s : Spec) (hi : Inv srt m) (h : Agree m s) (o : Op) : Agree (m.step srt o) (s.step o) := by
  cases o with
  | register c =>
    refine ⟨congrArg (· + 1) h.next, ?_, h.state⟩
    intro id
    show (lookup (Mgr.balance srt _) id).map Comp.toMin = _
    rw [lookup_balance]
    simp only [Spec.step, lookup, List.find?_append]
    by_cases hid : id = s.next
    · rw [if_pos hid]
      subst hid
      rw [find_none m.comps s.next (by rw [← h.next]; exact hi.bound), h.next]
      simp [Comp.toMin]
    · rw [if_neg hid, ← h.map id]
      have : ([(m.next, c.toMin)].find? fun p => decide (p.1 = id)) = none := by
        rw [List.find?_cons_of_neg (by simp [h.next]; omega)]; rfl
      rw [this]
      simp [lookup]
  | update id c =>
    show Agree (m.update srt id c).2 _
    have hh := agree_has m s h id
    unfold Mgr.update
    split
    · rename_i hhas
      refine ⟨h.next, ?_, h.state⟩
      intro i
      show (lookup (Mgr.balance srt _) i).map Comp.toMin = _
      rw [lookup_balance]
      rw [hh] at hhas
      simp only [Spec.step, hhas, and_true]
      have gen : ∀ l : List (Nat × Comp), ((l.map fun (p : Nat × Comp) => if p.1 = id then (id, c) else p).find? (·.1 = i)).map (·.2) =
          if i = id then ((l.find? (·.1 = i)).map fun _ => c) else (l.find? (·.1 = i)).map (·.2) := by
        intro l
        induction l with
        | nil => simp
        | cons a l ih =>
          simp only [List.map_cons]
          by_cases ha : a.1 = i
          · rw [List.find?_cons_of_pos (l := l) (by simpa using ha)]
            by_cases hid : i = id
            · rw [if_pos (ha.trans hid), if_pos hid, List.find?_cons_of_pos (by simpa using hid.symm)]
              rfl
            · rw [if_neg (by rw [ha]; exact hid), if_neg hid, List.find?_cons_of_pos (by simpa using ha)]
          · rw [List.find?_cons_of_neg (l := l) (by simpa using ha), ← ih]
            by_cases hid : a.1 = id
            · rw [if_pos hid, List.find?_cons_of_neg (by simp; rw [← hid]; exact ha)]
            · rw [if_neg hid, List.find?_cons_of_neg (by simpa using ha)]
      have g := gen m.comps
      show Option.map Comp.toMin (Option.map (·.2) (List.find? _ (m.comps.map fun (p : Nat × Comp) => if p.1 = id then (id, c) else p))) = _
      rw [g]
      by_cases hid : i = id
      · rw [if_pos hid, if_pos hid]
        subst hid
        have hhas' : m.has i = true := by rw [agree_has m s h]; exact hhas
        unfold Mgr.has at hhas'
        obtain ⟨x, hx⟩ := Option.isSome_iff_exists.1 hhas'
        rw [hx]
        rfl
      · rw [if_neg hid, if_neg hid]
        exact h.map i
    · rename_i hhas
      refine ⟨h.next, ?_, h.state⟩
      intro i
      rw [hh] at hhas
      simp only [Spec.step]
      rw [if_neg (fun hx => hhas hx.2)]
      exact h.map i
  | remove id =>
    show Agree (m.remove srt id).2 _
    have hh := agree_has m s h id
    unfold Mgr.remove
    split
    · refine ⟨h.next, ?_, h.state⟩
      intro i
      show (lookup (Mgr.balance srt _) i).map Comp.toMin = _
      rw [lookup_balance]
      simp only [Spec.step, lookup]
      have gen : ∀ l : List (Nat × Comp), (l.filter fun (p : Nat × Comp) => decide (p.1 ≠ id)).find? (·.1 = i) = if i = id then none else l.find? (·.1 = i) := by
        intro l
        induction l with
        | nil => simp
        | cons a l ih =>
          by_cases ha : a.1 = id
          · rw [List.filter_cons_of_neg (by simpa using ha), ih]
            by_cases hid : i = id
            · rw [if_pos hid, if_pos hid]
            · rw [if_neg hid, if_neg hid, List.find?_cons_of_neg (by simp; rw [ha]; exact fun e => hid e.symm)]
          · rw [List.filter_cons_of_pos (by simpa using ha)]
            by_cases hai : a.1 = i
            · rw [List.find?_cons_of_pos (by simpa using hai), List.find?_cons_of_pos (by simpa using hai), if_neg (by rw [← hai]; exact ha)]
            · rw [List.find?_cons_of_neg (by simpa using hai), List.find?_cons_of_neg (by simpa using hai), ih]
      have g := gen m.comps
      show Option.map Comp.toMin (Option.map (·.2) (List.find? _ (m.comps.filter fun (p : Nat × Comp) => decide (p.1 ≠ id)))) = _
      rw [g]
      by_cases hid : i = id
      · rw [if_pos hid, if_pos hid]; rfl
      · rw [if_neg hid, if_neg hid]
        exact h.map i
    · rename_i hhas
      refine ⟨h.next, ?_, h.state⟩
      intro i
      simp only [Spec.step]
      by_cases hid : i = id
      · rw [if_pos hid]
        subst hid
        rw [hh] at hhas
        have : s.map i = none := by simpa using hhas
        rw [h.map i, this]
      · rw [if_neg hid]
        exact h.map i
  | setState p =>
    show Agree (m.setState srt p) _
    unfold Mgr.setState
    split
    · refine ⟨h.next, ?_, rfl⟩
      intro i
      show (lookup (Mgr.balance srt _) i).map Comp.toMin = _
      rw [lookup_balance]
      exact h.map i
    · rename_i hp
      refine ⟨h.next, h.map, ?_⟩
      show m.state = p
      simpa using hp

/-- C103: for any history, of valid components or not, the manager is a faithful registry: identifiers are handed out in order, so never twice; a component is found under
an identifier exactly if it was registered under it and not removed since; its settings are those of the last registration or
update; updates and removals succeed exactly for registered identifiers; the power state is the last one set. -/
theorem C103_registry (srt : List ℚ → List Nat) (w : ℚ) (st : PState) (ops : List Op) :
    let m := (Mgr.new w st).run srt ops
    let s := ops.foldl Spec.step { state := st }
    (∀ id, (lookup m id).map Comp.toMin = (s.map id).map Comp.toMin ∧ (m.level id).isSome = (s.map id).isSome) ∧
    (∀ c, (m.register srt c).1 = s.next ∧ ((m.register srt c).2.level s.next).isSome) ∧
    (∀ id c, (m.update srt id c).1 = (s.map id).isSome) ∧ (∀ id, (m.remove srt id).1 = (s.map id).isSome) ∧ m.state = s.state ∧
    ∀ id, (s.map id).isSome → id < s.next := by
  intro m s
  have key : ∀ (ops : List Op) (m : Mgr) (s : Spec), Inv srt m → Agree m s → Agree (m.run srt ops) (ops.foldl Spec.step s) ∧ Inv srt (m.run srt ops) := by
    intro ops
    induction ops with
    | nil => intro m s hi h; exact ⟨h, hi⟩
    | cons o ops ih => intro m s hi h; exact ih _ _ (step_inv srt m o hi) (agree_step srt m s hi h o)
  obtain ⟨h, hi⟩ := key ops (Mgr.new w st) { state := st } (new_inv srt w st) ⟨rfl, by intro id; simp [lookup, Mgr.new], rfl⟩
  have hlev : ∀ (m : Mgr) id, (m.level id).isSome = (lookup m id).isSome := by
    intro m id
    unfold Mgr.level lookup
    cases m.comps.find? (·.1 = id) <;> rfl
  have hsome : ∀ (m : Mgr) (s : Spec), Agree m s → ∀ id, (lookup m id).isSome = (s.map id).isSome := by
    intro m s h id
    rw [← has_iff]; exact agree_has m s h id
  refine ⟨fun id => ⟨h.map id, ?_⟩, ?_, ?_, ?_, h.state, ?_⟩
  · rw [hlev]; exact hsome m s h id
  · intro c
    refine ⟨h.next, ?_⟩
    rw [hlev]
    have := hsome _ _ (agree_step srt m s hi h (.register c)) s.next
    have e : (m.step srt (.register c)) = (m.register srt c).2 := rfl
    rw [e] at this
    rw [this]
    simp [Spec.step]
  · intro id c
    unfold Mgr.update
    rw [← agree_has m s h id]
    cases m.has id <;> rfl
  · intro id
    unfold Mgr.remove
    rw [← agree_has m s h id]
    cases m.has id <;> rfl
  · intro id hid
    rw [← agree_has m s h id] at hid
    unfold Mgr.has at hid
    obtain ⟨x, hx⟩ := Option.isSome_iff_exists.1 hid
    have h1 := hi.bound x (List.mem_of_find?_eq_some hx)
    have h2 := List.find?_some hx
    have : x.1 = id := by simpa using h2
    rw [← this, ← h.next]
    exact h1

/-- Non-vacuity: registering, removing and registering again gives a new identifier. -/
example : (((Mgr.new 40).run demoSort [.register cam, .remove 0]).register demoSort nav).1 = 1 ∧ ((Mgr.new 40).run demoSort [.register cam, .remove 0]).level 0 = none := by
  decide +kernel

/-- C103: the levels do not depend on the history: two histories that leave the same components under the same identifiers in the same
power state and budget leave the same levels. -/
theorem C103_history_independent (srt : List ℚ → List Nat) (w : ℚ) (st₁ st₂ : PState) (ops₁ ops₂ : List Op) :
    let m₁ := (Mgr.new w st₁).run srt ops₁
    let m₂ := (Mgr.new w st₂).run srt ops₂
    config m₁ = config m₂ → m₁.state = m₂.state → m₁.comps = m₂.comps := by
  intro m₁ m₂ hc hs
  have hw : ∀ (ops : List Op) (m : Mgr), (m.run srt ops).watts = m.watts := by
    intro ops
    induction ops with
    | nil => intro m; rfl
    | cons o ops ih =>
      intro m
      refine Eq.trans (ih _) ?_
      cases o with
      | register c => rfl
      | update id c => show (m.update srt id c).2.watts = _; unfold Mgr.update; split <;> rfl
      | remove id => show (m.remove srt id).2.watts = _; unfold Mgr.remove; split <;> rfl
      | setState s => show (m.setState srt s).watts = _; unfold Mgr.setState; split <;> rfl
  have i1 : Inv srt m₁ := run_inv srt ops₁ _ (new_inv srt w st₁)
  have i2 : Inv srt m₂ := run_inv srt ops₂ _ (new_inv srt w st₂)
  have hb : m₁.budget = m₂.budget := by
    have e1 : m₁.watts = w := hw ops₁ _
    have e2 : m₂.watts = w := hw ops₂ _
    unfold Mgr.budget
    rw [e1, e2, hs]
  have hl : m₁.list.map Comp.toMin = m₂.list.map Comp.toMin := by
    have := congrArg (List.map (·.2)) hc
    simpa [config, Mgr.list, List.map_map, Function.comp_def] using this
  have hid : m₁.comps.map (·.1) = m₂.comps.map (·.1) := by
    have := congrArg (List.map (·.1)) hc
    simpa [config, List.map_map, Function.comp_def] using this
  have hlist : m₁.list = m₂.list := by
    rw [i1.bal, i2.bal, strip_crit _ _ hl, rebalance_congr _ _ _ _ hl, hb]
  have hz : ∀ l : List (Nat × Comp), l = (l.map (·.1)).zip (l.map (·.2)) := by
    intro l
    induction l with
    | nil => rfl
    | cons a l ih => simp only [List.map_cons, List.zip_cons_cons, ← ih]
  rw [hz m₁.comps, hz m₂.comps, hid]
  have : m₁.comps.map (·.2) = m₂.comps.map (·.2) := hlist
  rw [this]

/-- Non-vacuity: a detour through emergency and an update back. -/
example : config ((Mgr.new 40).run demoSort [.register cam, .register nav]) =
    config ((Mgr.new 40).run demoSort [.register nav, .setState .emergency, .register nav, .update 0 cam, .setState .nominal]) := by decide +kernel

/-! ### C104 -/

theorem eff_fold (l : List Comp) (h : ∀ c ∈ l, c.lo < c.hi) (a b : ℚ) :
    l.foldl (fun (s : Option ℚ × ℚ) c => (s.1.bind fun a => c.norm.map fun n => a + n * c.crit, s.2 + c.crit)) (some a, b) =
    (some (a + (l.map fun c => nrm c * c.crit).sum), b + (l.map (·.crit)).sum) := by
  induction l generalizing a b with
  | nil => simp
  | cons c l ih =>
    have hn : c.norm = some (nrm c) := by
      unfold Comp.norm nrm
      rw [if_neg (by have := h c List.mem_cons_self; linarith)]
    rw [List.foldl_cons, hn]
    simp only [Option.bind_some, Option.map_some]
    rw [ih (fun d hd => h d (List.mem_cons_of_mem _ hd))]
    simp [add_assoc]

/-- The effectiveness of components with real ranges. -/
theorem eff_eq (m : Mgr) (hv : ∀ c ∈ m.list, Valid c) :
    ∃ e, m.effectiveness = some e ∧ e * (m.list.map (·.crit)).sum = (m.list.map fun c => nrm c * c.crit).sum ∧
      ((m.list.map (·.crit)).sum = 0 → e = 0) := by
  have hc0 : 0 ≤ (m.list.map (·.crit)).sum := by
    apply List.sum_nonneg
    intro x hx
    obtain ⟨c, hc, rfl⟩ := List.mem_map.1 hx
    exact (hv c hc).c0
  unfold Mgr.effectiveness
  by_cases hl : m.list = []
  · rw [if_pos hl, hl]; exact ⟨0, rfl, by simp, fun _ => rfl⟩
  · rw [if_neg hl, eff_fold _ fun c hc => (hv c hc).lohi]
    simp only [zero_add]
    by_cases hp : (m.list.map (·.crit)).sum > 0
    · rw [if_pos hp]
      exact ⟨_, rfl, div_mul_cancel₀ _ hp.ne', fun h0 => absurd h0 hp.ne'⟩
    · rw [if_neg hp]
      have h0 : (m.list.map (·.crit)).sum = 0 := le_antisymm (not_lt.1 hp) hc0
      refine ⟨0, rfl, ?_, fun _ => rfl⟩
      rw [zero_mul]
      have hz : ∀ l : List Comp, (∀ c ∈ l, Valid c) → (l.map (·.crit)).sum = 0 → (l.map fun c => nrm c * c.crit).sum = 0 := by
        intro l
        induction l with
        | nil => intro _ _; rfl
        | cons c l ih =>
          intro hv h0
          simp only [List.map_cons, List.sum_cons] at h0 ⊢
          have h1 := (hv c List.mem_cons_self).c0
          have h2 : 0 ≤ (l.map (·.crit)).sum := by
            apply List.sum_nonneg
            intro x hx
            obtain ⟨d, hd, rfl⟩ := List.mem_map.1 hx
            exact (hv d (List.mem_cons_of_mem _ hd)).c0
          have h3 : c.crit = 0 := by linarith
          rw [ih (fun d hd => hv d (List.mem_cons_of_mem _ hd)) (by linarith), h3]
          simp
      rw [hz _ hv h0]

/-- C104: while the minimum levels can be powered, the effectiveness is the criticality-weighted mean of the levels as fractions of their ranges, a number from 0 to 1. -/
theorem C104_effectiveness (srt : List ℚ → List Nat) (hs : SortDesc srt) (m : Mgr) (h : Reach srt m) (hf : minPower m ≤ m.budget) :
    ∃ e, m.effectiveness = some e ∧ 0 ≤ e ∧ e ≤ 1 ∧
      e * (m.list.map (·.crit)).sum = (m.list.map fun c => (c.cur - c.lo) / (c.hi - c.lo) * c.crit).sum := by
  have hv := reach_valid srt m h
  obtain ⟨n, r, p, _, _⟩ := reach_pass srt hs m h hf
  obtain ⟨e, he, hw, hz⟩ := eff_eq m hv
  have h0 : 0 ≤ (m.list.map fun c => nrm c * c.crit).sum := by
    apply List.sum_nonneg
    intro x hx
    obtain ⟨c, hc, rfl⟩ := List.mem_map.1 hx
    exact mul_nonneg (grid_nrm c (p.grid c hc)).1 (hv c hc).c0
  have h1 : (m.list.map fun c => nrm c * c.crit).sum ≤ (m.list.map (·.crit)).sum := by
    apply sum_le_sum
    intro c hc
    have := mul_le_mul_of_nonneg_right (grid_nrm c (p.grid c hc)).2.1 (hv c hc).c0
    linarith
  refine ⟨e, he, ?_, ?_, hw⟩
  · by_cases hc : (m.list.map (·.crit)).sum = 0
    · rw [hz hc]
    · have hpos : 0 < (m.list.map (·.crit)).sum := lt_of_le_of_ne (h0.trans h1) (Ne.symm hc)
      by_contra hn
      have := mul_neg_of_neg_of_pos (not_le.1 hn) hpos
      linarith
  · by_cases hc : (m.list.map (·.crit)).sum = 0
    · rw [hz hc]; norm_num
    · have hpos : 0 < (m.list.map (·.crit)).sum := lt_of_le_of_ne (h0.trans h1) (Ne.symm hc)
      by_contra hn
      have := mul_lt_mul_of_pos_right (not_le.1 hn) hpos
      linarith

/-- Non-vacuity: `demo`. -/
example : demo.effectiveness = some (3 / 4) := by decide +kernel

/-- C104 (negation): the score never reaches 1 with two components that matter, whatever the power: times the total criticality it is at most the largest
criticality. -/
theorem C104_never_excellent_violated (srt : List ℚ → List Nat) (hs : SortDesc srt) (m : Mgr) (h : Reach srt m) (hf : minPower m ≤ m.budget) (K : ℚ) (hK : 0 ≤ K)
    (hm : ∀ c ∈ m.list, c.crit ≤ K) : ∃ e, m.effectiveness = some e ∧ e * (m.list.map (·.crit)).sum ≤ K := by
  have hv := reach_valid srt m h
  obtain ⟨n, r, p, _, _⟩ := reach_pass srt hs m h hf
  obtain ⟨e, he, hw, _⟩ := eff_eq m hv
  refine ⟨e, he, ?_⟩
  rw [hw]
  have h1 : (m.list.map fun c => nrm c * c.crit).sum ≤ (m.list.map fun c => nrm c * K).sum := by
    apply sum_le_sum
    intro c hc
    exact mul_le_mul_of_nonneg_left (hm c hc) (grid_nrm c (p.grid c hc)).1
  have h2 : (m.list.map fun c => nrm c * K).sum = (m.list.map nrm).sum * K := by
    rw [← List.sum_map_mul_right]
  have h3 := (C101_step_limit_violated srt hs m h hf).1
  have := mul_le_mul_of_nonneg_right h3 hK
  linarith

/-- Non-vacuity: two components of criticality 1 with a megawatt score 1/2. -/
example : ((Mgr.new 1000000).run demoSort [.register { nav with crit := 1 }, .register { cam with crit := 1 }]).effectiveness = some (1 / 2) := by decide +kernel

/-- C104 (negation): the score, documented as 0 to 1, is negative in an emergency: it is never positive then, and below 0 as soon as one
component of criticality between 0 and 0.7 has a positive minimum level. -/
theorem C104_negative_violated (srt : List ℚ → List Nat) (m : Mgr) (h : Reach srt m) (hf : m.budget < minPower m) :
    ∃ e, m.effectiveness = some e ∧ e ≤ 0 ∧ ((∃ c ∈ m.list, 0 < c.crit ∧ c.crit ≤ 7 / 10 ∧ 0 < c.lo) → e < 0) := by
  have hv := reach_valid srt m h
  have hcur := emergency_cur _ (reach_short srt m h hf)
  obtain ⟨e, he, hw, hz⟩ := eff_eq m hv
  have hn : ∀ c ∈ m.list, nrm c * c.crit ≤ 0 ∧ (0 < c.crit → c.crit ≤ 7 / 10 → 0 < c.lo → nrm c * c.crit < 0) := by
    intro c hc
    have hd : 0 < c.hi - c.lo := by linarith [(hv c hc).lohi]
    have hl0 := (hv c hc).lo0
    constructor
    · refine mul_nonpos_of_nonpos_of_nonneg (div_nonpos_of_nonpos_of_nonneg ?_ hd.le) (hv c hc).c0
      rw [hcur c hc]
      split <;> linarith
    · intro h1 h2 h3
      refine mul_neg_of_neg_of_pos (div_neg_of_neg_of_pos ?_ hd) h1
      rw [hcur c hc, if_neg (not_lt.2 h2)]
      linarith
  have hs0 : (m.list.map fun c => nrm c * c.crit).sum ≤ 0 := by
    have := sum_le_sum m.list (fun c => nrm c * c.crit) (fun _ => 0) fun c hc => (hn c hc).1
    simpa using this
  have hC : 0 ≤ (m.list.map (·.crit)).sum := by
    apply List.sum_nonneg
    intro x hx
    obtain ⟨c, hc, rfl⟩ := List.mem_map.1 hx
    exact (hv c hc).c0
  refine ⟨e, he, ?_, ?_⟩
  · by_cases hc : (m.list.map (·.crit)).sum = 0
    · rw [hz hc]
    · have hpos : 0 < (m.list.map (·.crit)).sum := lt_of_le_of_ne hC (Ne.symm hc)
      by_contra hcon
      have := mul_pos (not_le.1 hcon) hpos
      linarith
  · rintro ⟨c, hc, h1, h2, h3⟩
    have hneg : ∀ l : List Comp, (∀ d ∈ l, nrm d * d.crit ≤ 0) → c ∈ l → (l.map fun c => nrm c * c.crit).sum ≤ nrm c * c.crit := by
      intro l
      induction l with
      | nil => intro _ hx; simp at hx
      | cons d l ih =>
        intro hl hx
        simp only [List.map_cons, List.sum_cons]
        have ht : (l.map fun c => nrm c * c.crit).sum ≤ 0 := by
          have := sum_le_sum l (fun c => nrm c * c.crit) (fun _ => 0) fun c hc => hl c (List.mem_cons_of_mem _ hc)
          simpa using this
        rcases List.mem_cons.1 hx with rfl | hx
        · linarith
        · have := ih (fun e he => hl e (List.mem_cons_of_mem _ he)) hx
          have := hl d List.mem_cons_self
          linarith
    have := hneg m.list (fun d hd => (hn d hd).1) hc
    have h4 := (hn c hc).2 h1 h2 h3
    by_contra hcon
    have := mul_nonneg (not_lt.1 hcon) hC
    linarith

/-- Non-vacuity: the two components with 10 W. -/
example : ((Mgr.new 10).run demoSort [.register cam, .register nav]).effectiveness = some (-1 / 24) := by decide +kernel

/-- Expected errors per day of one unprotected megabyte, as documented: 1e-6 + 1e-7 + 5e-8 per bit. -/
noncomputable def rawRate : ℝ := (1 / 10 ^ 6 + 1 / 10 ^ 7 + 5 / 10 ^ 8) * (8 * 1024 * 1024)

theorem rate_eq (m : Mgr) : m.errorRate = (m.list.map fun c => rawRate * (9 / 10) * Real.exp (-5 * (c.cur : ℝ))).sum := by
  unfold Mgr.errorRate
  have : ∀ (l : List Comp) (s : ℝ), l.foldl (fun s c => s + (1 / 10 ^ 6 + 1 / 10 ^ 7 + 5 / 10 ^ 8) * (9 / 10 * Real.exp (-5 * (c.cur : ℝ))) * (8 * 1024 * 1024)) s =
      s + (l.map fun c => rawRate * (9 / 10) * Real.exp (-5 * (c.cur : ℝ))).sum := by
    intro l
    induction l with
    | nil => intro s; simp
    | cons c l ih =>
      intro s
      rw [List.foldl_cons, ih]
      simp only [List.map_cons, List.sum_cons, rawRate]
      ring
  rw [this, zero_add]

theorem rawRate_pos : 0 < rawRate := by unfold rawRate; norm_num

/-- C104: the expected error rate: 0 without components; never more than 90 % of the unprotected rate when no level is negative; and raising levels,
component by component, never raises it. -/
theorem C104_error_rate (m m' : Mgr) :
    (m.list = [] → m.errorRate = 0) ∧ 0 ≤ m.errorRate ∧
    ((∀ c ∈ m.list, 0 ≤ c.cur) → m.errorRate ≤ 9 / 10 * (rawRate * m.list.length)) ∧
    (List.Forall₂ (fun c d => c.cur ≤ d.cur) m.list m'.list → m'.errorRate ≤ m.errorRate) := by
  have hr := rawRate_pos
  refine ⟨?_, ?_, ?_, ?_⟩
  · intro h; rw [rate_eq, h]; rfl
  · rw [rate_eq]
    apply List.sum_nonneg
    intro x hx
    obtain ⟨c, _, rfl⟩ := List.mem_map.1 hx
    positivity
  · intro h
    rw [rate_eq]
    generalize m.list = l at h
    induction l with
    | nil => simp
    | cons c l ih =>
      have h1 := ih fun d hd => h d (List.mem_cons_of_mem _ hd)
      have hc : (0 : ℝ) ≤ (c.cur : ℝ) := by exact_mod_cast h c List.mem_cons_self
      have he : Real.exp (-5 * (c.cur : ℝ)) ≤ 1 := Real.exp_le_one_iff.2 (by linarith)
      have h2 : rawRate * (9 / 10) * Real.exp (-5 * (c.cur : ℝ)) ≤ rawRate * (9 / 10) * 1 := mul_le_mul_of_nonneg_left he (by positivity)
      simp only [List.map_cons, List.sum_cons, List.length_cons]
      push_cast
      linarith
  · intro h
    rw [rate_eq, rate_eq]
    generalize m.list = l₁ at h
    generalize m'.list = l₂ at h
    induction h with
    | nil => exact le_rfl
    | cons hcd _ ih =>
      rename_i c d l l' _
      simp only [List.map_cons, List.sum_cons]
      have hc : (c.cur : ℝ) ≤ (d.cur : ℝ) := by exact_mod_cast hcd
      have he : Real.exp (-5 * (d.cur : ℝ)) ≤ Real.exp (-5 * (c.cur : ℝ)) := Real.exp_le_exp.2 (by linarith)
      have := mul_le_mul_of_nonneg_left he (by positivity : 0 ≤ rawRate * (9 / 10))
      linarith

/-- Non-vacuity: the levels with 28 W against those with 40 W. -/
example : List.Forall₂ (fun c d : Comp => c.cur ≤ d.cur) ((Mgr.new 28).run demoSort [.register cam, .register nav]).list ((Mgr.new 40).run demoSort [.register cam, .register nav]).list := by
  decide +kernel

/-- C104 (negation): "At 0.5 protection, errors reduced by ~70%": the reduction computed is more than 90 %. -/
theorem C104_documented_reduction_violated (m : Mgr) (c : Comp) (hl : m.list = [c]) (hc : c.cur = 1 / 2) : m.errorRate < 1 / 10 * rawRate := by
  rw [rate_eq, hl]
  simp only [List.map_cons, List.map_nil, List.sum_cons, List.sum_nil, add_zero, hc]
  have hr := rawRate_pos
  have h1 : Real.exp (-5 * (((1 / 2 : ℚ)) : ℝ)) < 1 / 9 := by
    have e : (-5 * (((1 / 2 : ℚ)) : ℝ)) = -(1 + (1 + 1 / 2)) := by push_cast; ring
    rw [e, Real.exp_neg, Real.exp_add, Real.exp_add]
    have h2 := Real.exp_one_gt_d9
    have h3 : (3 / 2 : ℝ) ≤ Real.exp (1 / 2) := by
      have := Real.add_one_le_exp (1 / 2 : ℝ)
      linarith
    have h4 : 9 < Real.exp 1 * (Real.exp 1 * Real.exp (1 / 2)) := by
      have h5 : 7 < Real.exp 1 * Real.exp 1 := by nlinarith
      have h6 : 7 * (3 / 2) ≤ Real.exp 1 * Real.exp 1 * Real.exp (1 / 2) := mul_le_mul h5.le h3 (by norm_num) (by positivity)
      linarith
    rw [inv_eq_one_div]
    exact one_div_lt_one_div_of_lt (by norm_num) h4
  have := mul_lt_mul_of_pos_left h1 (by positivity : 0 < rawRate * (9 / 10))
  linarith

/-- Non-vacuity: navigation at its minimum level in an emergency. -/
example : ((Mgr.new 10).run demoSort [.register nav]).list = [{ nav with cur := 1 / 2 }] := by decide +kernel

end Verif.Props.PowerP
