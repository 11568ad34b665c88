import Verif.Model.VoterDemos
import Verif.Props.ExtremeStress
import Mathlib.Algebra.Order.Floor.Ring
/-! Properties C383–C385: the two voter demonstrations. -/
namespace Verif.Props.VoterDemos
open Verif Verif.Spec Verif.Extreme Verif.VoterDemos Verif.Props.Extreme

/-! ### C383: health-weighted voter -/

/-- **C383 (one copy).** Test 1 prints the stored value three times, for every stored and every other value; the corrupted copy is penalised twice, by the read and by the repair, and rewarded once by the read that follows. -/
theorem C383_outvoted (v x : V) (hx : x ≠ v) :
    (test1 v x).1 = (v, v, v) ∧ (∀ j, (test1 v x).2.copies j = v) ∧ (test1 v x).2.health 0 = 13 / 20 ∧ (test1 v x).2.health 1 = 1 ∧ (test1 v x).2.health 2 = 1 := by
  have hx' : v ≠ x := fun h => hx h.symm
  have a : (HW.new v).get = (v, HW.new v) := by
    simp only [HW.new, HW.get, HW.update, if_true, true_or, decide_true, Prod.mk.injEq, true_and]
    congr 1
    funext j
    fin_cases j <;> simp <;> norm_num
  have b : (hit (HW.new v) 0 x).get = (v, ⟨fun j => if j = 0 then x else v, fun j => if j = 0 then 4 / 5 else 1⟩) := by
    simp only [hit, HW.new, HW.get, HW.update, corrupt]
    simp only [Fin.val_zero, Fin.val_one, Fin.val_two, if_true, one_ne_zero, OfNat.ofNat_ne_zero, if_false, hx, or_self]
    simp only [Prod.mk.injEq, true_and, HW.mk.injEq]
    constructor
    · funext j; fin_cases j <;> rfl
    · funext j; fin_cases j <;> simp <;> norm_num
  have c : (HW.repair ⟨fun j => if j = 0 then x else v, fun j => if j = 0 then 4 / 5 else 1⟩) = ⟨fun _ => v, fun j => if j = 0 then 3 / 5 else 1⟩ := by
    unfold HW.repair
    have : HW.get ⟨fun j => if j = 0 then x else v, fun j => if j = 0 then 4 / 5 else 1⟩ = (v, ⟨fun j => if j = 0 then x else v, fun j => if j = 0 then 3 / 5 else 1⟩) := by
      simp only [HW.get, HW.update]
      simp only [if_true, Fin.isValue, if_false, hx, Fin.reduceEq, or_self]
      simp only [Prod.mk.injEq, true_and, HW.mk.injEq]
      funext j; fin_cases j <;> simp <;> norm_num
    rw [this]
  have d : HW.get ⟨fun _ => v, fun j => if j = 0 then 3 / 5 else 1⟩ = (v, ⟨fun _ => v, fun j => if j = 0 then 13 / 20 else 1⟩) := by
    simp only [HW.get, HW.update, if_true, true_or, decide_true, Prod.mk.injEq, true_and, HW.mk.injEq]
    funext j; fin_cases j <;> simp <;> norm_num
  have e : test1 v x = ((v, v, v), ⟨fun _ => v, fun j => if j = 0 then 13 / 20 else 1⟩) := by
    unfold test1
    rw [a]
    dsimp only
    rw [b]
    dsimp only
    rw [c, d]
  rw [e]
  exact ⟨rfl, fun _ => rfl, by norm_num, by norm_num, by show (if (2 : Fin 3) = 0 then (13 / 20 : ℚ) else 1) = 1; exact if_neg (by decide)⟩

/-- **C383 (violated: two copies).** Test 2 is meant to show the health scores saving the value.  For all values they do not: the two corrupted copies agree, their value is read, and the repair writes it into all copies. -/
theorem C383_two_violated (v x y : V) : (test2 v x y).1 = y ∧ ∀ j, (test2 v x y).2.copies j = y := by
  unfold test2
  generalize ((hit (HW.new v) 0 x).get.2).repair = s
  have h : ((hit (hit s 1 y) 2 y).get).1 = y := C338_health _ y (.inr (.inr ⟨rfl, rfl⟩))
  refine ⟨h, fun j => ?_⟩
  show ((hit (hit s 1 y) 2 y).get.2.get).1 = y
  rw [hw_get_twice, h]

/-- **C383 (random test).** Whatever single copy is overwritten, the value is read and restored; if two different copies are overwritten by different values other than the stored one, the value survives exactly if the first copy is spared. -/
theorem C383_random (v x y : V) (i j : Fin 3) (hij : i ≠ j) (hx : x ≠ v) (hy : y ≠ v) (hxy : x ≠ y) :
    ((test3 v [(i, x)]).1 = v ∧ ∀ k, (test3 v [(i, x)]).2.copies k = v) ∧ ((test3 v [(i, x), (j, y)]).1 = v ↔ i ≠ 0 ∧ j ≠ 0) := by
  refine ⟨?_, ?_⟩
  · have h : (hit (HW.new v) i x).get.1 = v := by
      refine C338_health _ v ?_
      refine others_agree _ i v fun k hk => ?_
      exact corrupt_other _ i k x hk
    refine ⟨h, fun k => ?_⟩
    show ((hit (HW.new v) i x).get.2.get).1 = v
    rw [hw_get_twice, h]
  · show ((hit (hit (HW.new v) i x) j y).get).1 = v ↔ _
    have hx' : v ≠ x := fun h => hx h.symm
    have hy' : v ≠ y := fun h => hy h.symm
    have hxy' : y ≠ x := fun h => hxy h.symm
    fin_cases i <;> fin_cases j <;> first | exact absurd rfl hij | simp [hit, HW.new, HW.get, corrupt, HW.best, hx, hy, hxy, hx', hy', hxy']

example : (1 : Fin 3) ≠ 2 ∧ (100 : V) ≠ 42 ∧ (101 : V) ≠ 42 ∧ (100 : V) ≠ 101 := by decide

/-! ### C384: approximate voter, integers -/

theorem fold_copies (s : AT) (hits : List (Fin 3 × V)) :
    (hits.foldl (fun (s : AT) h => { s with copies := corrupt s.copies h.1 h.2 }) s) = ⟨hits.foldl (fun c h => corrupt c h.1 h.2) s.copies, s.types⟩ := by
  induction hits generalizing s with
  | nil => rfl
  | cons h hits ih => rw [List.foldl_cons, ih]; rfl

theorem fold_other (c : Copies) (hits : List (Fin 3 × V)) (k : Fin 3) (hk : ∀ h ∈ hits, h.1 ≠ k) : (hits.foldl (fun c h => corrupt c h.1 h.2) c) k = c k := by
  induction hits generalizing c with
  | nil => rfl
  | cons h hits ih =>
    rw [List.foldl_cons, ih _ fun g hg => hk g (List.mem_cons_of_mem _ hg)]
    exact corrupt_other _ _ _ _ fun e => hk h List.mem_cons_self e.symm

theorem fold_mem (c : Copies) (hits : List (Fin 3 × V)) (k : Fin 3) (hk : ∃ h ∈ hits, h.1 = k) : ∃ h ∈ hits, h.1 = k ∧ (hits.foldl (fun c h => corrupt c h.1 h.2) c) k = h.2 := by
  induction hits generalizing c with
  | nil => obtain ⟨h, hm, _⟩ := hk; cases hm
  | cons h hits ih =>
    by_cases hr : ∃ g ∈ hits, g.1 = k
    · obtain ⟨g, hg, e, r⟩ := ih (corrupt c h.1 h.2) hr
      exact ⟨g, List.mem_cons_of_mem _ hg, e, r⟩
    · obtain ⟨g, hg, e⟩ := hk
      rcases List.mem_cons.1 hg with rfl | hg
      · refine ⟨g, List.mem_cons_self, e, ?_⟩
        rw [List.foldl_cons, fold_other _ _ _ fun q hq he => hr ⟨q, hq, he⟩, ← e]
        simp [corrupt]
      · exact absurd ⟨g, hg, e⟩ hr

/-- What the approximate voter reads when the first copy is exact: the first copy, unless the other two agree. -/
theorem get_default (c : Copies) : AT.get ⟨c, defaultTypes⟩ = if c 1 = c 2 then c 1 else c 0 := by
  unfold AT.get
  dsimp only
  have e : defaultTypes 0 = .exact := rfl
  by_cases h : c 1 = c 2 <;> by_cases a : c 0 = c 1 <;> by_cases b : c 0 = c 2 <;> simp_all

/-- **C384 (exact).** The random test of `int`: for every stored value up to half the maximum that is not a multiple of 8 (42 in the program), whichever copies are overwritten by pairwise different values up to half the maximum, none of them the value or its rounding: the stored value is read exactly if the exact copy was spared; the repair keeps what is read. -/
theorem C384_trial (v : V) (h : 0 ≤ v.toInt) (h8 : v.toInt % 8 ≠ 0) (hl : v.toInt ≤ 1073741823) (hits : List (Fin 3 × V))
    (hw : ∀ g ∈ hits, g.2 ≠ v ∧ g.2.toNat ≠ v.toNat / 8 * 8 ∧ 0 ≤ g.2.toInt ∧ g.2.toInt ≤ 1073741823) (hd : ∀ g ∈ hits, ∀ g' ∈ hits, g.1 ≠ g'.1 → g.2 ≠ g'.2) :
    ∃ r, intTrial v hits = .ok (r, r) ∧ (r = v ↔ ∀ g ∈ hits, g.1 ≠ 0) := by
  obtain ⟨r, hn, he⟩ := new_eq v h
  obtain ⟨h1, h2⟩ := toInt_of_nonneg h
  have hl' := limit_nat h
  have er : r ≠ v := by
    intro e
    have : r.toNat = v.toNat := by rw [e]
    omega
  have el : limit v = v := BitVec.eq_of_toNat_eq (by omega)
  have hrv : ∀ g ∈ hits, g.2 ≠ r := by
    intro g hg e
    exact (hw g hg).2.1 (by rw [e, hn])
  unfold intTrial
  rw [he]
  dsimp only [Outcome.bind]
  rw [fold_copies]
  dsimp only
  generalize hc : hits.foldl (fun c h => corrupt c h.1 h.2) (fun | 0 => v | 1 => r | 2 => limit v) = c
  have k0 : (∀ g ∈ hits, g.1 ≠ 0) → c 0 = v := by
    intro k
    rw [← hc, fold_other _ _ _ k]
  have other : ∀ k : Fin 3, (∃ g ∈ hits, g.1 = k) → ∃ g ∈ hits, g.1 = k ∧ c k = g.2 := by
    intro k hk
    rw [← hc]
    exact fold_mem _ _ _ hk
  have spared : ∀ k : Fin 3, (¬ ∃ g ∈ hits, g.1 = k) → c k = (fun | 0 => v | 1 => r | 2 => limit v : Copies) k := by
    intro k hk
    rw [← hc]
    exact fold_other _ _ _ fun g hg e => hk ⟨g, hg, e⟩
  have h12 : c 1 ≠ c 2 := by
    by_cases a : ∃ g ∈ hits, g.1 = 1
    · obtain ⟨g, hg, e, q⟩ := other 1 a
      rw [q]
      by_cases b : ∃ g ∈ hits, g.1 = 2
      · obtain ⟨g', hg', e', q'⟩ := other 2 b
        rw [q']
        exact hd g hg g' hg' (by rw [e, e']; decide)
      · rw [spared 2 b]
        show g.2 ≠ limit v
        rw [el]
        exact (hw g hg).1
    · rw [spared 1 a]
      show r ≠ _
      by_cases b : ∃ g ∈ hits, g.1 = 2
      · obtain ⟨g', hg', e', q'⟩ := other 2 b
        rw [q']
        exact fun e => hrv g' hg' e.symm
      · rw [spared 2 b]
        show r ≠ limit v
        rw [el]
        exact er
  have hg0 : AT.get ⟨c, defaultTypes⟩ = c 0 := by rw [get_default, if_neg h12]
  have range : 0 ≤ (c 0).toInt ∧ (c 0).toInt ≤ 1073741823 := by
    by_cases a : ∃ g ∈ hits, g.1 = 0
    · obtain ⟨g, hg, _, q⟩ := other 0 a
      rw [q]
      exact (hw g hg).2.2
    · rw [spared 0 a]
      exact ⟨h, hl⟩
  obtain ⟨r', hn', he'⟩ := new_eq (c 0) range.1
  obtain ⟨g1, g2⟩ := toInt_of_nonneg range.1
  have gl' := limit_nat range.1
  have el' : limit (c 0) = c 0 := BitVec.eq_of_toNat_eq (by omega)
  have hrep : AT.repair ⟨c, defaultTypes⟩ = .ok ⟨fun | 0 => c 0 | 1 => r' | 2 => limit (c 0), defaultTypes⟩ := by
    unfold AT.repair
    rw [hg0]
    exact he'
  refine ⟨c 0, ?_, ?_⟩
  · rw [hrep, hg0]
    show Outcome.ok (c 0, AT.get _) = _
    rw [get_default]
    show Outcome.ok (c 0, if r' = limit (c 0) then r' else c 0) = _
    rw [el']
    by_cases q : r' = c 0
    · rw [if_pos q, q]
    · rw [if_neg q]
  · constructor
    · intro e g hg e'
      obtain ⟨g', hg', _, q⟩ := other 0 ⟨g, hg, e'⟩
      exact (hw g' hg').1 (q.symm.trans e)
    · exact k0

/-- Non-vacuity: the values of the program. -/
example : (0 : Int) ≤ (42 : V).toInt ∧ (42 : V).toInt % 8 ≠ 0 ∧ (42 : V).toInt ≤ 1073741823 ∧ (100 : V) ≠ 42 ∧ (100 : V).toNat ≠ (42 : V).toNat / 8 * 8 ∧ intTrial 42 [(1, 100), (2, 101)] = .ok (42, 42) ∧ intTrial 42 [(0, 100)] = .ok (100, 100) := by decide +kernel

/-! ### C385: approximate voter, floats -/

theorem get_eq (s : FT) : s.get = if s.c1 = s.c2 then s.c1 else s.c0 := by
  unfold FT.get
  by_cases h : s.c1 = s.c2 <;> by_cases a : s.c0 = s.c1 <;> by_cases b : s.c0 = s.c2 <;> simp_all

theorem reduce_le (v : ℝ) : reduceF v ≤ v ∧ v < reduceF v + 1 / 10 := by
  unfold reduceF
  have h1 := Int.floor_le (v * 10)
  have h2 := Int.lt_floor_add_one (v * 10)
  constructor <;> linarith

/-- When rounding and limiting agree although they change the value: only just above 1000. -/
theorem agree_iff (v : ℝ) : (reduceF v = limitF v ∧ reduceF v ≠ v) ↔ (1000 < v ∧ v < 1000 + 1 / 10) := by
  obtain ⟨h1, h2⟩ := reduce_le v
  constructor
  · rintro ⟨e, n⟩
    unfold limitF at e
    have hlt : reduceF v < v := lt_of_le_of_ne h1 n
    by_cases a : v ≤ 1000
    · rw [min_eq_left a] at e
      have := le_max_left v (-1000)
      linarith
    · push Not at a
      rw [min_eq_right a.le, max_eq_left (by norm_num)] at e
      exact ⟨a, by linarith⟩
  · rintro ⟨a, b⟩
    have hf : reduceF v = 1000 := by
      unfold reduceF
      have : ⌊v * 10⌋ = 10000 := by
        rw [Int.floor_eq_iff]
        constructor
        · push_cast; linarith
        · push_cast; linarith
      rw [this]
      norm_num
    refine ⟨?_, by rw [hf]; exact a.ne⟩
    rw [hf]
    unfold limitF
    rw [min_eq_right a.le, max_eq_left (by norm_num)]

/-- **C385 (what is read).** A value just stored is read back, unless it is just above 1000, where the two approximations outvote it. -/
theorem C385_stored (v : ℝ) : ((FT.set v).get = v ↔ ¬ (1000 < v ∧ v < 1000 + 1 / 10)) ∧ ((1000 < v ∧ v < 1000 + 1 / 10) → (FT.set v).get = 1000) := by
  have hg : (FT.set v).get = if reduceF v = limitF v then reduceF v else v := get_eq _
  rw [hg]
  refine ⟨?_, ?_⟩
  · rw [← agree_iff]
    by_cases h : reduceF v = limitF v
    · rw [if_pos h]
      constructor
      · rintro e ⟨_, n⟩
        exact n e
      · intro n
        by_contra g
        exact n ⟨h, g⟩
    · rw [if_neg h]
      exact ⟨fun _ g => h g.1, fun _ => rfl⟩
  · intro hv
    have h := (agree_iff v).2 hv
    rw [if_pos h.1, h.1]
    unfold limitF
    rw [min_eq_right hv.1.le, max_eq_left (by norm_num)]

/-- **C385 (violated: the exact copy).** Unless rounding and limiting agree, the corrupted exact copy is what is read, whatever its value: the vote protects nothing. -/
theorem C385_exposed_violated (v x : ℝ) (h : reduceF v ≠ limitF v) : (floatDemo v x).1 = v ∧ (floatDemo v x).2.1 = x ∧ (x ∉ Set.Ioo (1000 : ℝ) (1000 + 1 / 10) → (floatDemo v x).2.2 = x) := by
  have a : (FT.get ⟨x, reduceF v, limitF v⟩) = x := by
    rw [get_eq]
    exact if_neg h
  refine ⟨?_, a, fun hx => ?_⟩
  · show (FT.set v).get = v
    rw [get_eq]
    exact if_neg h
  · show (FT.set (FT.get ⟨x, reduceF v, limitF v⟩)).get = x
    rw [a]
    exact (C385_stored x).1.2 hx

/-- Where they agree, every corruption of the exact copy is outvoted. -/
theorem C385_masked (v x : ℝ) (h : reduceF v = limitF v) : (floatDemo v x).2.1 = reduceF v := by
  show (FT.get ⟨x, reduceF v, limitF v⟩) = _
  rw [get_eq]
  exact if_pos h

/-- Non-vacuity: the values of the program, 3.14159 and 12345.6789, have approximations that differ; 1/2 has equal ones. -/
example : reduceF 3.14159 ≠ limitF 3.14159 ∧ reduceF 12345.6789 ≠ limitF 12345.6789 ∧ reduceF (1 / 2) = limitF (1 / 2) := by
  have f1 : ⌊(3.14159 : ℝ) * 10⌋ = 31 := by rw [Int.floor_eq_iff]; norm_num
  have f2 : ⌊(12345.6789 : ℝ) * 10⌋ = 123456 := by rw [Int.floor_eq_iff]; norm_num
  have f3 : ⌊(1 / 2 : ℝ) * 10⌋ = 5 := by rw [Int.floor_eq_iff]; norm_num
  unfold reduceF limitF
  rw [f1, f2, f3, min_eq_left (by norm_num), max_eq_left (by norm_num), min_eq_right (by norm_num), max_eq_left (by norm_num), min_eq_left (by norm_num), max_eq_left (by norm_num)]
  norm_num

end Verif.Props.VoterDemos
