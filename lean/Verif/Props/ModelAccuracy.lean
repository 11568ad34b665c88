import Verif.Model.ModelAccuracy
import Mathlib.Tactic.Linarith
import Mathlib.Tactic.NormNum
import Mathlib.Tactic.FieldSimp
import Mathlib.Tactic.Ring
import Mathlib.Tactic.Push
/-! Properties C373–C376: the two accuracy tests. -/
namespace Verif.Props.ModelAcc
open Verif.ModelAcc
open Classical

/-! ### Sorting -/

theorem le_trans' {a b c : XD} (h : XD.le a b) (g : XD.le b c) : XD.le a c := by
  cases a <;> cases b <;> cases c <;> simp_all [XD.le, XD.lt, XD.eq] <;> first | (rcases h with h | h <;> rcases g with g | g <;> first | (left; linarith) | (right; linarith)) | skip

theorem le_total' {a b : XD} (h : a ≠ .nan) (g : b ≠ .nan) : XD.le a b ∨ XD.le b a := by
  cases a <;> cases b <;> simp_all [XD.le, XD.lt, XD.eq] <;> first | (rename_i x y; rcases lt_trichotomy x y with h | h | h <;> simp [h]) | skip

theorem le_antisymm' {a b : XD} (h : XD.le a b) (g : XD.le b a) : a = b := by
  cases a <;> cases b <;> simp_all [XD.le, XD.lt, XD.eq] <;> first | (rcases h with h | h <;> rcases g with g | g <;> linarith) | skip

theorem le_refl' {a : XD} (h : a ≠ .nan) : XD.le a a := by
  rcases le_total' h h with h | h <;> exact h

theorem ne_nan_of_le {a b : XD} (h : XD.le a b) : a ≠ .nan ∧ b ≠ .nan := by
  constructor
  · rintro rfl; exact XD.not_le_nan_left _ h
  · rintro rfl; exact XD.not_le_nan_right _ h

theorem sort_perm (l : List XD) : (sort l).Perm l := List.mergeSort_perm _ _

theorem sort_sorted {l : List XD} (h : XD.nan ∉ l) : (sort l).Pairwise XD.le := by
  have e : sort l = l.mergeSort fun a b => decide (XD.le a b ∨ b = .nan) := by
    unfold sort
    have := List.map_mergeSort (r := fun a b => decide (XD.le a b)) (s := fun a b => decide (XD.le a b ∨ b = .nan)) (f := fun x : XD => x) (l := l) (fun a _ b hb => by
      have : b ≠ .nan := fun hn => h (hn ▸ hb)
      simp [this])
    simpa using this
  have p : (l.mergeSort fun a b => decide (XD.le a b ∨ b = .nan)).Pairwise fun a b => decide (XD.le a b ∨ b = .nan) = true := by
    apply List.pairwise_mergeSort
    · intro a b c h1 h2
      simp only [decide_eq_true_eq] at h1 h2 ⊢
      rcases h2 with h2 | h2
      · rcases h1 with h1 | h1
        · exact Or.inl (le_trans' h1 h2)
        · exact absurd h1 (ne_nan_of_le h2).1
      · exact Or.inr h2
    · intro a b
      simp only [Bool.or_eq_true, decide_eq_true_eq]
      by_cases ha : a = .nan
      · exact Or.inr (Or.inr ha)
      · by_cases hb : b = .nan
        · exact Or.inl (Or.inr hb)
        · rcases le_total' ha hb with h | h
          · exact Or.inl (Or.inl h)
          · exact Or.inr (Or.inl h)
  have hn : ∀ x ∈ sort l, x ≠ .nan := fun x hx hn => h (hn ▸ (sort_perm l).mem_iff.1 hx)
  have p2 : (sort l).Pairwise fun a b => XD.le a b ∨ b = .nan := by
    rw [e]
    exact p.imp fun h => by simpa using h
  exact p2.imp_of_mem fun {a b} _ hb h => h.resolve_right (hn b hb)

/-- Closed upwards. -/
def Up (P : XD → Prop) : Prop := ∀ x y, XD.le x y → P x → P y

theorem sorted_count {s : List XD} (h : s.Pairwise XD.le) (hn : XD.nan ∉ s) {k : ℕ} {m : XD} (hk : s[k]? = some m) (P : XD → Prop) (hP : Up P) :
    P m ↔ s.length < (s.countP fun x => decide (P x)) + k + 1 := by
  obtain ⟨hl, rfl⟩ := List.getElem?_eq_some_iff.1 hk
  have hd : s.countP (fun x => decide (P x)) = (s.take k).countP (fun x => decide (P x)) + (s.drop k).countP (fun x => decide (P x)) := by
    conv_lhs => rw [← List.take_append_drop k s, List.countP_append]
  have hds : s.drop k = s[k] :: s.drop (k + 1) := (List.cons_getElem_drop_succ).symm
  have hmem : s[k] ∈ s.drop k := by rw [hds]; exact List.mem_cons_self
  have hts : s.take k ++ s.drop k = s := List.take_append_drop k s
  have pw := h
  rw [← hts, List.pairwise_append] at pw
  obtain ⟨p1, p2, p3⟩ := pw
  have hm : s[k] ≠ .nan := fun e => hn (e ▸ List.getElem_mem hl)
  have hge : ∀ x ∈ s.drop k, XD.le s[k] x := by
    intro x hx
    rw [hds] at hx p2
    rcases List.mem_cons.1 hx with rfl | hx
    · exact le_refl' hm
    · exact (List.pairwise_cons.1 p2).1 x hx
  have hle : ∀ x ∈ s.take k, XD.le x s[k] := fun x hx => p3 x hx _ hmem
  have c1 : (s.take k).countP (fun x => decide (P x)) ≤ k := (List.countP_le_length).trans (by simp)
  have c2 : (s.drop k).length = s.length - k := by simp
  constructor
  · intro hp
    have : (s.drop k).countP (fun x => decide (P x)) = (s.drop k).length := List.countP_eq_length.2 fun x hx => by simpa using hP _ _ (hge x hx) hp
    omega
  · intro hc
    by_contra hp
    have z : (s.take k).countP (fun x => decide (P x)) = 0 := List.countP_eq_zero.2 fun x hx => by simpa using fun hx' => hp (hP _ _ (hle x hx) hx')
    have z2 : (s.drop k).countP (fun x => decide (P x)) < (s.drop k).length := by
      rcases Nat.lt_or_ge ((s.drop k).countP (fun x => decide (P x))) (s.drop k).length with h | h
      · exact h
      · exfalso
        have := List.countP_eq_length.1 (le_antisymm List.countP_le_length h) s[k] hmem
        exact hp (by simpa using this)
    omega

theorem sort_nan {l : List XD} (h : XD.nan ∉ l) : XD.nan ∉ sort l := fun g => h ((sort_perm l).mem_iff.1 g)

theorem sort_count {l : List XD} (h : XD.nan ∉ l) {k : ℕ} {m : XD} (hk : (sort l)[k]? = some m) (P : XD → Prop) (hP : Up P) :
    P m ↔ l.length < (l.countP fun x => decide (P x)) + k + 1 := by
  have := sorted_count (sort_sorted h) (sort_nan h) hk P hP
  rwa [(sort_perm l).length_eq, (sort_perm l).countP_eq] at this

theorem up_le (t : XD) : Up fun x => XD.le t x := fun _ _ h g => le_trans' g h

theorem up_lt (t : XD) : Up fun x => ¬ XD.le x t := fun _ _ h g g' => g (le_trans' h g')

/-! ### C373: the vote of the accuracy test -/

/-- **C373 (majority of decisions).** For every odd number of runs whose results are numbers or infinities: the vote gives one of the results, and it reaches any threshold exactly if more than half of the results do; so the prediction of the vote is the majority of the predictions of the runs. -/
theorem C373_majority (op : ℕ → XD) (k : ℕ) (h : ∀ i < 2 * k + 1, op i ≠ .nan) :
    ∃ m, applyTMR op (2 * k + 1) = .ok m ∧ (∃ i < 2 * k + 1, m = op i) ∧
      ∀ t, XD.le t m ↔ 2 * k + 1 < 2 * ((List.range (2 * k + 1)).countP fun i => decide (XD.le t (op i))) := by
  by_cases hk : k = 0
  · subst hk
    refine ⟨op 0, ?_, ⟨0, by omega, rfl⟩, ?_⟩
    · unfold applyTMR
      dsimp only
      rw [if_pos (by simp)]
    · intro t
      by_cases g : XD.le t (op 0) <;> simp [List.range_succ, g]
  have hred : ((2 * (k : ℤ) + 1)).toNat = 2 * k + 1 := by omega
  have hn : XD.nan ∉ (List.range (2 * k + 1)).map op := by
    intro g
    obtain ⟨i, hi, e⟩ := List.mem_map.1 g
    exact h i (List.mem_range.1 hi) e
  have hidx : ((2 * (k : ℤ) + 1) / 2).toNat = k := by omega
  have hlen : (sort ((List.range (2 * k + 1)).map op)).length = 2 * k + 1 := by
    rw [(sort_perm _).length_eq]; simp
  have hg : (sort ((List.range (2 * k + 1)).map op))[k]? = some ((sort ((List.range (2 * k + 1)).map op))[k]'(by omega)) := List.getElem?_eq_getElem (by omega)
  generalize (sort ((List.range (2 * k + 1)).map op))[k]'(by omega) = m at hg
  refine ⟨m, ?_, ?_, ?_⟩
  · unfold applyTMR
    dsimp only
    rw [if_neg (by omega), hred, if_neg (fun g => hn g.1), hidx, hg]
  · have := (sort_perm _).mem_iff.1 (List.mem_of_getElem? hg)
    obtain ⟨i, hi, e⟩ := List.mem_map.1 this
    exact ⟨i, List.mem_range.1 hi, e.symm⟩
  · intro t
    have := sort_count hn hg (fun x => XD.le t x) (up_le t)
    rw [List.countP_map, List.length_map, List.length_range] at this
    have e : (List.range (2 * k + 1)).countP ((fun x => decide (XD.le t x)) ∘ op) = (List.range (2 * k + 1)).countP fun i => decide (XD.le t (op i)) := rfl
    rw [e] at this
    rw [this]
    omega

/-- **C373 (intact majority).** If more than half of an odd number of runs give the value `v`, the vote is `v`, whatever the other runs give (except NaN). -/
theorem C373_intact (op : ℕ → XD) (k : ℕ) (h : ∀ i < 2 * k + 1, op i ≠ .nan) (v : XD)
    (hv : 2 * k + 1 < 2 * ((List.range (2 * k + 1)).countP fun i => decide (op i = v))) : applyTMR op (2 * k + 1) = .ok v := by
  obtain ⟨m, hm, ⟨i, hi, e⟩, ht⟩ := C373_majority op k h
  have hvn : v ≠ .nan := by
    rintro rfl
    have : (List.range (2 * k + 1)).countP (fun i => decide (op i = .nan)) = 0 := List.countP_eq_zero.2 fun i hi => by simpa using h i (List.mem_range.1 hi)
    omega
  have h1 : XD.le v m := by
    rw [ht]
    have : (List.range (2 * k + 1)).countP (fun i => decide (op i = v)) ≤ (List.range (2 * k + 1)).countP (fun i => decide (XD.le v (op i))) := by
      apply List.countP_mono_left
      intro i _ hi
      have : op i = v := by simpa using hi
      simpa [this] using le_refl' hvn
    omega
  have h2 : XD.le m v := by
    have hmn : m ≠ .nan := by rw [e]; exact h i hi
    rcases le_total' hmn hvn with g | g
    · exact g
    by_contra hc
    have hlt : 2 * k + 1 < 2 * ((List.range (2 * k + 1)).countP fun i => decide (XD.le m (op i))) := (ht m).1 (le_refl' hmn)
    have : (List.range (2 * k + 1)).countP (fun i => decide (XD.le m (op i))) ≤ (List.range (2 * k + 1)).countP (fun i => !decide (op i = v)) := by
      apply List.countP_mono_left
      intro i _ hi
      have hi : XD.le m (op i) := by simpa using hi
      have : op i ≠ v := fun e => hc (e ▸ hi)
      simp [this]
    have l := List.length_eq_countP_add_countP (fun i => decide (op i = v)) (l := List.range (2 * k + 1))
    rw [List.length_range] at l
    have q : (List.range (2 * k + 1)).countP (fun i => !decide (op i = v)) = (List.range (2 * k + 1)).countP (fun a => decide ¬(decide (op a = v) = true)) := by
      congr 1
      funext i
      simp
    omega
  rw [hm, le_antisymm' h2 h1]

example : ∀ i < 2 * 1 + 1, (fun i : ℕ => if i = 0 then XD.pinf else XD.fin (1 / 4)) i ≠ .nan := by
  intro i _ h
  dsimp only at h
  split_ifs at h
example : 2 * 1 + 1 < 2 * ((List.range (2 * 1 + 1)).countP fun i => decide ((fun i : ℕ => if i = 0 then XD.pinf else XD.fin (1 / 4)) i = XD.fin (1 / 4))) := by
  simp [List.range_succ]

/-! ### C374: parameters and injection -/

/-- **C374 (parameters).** For every network and list of parameters: setting them is defined exactly if there is one more than weights (at least); then reading gives the first ones back; and the parameters of a network put into any other of the same size reproduce it. -/
theorem C374_parameters (n tmp : Net) (p : List V) :
    (n.setParams p = .ub ↔ p.length ≤ n.weights.length) ∧ (∀ q, n.setParams p = .ok q → q.params = p.take (n.weights.length + 1) ∧ q.weights.length = n.weights.length) ∧
    (tmp.weights.length = n.weights.length → tmp.setParams n.params = .ok n) := by
  refine ⟨?_, ?_, ?_⟩
  · unfold Net.setParams
    split_ifs with h
    · simp; omega
    · simp; omega
  · intro q hq
    unfold Net.setParams at hq
    split_ifs at hq with h
    simp only [Outcome.ok.injEq] at hq
    subst hq
    refine ⟨?_, by simp; omega⟩
    unfold Net.params
    dsimp only
    rw [List.take_append_getElem h]
  · intro h
    have hp : tmp.weights.length < n.params.length := by unfold Net.params; simp; omega
    have e1 : n.params.take tmp.weights.length = n.weights := by
      unfold Net.params
      rw [h, List.take_left]
    have e2 : n.params[tmp.weights.length] = n.bias := by
      have : n.params[tmp.weights.length]? = some n.bias := by
        unfold Net.params
        rw [h, List.getElem?_append_right le_rfl]
        simp
      rw [List.getElem?_eq_getElem hp] at this
      exact Option.some.inj this
    unfold Net.setParams
    rw [dif_pos hp, e1, e2]

/-- **C374 (injection).** For every rate, draws and list of parameters: the length is kept; a parameter whose draw is not below the rate is unchanged; the others differ in exactly the bit drawn; at a rate of 0 (or less) with draws from 0 nothing changes and at a rate above all draws every parameter is damaged. -/
theorem C374_injection (rate : ℝ) (u : ℕ → ℝ) (b : ℕ → Fin 32) (p : List V) :
    ((inject rate u b p).length = p.length) ∧
    (∀ (k : ℕ) (v : V), p[k]? = some v → ∃ w, (inject rate u b p)[k]? = some w ∧ (rate ≤ u k → w = v) ∧ (u k < rate → ∀ i : ℕ, i < 32 → (w.getLsbD i ≠ v.getLsbD i ↔ i = (b k).val))) ∧
    (rate ≤ 0 → (∀ k, 0 ≤ u k) → inject rate u b p = p) ∧ ((∀ k, u k < rate) → ∀ (k : ℕ) (v : V), p[k]? = some v → (inject rate u b p)[k]? ≠ some v) := by
  have bit : ∀ (v : V) (j : Fin 32) (i : ℕ), i < 32 → ((v ^^^ (1#32 <<< j.val)).getLsbD i ≠ v.getLsbD i ↔ i = j.val) := by
    intro v j i hi
    rw [BitVec.getLsbD_xor, BitVec.getLsbD_shiftLeft]
    have hj := j.isLt
    have h1 : (1#32).getLsbD (i - j.val) = decide (i - j.val = 0) := by
      rw [BitVec.getLsbD_one]
      simp
    rw [h1]
    by_cases g : i = j.val
    · subst g
      simp [hi]
    · by_cases g2 : i < j.val
      · simp [g, g2]
      · have : ¬ i - j.val = 0 := by omega
        simp [g, this]
  have get : ∀ (k : ℕ) (v : V), p[k]? = some v → (inject rate u b p)[k]? = some (if u k < rate then v ^^^ (1#32 <<< (b k).val) else v) := by
    intro k v hv
    unfold inject
    rw [List.getElem?_mapIdx, hv]
    rfl
  refine ⟨by simp [inject], ?_, ?_, ?_⟩
  · intro k v hv
    refine ⟨_, get k v hv, ?_, ?_⟩
    · intro h; rw [if_neg (not_lt.2 h)]
    · intro h i hi
      rw [if_pos h]
      exact bit v (b k) i hi
  · intro h0 hu
    apply List.ext_getElem?
    intro k
    rcases hk : p[k]? with _ | v
    · rw [List.getElem?_eq_none_iff] at hk ⊢
      simpa [inject] using hk
    · rw [get k v hk, if_neg (by have := hu k; linarith)]
  · intro hu k v hv he
    rw [get k v hv, if_pos (hu k)] at he
    have := (bit v (b k) (b k).val (b k).isLt).2 rfl
    rw [Option.some.inj he] at this
    exact this rfl

/-- **C374 (no errors).** At an error rate of 0, for every network, temporary network of the same size, draws and sample: the operation gives exactly what the undamaged network gives. -/
theorem C374_no_errors (val : V → XD) (sig : XD → XD) (model tmp : Net) (u : ℕ → ℝ) (hu : ∀ k, 0 ≤ u k) (b : ℕ → Fin 32) (x : List XD) (hl : tmp.weights.length = model.weights.length) :
    operation val sig model tmp 0 u b x = model.forward val sig x := by
  unfold operation
  rw [(C374_injection 0 u b model.params).2.2.1 le_rfl hu, (C374_parameters model tmp []).2.2 hl]
  rfl

/-- **C374 (prediction).** A vote of at least one half is the prediction 1, every other number the prediction 0; the sample is correct exactly if the label is the prediction. -/
theorem C374_prediction (op : ℕ → XD) (red label : ℤ) (v : ℝ) (h : applyTMR op red = .ok (.fin v)) :
    judge op red label = .ok true ↔ (1 / 2 ≤ v ∧ label = 1) ∨ (v < 1 / 2 ∧ label = 0) := by
  unfold judge
  rw [h]
  have e : XD.le (.fin (1 / 2)) (.fin v) ↔ (1 / 2 : ℝ) ≤ v := XD.le_fin _ _
  show Outcome.ok (decide ((if XD.le (.fin (1 / 2)) (.fin v) then (1 : ℤ) else 0) = label)) = .ok true ↔ _
  rw [Outcome.ok.injEq, decide_eq_true_eq]
  by_cases g : (1 / 2 : ℝ) ≤ v
  · rw [if_pos (e.2 g)]
    constructor
    · exact fun e => Or.inl ⟨g, e.symm⟩
    · rintro (⟨_, e⟩ | ⟨e, _⟩)
      · exact e.symm
      · exact absurd g (not_le.2 e)
  · rw [if_neg fun h => g (e.1 h)]
    constructor
    · exact fun e => Or.inr ⟨not_le.1 g, e.symm⟩
    · rintro (⟨e, _⟩ | ⟨_, e⟩)
      · exact absurd e g
      · exact e.symm

/-- Non-vacuity: a single run giving exactly one half. -/
example : applyTMR (fun _ => XD.fin (1 / 2)) 1 = .ok (.fin (1 / 2)) := by
  unfold applyTMR
  simp

/-- **C374 (levels agree without errors).** If all runs of every sample give the same number, every odd level of redundancy counts the same predictions as correct: those of a single run. -/
theorem C374_levels (y : ℕ → XD) (hy : ∀ i, y i ≠ .nan) (k : ℕ) : ∀ (labels : List ℤ) (i : ℕ), correct (fun i _ => y i) (2 * k + 1) i labels = correct (fun i _ => y i) 1 i labels
  | [], _ => by rw [correct, correct]
  | l :: ls, i => by
    have h1 : applyTMR (fun _ => y i) (2 * k + 1) = .ok (y i) := by
      apply C373_intact
      · intro j _; exact hy i
      · have : (List.range (2 * k + 1)).countP (fun _ => decide (y i = y i)) = (List.range (2 * k + 1)).length := List.countP_eq_length.2 fun _ _ => by simp
        rw [this, List.length_range]
        omega
    have h2 : applyTMR (fun _ => y i) 1 = .ok (y i) := by
      unfold applyTMR
      dsimp only
      rw [if_pos rfl]
    rw [correct, correct, C374_levels y hy k ls (i + 1)]
    unfold judge
    rw [h1, h2]

example : (Net.mk [0#32, 1#32] 2#32).setParams (Net.mk [5#32, 6#32] 7#32).params = .ok ⟨[5#32, 6#32], 7#32⟩ := by decide +kernel
example : (0 : ℝ) ≤ 0 ∧ ∀ k : ℕ, (0 : ℝ) ≤ (fun _ : ℕ => (1 / 2 : ℝ)) k := by
  refine ⟨le_rfl, fun _ => ?_⟩
  norm_num

/-! ### C375: the table of improvements -/

/-- The improvement of accuracy `a` over the accuracy `base` in percent, as the table's title says. -/
noncomputable def relative (a base : ℝ) : XD := .fin ((a - base) / base * 100)

/-- **C375 (violated: the table does not show the improvement).** Whatever accuracies were measured, the entry at row `i` and level `j` is `100 j / (levels * i)` percent, and "N/A" in the first row: the table is computed from the position in the table.  So with equal accuracies at all levels the program of six rates and four levels announces an improvement of 15 percent for the best level at the highest rate, where there is none. -/
theorem C375_table_violated :
    (∀ (measured : ℕ → ℕ → XD) (rows cols i j : ℕ), 0 < rows → 0 < cols →
      improvement measured rows cols i j = if j = 0 ∨ i = 0 then none else some (.fin (100 * j / (cols * i)))) ∧
    improvement (fun _ _ => .fin 1) 6 4 5 3 = some (.fin 15) ∧ relative 1 1 = .fin 0 ∧
    ¬ (∀ (m : ℕ → ℕ → ℝ), (∀ i j, 0 < m i j) → ∀ i j, 0 < j → i < 6 → j < 4 → improvement (fun i j => .fin (m i j)) 6 4 i j = some (relative (m i j) (m i 0))) := by
  have all : ∀ (measured : ℕ → ℕ → XD) (rows cols i j : ℕ), 0 < rows → 0 < cols →
      improvement measured rows cols i j = if j = 0 ∨ i = 0 then none else some (.fin (100 * j / (cols * i))) := by
    intro measured rows cols i j hr hc
    have hr' : (0 : ℝ) < rows := by exact_mod_cast hr
    have hc' : (0 : ℝ) < cols := by exact_mod_cast hc
    have hrc : (((rows * cols : ℕ) : ℝ)) ≠ 0 := by push_cast; positivity
    unfold improvement
    dsimp only
    simp only [XD.div_fin _ _ hrc]
    by_cases hj : j = 0
    · rw [if_pos hj, if_pos (Or.inl hj)]
    rw [if_neg hj]
    by_cases hi : i = 0
    · subst hi
      rw [if_neg (by simp), if_pos (Or.inr rfl)]
    have hi' : (0 : ℝ) < i := by exact_mod_cast Nat.pos_of_ne_zero hi
    have pos : (0 : ℝ) < ((i * cols + 0 : ℕ) : ℝ) / ((rows * cols : ℕ) : ℝ) := by push_cast; positivity
    rw [if_pos ((XD.lt_fin _ _).2 pos), if_neg (by simp [hi, hj])]
    have e : XD.sub (.fin (((i * cols + j : ℕ) : ℝ) / ((rows * cols : ℕ) : ℝ))) (.fin (((i * cols + 0 : ℕ) : ℝ) / ((rows * cols : ℕ) : ℝ))) = .fin (((i * cols + j : ℕ) : ℝ) / ((rows * cols : ℕ) : ℝ) + -(((i * cols + 0 : ℕ) : ℝ) / ((rows * cols : ℕ) : ℝ))) := rfl
    rw [e, XD.div_fin _ _ (ne_of_gt pos), XD.mul_fin]
    congr 2
    push_cast
    field_simp
    ring
  have h15 : improvement (fun _ _ => .fin 1) 6 4 5 3 = some (.fin 15) := by
    rw [all _ 6 4 5 3 (by norm_num) (by norm_num), if_neg (by norm_num)]
    norm_num
  have h0 : relative 1 1 = .fin 0 := by
    unfold relative
    norm_num
  refine ⟨all, h15, h0, fun h => ?_⟩
  have := h (fun _ _ => 1) (fun _ _ => one_pos) 5 3 (by norm_num) (by norm_num) (by norm_num)
  rw [h15, h0] at this
  simp at this

/-! ### C376: the simple test -/

/-- **C376 (vote).** For every input and list of results of any length: if more than half of the results are the (finite) input, the vote is the input, whatever the others are, NaN and infinities included; the vote over finite inputs is finite; and with no finite result at all it is the input. -/
theorem C376_vote (x : XD) (rs : List XD) :
    (Finite x → rs.length < 2 * (rs.countP fun r => decide (r = x)) → vote x rs = x) ∧ (Finite x → Finite (vote x rs)) ∧ ((∀ r ∈ rs, ¬ Finite r) → vote x rs = x) ∧
    (vote x rs = x ∨ vote x rs ∈ rs) := by
  have hv : ∀ r ∈ rs.filter (fun r => decide (Finite r)), Finite r := fun r hr => by simpa using (List.mem_filter.1 hr).2
  have hn : XD.nan ∉ rs.filter (fun r => decide (Finite r)) := fun h => hv _ h
  have hmem : ∀ m, (sort (rs.filter fun r => decide (Finite r)))[(rs.filter fun r => decide (Finite r)).length / 2]? = some m → m ∈ rs.filter (fun r => decide (Finite r)) :=
    fun m h => (sort_perm _).mem_iff.1 (List.mem_of_getElem? h)
  refine ⟨?_, ?_, ?_, ?_⟩
  · intro hx hc
    have c : (rs.filter fun r => decide (Finite r)).countP (fun r => decide (r = x)) = rs.countP (fun r => decide (r = x)) := by
      rw [List.countP_filter]
      apply List.countP_congr
      intro r _
      by_cases h : r = x
      · subst h; simp [hx]
      · simp [h]
    have hl : (rs.filter fun r => decide (Finite r)).length ≤ rs.length := List.length_filter_le _ _
    have hp : 0 < (rs.filter fun r => decide (Finite r)).length := by
      have : (rs.filter fun r => decide (Finite r)).countP (fun r => decide (r = x)) ≤ _ := List.countP_le_length
      omega
    rw [← c] at hc
    unfold vote
    dsimp only
    generalize rs.filter (fun r => decide (Finite r)) = l at *
    have hlen : (sort l).length = l.length := (sort_perm l).length_eq
    rcases hg : (sort l)[l.length / 2]? with _ | m
    · rw [List.getElem?_eq_none_iff] at hg
    show m = x
    have hm : m ≠ .nan := fun e => hn (e ▸ hmem m hg)
    have hxn : x ≠ .nan := by rintro rfl; exact hx
    have l0 := List.length_eq_countP_add_countP (fun r => decide (r = x)) (l := l)
    have notx : ∀ P : XD → Prop, ¬ P x → l.countP (fun r => decide (P r)) ≤ l.countP (fun a => decide ¬(decide (a = x) = true)) := by
      intro P hP
      apply List.countP_mono_left
      intro r _ hr
      have hr : P r := by simpa using hr
      have : r ≠ x := fun e => hP (e ▸ hr)
      simp [this]
    have isx : ∀ P : XD → Prop, P x → l.countP (fun r => decide (r = x)) ≤ l.countP (fun r => decide (P r)) := by
      intro P hP
      apply List.countP_mono_left
      intro r _ hr
      have : r = x := by simpa using hr
      simpa [this] using hP
    have h1 : XD.le x m := by
      rw [sort_count hn hg _ (up_le x)]
      have := isx (fun r => XD.le x r) (le_refl' hxn)
      omega
    have h2 : XD.le m x := by
      by_contra hc2
      have := (sort_count hn hg _ (up_lt x)).1 hc2
      have := notx (fun r => ¬ XD.le r x) (not_not.2 (le_refl' hxn))
      omega
    exact le_antisymm' h2 h1
  · intro hx
    unfold vote
    dsimp only
    rcases hg : (sort (rs.filter fun r => decide (Finite r)))[(rs.filter fun r => decide (Finite r)).length / 2]? with _ | m
    · exact hx
    · exact hv m (hmem m hg)
  · intro h
    have : rs.filter (fun r => decide (Finite r)) = [] := List.filter_eq_nil_iff.2 fun r hr => by simpa using h r hr
    unfold vote
    dsimp only
    rw [this]
    have : sort [] = [] := List.length_eq_zero_iff.1 ((sort_perm []).length_eq)
    rw [this]
    rfl
  · unfold vote
    dsimp only
    rcases hg : (sort (rs.filter fun r => decide (Finite r)))[(rs.filter fun r => decide (Finite r)).length / 2]? with _ | m
    · exact Or.inl rfl
    · exact Or.inr (List.mem_of_mem_filter (hmem m hg))

/-- **C376 (computation).** With the draw of the bit from 0 (inclusive) to 1 (exclusive) the computation with errors is always defined, and its result is the input, the input with one of its 32 bits flipped, the input changed by at most its own size, the negated input, NaN or infinity; at a rate of 0 or below it is the input. -/
theorem C376_computation (flip : XD → ℕ → XD) (x rate : ℝ) (d : Draws) (ha : 0 ≤ d.arg ∧ d.arg < 1) :
    (∃ r, compute flip (.fin x) rate d = .ok r ∧ (r = .fin x ∨ (∃ k < 32, r = flip (.fin x) k) ∨ (∃ y, r = .fin y ∧ |y - x| ≤ |x|) ∨ r = .fin (-x) ∨ r = .nan ∨ r = .pinf)) ∧
    (rate ≤ d.hit → compute flip (.fin x) rate d = .ok (.fin x)) := by
  have f1 : 0 ≤ ⌊d.arg * 32⌋ ∧ ⌊d.arg * 32⌋ < 32 := by
    refine ⟨Int.floor_nonneg.2 (by linarith [ha.1]), Int.floor_lt.2 ?_⟩
    push_cast
    linarith [ha.2]
  constructor
  · unfold compute
    dsimp only
    split_ifs
    · exact ⟨_, rfl, Or.inl rfl⟩
    · exact ⟨_, rfl, Or.inr (Or.inl ⟨_, by omega, rfl⟩)⟩
    · refine ⟨_, rfl, Or.inr (Or.inr (Or.inl ⟨x + (d.arg * 2 - 1) * x, rfl, ?_⟩))⟩
      rw [add_sub_cancel_left, abs_mul]
      have : |d.arg * 2 - 1| ≤ 1 := abs_le.2 ⟨by linarith [ha.1], by linarith [ha.2]⟩
      exact mul_le_of_le_one_left (abs_nonneg x) this
    · exact ⟨_, rfl, Or.inr (Or.inr (Or.inr (Or.inl rfl)))⟩
    · exact ⟨_, rfl, Or.inr (Or.inr (Or.inr (Or.inr (Or.inl rfl))))⟩
    · exact ⟨_, rfl, Or.inr (Or.inr (Or.inr (Or.inr (Or.inr rfl))))⟩
    · exact ⟨_, rfl, Or.inl rfl⟩
    · exact ⟨_, rfl, Or.inl rfl⟩
  · intro h
    unfold compute
    split_ifs with g1 g2
    · rfl
    all_goals first | rfl | exact absurd g2 (not_lt.2 h)

/-- **C376 (acceptance).** NaN and infinities are never accepted; for an input other than zero a finite result is accepted exactly if it deviates by at most the tolerance times the size of the input. -/
theorem C376_acceptance (o r tol : ℝ) (x : XD) :
    ¬ acceptable x .nan tol ∧ ¬ acceptable x .pinf tol ∧ ¬ acceptable x .ninf tol ∧ (o ≠ 0 → (acceptable (.fin o) (.fin r) tol ↔ |o - r| ≤ tol * |o|)) := by
  refine ⟨fun h => h.1, fun h => h.1, fun h => h.1, fun ho => ?_⟩
  have hp : 0 < |o| := abs_pos.2 ho
  unfold acceptable
  have e : (((XD.fin o).sub (.fin r)).abs).div (XD.fin o).abs = .fin (|o - r| / |o|) := by
    have : ((XD.fin o).sub (.fin r)).abs = .fin |o - r| := by
      show XD.fin |o + -r| = _
      rw [sub_eq_add_neg]
    rw [this]
    exact XD.div_fin _ _ hp.ne'
  rw [e, XD.le_fin, div_le_iff₀ hp]
  exact ⟨fun h => h.2, fun h => ⟨trivial, h⟩⟩

/-- **C376 (limit: zero).** For the input zero no result is accepted, not even the exact one. -/
theorem C376_zero_limit (r tol : ℝ) : ¬ acceptable (.fin 0) (.fin r) tol := by
  rintro ⟨-, h⟩
  have e : (((XD.fin 0).sub (.fin r)).abs).div (XD.fin 0).abs = XD.div (.fin |(0 : ℝ) + -r|) (.fin |(0 : ℝ)|) := rfl
  rw [e, abs_zero] at h
  rcases eq_or_lt_of_le (abs_nonneg ((0 : ℝ) + -r)) with g | g
  · rw [← g, XD.div_zero_zero] at h
    exact XD.not_le_nan_left _ h
  · rw [XD.div_zero_pos _ g] at h
    exact XD.not_le_pinf_fin _ h

/-- **C376 (no errors).** At a rate of 0 or below every trial of every level is accepted, for every input other than zero and tolerance of at least 0. -/
theorem C376_no_errors (flip : XD → ℕ → XD) (x tol rate : ℝ) (hx : x ≠ 0) (ht : 0 ≤ tol) (hr : rate ≤ 0) (d : ℕ → ℕ → Draws) (red : ℤ) : ∀ n, trials flip (.fin x) tol rate d red n = .ok n
  | 0 => rfl
  | n + 1 => by
    have hc : ∀ d, compute flip (.fin x) rate d = .ok (.fin x) := by
      intro d
      unfold compute
      rw [if_pos hr]
    have hruns : ∀ k, runs flip (.fin x) rate (d n) k = .ok (List.replicate k (.fin x)) := by
      intro k
      induction k with
      | zero => rfl
      | succ k ih =>
        rw [runs, ih, hc, List.replicate_succ']
        rfl
    have ha : apply flip (.fin x) rate (d n) red = .ok (.fin x) := by
      unfold apply
      split_ifs with h
      · exact hc _
      · rw [hruns]
        have : vote (.fin x) (List.replicate red.toNat (.fin x)) = .fin x := by
          rcases (C376_vote (.fin x) (List.replicate red.toNat (.fin x))).2.2.2 with h | h
          · exact h
          · exact List.eq_of_mem_replicate h
        show Outcome.ok _ = _
        rw [this]
    have acc : acceptable (.fin x) (.fin x) tol := by
      rw [(C376_acceptance x x tol (.fin x)).2.2.2 hx, sub_self, abs_zero]
      positivity
    rw [trials, C376_no_errors flip x tol rate hx ht hr d red n, ha]
    show Outcome.ok _ = _
    rw [if_pos acc]

example : Finite (.fin 10) ∧ [XD.fin 10, .nan, .fin 10].length < 2 * ([XD.fin 10, .nan, .fin 10].countP fun r => decide (r = .fin 10)) := by
  refine ⟨trivial, ?_⟩
  simp [List.countP_cons]
example : (10 : ℝ) ≠ 0 ∧ (0 : ℝ) ≤ 1 / 20 := by norm_num

/-- **C376 (limit: a single run).** Without redundancy nothing filters the result: a struck run whose damage is the substitution gives NaN or infinity, which is never accepted. -/
theorem C376_single_limit (flip : XD → ℕ → XD) (x : XD) (rate tol : ℝ) (hr : 0 < rate) (d : ℕ → Draws) (hh : (d 0).hit < rate) (hk : 3 / 4 ≤ (d 0).kind ∧ (d 0).kind < 1) (red : ℤ) (h1 : red ≤ 1) :
    ∃ r, apply flip x rate d red = .ok r ∧ r = (if (d 0).arg < 1 / 2 then XD.nan else XD.pinf) ∧ ¬ acceptable x r tol := by
  have f : ⌊(d 0).kind * 4⌋ = 3 := by
    rw [Int.floor_eq_iff]
    constructor
    · push_cast; linarith
    · push_cast; linarith
  refine ⟨if (d 0).arg < 1 / 2 then XD.nan else XD.pinf, ?_, rfl, ?_⟩
  · unfold apply compute
    rw [if_pos h1, if_neg (not_le.2 hr), if_pos hh, f]
    simp
  · split_ifs
    · exact fun h => h.1
    · exact fun h => h.1

example : (0 : ℝ) < 1 / 10 ∧ (1 / 20 : ℝ) < 1 / 10 ∧ (3 / 4 : ℝ) ≤ 4 / 5 ∧ (4 / 5 : ℝ) < 1 := by norm_num

end Verif.Props.ModelAcc
