import Verif.Model.SystematicFault
import Verif.Props.RadStress
import Mathlib.Data.List.Perm.Subperm
import Mathlib.Data.List.Nodup
/-!
C321–C323: the systematic fault injection test.
-/
namespace Verif.Props.SysFault
open Verif Verif.SysFault Verif.Spec
open Verif.RadStress (F Arith Addr Net outputs credit vote create)
open Verif.Props.RadStress (mem_addrs plain outputs_eq vote_exact sum_const eq_self eq_comm' C299_vote_counter addrs_length)

/-! ### C321: the parameters affected -/

theorem addrOf_mem (n : Net) (p : ℕ) (hp : p < totalParams n) : addrOf n p ∈ n.addrs := by
  unfold totalParams at hp
  unfold addrOf
  split
  · rename_i h
    have hh : 0 < n.hid := by
      rcases Nat.eq_zero_or_pos n.hid with h0 | h0
      · rw [h0] at h; simp at h
      · exact h0
    rw [mem_addrs]
    exact ⟨(Nat.div_lt_iff_lt_mul hh).2 h, Nat.mod_lt _ hh⟩
  · split
    · rw [mem_addrs]; dsimp only; omega
    · split
      · rename_i h2 h3
        have hh : 0 < n.out := by
          rcases Nat.eq_zero_or_pos n.out with h0 | h0
          · rw [h0] at h3; simp at h3; omega
          · exact h0
        rw [mem_addrs]
        exact ⟨(Nat.div_lt_iff_lt_mul hh).2 (by omega), Nat.mod_lt _ hh⟩
      · rw [mem_addrs]; dsimp only; omega

theorem divmod_inj {a b m : ℕ} (h1 : a / m = b / m) (h2 : a % m = b % m) : a = b := by
  rw [← Nat.div_add_mod a m, ← Nat.div_add_mod b m, h1, h2]

theorem addrOf_inj (n : Net) (p q : ℕ) (h : addrOf n p = addrOf n q) : p = q := by
  unfold addrOf at h
  split at h
  · split at h
    · injection h with h1 h2
      exact divmod_inj h1 h2
    · split at h
      · cases h
      · split at h <;> cases h
  · split at h
    · split at h
      · cases h
      · split at h
        · injection h with h1; omega
        · split at h <;> cases h
    · split at h
      · split at h
        · cases h
        · split at h
          · cases h
          · split at h
            · injection h with h1 h2
              have := divmod_inj h1 h2
              omega
            · cases h
      · split at h
        · cases h
        · split at h
          · cases h
          · split at h
            · cases h
            · injection h with h1; omega

/-- C321: for every network each index below the number of parameters means a parameter, different indices mean different parameters, and every parameter has an index. -/
theorem C321_indices (n : Net) :
    (∀ p, p < totalParams n → addrOf n p ∈ n.addrs) ∧ (∀ p q, addrOf n p = addrOf n q → p = q) ∧
    (∀ a ∈ n.addrs, ∃ p, p < totalParams n ∧ addrOf n p = a) ∧ totalParams n = n.addrs.length := by
  refine ⟨addrOf_mem n, addrOf_inj n, ?_, by rw [addrs_length]; unfold totalParams; omega⟩
  intro a ha
  rw [mem_addrs] at ha
  unfold totalParams
  cases a with
  | w1 i j =>
    dsimp only at ha
    have hlt : i * n.hid + j < n.inp * n.hid := by
      have : (i + 1) * n.hid ≤ n.inp * n.hid := Nat.mul_le_mul_right _ (by omega)
      rw [Nat.add_mul] at this
      omega
    refine ⟨i * n.hid + j, by omega, ?_⟩
    unfold addrOf
    rw [if_pos hlt]
    have hp : 0 < n.hid := by omega
    rw [Nat.mul_comm i n.hid, Nat.mul_add_div hp, Nat.mul_add_mod, Nat.div_eq_of_lt ha.2, Nat.mod_eq_of_lt ha.2,
      Nat.add_zero]
  | b1 j =>
    dsimp only at ha
    refine ⟨n.inp * n.hid + j, by omega, ?_⟩
    unfold addrOf
    rw [if_neg (by omega), if_pos (by omega), Nat.add_sub_cancel_left]
  | w2 j k =>
    dsimp only at ha
    have hlt : j * n.out + k < n.hid * n.out := by
      have : (j + 1) * n.out ≤ n.hid * n.out := Nat.mul_le_mul_right _ (by omega)
      rw [Nat.add_mul] at this
      omega
    refine ⟨n.inp * n.hid + n.hid + (j * n.out + k), by omega, ?_⟩
    unfold addrOf
    rw [if_neg (by omega), if_neg (by omega), if_pos (by omega), Nat.add_sub_cancel_left]
    have hp : 0 < n.out := by omega
    rw [Nat.mul_comm j n.out, Nat.mul_add_div hp, Nat.mul_add_mod, Nat.div_eq_of_lt ha.2, Nat.mod_eq_of_lt ha.2,
      Nat.add_zero]
  | b2 k =>
    dsimp only at ha
    refine ⟨n.inp * n.hid + n.hid + n.hid * n.out + k, by omega, ?_⟩
    unfold addrOf
    rw [if_neg (by omega), if_neg (by omega), if_neg (by omega), Nat.add_sub_cancel_left]

theorem pick_some (aff ds : List ℕ) (p : ℕ) (ds' : List ℕ) (h : pick aff ds = some (p, ds')) :
    p ∈ ds ∧ p ∉ aff ∧ ∀ d ∈ ds', d ∈ ds := by
  induction ds with
  | nil => simp [pick] at h
  | cons d ds ih =>
    unfold pick at h
    split at h
    · obtain ⟨h1, h2, h3⟩ := ih h
      exact ⟨List.mem_cons_of_mem _ h1, h2, fun x hx => List.mem_cons_of_mem _ (h3 x hx)⟩
    · rename_i hd
      simp only [Option.some.injEq, Prod.mk.injEq] at h
      obtain ⟨rfl, rfl⟩ := h
      exact ⟨List.mem_cons_self, hd, fun x hx => List.mem_cons_of_mem _ hx⟩

/-- Two copies of parameter `a` are as in `n`. -/
def TwoKept (n m : Net) (a : Addr) : Prop :=
  (m.c1 a = n.c1 a ∧ m.c2 a = n.c2 a) ∨ (m.c1 a = n.c1 a ∧ m.c3 a = n.c3 a) ∨ (m.c2 a = n.c2 a ∧ m.c3 a = n.c3 a)

/-- All copies of parameter `a` are as in `n`. -/
def Kept (n m : Net) (a : Addr) : Prop := m.c1 a = n.c1 a ∧ m.c2 a = n.c2 a ∧ m.c3 a = n.c3 a

theorem injectAt_sizes (n : Net) (a : Addr) (copy : ℕ) (f : F → F) :
    (injectAt n a copy f).inp = n.inp ∧ (injectAt n a copy f).hid = n.hid ∧ (injectAt n a copy f).out = n.out ∧
    (injectAt n a copy f).prot = n.prot ∧ (injectAt n a copy f).total = n.total + 1 ∧
    (injectAt n a copy f).corrected = n.corrected := by
  unfold injectAt
  dsimp only
  split
  · exact ⟨rfl, rfl, rfl, rfl, rfl, rfl⟩
  · split <;> exact ⟨rfl, rfl, rfl, rfl, rfl, rfl⟩

theorem injectAt_other (n : Net) (a b : Addr) (copy : ℕ) (f : F → F) (h : b ≠ a) : Kept n (injectAt n a copy f) b := by
  unfold injectAt Kept upd
  dsimp only
  split
  · exact ⟨if_neg h, rfl, rfl⟩
  · split
    · exact ⟨rfl, if_neg h, rfl⟩
    · exact ⟨rfl, rfl, if_neg h⟩

theorem injectAt_self (n : Net) (a : Addr) (copy : ℕ) (f : F → F) : TwoKept n (injectAt n a copy f) a := by
  unfold injectAt TwoKept
  dsimp only
  split
  · exact Or.inr (Or.inr ⟨rfl, rfl⟩)
  · split
    · exact Or.inr (Or.inl ⟨rfl, rfl⟩)
    · exact Or.inl ⟨rfl, rfl⟩

theorem addrOf_sizes (n m : Net) (h1 : m.inp = n.inp) (h2 : m.hid = n.hid) (h3 : m.out = n.out) (p : ℕ) :
    addrOf m p = addrOf n p := by
  unfold addrOf; rw [h1, h2, h3]

/-- What `k` completed rounds have done. -/
structure Done (n : Net) (draws : List ℕ) (k : ℕ) (st : List ℕ × List ℕ × Net) : Prop where
  len : st.1.length = k
  nodup : st.1.Nodup
  from_draws : ∀ p ∈ st.1, p ∈ draws
  rest : ∀ d ∈ st.2.1, d ∈ draws
  inp : st.2.2.inp = n.inp
  hid : st.2.2.hid = n.hid
  out : st.2.2.out = n.out
  prot : st.2.2.prot = n.prot
  total : st.2.2.total = n.total + k
  corrected : st.2.2.corrected = n.corrected
  others : ∀ a, (∀ p ∈ st.1, addrOf n p ≠ a) → Kept n st.2.2 a
  picked : ∀ p ∈ st.1, TwoKept n st.2.2 (addrOf n p)

theorem rounds_done (n : Net) (draws : List ℕ) (copy : ℕ → ℕ) (fault : ℕ → F → F) (k : ℕ)
    (st : List ℕ × List ℕ × Net) (h : rounds copy fault k ([], draws, n) = some st) : Done n draws k st := by
  induction k generalizing st with
  | zero =>
    unfold rounds at h
    simp only [forN, Option.some.injEq] at h
    subst h
    exact ⟨rfl, List.nodup_nil, by simp, fun _ h => h, rfl, rfl, rfl, rfl, rfl, rfl, fun _ _ => ⟨rfl, rfl, rfl⟩, by simp⟩
  | succ k ih =>
    unfold rounds at h ih
    simp only [forN] at h
    generalize forN k (fun i (acc : Option (List ℕ × List ℕ × Net)) => acc.bind (round (copy i) (fault i)))
      (some ([], draws, n)) = g at h ih
    cases g with
    | none => simp at h
    | some s =>
      have ih := ih s rfl
      obtain ⟨aff, ds, m⟩ := s
      simp only [Option.bind_some] at h
      unfold round at h
      dsimp only at h
      generalize hp : pick aff ds = q at h
      cases q with
      | none => simp at h
      | some q =>
        obtain ⟨p, ds'⟩ := q
        obtain ⟨hp1, hp2, hp3⟩ := pick_some aff ds p ds' hp
        simp only [Option.some.injEq] at h
        have hs := injectAt_sizes m (addrOf m p) (copy k) (fault k)
        have ea := addrOf_sizes n m ih.inp ih.hid ih.out p
        rw [ea] at h hs
        subst h
        refine ⟨by simp [ih.len], List.nodup_cons.2 ⟨hp2, ih.nodup⟩, ?_, ?_, ?_, ?_, ?_, ?_, ?_, ?_, ?_, ?_⟩
        · intro x hx
          rcases List.mem_cons.1 hx with rfl | hx
          · exact ih.rest _ hp1
          · exact ih.from_draws x hx
        · exact fun d hd => ih.rest d (hp3 d hd)
        · rw [hs.1]; exact ih.inp
        · rw [hs.2.1]; exact ih.hid
        · rw [hs.2.2.1]; exact ih.out
        · rw [hs.2.2.2.1]; exact ih.prot
        · rw [hs.2.2.2.2.1]
          have := ih.total
          dsimp only at this ⊢
          omega
        · rw [hs.2.2.2.2.2]; exact ih.corrected
        · intro a ha
          have h1 := injectAt_other m (addrOf n p) a (copy k) (fault k)
            (fun e => ha p List.mem_cons_self e.symm)
          have h2 := ih.others a (fun x hx => ha x (List.mem_cons_of_mem _ hx))
          exact ⟨h1.1.trans h2.1, h1.2.1.trans h2.2.1, h1.2.2.trans h2.2.2⟩
        · intro x hx
          rcases List.mem_cons.1 hx with rfl | hx
          · have h1 := injectAt_self m (addrOf n x) (copy k) (fault k)
            have h2 := ih.others (addrOf n x) (fun y hy e => hp2 ((addrOf_inj n y x e) ▸ hy))
            dsimp only at h2 ⊢
            rcases h1 with ⟨a1, a2⟩ | ⟨a1, a2⟩ | ⟨a1, a2⟩
            · exact Or.inl ⟨a1.trans h2.1, a2.trans h2.2.1⟩
            · exact Or.inr (Or.inl ⟨a1.trans h2.1, a2.trans h2.2.2⟩)
            · exact Or.inr (Or.inr ⟨a1.trans h2.2.1, a2.trans h2.2.2⟩)
          · have hne : addrOf n x ≠ addrOf n p := fun e => hp2 ((addrOf_inj n x p e) ▸ hx)
            have h1 := injectAt_other m (addrOf n p) (addrOf n x) (copy k) (fault k) hne
            rcases ih.picked x hx with ⟨a1, a2⟩ | ⟨a1, a2⟩ | ⟨a1, a2⟩
            · exact Or.inl ⟨h1.1.trans a1, h1.2.1.trans a2⟩
            · exact Or.inr (Or.inl ⟨h1.1.trans a1, h1.2.2.trans a2⟩)
            · exact Or.inr (Or.inr ⟨h1.2.1.trans a1, h1.2.2.trans a2⟩)

/-- C321: for every network, coverage, draws and faults an injection that returns has affected exactly the announced number of different parameters, one copy of each, and nothing else. -/
theorem C321_injection_effect (n : Net) (cov : ℕ) (draws : List ℕ) (copy : ℕ → ℕ) (fault : ℕ → F → F) (m : Net) (k : ℕ)
    (h : applyFaultInjection n cov draws copy fault = some (m, k)) :
    k = numToAffect n cov ∧ m.total = k ∧ m.corrected = 0 ∧
    ∃ picked : List ℕ, picked.length = k ∧ picked.Nodup ∧ (∀ p ∈ picked, p ∈ draws) ∧
      (∀ p ∈ picked, TwoKept n m (addrOf n p)) ∧
      (∀ a, (∀ p ∈ picked, addrOf n p ≠ a) → Kept n m a) := by
  unfold applyFaultInjection at h
  generalize hr : rounds copy fault (numToAffect n cov) ([], draws, { n with total := 0, corrected := 0 }) = g at h
  cases g with
  | none => simp at h
  | some st =>
    simp only [Option.map_some, Option.some.injEq, Prod.mk.injEq] at h
    obtain ⟨rfl, rfl⟩ := h
    have hd := rounds_done _ draws copy fault _ st hr
    refine ⟨rfl, ?_, hd.corrected, st.1, hd.len, hd.nodup, hd.from_draws, ?_, ?_⟩
    · have := hd.total; dsimp only at this; omega
    · exact hd.picked
    · exact hd.others

theorem nodup_bound (l : List ℕ) (m : ℕ) (hn : l.Nodup) (hl : ∀ x ∈ l, x < m) : l.length ≤ m := by
  have : l ⊆ List.range m := fun x hx => List.mem_range.2 (hl x hx)
  have := (List.subperm_of_subset hn this).length_le
  simpa using this

/-- C321: for every network, if more than all parameters are asked for (coverage above 100 %), the injection never returns, whatever indices are drawn. -/
theorem C321_diverges_violated (n : Net) (cov : ℕ) (draws : List ℕ) (copy : ℕ → ℕ) (fault : ℕ → F → F)
    (hd : ∀ d ∈ draws, d < totalParams n) (hc : totalParams n < numToAffect n cov) :
    applyFaultInjection n cov draws copy fault = none := by
  generalize hr : applyFaultInjection n cov draws copy fault = g
  cases g with
  | none => rfl
  | some q =>
    obtain ⟨m, k⟩ := q
    obtain ⟨h1, _, _, picked, h2, h3, h4, _⟩ := C321_injection_effect n cov draws copy fault m k hr
    have := nodup_bound picked (totalParams n) h3 (fun x hx => hd x (h4 x hx))
    omega

example : totalParams (create 8 16 4 fun _ => 0#32) = 212 ∧ numToAffect (create 8 16 4 fun _ => 0#32) 5 = 10 ∧
    totalParams (create 8 16 4 fun _ => 0#32) < numToAffect (create 8 16 4 fun _ => 0#32) 101 := by
  decide +kernel
example : addrOf (create 8 16 4 fun _ => 0#32) 127 = .w1 7 15 ∧ addrOf (create 8 16 4 fun _ => 0#32) 128 = .b1 0 ∧
    addrOf (create 8 16 4 fun _ => 0#32) 144 = .w2 0 0 ∧ addrOf (create 8 16 4 fun _ => 0#32) 211 = .b2 3 := by
  decide +kernel

/-! ### C322: protection -/

/-- All copies of all parameters hold `v`. -/
def Fresh (n : Net) (v : Addr → F) : Prop := ∀ a, n.c1 a = v a ∧ n.c2 a = v a ∧ n.c3 a = v a

theorem run_some (A : Arith) (n : Net) (cov : ℕ) (prot : Bool) (inputs : List (List F)) (draws : List ℕ)
    (copy : ℕ → ℕ) (fault : ℕ → F → F) (r : Result) (m : Net)
    (h : runTest A n cov prot inputs draws copy fault = some (r, m)) :
    ∃ n1 k, applyFaultInjection { n with prot := true } cov draws copy fault = some (n1, k) ∧
      r.rows = (inputs.map (outputs A { n1 with prot := prot })).zip (inputs.map (outputs A { n with prot := true })) ∧
      r.injected = k ∧ r.affected = affectedCount { n1 with prot := prot } ∧ r.detected = n1.total ∧
      r.corrected = n1.corrected + (inputs.map (fun x => credit { n1 with prot := prot } x.length)).sum ∧
      m = { n1 with prot := prot, corrected := r.corrected } := by
  unfold runTest at h
  dsimp only at h
  generalize applyFaultInjection { n with prot := true } cov draws copy fault = g at h
  cases g with
  | none => simp at h
  | some q =>
    obtain ⟨n1, k⟩ := q
    simp only [Option.map_some, Option.some.injEq, Prod.mk.injEq] at h
    obtain ⟨rfl, rfl⟩ := h
    exact ⟨n1, k, rfl, rfl, rfl, rfl, rfl, rfl, rfl⟩

theorem sizes (n : Net) (cov : ℕ) (draws : List ℕ) (copy : ℕ → ℕ) (fault : ℕ → F → F) (m : Net) (k : ℕ)
    (h : applyFaultInjection n cov draws copy fault = some (m, k)) :
    m.inp = n.inp ∧ m.hid = n.hid ∧ m.out = n.out := by
  unfold applyFaultInjection at h
  generalize hr : rounds copy fault (numToAffect n cov) ([], draws, { n with total := 0, corrected := 0 }) = g at h
  cases g with
  | none => simp at h
  | some st =>
    simp only [Option.map_some, Option.some.injEq, Prod.mk.injEq] at h
    obtain ⟨rfl, rfl⟩ := h
    have hd := rounds_done _ draws copy fault _ st hr
    exact ⟨hd.inp, hd.hid, hd.out⟩

/-- After an injection into a fresh network two copies of every parameter hold its value. -/
theorem two_agree (n : Net) (v : Addr → F) (hf : Fresh n v) (cov : ℕ) (draws : List ℕ) (copy : ℕ → ℕ)
    (fault : ℕ → F → F) (m : Net) (k : ℕ) (h : applyFaultInjection n cov draws copy fault = some (m, k)) (a : Addr) :
    TwoAgree (v a) (m.c1 a) (m.c2 a) (m.c3 a) := by
  obtain ⟨_, _, _, picked, _, _, _, h5, h6⟩ := C321_injection_effect n cov draws copy fault m k h
  obtain ⟨f1, f2, f3⟩ := hf a
  by_cases hp : ∃ p ∈ picked, addrOf n p = a
  · obtain ⟨p, hp, rfl⟩ := hp
    rcases h5 p hp with ⟨a1, a2⟩ | ⟨a1, a2⟩ | ⟨a1, a2⟩
    · exact Or.inl ⟨a1.trans f1, a2.trans f2⟩
    · exact Or.inr (Or.inl ⟨a1.trans f1, a2.trans f3⟩)
    · exact Or.inr (Or.inr ⟨a1.trans f2, a2.trans f3⟩)
  · have hk := h6 a (fun p hp' e => hp ⟨p, hp', e⟩)
    exact Or.inl ⟨hk.1.trans f1, hk.2.1.trans f2⟩

/-- C322: for every fresh network with non-zero parameters, every coverage, draws, faults, arithmetic and inputs: with protection every output of the test is its reference. -/
theorem C322_masked (A : Arith) (n : Net) (v : Addr → F) (hf : Fresh n v) (hz : ∀ a ∈ n.addrs, f32isZero (v a) = false)
    (cov : ℕ) (inputs : List (List F)) (hx : ∀ x ∈ inputs, x.length = n.inp) (draws : List ℕ) (copy : ℕ → ℕ)
    (fault : ℕ → F → F) (r : Result) (m : Net)
    (h : runTest A n cov true inputs draws copy fault = some (r, m)) :
    r.rows = inputs.map (fun x => (plain A n.hid n.out v x, plain A n.hid n.out v x)) := by
  obtain ⟨n1, k, hi, hrows, _⟩ := run_some A n cov true inputs draws copy fault r m h
  obtain ⟨s1, s2, s3⟩ := sizes _ cov draws copy fault n1 k hi
  dsimp only at s1 s2 s3
  have e1 : inputs.map (outputs A { n1 with prot := true }) = inputs.map (plain A n.hid n.out v) := by
    apply List.map_congr_left
    intro x hxm
    rw [outputs_eq A { n1 with prot := true } v x (by rw [hx x hxm]; dsimp only; omega)]
    · dsimp only; rw [s2, s3]
    · intro a ha
      have hmem : a ∈ n.addrs := by
        rw [mem_addrs] at ha ⊢
        dsimp only at ha
        rw [s1, s2, s3] at ha
        exact ha
      exact vote_exact (two_agree { n with prot := true } v hf cov draws copy fault n1 k hi a) (hz a hmem)
  have e2 : inputs.map (outputs A { n with prot := true }) = inputs.map (plain A n.hid n.out v) := by
    apply List.map_congr_left
    intro x hxm
    rw [outputs_eq A { n with prot := true } v x (by rw [hx x hxm])]
    intro a ha
    obtain ⟨f1, f2, f3⟩ := hf a
    exact vote_exact (Or.inl ⟨f1, f2⟩) (hz a ha)
  rw [hrows, e1, e2]
  clear * -
  induction inputs with
  | nil => rfl
  | cons x xs ih => simp only [List.map_cons, List.zip_cons_cons, ih]

/-- C322: for every network and injection, without protection the outputs are those of the first copies alone: faults in the other copies are not tested. -/
theorem C322_unprotected (A : Arith) (n : Net) (cov : ℕ) (inputs : List (List F)) (hx : ∀ x ∈ inputs, x.length = n.inp)
    (draws : List ℕ) (copy : ℕ → ℕ) (fault : ℕ → F → F) (r : Result) (m : Net)
    (h : runTest A n cov false inputs draws copy fault = some (r, m)) :
    r.rows.map Prod.fst = inputs.map (plain A n.hid n.out m.c1) := by
  obtain ⟨n1, k, hi, hrows, _, _, _, _, rfl⟩ := run_some A n cov false inputs draws copy fault r m h
  obtain ⟨s1, s2, s3⟩ := sizes _ cov draws copy fault n1 k hi
  dsimp only at s1 s2 s3
  have e1 : inputs.map (outputs A { n1 with prot := false }) = inputs.map (plain A n.hid n.out n1.c1) := by
    apply List.map_congr_left
    intro x hxm
    rw [outputs_eq A { n1 with prot := false } n1.c1 x (by rw [hx x hxm]; dsimp only; omega) (fun a _ => rfl)]
    dsimp only; rw [s2, s3]
  rw [hrows, e1, List.map_fst_zip (by simp)]

theorem one_round (n : Net) (cov p copy : ℕ) (f : F → F) (h1 : numToAffect n cov = 1) :
    applyFaultInjection n cov [p] (fun _ => copy) (fun _ => f) =
      some (injectAt { n with total := 0, corrected := 0 } (addrOf n p) copy f, 1) := by
  unfold applyFaultInjection
  rw [h1]
  rfl

/-- C322: faults accumulate over the tests, as the network is never repaired: for every fresh network and parameter, two tests that flip the same bit of the parameter, each in one copy, leave a network whose vote returns the wrong value, which is the reference of all later tests. -/
theorem C322_accumulation_violated (A : Arith) (n : Net) (v : Addr → F) (hf : Fresh n v) (cov p b : ℕ) (prot : Bool)
    (inputs : List (List F)) (h1 : numToAffect n cov = 1)
    (hz : f32isZero (v (addrOf n p) ^^^ (1#32 <<< b)) = false) :
    ∃ r1 n1 r2 n2, runTest A n cov prot inputs [p] (fun _ => 0) (fun _ x => x ^^^ (1#32 <<< b)) = some (r1, n1) ∧
      runTest A n1 cov prot inputs [p] (fun _ => 1) (fun _ x => x ^^^ (1#32 <<< b)) = some (r2, n2) ∧
      ({ n2 with prot := true }.read (addrOf n p)).1 = v (addrOf n p) ^^^ (1#32 <<< b) := by
  have hh1 := one_round { n with prot := true } cov p 0 (fun x => x ^^^ (1#32 <<< b)) h1
  generalize hm1 : injectAt { { n with prot := true } with total := 0, corrected := 0 } (addrOf { n with prot := true } p) 0
    (fun x => x ^^^ (1#32 <<< b)) = m1 at hh1
  have a1 : addrOf { n with prot := true } p = addrOf n p := rfl
  rw [a1] at hm1
  have hrun1 : ∃ r1 n1, runTest A n cov prot inputs [p] (fun _ => 0) (fun _ x => x ^^^ (1#32 <<< b)) = some (r1, n1) ∧
      n1.c1 = m1.c1 ∧ n1.c2 = m1.c2 ∧ n1.c3 = m1.c3 ∧ n1.inp = m1.inp ∧ n1.hid = m1.hid ∧ n1.out = m1.out := by
    unfold runTest
    dsimp only
    rw [hh1]
    exact ⟨_, _, rfl, rfl, rfl, rfl, rfl, rfl, rfl⟩
  obtain ⟨r1, n1, hr1, c1, c2, c3, si, sh, so⟩ := hrun1
  have sm := injectAt_sizes { { n with prot := true } with total := 0, corrected := 0 } (addrOf n p) 0
    (fun x => x ^^^ (1#32 <<< b))
  rw [hm1] at sm
  have hs1 : n1.inp = n.inp := si.trans sm.1
  have hs2 : n1.hid = n.hid := sh.trans sm.2.1
  have hs3 : n1.out = n.out := so.trans sm.2.2.1
  have h1' : numToAffect { n1 with prot := true } cov = 1 := by
    rw [← h1]; unfold numToAffect totalParams; dsimp only; rw [hs1, hs2, hs3]
  have hh2 := one_round { n1 with prot := true } cov p 1 (fun x => x ^^^ (1#32 <<< b)) h1'
  have a2 : addrOf { n1 with prot := true } p = addrOf n p := addrOf_sizes n { n1 with prot := true } hs1 hs2 hs3 p
  rw [a2] at hh2
  have hrun2 : ∃ r2 n2, runTest A n1 cov prot inputs [p] (fun _ => 1) (fun _ x => x ^^^ (1#32 <<< b)) = some (r2, n2) ∧
      n2.c1 = n1.c1 ∧ n2.c2 = upd n1.c2 (addrOf n p) (fun x => x ^^^ (1#32 <<< b)) ∧ n2.c3 = n1.c3 := by
    unfold runTest
    dsimp only
    rw [hh2]
    exact ⟨_, _, rfl, rfl, rfl, rfl⟩
  obtain ⟨r2, n2, hr2, d1, d2, d3⟩ := hrun2
  refine ⟨r1, n1, r2, n2, hr1, hr2, ?_⟩
  obtain ⟨f1, f2, f3⟩ := hf (addrOf n p)
  have e1 : n2.c1 (addrOf n p) = v (addrOf n p) ^^^ (1#32 <<< b) := by
    rw [d1, c1, ← hm1]
    unfold injectAt
    dsimp only
    rw [if_pos rfl]
    unfold upd
    dsimp only
    rw [if_pos rfl, f1]
  have e2 : n2.c2 (addrOf n p) = v (addrOf n p) ^^^ (1#32 <<< b) := by
    rw [d2, c2, ← hm1]
    unfold upd
    rw [if_pos rfl]
    unfold injectAt
    dsimp only
    rw [if_pos rfl, f2]
  exact vote_exact (Or.inl ⟨e1, e2⟩) hz

example : numToAffect (create 8 16 4 fun _ => 0x3F800000#32) 1 = 2 ∧ numToAffect (create 4 8 2 fun _ => 0x3F800000#32) 2 = 1 ∧
    Fresh (create 8 16 4 fun _ => 0x3F800000#32) (fun _ => 0x3F800000#32) ∧
    f32isZero (0x3F800000#32 ^^^ (1#32 <<< 3)) = false := by
  refine ⟨by decide +kernel, by decide +kernel, fun _ => ⟨rfl, rfl, rfl⟩, by decide⟩

/-! ### C323: the counters -/

theorem credit_one (n : Net) (h : ∀ a, (n.read a).2 = 1) (m : ℕ) : credit n m = n.hid * (1 + m) + n.out * (1 + n.hid) := by
  unfold credit
  rw [sum_const _ _ (1 + m) (fun i _ => by rw [h, sum_const _ _ 1 (fun j _ => h _)]; simp),
    sum_const _ _ (1 + n.hid) (fun i _ => by rw [h, sum_const _ _ 1 (fun j _ => h _)]; simp)]
  simp

theorem credit_zero (n : Net) (hp : n.prot = false) (m : ℕ) : credit n m = 0 := by
  have h : ∀ a, (n.read a).2 = 0 := by
    intro a; unfold Net.read; rw [hp]; rfl
  unfold credit
  rw [sum_const _ _ 0 (fun i _ => by rw [h, sum_const _ _ 0 (fun j _ => h _)]; simp),
    sum_const _ _ 0 (fun i _ => by rw [h, sum_const _ _ 0 (fun j _ => h _)]; simp)]
  simp

theorem two_agree_count (v a b c : F) (hn : f32isNaN v = false) (h : TwoAgree v a b c) : (vote true a b c).2 = 1 := by
  apply (C299_vote_counter a b c).2.1
  rcases h with ⟨rfl, rfl⟩ | ⟨rfl, rfl⟩ | ⟨rfl, rfl⟩
  · exact Or.inl (eq_self hn)
  · exact Or.inr (Or.inl (eq_self hn))
  · exact Or.inr (Or.inr (eq_self hn))

/-- C323: for every test the number of faults reported as injected and as detected is the announced one, and without protection none is reported as corrected. -/
theorem C323_reported (A : Arith) (n : Net) (cov : ℕ) (prot : Bool) (inputs : List (List F)) (draws : List ℕ)
    (copy : ℕ → ℕ) (fault : ℕ → F → F) (r : Result) (m : Net)
    (h : runTest A n cov prot inputs draws copy fault = some (r, m)) :
    r.injected = numToAffect n cov ∧ r.detected = numToAffect n cov ∧ (prot = false → r.corrected = 0) := by
  obtain ⟨n1, k, hi, _, hk, _, hd, hc, _⟩ := run_some A n cov prot inputs draws copy fault r m h
  obtain ⟨e1, e2, e3, _⟩ := C321_injection_effect _ cov draws copy fault n1 k hi
  refine ⟨hk.trans e1, by rw [hd, e2, e1]; rfl, ?_⟩
  intro hp
  subst hp
  rw [hc, e3, sum_const _ _ 0 (fun x _ => credit_zero _ rfl _)]
  simp

/-- C323: for every fresh network (no NaN) with protection the number reported as corrected does not depend on the faults: it is the number of parameters times the number of inputs. -/
theorem C323_corrected_count (A : Arith) (n : Net) (v : Addr → F) (hf : Fresh n v) (hn : ∀ a, f32isNaN (v a) = false)
    (cov : ℕ) (inputs : List (List F)) (hx : ∀ x ∈ inputs, x.length = n.inp) (draws : List ℕ) (copy : ℕ → ℕ)
    (fault : ℕ → F → F) (r : Result) (m : Net)
    (h : runTest A n cov true inputs draws copy fault = some (r, m)) :
    r.corrected = inputs.length * totalParams n := by
  obtain ⟨n1, k, hi, _, hk, _, hd, hc, _⟩ := run_some A n cov true inputs draws copy fault r m h
  obtain ⟨s1, s2, s3⟩ := sizes _ cov draws copy fault n1 k hi
  obtain ⟨e1, e2, e3, _⟩ := C321_injection_effect _ cov draws copy fault n1 k hi
  have one : ∀ a, (({ n1 with prot := true } : Net).read a).2 = 1 := fun a =>
    two_agree_count _ _ _ _ (hn a) (two_agree { n with prot := true } v hf cov draws copy fault n1 k hi a)
  dsimp only at s1 s2 s3
  rw [hc, e3, sum_const _ _ (totalParams n)]
  · simp
  · intro x hxm
    refine (credit_one _ one _).trans ?_
    rw [hx x hxm]
    dsimp only
    rw [s2, s3]
    unfold totalParams
    ring

/-- C323: for every fresh network, coverage of 1 to 100 % that hits a parameter and at least two inputs the reported correction rate exceeds 100 %: with 50 inputs it is at least 5000 %. -/
theorem C323_rate_violated (A : Arith) (n : Net) (v : Addr → F) (hf : Fresh n v) (hn : ∀ a, f32isNaN (v a) = false)
    (cov : ℕ) (hc : cov ≤ 100) (h0 : 0 < numToAffect n cov) (inputs : List (List F))
    (hx : ∀ x ∈ inputs, x.length = n.inp) (draws : List ℕ) (copy : ℕ → ℕ)
    (fault : ℕ → F → F) (r : Result) (m : Net)
    (h : runTest A n cov true inputs draws copy fault = some (r, m)) :
    100 * (inputs.length : ℝ) ≤ correctionRate r := by
  obtain ⟨_, h2, _⟩ := C323_reported A n cov true inputs draws copy fault r m h
  have h3 := C323_corrected_count A n v hf hn cov inputs hx draws copy fault r m h
  have hle : numToAffect n cov ≤ totalParams n := by
    unfold numToAffect
    calc totalParams n * cov / 100 ≤ totalParams n * 100 / 100 :=
          Nat.div_le_div_right (Nat.mul_le_mul_left _ hc)
      _ = totalParams n := Nat.mul_div_cancel _ (by omega)
  unfold correctionRate
  rw [h2, if_pos h0, h3]
  have hpos : (0 : ℝ) < (numToAffect n cov : ℝ) := by exact_mod_cast h0
  rw [le_div_iff₀ hpos]
  push_cast
  have hle' : (numToAffect n cov : ℝ) ≤ (totalParams n : ℝ) := by exact_mod_cast hle
  have hin : (0 : ℝ) ≤ (inputs.length : ℝ) := Nat.cast_nonneg _
  nlinarith [mul_le_mul_of_nonneg_left hle' hin]

/-- C323: for every test without protection the correction rate is 0 %, but 100 % if the coverage is too small to hit a parameter. -/
theorem C323_rate_unprotected (A : Arith) (n : Net) (cov : ℕ) (inputs : List (List F)) (draws : List ℕ)
    (copy : ℕ → ℕ) (fault : ℕ → F → F) (r : Result) (m : Net)
    (h : runTest A n cov false inputs draws copy fault = some (r, m)) :
    correctionRate r = if 0 < numToAffect n cov then 0 else 100 := by
  obtain ⟨_, h2, h3⟩ := C323_reported A n cov false inputs draws copy fault r m h
  unfold correctionRate
  rw [h2, h3 rfl]
  simp

theorem addrs_nodup (n : Net) : n.addrs.Nodup := by
  obtain ⟨h1, h2, _, h4⟩ := C321_indices n
  have nd : ((List.range (totalParams n)).map (addrOf n)).Nodup :=
    List.Nodup.map (fun p q h => h2 p q h) List.nodup_range
  have sub : ((List.range (totalParams n)).map (addrOf n)) ⊆ n.addrs := by
    intro a ha
    obtain ⟨p, hp, rfl⟩ := List.mem_map.1 ha
    exact h1 p (List.mem_range.1 hp)
  have sp := List.subperm_of_subset nd sub
  have pm := sp.perm_of_length_le (by simp [h4])
  exact pm.nodup_iff.1 nd

/-- C323: for every fresh network (no NaN) at most as many parameters are counted as affected as faults were injected. -/
theorem C323_affected_le (A : Arith) (n : Net) (v : Addr → F) (hf : Fresh n v) (hn : ∀ a, f32isNaN (v a) = false)
    (cov : ℕ) (prot : Bool) (inputs : List (List F)) (draws : List ℕ) (copy : ℕ → ℕ)
    (fault : ℕ → F → F) (r : Result) (m : Net)
    (h : runTest A n cov prot inputs draws copy fault = some (r, m)) : r.affected ≤ r.injected := by
  obtain ⟨n1, k, hi, _, hk, ha, _⟩ := run_some A n cov prot inputs draws copy fault r m h
  obtain ⟨s1, s2, s3⟩ := sizes _ cov draws copy fault n1 k hi
  obtain ⟨_, _, _, picked, h2, _, _, _, h6⟩ := C321_injection_effect _ cov draws copy fault n1 k hi
  rw [ha, hk, ← h2]
  unfold affectedCount
  rw [List.countP_eq_length_filter]
  have nd := (addrs_nodup { n1 with prot := prot }).filter (differs { n1 with prot := prot })
  have sub : ({ n1 with prot := prot } : Net).addrs.filter (differs { n1 with prot := prot }) ⊆
      picked.map (addrOf { n with prot := true }) := by
    intro a hmem
    rw [List.mem_filter] at hmem
    by_contra hno
    have hk := h6 a (fun p hp e => hno (List.mem_map.2 ⟨p, hp, e⟩))
    obtain ⟨f1, f2, f3⟩ := hf a
    have : differs { n1 with prot := prot } a = false := by
      unfold differs
      dsimp only
      rw [hk.1, hk.2.1, hk.2.2]
      dsimp only
      rw [f1, f2, f3, Verif.Props.RadStress.eq_self (hn a)]
      rfl
    rw [this] at hmem
    exact absurd hmem.2 (by decide)
  have := (List.subperm_of_subset nd sub).length_le
  simpa using this

theorem kept_id (n : Net) (draws : List ℕ) (copy : ℕ → ℕ) (k : ℕ) (st : List ℕ × List ℕ × Net)
    (h : rounds copy (fun _ x => x) k ([], draws, n) = some st) (a : Addr) : Kept n st.2.2 a := by
  induction k generalizing st with
  | zero =>
    unfold rounds at h
    simp only [forN, Option.some.injEq] at h
    subst h
    exact ⟨rfl, rfl, rfl⟩
  | succ k ih =>
    unfold rounds at h ih
    simp only [forN] at h
    generalize forN k (fun i (acc : Option (List ℕ × List ℕ × Net)) => acc.bind (round (copy i) (fun x => x)))
      (some ([], draws, n)) = g at h ih
    cases g with
    | none => simp at h
    | some s =>
      have ih := ih s rfl
      obtain ⟨aff, ds, m⟩ := s
      simp only [Option.bind_some] at h
      unfold round at h
      dsimp only at h ih
      generalize pick aff ds = q at h
      cases q with
      | none => simp at h
      | some q =>
        obtain ⟨p, ds'⟩ := q
        simp only [Option.some.injEq] at h
        subst h
        dsimp only
        have same : ∀ (c : Addr → F) (x : Addr), upd c x (fun y => y) = c := by
          intro c x
          funext y
          unfold upd
          split
          · rename_i e; rw [e]
          · rfl
        have e : Kept m (injectAt m (addrOf m p) (copy k) (fun x => x)) a := by
          unfold injectAt Kept
          dsimp only
          simp only [same]
          split
          · exact ⟨rfl, rfl, rfl⟩
          · split <;> exact ⟨rfl, rfl, rfl⟩
        exact ⟨e.1.trans ih.1, e.2.1.trans ih.2.1, e.2.2.trans ih.2.2⟩

/-- C323: faults that change nothing (a bit stuck at the value it has) are all reported as detected, although no copy differs. -/
theorem C323_detected_violated (A : Arith) (n : Net) (v : Addr → F) (hf : Fresh n v) (hn : ∀ a, f32isNaN (v a) = false)
    (cov : ℕ) (prot : Bool) (inputs : List (List F)) (draws : List ℕ) (copy : ℕ → ℕ) (r : Result) (m : Net)
    (h : runTest A n cov prot inputs draws copy (fun _ x => x) = some (r, m)) :
    r.detected = numToAffect n cov ∧ r.affected = 0 := by
  refine ⟨(C323_reported A n cov prot inputs draws copy _ r m h).2.1, ?_⟩
  obtain ⟨n1, k, hi, _, hk, ha, _⟩ := run_some A n cov prot inputs draws copy _ r m h
  unfold applyFaultInjection at hi
  generalize hr : rounds copy (fun _ x => x) (numToAffect { n with prot := true } cov)
    ([], draws, { { n with prot := true } with total := 0, corrected := 0 }) = g at hi
  cases g with
  | none => simp at hi
  | some st =>
    simp only [Option.map_some, Option.some.injEq, Prod.mk.injEq] at hi
    obtain ⟨rfl, rfl⟩ := hi
    rw [ha]
    unfold affectedCount
    rw [List.countP_eq_zero]
    intro a _
    have kp := kept_id _ draws copy _ st hr a
    obtain ⟨f1, f2, f3⟩ := hf a
    unfold differs
    dsimp only
    rw [kp.1, kp.2.1, kp.2.2]
    dsimp only
    rw [f1, f2, f3, Verif.Props.RadStress.eq_self (hn a)]
    decide

example : ∃ r m, runTest ⟨fun a b => a + b, fun a b => a * b, fun a => a⟩ (create 4 8 2 fun _ => 0x3F800000#32) 2 true
    [[1#32, 2#32, 3#32, 4#32]] [5] (fun _ => 2) (fun _ x => x ^^^ 1#32) = some (r, m) ∧ r.corrected = 58 ∧ r.detected = 1 := by
  refine ⟨_, _, rfl, ?_, rfl⟩
  decide +kernel

end Verif.Props.SysFault
