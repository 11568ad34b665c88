import Verif.Model.PythonDefense
import Verif.Props.UpsetTmr
import Mathlib.Tactic.Linarith
import Mathlib.Tactic.NormNum
import Mathlib.Data.Fin.VecNotation
/-!
Properties C268–C271 of the Python layer (model `Verif.PyDef`).
-/
namespace Verif.Props.PyDef
open Classical Verif.PyDef

/-! ### C268: the wrapper -/

theorem same_iff {α : Type} (a b : α) : same a b = true ↔ a = b := by simp [same]

theorem get_set {α : Type} (v : α) : CoreTmr.get same (CoreTmr.set v) = v := by
  simp [CoreTmr.get, CoreTmr.set, same]

/-- Assigns the numbers of a list one after the other. -/
noncomputable def assignAll (narrow : ℝ → ℝ) (o : Obj) (ns : List ℤ) : Obj := ns.foldl (fun o n => (assign narrow o (.int n)).2) o

theorem assignAll_ok (narrow : ℝ → ℝ) : ∀ (ns : List ℤ) (n : ℤ), (∀ m ∈ ns, fits m) → assignAll narrow ⟨.int n, some (.int (CoreTmr.set n))⟩ ns =
    ⟨.int (ns.getLastD n), some (.int (CoreTmr.set (ns.getLastD n)))⟩
  | [], _, _ => rfl
  | m :: ms, n, h => by
    have hm : fits m := h m (List.mem_cons_self ..)
    have h1 : assignAll narrow ⟨.int n, some (.int (CoreTmr.set n))⟩ (m :: ms) = assignAll narrow ⟨.int m, some (.int (CoreTmr.set m))⟩ ms := by
      simp only [assignAll, List.foldl_cons]
      congr 1
      simp [assign, instanceOf, hm]
    rw [h1, assignAll_ok narrow ms m (fun k hk => h k (List.mem_cons_of_mem _ hk))]
    cases ms <;> rfl

/-- **C268.** A wrapper made of an integer of 32 bits returns the last value of every history of assignments of such integers, assignments raise nothing, any upset of any one copy
leaves the value, is reported by `check_integrity` exactly if it changed the copy, and `correct` repairs it; then the next upset of any copy is harmless as well. -/
theorem C268_integer (narrow : ℝ → ℝ) (n : ℤ) (hn : fits n) (ns : List ℤ) (hs : ∀ m ∈ ns, fits m) (k : Fin 3) (x : ℤ) :
    let o := assignAll narrow (create narrow (.int n)) ns
    value o = .int (ns.getLastD n) ∧ (∀ m, fits m → (assign narrow o (.int m)).1 = .ret ()) ∧
    value (upset o k x) = .int (ns.getLastD n) ∧
    (checkIntegrity (upset o k x) = true ↔ x = ns.getLastD n) ∧
    ((correct (upset o k x)).1 = true ↔ x ≠ ns.getLastD n) ∧ (correct (upset o k x)).2 = o := by
  have ho : assignAll narrow (create narrow (.int n)) ns = ⟨.int (ns.getLastD n), some (.int (CoreTmr.set (ns.getLastD n)))⟩ := by
    have : create narrow (.int n) = ⟨.int n, some (.int (CoreTmr.set n))⟩ := by simp [create, hn]
    rw [this, assignAll_ok narrow ns n hs]
  simp only [ho]
  obtain ⟨v, hv⟩ : ∃ v, ns.getLastD n = v := ⟨_, rfl⟩
  rw [hv]
  refine ⟨?_, ?_, ?_, ?_, ?_, ?_⟩
  · simp [value, get_set]
  · intro m hm
    simp [assign, instanceOf, hm]
  all_goals
    by_cases hx : x = v
    · subst hx
      fin_cases k <;> simp [value, upset, checkIntegrity, correct, CoreTmr.corrupt, CoreTmr.set, CoreTmr.get, UpsetTmr.simpleIntegrity, UpsetTmr.simpleCorrect, same]
    · have hx' : ¬ v = x := fun h => hx h.symm
      fin_cases k <;> simp [value, upset, checkIntegrity, correct, CoreTmr.corrupt, CoreTmr.set, CoreTmr.get, UpsetTmr.simpleIntegrity, UpsetTmr.simpleCorrect, same, hx, hx']

example : fits 5 ∧ ∀ m ∈ [7, -3], fits m := by unfold fits; constructor <;> simp

/-- **C268, violated: large integers.** An integer that does not fit into 32 bits gets a wrapper without any redundancy: the warning is printed and the object made; whatever
happens, `check_integrity` says all is well and `correct` that nothing was to be corrected. On a protected object the assignment of such an integer raises. -/
theorem C268_large_violated (narrow : ℝ → ℝ) (n : ℤ) (hn : ¬ fits n) :
    (create narrow (.int n)).tmr = none ∧ checkIntegrity (create narrow (.int n)) = true ∧ (correct (create narrow (.int n))).1 = false ∧
    (∀ v : PyVal, instanceOf v (.int n) = true → (assign narrow (create narrow (.int n)) v).2.tmr = none) ∧
    (∀ m, fits m → (assign narrow (create narrow (.int m)) (.int n)).1 = .raise ∧ value (assign narrow (create narrow (.int m)) (.int n)).2 = .int m) := by
  have hc : create narrow (.int n) = ⟨.int n, none⟩ := by simp [create, hn]
  rw [hc]
  refine ⟨rfl, rfl, rfl, ?_, ?_⟩
  · intro v hv
    simp [assign, hv]
  · intro m hm
    have : create narrow (.int m) = ⟨.int m, some (.int (CoreTmr.set m))⟩ := by simp [create, hm]
    rw [this]
    simp [assign, instanceOf, hn, value, get_set]

example : ¬ fits (2 ^ 31) := by unfold fits; omega

/-- A real number is a `float` if it has 24 bits. -/
def IsFloat32 (x : ℝ) : Prop := ∃ (m : ℤ) (e : ℤ), |m| < 2 ^ 24 ∧ x = m * (2:ℝ) ^ e

/-- **C268, violated: floats.** A Python float is stored as a `float`: the value read back is right exactly if it has 24 bits, and no conversion whatever reads back 16777217.0
as it was. -/
theorem C268_float_violated (narrow : ℝ → ℝ) (hr : ∀ x, IsFloat32 (narrow x)) (hi : ∀ x, IsFloat32 x → narrow x = x) :
    (∀ x, value (create narrow (.float x)) = .float x ↔ IsFloat32 x) ∧ value (create narrow (.float 16777217)) ≠ .float 16777217 := by
  have h1 : ∀ x, value (create narrow (.float x)) = .float x ↔ IsFloat32 x := by
    intro x
    simp only [value, create, get_set, PyVal.float.injEq]
    exact ⟨fun h => h ▸ hr x, hi x⟩
  refine ⟨h1, fun h => ?_⟩
  obtain ⟨m, e, hm, hx⟩ := (h1 _).1 h
  have hm' := abs_lt.1 hm
  rcases lt_or_ge e 0 with he | he
  · -- then m = 16777217 * 2^k
    obtain ⟨k, hk⟩ : ∃ k : ℕ, e = -(k : ℤ) := ⟨e.natAbs, by omega⟩
    have h2 : (m : ℝ) = 16777217 * 2 ^ k := by
      rw [hk, zpow_neg, zpow_natCast] at hx
      have hp : (2:ℝ) ^ k ≠ 0 := by positivity
      field_simp at hx
      linarith
    have h3 : m = 16777217 * 2 ^ k := by exact_mod_cast h2
    have h4 : (1:ℤ) ≤ 2 ^ k := one_le_pow₀ (by norm_num)
    omega
  · obtain ⟨k, hk⟩ : ∃ k : ℕ, e = (k : ℤ) := ⟨e.natAbs, by omega⟩
    have h2 : (16777217 : ℤ) = m * 2 ^ k := by
      rw [hk, zpow_natCast] at hx
      exact_mod_cast hx
    rcases Nat.eq_zero_or_pos k with h0 | h0
    · subst h0
      omega
    · obtain ⟨j, rfl⟩ : ∃ j, k = j + 1 := ⟨k - 1, by omega⟩
      rw [pow_succ] at h2
      have : (16777217 : ℤ) = 2 * (m * 2 ^ j) := by rw [h2]; ring
      omega

example : IsFloat32 (3 / 2) := ⟨3, -1, by norm_num, by norm_num⟩

/-- **C268 (types).** An assignment raises for a value of another type than the first, and then changes nothing; an object of no number is just stored. -/
theorem C268_types (narrow : ℝ → ℝ) (o : Obj) (v : PyVal) (h : instanceOf v o.value = false) :
    assign narrow o v = (.raise, o) ∧ (create narrow .other).tmr = none ∧ value (create narrow .other) = .other := by
  refine ⟨?_, rfl, rfl⟩
  simp [assign, h]

example : instanceOf (.float 1) (.int 1) = false := rfl

/-! ### C269: protected values and arrays -/

theorem eq_refl {v : XD} (h : v ≠ .nan) : v.eq v := by
  cases v <;> simp_all [XD.eq]

theorem eq_eq {a b : XD} (h : a.eq b) : a = b := by
  cases a <;> cases b <;> simp_all [XD.eq]

theorem get_hit (mid : XD → XD → XD → XD) (s : Strategy) {v : XD} (hv : v ≠ .nan) (k : Fin 3) (x : XD) : readValue mid s ((all v).hit k x) = v := by
  have h := eq_refl hv
  match k with
  | 0 =>
    show readValue mid s ⟨x, v, v⟩ = v
    unfold readValue
    dsimp only
    by_cases h1 : x.eq v
    · rw [if_pos (Or.inl h1), eq_eq h1]
    · rw [if_neg (fun h2 => h2.elim h1 h1), if_pos h]
  | 1 =>
    show readValue mid s ⟨v, x, v⟩ = v
    unfold readValue
    dsimp only
    rw [if_pos (Or.inr h)]
  | 2 =>
    show readValue mid s ⟨v, v, x⟩ = v
    unfold readValue
    dsimp only
    rw [if_pos (Or.inl h)]

theorem vote_hit (med : XD → XD → XD → XD) (s : Strategy) {v : XD} (hv : v ≠ .nan) (t : Three XD) (k : Fin 3) (ht : ∀ j, j ≠ k → t.at j = v) : vote med s t = v := by
  have h := eq_refl hv
  obtain ⟨a, b, c⟩ := t
  fin_cases k
  · have h1 : b = v := ht 1 (by decide)
    have h2 : c = v := ht 2 (by decide)
    subst h1; subst h2
    simp only [vote]
    by_cases h1 : a.eq c
    · rw [if_pos (Or.inl h1), eq_eq h1]
    · rw [if_neg (by simp [h1]), if_pos h]
  · have h1 : a = v := ht 0 (by decide)
    have h2 : c = v := ht 2 (by decide)
    subst h1; subst h2
    simp only [vote]
    rw [if_pos (Or.inr h)]
  · have h1 : a = v := ht 0 (by decide)
    have h2 : b = v := ht 1 (by decide)
    subst h1; subst h2
    simp only [vote]
    rw [if_pos (Or.inl h)]

/-- **C269.** For every strategy and every value that is a number, a protected value survives every history of upsets in which each is followed by a repair: whatever one copy is
replaced by, also infinities and NaN, `get` returns the value and `repair` restores all three copies. -/
theorem C269_value (mid : XD → XD → XD → XD) (s : Strategy) (v : XD) (hv : v ≠ .nan) (upsets : List (Fin 3 × XD)) (k : Fin 3) (x : XD) :
    let t := upsets.foldl (fun t u => (repair mid s (t.hit u.1 u.2)).2) (all v)
    t = all v ∧ readValue mid s (t.hit k x) = v := by
  have h1 : ∀ us : List (Fin 3 × XD), us.foldl (fun t u => (repair mid s (t.hit u.1 u.2)).2) (all v) = all v := by
    intro us
    induction us with
    | nil => rfl
    | cons u us ih =>
      rw [List.foldl_cons]
      have : (repair mid s ((all v).hit u.1 u.2)).2 = all v := by simp only [repair, get_hit mid s hv]
      rw [this, ih]
  dsimp only
  rw [h1]
  exact ⟨rfl, get_hit mid s hv k x⟩

example : (XD.fin 3 : XD) ≠ .nan := by simp

/-- **C269 (arrays).** For every strategy, size and array of numbers, as long as at every position at most one of the three copies is damaged (not the same one everywhere), `get`
returns the array and `repair` restores all copies. -/
theorem C269_array (med : XD → XD → XD → XD) (s : Strategy) {n : ℕ} (a : Fin n → XD) (ha : ∀ i, a i ≠ .nan) (t : Arrays n)
    (ht : ∀ i, ∃ k : Fin 3, ∀ j, j ≠ k → Three.at t j i = a i) :
    arrayGet med s t = a ∧ (arrayRepair med s t).2 = all a := by
  have h : arrayGet med s t = a := by
    funext i
    obtain ⟨k, hk⟩ := ht i
    refine vote_hit med s (ha i) _ k ?_
    intro j hj
    have := hk j hj
    revert this
    fin_cases j <;> exact id
  exact ⟨h, by simp only [arrayRepair, h]⟩

example : ∀ i : Fin 2, ∃ k : Fin 3, ∀ j, j ≠ k → Three.at (⟨![XD.fin 1, XD.nan], ![XD.pinf, XD.fin 2], ![XD.fin 1, XD.fin 2]⟩ : Three (Fin 2 → XD)) j i = (![XD.fin 1, XD.fin 2] : Fin 2 → XD) i := by
  intro i
  fin_cases i
  · refine ⟨1, fun j hj => ?_⟩
    fin_cases j <;> first | rfl | exact absurd rfl hj
  · refine ⟨0, fun j hj => ?_⟩
    fin_cases j <;> first | rfl | exact absurd rfl hj

/-- **C269 (no majority).** If all three copies differ, the Reed–Solomon strategy returns the middle one, the others but `MULTI_LAYERED` the first; for arrays `SPACE_OPTIMIZED_TMR`
returns the median, the others but `MULTI_LAYERED` the first. -/
theorem C269_no_majority (mid med : XD → XD → XD → XD) (s : Strategy) (t : Three XD) (h0 : ¬ t.c0.eq t.c1) (h1 : ¬ t.c0.eq t.c2) (h2 : ¬ t.c1.eq t.c2) (hs : s ≠ .multiLayered) :
    readValue mid s t = (if s = .reedSolomon then mid t.c0 t.c1 t.c2 else t.c0) ∧
    vote med s t = (if s = .spaceOptimized then med t.c0 t.c1 t.c2 else t.c0) := by
  constructor
  · unfold readValue
    rw [if_neg (by simp [h0, h1]), if_neg h2]
    cases s <;> simp_all
  · unfold vote
    rw [if_neg (by simp [h0, h1]), if_neg h2]
    cases s <;> simp_all

example : ¬ (XD.fin 1).eq (.fin 2) ∧ ¬ (XD.fin 1).eq (.fin 3) ∧ ¬ (XD.fin 2).eq (.fin 3) := by simp

/-- **C269, violated: best recovery.** "Better recovery for multi-layered protection": of three different copies it returns the first whose next copy is nearer than the one after,
which can be the outlier. For any two copies as near to each other as one likes, one as far away as one likes is returned, while the Reed–Solomon strategy gives one of the two. -/
theorem C269_multilayer_violated (mid : XD → XD → XD → XD) (hm : ∀ a b c : ℝ, a < b → b < c → mid (.fin a) (.fin b) (.fin c) = .fin b) (v d far : ℝ) (hd : 0 < d) (hf : 0 < far) :
    readValue mid .multiLayered ⟨.fin (v - far), .fin v, .fin (v + d)⟩ = .fin (v - far) ∧ readValue mid .reedSolomon ⟨.fin (v - far), .fin v, .fin (v + d)⟩ = .fin v := by
  have h0 : ¬ ((XD.fin (v - far)).eq (.fin v) ∨ (XD.fin (v - far)).eq (.fin (v + d))) := by
    simp only [XD.eq_fin, not_or]
    constructor <;> intro h <;> linarith
  have h2 : ¬ (XD.fin v).eq (.fin (v + d)) := by
    simp only [XD.eq_fin]; intro h; linarith
  constructor
  · simp only [readValue, if_neg h0, if_neg h2]
    rw [if_pos]
    show |v - far + -v| < |v - far + -(v + d)|
    rw [abs_of_neg (by linarith), abs_of_neg (by linarith)]
    linarith
  · simp only [readValue, if_neg h0, if_neg h2]
    exact hm _ _ _ (by linarith) (by linarith)

/-- Arrays of the same strategy use the mean of the two nearest copies instead. -/
theorem C269_multilayer_array (med : XD → XD → XD → XD) (v d far : ℝ) (hd : 0 < d) (hf : d < far) :
    vote med .multiLayered ⟨.fin (v - far), .fin v, .fin (v + d)⟩ = .fin (v + d / 2) := by
  have h0 : ¬ ((XD.fin (v - far)).eq (.fin v) ∨ (XD.fin (v - far)).eq (.fin (v + d))) := by
    simp only [XD.eq_fin, not_or]
    constructor <;> intro h <;> linarith
  have h2 : ¬ (XD.fin v).eq (.fin (v + d)) := by
    simp only [XD.eq_fin]; intro h; linarith
  have e1 : ((XD.fin (v - far)).sub (.fin v)).abs = .fin far := by
    show XD.fin |v - far + -v| = _
    rw [show v - far + -v = -far by ring, abs_neg, abs_of_pos (by linarith)]
  have e2 : ((XD.fin (v - far)).sub (.fin (v + d))).abs = .fin (far + d) := by
    show XD.fin |v - far + -(v + d)| = _
    rw [show v - far + -(v + d) = -(far + d) by ring, abs_neg, abs_of_pos (by linarith)]
  have e3 : ((XD.fin v).sub (.fin (v + d))).abs = .fin d := by
    show XD.fin |v + -(v + d)| = _
    rw [show v + -(v + d) = -d by ring, abs_neg, abs_of_pos hd]
  have ha : argmin (.fin far) (.fin (far + d)) (.fin d) = 2 := by
    unfold argmin
    simp only [reduceCtorEq, if_false, XD.le_fin]
    rw [if_neg (by rintro ⟨-, h⟩; linarith), if_neg (by linarith)]
  simp only [vote, if_neg h0, if_neg h2, e1, e2, e3, ha]
  rw [XD.add_fin, XD.div_fin _ _ (by norm_num)]
  congr 1; ring

example : (0:ℝ) < 1 ∧ (1:ℝ) < 1000 := by norm_num

/-- **C269, violated: repair.** `repair` reports success always, also when all three copies differ and it spreads a wrong value to all of them. -/
theorem C269_repair_violated (mid : XD → XD → XD → XD) (s : Strategy) (t : Three XD) :
    (repair mid s t).1 = true ∧
    (repair mid .enhanced ⟨.fin 1, .fin 2, .fin 3⟩) = (true, all (.fin 1)) := by
  refine ⟨rfl, ?_⟩
  simp [repair, readValue]

/-- **C269, violated: NaN.** With a NaN among the votes the array strategy for the harshest environments answers NaN unless the two others agree, however near they are. -/
theorem C269_nan_violated (med : XD → XD → XD → XD) (a b : ℝ) (hab : a ≠ b) : vote med .multiLayered ⟨.nan, .fin a, .fin b⟩ = .nan := by
  have h1 : ¬ (XD.fin a).eq (.fin b) := by simpa using hab
  have h0 : ¬ ((XD.nan).eq (.fin a) ∨ (XD.nan).eq (.fin b)) := by simp [XD.eq]
  have e : (XD.nan.sub (.fin a)).abs = .nan := rfl
  simp only [vote, if_neg h0, if_neg h1, e, argmin, if_true]
  simp

example : (1:ℝ) ≠ 1 + 1 / 1000000 := by norm_num

/-! ### C270: hardened modules -/

/-- What happens to a module: training or an upset replaces the weights, the environment changes, a repair. -/
inductive Step (ω : Type) where
  | change (w : ω)
  | environment (e : Env)
  | repair

/-- One step. -/
def step {ω : Type} (h : Hardened ω) : Step ω → Hardened ω
  | .change w => { h with weights := w }
  | .environment e => updateEnvironment h e
  | .repair => (restore h).2

theorem step_saved {ω : Type} (h : Hardened ω) (s : Step ω) : (step h s).saved = h.saved := by
  cases s with
  | change w => rfl
  | environment e => rfl
  | repair => unfold step restore; cases hs : h.saved <;> simp [hs]

theorem steps_saved {ω : Type} (ss : List (Step ω)) : ∀ h : Hardened ω, (ss.foldl step h).saved = h.saved := by
  induction ss with
  | nil => intro h; rfl
  | cons s ss ih => intro h; rw [List.foldl_cons, ih, step_saved]

/-- **C270.** After every history of changes of the weights, of the environment and of repairs, `repair` of a module wrapped with weight protection brings back exactly the weights it
was wrapped with. -/
theorem C270_repair {ω : Type} (c : Config) (hc : c.protectWeights = true) (w : ω) (ss : List (Step ω)) :
    (restore (ss.foldl step (wrap c w))).2.weights = w ∧ (restore (ss.foldl step (wrap c w))).1 = true := by
  have h := steps_saved ss (wrap c w)
  have hw : (wrap c w).saved = some w := by simp [wrap, hc]
  rw [hw] at h
  constructor <;> simp [restore, h]

example : ({} : Config).protectWeights = true := rfl

/-- **C270, violated: training.** The saved weights are those of the moment of wrapping for ever: a repair after training undoes the training. Without weight protection it does
nothing and reports success. -/
theorem C270_training_violated {ω : Type} (c : Config) (w trained : ω) :
    (c.protectWeights = true → (restore (step (wrap c w) (.change trained))).2.weights = w) ∧
    (c.protectWeights = false → restore (step (wrap c w) (.change trained)) = (true, step (wrap c w) (.change trained))) := by
  constructor
  · intro hc
    exact (C270_repair c hc w [.change trained]).1
  · intro hc
    simp [restore, step, wrap, hc]

/-- **C270, violated: protection.** The forward pass is that of the bare module for every configuration, environment and draw: damaged weights and damaged inputs go through as they
are, and whatever the module raises becomes `None`. -/
theorem C270_forward_violated {ω ι β : Type} (f : ω → ι → Py β) (h : Hardened ω) (x : ι) (u₁ u₂ u₃ u₄ : ℝ) :
    (∀ b, f h.weights x = .ret b → forward f h x u₁ u₂ u₃ u₄ = some b) ∧ (f h.weights x = .raise → forward f h x u₁ u₂ u₃ u₄ = none) := by
  have hx : (if u₁ < effectiveness h.config then x else x) = x := by split <;> rfl
  constructor
  · intro b hb
    simp only [forward, hx, hb, execute]
    split <;> rfl
  · intro hb
    simp only [forward, hx, hb, execute]

example : ∃ (f : ℕ → ℕ → Py ℕ) (h : Hardened ℕ), f h.weights 1 = .ret 2 := ⟨fun a b => .ret (a + b), wrap {} 1, rfl⟩

/-- **C270 (reports).** For every configuration, call and draws, `execute_protected` returns the result of the call and nothing raises; a correction is reported only with a detection,
and after an exception no correction. -/
theorem C270_execute {β : Type} (c : Config) (f : Py β) (u₁ u₂ : ℝ) :
    (∀ b, f = .ret b → (execute c f u₁ u₂).value = some b) ∧ (f = .raise → execute c f u₁ u₂ = ⟨none, true, false⟩) ∧
    ((execute c f u₁ u₂).corrected = true → (execute c f u₁ u₂).detected = true) := by
  cases f with
  | raise => exact ⟨fun b h => (by cases h), fun _ => rfl, fun h => (by cases h)⟩
  | ret b =>
    refine ⟨fun b' h => ?_, fun h => (by cases h), ?_⟩
    · obtain rfl : b = b' := by injection h
      simp only [execute]
      split <;> rfl
    · simp only [execute]
      split
      · intro _; rfl
      · intro h; cases h

/-- **C270, violated: reports.** The report of an error is a draw: the same call, right or wrong, is reported faultless, corrected and faulty, depending on nothing else. -/
theorem C270_report_violated {β : Type} (c : Config) (b : β) :
    execute c (.ret b) (1 / 2) 0 = ⟨some b, false, false⟩ ∧ execute c (.ret b) 0 0 = ⟨some b, true, true⟩ ∧ execute c (.ret b) 0 (99 / 100) = ⟨some b, true, false⟩ := by
  have h1 : (2:ℝ) / 10 ≤ correctionProbability c := by
    unfold correctionProbability
    exact le_min (by norm_num) (le_max_left _ _)
  have h2 : correctionProbability c ≤ 95 / 100 := min_le_left _ _
  refine ⟨?_, ?_, ?_⟩
  · simp only [execute]; rw [if_neg (by norm_num)]
  · simp only [execute]; rw [if_pos (by norm_num), decide_eq_true (by linarith)]
  · simp only [execute]; rw [if_pos (by norm_num), decide_eq_false (by linarith)]

/-! ### C271: configurations -/

/-- **C271.** For every configuration the probability of correction lies between 0.2 and 0.95 and the effectiveness between 0.3 and 0.95; a multi-layered strategy has the largest
of both at every level and in every environment. -/
theorem C271_ranges (c : Config) :
    (2 / 10 ≤ correctionProbability c ∧ correctionProbability c ≤ 95 / 100) ∧ (3 / 10 ≤ effectiveness c ∧ effectiveness c ≤ 95 / 100) ∧
    correctionProbability c ≤ correctionProbability { c with strategy := .multiLayered } ∧ effectiveness c ≤ effectiveness { c with strategy := .multiLayered } := by
  obtain ⟨s, e, l, w⟩ := c
  refine ⟨⟨?_, min_le_left _ _⟩, ⟨?_, min_le_left _ _⟩, ?_, ?_⟩
  · exact le_min (by norm_num) (le_max_left _ _)
  · exact le_min (by norm_num) (le_max_left _ _)
  · unfold correctionProbability
    refine min_le_min_left _ (max_le_max_left _ ?_)
    cases s <;> norm_num
  · unfold effectiveness
    refine min_le_min_left _ (max_le_max_left _ ?_)
    cases s <;> cases e <;> cases l <;> simp only [reduceCtorEq, or_self, or_false, false_or, or_true, true_or, if_true, if_false] <;> norm_num

/-- **C271 (environments).** A configuration for an environment has that environment and protects weights; the harshest get full redundancy with the multi-layered strategy. -/
theorem C271_environment (e : Env) :
    (forEnvironment e).env = e ∧ (forEnvironment e).protectWeights = true ∧
    ((forEnvironment e).strategy = .multiLayered ↔ e = .jupiter ∨ e = .solarStorm) ∧ ((forEnvironment e).level = .full ↔ e = .jupiter ∨ e = .solarStorm) := by
  cases e <;> simp [forEnvironment]

/-- **C271, violated.** The configurations "optimized" for Mars and the South Atlantic Anomaly protect less than the one for the ground: their probability of correction is 0.65
against 0.85, their effectiveness 0.78 against 0.85. -/
theorem C271_harsh_violated (e : Env) (he : e = .mars ∨ e = .saa) :
    correctionProbability (forEnvironment e) = 65 / 100 ∧ correctionProbability (forEnvironment .earth) = 85 / 100 ∧
    effectiveness (forEnvironment e) = 78 / 100 ∧ effectiveness (forEnvironment .earth) = 85 / 100 := by
  rcases he with rfl | rfl <;> refine ⟨?_, ?_, ?_, ?_⟩ <;> simp only [correctionProbability, effectiveness, forEnvironment, reduceCtorEq, or_self, or_false, false_or, or_true, true_or, if_true, if_false] <;> norm_num

example : Env.mars = .mars ∨ Env.mars = .saa := Or.inl rfl

/-- **C268 (values without protection, refused values).** A value that is neither a number nor a Boolean, and an integer that does not fit, is kept and read back as it was given.
An assignment of an integer that does not fit to a protected integer raises an exception and leaves the three copies, so the value read is still the old one, although the object
remembers the new one. -/
theorem C268_unprotected (narrow : ℝ → ℝ) :
    (value (create narrow .other) = .other) ∧ (∀ n, ¬ fits n → value (create narrow (.int n)) = .int n) ∧
    (∀ (n m : ℤ), fits n → ¬ fits m → ∃ o, assign narrow (create narrow (.int n)) (.int m) = (.raise, o) ∧ value o = .int n ∧ o.value = .int m ∧ checkIntegrity o = true) := by
  refine ⟨rfl, ?_, ?_⟩
  · intro n hn; simp [create, value, hn]
  · intro n m hn hm
    refine ⟨⟨.int m, some (.int (CoreTmr.set n))⟩, ?_, ?_, rfl, ?_⟩
    · simp [assign, create, hn, hm, instanceOf]
    · simp [value, get_set]
    · simp [checkIntegrity, UpsetTmr.simpleIntegrity, CoreTmr.set, same]

example : fits 7 ∧ ¬ fits (2 ^ 31) := by unfold fits; omega

/-- **C269 (no majority, multi-layered).** With three different finite values the multi-layered strategy returns the first copy that is closer to the next copy (in the cyclic order)
than to the one after it, and copy 0 if no copy is. -/
theorem C269_multilayer (mid : XD → XD → XD → XD) (a b c : ℝ) (hab : a ≠ b) (hac : a ≠ c) (hbc : b ≠ c) :
    (|a - b| < |a - c| → readValue mid .multiLayered ⟨.fin a, .fin b, .fin c⟩ = .fin a) ∧
    (|a - c| ≤ |a - b| → |b - c| < |b - a| → readValue mid .multiLayered ⟨.fin a, .fin b, .fin c⟩ = .fin b) ∧
    (|a - c| ≤ |a - b| → |b - a| ≤ |b - c| → |c - a| < |c - b| → readValue mid .multiLayered ⟨.fin a, .fin b, .fin c⟩ = .fin c) ∧
    (|a - c| ≤ |a - b| → |b - a| ≤ |b - c| → |c - b| ≤ |c - a| → readValue mid .multiLayered ⟨.fin a, .fin b, .fin c⟩ = .fin a) := by
  have hc : ∀ x y z : ℝ, closer (.fin x) (.fin y) (.fin z) ↔ |x - y| < |x - z| := by
    intro x y z
    simp [closer, XD.sub, XD.neg, XD.abs, sub_eq_add_neg]
  have h0 : ¬ (XD.fin a).eq (.fin b) := fun h => hab (by simpa using eq_eq h)
  have h1 : ¬ (XD.fin a).eq (.fin c) := fun h => hac (by simpa using eq_eq h)
  have h2 : ¬ (XD.fin b).eq (.fin c) := fun h => hbc (by simpa using eq_eq h)
  unfold readValue
  simp only [h0, h1, h2, or_self, if_false, hc]
  refine ⟨?_, ?_, ?_, ?_⟩
  · intro h; rw [if_pos h]
  · intro h h'; rw [if_neg (not_lt.2 h), if_pos h']
  · intro h h' h''; rw [if_neg (not_lt.2 h), if_neg (not_lt.2 h'), if_pos h'']
  · intro h h' h''; rw [if_neg (not_lt.2 h), if_neg (not_lt.2 h'), if_neg (not_lt.2 h'')]

example : |(0 : ℝ) - 5| ≤ |(0 : ℝ) - 6| ∧ |(6 : ℝ) - 5| < |(6 : ℝ) - 0| := by norm_num [abs_of_nonpos, abs_of_nonneg]

/-- **C271 (changing the environment).** `update_environment` changes the environment of the configuration and nothing else: strategy, level, weights and the saved copy stay. -/
theorem C271_update {ω : Type} (h : Hardened ω) (e : Env) :
    (updateEnvironment h e).config.env = e ∧ (updateEnvironment h e).config.strategy = h.config.strategy ∧ (updateEnvironment h e).config.level = h.config.level ∧
    (updateEnvironment h e).config.protectWeights = h.config.protectWeights ∧ (updateEnvironment h e).weights = h.weights ∧ (updateEnvironment h e).saved = h.saved :=
  ⟨rfl, rfl, rfl, rfl, rfl, rfl⟩

end Verif.Props.PyDef
