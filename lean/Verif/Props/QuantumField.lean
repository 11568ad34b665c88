import Verif.Model.QuantumField
import Mathlib.Analysis.SpecialFunctions.Trigonometric.Bounds
import Mathlib.Analysis.SpecialFunctions.Exp
import Mathlib.Tactic.Linarith
import Mathlib.Tactic.Positivity
import Mathlib.Tactic.NormNum
import Mathlib.Tactic.Ring
/-!
Properties C160–C165: quantum fields on a lattice, their evolution and their energies.
-/
namespace Verif.QuantumField

/-! ### Specification -/

/-- The position names a point of the lattice. -/
def Inside (dims : List ℕ) (pos : List ℤ) : Prop := List.Forall₂ (fun (d : ℕ) (p : ℤ) => 0 ≤ p ∧ p < (d : ℤ)) dims pos

/-- A field with one value per lattice point and no more than 2³¹ points. -/
def Sound (f : Field) : Prop := f.data.length = f.dims.prod ∧ f.dims.prod ≤ 2 ^ 31

/-- `v` is the value at a position. -/
def Field.Holds (f : Field) (pos : List ℤ) (v : ℂ) : Prop := f.get pos = .ok v

/-- `f'` is `f` with the value at every lattice point replaced by a function of place and old value, and nothing else changed. -/
def Rewritten (g : List ℤ → ℂ → ℂ) (f f' : Field) : Prop :=
  f'.kind = f.kind ∧ f'.spacing = f.spacing ∧ f'.dims = f.dims ∧ Sound f' ∧ ∀ pos v, Inside f.dims pos → f.Holds pos v → f'.Holds pos (g pos v)

/-! ### Addresses -/

theorem R.ok_bind {α β : Type} (a : α) (f : α → R β) : (R.ok a).bind f = f a := rfl


/-- Row-major address. -/
def addr : List ℕ → List ℤ → ℕ
  | _ :: ds, p :: ps => addr ds ps + p.toNat * ds.prod
  | _, _ => 0

/-- The value at a lattice point. -/
def Field.val (f : Field) (pos : List ℤ) : ℂ := f.data.getD (addr f.dims pos) 0

theorem addr_lt : ∀ {dims : List ℕ} {pos : List ℤ}, Inside dims pos → addr dims pos < dims.prod
  | [], [], _ => by simp [addr]
  | d :: ds, p :: ps, h => by
    cases h with
    | cons h1 h2 =>
      have := addr_lt h2
      have hp : p.toNat + 1 ≤ d := by omega
      have := Nat.mul_le_mul_right ds.prod hp
      simp only [addr, List.prod_cons]
      nlinarith

theorem addr_inj : ∀ {dims : List ℕ} {p q : List ℤ}, Inside dims p → Inside dims q → addr dims p = addr dims q → p = q
  | [], [], [], _, _, _ => rfl
  | d :: ds, p :: ps, q :: qs, h, h', e => by
    cases h with
    | cons h1 h2 => cases h' with
      | cons h1' h2' =>
        have l1 := addr_lt h2
        have l2 := addr_lt h2'
        simp only [addr] at e
        have e1 : p.toNat = q.toNat := by
          have := congrArg (· / ds.prod) e
          simpa [Nat.add_mul_div_right _ _ (show 0 < ds.prod by omega), Nat.div_eq_of_lt l1, Nat.div_eq_of_lt l2] using this
        rw [e1] at e
        have := addr_inj h2 h2' (by omega)
        rw [this, show p = q by omega]

theorem Inside.length {dims : List ℕ} {pos : List ℤ} (h : Inside dims pos) : pos.length = dims.length := (List.Forall₂.length_eq h).symm

theorem index_eq : ∀ {dims : List ℕ} {pos : List ℤ}, Inside dims pos → dims.prod ≤ 2 ^ 64 - 1 → index dims pos = .ok (addr dims pos, dims.prod)
  | [], [], _, _ => rfl
  | d :: ds, p :: ps, h, hb => by
    cases h with
    | cons h1 h2 =>
      have hd : 0 < d := by omega
      have hle : ds.prod ≤ d * ds.prod := Nat.le_mul_of_pos_left _ hd
      rw [List.prod_cons] at hb
      simp only [index, index_eq h2 (le_trans hle hb), R.bind]
      rw [if_neg (by omega), if_neg (by rw [not_lt, Nat.le_div_iff_mul_le hd, Nat.mul_comm]; exact hb)]
      simp [addr, Nat.mul_comm]

theorem Field.index_eq {f : Field} (hs : Sound f) {pos : List ℤ} (h : Inside f.dims pos) : f.index pos = .ok (addr f.dims pos) := by
  have := addr_lt h
  have hb := hs.2
  unfold Field.index
  rw [if_neg (by rw [h.length]; simp), QuantumField.index_eq h (by omega)]
  simp only [R.bind]
  rw [Nat.mod_eq_of_lt (by omega), if_pos (by omega)]

theorem Field.get_eq {f : Field} (hs : Sound f) {pos : List ℤ} (h : Inside f.dims pos) : f.get pos = .ok (f.val pos) := by
  have := addr_lt h
  have hl := hs.1
  unfold Field.get
  rw [Field.index_eq hs h]
  simp only [R.bind]
  rw [List.getElem?_eq_getElem (by omega)]
  simp [Field.val, List.getD, List.getElem?_eq_getElem (show addr f.dims pos < f.data.length by omega)]

theorem Field.holds_iff {f : Field} (hs : Sound f) {pos : List ℤ} (h : Inside f.dims pos) {v : ℂ} : f.Holds pos v ↔ f.val pos = v := by
  unfold Field.Holds
  rw [Field.get_eq hs h]
  simp

/-- The field with one value replaced. -/
def Field.put (f : Field) (pos : List ℤ) (v : ℂ) : Field := { f with data := f.data.set (addr f.dims pos) v }

theorem Field.set_eq {f : Field} (hs : Sound f) {pos : List ℤ} (h : Inside f.dims pos) (v : ℂ) : f.set pos v = .ok (f.put pos v) := by
  have := addr_lt h
  have hl := hs.1
  unfold Field.set
  rw [Field.index_eq hs h]
  simp only [R.bind]
  rw [if_pos (by omega)]
  rfl

theorem Field.put_sound {f : Field} (hs : Sound f) (pos : List ℤ) (v : ℂ) : Sound (f.put pos v) := ⟨by simpa [Field.put] using hs.1, hs.2⟩

theorem Field.put_val {f : Field} (hs : Sound f) {pos q : List ℤ} (h : Inside f.dims pos) (hq : Inside f.dims q) (v : ℂ) :
    (f.put pos v).val q = if q = pos then v else f.val q := by
  have l1 := addr_lt h
  have hl := hs.1
  show (f.data.set (addr f.dims pos) v).getD (addr f.dims q) 0 = _
  by_cases e : q = pos
  · rw [if_pos e, e]
    simp [List.getD, hl, l1]
  · rw [if_neg e]
    have : addr f.dims pos ≠ addr f.dims q := fun x => e (addr_inj hq h x.symm)
    simp [Field.val, List.getD, this]

theorem mem_positions : ∀ {dims : List ℕ} {pos : List ℤ}, pos ∈ positions dims ↔ Inside dims pos
  | [], pos => by
    simp only [positions, List.mem_singleton, Inside]
    constructor
    · rintro rfl; exact List.Forall₂.nil
    · intro h; cases h; rfl
  | d :: ds, pos => by
    simp only [positions, List.mem_flatMap, List.mem_range, List.mem_map, mem_positions]
    constructor
    · rintro ⟨i, hi, ps, hps, rfl⟩
      exact List.Forall₂.cons ⟨by simp, by simpa using hi⟩ hps
    · intro h
      cases h with
      | cons h1 h2 =>
        rename_i p ps
        exact ⟨p.toNat, by omega, ps, h2, by simp [Int.toNat_of_nonneg h1.1]⟩

theorem nodup_positions : ∀ dims : List ℕ, (positions dims).Nodup
  | [] => by simp [positions]
  | d :: ds => by
    rw [positions, List.nodup_flatMap]
    refine ⟨fun i _ => (nodup_positions ds).map (fun a b h => by simpa using h), ?_⟩
    refine List.Pairwise.imp_of_mem ?_ (List.nodup_range (n := d))
    intro i j _ _ hij
    simp only [Function.onFun, List.disjoint_left, List.mem_map]
    rintro _ ⟨a, _, rfl⟩ ⟨b, _, e⟩
    simp only [List.cons.injEq, Int.ofNat.injEq] at e
    exact hij e.1.symm

theorem each_eq (g : List ℤ → ℂ → ℂ) : ∀ (l : List (List ℤ)) (f : Field), Sound f → l.Nodup → (∀ p ∈ l, Inside f.dims p) →
    ∃ f', f.each g l = .ok f' ∧ f'.kind = f.kind ∧ f'.spacing = f.spacing ∧ f'.dims = f.dims ∧ Sound f' ∧
      ∀ q, Inside f.dims q → f'.val q = if q ∈ l then g q (f.val q) else f.val q
  | [], f, hs, _, _ => ⟨f, rfl, rfl, rfl, rfl, hs, by simp⟩
  | p :: l, f, hs, hn, hi => by
    have hp := hi p (by simp)
    obtain ⟨f', h1, h2, h3, h4, h5, h6⟩ := each_eq g l (f.put p (g p (f.val p))) (Field.put_sound hs _ _) (List.nodup_cons.1 hn).2 (fun q hq => hi q (by simp [hq]))
    refine ⟨f', ?_, h2, h3, h4, h5, ?_⟩
    · simp only [Field.each, Field.get_eq hs hp, R.bind, Field.set_eq hs hp]
      exact h1
    · intro q hq
      rw [h6 q hq, Field.put_val hs hp hq]
      by_cases e : q = p
      · subst e
        simp [(List.nodup_cons.1 hn).1]
      · simp [e]

/-- A loop over all positions replaces every value. -/
theorem each_all (g : List ℤ → ℂ → ℂ) (f : Field) (hs : Sound f) :
    ∃ f', f.each g (positions f.dims) = .ok f' ∧ f'.kind = f.kind ∧ f'.spacing = f.spacing ∧ f'.dims = f.dims ∧ Sound f' ∧
      ∀ q, Inside f.dims q → f'.val q = g q (f.val q) := by
  obtain ⟨f', h1, h2, h3, h4, h5, h6⟩ := each_eq g (positions f.dims) f hs (nodup_positions _) (fun p hp => mem_positions.1 hp)
  exact ⟨f', h1, h2, h3, h4, h5, fun q hq => by rw [h6 q hq, if_pos (mem_positions.2 hq)]⟩

theorem rewritten {g : List ℤ → ℂ → ℂ} {f f' : Field} (hs : Sound f) (h2 : f'.kind = f.kind) (h3 : f'.spacing = f.spacing) (h4 : f'.dims = f.dims) (h5 : Sound f')
    (h6 : ∀ q, Inside f.dims q → f'.val q = g q (f.val q)) : Rewritten g f f' :=
  ⟨h2, h3, h4, h5, fun pos v hp hv => by
    rw [Field.holds_iff h5 (by rw [h4]; exact hp), h6 pos hp, (Field.holds_iff hs hp).1 hv]⟩

theorem Rewritten.val {g : List ℤ → ℂ → ℂ} {f f' : Field} (hs : Sound f) (h : Rewritten g f f') {q : List ℤ} (hq : Inside f.dims q) : f'.val q = g q (f.val q) :=
  (Field.holds_iff h.2.2.2.1 (by rw [h.2.2.1]; exact hq)).1 (h.2.2.2.2 q _ hq ((Field.holds_iff hs hq).2 rfl))

theorem each_rewritten (g : List ℤ → ℂ → ℂ) (f : Field) (hs : Sound f) : ∃ f', f.each g (positions f.dims) = .ok f' ∧ Rewritten g f f' := by
  obtain ⟨f', h1, h2, h3, h4, h5, h6⟩ := each_all g f hs
  exact ⟨f', h1, rewritten hs h2 h3 h4 h5 h6⟩

/-! ### C160: construction and addressing -/

theorem sizeOf_pos : ∀ (ds : List ℤ) (t : ℕ), (∀ d ∈ ds, 0 < d ∧ d < 2 ^ 31) → t * (ds.map Int.toNat).prod ≤ 2 ^ 64 - 1 → sizeOf ds t = .ok (t * (ds.map Int.toNat).prod)
  | [], t, _, _ => by simp [sizeOf]
  | d :: ds, t, h, hb => by
    obtain ⟨h1, h2⟩ := h d (by simp)
    have hu : (d % 2 ^ 64).toNat = d.toNat := by rw [Int.emod_eq_of_lt (by omega) (by omega)]
    have hp : 0 < (ds.map Int.toNat).prod := List.prod_pos (by
      simp only [List.mem_map]; rintro _ ⟨x, hx, rfl⟩; have := h x (by simp [hx]); omega)
    have hle : t * d.toNat ≤ 2 ^ 64 - 1 := by
      simp only [List.map_cons, List.prod_cons] at hb
      rw [← Nat.mul_assoc] at hb
      exact le_trans (Nat.le_mul_of_pos_right _ hp) hb
    simp only [sizeOf, hu]
    rw [if_neg (by omega), if_neg (by rw [not_lt, Nat.le_div_iff_mul_le (by omega)]; exact hle)]
    rw [sizeOf_pos ds (t * d.toNat) (fun x hx => h x (by simp [hx])) (by simpa [Nat.mul_assoc] using hb)]
    simp [Nat.mul_assoc]

theorem sizeOf_le : ∀ (ds : List ℤ) (t n : ℕ), sizeOf ds t = .ok n → t ≤ n
  | [], t, n, h => by simp only [sizeOf, R.ok.injEq] at h; omega
  | d :: ds, t, n, h => by
    simp only [sizeOf] at h
    split at h
    · cases h
    · split at h
      · cases h
      · rename_i h0 _
        exact le_trans (Nat.le_mul_of_pos_right _ (by omega)) (sizeOf_le ds _ n h)

theorem sizeOf_ok : ∀ (ds : List ℤ) (t n : ℕ), 0 < t → (∀ d ∈ ds, -2 ^ 31 ≤ d ∧ d < 2 ^ 31) → sizeOf ds t = .ok n → n ≤ maxSize → (∀ d ∈ ds, 0 < d) ∧ n = t * (ds.map Int.toNat).prod
  | [], t, n, _, _, h, _ => by simp only [sizeOf, R.ok.injEq] at h; simp [h]
  | d :: ds, t, n, ht, hr, h, hm => by
    obtain ⟨r1, r2⟩ := hr d (by simp)
    have h' := h
    simp only [sizeOf] at h
    split at h
    · cases h
    · rename_i h0
      split at h
      · cases h
      · have hle := sizeOf_le _ _ _ h
        have hd : 0 < d := by
          by_contra hn
          have h1 : d < 0 := by
            rcases lt_or_eq_of_le (not_lt.1 hn) with h1 | h1
            · exact h1
            · subst h1; simp at h0
          have : (d % 2 ^ 64) = d + 2 ^ 64 := by
            rw [← Int.add_emod_right]; exact Int.emod_eq_of_lt (by omega) (by omega)
          have h2 : 2 ^ 63 ≤ (d % 2 ^ 64).toNat := by omega
          have := Nat.le_mul_of_pos_left (d % 2 ^ 64).toNat ht
          unfold maxSize at hm
          omega
        have hu : (d % 2 ^ 64).toNat = d.toNat := by rw [Int.emod_eq_of_lt (by omega) (by omega)]
        rw [hu] at h
        obtain ⟨a, b⟩ := sizeOf_ok ds _ n (Nat.mul_pos ht (by omega)) (fun x hx => hr x (by simp [hx])) h hm
        refine ⟨by simpa using ⟨hd, a⟩, ?_⟩
        rw [b]; simp [Nat.mul_assoc]

/-- C160: a constructor with the right number of positive dimensions yields a field of the given type that is 0 everywhere; no other constructor call yields a field. -/
theorem C160_construct (n : ℕ) (dims : List ℤ) (spacing : ℝ) (k : Particle) (hr : ∀ d ∈ dims, -2 ^ 31 ≤ d ∧ d < 2 ^ 31) :
    (dims.length ≠ n → Field.new n dims spacing k = .throw .argument) ∧
    (dims.length = n → (∀ d ∈ dims, 0 < d) → (dims.map Int.toNat).prod ≤ 2 ^ 31 →
      ∃ f, Field.new n dims spacing k = .ok f ∧ f.kind = k ∧ f.spacing = spacing ∧ f.dims.map Int.ofNat = dims ∧ Sound f ∧ ∀ pos, Inside f.dims pos → f.Holds pos 0) ∧
    (∀ f, Field.new n dims spacing k = .ok f → dims.length = n ∧ (∀ d ∈ dims, 0 < d) ∧ f.kind = k ∧ f.spacing = spacing ∧ f.dims.map Int.ofNat = dims ∧ f.data = List.replicate f.dims.prod 0) := by
  have back : (∀ d ∈ dims, 0 < d) → (dims.map Int.toNat).map Int.ofNat = dims := by
    intro h
    rw [List.map_map]
    conv_rhs => rw [← List.map_id dims]
    apply List.map_congr_left
    intro d hd
    have := h d hd
    simp [Int.toNat_of_nonneg this.le]
  refine ⟨fun h => by simp [Field.new, h], fun h hp hb => ?_, fun f hf => ?_⟩
  · have e := sizeOf_pos dims 1 (fun d hd => ⟨hp d hd, (hr d hd).2⟩) (by omega)
    rw [one_mul] at e
    have hs : Sound ⟨k, spacing, dims.map Int.toNat, List.replicate (dims.map Int.toNat).prod 0⟩ := ⟨by simp, hb⟩
    refine ⟨⟨k, spacing, dims.map Int.toNat, List.replicate (dims.map Int.toNat).prod 0⟩, ?_, rfl, rfl, back hp, hs, ?_⟩
    · unfold Field.new
      rw [if_neg (by simpa using h), e]
      simp only [R.bind]
      rw [if_neg (by unfold maxSize; omega)]
    · intro pos hpos
      rw [Field.holds_iff hs hpos]
      simp only [Field.val, List.getD, List.getElem?_replicate]
      split <;> rfl
  · unfold Field.new at hf
    split at hf
    · cases hf
    · rename_i hl
      cases e : sizeOf dims 1 with
      | ok t =>
        rw [e] at hf
        simp only [R.bind] at hf
        split at hf
        · cases hf
        · rename_i hm
          cases hf
          obtain ⟨a, b⟩ := sizeOf_ok dims 1 t one_pos hr e (not_lt.1 hm)
          exact ⟨by simpa using hl, a, rfl, rfl, back a, by rw [b, one_mul]⟩
      | throw x => rw [e] at hf; cases hf
      | ub => rw [e] at hf; cases hf

/-- C160: what is written at a lattice point is read there, and nothing else changes. -/
theorem C160_set_get (f : Field) (hs : Sound f) (pos : List ℤ) (h : Inside f.dims pos) (v : ℂ) :
    ∃ f', f.set pos v = .ok f' ∧ f'.kind = f.kind ∧ f'.spacing = f.spacing ∧ f'.dims = f.dims ∧ Sound f' ∧ f'.Holds pos v ∧
      ∀ q, Inside f.dims q → q ≠ pos → ∃ w, f.Holds q w ∧ f'.Holds q w := by
  refine ⟨f.put pos v, Field.set_eq hs h v, rfl, rfl, rfl, Field.put_sound hs pos v, ?_, ?_⟩
  · rw [Field.holds_iff (Field.put_sound hs pos v) (show Inside (f.put pos v).dims pos from h), Field.put_val hs h h, if_pos rfl]
  · intro q hq hne
    refine ⟨f.val q, (Field.holds_iff hs hq).2 rfl, ?_⟩
    rw [Field.holds_iff (Field.put_sound hs pos v) (show Inside (f.put pos v).dims q from hq), Field.put_val hs h hq, if_neg hne]

theorem index_outside : ∀ (dims : List ℕ) (pos : List ℤ), (∀ d ∈ dims, 0 < d) → dims.prod ≤ 2 ^ 64 - 1 → pos.length = dims.length → ¬ Inside dims pos → index dims pos = .throw .range
  | [], [], _, _, _, h => absurd List.Forall₂.nil h
  | [], _ :: _, _, _, h, _ => by simp at h
  | _ :: _, [], _, _, h, _ => by simp at h
  | d :: ds, p :: ps, hd, hb, hl, h => by
    have hd0 := hd d (by simp)
    rw [List.prod_cons] at hb
    have hb' : ds.prod ≤ 2 ^ 64 - 1 := le_trans (Nat.le_mul_of_pos_left _ hd0) hb
    by_cases hi : Inside ds ps
    · have : ¬ (0 ≤ p ∧ p < (d : ℤ)) := fun x => h (List.Forall₂.cons x hi)
      simp only [index, index_eq hi hb', R.bind]
      rw [if_pos (by omega)]
    · simp only [index, index_outside ds ps (fun x hx => hd x (by simp [hx])) hb' (by simpa using hl) hi, R.bind]

/-- C160: a position with the wrong number of coordinates, or with a coordinate outside the lattice, is refused and changes nothing. -/
theorem C160_outside (f : Field) (hb : f.dims.prod ≤ 2 ^ 64 - 1) (hd : ∀ d ∈ f.dims, 0 < d) (pos : List ℤ) (v : ℂ) :
    (pos.length ≠ f.dims.length → f.get pos = .throw .argument ∧ f.set pos v = .throw .argument) ∧
    (pos.length = f.dims.length → ¬ Inside f.dims pos → f.get pos = .throw .range ∧ f.set pos v = .throw .range) := by
  constructor
  · intro h
    simp [Field.get, Field.set, Field.index, h, R.bind]
  · intro h hn
    have := index_outside f.dims pos hd hb h hn
    simp [Field.get, Field.set, Field.index, h, R.bind, this]

/-- C160 (violated): a dimension of 0 is divided by: the constructor is undefined instead of refusing it. -/
theorem C160_zero_violated (pre post : List ℤ) (spacing : ℝ) (k : Particle) (hp : ∀ d ∈ pre, 0 < d ∧ d < 2 ^ 31) (hb : (pre.map Int.toNat).prod ≤ 2 ^ 64 - 1) :
    Field.new (pre.length + post.length + 1) (pre ++ 0 :: post) spacing k = .ub := by
  have key : ∀ (pre : List ℤ) (t : ℕ), 0 < t → (∀ d ∈ pre, 0 < d ∧ d < 2 ^ 31) → t * (pre.map Int.toNat).prod ≤ 2 ^ 64 - 1 → sizeOf (pre ++ 0 :: post) t = .ub := by
    intro pre
    induction pre with
    | nil => intro t _ _ _; simp [sizeOf]
    | cons d ds ih =>
      intro t ht h hb
      obtain ⟨h1, h2⟩ := h d (by simp)
      have hu : (d % 2 ^ 64).toNat = d.toNat := by rw [Int.emod_eq_of_lt (by omega) (by omega)]
      have hp : 0 < (ds.map Int.toNat).prod := List.prod_pos (by
        simp only [List.mem_map]; rintro _ ⟨x, hx, rfl⟩; have := h x (by simp [hx]); omega)
      simp only [List.map_cons, List.prod_cons] at hb
      rw [← Nat.mul_assoc] at hb
      have hle : t * d.toNat ≤ 2 ^ 64 - 1 := le_trans (Nat.le_mul_of_pos_right _ hp) hb
      simp only [List.cons_append, sizeOf, hu]
      rw [if_neg (by omega), if_neg (by rw [not_lt, Nat.le_div_iff_mul_le (by omega)]; exact hle)]
      exact ih _ (Nat.mul_pos ht (by omega)) (fun x hx => h x (by simp [hx])) hb
  unfold Field.new
  rw [if_neg (by simp; omega), key pre 1 one_pos hp (by omega)]
  rfl

/-- C160 (violated): the address is cut to 32 bits: in a lattice of 2³³ points, which can be constructed, two different lattice points share one value. -/
theorem C160_large_violated (spacing : ℝ) (k : Particle) :
    ∃ f, Field.new 3 [2, 65536, 65536] spacing k = .ok f ∧ Inside f.dims [1, 0, 0] ∧ Inside f.dims [0, 0, 0] ∧ f.index [1, 0, 0] = f.index [0, 0, 0] := by
  obtain ⟨t, ht, hle⟩ : ∃ t, sizeOf [2, 65536, 65536] 1 = .ok t ∧ ¬ maxSize < t := ⟨8589934592, by simp [sizeOf], by unfold maxSize; omega⟩
  refine ⟨⟨k, spacing, [2, 65536, 65536], List.replicate t 0⟩, ?_, ?_, ?_, ?_⟩
  · unfold Field.new
    rw [if_neg (by simp), ht]
    simp only [R.bind]
    rw [if_neg hle]
    simp
  · simp [Inside]
  · simp [Inside]
  · simp [Field.index, index, R.bind]

/-- C160: a field of 2 × 3 × 4 points: writing and reading at (1, 2, 3). -/
example : ∃ f f', Field.new 3 [2, 3, 4] 1 .electron = .ok f ∧ f.set [1, 2, 3] 5 = .ok f' ∧ f'.Holds [1, 2, 3] 5 ∧ f'.Holds [1, 2, 2] 0 := by
  obtain ⟨f, h1, _, _, h2, h3, h4⟩ := (C160_construct 3 [2, 3, 4] 1 .electron (by simp)).2.1 rfl (by simp) (by simp)
  have hd : f.dims = [2, 3, 4] := by
    have : f.dims.map Int.ofNat = [2, 3, 4].map Int.ofNat := by rw [h2]; rfl
    exact List.map_injective_iff.2 (fun a b h => by simpa using h) this
  obtain ⟨f', g1, _, _, _, _, g2, g3⟩ := C160_set_get f h3 [1, 2, 3] (by rw [hd]; simp [Inside]) 5
  obtain ⟨w, w1, w2⟩ := g3 [1, 2, 2] (by rw [hd]; simp [Inside]) (by simp)
  have hz := h4 [1, 2, 2] (by rw [hd]; simp [Inside])
  have : w = 0 := by
    unfold Field.Holds at w1 hz
    rw [w1] at hz
    simpa using hz
  exact ⟨f, f', h1, g1, g2, this ▸ w2⟩

/-! ### C161: initialisation -/

/-- The squared distance of a position from the centre of the lattice, in units of half the lattice. -/
noncomputable def r2 (dims : List ℕ) (pos : List ℤ) : ℝ := (List.zipWith (fun (d : ℕ) (p : ℤ) => ((p - d / 2 : ℝ) / (d / 2)) ^ 2) dims pos).sum

theorem distance_eq : ∀ (dims : List ℕ) (pos : List ℤ), distance dims pos = r2 dims pos
  | [], _ => by simp [distance, r2]
  | _ :: _, [] => by simp [distance, r2]
  | d :: ds, p :: ps => by
    rw [distance, distance_eq ds ps]
    simp [r2]

theorem r2_nonneg (dims : List ℕ) (pos : List ℤ) : 0 ≤ r2 dims pos := by
  rw [← distance_eq]
  induction dims generalizing pos with
  | nil => simp [distance]
  | cons d ds ih => cases pos with
    | nil => simp [distance]
    | cons p ps => rw [distance]; have := ih ps; positivity

theorem polar_eq (a φ : ℝ) : polar a φ = a * Complex.exp (φ * Complex.I) := by
  rw [polar, Complex.exp_mul_I, Complex.ofReal_cos, Complex.ofReal_sin]

theorem polar_norm (a φ : ℝ) : ‖polar a φ‖ = |a| := by
  rw [polar_eq, norm_mul, Complex.norm_exp_ofReal_mul_I, Complex.norm_real, mul_one, Real.norm_eq_abs]

/-- C161: a coherent state has the given phase everywhere and the given amplitude times a Gaussian envelope around the centre; nowhere does it exceed the amplitude. -/
theorem C161_coherent (f : Field) (hs : Sound f) (amplitude phase : ℝ) :
    ∃ f', f.coherent amplitude phase = .ok f' ∧ Rewritten (fun pos _ => amplitude * Complex.exp (phase * Complex.I) * Real.exp (-r2 f.dims pos)) f f' ∧
      (∀ pos v, Inside f.dims pos → f'.Holds pos v → ‖v‖ = |amplitude| * Real.exp (-r2 f.dims pos) ∧ ‖v‖ ≤ |amplitude|) := by
  obtain ⟨f', h1, h2⟩ := each_rewritten (fun p _ => polar amplitude phase * (Real.exp (-distance f.dims p) : ℝ)) f hs
  have h3 : Rewritten (fun pos _ => amplitude * Complex.exp (phase * Complex.I) * Real.exp (-r2 f.dims pos)) f f' := by
    simpa only [polar_eq, distance_eq] using h2
  refine ⟨f', h1, h3, fun pos v hp hv => ?_⟩
  have hv' := (Field.holds_iff h2.2.2.2.1 (by rw [h2.2.2.1]; exact hp)).1 hv
  have e : ‖v‖ = |amplitude| * Real.exp (-r2 f.dims pos) := by
    rw [← hv', h2.val hs hp]
    rw [norm_mul, polar_norm, Complex.norm_real, Real.norm_eq_abs, abs_of_pos (Real.exp_pos _), distance_eq]
  refine ⟨e, ?_⟩
  rw [e]
  have : Real.exp (-r2 f.dims pos) ≤ 1 := Real.exp_le_one_iff.2 (by have := r2_nonneg f.dims pos; linarith)
  exact mul_le_of_le_one_right (abs_nonneg _) this

/-- C161: a Gaussian state takes, for every lattice point, two numbers of its own from the generator: one around the mean for the real part, one around 0 for the imaginary part, both with the given deviation. -/
theorem C161_gaussian (f : Field) (hs : Sound f) (mean dev : ℝ) (hd : 0 < dev) (src : ℕ → ℝ) :
    ∃ f', f.gaussian mean dev src = .ok f' ∧ ∃ draw : List ℤ → ℕ, (∀ p q, Inside f.dims p → Inside f.dims q → draw p = draw q → p = q) ∧
      Rewritten (fun pos _ => ⟨mean + dev * src (2 * draw pos), dev * src (2 * draw pos + 1)⟩) f f' := by
  unfold Field.gaussian
  rw [if_neg (not_le.2 hd)]
  refine ⟨_, rfl, addr f.dims, fun p q hp hq h => addr_inj hp hq h, rewritten hs rfl rfl rfl ⟨by simpa using hs.1, hs.2⟩ ?_⟩
  intro q hq
  have := addr_lt hq
  have hl := hs.1
  simp [Field.val, List.getD, List.getElem?_range (show addr f.dims q < f.data.length by omega)]

/-- C161: a new particle field is a coherent state of amplitude 1 for photons and random around 0 with deviation ½ for electrons and protons and 1 for the others. -/
theorem C161_create (a b c : ℤ) (ha : 0 < a) (hb : 0 < b) (hc : 0 < c) (hn : (([a, b, c] : List ℤ).map Int.toNat).prod ≤ 2 ^ 31) (hr : a < 2 ^ 31 ∧ b < 2 ^ 31 ∧ c < 2 ^ 31) (spacing : ℝ) (k : Particle) (src : ℕ → ℝ) :
    ∃ f, createField [a, b, c] spacing k src = .ok f ∧ f.kind = k ∧ f.spacing = spacing ∧ f.dims.map Int.ofNat = [a, b, c] ∧ Sound f ∧
      (k = .photon → ∀ pos, Inside f.dims pos → f.Holds pos (Real.exp (-r2 f.dims pos))) ∧
      (k ≠ .photon → ∃ draw : List ℤ → ℕ, (∀ p q, Inside f.dims p → Inside f.dims q → draw p = draw q → p = q) ∧
        ∀ pos, Inside f.dims pos → f.Holds pos ((if k = .electron ∨ k = .proton then 1 / 2 else 1 : ℝ) * (⟨src (2 * draw pos), src (2 * draw pos + 1)⟩ : ℂ))) := by
  obtain ⟨g, g1, g2, g3, g4, g5, g6⟩ := (C160_construct 3 [a, b, c] spacing k (by simp; omega)).2.1 rfl (by simp [ha, hb, hc]) hn
  have two : ∀ dev : ℝ, 0 < dev → ∃ f', g.gaussian 0 dev src = .ok f' ∧ f'.kind = k ∧ f'.spacing = spacing ∧ f'.dims.map Int.ofNat = [a, b, c] ∧ Sound f' ∧
      ∃ draw : List ℤ → ℕ, (∀ p q, Inside f'.dims p → Inside f'.dims q → draw p = draw q → p = q) ∧
        ∀ pos, Inside f'.dims pos → f'.Holds pos (dev * (⟨src (2 * draw pos), src (2 * draw pos + 1)⟩ : ℂ)) := by
    intro dev hd
    obtain ⟨f', h1, draw, h2, h3⟩ := C161_gaussian g g5 0 dev hd src
    refine ⟨f', h1, h3.1.trans g2, h3.2.1.trans g3, by rw [h3.2.2.1]; exact g4, h3.2.2.2.1, draw, by rw [h3.2.2.1]; exact h2, ?_⟩
    intro pos hp
    rw [h3.2.2.1] at hp
    have := h3.2.2.2.2 pos 0 hp (g6 pos hp)
    have e : ((dev : ℂ) * (⟨src (2 * draw pos), src (2 * draw pos + 1)⟩ : ℂ)) = ⟨0 + dev * src (2 * draw pos), dev * src (2 * draw pos + 1)⟩ := by
      apply Complex.ext <;> simp
    rw [e]
    exact this
  by_cases hk : k = .photon
  · subst hk
    obtain ⟨f', h1, h2, _⟩ := C161_coherent g g5 1 0
    refine ⟨f', ?_, h2.1.trans g2, h2.2.1.trans g3, by rw [h2.2.2.1]; exact g4, h2.2.2.2.1, fun _ pos hp => ?_, by simp⟩
    · simp only [createField, g1, R.bind, h1]
    · rw [h2.2.2.1] at hp ⊢
      have := h2.2.2.2.2 pos 0 hp (g6 pos hp)
      simpa using this
  · have sel : createField [a, b, c] spacing k src = g.gaussian 0 (if k = .electron ∨ k = .proton then 1 / 2 else 1) src := by
      simp only [createField, g1, R.bind]
      cases k <;> simp at hk ⊢
    obtain ⟨f', h1, h2, h3, h4, h5, h6⟩ := two (if k = .electron ∨ k = .proton then 1 / 2 else 1) (by split <;> norm_num)
    exact ⟨f', by rw [sel, h1], h2, h3, h4, h5, by simp [hk], fun _ => h6⟩

/-- C161 (limit): a deviation that is not positive violates the requirement of the distribution. -/
theorem C161_deviation_limit (f : Field) (mean dev : ℝ) (hd : dev ≤ 0) (src : ℕ → ℝ) : f.gaussian mean dev src = .ub := by simp [Field.gaussian, hd]

/-- C161: the centre of an even lattice holds the amplitude itself. -/
example : ∃ f f', Field.new 3 [2, 4, 6] 1 .photon = .ok f ∧ f.coherent 3 0 = .ok f' ∧ f'.Holds [1, 2, 3] 3 := by
  obtain ⟨f, h1, _, _, h2, h3, h4⟩ := (C160_construct 3 [2, 4, 6] 1 .photon (by simp)).2.1 rfl (by simp) (by simp)
  have hd : f.dims = [2, 4, 6] := by
    have : f.dims.map Int.ofNat = [2, 4, 6].map Int.ofNat := by rw [h2]; rfl
    exact List.map_injective_iff.2 (fun a b h => by simpa using h) this
  obtain ⟨f', g1, g2, _⟩ := C161_coherent f h3 3 0
  refine ⟨f, f', h1, g1, ?_⟩
  have := g2.2.2.2.2 [1, 2, 3] 0 (by rw [hd]; simp [Inside]) (h4 _ (by rw [hd]; simp [Inside]))
  rw [hd] at this
  have e : r2 [2, 4, 6] [1, 2, 3] = 0 := by simp [r2]; norm_num
  simpa [e] using this

/-! ### C162: energy -/

theorem sumR_eq {α : Type} (g : α → R ℝ) (h : α → ℝ) : ∀ l : List α, (∀ x ∈ l, g x = .ok (h x)) → sumR g l = .ok (l.map h).sum
  | [], _ => rfl
  | x :: l, hx => by
    simp only [sumR, hx x (by simp), R.bind, sumR_eq g h l (fun y hy => hx y (by simp [hy])), List.map_cons, List.sum_cons]

theorem sum_range_list (h : ℕ → ℝ) (n : ℕ) : ((List.range n).map h).sum = ∑ i ∈ Finset.range n, h i := by
  induction n with
  | zero => simp
  | succ n ih => rw [List.range_succ, List.map_append, List.sum_append, ih, Finset.sum_range_succ]; simp

theorem range_block (n m : ℕ) : (List.range n).flatMap (fun i => (List.range m).map (fun j => j + i * m)) = List.range (n * m) := by
  induction n with
  | zero => simp
  | succ n ih =>
    rw [List.range_succ, List.flatMap_append, ih, Nat.succ_mul, List.range_add]
    simp [Nat.add_comm]

theorem positions_addr : ∀ dims : List ℕ, (positions dims).map (addr dims) = List.range dims.prod
  | [] => by simp [positions, addr]
  | d :: ds => by
    rw [List.prod_cons, ← range_block, positions, List.map_flatMap]
    apply List.flatMap_congr
    intro i _
    rw [List.map_map, ← positions_addr ds, List.map_map]
    apply List.map_congr_left
    intro ps _
    simp [addr]

theorem positions_val (f : Field) (hs : Sound f) (h : ℂ → ℝ) : (positions f.dims).map (fun p => h (f.val p)) = f.data.map h := by
  have e : (positions f.dims).map (fun p => h (f.val p)) = ((positions f.dims).map (addr f.dims)).map (fun i => h (f.data.getD i 0)) := by
    rw [List.map_map]; rfl
  rw [e, positions_addr, ← hs.1]
  apply List.ext_getElem (by simp)
  intro i h1 h2
  simp at h1
  simp [List.getD, List.getElem?_eq_getElem h1]

/-- The Laplacian by finite differences of values `w` at distance `s`. -/
noncomputable def lap (w : ℤ → ℤ → ℤ → ℂ) (s : ℝ) (i j k : ℤ) : ℂ :=
  (w (i + 1) j k + w (i - 1) j k + w i (j + 1) k + w i (j - 1) k + w i j (k + 1) + w i j (k - 1) - 6 * w i j k) / (s ^ 2 : ℝ)

/-- The kinetic energy of values `w` on the inner points of an `a × b × c` lattice. -/
noncomputable def kin (w : ℤ → ℤ → ℤ → ℂ) (s hbar m : ℝ) (a b c : ℕ) : ℝ :=
  ∑ i ∈ Finset.range (a - 2), ∑ j ∈ Finset.range (b - 2), ∑ k ∈ Finset.range (c - 2), hbar ^ 2 / (2 * m) * ‖lap w s (i + 1) (j + 1) (k + 1)‖ ^ 2

theorem kinetic3 (f : Field) (hs : Sound f) (hbar m : ℝ) (a b c : ℕ) (hd : f.dims = [a, b, c]) :
    f.kinetic hbar m = .ok (kin (fun i j k => f.val [i, j, k]) f.spacing hbar m a b c) := by
  have hl : ∀ i j k : ℕ, i < a - 2 → j < b - 2 → k < c - 2 → f.laplacian (Int.ofNat i + 1) (Int.ofNat j + 1) (Int.ofNat k + 1) = .ok (lap (fun i j k => f.val [i, j, k]) f.spacing (Int.ofNat i + 1) (Int.ofNat j + 1) (Int.ofNat k + 1)) := by
    intro i j k hi hj hk
    have ins : ∀ x y z : ℤ, 0 ≤ x → x < a → 0 ≤ y → y < b → 0 ≤ z → z < c → f.get [x, y, z] = .ok (f.val [x, y, z]) := by
      intro x y z h1 h2 h3 h4 h5 h6
      exact Field.get_eq hs (by rw [hd]; simp [Inside, *])
    simp only [Int.ofNat_eq_natCast]
    unfold Field.laplacian
    rw [ins _ _ _ (by omega) (by omega) (by omega) (by omega) (by omega) (by omega), ins _ _ _ (by omega) (by omega) (by omega) (by omega) (by omega) (by omega),
      ins _ _ _ (by omega) (by omega) (by omega) (by omega) (by omega) (by omega), ins _ _ _ (by omega) (by omega) (by omega) (by omega) (by omega) (by omega),
      ins _ _ _ (by omega) (by omega) (by omega) (by omega) (by omega) (by omega), ins _ _ _ (by omega) (by omega) (by omega) (by omega) (by omega) (by omega),
      ins _ _ _ (by omega) (by omega) (by omega) (by omega) (by omega) (by omega)]
    simp only [R.bind, lap]
    rw [pow_two]
  unfold Field.kinetic
  rw [hd]
  simp only
  split
  · rename_i h
    rw [sumR_eq _ (fun i : ℤ => ∑ j ∈ Finset.range (b - 2), ∑ k ∈ Finset.range (c - 2), hbar ^ 2 / (2 * m) * ‖lap (fun i j k => f.val [i, j, k]) f.spacing (i + 1) (j + 1) (k + 1)‖ ^ 2)]
    · rw [List.map_map, sum_range_list]
      rfl
    · intro x hx
      obtain ⟨i, hi, rfl⟩ := List.mem_map.1 hx
      rw [sumR_eq _ (fun j : ℤ => ∑ k ∈ Finset.range (c - 2), hbar ^ 2 / (2 * m) * ‖lap (fun i j k => f.val [i, j, k]) f.spacing (Int.ofNat i + 1) (j + 1) (k + 1)‖ ^ 2)]
      · rw [List.map_map, sum_range_list]
        rfl
      · intro y hy
        obtain ⟨j, hj, rfl⟩ := List.mem_map.1 hy
        rw [sumR_eq _ (fun k : ℤ => hbar ^ 2 / (2 * m) * ‖lap (fun i j k => f.val [i, j, k]) f.spacing (Int.ofNat i + 1) (Int.ofNat j + 1) (k + 1)‖ ^ 2)]
        · rw [List.map_map, sum_range_list]
          rfl
        · intro z hz
          obtain ⟨k, hk, rfl⟩ := List.mem_map.1 hz
          rw [hl i j k (List.mem_range.1 hi) (List.mem_range.1 hj) (List.mem_range.1 hk)]
          simp only [R.bind, R.ok.injEq]
          ring
  · rename_i h
    congr 1
    unfold kin
    by_cases h1 : a ≤ 2
    · simp [show a - 2 = 0 by omega]
    · by_cases h2 : b ≤ 2
      · simp [show b - 2 = 0 by omega]
      · simp [show c - 2 = 0 by omega]

theorem potential_eq (f : Field) (hs : Sound f) (m : ℝ) :
    sumR (fun pos => (f.get pos).bind fun v => .ok (0.5 * m * ‖v‖ * ‖v‖)) (positions f.dims) = .ok (m / 2 * (f.data.map (‖·‖ ^ 2)).sum) := by
  rw [sumR_eq _ (fun pos => 0.5 * m * ‖f.val pos‖ * ‖f.val pos‖)]
  · rw [positions_val f hs (fun v => 0.5 * m * ‖v‖ * ‖v‖), ← List.sum_map_mul_left]
    congr 2
    apply List.map_congr_left
    intro v _
    ring
  · intro p hp
    rw [Field.get_eq hs (mem_positions.1 hp)]
    rfl

/-- C162: the energy of a three-dimensional field is the kinetic energy of its inner points plus half the mass times the squared moduli of all values; the particle type asked for, or else that of the field, gives the mass. -/
theorem C162_formula (f : Field) (hs : Sound f) (p : QParams) (k : Option Particle) (m : ℝ) (hm : p.masses (k.getD f.kind) = some m) (a b c : ℕ) (hd : f.dims = [a, b, c])
    (w : ℤ → ℤ → ℤ → ℂ) (hw : ∀ x y z, Inside f.dims [x, y, z] → f.Holds [x, y, z] (w x y z)) :
    f.energy p k = .ok (kin w f.spacing p.hbar m a b c + m / 2 * (f.data.map (‖·‖ ^ 2)).sum) := by
  have e : kin (fun i j k => f.val [i, j, k]) f.spacing p.hbar m a b c = kin w f.spacing p.hbar m a b c := by
    have hv : ∀ x y z : ℤ, 0 ≤ x → x < a → 0 ≤ y → y < b → 0 ≤ z → z < c → f.val [x, y, z] = w x y z := by
      intro x y z h1 h2 h3 h4 h5 h6
      have hi : Inside f.dims [x, y, z] := by rw [hd]; simp [Inside, *]
      exact (Field.holds_iff hs hi).1 (hw x y z hi)
    unfold kin
    refine Finset.sum_congr rfl fun i hi => Finset.sum_congr rfl fun j hj => Finset.sum_congr rfl fun k hk => ?_
    rw [Finset.mem_range] at hi hj hk
    simp only [lap]
    rw [hv _ _ _ (by omega) (by omega) (by omega) (by omega) (by omega) (by omega), hv _ _ _ (by omega) (by omega) (by omega) (by omega) (by omega) (by omega),
      hv _ _ _ (by omega) (by omega) (by omega) (by omega) (by omega) (by omega), hv _ _ _ (by omega) (by omega) (by omega) (by omega) (by omega) (by omega),
      hv _ _ _ (by omega) (by omega) (by omega) (by omega) (by omega) (by omega), hv _ _ _ (by omega) (by omega) (by omega) (by omega) (by omega) (by omega),
      hv _ _ _ (by omega) (by omega) (by omega) (by omega) (by omega) (by omega)]
  unfold Field.energy QParams.mass
  rw [hm, R.ok_bind, kinetic3 f hs p.hbar m a b c hd, R.ok_bind, potential_eq f hs m, R.ok_bind, e]

theorem kin_nonneg (w : ℤ → ℤ → ℤ → ℂ) (s hbar m : ℝ) (hm : 0 < m) (a b c : ℕ) : 0 ≤ kin w s hbar m a b c :=
  Finset.sum_nonneg fun _ _ => Finset.sum_nonneg fun _ _ => Finset.sum_nonneg fun _ _ => by positivity

theorem kinetic_other (f : Field) (hbar m : ℝ) (h : ∀ a b c, f.dims = [a, b, c] → a ≤ 2 ∨ b ≤ 2 ∨ c ≤ 2) : f.kinetic hbar m = .ok 0 := by
  unfold Field.kinetic
  split
  · rename_i a b c hd
    rw [if_neg]
    rcases h a b c hd with h | h | h <;> omega
  · rfl

theorem energy_general (f : Field) (hs : Sound f) (p : QParams) (k : Option Particle) (m : ℝ) (hm : p.masses (k.getD f.kind) = some m) :
    ∃ K, f.kinetic p.hbar m = .ok K ∧ (0 < m → 0 ≤ K) ∧ f.energy p k = .ok (K + m / 2 * (f.data.map (‖·‖ ^ 2)).sum) := by
  have main : ∀ K, f.kinetic p.hbar m = .ok K → f.energy p k = .ok (K + m / 2 * (f.data.map (‖·‖ ^ 2)).sum) := by
    intro K hK
    unfold Field.energy QParams.mass
    rw [hm, R.ok_bind, hK, R.ok_bind, potential_eq f hs m, R.ok_bind]
  by_cases h : ∃ a b c, f.dims = [a, b, c]
  · obtain ⟨a, b, c, hd⟩ := h
    have := kinetic3 f hs p.hbar m a b c hd
    exact ⟨_, this, fun h0 => kin_nonneg _ _ _ _ h0 _ _ _, main _ this⟩
  · have := kinetic_other f p.hbar m (fun a b c hd => absurd ⟨a, b, c, hd⟩ h)
    exact ⟨0, this, fun _ => le_rfl, main _ this⟩

theorem sq_sum_nonneg (l : List ℂ) : 0 ≤ (l.map (‖·‖ ^ 2)).sum := List.sum_nonneg (by simp only [List.mem_map]; rintro _ ⟨v, _, rfl⟩; exact sq_nonneg ‖v‖)

theorem sq_sum_zero : ∀ l : List ℂ, (l.map (‖·‖ ^ 2)).sum = 0 ↔ ∀ v ∈ l, v = 0
  | [] => by simp
  | v :: l => by
    have := sq_sum_nonneg l
    have h2 := sq_nonneg ‖v‖
    simp only [List.map_cons, List.sum_cons, List.mem_cons, forall_eq_or_imp]
    constructor
    · intro h
      refine ⟨?_, (sq_sum_zero l).1 (by linarith)⟩
      have : ‖v‖ ^ 2 = 0 := by linarith
      simpa using this
    · rintro ⟨rfl, h⟩
      rw [(sq_sum_zero l).2 h]; simp

/-- C162: with a positive mass the energy of a field is never negative, is at least its mass term, and is 0 only for the field that is 0 everywhere; a type without a mass throws. -/
theorem C162_energy (f : Field) (hs : Sound f) (p : QParams) (k : Option Particle) :
    (p.masses (k.getD f.kind) = none → f.energy p k = .throw .runtime) ∧
    ∀ m, p.masses (k.getD f.kind) = some m → 0 < m → ∃ e, f.energy p k = .ok e ∧ m / 2 * (f.data.map (‖·‖ ^ 2)).sum ≤ e ∧ 0 ≤ e ∧ (e = 0 ↔ ∀ pos, Inside f.dims pos → f.Holds pos 0) := by
  refine ⟨fun h => by simp [Field.energy, QParams.mass, h, R.bind], fun m hm h0 => ?_⟩
  have hsq := sq_sum_nonneg f.data
  obtain ⟨K, h1, h2, h3⟩ := energy_general f hs p k m hm
  have hK := h2 h0
  have hp : 0 ≤ m / 2 * (f.data.map (‖·‖ ^ 2)).sum := by positivity
  refine ⟨_, h3, by linarith, by linarith, ?_⟩
  have hz : (∀ v ∈ f.data, v = 0) ↔ ∀ pos, Inside f.dims pos → f.Holds pos 0 := by
    constructor
    · intro h pos hi
      rw [Field.holds_iff hs hi]
      have := addr_lt hi
      have hl := hs.1
      have hlt : addr f.dims pos < f.data.length := by omega
      rw [Field.val, List.getD, List.getElem?_eq_getElem hlt]
      exact h _ (List.getElem_mem hlt)
    · intro h v hv
      obtain ⟨i, hi, rfl⟩ := List.getElem_of_mem hv
      have : i ∈ (positions f.dims).map (addr f.dims) := by rw [positions_addr, ← hs.1]; exact List.mem_range.2 hi
      obtain ⟨pos, hpos, e⟩ := List.mem_map.1 this
      have := (Field.holds_iff hs (mem_positions.1 hpos)).1 (h pos (mem_positions.1 hpos))
      rw [Field.val, e, List.getD, List.getElem?_eq_getElem hi] at this
      exact this
  constructor
  · intro h
    rw [← hz, ← sq_sum_zero]
    have : m / 2 * (f.data.map (‖·‖ ^ 2)).sum = 0 := by linarith
    rcases mul_eq_zero.1 this with h | h
    · linarith
    · exact h
  · intro h
    have hS := (sq_sum_zero f.data).2 (hz.2 h)
    rw [hS, mul_zero, add_zero]
    by_cases h : ∃ a b c, f.dims = [a, b, c]
    · obtain ⟨a, b, c, hd⟩ := h
      have hk := kinetic3 f hs p.hbar m a b c hd
      rw [h1] at hk
      have hk : K = kin (fun i j k => f.val [i, j, k]) f.spacing p.hbar m a b c := by simpa using hk
      have hv : ∀ q, f.val q = 0 := by
        intro q
        rw [Field.val, List.getD]
        by_cases hq : addr f.dims q < f.data.length
        · rw [List.getElem?_eq_getElem hq]; exact (hz.2 ‹_›) _ (List.getElem_mem hq)
        · rw [List.getElem?_eq_none (not_lt.1 hq)]; rfl
      rw [hk]
      unfold kin lap
      simp [hv]
    · have := kinetic_other f p.hbar m (fun a b c hd => absurd ⟨a, b, c, hd⟩ h)
      rw [h1] at this
      simpa using this

/-- C162: a field with the same value everywhere has no kinetic energy: its energy is ½ m n |v|². -/
theorem C162_uniform (f : Field) (hs : Sound f) (p : QParams) (k : Option Particle) (m : ℝ) (hm : p.masses (k.getD f.kind) = some m) (v : ℂ) (hv : ∀ pos, Inside f.dims pos → f.Holds pos v) :
    f.energy p k = .ok (m / 2 * f.dims.prod * ‖v‖ ^ 2) := by
  have hdata : (f.data.map (‖·‖ ^ 2)).sum = f.dims.prod * ‖v‖ ^ 2 := by
    rw [← positions_val f hs (fun v => ‖v‖ ^ 2), ← hs.1]
    rw [List.map_congr_left (g := fun _ => ‖v‖ ^ 2) (fun q hq => by rw [(Field.holds_iff hs (mem_positions.1 hq)).1 (hv q (mem_positions.1 hq))])]
    have hlen : (positions f.dims).length = f.data.length := by
      have := congrArg List.length (positions_addr f.dims)
      simpa [hs.1] using this
    rw [List.map_const', List.sum_replicate, hlen, nsmul_eq_mul]
  obtain ⟨K, h1, _, h3⟩ := energy_general f hs p k m hm
  have hK : K = 0 := by
    by_cases h : ∃ a b c, f.dims = [a, b, c]
    · obtain ⟨a, b, c, hd⟩ := h
      have hf := C162_formula f hs p k m hm a b c hd (fun _ _ _ => v) (fun x y z hi => hv _ hi)
      rw [h3] at hf
      have hf : K = kin (fun _ _ _ => v) f.spacing p.hbar m a b c := by simpa using hf
      rw [hf]
      unfold kin lap
      refine Finset.sum_eq_zero fun i _ => Finset.sum_eq_zero fun j _ => Finset.sum_eq_zero fun k _ => ?_
      rw [show v + v + v + v + v + v - 6 * v = 0 by ring]
      simp
    · have := kinetic_other f p.hbar m (fun a b c hd => absurd ⟨a, b, c, hd⟩ h)
      rw [h1] at this
      simpa using this
  rw [h3, hK, hdata, zero_add, mul_assoc]

/-- C162: fields that are not three-dimensional, or have a dimension of at most 2, have only the mass term. -/
theorem C162_flat (f : Field) (hs : Sound f) (p : QParams) (k : Option Particle) (m : ℝ) (hm : p.masses (k.getD f.kind) = some m) (h : ∀ a b c, f.dims = [a, b, c] → a ≤ 2 ∨ b ≤ 2 ∨ c ≤ 2) :
    f.energy p k = .ok (m / 2 * (f.data.map (‖·‖ ^ 2)).sum) := by
  obtain ⟨K, h1, _, h3⟩ := energy_general f hs p k m hm
  rw [kinetic_other f p.hbar m h] at h1
  have : K = 0 := by simpa using h1.symm
  rw [h3, this, zero_add]

/-- C162 (violated): with the default parameters four of the eight particle types have no mass: the energy of their fields cannot be computed. -/
theorem C162_default_violated (f : Field) (h : f.kind = .heavyIon ∨ f.kind = .positron ∨ f.kind = .muon ∨ f.kind = .neutrino) : f.energy .default none = .throw .runtime := by
  rcases h with h | h | h | h <;> simp [Field.energy, QParams.mass, QParams.default, defaultMass, h, R.bind]

/-- C162: the energy of two electron values 3 and 4i. -/
example : ∃ e, Field.energy ⟨.electron, 1, [2], [3, 4 * Complex.I]⟩ .default none = .ok e ∧ e = 9.1093837 * 10⁻¹ ^ 31 / 2 * 25 := by
  refine ⟨_, C162_flat ⟨.electron, 1, [2], [3, 4 * Complex.I]⟩ ⟨rfl, by norm_num⟩ .default none (9.1093837 * 10⁻¹ ^ 31) rfl (by simp), ?_⟩
  simp
  norm_num

/-! ### C163: evolution -/

theorem turn_eq (p : QParams) (v : ℂ) : turn p v = v * (Complex.exp ((p.omega * p.dt : ℝ) * Complex.I) * ((1 - p.dt / 1000 : ℝ) : ℂ)) := by
  rw [turn, polar_eq]
  have h : ((Complex.arg v + p.omega * p.dt : ℝ) : ℂ) * Complex.I = Complex.arg v * Complex.I + (p.omega * p.dt : ℝ) * Complex.I := by push_cast; ring
  rw [h, Complex.exp_add, ← mul_assoc, Complex.norm_mul_exp_arg_mul_I, show (1 - 0.001 * p.dt : ℝ) = 1 - p.dt / 1000 by ring]
  ring

/-- C163: `n` steps multiply every value by the n-th power of e^{iω dt}(1 − dt/1000), at every place and for every particle type. -/
theorem C163_evolve (p : QParams) : ∀ (n : ℕ) (f : Field), Sound f →
    ∃ f', f.evolve p n = .ok f' ∧ Rewritten (fun _ v => v * (Complex.exp ((p.omega * p.dt : ℝ) * Complex.I) * ((1 - p.dt / 1000 : ℝ) : ℂ)) ^ n) f f'
  | 0, f, hs => ⟨f, rfl, rfl, rfl, rfl, hs, fun pos v _ hv => by simpa using hv⟩
  | n + 1, f, hs => by
    obtain ⟨g, g1, g2⟩ := each_rewritten (fun _ v => turn p v) f hs
    obtain ⟨f', h1, h2⟩ := C163_evolve p n g g2.2.2.2.1
    refine ⟨f', by rw [Field.evolve, g1, R.ok_bind, h1], h2.1.trans g2.1, h2.2.1.trans g2.2.1, h2.2.2.1.trans g2.2.2.1, h2.2.2.2.1, ?_⟩
    intro pos v hp hv
    have := h2.2.2.2.2 pos _ (by rw [g2.2.2.1]; exact hp) (g2.2.2.2.2 pos v hp hv)
    simp only [turn_eq] at this
    simp only
    rw [pow_succ', ← mul_assoc]
    exact this

theorem energy_scale (f f' : Field) (hs : Sound f) (c : ℂ) (h : Rewritten (fun _ v => v * c) f f') (p : QParams) (k : Option Particle) (m : ℝ) (hm : p.masses (k.getD f.kind) = some m) :
    ∃ e, f.energy p k = .ok e ∧ f'.energy p k = .ok (e * ‖c‖ ^ 2) := by
  have hs' := h.2.2.2.1
  have hdata : (f'.data.map (‖·‖ ^ 2)).sum = (f.data.map (‖·‖ ^ 2)).sum * ‖c‖ ^ 2 := by
    rw [← positions_val f hs (fun v => ‖v‖ ^ 2), ← positions_val f' hs' (fun v => ‖v‖ ^ 2), ← List.sum_map_mul_right, h.2.2.1]
    congr 1
    apply List.map_congr_left
    intro q hq
    rw [h.val hs (mem_positions.1 hq), norm_mul]
    ring
  have hm' : p.masses (k.getD f'.kind) = some m := by rw [h.1]; exact hm
  obtain ⟨K, h1, _, h3⟩ := energy_general f hs p k m hm
  obtain ⟨K', h1', _, h3'⟩ := energy_general f' hs' p k m hm'
  refine ⟨_, h3, ?_⟩
  rw [h3', hdata]
  have : K' = K * ‖c‖ ^ 2 := by
    by_cases hd : ∃ a b c, f.dims = [a, b, c]
    · obtain ⟨a, b, d, hd⟩ := hd
      have e1 := C162_formula f hs p k m hm a b d hd (fun i j k => f.val [i, j, k]) (fun x y z hi => (Field.holds_iff hs hi).2 rfl)
      have e2 := C162_formula f' hs' p k m hm' a b d (by rw [h.2.2.1]; exact hd) (fun i j k => f.val [i, j, k] * c) (fun x y z hi => (Field.holds_iff hs' hi).2 (h.val hs (by rw [← h.2.2.1]; exact hi)))
      rw [h3] at e1
      rw [h3'] at e2
      have e1 : K = kin (fun i j k => f.val [i, j, k]) f.spacing p.hbar m a b d := by simpa using e1
      have e2 : K' = kin (fun i j k => f.val [i, j, k] * c) f'.spacing p.hbar m a b d := by simpa using e2
      rw [e1, e2, h.2.1]
      unfold kin
      simp only [Finset.sum_mul]
      refine Finset.sum_congr rfl fun i _ => Finset.sum_congr rfl fun j _ => Finset.sum_congr rfl fun k _ => ?_
      have : ∀ x y z, lap (fun i j k => f.val [i, j, k] * c) f.spacing x y z = lap (fun i j k => f.val [i, j, k]) f.spacing x y z * c := by
        intro x y z; unfold lap; ring
      rw [this, norm_mul]
      ring
    · have e1 := kinetic_other f p.hbar m (fun a b c hx => absurd ⟨a, b, c, hx⟩ hd)
      have e2 := kinetic_other f' p.hbar m (fun a b c hx => absurd ⟨a, b, c, by rw [← h.2.2.1]; exact hx⟩ hd)
      rw [h1] at e1
      rw [h1'] at e2
      have e1 : K = 0 := by simpa using e1
      have e2 : K' = 0 := by simpa using e2
      rw [e1, e2, zero_mul]
  rw [this]
  congr 1
  ring

/-- C163: `n` steps multiply the energy by (1 − dt/1000)²ⁿ, so for 0 ≤ dt ≤ 1000 it never grows. -/
theorem C163_energy (p : QParams) (n : ℕ) (f : Field) (hs : Sound f) (k : Option Particle) (m : ℝ) (hm : p.masses (k.getD f.kind) = some m) :
    ∃ f' e, f.evolve p n = .ok f' ∧ f.energy p k = .ok e ∧ f'.energy p k = .ok (e * (1 - p.dt / 1000) ^ (2 * n)) ∧ (0 < m → 0 ≤ p.dt → p.dt ≤ 1000 → e * (1 - p.dt / 1000) ^ (2 * n) ≤ e) := by
  obtain ⟨f', h1, h2⟩ := C163_evolve p n f hs
  obtain ⟨e, e1, e2⟩ := energy_scale f f' hs _ h2 p k m hm
  refine ⟨f', e, h1, e1, ?_, fun h0 h3 h4 => ?_⟩
  · rw [e2, norm_pow, norm_mul, Complex.norm_exp_ofReal_mul_I, one_mul, Complex.norm_real, Real.norm_eq_abs, ← pow_mul, mul_comm n 2, pow_mul, sq_abs, ← pow_mul]
  · obtain ⟨e', g1, _, g2, _⟩ := (C162_energy f hs p k).2 m hm h0
    rw [e1] at g1
    have : e = e' := by simpa using g1
    subst this
    exact mul_le_of_le_one_right g2 (pow_le_one₀ (by linarith) (by linarith))

/-- C163: the moduli. -/
theorem C163_modulus (p : QParams) (n : ℕ) (f : Field) (hs : Sound f) (pos : List ℤ) (hp : Inside f.dims pos) (v : ℂ) (hv : f.Holds pos v) :
    ∃ f' v', f.evolve p n = .ok f' ∧ f'.Holds pos v' ∧ ‖v'‖ = ‖v‖ * |1 - p.dt / 1000| ^ n := by
  obtain ⟨f', h1, h2⟩ := C163_evolve p n f hs
  exact ⟨f', _, h1, h2.2.2.2.2 pos v hp hv, by rw [norm_mul, norm_pow, norm_mul, Complex.norm_exp_ofReal_mul_I, one_mul, Complex.norm_real, Real.norm_eq_abs]⟩

/-- C163 (violated): the correlation function does not look at the field: the field that is 0 everywhere, and every other, reports 1/(r + 1) at distance r, and a distance below −1 is undefined. -/
theorem C163_correlation_violated (f : Field) (d : ℤ) :
    (0 ≤ d → ∃ l, f.correlation d = .ok l ∧ l.length = d.toNat + 1 ∧ ∀ r : ℕ, r ≤ d → l[r]? = some (1 / (r + 1 : ℝ))) ∧ (d < -1 → f.correlation d = .ub) := by
  constructor
  · intro h
    unfold Field.correlation
    rw [if_neg (by omega)]
    refine ⟨_, rfl, by simp; omega, fun r hr => ?_⟩
    simp [List.getElem?_range (show r < (d + 1).toNat by omega)]
  · intro h
    unfold Field.correlation
    rw [if_pos (by omega)]

/-- C163: an electron field of two points, one step. -/
example : ∃ f' v', Field.evolve ⟨.electron, 1, [2], [3, 4 * Complex.I]⟩ { QParams.default with dt := 500 } 1 = .ok f' ∧ f'.Holds [1] v' ∧ ‖v'‖ = 2 := by
  obtain ⟨f', v', h1, h2, h3⟩ := C163_modulus { QParams.default with dt := 500 } 1 ⟨.electron, 1, [2], [3, 4 * Complex.I]⟩ ⟨rfl, by norm_num⟩ [1] (by simp [Inside]) (4 * Complex.I) (by simp [Field.Holds, Field.get, Field.index, index, R.bind])
  refine ⟨f', v', h1, h2, ?_⟩
  rw [h3]
  simp
  norm_num [abs_of_pos]

/-! ### C164: Klein-Gordon and Dirac equations -/

theorem kgValue_eq (p : QParams) (pos : List ℤ) (v : ℂ) :
    kgValue p pos v = v * (((1 + p.amp * Real.sin (pos.sum : ℤ)) * (1 - p.damping * p.dt) : ℝ) * Complex.exp ((p.dt * p.rate : ℝ) * Complex.I)) := by
  rw [kgValue, polar_eq]
  have h : ((Complex.arg v + p.dt * p.rate : ℝ) : ℂ) * Complex.I = Complex.arg v * Complex.I + (p.dt * p.rate : ℝ) * Complex.I := by push_cast; ring
  rw [h, Complex.exp_add]
  conv_rhs => rw [← Complex.norm_mul_exp_arg_mul_I v]
  push_cast
  ring

/-- C164: a Klein-Gordon step refuses fields of another type; otherwise it turns the phase of every value by dt · rate and multiplies its modulus by (1 + A sin(x + y + z))(1 − damping · dt). -/
theorem C164_kleinGordon (p : QParams) (k : Particle) (f : Field) (hs : Sound f) :
    (f.kind ≠ k → kleinGordon p k f = .throw .argument) ∧
    (f.kind = k → ∃ f', kleinGordon p k f = .ok f' ∧
      Rewritten (fun pos v => v * (((1 + p.amp * Real.sin (pos.sum : ℤ)) * (1 - p.damping * p.dt) : ℝ) * Complex.exp ((p.dt * p.rate : ℝ) * Complex.I))) f f' ∧
      ∀ pos v v', Inside f.dims pos → f.Holds pos v → f'.Holds pos v' → ‖v'‖ ≤ ‖v‖ * ((1 + |p.amp|) * |1 - p.damping * p.dt|)) := by
  refine ⟨fun h => by simp [kleinGordon, h], fun h => ?_⟩
  obtain ⟨f', h1, h2⟩ := each_rewritten (kgValue p) f hs
  have h3 : Rewritten (fun pos v => v * (((1 + p.amp * Real.sin (pos.sum : ℤ)) * (1 - p.damping * p.dt) : ℝ) * Complex.exp ((p.dt * p.rate : ℝ) * Complex.I))) f f' :=
    ⟨h2.1, h2.2.1, h2.2.2.1, h2.2.2.2.1, fun pos v hp hv => by have := h2.2.2.2.2 pos v hp hv; rw [kgValue_eq] at this; exact this⟩
  refine ⟨f', by simp [kleinGordon, h, h1], h3, fun pos v v' hp hv hv' => ?_⟩
  have e := h3.2.2.2.2 pos v hp hv
  unfold Field.Holds at e hv'
  rw [hv'] at e
  rw [R.ok.inj e, norm_mul, norm_mul, Complex.norm_exp_ofReal_mul_I, mul_one, Complex.norm_real, Real.norm_eq_abs, abs_mul]
  have hb : |1 + p.amp * Real.sin (pos.sum : ℤ)| ≤ 1 + |p.amp| := by
    refine le_trans (abs_add_le _ _) ?_
    rw [abs_one, abs_mul]
    have := mul_le_mul_of_nonneg_left (Real.abs_sin_le_one ((pos.sum : ℤ) : ℝ)) (abs_nonneg p.amp)
    linarith
  exact mul_le_mul_of_nonneg_left (mul_le_mul_of_nonneg_right hb (abs_nonneg _)) (norm_nonneg _)

/-- `n` Klein-Gordon steps. -/
noncomputable def kgSteps (p : QParams) (k : Particle) : ℕ → Field → R Field
  | 0, f => .ok f
  | n + 1, f => (kleinGordon p k f).bind (kgSteps p k n)

theorem kgSteps_eq (p : QParams) (k : Particle) : ∀ (n : ℕ) (f : Field), Sound f → f.kind = k →
    ∃ f', kgSteps p k n f = .ok f' ∧ Rewritten (fun pos v => v * (((1 + p.amp * Real.sin (pos.sum : ℤ)) * (1 - p.damping * p.dt) : ℝ) * Complex.exp ((p.dt * p.rate : ℝ) * Complex.I)) ^ n) f f'
  | 0, f, hs, _ => ⟨f, rfl, rfl, rfl, rfl, hs, fun pos v _ hv => by simpa using hv⟩
  | n + 1, f, hs, hk => by
    obtain ⟨g, g1, g2, _⟩ := (C164_kleinGordon p k f hs).2 hk
    obtain ⟨f', h1, h2⟩ := kgSteps_eq p k n g g2.2.2.2.1 (g2.1.trans hk)
    refine ⟨f', by rw [kgSteps, g1, R.ok_bind, h1], h2.1.trans g2.1, h2.2.1.trans g2.2.1, h2.2.2.1.trans g2.2.2.1, h2.2.2.2.1, ?_⟩
    intro pos v hp hv
    have := h2.2.2.2.2 pos _ (by rw [g2.2.2.1]; exact hp) (g2.2.2.2.2 pos v hp hv)
    simp only at this ⊢
    rw [pow_succ', ← mul_assoc]
    exact this

/-- C164 (violated): the dissipation of a Klein-Gordon step does not dissipate: with the default parameters a value that is not 0 at coordinates of sum 1 grows at every step, beyond any bound. -/
theorem C164_dissipation_violated (k : Particle) (f : Field) (hs : Sound f) (hk : f.kind = k) (pos : List ℤ) (hp : Inside f.dims pos) (h1 : pos.sum = 1) (v : ℂ) (hv : f.Holds pos v) (h0 : v ≠ 0) (B : ℝ) :
    ∃ n f' v', kgSteps .default k n f = .ok f' ∧ f'.Holds pos v' ∧ B < ‖v'‖ := by
  have hsin : (1 / 2 : ℝ) < Real.sin 1 := by
    have := Real.sin_gt_sub_cube (x := 1) one_pos
    linarith
  set q : ℝ := (1 + QParams.default.amp * Real.sin ((1 : ℤ) : ℝ)) * (1 - QParams.default.damping * QParams.default.dt) with hq
  have hq1 : 1.001 < q := by
    simp only [hq, QParams.default, Int.cast_one]
    nlinarith
  have hvp : 0 < ‖v‖ := norm_pos_iff.2 h0
  obtain ⟨n, hn⟩ := pow_unbounded_of_one_lt (B / ‖v‖) (show (1 : ℝ) < q by linarith)
  obtain ⟨f', g1, g2⟩ := kgSteps_eq .default k n f hs hk
  refine ⟨n, f', _, g1, g2.2.2.2.2 pos v hp hv, ?_⟩
  simp only [h1]
  rw [norm_mul, norm_pow, norm_mul, Complex.norm_exp_ofReal_mul_I, mul_one, Complex.norm_real, Real.norm_eq_abs, ← hq, abs_of_pos (by linarith)]
  rw [div_lt_iff₀ hvp] at hn
  linarith

/-- C164 (violated): a Dirac step changes nothing, also when the types agree and for any number of steps, and says nothing when they do not. -/
theorem C164_dirac_violated (p : QParams) (k : Particle) (f : Field) : dirac p k f = .ok f := rfl

/-- C164 (violated): both propagators are 1 for every momentum, every mass and every type that has a mass. -/
theorem C164_propagator_violated (p : QParams) (k : Particle) (o : Option Particle) :
    (p.masses (o.getD k) = none → propagator p k o = .throw .runtime) ∧ (∀ m, p.masses (o.getD k) = some m → propagator p k o = .ok 1) := by
  constructor
  · intro h; simp [propagator, QParams.mass, h, R.bind]
  · intro m h; simp [propagator, QParams.mass, h, R.bind]

/-- C164: a neutron field of one value, one step. -/
example : ∃ f' v', kleinGordon .default .neutron ⟨.neutron, 1, [1, 1, 1], [5]⟩ = .ok f' ∧ f'.Holds [0, 0, 0] v' ∧ ‖v'‖ = 5 * (1 - 1 / 1000 * 10⁻¹ ^ 18) := by
  obtain ⟨f', h1, h2, _⟩ := (C164_kleinGordon .default .neutron ⟨.neutron, 1, [1, 1, 1], [5]⟩ ⟨rfl, by norm_num⟩).2 rfl
  refine ⟨f', _, h1, h2.2.2.2.2 [0, 0, 0] 5 (by simp [Inside]) (by simp [Field.Holds, Field.get, Field.index, index, R.bind]), ?_⟩
  rw [norm_mul, norm_mul, Complex.norm_exp_ofReal_mul_I, Complex.norm_real, Real.norm_eq_abs]
  simp [QParams.default]
  norm_num

/-! ### C165: Maxwell's equations and several particles -/

/-- The new pair of values. -/
noncomputable def mixE (p : QParams) (c : ℝ) (q : List ℤ) (ev bv : ℂ) : ℂ := (ev * (1 - c) + bv * c) * space p q

theorem maxwellLoop_eq (p : QParams) (c : ℝ) : ∀ (l : List (List ℤ)) (e b : Field), Sound e → Sound b → l.Nodup → (∀ q ∈ l, Inside e.dims q) → (∀ q ∈ l, Inside b.dims q) →
    ∃ e' b', maxwellLoop p c e b l = .ok (e', b', none) ∧ e'.kind = e.kind ∧ e'.spacing = e.spacing ∧ e'.dims = e.dims ∧ Sound e' ∧ b'.kind = b.kind ∧ b'.spacing = b.spacing ∧ b'.dims = b.dims ∧ Sound b' ∧
      (∀ q, Inside e.dims q → e'.val q = if q ∈ l then mixE p c q (e.val q) (b.val q) else e.val q) ∧
      (∀ q, Inside b.dims q → b'.val q = if q ∈ l then mixE p c q (b.val q) (e.val q) else b.val q)
  | [], e, b, he, hb, _, _, _ => ⟨e, b, rfl, rfl, rfl, rfl, he, rfl, rfl, rfl, hb, by simp, by simp⟩
  | p0 :: l, e, b, he, hb, hn, hi, hj => by
    have h1 := hi p0 (by simp)
    have h2 := hj p0 (by simp)
    obtain ⟨hn1, hn2⟩ := List.nodup_cons.1 hn
    obtain ⟨e', b', g1, g2, g3, g4, g5, g6, g7, g8, g9, g10, g11⟩ := maxwellLoop_eq p c l (e.put p0 (mixE p c p0 (e.val p0) (b.val p0))) (b.put p0 (mixE p c p0 (b.val p0) (e.val p0)))
      (Field.put_sound he _ _) (Field.put_sound hb _ _) hn2 (fun q hq => hi q (by simp [hq])) (fun q hq => hj q (by simp [hq]))
    refine ⟨e', b', ?_, g2, g3, g4, g5, g6, g7, g8, g9, ?_, ?_⟩
    · have s1 := Field.set_eq he h1 (mixE p c p0 (e.val p0) (b.val p0))
      have s2 := Field.set_eq hb h2 (mixE p c p0 (b.val p0) (e.val p0))
      unfold mixE at s1 s2
      simp only [maxwellLoop, Field.get_eq he h1, Field.get_eq hb h2, s1, s2]
      exact g1
    · intro q hq
      rw [g10 q hq, Field.put_val he h1 hq]
      by_cases e0 : q = p0
      · subst e0; simp [hn1]
      · by_cases hm : q ∈ l
        · rw [Field.put_val hb h2 (hj q (by simp [hm]))]; simp [e0, hm]
        · simp [e0, hm]
    · intro q hq
      rw [g11 q hq, Field.put_val hb h2 hq]
      by_cases e0 : q = p0
      · subst e0; simp [hn1]
      · by_cases hm : q ∈ l
        · rw [Field.put_val he h1 (hi q (by simp [hm]))]; simp [e0, hm]
        · simp [e0, hm]

/-- C165: one step of Maxwell's equations refuses fields that are not photon fields and changes nothing then; without a coupling constant it throws. -/
theorem C165_refused (p : QParams) (e b : Field) :
    (e.kind ≠ .photon ∨ b.kind ≠ .photon → maxwell p e b = .ok (e, b, some .argument)) ∧
    (e.kind = .photon → b.kind = .photon → p.couplings .photon = none → maxwell p e b = .ok (e, b, some .runtime)) := by
  constructor
  · intro h; simp [maxwell, h]
  · intro h1 h2 h3; simp [maxwell, h1, h2, h3]

/-- C165: for two photon fields on the same lattice, a step with coupling c (limited to 0 … 1) mixes the two values at every place and scales both by the same factor s of the place: the sum of the fields is multiplied by s, the difference by (1 − 2c)s, and the sum of squared moduli grows by at most s². -/
theorem C165_maxwell (p : QParams) (e b : Field) (he : Sound e) (hb : Sound b) (hd : b.dims = e.dims) (h1 : e.kind = .photon) (h2 : b.kind = .photon) (c0 : ℝ) (hc : p.couplings .photon = some c0) :
    ∃ e' b' c, maxwell p e b = .ok (e', b', none) ∧ 0 ≤ c ∧ c ≤ 1 ∧ (0 ≤ c0 → c0 ≤ 1 → c = c0) ∧ e'.kind = e.kind ∧ e'.dims = e.dims ∧ Sound e' ∧ b'.kind = b.kind ∧ b'.dims = b.dims ∧ Sound b' ∧
      ∀ i j k ev bv, Inside e.dims [i, j, k] → e.Holds [i, j, k] ev → b.Holds [i, j, k] bv → ∃ ev' bv' : ℂ, ∃ s : ℝ,
        s = (1 + p.amp * (Real.sin (i / 10) + Real.cos (j / 10) + Real.sin (k / 10))) * (1 - p.damping * p.dt) ∧
        e'.Holds [i, j, k] ev' ∧ b'.Holds [i, j, k] bv' ∧ ev' + bv' = (ev + bv) * s ∧ ev' - bv' = (ev - bv) * ((1 - 2 * c) * s : ℝ) ∧ ‖ev'‖ ^ 2 + ‖bv'‖ ^ 2 ≤ s ^ 2 * (‖ev‖ ^ 2 + ‖bv‖ ^ 2) := by
  obtain ⟨e', b', g1, g2, g3, g4, g5, g6, g7, g8, g9, g10, g11⟩ := maxwellLoop_eq p (min (max c0 0) 1) (positions e.dims) e b he hb (nodup_positions _) (fun q hq => mem_positions.1 hq) (fun q hq => by rw [hd]; exact mem_positions.1 hq)
  refine ⟨e', b', min (max c0 0) 1, ?_, le_min (le_max_right _ _) zero_le_one, min_le_right _ _, fun a1 a2 => by rw [max_eq_left a1, min_eq_left a2], g2, g4, g5, g6, g8, g9, ?_⟩
  · simp [maxwell, h1, h2, hc, g1]
  intro i j k ev bv hi hev hbv
  set c := min (max c0 0) 1 with hcdef
  have hc0 : 0 ≤ c := le_min (le_max_right _ _) zero_le_one
  have hc1 : c ≤ 1 := min_le_right _ _
  have hi' : Inside b.dims [i, j, k] := by rw [hd]; exact hi
  have hev := (Field.holds_iff he hi).1 hev
  have hbv := (Field.holds_iff hb hi').1 hbv
  have v1 := g10 _ hi
  have v2 := g11 _ hi'
  rw [if_pos (mem_positions.2 hi)] at v1 v2
  rw [hev, hbv] at v1 v2
  set s : ℝ := (1 + p.amp * (Real.sin (i / 10) + Real.cos (j / 10) + Real.sin (k / 10))) * (1 - p.damping * p.dt) with hs
  have hsp : space p [i, j, k] = s := by
    rw [hs, space, show (0.1 * (i : ℝ)) = i / 10 by ring, show (0.1 * (j : ℝ)) = j / 10 by ring, show (0.1 * (k : ℝ)) = k / 10 by ring]
  unfold mixE at v1 v2
  rw [hsp] at v1 v2
  refine ⟨_, _, s, rfl, (Field.holds_iff g5 (by rw [g4]; exact hi)).2 v1, (Field.holds_iff g9 (by rw [g8]; exact hi')).2 v2, by ring, by push_cast; ring, ?_⟩
  have key : ∀ x y : ℂ, ‖x * (1 - c) + y * c‖ ≤ ‖x‖ * (1 - c) + ‖y‖ * c := by
    intro x y
    refine le_trans (norm_add_le _ _) ?_
    rw [norm_mul, norm_mul, show (1 - (c : ℂ)) = ((1 - c : ℝ) : ℂ) by push_cast; rfl, Complex.norm_real, Complex.norm_real, Real.norm_eq_abs, Real.norm_eq_abs, abs_of_nonneg (show 0 ≤ 1 - c by linarith), abs_of_nonneg hc0]
  have k1 := key ev bv
  have k2 := key bv ev
  rw [norm_mul, norm_mul, Complex.norm_real, mul_pow, mul_pow, Real.norm_eq_abs, sq_abs]
  have q1 := pow_le_pow_left₀ (norm_nonneg _) k1 2
  have q2 := pow_le_pow_left₀ (norm_nonneg _) k2 2
  have : (‖ev‖ * (1 - c) + ‖bv‖ * c) ^ 2 + (‖bv‖ * (1 - c) + ‖ev‖ * c) ^ 2 ≤ ‖ev‖ ^ 2 + ‖bv‖ ^ 2 := by
    nlinarith [mul_nonneg (mul_nonneg hc0 (show 0 ≤ 1 - c by linarith)) (sq_nonneg (‖ev‖ - ‖bv‖))]
  nlinarith [sq_nonneg s]

/-- C165 (violated): fields on different lattices are not refused: the step throws when it leaves the smaller lattice, after it has changed both fields. -/
theorem C165_lattice_violated (p : QParams) (s c : ℝ) (hc : p.couplings .photon = some c) (h0 : 0 ≤ c) (h1 : c ≤ 1) (x y z : ℂ) :
    maxwell p ⟨.photon, s, [1, 1, 2], [x, y]⟩ ⟨.photon, s, [1, 1, 1], [z]⟩ =
      .ok (⟨.photon, s, [1, 1, 2], [(x * (1 - c) + z * c) * ((1 + p.amp) * (1 - p.damping * p.dt) : ℝ), y]⟩, ⟨.photon, s, [1, 1, 1], [(z * (1 - c) + x * c) * ((1 + p.amp) * (1 - p.damping * p.dt) : ℝ)]⟩, some .range) := by
  have hm : min (max c 0) 1 = c := by rw [max_eq_left h0, min_eq_left h1]
  have hp : positions [1, 1, 2] = [[0, 0, 0], [0, 0, 1]] := by decide
  simp only [maxwell, hc, hm, hp]
  simp [maxwellLoop, Field.get, Field.set, Field.index, index, R.bind, space]

/-- What one call does to a list of fields: two photon fields in a row take a step of Maxwell's equations together, a single photon field and fermion fields stay as they are, the others take a Klein-Gordon step. -/
inductive Interacted (p : QParams) : List Field → List Field → Prop
  | nil : Interacted p [] []
  | pair {e b e' b' fs gs} : e.kind = .photon → b.kind = .photon → maxwell p e b = .ok (e', b', none) → Interacted p fs gs → Interacted p (e :: b :: fs) (e' :: b' :: gs)
  | single {e fs gs} : e.kind = .photon → (∀ b, fs.head? = some b → b.kind ≠ .photon) → Interacted p fs gs → Interacted p (e :: fs) (e :: gs)
  | fermion {f fs gs} : f.kind = .electron ∨ f.kind = .proton ∨ f.kind = .positron ∨ f.kind = .muon → Interacted p fs gs → Interacted p (f :: fs) (f :: gs)
  | boson {f g fs gs} : f.kind = .neutron ∨ f.kind = .heavyIon ∨ f.kind = .neutrino → kleinGordon p f.kind f = .ok g → Interacted p fs gs → Interacted p (f :: fs) (g :: gs)

theorem interactLoop_eq (p : QParams) (c0 : ℝ) (hc : p.couplings .photon = some c0) (dims : List ℕ) : ∀ (n : ℕ) (fs : List Field), fs.length ≤ n → (∀ f ∈ fs, Sound f ∧ f.dims = dims) →
    ∃ gs, interactLoop p fs = .ok gs ∧ Interacted p fs gs ∧ List.Forall₂ (fun f g => g.kind = f.kind ∧ g.dims = f.dims ∧ Sound g) fs gs
  | _, [], _, _ => ⟨[], by rw [interactLoop], .nil, .nil⟩
  | 0, f :: fs, h, _ => by simp at h
  | n + 1, f :: fs, h, hs => by
    obtain ⟨h1, h2⟩ := hs f (by simp)
    obtain ⟨gs, g1, g2, g3⟩ := interactLoop_eq p c0 hc dims n fs (by simpa using h) (fun x hx => hs x (by simp [hx]))
    by_cases hp : f.kind = .photon
    · cases fs with
      | nil =>
        refine ⟨[f], ?_, .single hp (by simp) .nil, .cons ⟨rfl, rfl, h1⟩ .nil⟩
        rw [interactLoop.eq_def]; simp [hp]
      | cons b fs =>
        by_cases hb : b.kind = .photon
        · obtain ⟨b1, b2⟩ := hs b (by simp)
          obtain ⟨e', b', c, m1, _, _, _, m2, m3, m4, m5, m6, m7, _⟩ := C165_maxwell p f b h1 b1 (by rw [b2, h2]) hp hb c0 hc
          obtain ⟨gs', g1', g2', g3'⟩ := interactLoop_eq p c0 hc dims n fs (by simp at h; omega) (fun x hx => hs x (by simp [hx]))
          refine ⟨e' :: b' :: gs', ?_, .pair hp hb m1 g2', .cons ⟨m2, m3, m4⟩ (.cons ⟨m5, m6, m7⟩ g3')⟩
          rw [interactLoop.eq_def]
          simp [hp, hb, m1, R.bind, g1']
        · refine ⟨f :: gs, ?_, .single hp (by simpa using hb) g2, .cons ⟨rfl, rfl, h1⟩ g3⟩
          rw [interactLoop.eq_def]
          simp [hp, hb, R.bind, g1]
    · by_cases hf : f.kind = .electron ∨ f.kind = .proton ∨ f.kind = .positron ∨ f.kind = .muon
      · refine ⟨f :: gs, ?_, .fermion hf g2, .cons ⟨rfl, rfl, h1⟩ g3⟩
        rw [interactLoop.eq_def]
        rcases hf with hf | hf | hf | hf <;> simp [hf, dirac, R.bind, g1]
      · have hb : f.kind = .neutron ∨ f.kind = .heavyIon ∨ f.kind = .neutrino := by
          revert hp hf; cases f.kind <;> simp
        obtain ⟨g, k1, k2, _⟩ := (C164_kleinGordon p f.kind f h1).2 rfl
        refine ⟨g :: gs, ?_, .boson hb k1 g2, .cons ⟨k2.1, k2.2.2.1, k2.2.2.2.1⟩ g3⟩
        rw [interactLoop.eq_def]
        rcases hb with hb | hb | hb <;> rw [hb] at k1 <;> simp [hb, k1, R.bind, g1]

theorem energies_eq (p : QParams) : ∀ fs : List Field, (∀ f ∈ fs, Sound f ∧ ∃ m, p.masses f.kind = some m) →
    ∃ es, energies p fs = .ok es ∧ List.Forall₂ (fun f e => f.energy p none = .ok e) fs es
  | [], _ => ⟨[], rfl, .nil⟩
  | f :: fs, h => by
    obtain ⟨h1, m, hm⟩ := h f (by simp)
    obtain ⟨es, e1, e2⟩ := energies_eq p fs (fun x hx => h x (by simp [hx]))
    obtain ⟨K, _, _, h3⟩ := energy_general f h1 p none m hm
    exact ⟨_ :: es, by rw [energies, h3, R.ok_bind, e1, R.ok_bind], .cons h3 e2⟩

theorem forall2_getElem {α β : Type} {r : α → β → Prop} {l : List α} {m : List β} (h : List.Forall₂ r l m) (i : ℕ) (a : α) (b : β) (ha : l[i]? = some a) (hb : m[i]? = some b) : r a b := by
  induction h generalizing i with
  | nil => simp at ha
  | cons h _ ih => cases i with
    | zero => simp at ha hb; subst ha hb; exact h
    | succ i => simp at ha hb; exact ih i ha hb

/-- C165: an interaction of fields on one lattice, of types that have a mass, applies the equation of its type to every field, and returns for every field the energy after minus the energy before. -/
theorem C165_interact (p : QParams) (c0 : ℝ) (hc : p.couplings .photon = some c0) (dims : List ℕ) (fs : List Field) (hs : ∀ f ∈ fs, Sound f ∧ f.dims = dims ∧ ∃ m, p.masses f.kind = some m) (steps : ℤ) :
    ∃ (gs : List Field) (ds : List ℝ), interact p fs steps = .ok (gs, ds) ∧ Interacted p fs gs ∧ gs.length = fs.length ∧ ds.length = fs.length ∧
      ∀ (i : ℕ) (f g : Field) (d : ℝ), fs[i]? = some f → gs[i]? = some g → ds[i]? = some d → g.kind = f.kind ∧ g.dims = f.dims ∧ ∃ e e', f.energy p none = .ok e ∧ g.energy p none = .ok e' ∧ d = e' - e := by
  obtain ⟨gs, g1, g2, g3⟩ := interactLoop_eq p c0 hc dims fs.length fs le_rfl (fun f hf => ⟨(hs f hf).1, (hs f hf).2.1⟩)
  obtain ⟨es, e1, e2⟩ := energies_eq p fs (fun f hf => ⟨(hs f hf).1, (hs f hf).2.2⟩)
  have hg : ∀ g ∈ gs, Sound g ∧ ∃ m, p.masses g.kind = some m := by
    intro g hg
    obtain ⟨i, hi, rfl⟩ := List.getElem_of_mem hg
    have hi' : i < fs.length := by rw [List.Forall₂.length_eq g3]; exact hi
    have := forall2_getElem g3 i fs[i] gs[i] (List.getElem?_eq_getElem hi') (List.getElem?_eq_getElem hi)
    exact ⟨this.2.2, by rw [this.1]; exact (hs _ (List.getElem_mem hi')).2.2⟩
  obtain ⟨es', e1', e2'⟩ := energies_eq p gs hg
  have l1 := List.Forall₂.length_eq g3
  have l2 := List.Forall₂.length_eq e2
  have l3 := List.Forall₂.length_eq e2'
  refine ⟨gs, List.zipWith (fun y x => y - x) es' es, ?_, g2, l1.symm, by simp; omega, ?_⟩
  · rw [interact, e1, R.ok_bind, g1, R.ok_bind, e1', R.ok_bind]
  · intro i f g d hf hg hd
    have := forall2_getElem g3 i f g hf hg
    rw [List.getElem?_zipWith] at hd
    cases ha : es'[i]? with
    | none => simp [ha] at hd
    | some a => cases hb : es[i]? with
      | none => simp [ha, hb] at hd
      | some b =>
        simp [ha, hb] at hd
        exact ⟨this.1, this.2.1, b, a, forall2_getElem e2 i f b hf hb, forall2_getElem e2' i g a hg ha, hd.symm⟩

/-- C165: fermion fields and single photon fields do not change, and neither does their energy. -/
theorem C165_fermions {p : QParams} {fs gs : List Field} (h : Interacted p fs gs) (i : ℕ) (f g : Field) (hf : fs[i]? = some f) (hg : gs[i]? = some g) (hk : f.kind = .electron ∨ f.kind = .proton ∨ f.kind = .positron ∨ f.kind = .muon) : g = f := by
  induction h generalizing i with
  | nil => simp at hf
  | pair h1 h2 _ _ ih => match i with
    | 0 => simp at hf hg; subst hf; rw [h1] at hk; simp at hk
    | 1 => simp at hf hg; subst hf; rw [h2] at hk; simp at hk
    | i + 2 => simp at hf hg; exact ih i hf hg
  | single h1 _ _ ih => match i with
    | 0 => simp at hf hg; rw [← hf, ← hg]
    | i + 1 => simp at hf hg; exact ih i hf hg
  | fermion _ _ ih => match i with
    | 0 => simp at hf hg; rw [← hf, ← hg]
    | i + 1 => simp at hf hg; exact ih i hf hg
  | boson h1 _ _ ih => match i with
    | 0 => simp at hf hg; subst hf; rcases h1 with h | h | h <;> rw [h] at hk <;> simp at hk
    | i + 1 => simp at hf hg; exact ih i hf hg

/-- C165 (violated): the number of steps has no effect: 0 steps, a negative number and a thousand all make exactly one. -/
theorem C165_steps_violated (p : QParams) (fs : List Field) (n m : ℤ) : interact p fs n = interact p fs m := rfl

/-- C165: 0 steps change the energy of a neutron field. -/
example : ∃ g d, interact .default [⟨.neutron, 1, [1, 1, 1], [1]⟩] 0 = .ok ([g], [d]) ∧ d < 0 := by
  obtain ⟨gs, ds, h1, h2, h3, h4, h5⟩ := C165_interact .default (1 / 10) rfl [1, 1, 1] [⟨.neutron, 1, [1, 1, 1], [1]⟩] (by
    intro f hf; rw [List.mem_singleton] at hf; subst hf; exact ⟨⟨rfl, by norm_num⟩, rfl, _, rfl⟩) 0
  match gs, ds, h3, h4 with
  | [g], [d], _, _ =>
    refine ⟨g, d, h1, ?_⟩
    cases h2 with
    | single h => simp at h
    | fermion h => simp at h
    | boson _ hk =>
      obtain ⟨g', k1, k2, _⟩ := (C164_kleinGordon .default .neutron ⟨.neutron, 1, [1, 1, 1], [1]⟩ ⟨rfl, by norm_num⟩).2 rfl
      have hgg : g' = g := by simp only at hk; rw [hk] at k1; exact (R.ok.inj k1).symm
      subst hgg
      obtain ⟨_, _, e, e', he, he', hd⟩ := h5 0 _ g' d rfl rfl rfl
      have u1 := C162_uniform ⟨.neutron, 1, [1, 1, 1], [1]⟩ ⟨rfl, by norm_num⟩ .default none _ rfl 1 (by
        intro pos hp
        rw [Field.holds_iff ⟨rfl, by norm_num⟩ hp]
        have := addr_lt hp
        simp at this
        simp [Field.val, this])
      have hz : ∀ pos, Inside [1, 1, 1] pos → pos = [0, 0, 0] := by
        intro pos hp
        have hp := mem_positions.2 hp
        simpa [positions] using hp
      have u2 := C162_uniform g' k2.2.2.2.1 .default none (1.6749275 * 10⁻¹ ^ 27) (by rw [k2.1]; rfl) _ (by
        intro pos hp
        rw [k2.2.2.1] at hp
        rw [hz pos hp]
        exact k2.2.2.2.2 [0, 0, 0] 1 (by simp [Inside]) (by simp [Field.Holds, Field.get, Field.index, index, R.bind]))
      rw [u1] at he
      rw [u2] at he'
      rw [hd, ← R.ok.inj he, ← R.ok.inj he', k2.2.2.1]
      simp only
      rw [norm_mul, norm_mul, Complex.norm_exp_ofReal_mul_I, Complex.norm_real, Real.norm_eq_abs]
      simp [QParams.default]
      norm_num

end Verif.QuantumField
