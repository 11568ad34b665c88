import Mathlib.Algebra.BigOperators.Group.Finset.Basic
import Mathlib.Algebra.Ring.Defs
import Mathlib.Algebra.Ring.Int.Defs
import Mathlib.Data.List.ProdSigma
import Mathlib.Data.Finset.Range
import Mathlib.Data.Fintype.Basic
import Mathlib.Tactic.FinCases
import Mathlib.Tactic.Ring
import Verif.Model.ConvLayer
import Verif.Lemmas.Bits
/-!
C96-C97: the convolutional layer computes the zero-padded convolution, and its parameters survive upsets.
-/
namespace Verif.Props.ConvP
open Verif Verif.Conv

variable {α : Type}

/-! ### Specification -/

/-- The input surrounded by `P` rows and columns of zeros. -/
def padded {R : Type} [Zero R] (d : Dims) (x : Nat → Nat → Nat → R) (ic r c : Nat) : R :=
  if d.P ≤ r ∧ r < d.H + d.P ∧ d.P ≤ c ∧ c < d.W + d.P then x ic (r - d.P) (c - d.P) else 0

/-- The convolution (cross-correlation, as usual in machine learning) with bias `b` and kernel `w`. -/
def conv {R : Type} [Semiring R] (d : Dims) (val : Param → R) (x : Nat → Nat → Nat → R) (oc oh ow : Nat) : R :=
  val (.b oc) + ∑ ic ∈ Finset.range d.IC, ∑ kh ∈ Finset.range d.K, ∑ kw ∈ Finset.range d.K,
    val (.w oc ic kh kw) * padded d x ic (oh * d.S + kh) (ow * d.S + kw)

/-- Exact arithmetic. -/
def exact (R : Type) [Semiring R] : Num R := ⟨(· + ·), (· * ·), 0⟩

/-- The parameters that exist. -/
def InRange (d : Dims) : Param → Prop
  | .w oc ic kh kw => oc < d.OC ∧ ic < d.IC ∧ kh < d.K ∧ kw < d.K
  | .b oc => oc < d.OC

instance (d : Dims) (p : Param) : Decidable (InRange d p) := by cases p <;> unfold InRange <;> infer_instance

/-- `==` is equality. -/
def IsEq (eq : α → α → Bool) : Prop := ∀ a b, eq a b = true ↔ a = b

/-- What is known of a parameter: the value last set, and which of its copies were struck since it was last set or repaired: none,
one, or (`lost`) more than one. -/
inductive Damage where
  | none | one (k : Fin 3) | lost
  deriving DecidableEq

/-- A further strike at copy `k`. -/
def Damage.hit (k : Fin 3) : Damage → Damage
  | .none => .one k
  | .one j => if j = k then .one j else .lost
  | .lost => .lost

/-- Repair helps as long as at most one copy is struck. -/
def Damage.fix : Damage → Damage
  | .none => .none
  | .one _ => .none
  | .lost => .lost

/-- The value and damage of parameter `p` after one event. -/
def track (p : Param) (s : α × Damage) : Op α → α × Damage
  | .set q v => if q = p then (v, .none) else s
  | .strike q k _ => if q = p then (s.1, s.2.hit k) else s
  | .repair => (s.1, s.2.fix)

/-- ... after a history of a layer constructed with zeros. -/
def tracked (zero : α) (p : Param) (h : List (Op α)) : α × Damage := h.foldl (track p) (zero, .none)

/-! ### Loops -/

theorem all_kw (f : Tri α → Tri α) (oc ic kh n : Nat) (L : Layer α) :
    (forN n (fun kw (L : Layer α) => L.updW oc ic kh kw (f (L.w oc ic kh kw))) L).b = L.b ∧
    ∀ a b c e, (forN n (fun kw (L : Layer α) => L.updW oc ic kh kw (f (L.w oc ic kh kw))) L).w a b c e =
      if a = oc ∧ b = ic ∧ c = kh ∧ e < n then f (L.w a b c e) else L.w a b c e := by
  induction n with
  | zero => simp [forN]
  | succ n ih =>
    refine ⟨ih.1, ?_⟩
    intro a b c e
    show (if a = oc ∧ b = ic ∧ c = kh ∧ e = n then _ else _) = _
    by_cases h : a = oc ∧ b = ic ∧ c = kh ∧ e = n
    · obtain ⟨rfl, rfl, rfl, rfl⟩ := h
      rw [if_pos ⟨rfl, rfl, rfl, rfl⟩, ih.2, if_neg (by omega), if_pos (by omega)]
    · rw [if_neg h, ih.2]
      by_cases h2 : a = oc ∧ b = ic ∧ c = kh ∧ e < n
      · rw [if_pos h2, if_pos (by omega)]
      · rw [if_neg h2, if_neg (by omega)]

theorem all_kh (f : Tri α → Tri α) (oc ic K n : Nat) (L : Layer α) :
    (forN n (fun kh L => forN K (fun kw (L : Layer α) => L.updW oc ic kh kw (f (L.w oc ic kh kw))) L) L).b = L.b ∧
    ∀ a b c e, (forN n (fun kh L => forN K (fun kw (L : Layer α) => L.updW oc ic kh kw (f (L.w oc ic kh kw))) L) L).w a b c e =
      if a = oc ∧ b = ic ∧ c < n ∧ e < K then f (L.w a b c e) else L.w a b c e := by
  induction n with
  | zero => simp [forN]
  | succ n ih =>
    have h1 := all_kw f oc ic n K (forN n (fun kh L => forN K (fun kw (L : Layer α) => L.updW oc ic kh kw (f (L.w oc ic kh kw))) L) L)
    refine ⟨h1.1.trans ih.1, ?_⟩
    intro a b c e
    show (forN K (fun kw (L : Layer α) => L.updW oc ic n kw (f (L.w oc ic n kw))) (forN n _ L)).w a b c e = _
    rw [h1.2, ih.2]
    by_cases h : a = oc ∧ b = ic ∧ c = n ∧ e < K
    · rw [if_pos h, if_neg (by omega), if_pos (by omega)]
    · rw [if_neg h]
      by_cases h2 : a = oc ∧ b = ic ∧ c < n ∧ e < K
      · rw [if_pos h2, if_pos (by omega)]
      · rw [if_neg h2, if_neg (by omega)]

theorem all_ic (f : Tri α → Tri α) (oc K n : Nat) (L : Layer α) :
    (forN n (fun ic L => forN K (fun kh L => forN K (fun kw (L : Layer α) => L.updW oc ic kh kw (f (L.w oc ic kh kw))) L) L) L).b = L.b ∧
    ∀ a b c e, (forN n (fun ic L => forN K (fun kh L => forN K (fun kw (L : Layer α) =>
        L.updW oc ic kh kw (f (L.w oc ic kh kw))) L) L) L).w a b c e =
      if a = oc ∧ b < n ∧ c < K ∧ e < K then f (L.w a b c e) else L.w a b c e := by
  induction n with
  | zero => simp [forN]
  | succ n ih =>
    have h1 := all_kh f oc n K K (forN n (fun ic L => forN K (fun kh L => forN K (fun kw (L : Layer α) =>
        L.updW oc ic kh kw (f (L.w oc ic kh kw))) L) L) L)
    refine ⟨h1.1.trans ih.1, ?_⟩
    intro a b c e
    show (forN K (fun kh L => forN K (fun kw (L : Layer α) => L.updW oc n kh kw (f (L.w oc n kh kw))) L) (forN n _ L)).w a b c e = _
    rw [h1.2, ih.2]
    by_cases h : a = oc ∧ b = n ∧ c < K ∧ e < K
    · rw [if_pos h, if_neg (by omega), if_pos (by omega)]
    · rw [if_neg h]
      by_cases h2 : a = oc ∧ b < n ∧ c < K ∧ e < K
      · rw [if_pos h2, if_pos (by omega)]
      · rw [if_neg h2, if_neg (by omega)]

/-- The loop nest treats every parameter of the layer exactly once and nothing else. -/
theorem all_at (d : Dims) (f : Tri α → Tri α) (L : Layer α) (p : Param) :
    (L.all d f).at p = if InRange d p then f (L.at p) else L.at p := by
  unfold Layer.all
  have key : ∀ n, (∀ a, ((forN n (fun oc (L : Layer α) =>
      let L := forN d.IC (fun ic L => forN d.K (fun kh L => forN d.K (fun kw L => L.updW oc ic kh kw (f (L.w oc ic kh kw))) L) L) L
      L.updB oc (f (L.b oc))) L).b a = if a < n then f (L.b a) else L.b a)) ∧
      ∀ a b c e, ((forN n (fun oc (L : Layer α) =>
      let L := forN d.IC (fun ic L => forN d.K (fun kh L => forN d.K (fun kw L => L.updW oc ic kh kw (f (L.w oc ic kh kw))) L) L) L
      L.updB oc (f (L.b oc))) L).w a b c e = if a < n ∧ b < d.IC ∧ c < d.K ∧ e < d.K then f (L.w a b c e) else L.w a b c e) := by
    intro n
    induction n with
    | zero => simp [forN]
    | succ n ih =>
      have h1 := all_ic f n d.K d.IC (forN n (fun oc (L : Layer α) =>
        let L := forN d.IC (fun ic L => forN d.K (fun kh L => forN d.K (fun kw L => L.updW oc ic kh kw (f (L.w oc ic kh kw))) L) L) L
        L.updB oc (f (L.b oc))) L)
      constructor
      · intro a
        show (if a = n then f ((forN d.IC _ (forN n _ L)).b n) else (forN d.IC _ (forN n _ L)).b a) = _
        rw [h1.1, ih.1, ih.1]
        by_cases h : a = n
        · subst h; rw [if_pos rfl, if_neg (by omega), if_pos (by omega)]
        · rw [if_neg h]
          by_cases h2 : a < n
          · rw [if_pos h2, if_pos (by omega)]
          · rw [if_neg h2, if_neg (by omega)]
      · intro a b c e
        show (forN d.IC _ (forN n _ L)).w a b c e = _
        rw [h1.2, ih.2]
        by_cases h : a = n ∧ b < d.IC ∧ c < d.K ∧ e < d.K
        · rw [if_pos h, if_neg (by omega), if_pos (by omega)]
        · rw [if_neg h]
          by_cases h2 : a < n ∧ b < d.IC ∧ c < d.K ∧ e < d.K
          · rw [if_pos h2, if_pos (by omega)]
          · rw [if_neg h2, if_neg (by omega)]
  cases p with
  | w a b c e => exact (key d.OC).2 a b c e
  | b a => exact (key d.OC).1 a

/-! ### C96: the convolution -/

/-- An output position exists exactly if its window fits into the padded input. -/
theorem C96_output_size (d : Dims) (n o : Nat) (hS : 1 ≤ d.S) (hS' : d.S < 2 ^ 64) (hK : d.K ≤ n + 2 * d.P) (hn : n + 2 * d.P + 1 < 2 ^ 64) :
    o < d.out n ↔ o * d.S + d.K ≤ n + 2 * d.P := by
  have e : d.out n = (n + 2 * d.P - d.K) / d.S + 1 := by
    unfold Dims.out
    have h1 : (BitVec.ofNat 64 n - BitVec.ofNat 64 d.K + 2#64 * BitVec.ofNat 64 d.P) = BitVec.ofNat 64 (n + 2 * d.P - d.K) := by
      have : BitVec.ofNat 64 (n + 2 * d.P) = BitVec.ofNat 64 (n + 2 * d.P - d.K) + BitVec.ofNat 64 d.K := by
        rw [← BitVec.ofNat_add]; congr 1; omega
      rw [BitVec.ofNat_add, BitVec.ofNat_mul] at this
      rw [show BitVec.ofNat 64 n - BitVec.ofNat 64 d.K + 2#64 * BitVec.ofNat 64 d.P
        = (BitVec.ofNat 64 n + 2#64 * BitVec.ofNat 64 d.P) - BitVec.ofNat 64 d.K by
          rw [BitVec.sub_eq_add_neg, BitVec.sub_eq_add_neg, BitVec.add_assoc, BitVec.add_assoc, BitVec.add_comm (-_)]]
      show (BitVec.ofNat 64 n + BitVec.ofNat 64 2 * BitVec.ofNat 64 d.P) - _ = _
      rw [this, BitVec.add_sub_cancel]
    rw [h1, BitVec.toNat_add, BitVec.toNat_udiv, BitVec.toNat_ofNat, BitVec.toNat_ofNat, BitVec.toNat_ofNat,
      Nat.mod_eq_of_lt (show n + 2 * d.P - d.K < 2 ^ 64 by omega), Nat.mod_eq_of_lt hS', Nat.mod_eq_of_lt (by omega : 1 < 2 ^ 64)]
    have : (n + 2 * d.P - d.K) / d.S ≤ n + 2 * d.P - d.K := Nat.div_le_self _ _
    rw [Nat.mod_eq_of_lt (by omega)]
  rw [e, Nat.lt_succ_iff, Nat.le_div_iff_mul_le (by omega)]
  omega

/-- Non-vacuity: a 3x3 kernel, stride 2, padding 1 on an extent of 5 has positions 0, 1, 2. -/
example : (⟨1, 1, 5, 5, 3, 2, 1⟩ : Dims).out 5 = 3 := by decide +kernel

/-- A kernel larger than the padded input does not give an empty output: the size wraps around and 2^63 positions are promised. -/
theorem C96_oversized_kernel_limit : (⟨1, 1, 2, 2, 3, 2, 0⟩ : Dims).out 2 = 2 ^ 63 := by decide +kernel

theorem bind_ok {β γ : Type} (a : β) (f : β → Outcome γ) : (Outcome.ok a).bind f = f a := rfl

/-- What the innermost body does. -/
theorem tap_eq (d : Dims) (N : Num α) (eq : α → α → Bool) (L : Layer α) (x : Nat → Nat → Nat → α) (oc oh ow ic kh kw : Nat) (s : α)
    (hic : ic < d.IC) :
    tap d N eq L x oc oh ow ic kh kw s =
      .ok (if d.P ≤ oh * d.S + kh ∧ oh * d.S + kh < d.H + d.P ∧ d.P ≤ ow * d.S + kw ∧ ow * d.S + kw < d.W + d.P
        then N.add s (N.mul ((L.at (.w oc ic kh kw)).get eq) (x ic (oh * d.S + kh - d.P) (ow * d.S + kw - d.P))) else s) := by
  unfold tap
  dsimp only
  by_cases h : d.P ≤ oh * d.S + kh ∧ oh * d.S + kh < d.H + d.P ∧ d.P ≤ ow * d.S + kw ∧ ow * d.S + kw < d.W + d.P
  · rw [if_pos (by omega), if_pos h]
    unfold readInput
    rw [if_pos (by omega), bind_ok]
    have e1 : (((oh * d.S : Nat) : Int) + kh - d.P).toNat = oh * d.S + kh - d.P := by omega
    have e2 : (((ow * d.S : Nat) : Int) + kw - d.P).toNat = ow * d.S + kw - d.P := by omega
    rw [e1, e2]; rfl
  · rw [if_neg (by omega), if_neg h]

/-- The kernel positions of an output element that meet the input, in the order in which they are accumulated. -/
def positions (d : Dims) (oh ow : Nat) : List (Nat × Nat × Nat) :=
  (List.range d.IC ×ˢ List.range d.K ×ˢ List.range d.K).filter fun p =>
    d.P ≤ oh * d.S + p.2.1 && oh * d.S + p.2.1 < d.H + d.P && d.P ≤ ow * d.S + p.2.2 && ow * d.S + p.2.2 < d.W + d.P

/-- A nest of counting loops is a fold over the product. -/
theorem forN_foldl {β : Type} (k : Nat) (f : Nat → β → β) (s : β) : forN k f s = (List.range k).foldl (fun s j => f j s) s := by
  induction k with
  | zero => rfl
  | succ k ih => rw [List.range_succ, List.foldl_append, ← ih]; rfl

theorem foldl_product {β γ δ : Type} (l : List β) (m : List γ) (f : δ → β → γ → δ) (s : δ) :
    (l ×ˢ m).foldl (fun s p => f s p.1 p.2) s = l.foldl (fun s a => m.foldl (fun s b => f s a b) s) s := by
  induction l generalizing s with
  | nil => rfl
  | cons a l ih =>
    rw [List.product_cons, List.foldl_append, List.foldl_map, ih]; rfl

theorem cell_eq (d : Dims) (N : Num α) (eq : α → α → Bool) (L : Layer α) (x : Nat → Nat → Nat → α) (oc oh ow : Nat) :
    cell d N eq L x oc oh ow = .ok ((positions d oh ow).foldl
      (fun s p => N.add s (N.mul ((L.at (.w oc p.1 p.2.1 p.2.2)).get eq) (x p.1 (oh * d.S + p.2.1 - d.P) (ow * d.S + p.2.2 - d.P))))
      ((L.at (.b oc)).get eq)) := by
  unfold cell positions
  rw [List.foldl_filter]
  have hl : ∀ (l : List (Nat × Nat × Nat)) (s : α), (∀ p ∈ l, p.1 < d.IC) →
      l.foldl (fun (s : Outcome α) p => s.bind (tap d N eq L x oc oh ow p.1 p.2.1 p.2.2)) (.ok s) =
      .ok (l.foldl (fun s p => if (d.P ≤ oh * d.S + p.2.1 && oh * d.S + p.2.1 < d.H + d.P && d.P ≤ ow * d.S + p.2.2 && ow * d.S + p.2.2 < d.W + d.P) = true
        then N.add s (N.mul ((L.at (.w oc p.1 p.2.1 p.2.2)).get eq) (x p.1 (oh * d.S + p.2.1 - d.P) (ow * d.S + p.2.2 - d.P))) else s) s) := by
    intro l
    induction l with
    | nil => intro s _; rfl
    | cons p l ih =>
      intro s hp
      rw [List.foldl_cons, List.foldl_cons, bind_ok, tap_eq d N eq L x oc oh ow _ _ _ s (hp p (List.mem_cons_self ..)),
        ih _ (fun q hq => hp q (List.mem_cons_of_mem _ hq))]
      congr 2
      simp only [Bool.and_eq_true, decide_eq_true_eq, and_assoc]
  rw [← hl _ _ (by
    intro p hp
    have := List.mem_product.1 (show (p.1, p.2) ∈ _ from hp)
    exact List.mem_range.1 this.1)]
  rw [foldl_product (List.range d.IC) (List.range d.K ×ˢ List.range d.K)
    (fun (s : Outcome α) a b => s.bind (tap d N eq L x oc oh ow a b.1 b.2)), forN_foldl]
  congr 1
  funext s ic
  rw [foldl_product (List.range d.K) (List.range d.K) (fun (s : Outcome α) a b => s.bind (tap d N eq L x oc oh ow ic a b)), forN_foldl]
  congr 1
  funext s kh
  rw [forN_foldl]

/-- Filling a box of an array, row by row. -/
theorem fill (A B C : Nat) (g : Nat → Nat → Nat → α) (o : Nat → Nat → Nat → α) :
    forN A (fun i o => forN B (fun j o => forN C (fun k (o : Outcome (Nat → Nat → Nat → α)) =>
      o.bind fun o => .ok (upd3 o i j k (g i j k))) o) o) (.ok o) =
    .ok (fun i j k => if i < A ∧ j < B ∧ k < C then g i j k else o i j k) := by
  have h1 : ∀ (i j n : Nat) (o : Nat → Nat → Nat → α), forN n (fun k (o : Outcome (Nat → Nat → Nat → α)) =>
      o.bind fun o => .ok (upd3 o i j k (g i j k))) (.ok o) = .ok (fun a b c => if a = i ∧ b = j ∧ c < n then g a b c else o a b c) := by
    intro i j n o
    induction n with
    | zero => simp [forN]
    | succ n ih =>
      show Outcome.bind (forN n _ _) _ = _
      rw [ih, bind_ok]
      congr 1; funext a b c
      unfold upd3
      dsimp only
      by_cases h : a = i ∧ b = j ∧ c = n
      · obtain ⟨rfl, rfl, rfl⟩ := h; rw [if_pos ⟨rfl, rfl, rfl⟩, if_pos (by omega)]
      · rw [if_neg h]
        by_cases h2 : a = i ∧ b = j ∧ c < n
        · rw [if_pos h2, if_pos (by omega)]
        · rw [if_neg h2, if_neg (by omega)]
  have h2 : ∀ (i n : Nat) (o : Nat → Nat → Nat → α), forN n (fun j o => forN C (fun k (o : Outcome (Nat → Nat → Nat → α)) =>
      o.bind fun o => .ok (upd3 o i j k (g i j k))) o) (.ok o) = .ok (fun a b c => if a = i ∧ b < n ∧ c < C then g a b c else o a b c) := by
    intro i n o
    induction n with
    | zero => simp [forN]
    | succ n ih =>
      show forN C _ (forN n _ _) = _
      rw [ih, h1]
      congr 1; funext a b c
      by_cases h : a = i ∧ b = n ∧ c < C
      · rw [if_pos h, if_pos (by omega)]
      · rw [if_neg h]
        by_cases h2 : a = i ∧ b < n ∧ c < C
        · rw [if_pos h2, if_pos (by omega)]
        · rw [if_neg h2, if_neg (by omega)]
  induction A with
  | zero => simp [forN]
  | succ n ih =>
    show forN B _ (forN n _ _) = _
    rw [ih, h2]
    congr 1; funext a b c
    by_cases h : a = n ∧ b < B ∧ c < C
    · rw [if_pos h, if_pos (by omega)]
    · rw [if_neg h]
      by_cases h2 : a < n ∧ b < B ∧ c < C
      · rw [if_pos h2, if_pos (by omega)]
      · rw [if_neg h2, if_neg (by omega)]

theorem zeroOut_eq (d : Dims) (N : Num α) (o : Nat → Nat → Nat → α) :
    zeroOut d N o = fun i j k => if i < d.OC ∧ j < d.out d.H ∧ k < d.out d.W then N.zero else o i j k := by
  have hk : ∀ (i j n : Nat) (o : Nat → Nat → Nat → α), forN n (fun k o => upd3 o i j k N.zero) o =
      fun a b c => if a = i ∧ b = j ∧ c < n then N.zero else o a b c := by
    intro i j n o
    induction n with
    | zero => simp [forN]
    | succ n ih =>
      show upd3 (forN n _ _) i j n N.zero = _
      rw [ih]; funext a b c; unfold upd3; dsimp only
      by_cases h : a = i ∧ b = j ∧ c = n
      · rw [if_pos h, if_pos (by omega)]
      · rw [if_neg h]
        by_cases h2 : a = i ∧ b = j ∧ c < n
        · rw [if_pos h2, if_pos (by omega)]
        · rw [if_neg h2, if_neg (by omega)]
  have hj : ∀ (i n m : Nat) (o : Nat → Nat → Nat → α), forN n (fun j o => forN m (fun k o => upd3 o i j k N.zero) o) o =
      fun a b c => if a = i ∧ b < n ∧ c < m then N.zero else o a b c := by
    intro i n m o
    induction n with
    | zero => simp [forN]
    | succ n ih =>
      show forN m _ (forN n _ _) = _
      rw [ih, hk]; funext a b c
      by_cases h : a = i ∧ b = n ∧ c < m
      · rw [if_pos h, if_pos (by omega)]
      · rw [if_neg h]
        by_cases h2 : a = i ∧ b < n ∧ c < m
        · rw [if_pos h2, if_pos (by omega)]
        · rw [if_neg h2, if_neg (by omega)]
  unfold zeroOut
  induction d.OC with
  | zero => simp [forN]
  | succ n ih =>
    show forN _ _ (forN n _ _) = _
    rw [ih, hj]; funext a b c
    by_cases h : a = n ∧ b < d.out d.H ∧ c < d.out d.W
    · rw [if_pos h, if_pos (by omega)]
    · rw [if_neg h]
      by_cases h2 : a < n ∧ b < d.out d.H ∧ c < d.out d.W
      · rw [if_pos h2, if_pos (by omega)]
      · rw [if_neg h2, if_neg (by omega)]

/-- For every arithmetic (in particular fixed point): `forward` never reads outside the input, gives every output element the bias plus the
products of the kernel positions that meet the input, accumulated in order, and touches nothing else. -/
theorem C96_forward_any (d : Dims) (N : Num α) (eq : α → α → Bool) (L : Layer α) (x out : Nat → Nat → Nat → α) :
    ∃ o, forward d N eq L x out = .ok o ∧
      (∀ oc oh ow, oc < d.OC → oh < d.out d.H → ow < d.out d.W → o oc oh ow = (positions d oh ow).foldl
        (fun s p => N.add s (N.mul ((L.at (.w oc p.1 p.2.1 p.2.2)).get eq) (x p.1 (oh * d.S + p.2.1 - d.P) (ow * d.S + p.2.2 - d.P))))
        ((L.at (.b oc)).get eq)) ∧
      ∀ oc oh ow, ¬(oc < d.OC ∧ oh < d.out d.H ∧ ow < d.out d.W) → o oc oh ow = out oc oh ow := by
  have h := fill d.OC (d.out d.H) (d.out d.W) (fun oc oh ow => (positions d oh ow).foldl
        (fun s p => N.add s (N.mul ((L.at (.w oc p.1 p.2.1 p.2.2)).get eq) (x p.1 (oh * d.S + p.2.1 - d.P) (ow * d.S + p.2.2 - d.P))))
        ((L.at (.b oc)).get eq)) (zeroOut d N out)
  have h' : forward d N eq L x out = _ := Eq.trans (by unfold forward; simp only [cell_eq, bind_ok]) h
  refine ⟨_, h', ?_, ?_⟩
  · intro oc oh ow h1 h2 h3
    rw [if_pos ⟨h1, h2, h3⟩]
  · intro oc oh ow h1
    rw [if_neg h1, zeroOut_eq]
    dsimp only
    rw [if_neg h1]

theorem foldl_add_sum {R β : Type} [AddCommMonoid R] (l : List β) (f : β → R) (s : R) : l.foldl (fun s p => s + f p) s = s + (l.map f).sum := by
  induction l generalizing s with
  | nil => simp
  | cons a l ih => rw [List.foldl_cons, ih, List.map_cons, List.sum_cons, add_assoc]

theorem sum_product {R β γ : Type} [AddCommMonoid R] (l : List β) (m : List γ) (f : β × γ → R) :
    ((l ×ˢ m).map f).sum = (l.map fun a => (m.map fun b => f (a, b)).sum).sum := by
  induction l with
  | nil => rfl
  | cons a l ih => rw [List.product_cons, List.map_append, List.sum_append, ih, List.map_map, List.map_cons, List.sum_cons]; rfl

theorem sum_filter {R β : Type} [AddCommMonoid R] (l : List β) (q : β → Bool) (f : β → R) :
    ((l.filter q).map f).sum = (l.map fun a => if q a = true then f a else 0).sum := by
  induction l with
  | nil => rfl
  | cons a l ih =>
    rw [List.filter_cons, List.map_cons, List.sum_cons, ← ih]
    by_cases h : q a = true
    · rw [if_pos h, if_pos h, List.map_cons, List.sum_cons]
    · rw [if_neg h, if_neg h, zero_add]

/-- For exact arithmetic the layer computes the zero-padded convolution of the voted parameters. -/
theorem C96_forward {R : Type} [Semiring R] (d : Dims) (eq : R → R → Bool) (L : Layer R) (x out : Nat → Nat → Nat → R) :
    ∃ o, forward d (exact R) eq L x out = .ok o ∧
      ∀ oc oh ow, oc < d.OC → oh < d.out d.H → ow < d.out d.W → o oc oh ow = conv d (fun p => (L.at p).get eq) x oc oh ow := by
  obtain ⟨o, h1, h2, -⟩ := C96_forward_any d (exact R) eq L x out
  refine ⟨o, h1, ?_⟩
  intro oc oh ow a b c
  rw [h2 oc oh ow a b c]
  unfold exact
  dsimp only
  rw [foldl_add_sum (f := fun (p : Nat × Nat × Nat) => (L.at (.w oc p.1 p.2.1 p.2.2)).get eq * x p.1 (oh * d.S + p.2.1 - d.P) (ow * d.S + p.2.2 - d.P))]
  unfold conv positions
  congr 1
  rw [sum_filter, sum_product]
  simp only [sum_product]
  have hs : ∀ (n : Nat) (f : Nat → R), ((List.range n).map f).sum = ∑ i ∈ Finset.range n, f i := by
    intro n f; induction n with
    | zero => rfl
    | succ n ih => rw [List.range_succ, List.map_append, List.sum_append, ih, Finset.sum_range_succ]; simp
  rw [hs]
  refine Finset.sum_congr rfl fun ic _ => ?_
  rw [hs]
  refine Finset.sum_congr rfl fun kh _ => ?_
  rw [hs]
  refine Finset.sum_congr rfl fun kw _ => ?_
  unfold padded
  simp only [Bool.and_eq_true, decide_eq_true_eq, and_assoc]
  split
  · rfl
  · rw [mul_zero]

/-- Non-vacuity: a 2x2 input of ones, a 3x3 kernel of ones and padding 1 give 4 + bias everywhere. -/
example : ∃ o, forward ⟨1, 1, 2, 2, 3, 1, 1⟩ (exact ℤ) (· == ·) ⟨fun _ _ _ _ => Tri.set 1, fun _ => Tri.set 5⟩ (fun _ _ _ => 1) (fun _ _ _ => 77) = .ok o ∧
    o 0 0 0 = 9 ∧ o 0 1 1 = 9 ∧ o 0 2 0 = 77 := by
  refine ⟨_, rfl, ?_, ?_, ?_⟩ <;> decide +kernel

/-- The windows of all output positions lie inside the padded input (so that every element outside the input is padding). -/
theorem C96_windows_inside (d : Dims) (n o k : Nat) (hS : 1 ≤ d.S) (hS' : d.S < 2 ^ 64) (hK : d.K ≤ n + 2 * d.P)
    (hn : n + 2 * d.P + 1 < 2 ^ 64) (ho : o < d.out n) (hk : k < d.K) : o * d.S + k < n + 2 * d.P := by
  have := (C96_output_size d n o hS hS' hK hn).1 ho
  omega

example : (2 : Nat) < (⟨1, 1, 5, 5, 3, 2, 1⟩ : Dims).out 5 := by decide +kernel

/-! ### C97: parameters survive -/

theorem get_set (eq : α → α → Bool) (h : IsEq eq) (v : α) : (Tri.set v).get eq = v := by
  simp [Tri.set, Tri.get, (h v v).2 rfl]

theorem get_strike (eq : α → α → Bool) (h : IsEq eq) (v x : α) (k : Fin 3) : ((Tri.set v).strike k x).get eq = v := by
  have hr : eq v v = true := (h v v).2 rfl
  fin_cases k
  · by_cases e : eq x v = true
    · have := (h x v).1 e
      subst this
      simp [Tri.strike, Tri.set, Tri.get, hr]
    · simp [Tri.strike, Tri.set, Tri.get, hr, e]
  · simp [Tri.strike, Tri.set, Tri.get, hr]
  · simp [Tri.strike, Tri.set, Tri.get, hr]

/-- The copies agree with what is known of the parameter. -/
def Agrees (t : Tri α) (s : α × Damage) : Prop :=
  match s.2 with
  | .none => t = Tri.set s.1
  | .one k => ∃ x, t = (Tri.set s.1).strike k x
  | .lost => True

theorem agrees_get (eq : α → α → Bool) (h : IsEq eq) (t : Tri α) (s : α × Damage) (ha : Agrees t s) (hl : s.2 ≠ .lost) : t.get eq = s.1 := by
  obtain ⟨v, dm⟩ := s
  cases dm with
  | none => simp only [Agrees] at ha; rw [ha]; exact get_set eq h v
  | one k => obtain ⟨x, rfl⟩ := ha; exact get_strike eq h v x k
  | lost => exact absurd rfl hl

theorem agrees_strike (t : Tri α) (s : α × Damage) (ha : Agrees t s) (k : Fin 3) (x : α) : Agrees (t.strike k x) (s.1, s.2.hit k) := by
  obtain ⟨v, dm⟩ := s
  cases dm with
  | none => simp only [Agrees] at ha; subst ha; exact ⟨x, rfl⟩
  | one j =>
    obtain ⟨y, rfl⟩ := ha
    by_cases e : j = k
    · subst e
      simp only [Agrees, Damage.hit, if_pos]
      refine ⟨x, ?_⟩
      fin_cases j <;> rfl
    · simp only [Agrees, Damage.hit, if_neg e]
  | lost => trivial

theorem agrees_repair (eq : α → α → Bool) (h : IsEq eq) (t : Tri α) (s : α × Damage) (ha : Agrees t s) : Agrees (t.repair eq) (s.1, s.2.fix) := by
  by_cases hl : s.2 = .lost
  · simp only [Agrees, hl, Damage.fix]
  · have hg := agrees_get eq h t s ha hl
    have : s.2.fix = .none := by cases hs : s.2 <;> simp_all [Damage.fix]
    simp only [Agrees, this, Tri.repair, hg, Tri.set]

theorem at_updW (L : Layer α) (oc ic kh kw : Nat) (t : Tri α) (p : Param) :
    (L.updW oc ic kh kw t).at p = if Param.w oc ic kh kw = p then t else L.at p := by
  cases p with
  | w a b c e =>
    show (if a = oc ∧ b = ic ∧ c = kh ∧ e = kw then t else L.w a b c e) = _
    by_cases h : a = oc ∧ b = ic ∧ c = kh ∧ e = kw
    · obtain ⟨rfl, rfl, rfl, rfl⟩ := h; simp
    · rw [if_neg h, if_neg]
      · rfl
      · intro e'; injection e' with h1 h2 h3 h4; exact h ⟨h1.symm, h2.symm, h3.symm, h4.symm⟩
  | b a => rw [if_neg (by intro h; cases h)]; rfl

theorem at_updB (L : Layer α) (oc : Nat) (t : Tri α) (p : Param) :
    (L.updB oc t).at p = if Param.b oc = p then t else L.at p := by
  cases p with
  | w a b c e => rw [if_neg (by intro h; cases h)]; rfl
  | b a =>
    show (if a = oc then t else L.b a) = _
    by_cases h : a = oc
    · subst h; simp
    · rw [if_neg h, if_neg]
      · rfl
      · intro e; injection e with e; exact h e.symm

theorem step_agrees (d : Dims) (eq : α → α → Bool) (h : IsEq eq) (L L' : Layer α) (o : Op α) (hs : L.step d eq o = .ok L') (p : Param)
    (hp : InRange d p) (s : α × Damage) (ha : Agrees (L.at p) s) : Agrees (L'.at p) (track p s o) := by
  cases o with
  | set q v =>
    have hq : ∃ t, L'.at p = if q = p then t else L.at p := by
      cases q with
      | w oc ic kh kw =>
        simp only [Layer.step, Layer.setWeight] at hs
        split at hs
        · injection hs with hs; subst hs; exact ⟨_, at_updW ..⟩
        · cases hs
      | b oc =>
        simp only [Layer.step, Layer.setBias] at hs
        split at hs
        · injection hs with hs; subst hs; exact ⟨_, at_updB ..⟩
        · cases hs
    have hq2 : q = p → L'.at p = Tri.set v := by
      rintro rfl
      cases q with
      | w oc ic kh kw =>
        simp only [Layer.step, Layer.setWeight] at hs
        split at hs
        · injection hs with hs; subst hs; rw [at_updW, if_pos rfl]
        · cases hs
      | b oc =>
        simp only [Layer.step, Layer.setBias] at hs
        split at hs
        · injection hs with hs; subst hs; rw [at_updB, if_pos rfl]
        · cases hs
    by_cases e : q = p
    · simp only [track, if_pos e, Agrees]; exact hq2 e
    · obtain ⟨t, ht⟩ := hq
      rw [if_neg e] at ht
      simp only [track, if_neg e]; rw [ht]; exact ha
  | strike q k x =>
    have : L'.at p = if q = p then (L.at p).strike k x else L.at p := by
      cases q with
      | w oc ic kh kw =>
        simp only [Layer.step] at hs
        injection hs with hs; subst hs; rw [at_updW]
        split
        · rename_i e; subst e; rfl
        · rfl
      | b oc =>
        simp only [Layer.step] at hs
        injection hs with hs; subst hs; rw [at_updB]
        split
        · rename_i e; subst e; rfl
        · rfl
    rw [this]
    by_cases e : q = p
    · simp only [track, if_pos e]; exact agrees_strike _ _ ha _ _
    · simp only [track, if_neg e]; exact ha
  | repair =>
    simp only [Layer.step, Layer.repair] at hs
    injection hs with hs; subst hs
    rw [all_at, if_pos hp]
    exact agrees_repair eq h _ _ ha

theorem run_agrees (d : Dims) (eq : α → α → Bool) (h : IsEq eq) (l : List (Op α)) : ∀ (L L' : Layer α), L.run d eq l = .ok L' →
    ∀ p, InRange d p → ∀ s, Agrees (L.at p) s → Agrees (L'.at p) (l.foldl (track p) s) := by
  induction l with
  | nil => intro L L' hr p _ s ha; simp only [Layer.run] at hr; injection hr with hr; subst hr; exact ha
  | cons o l ih =>
    intro L L' hr p hp s ha
    simp only [Layer.run] at hr
    cases hs : L.step d eq o with
    | ub => rw [hs] at hr; cases hr
    | ok M =>
      rw [hs] at hr
      exact ih M L' hr p hp _ (step_agrees d eq h L M o hs p hp s ha)

/-- For every history of updates, strikes and repairs of a constructed layer: a parameter of which at most one copy was struck since it was last set or
repaired is read as the value last set. -/
theorem C97_parameter (d : Dims) (N : Num α) (eq : α → α → Bool) (heq : IsEq eq) (raw : Layer α) (h : List (Op α)) (L : Layer α)
    (hr : (Layer.new d N raw).run d eq h = .ok L) (p : Param) (hp : InRange d p) (hd : (tracked N.zero p h).2 ≠ .lost) :
    (L.at p).get eq = (tracked N.zero p h).1 := by
  have h0 : Agrees ((Layer.new d N raw).at p) (N.zero, Damage.none) := by
    simp only [Layer.new, all_at, if_pos hp, Agrees]
  exact agrees_get eq heq _ _ (run_agrees d eq heq h _ _ hr p hp _ h0) hd

/-- End to end: as long as no parameter has two struck copies, the layer computes the convolution with the values last set. -/
theorem C97_forward {R : Type} [Semiring R] (d : Dims) (eq : R → R → Bool) (heq : IsEq eq) (raw : Layer R) (h : List (Op R)) (L : Layer R)
    (hr : (Layer.new d (exact R) raw).run d eq h = .ok L) (hd : ∀ p, InRange d p → (tracked 0 p h).2 ≠ .lost) (x out : Nat → Nat → Nat → R) :
    ∃ o, forward d (exact R) eq L x out = .ok o ∧
      ∀ oc oh ow, oc < d.OC → oh < d.out d.H → ow < d.out d.W → o oc oh ow = conv d (fun p => (tracked 0 p h).1) x oc oh ow := by
  obtain ⟨o, h1, h2⟩ := C96_forward d eq L x out
  refine ⟨o, h1, ?_⟩
  intro oc oh ow a b c
  rw [h2 oc oh ow a b c]
  have hv : ∀ p, InRange d p → (L.at p).get eq = (tracked 0 p h).1 := fun p hp => C97_parameter d (exact R) eq heq raw h L hr p hp (hd p hp)
  unfold conv
  dsimp only
  rw [hv (.b oc) a]
  congr 1
  refine Finset.sum_congr rfl fun ic h1 => Finset.sum_congr rfl fun kh h2 => Finset.sum_congr rfl fun kw h3 => ?_
  rw [hv (.w oc ic kh kw) ⟨a, Finset.mem_range.1 h1, Finset.mem_range.1 h2, Finset.mem_range.1 h3⟩]

/-- Histories are undefined only through an index outside the layer. -/
theorem C97_defined (d : Dims) (eq : α → α → Bool) (h : List (Op α)) (hh : ∀ p v, Op.set p v ∈ h → InRange d p) :
    ∀ L : Layer α, ∃ L', L.run d eq h = .ok L' := by
  induction h with
  | nil => intro L; exact ⟨L, rfl⟩
  | cons o l ih =>
    intro L
    have : ∃ M, L.step d eq o = .ok M := by
      cases o with
      | set q v =>
        have := hh q v (List.mem_cons_self ..)
        cases q with
        | w oc ic kh kw => exact ⟨_, by simp only [Layer.step, Layer.setWeight]; exact if_pos this⟩
        | b oc => exact ⟨_, by simp only [Layer.step, Layer.setBias]; exact if_pos this⟩
      | strike q k x => cases q <;> exact ⟨_, rfl⟩
      | repair => exact ⟨_, rfl⟩
    obtain ⟨M, hM⟩ := this
    obtain ⟨L', hL⟩ := ih (fun p v hp => hh p v (List.mem_cons_of_mem _ hp)) M
    exact ⟨L', by simp only [Layer.run]; rw [hM]; exact hL⟩

/-- Non-vacuity: two strikes at different copies of a weight, with a repair between them. -/
def demo : List (Op Nat) :=
  [.set (.w 0 0 1 0) 42, .strike (.w 0 0 1 0) 2 7, .strike (.w 0 0 1 0) 2 9, .repair, .strike (.w 0 0 1 0) 0 9, .set (.b 0) 3, .strike (.b 0) 1 0]

example : tracked 0 (.w 0 0 1 0) demo = (42, .one 0) ∧ tracked 0 (.b 0) demo = (3, .one 1) ∧ tracked 0 (.w 0 0 0 0) demo = (0, .none) := by decide

example (raw : Layer Nat) : ∃ L, (Layer.new ⟨1, 1, 4, 4, 2, 1, 0⟩ (exact Nat) raw).run ⟨1, 1, 4, 4, 2, 1, 0⟩ (· == ·) demo = .ok L ∧
    (L.at (.w 0 0 1 0)).get (· == ·) = 42 := by
  obtain ⟨L, hL⟩ := C97_defined ⟨1, 1, 4, 4, 2, 1, 0⟩ (fun a b : Nat => a == b) demo (by
    intro p v hp
    simp only [demo, List.mem_cons, reduceCtorEq, List.not_mem_nil, Op.set.injEq, or_false, false_or] at hp
    rcases hp with ⟨rfl, -⟩ | ⟨rfl, -⟩ <;> decide) (Layer.new ⟨1, 1, 4, 4, 2, 1, 0⟩ (exact Nat) raw)
  exact ⟨L, hL, C97_parameter _ _ _ (fun a b => by simp) raw demo L hL (.w 0 0 1 0) (by decide) (by decide)⟩

/-- Strikes at two copies are not survived, and the next repair makes the wrong value permanent: afterwards all copies agree on it. -/
theorem C97_two_copies_limit (eq : α → α → Bool) (heq : IsEq eq) (v x : α) :
    ((((Tri.set v).strike 0 x).strike 1 x).repair eq) = Tri.set x := by
  simp [Tri.repair, Tri.get, Tri.strike, Tri.set, (heq x x).2 rfl]

example : ((((Tri.set 5).strike 0 9).strike 1 9).repair (· == ·)) = Tri.set 9 := C97_two_copies_limit _ (fun a b => by simp) 5 9

/-- Three different copies: the first is returned, whether or not it is the intact one, and nothing is reported. -/
theorem C97_no_majority_limit (eq : α → α → Bool) (heq : IsEq eq) (v x y : α) (h1 : x ≠ y) (h2 : x ≠ v) (h3 : y ≠ v) :
    (((Tri.set v).strike 0 x).strike 1 y).get eq = x ∧ (((Tri.set v).strike 1 x).strike 2 y).get eq = v := by
  have e1 : eq x y = false := Bool.eq_false_iff.2 fun e => h1 ((heq _ _).1 e)
  have e2 : eq x v = false := Bool.eq_false_iff.2 fun e => h2 ((heq _ _).1 e)
  have e3 : eq y v = false := Bool.eq_false_iff.2 fun e => h3 ((heq _ _).1 e)
  have e4 : eq v x = false := Bool.eq_false_iff.2 fun e => h2 ((heq _ _).1 e).symm
  have e5 : eq v y = false := Bool.eq_false_iff.2 fun e => h3 ((heq _ _).1 e).symm
  simp [Tri.get, Tri.strike, Tri.set, e1, e2, e3, e4, e5]

example : (((Tri.set 5).strike 0 9).strike 1 8).get (· == ·) = 9 := (C97_no_majority_limit _ (fun a b => by simp) 5 9 8 (by decide) (by decide) (by decide)).1

/-- Setting a parameter outside the layer aborts or is undefined. -/
theorem C97_bounds (d : Dims) (L : Layer α) (p : Param) (v : α) (eq : α → α → Bool) :
    L.step d eq (.set p v) = .ub ↔ ¬ InRange d p := by
  cases p with
  | w oc ic kh kw =>
    simp only [Layer.step, Layer.setWeight, InRange]
    split <;> simp_all
  | b oc =>
    simp only [Layer.step, Layer.setBias, InRange]
    split <;> simp_all

end Verif.Props.ConvP
