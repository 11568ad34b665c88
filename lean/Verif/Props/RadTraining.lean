import Verif.Model.RadTraining
import Mathlib.Data.List.Forall2
import Mathlib.Data.List.Count
/-!
C131: injection of bit flips during training; C132: the criticality map.
-/
namespace Verif.RadTraining
open Verif.AutoSearch (Rng maxIdx)
open Verif.ArchTester (Env)
open Verif.FaultTools (flipBit)

/-! ### Specification -/

/-- Number of bits in which two words differ. -/
def bitDiff (a b : Word) : ℕ := (List.range 32).countP fun i => a.getLsbD i != b.getLsbD i

/-- All parameters of a list of layers. -/
def params (ls : List Layer) : List Word := ls.flatMap fun l => l.weights.flatten ++ l.biases

/-- Same numbers of layers, rows, weights and biases. -/
def SameShape (a b : List Layer) : Prop := a.map (fun l => (l.weights.map List.length, l.biases.length)) = b.map fun l => (l.weights.map List.length, l.biases.length)

/-- Draws that are all `u`. -/
def Const (g : Rng) (u : ℝ) : Prop := ∀ i, g.seq i = u

/-- The criticality that counts for a weight: that of the map, if targeting is on and the map has the weight. -/
noncomputable def weightCrit (t : Trainer) (l i j : ℕ) : ℝ := if t.target then (t.crit.bind fun m => at3 m l i j).getD 0 else 0

/-- Writing to the layers of a network and reading them back. -/
structure Lawful {N : Type} (nw : Network N) : Prop where
  layers_set : ∀ n l, nw.layers (nw.set n l) = l
  set_set : ∀ n a b, nw.set (nw.set n a) b = nw.set n b
  set_layers : ∀ n, nw.set n (nw.layers n) = n
  in_set : ∀ n l, nw.inSize (nw.set n l) = nw.inSize n
  out_set : ∀ n l, nw.outSize (nw.set n l) = nw.outSize n

theorem lib_lawful : Lawful lib := ⟨fun _ _ => rfl, fun _ _ _ => rfl, fun _ => rfl, fun _ _ => rfl, fun _ _ => rfl⟩

/-! ### Lemmas -/

theorem flip_diff (w : Word) {k : ℕ} (hk : k < 32) : bitDiff w (flipBit w k) = 1 := by
  have hf : flipBit w (k : ℤ) = w ^^^ (1#32 <<< k) := by
    unfold flipBit
    rw [if_neg (by omega)]
    rfl
  unfold bitDiff
  have : ∀ i ∈ List.range 32, (w.getLsbD i != (flipBit w (k : ℤ)).getLsbD i) = (i == k) := by
    intro i hi
    have hi : i < 32 := by simpa using hi
    rw [hf, BitVec.getLsbD_xor, BitVec.getLsbD_shiftLeft]
    by_cases hik : i = k
    · subst hik; simp [hi]
    · rcases lt_or_gt_of_ne hik with h | h
      · simp [h, hik]
      · have h1 : ¬ i < k := by omega
        have h2 : ¬ i - k = 0 := by omega
        simp [h1, hik, hi, BitVec.getLsbD_one, h2]
  rw [List.countP_congr (q := fun i => i == k) (fun i hi => by rw [this i hi])]
  exact List.count_eq_one_of_mem List.nodup_range (by simpa using hk)

theorem diff_self (w : Word) : bitDiff w w = 0 := by simp [bitDiff]

theorem bit_lt {u : ℝ} (h0 : 0 ≤ u) (h1 : u < 1) : ⌊u * 32⌋₊ < 32 := by
  rw [Nat.floor_lt (by positivity)]
  push_cast
  linarith

/-- A parameter after injection. -/
def One (a b : Word) : Prop := b = a ∨ ∃ k < 32, b = flipBit a (k : ℕ)

/-- Lists of parameters before and after `k` flips. -/
def Rel (k : ℕ) (a b : List Word) : Prop := List.Forall₂ One a b ∧ (List.zipWith bitDiff a b).sum = k

theorem Rel.append {k k' : ℕ} {a b a' b' : List Word} (h : Rel k a b) (h' : Rel k' a' b') : Rel (k + k') (a ++ a') (b ++ b') := by
  refine ⟨List.rel_append h.1 h'.1, ?_⟩
  rw [List.zipWith_append h.1.length_eq, List.sum_append, h.2, h'.2]

theorem hit_rel (p : ℝ) (w : Word) (g : Rng) : One w (hit p w g).1 ∧ bitDiff w (hit p w g).1 = (hit p w g).2.2 := by
  unfold hit
  split
  · exact ⟨Or.inr ⟨_, bit_lt (g.next.lo 0) (g.next.hi 0), rfl⟩, flip_diff w (bit_lt (g.next.lo 0) (g.next.hi 0))⟩
  · exact ⟨Or.inl rfl, diff_self w⟩

theorem injList_rel (p : ℕ → ℝ) : ∀ (ws : List Word) (j : ℕ) (g : Rng), Rel (injList p j ws g).2.2 ws (injList p j ws g).1
  | [], _, _ => ⟨.nil, rfl⟩
  | w :: t, j, g => by
    have h1 := hit_rel (p j) w g
    have h2 := injList_rel p t (j + 1) (hit (p j) w g).2.1
    refine ⟨.cons h1.1 h2.1, ?_⟩
    simp only [injList, List.zipWith_cons_cons, List.sum_cons, h1.2, h2.2]

theorem injRows_rel (p : ℕ → ℕ → ℝ) : ∀ (rs : List (List Word)) (i : ℕ) (g : Rng), Rel (injRows p i rs g).2.2 rs.flatten (injRows p i rs g).1.flatten ∧ (injRows p i rs g).1.map List.length = rs.map List.length
  | [], _, _ => ⟨⟨.nil, rfl⟩, rfl⟩
  | r :: t, i, g => by
    have h1 := injList_rel (p i) r 0 g
    have h2 := injRows_rel p t (i + 1) (injList (p i) 0 r g).2.1
    refine ⟨?_, ?_⟩
    · simp only [injRows, List.flatten_cons]; exact h1.append h2.1
    · simp only [injRows, List.map_cons, h2.2, h1.1.length_eq]

theorem injLayers_rel (p : ℕ → ℕ → ℕ → ℝ) (b : ℝ) : ∀ (ls : List Layer) (k : ℕ) (g : Rng), Rel (injLayers p b k ls g).2.2 (params ls) (params (injLayers p b k ls g).1) ∧ SameShape ls (injLayers p b k ls g).1
  | [], _, _ => ⟨⟨.nil, rfl⟩, rfl⟩
  | l :: t, k, g => by
    have h1 := injRows_rel (p k) l.weights 0 g
    have h2 := injList_rel (fun _ => b) l.biases 0 (injRows (p k) 0 l.weights g).2.1
    have h3 := injLayers_rel p b t (k + 1) (injList (fun _ => b) 0 l.biases (injRows (p k) 0 l.weights g).2.1).2.1
    refine ⟨?_, ?_⟩
    · simp only [injLayers, params, List.flatMap_cons]
      exact (h1.1.append h2).append h3.1
    · have h4 := h3.2
      unfold SameShape at h4 ⊢
      simp only [injLayers, List.map_cons, h1.2, h2.1.length_eq, h4]

/-- One parameter when all draws are `u`. -/
noncomputable def fate (u p : ℝ) (w : Word) : Word := if u < p then flipBit w ⌊u * 32⌋₊ else w

theorem const_next {g : Rng} {u : ℝ} (h : Const g u) : Const g.next u := fun i => h (i + 1)

theorem hit_const {g : Rng} {u : ℝ} (h : Const g u) (p : ℝ) (w : Word) : (hit p w g).1 = fate u p w ∧ Const (hit p w g).2.1 u := by
  unfold hit fate
  rw [h 0, const_next h 0]
  split
  · exact ⟨rfl, const_next (const_next h)⟩
  · exact ⟨rfl, const_next h⟩

theorem injList_const {u : ℝ} (p : ℕ → ℝ) : ∀ (ws : List Word) (j : ℕ) {g : Rng}, Const g u → (∀ k, (injList p j ws g).1[k]? = (ws[k]?).map (fate u (p (j + k)))) ∧ Const (injList p j ws g).2.1 u
  | [], _, _, h => ⟨fun k => by simp [injList], h⟩
  | w :: t, j, g, h => by
    obtain ⟨h1, h2⟩ := hit_const h (p j) w
    obtain ⟨h3, h4⟩ := injList_const p t (j + 1) h2
    refine ⟨fun k => ?_, h4⟩
    cases k with
    | zero => simp [injList, h1]
    | succ k => simp only [injList, List.getElem?_cons_succ, h3 k]; rw [show j + 1 + k = j + (k + 1) by omega]

theorem injRows_const {u : ℝ} (p : ℕ → ℕ → ℝ) : ∀ (rs : List (List Word)) (i : ℕ) {g : Rng}, Const g u →
    (∀ k j : ℕ, ((injRows p i rs g).1[k]?).bind (fun (r : List Word) => r[j]?) = (rs[k]?).bind (fun (r : List Word) => (r[j]?).map (fate u (p (i + k) j)))) ∧ Const (injRows p i rs g).2.1 u
  | [], _, _, h => ⟨fun k j => by simp [injRows], h⟩
  | r :: t, i, g, h => by
    obtain ⟨h1, h2⟩ := injList_const (p i) r 0 h
    obtain ⟨h3, h4⟩ := injRows_const p t (i + 1) h2
    refine ⟨fun k j => ?_, h4⟩
    cases k with
    | zero => simp [injRows, h1]
    | succ k => simp only [injRows, List.getElem?_cons_succ, h3 k]; rw [show i + 1 + k = i + (k + 1) by omega]

theorem injLayers_const {u : ℝ} (p : ℕ → ℕ → ℕ → ℝ) (b : ℝ) : ∀ (ls : List Layer) (k : ℕ) {g : Rng}, Const g u →
    ∀ l : ℕ, (∀ i j : ℕ, (((injLayers p b k ls g).1[l]?).bind fun (a : Layer) => (a.weights[i]?).bind fun (r : List Word) => r[j]?) = (ls[l]?).bind fun (a : Layer) => (a.weights[i]?).bind fun (r : List Word) => (r[j]?).map (fate u (p (k + l) i j))) ∧
      ∀ j : ℕ, (((injLayers p b k ls g).1[l]?).bind fun (a : Layer) => a.biases[j]?) = (ls[l]?).bind fun (a : Layer) => (a.biases[j]?).map (fate u b)
  | [], _, _, h => fun l => ⟨fun i j => by simp [injLayers], fun j => by simp [injLayers]⟩
  | a :: t, k, g, h => by
    obtain ⟨h1, h2⟩ := injRows_const (p k) a.weights 0 h
    obtain ⟨h3, h4⟩ := injList_const (fun _ => b) a.biases 0 h2
    have h5 := injLayers_const p b t (k + 1) h4
    intro l
    cases l with
    | zero =>
      refine ⟨fun i j => ?_, fun j => ?_⟩
      · simp only [injLayers, List.getElem?_cons_zero, Option.bind_some, h1 i j, Nat.zero_add, Nat.add_zero]
      · simp only [injLayers, List.getElem?_cons_zero, Option.bind_some, h3 j]
    | succ l =>
      obtain ⟨h6, h7⟩ := h5 l
      refine ⟨fun i j => ?_, fun j => ?_⟩
      · simp only [injLayers, List.getElem?_cons_succ, h6 i j]; rw [show k + 1 + l = k + (l + 1) by omega]
      · simp only [injLayers, List.getElem?_cons_succ, h7 j]

theorem weightProb_eq (t : Trainer) (l i j : ℕ) : t.weightProb l i j = t.prob * factor t.env * (1 + 5 * weightCrit t l i j) := by
  unfold Trainer.weightProb weightCrit
  cases t.target with
  | false => simp
  | true =>
    cases hc : t.crit with
    | none => simp
    | some m => cases h : at3 m l i j <;> simp [h]

theorem at3_weights (ls : List Layer) (l i j : ℕ) : at3 (ls.map Layer.weights) l i j = (ls[l]?).bind fun a => (a.weights[i]?).bind fun r => r[j]? := by
  unfold at3
  rw [List.getElem?_map, Option.bind_map]
  rfl

/-! ### C131 -/

/-- C131, injection: for every stream of draws the shape of the network is kept, every weight and bias is as before or has one bit flipped, and the counter grows by exactly the number of bits that differ; nothing else of the trainer changes. -/
theorem C131_flips (t : Trainer) (ls : List Layer) (g : Rng) : ∃ k ls' g', t.inject ls g = ({ t with stats := { t.stats with flips := t.stats.flips + k } }, ls', g') ∧ SameShape ls ls' ∧
    List.Forall₂ (fun a b => b = a ∨ ∃ i < 32, b = flipBit a (i : ℕ)) (params ls) (params ls') ∧ (List.zipWith bitDiff (params ls) (params ls')).sum = k := by
  obtain ⟨h1, h2⟩ := injLayers_rel t.weightProb (t.prob * factor t.env * (1 / 2)) ls 0 g
  exact ⟨_, _, _, rfl, h2, h1.1, h1.2⟩

/-- C131, rates: if all draws are `u`, a weight is flipped exactly if `u` is below the probability times the environment's factor times 1 + 5 · criticality, a bias exactly if it is below half the probability times the factor. -/
theorem C131_rates (t : Trainer) (ls : List Layer) {g : Rng} {u : ℝ} (h : Const g u) (l i j : ℕ) :
    at3 ((t.inject ls g).2.1.map Layer.weights) l i j = (at3 (ls.map Layer.weights) l i j).map (fun w => if u < t.prob * factor t.env * (1 + 5 * weightCrit t l i j) then flipBit w ⌊u * 32⌋₊ else w) ∧
      (((t.inject ls g).2.1[l]?).bind fun a => a.biases[j]?) = ((ls[l]?).bind fun a => a.biases[j]?).map (fun w => if u < t.prob * factor t.env / 2 then flipBit w ⌊u * 32⌋₊ else w) := by
  obtain ⟨h1, h2⟩ := injLayers_const t.weightProb (t.prob * factor t.env * (1 / 2)) ls 0 h l
  constructor
  · rw [at3_weights, at3_weights]
    refine (h1 i j).trans ?_
    rw [Nat.zero_add, weightProb_eq]
    cases ls[l]? with
    | none => rfl
    | some a => cases h3 : a.weights[i]? <;> simp [h3] <;> rfl
  · refine (h2 j).trans ?_
    rw [mul_one_div]
    cases ls[l]? with
    | none => rfl
    | some a => simp; rfl

theorem injList_never {p : ℕ → ℝ} (hp : ∀ j, p j ≤ 0) : ∀ (ws : List Word) (j : ℕ) (g : Rng), (injList p j ws g).1 = ws ∧ (injList p j ws g).2.2 = 0
  | [], _, _ => ⟨rfl, rfl⟩
  | w :: t, j, g => by
    have hn : ¬ g.seq 0 < p j := not_lt.mpr ((hp j).trans (g.lo 0))
    obtain ⟨h1, h2⟩ := injList_never hp t (j + 1) g.next
    simp only [injList, hit, if_neg hn, h1, h2, and_self]

theorem injRows_never {p : ℕ → ℕ → ℝ} (hp : ∀ i j, p i j ≤ 0) : ∀ (rs : List (List Word)) (i : ℕ) (g : Rng), (injRows p i rs g).1 = rs ∧ (injRows p i rs g).2.2 = 0
  | [], _, _ => ⟨rfl, rfl⟩
  | r :: t, i, g => by
    obtain ⟨h1, h2⟩ := injList_never (hp i) r 0 g
    obtain ⟨h3, h4⟩ := injRows_never hp t (i + 1) (injList (p i) 0 r g).2.1
    simp only [injRows, h1, h2, h3, h4, and_self]

theorem injLayers_never {p : ℕ → ℕ → ℕ → ℝ} {b : ℝ} (hp : ∀ l i j, p l i j ≤ 0) (hb : b ≤ 0) : ∀ (ls : List Layer) (k : ℕ) (g : Rng), (injLayers p b k ls g).1 = ls ∧ (injLayers p b k ls g).2.2 = 0
  | [], _, _ => ⟨rfl, rfl⟩
  | a :: t, k, g => by
    obtain ⟨h1, h2⟩ := injRows_never (hp k) a.weights 0 g
    obtain ⟨h3, h4⟩ := injList_never (fun _ => hb) a.biases 0 (injRows (p k) 0 a.weights g).2.1
    obtain ⟨h5, h6⟩ := injLayers_never hp hb t (k + 1) (injList (fun _ => b) 0 a.biases (injRows (p k) 0 a.weights g).2.1).2.1
    simp only [injLayers, h1, h2, h3, h4, h5, h6, and_self]

theorem factor_pos (e : Env) : 0 < factor e := by cases e <;> norm_num [factor]

/-- Criticalities between 0 and 1. -/
def InRange (c : Option Crit) : Prop := ∀ m, c = some m → ∀ l i j v, at3 m l i j = some v → 0 ≤ v ∧ v ≤ 1

theorem weightCrit_range {t : Trainer} (h : InRange t.crit) (l i j : ℕ) : 0 ≤ weightCrit t l i j ∧ weightCrit t l i j ≤ 1 := by
  unfold weightCrit
  split
  · cases hc : t.crit with
    | none => simp
    | some m =>
      cases ha : at3 m l i j with
      | none => simp [ha]
      | some v => simpa [ha] using h m hc l i j v ha
  · simp

/-- C131, off: with probability 0 or less nothing is flipped. -/
theorem C131_off {t : Trainer} (hp : t.prob ≤ 0) (hc : InRange t.crit) (ls : List Layer) (g : Rng) : ∃ g', t.inject ls g = (t, ls, g') := by
  have hf := factor_pos t.env
  have h0 : t.prob * factor t.env ≤ 0 := mul_nonpos_of_nonpos_of_nonneg hp hf.le
  obtain ⟨h1, h2⟩ := injLayers_never (p := t.weightProb) (b := t.prob * factor t.env * (1 / 2))
    (fun l i j => by rw [weightProb_eq]; exact mul_nonpos_of_nonpos_of_nonneg h0 (by have := (weightCrit_range hc l i j).1; linarith)) (by linarith) ls 0 g
  refine ⟨(injLayers t.weightProb (t.prob * factor t.env * (1 / 2)) 0 ls g).2.1, ?_⟩
  unfold Trainer.inject
  simp only [h1, h2]
  rfl

theorem injList_always {p : ℕ → ℝ} (hp : ∀ j, 1 ≤ p j) : ∀ (ws : List Word) (j : ℕ) (g : Rng), List.Forall₂ (fun a b => bitDiff a b = 1) ws (injList p j ws g).1
  | [], _, _ => .nil
  | w :: t, j, g => by
    have hn : g.seq 0 < p j := lt_of_lt_of_le (g.hi 0) (hp j)
    simp only [injList, hit, if_pos hn]
    exact .cons (flip_diff w (bit_lt (g.next.lo 0) (g.next.hi 0))) (injList_always hp t (j + 1) _)

theorem injRows_always {p : ℕ → ℕ → ℝ} (hp : ∀ i j, 1 ≤ p i j) : ∀ (rs : List (List Word)) (i : ℕ) (g : Rng), List.Forall₂ (fun a b => bitDiff a b = 1) rs.flatten (injRows p i rs g).1.flatten
  | [], _, _ => .nil
  | r :: t, i, g => by
    simp only [injRows, List.flatten_cons]
    exact List.rel_append (injList_always (hp i) r 0 g) (injRows_always hp t (i + 1) _)

theorem injLayers_always {p : ℕ → ℕ → ℕ → ℝ} (b : ℝ) (hp : ∀ l i j, 1 ≤ p l i j) : ∀ (ls : List Layer) (k : ℕ) (g : Rng),
    List.Forall₂ (fun a b => bitDiff a b = 1) (ls.flatMap fun a => a.weights.flatten) ((injLayers p b k ls g).1.flatMap fun a => a.weights.flatten)
  | [], _, _ => .nil
  | a :: t, k, g => by
    simp only [injLayers, List.flatMap_cons]
    exact List.rel_append (injRows_always (hp k) a.weights 0 g) (injLayers_always b hp t (k + 1) _)

/-- C131, certain: if the probability times the environment's factor is at least 1, every weight gets exactly one bit flipped. -/
theorem C131_certain {t : Trainer} (hp : 1 ≤ t.prob * factor t.env) (hc : InRange t.crit) (ls : List Layer) (g : Rng) :
    List.Forall₂ (fun a b => bitDiff a b = 1) (ls.flatMap fun a => a.weights.flatten) ((t.inject ls g).2.1.flatMap fun a => a.weights.flatten) := by
  apply injLayers_always
  intro l i j
  rw [weightProb_eq]
  have := (weightCrit_range hc l i j).1
  nlinarith

/-- C131, violated: environments are not ordered by harshness.  With the same draws a weight is flipped on the ground but not in Earth orbit or on the space station, and on Mars but not in deep space or during a solar flare. -/
theorem C131_environment_violated {p u : ℝ} (w : Word) (bs : List Word) {g : Rng} (h : Const g u) :
    (p / 2 ≤ u → u < p →
      at3 (((Trainer.new p false .earth).inject [⟨[[w]], bs⟩] g).2.1.map Layer.weights) 0 0 0 = some (flipBit w ⌊u * 32⌋₊) ∧
      at3 (((Trainer.new p false .earthOrbit).inject [⟨[[w]], bs⟩] g).2.1.map Layer.weights) 0 0 0 = some w ∧
      at3 (((Trainer.new p false .iss).inject [⟨[[w]], bs⟩] g).2.1.map Layer.weights) 0 0 0 = some w) ∧
    (p ≤ u → u < 2 * p →
      at3 (((Trainer.new p false .mars).inject [⟨[[w]], bs⟩] g).2.1.map Layer.weights) 0 0 0 = some (flipBit w ⌊u * 32⌋₊) ∧
      at3 (((Trainer.new p false .deepSpace).inject [⟨[[w]], bs⟩] g).2.1.map Layer.weights) 0 0 0 = some w ∧
      at3 (((Trainer.new p false .solarFlare).inject [⟨[[w]], bs⟩] g).2.1.map Layer.weights) 0 0 0 = some w) := by
  have key : ∀ e : Env, at3 (((Trainer.new p false e).inject [⟨[[w]], bs⟩] g).2.1.map Layer.weights) 0 0 0 = some (if u < p * factor e then flipBit w ⌊u * 32⌋₊ else w) := by
    intro e
    rw [(C131_rates _ _ h 0 0 0).1]
    simp [at3, Trainer.new, weightCrit]
  simp only [key]
  refine ⟨fun h1 h2 => ⟨?_, ?_, ?_⟩, fun h1 h2 => ⟨?_, ?_, ?_⟩⟩
  · rw [if_pos (by unfold factor; linarith)]
  · rw [if_neg (by unfold factor; linarith)]
  · rw [if_neg (by unfold factor; linarith)]
  · rw [if_pos (by unfold factor; linarith)]
  · rw [if_neg (by unfold factor; linarith)]
  · rw [if_neg (by unfold factor; linarith)]

/-! ### C132 -/

theorem setWeight_at (ls : List Layer) (l i j l' i' j' : ℕ) (w : Word) :
    at3 ((setWeight ls l i j w).map Layer.weights) l' i' j' = if (l, i, j) = (l', i', j') then (at3 (ls.map Layer.weights) l i j).map fun _ => w else at3 (ls.map Layer.weights) l' i' j' := by
  rw [at3_weights, at3_weights, at3_weights]
  unfold setWeight
  rw [List.getElem?_modify]
  by_cases hl : l = l'
  · subst hl
    simp only [Option.map_eq_map, if_true]
    cases ls[l]? with
    | none => simp
    | some a =>
      simp only [Option.map_some, Option.bind_some, List.getElem?_modify]
      by_cases hi : i = i'
      · subst hi
        simp only [Option.map_eq_map, if_true]
        cases a.weights[i]? with
        | none => simp
        | some r =>
          simp only [Option.map_some, Option.bind_some, List.getElem?_set]
          by_cases hj : j = j'
          · subst hj
            by_cases hlt : j < r.length
            · simp [hlt]
            · simp [hlt]
          · simp [hj]
      · simp [hi]
  · simp [hl]

theorem put3_at {α : Type} (m : List (List (List α))) (l i j l' i' j' : ℕ) (v : α) :
    at3 (put3 m l i j v) l' i' j' = if (l, i, j) = (l', i', j') then (at3 m l i j).map fun _ => v else at3 m l' i' j' := by
  unfold at3 put3
  rw [List.getElem?_modify]
  by_cases hl : l = l'
  · subst hl
    simp only [Option.map_eq_map, if_true]
    cases m[l]? with
    | none => simp
    | some a =>
      simp only [Option.map_some, Option.bind_some, List.getElem?_modify]
      by_cases hi : i = i'
      · subst hi
        simp only [Option.map_eq_map, if_true]
        cases a[i]? with
        | none => simp
        | some r =>
          simp only [Option.map_some, Option.bind_some, List.getElem?_set]
          by_cases hj : j = j'
          · subst hj
            by_cases hlt : j < r.length
            · simp [hlt]
            · simp [hlt]
          · simp [hj]
      · simp [hi]
  · simp [hl]

/-- Restoring the weight that was flipped restores the layers. -/
theorem setWeight_restore (ls : List Layer) (l i j : ℕ) (w v : Word) (h : at3 (ls.map Layer.weights) l i j = some w) : setWeight (setWeight ls l i j v) l i j w = ls := by
  rw [at3_weights] at h
  unfold setWeight
  apply List.ext_getElem?
  intro l'
  rw [List.getElem?_modify, List.getElem?_modify]
  by_cases hl : l = l'
  · subst hl
    simp only [Option.map_eq_map, if_true]
    cases ha : ls[l]? with
    | none => rfl
    | some a =>
      simp only [Option.map_some, Option.some.injEq]
      rw [ha] at h
      ext1
      · apply List.ext_getElem?
        intro i'
        simp only [List.getElem?_modify]
        by_cases hi : i = i'
        · subst hi
          simp only [Option.map_eq_map, if_true]
          simp only [Option.bind_some] at h
          cases hr : a.weights[i]? with
          | none => rfl
          | some r =>
            rw [hr] at h
            simp only [Option.bind_some] at h
            simp only [Option.map_some, Option.some.injEq, List.set_set]
            apply List.ext_getElem?
            intro j'
            rw [List.getElem?_set]
            by_cases hj : j = j'
            · subst hj
              simp only [if_true]
              obtain ⟨hlt, -⟩ := List.getElem?_eq_some_iff.mp h
              rw [if_pos hlt, h]
            · simp [hj]
        · simp [hi]
      · rfl
  · simp [hl]

/-- The weight `(l, i, j)` with bit `k` flipped. -/
def flipped {N : Type} (nw : Network N) (n : N) (l i j : ℕ) (w : Word) (k : ℕ) : N := nw.set n (setWeight (nw.layers n) l i j (flipBit w (k : ℕ)))

/-- What one test does: the network is as before, and one entry is the sigmoid of the change in loss of one flipped bit. -/
theorem probe_ok {N : Type} {nw : Network N} (hw : Lawful nw) {x y : List ℝ} {base : ℝ} {l : ℕ} {ij : ℕ × ℕ} {n n' : N} {m m' : Crit} {g g' : Rng} (h : probe nw x y base l ij n m g = .ok (n', m', g')) :
    n' = n ∧ ∃ w k, at3 ((nw.layers n).map Layer.weights) l ij.1 ij.2 = some w ∧ k < 32 ∧ m' = put3 m l ij.1 ij.2 (sigmoid (nw.loss (flipped nw n l ij.1 ij.2 w k) x y - base)) ∧ (at3 m l ij.1 ij.2).isSome := by
  unfold probe at h
  cases ha : at3 ((nw.layers n).map Layer.weights) l ij.1 ij.2 with
  | none => rw [ha] at h; cases h
  | some w =>
    rw [ha] at h
    cases hm : at3 m l ij.1 ij.2 with
    | none => simp only [hm] at h; cases h
    | some v =>
      simp only [hm, Outcome.ok.injEq, Prod.mk.injEq] at h
      obtain ⟨h1, h2, -⟩ := h
      refine ⟨?_, w, _, rfl, bit_lt (g.lo 0) (g.hi 0), h2.symm, rfl⟩
      rw [← h1, hw.layers_set, hw.set_set, setWeight_restore _ _ _ _ _ _ ha, hw.set_layers]

/-- The entry `v` of a map at `(l, i, j)` is that of a test. -/
def Tested {N : Type} (nw : Network N) (x y : List ℝ) (n : N) (l i j : ℕ) (v : ℝ) : Prop :=
  ∃ w k, at3 ((nw.layers n).map Layer.weights) l i j = some w ∧ k < 32 ∧ v = sigmoid (nw.loss (flipped nw n l i j w k) x y - nw.loss n x y)

/-- From map `m` to map `m'` by tests of the positions in `S`. -/
structure Step {N : Type} (nw : Network N) (x y : List ℝ) (n : N) (S : Finset (ℕ × ℕ × ℕ)) (m m' : Crit) : Prop where
  same : ∀ l i j, (at3 m' l i j).isSome = (at3 m l i j).isSome
  out : ∀ l i j, (l, i, j) ∉ S → at3 m' l i j = at3 m l i j
  inn : ∀ l i j, (l, i, j) ∈ S → ∃ v, at3 m' l i j = some v ∧ Tested nw x y n l i j v

theorem Step.trans {N : Type} {nw : Network N} {x y : List ℝ} {n : N} {S T : Finset (ℕ × ℕ × ℕ)} {a b c : Crit} (h : Step nw x y n S a b) (h' : Step nw x y n T b c) : Step nw x y n (S ∪ T) a c := by
  refine ⟨fun l i j => (h'.same l i j).trans (h.same l i j), fun l i j hn => ?_, fun l i j hi => ?_⟩
  · rw [Finset.mem_union, not_or] at hn
    rw [h'.out l i j hn.2, h.out l i j hn.1]
  · by_cases ht : (l, i, j) ∈ T
    · exact h'.inn l i j ht
    · rw [h'.out l i j ht]
      exact h.inn l i j ((Finset.mem_union.mp hi).resolve_right ht)

theorem Step.refl {N : Type} (nw : Network N) (x y : List ℝ) (n : N) (m : Crit) : Step nw x y n ∅ m m := ⟨fun _ _ _ => rfl, fun _ _ _ _ => rfl, fun _ _ _ h => by simp at h⟩

theorem probes_ok {N : Type} {nw : Network N} (hw : Lawful nw) {x y : List ℝ} {l : ℕ} : ∀ (ps : List (ℕ × ℕ)) {n n' : N} {m m' : Crit} {g g' : Rng}, probes nw x y (nw.loss n x y) l ps n m g = .ok (n', m', g') →
    n' = n ∧ Step nw x y n (ps.toFinset.image fun p => (l, p.1, p.2)) m m'
  | [], n, n', m, m', g, g', h => by
    simp only [probes, Outcome.ok.injEq, Prod.mk.injEq] at h
    obtain ⟨rfl, rfl, -⟩ := h
    exact ⟨rfl, by simpa using Step.refl nw x y n m⟩
  | ij :: t, n, n', m, m', g, g', h => by
    unfold probes at h
    cases hp : probe nw x y (nw.loss n x y) l ij n m g with
    | ub => rw [hp] at h; cases h
    | ok s =>
      obtain ⟨n1, m1, g1⟩ := s
      rw [hp] at h
      simp only [Outcome.bind] at h
      obtain ⟨h1, w, k, h2, h3, h4, h5⟩ := probe_ok hw hp
      subst h1
      obtain ⟨h6, h7⟩ := probes_ok hw t h
      refine ⟨h6, ?_⟩
      have hs : Step nw x y n1 {(l, ij.1, ij.2)} m m1 := by
        obtain ⟨v0, hv0⟩ := Option.isSome_iff_exists.mp h5
        refine ⟨fun l' i' j' => ?_, fun l' i' j' hn => ?_, fun l' i' j' hi => ?_⟩
        · rw [h4, put3_at]
          split
          · rename_i e
            simp only [Prod.mk.injEq] at e
            obtain ⟨rfl, rfl, rfl⟩ := e
            rw [Option.isSome_map]
          · rfl
        · rw [Finset.mem_singleton] at hn
          rw [h4, put3_at, if_neg (fun e => hn e.symm)]
        · rw [Finset.mem_singleton, Prod.mk.injEq, Prod.mk.injEq] at hi
          obtain ⟨rfl, rfl, rfl⟩ := hi
          rw [h4, put3_at, if_pos rfl, hv0]
          exact ⟨_, rfl, w, k, h2, h3, rfl⟩
      have := hs.trans h7
      rwa [List.toFinset_cons, Finset.image_insert, Finset.insert_eq]

theorem picks_length {ws : List (List Word)} : ∀ {k : ℕ} {g g' : Rng} {ps : List (ℕ × ℕ)}, picks ws k g = .ok (ps, g') → ps.length = k
  | 0, g, g', ps, h => by
    simp only [picks, Outcome.ok.injEq, Prod.mk.injEq] at h
    rw [← h.1]; rfl
  | k + 1, g, g', ps, h => by
    unfold picks at h
    cases h1 : pickPos ws g with
    | ub => rw [h1] at h; cases h
    | ok a =>
      rw [h1] at h
      simp only [Outcome.bind] at h
      cases h2 : picks ws k a.2 with
      | ub => rw [h2] at h; cases h
      | ok b =>
        rw [h2] at h
        simp only [Outcome.ok.injEq, Prod.mk.injEq] at h
        rw [← h.1, List.length_cons, picks_length (ps := b.1) (g' := b.2) h2]

theorem probeLayers_ok {N : Type} {nw : Network N} (hw : Lawful nw) {x y : List ℝ} : ∀ (ls : List Layer) (l : ℕ) {n n' : N} {m m' : Crit} {g g' : Rng}, probeLayers nw x y (nw.loss n x y) l ls n m g = .ok (n', m', g') →
    n' = n ∧ ∃ S : Finset (ℕ × ℕ × ℕ), Step nw x y n S m m' ∧ (∀ p ∈ S, l ≤ p.1) ∧ ∀ k, ∀ a, ls[k]? = some a → 0 < (S.filter fun p => p.1 = l + k).card ∧ (S.filter fun p => p.1 = l + k).card ≤ toTest a.weights
  | [], l, n, n', m, m', g, g', h => by
    simp only [probeLayers, Outcome.ok.injEq, Prod.mk.injEq] at h
    obtain ⟨rfl, rfl, -⟩ := h
    exact ⟨rfl, ∅, Step.refl nw x y n m, by simp, by simp⟩
  | a :: t, l, n, n', m, m', g, g', h => by
    unfold probeLayers at h
    cases h1 : picks a.weights (toTest a.weights) g with
    | ub => rw [h1] at h; cases h
    | ok ps =>
      rw [h1] at h
      simp only [Outcome.bind] at h
      cases h2 : probes nw x y (nw.loss n x y) l ps.1 n m ps.2 with
      | ub => rw [h2] at h; cases h
      | ok s =>
        obtain ⟨n1, m1, g1⟩ := s
        rw [h2] at h
        simp only at h
        obtain ⟨h3, h4⟩ := probes_ok hw ps.1 h2
        subst h3
        obtain ⟨h5, S, h6, h7, h8⟩ := probeLayers_ok hw t (l + 1) h
        have hlen : ps.1.length = toTest a.weights := picks_length (g' := ps.2) h1
        refine ⟨h5, _, h4.trans h6, ?_, ?_⟩
        · intro p hp
          rcases Finset.mem_union.mp hp with hp | hp
          · obtain ⟨q, -, rfl⟩ := Finset.mem_image.mp hp; exact le_rfl
          · have := h7 p hp; omega
        · intro k b hb
          cases k with
          | zero =>
            have hb : a = b := by simpa using hb
            subst hb
            have e : ((ps.1.toFinset.image fun p => (l, p.1, p.2)) ∪ S).filter (fun p => p.1 = l + 0) = ps.1.toFinset.image fun p => (l, p.1, p.2) := by
              ext p
              simp only [Finset.mem_filter, Finset.mem_union, Nat.add_zero]
              constructor
              · rintro ⟨h | h, e⟩
                · exact h
                · have := h7 p h; omega
              · intro h
                refine ⟨Or.inl h, ?_⟩
                obtain ⟨q, -, rfl⟩ := Finset.mem_image.mp h; rfl
            rw [e]
            constructor
            · rw [Finset.card_pos, Finset.image_nonempty, List.toFinset_nonempty_iff]
              intro hn
              rw [hn] at hlen
              have : 1 ≤ toTest a.weights := le_max_left _ _
              simp at hlen; omega
            · exact Finset.card_image_le.trans ((List.toFinset_card_le _).trans hlen.le)
          | succ k =>
            have e : ((ps.1.toFinset.image fun p => (l, p.1, p.2)) ∪ S).filter (fun p => p.1 = l + (k + 1)) = S.filter (fun p => p.1 = l + 1 + k) := by
              ext p
              simp only [Finset.mem_filter, Finset.mem_union]
              constructor
              · rintro ⟨h | h, e⟩
                · obtain ⟨q, -, rfl⟩ := Finset.mem_image.mp h
                  simp at e
                · exact ⟨h, by omega⟩
              · rintro ⟨h, e⟩; exact ⟨Or.inr h, by omega⟩
            rw [e]
            exact h8 k b (by simpa using hb)

theorem update_ok {N : Type} {nw : Network N} (hw : Lawful nw) {data labels : List ℝ} {n n' : N} {c c' : Option Crit} {g g' : Rng} (h : update nw data labels n c g = .ok (n', c', g')) :
    n' = n ∧ (c' = c ∨ ∃ m' S, c' = some m' ∧ Step nw (data.take (nw.inSize n)) (labels.take (nw.outSize n)) n S (c.getD (zeros (nw.layers n))) m' ∧
      ∀ k a, (nw.layers n)[k]? = some a → 0 < (S.filter fun p => p.1 = k).card ∧ (S.filter fun p => p.1 = k).card ≤ toTest a.weights) := by
  unfold update at h
  split at h
  · cases h
  · split at h
    · simp only [Outcome.ok.injEq, Prod.mk.injEq] at h
      exact ⟨h.1.symm, Or.inl h.2.1.symm⟩
    · split at h
      · cases h
      · simp only at h
        cases h1 : probeLayers nw (data.take (nw.inSize n)) (labels.take (nw.outSize n)) (nw.loss n (data.take (nw.inSize n)) (labels.take (nw.outSize n))) 0 (nw.layers n) n (c.getD (zeros (nw.layers n))) g with
        | ub => rw [h1] at h; cases h
        | ok s =>
          obtain ⟨n1, m1, g1⟩ := s
          rw [h1] at h
          simp only [Outcome.bind, Outcome.ok.injEq, Prod.mk.injEq] at h
          obtain ⟨h2, S, h3, -, h4⟩ := probeLayers_ok hw _ 0 h1
          refine ⟨h.1.symm.trans h2, Or.inr ⟨m1, S, h.2.1.symm, h3, fun k a hk => ?_⟩⟩
          have := h4 k a hk
          rwa [Nat.zero_add] at this

theorem sigmoid_range (x : ℝ) : 0 < sigmoid x ∧ sigmoid x < 1 := by
  unfold sigmoid
  have := Real.exp_pos (-x)
  exact ⟨by positivity, by rw [div_lt_one (by linarith)]; linarith⟩

theorem zeros_at (ls : List Layer) (l i j : ℕ) : at3 (zeros ls) l i j = (at3 (ls.map Layer.weights) l i j).map fun _ => (0 : ℝ) := by
  rw [at3_weights]
  unfold at3 zeros
  rw [List.getElem?_map]
  cases ls[l]? with
  | none => rfl
  | some a =>
    simp only [Option.map_some, Option.bind_some, List.getElem?_map]
    cases a.weights[i]? with
    | none => rfl
    | some r => simp only [Option.map_some, Option.bind_some, List.getElem?_map]

/-- C132, no trace: whatever bits are flipped while measuring, the network is the same afterwards. -/
theorem C132_restored {N : Type} {nw : Network N} (hw : Lawful nw) {data labels : List ℝ} {n n' : N} {c c' : Option Crit} {g g' : Rng} (h : update nw data labels n c g = .ok (n', c', g')) : n' = n := (update_ok hw h).1

/-- C132, range: criticalities stay between 0 and 1. -/
theorem C132_range {N : Type} {nw : Network N} (hw : Lawful nw) {data labels : List ℝ} {n n' : N} {c c' : Option Crit} {g g' : Rng} (hc : InRange c) (h : update nw data labels n c g = .ok (n', c', g')) : InRange c' := by
  obtain ⟨-, rfl | ⟨m', S, rfl, hs, -⟩⟩ := update_ok hw h
  · exact hc
  · intro m hm l i j v hv
    cases hm
    by_cases hS : (l, i, j) ∈ S
    · obtain ⟨v', h1, w, k, -, -, h2⟩ := hs.inn l i j hS
      rw [hv, Option.some.injEq] at h1
      rw [h1, h2]
      exact ⟨(sigmoid_range _).1.le, (sigmoid_range _).2.le⟩
    · rw [hs.out l i j hS] at hv
      cases c with
      | none =>
        rw [Option.getD_none, zeros_at] at hv
        cases ha : at3 ((nw.layers n).map Layer.weights) l i j with
        | none => rw [ha] at hv; cases hv
        | some w => rw [ha, Option.map_some, Option.some.injEq] at hv; rw [← hv]; norm_num
      | some m0 => exact hc m0 rfl l i j v hv

/-- C132, first map: it has an entry for exactly the weights of the network; each entry is 0, or the sigmoid of the change in loss when one bit of that weight is flipped; in every layer at least one weight is measured. -/
theorem C132_map {N : Type} {nw : Network N} (hw : Lawful nw) {data labels : List ℝ} {n n' : N} {m : Crit} {g g' : Rng} (h : update nw data labels n none g = .ok (n', some m, g')) :
    (∀ l i j, (at3 m l i j).isSome = (at3 ((nw.layers n).map Layer.weights) l i j).isSome) ∧
    (∀ l i j v, at3 m l i j = some v → v = 0 ∨ Tested nw (data.take (nw.inSize n)) (labels.take (nw.outSize n)) n l i j v) ∧
    ∀ l a, (nw.layers n)[l]? = some a → ∃ i j v, at3 m l i j = some v ∧ Tested nw (data.take (nw.inSize n)) (labels.take (nw.outSize n)) n l i j v := by
  obtain ⟨-, hx | ⟨m', S, hm, hs, hk⟩⟩ := update_ok hw h
  · cases hx
  · cases hm
    rw [Option.getD_none] at hs
    refine ⟨fun l i j => ?_, fun l i j v hv => ?_, fun l a ha => ?_⟩
    · rw [hs.same, zeros_at, Option.isSome_map]
    · by_cases hS : (l, i, j) ∈ S
      · obtain ⟨v', h1, h2⟩ := hs.inn l i j hS
        rw [hv, Option.some.injEq] at h1
        rw [h1]; exact Or.inr h2
      · rw [hs.out l i j hS, zeros_at] at hv
        cases ha : at3 ((nw.layers n).map Layer.weights) l i j with
        | none => rw [ha] at hv; cases hv
        | some w => rw [ha, Option.map_some, Option.some.injEq] at hv; exact Or.inl hv.symm
    · obtain ⟨p, hp⟩ := Finset.card_pos.mp (hk l a ha).1
      rw [Finset.mem_filter] at hp
      obtain ⟨p1, p2, p3⟩ := p
      obtain ⟨hp, rfl⟩ := hp
      exact ⟨p2, p3, hs.inn _ _ _ hp⟩

/-- C132, violated: at most a tenth of a layer's weights (at least one) are measured; all others are rated 0, as not critical at all, whatever their effect on the loss. -/
theorem C132_sampled_violated {N : Type} {nw : Network N} (hw : Lawful nw) {data labels : List ℝ} {n n' : N} {m : Crit} {g g' : Rng} (h : update nw data labels n none g = .ok (n', some m, g'))
    {l : ℕ} {a : Layer} (ha : (nw.layers n)[l]? = some a) : ∃ S : Finset (ℕ × ℕ), S.card ≤ max 1 ((a.weights.map List.length).sum / 10) ∧ ∀ i j v, at3 m l i j = some v → (i, j) ∉ S → v = 0 := by
  obtain ⟨-, hx | ⟨m', S, hm, hs, hk⟩⟩ := update_ok hw h
  · cases hx
  · cases hm
    rw [Option.getD_none] at hs
    refine ⟨(S.filter fun p => p.1 = l).image fun p => (p.2.1, p.2.2), Finset.card_image_le.trans (hk l a ha).2, fun i j v hv hn => ?_⟩
    have hS : (l, i, j) ∉ S := fun hS => hn (Finset.mem_image.mpr ⟨(l, i, j), by simp [hS], rfl⟩)
    rw [hs.out l i j hS, zeros_at] at hv
    cases ha' : at3 ((nw.layers n).map Layer.weights) l i j with
    | none => rw [ha'] at hv; cases hv
    | some w => rw [ha', Option.map_some, Option.some.injEq] at hv; exact hv.symm

/-- C132, violated: with the library's networks a flip is never seen by the loss, so every weight that was measured is rated 1/2, however important it is. -/
theorem C132_half_violated {data labels : List ℝ} {n n' : Lib} {m : Crit} {g g' : Rng} (h : update lib data labels n none g = .ok (n', some m, g')) (l i j : ℕ) (v : ℝ) (hv : at3 m l i j = some v) : v = 0 ∨ v = 1 / 2 := by
  rcases (C132_map lib_lawful h).2.1 l i j v hv with h0 | ⟨w, k, -, -, h1⟩
  · exact Or.inl h0
  · right
    rw [h1]
    have : lib.loss (flipped lib n l i j w k) (data.take (lib.inSize n)) (labels.take (lib.outSize n)) = lib.loss n (data.take (lib.inSize n)) (labels.take (lib.outSize n)) := rfl
    rw [this, sub_self]
    norm_num [sigmoid]

theorem floor_lt {u : ℝ} (h0 : 0 ≤ u) (h1 : u < 1) {n : ℕ} (hn : 0 < n) : ⌊u * n⌋₊ < n := by
  rw [Nat.floor_lt (mul_nonneg h0 (by positivity))]
  have : (0 : ℝ) < n := by exact_mod_cast hn
  nlinarith

/-- A layer that can be sampled: it has rows, and no row is empty. -/
def Full (a : Layer) : Prop := a.weights ≠ [] ∧ ∀ r ∈ a.weights, r ≠ []

theorem pickPos_ok {a : Layer} (ha : Full a) (g : Rng) : ∃ p g', pickPos a.weights g = .ok (p, g') ∧ ((a.weights[p.1]?).bind fun r => r[p.2]?).isSome := by
  have hi := floor_lt (g.lo 0) (g.hi 0) (List.length_pos_of_ne_nil ha.1)
  have hr := ha.2 _ (List.getElem_mem hi)
  have hj := floor_lt (g.next.lo 0) (g.next.hi 0) (List.length_pos_of_ne_nil hr)
  refine ⟨(⌊g.seq 0 * a.weights.length⌋₊, ⌊g.next.seq 0 * (a.weights[⌊g.seq 0 * a.weights.length⌋₊]).length⌋₊), g.next.next, ?_, ?_⟩
  · unfold pickPos
    simp only [List.getElem?_eq_getElem hi]
    rw [if_neg hr]
  · simp only [List.getElem?_eq_getElem hi, Option.bind_some, List.getElem?_eq_getElem hj, Option.isSome_some]

theorem picks_ok {a : Layer} (ha : Full a) : ∀ (k : ℕ) (g : Rng), ∃ ps g', picks a.weights k g = .ok (ps, g') ∧ ∀ p ∈ ps, ((a.weights[p.1]?).bind fun r => r[p.2]?).isSome
  | 0, g => ⟨[], g, rfl, by simp⟩
  | k + 1, g => by
    obtain ⟨p, g1, h1, h2⟩ := pickPos_ok ha g
    obtain ⟨ps, g2, h3, h4⟩ := picks_ok ha k g1
    refine ⟨p :: ps, g2, ?_, ?_⟩
    · unfold picks
      rw [h1]; simp only [Outcome.bind]
      rw [h3]
    · intro q hq
      rcases List.mem_cons.mp hq with rfl | hq
      exacts [h2, h4 q hq]

theorem probe_total {N : Type} {nw : Network N} (hw : Lawful nw) {x y : List ℝ} {base : ℝ} {l : ℕ} {p : ℕ × ℕ} {n : N} {m : Crit} (g : Rng) (h1 : (at3 ((nw.layers n).map Layer.weights) l p.1 p.2).isSome) (h2 : (at3 m l p.1 p.2).isSome) :
    ∃ m' g', probe nw x y base l p n m g = .ok (n, m', g') ∧ ∀ l i j, (at3 m' l i j).isSome = (at3 m l i j).isSome := by
  obtain ⟨w, hw1⟩ := Option.isSome_iff_exists.mp h1
  obtain ⟨v, hv1⟩ := Option.isSome_iff_exists.mp h2
  have : ∃ o, probe nw x y base l p n m g = .ok o := by
    unfold probe
    rw [hw1]
    simp only [hv1]
    exact ⟨_, rfl⟩
  obtain ⟨⟨n', m', g'⟩, ho⟩ := this
  obtain ⟨e, _, _, -, -, h4, -⟩ := probe_ok hw ho
  subst e
  refine ⟨m', g', ho, fun l' i' j' => ?_⟩
  rw [h4, put3_at]
  split
  · rename_i e
    simp only [Prod.mk.injEq] at e
    obtain ⟨rfl, rfl, rfl⟩ := e
    rw [Option.isSome_map]
  · rfl

theorem probes_total {N : Type} {nw : Network N} (hw : Lawful nw) {x y : List ℝ} {base : ℝ} {l : ℕ} : ∀ (ps : List (ℕ × ℕ)) {n : N} {m : Crit} (g : Rng), (∀ p ∈ ps, (at3 ((nw.layers n).map Layer.weights) l p.1 p.2).isSome ∧ (at3 m l p.1 p.2).isSome) →
    ∃ m' g', probes nw x y base l ps n m g = .ok (n, m', g') ∧ ∀ l i j, (at3 m' l i j).isSome = (at3 m l i j).isSome
  | [], n, m, g, _ => ⟨m, g, rfl, fun _ _ _ => rfl⟩
  | p :: t, n, m, g, h => by
    obtain ⟨m1, g1, h1, h2⟩ := probe_total hw (x := x) (y := y) (base := base) g (h p (by simp)).1 (h p (by simp)).2
    obtain ⟨m2, g2, h3, h4⟩ := probes_total hw (base := base) t (n := n) (m := m1) g1 (fun q hq => ⟨(h q (by simp [hq])).1, by rw [h2]; exact (h q (by simp [hq])).2⟩)
    refine ⟨m2, g2, ?_, fun l i j => (h4 l i j).trans (h2 l i j)⟩
    unfold probes
    rw [h1]
    exact h3

theorem probeLayers_total {N : Type} {nw : Network N} (hw : Lawful nw) {x y : List ℝ} {base : ℝ} {n : N} : ∀ (ls : List Layer) (k : ℕ) {m : Crit} (g : Rng), (∀ i a, ls[i]? = some a → (nw.layers n)[k + i]? = some a ∧ Full a) →
    (∀ l i j, k ≤ l → (at3 ((nw.layers n).map Layer.weights) l i j).isSome → (at3 m l i j).isSome) →
    ∃ m' g', probeLayers nw x y base k ls n m g = .ok (n, m', g') ∧ ∀ l i j, (at3 m' l i j).isSome = (at3 m l i j).isSome
  | [], k, m, g, _, _ => ⟨m, g, rfl, fun _ _ _ => rfl⟩
  | a :: t, k, m, g, h, hm => by
    obtain ⟨h0, hf⟩ := h 0 a rfl
    obtain ⟨ps, g1, h1, h2⟩ := picks_ok hf (toTest a.weights) g
    have hp : ∀ p ∈ ps, (at3 ((nw.layers n).map Layer.weights) k p.1 p.2).isSome := by
      intro p hp
      rw [at3_weights, show (nw.layers n)[k]? = some a from h0]
      exact h2 p hp
    obtain ⟨m1, g2, h3, h4⟩ := probes_total hw (x := x) (y := y) (base := base) ps (n := n) (m := m) g1 (fun p hp' => ⟨hp p hp', hm k _ _ le_rfl (hp p hp')⟩)
    obtain ⟨m2, g3, h5, h6⟩ := probeLayers_total hw (base := base) t (k + 1) (m := m1) g2
      (fun i b hb => by have := h (i + 1) b (by simpa using hb); rwa [show k + (i + 1) = k + 1 + i by omega] at this)
      (fun l i j hl hs => by rw [h4]; exact hm l i j (by omega) hs)
    refine ⟨m2, g3, ?_, fun l i j => (h6 l i j).trans (h4 l i j)⟩
    unfold probeLayers
    rw [h1]; simp only [Outcome.bind]
    rw [h3]
    exact h5

/-- C132, total: with at least one whole sample, no empty layer, and no map or one covering the network, the map is computed for every stream of draws. -/
theorem C132_total {N : Type} {nw : Network N} (hw : Lawful nw) {data labels : List ℝ} {n : N} {c : Option Crit} (g : Rng) (hi : 0 < nw.inSize n) (ho : 0 < nw.outSize n)
    (hd : nw.inSize n ∣ data.length ∧ data ≠ []) (hl : nw.outSize n ∣ labels.length ∧ labels ≠ []) (hf : ∀ a ∈ nw.layers n, Full a)
    (hc : ∀ m, c = some m → ∀ l i j, (at3 ((nw.layers n).map Layer.weights) l i j).isSome → (at3 m l i j).isSome) : ∃ m g', update nw data labels n c g = .ok (n, some m, g') ∧
      ∀ l i j, (at3 ((nw.layers n).map Layer.weights) l i j).isSome → (at3 m l i j).isSome := by
  have hd' := Nat.le_of_dvd (List.length_pos_of_ne_nil hd.2) hd.1
  have hl' := Nat.le_of_dvd (List.length_pos_of_ne_nil hl.2) hl.1
  have hcov : ∀ l i j, (at3 ((nw.layers n).map Layer.weights) l i j).isSome → (at3 (c.getD (zeros (nw.layers n))) l i j).isSome := by
    intro l i j h
    cases c with
    | none => rw [Option.getD_none, zeros_at, Option.isSome_map]; exact h
    | some m => exact hc m rfl l i j h
  obtain ⟨m', g', h1, h2⟩ := probeLayers_total hw (x := data.take (nw.inSize n)) (y := labels.take (nw.outSize n)) (base := nw.loss n (data.take (nw.inSize n)) (labels.take (nw.outSize n))) (n := n) (nw.layers n) 0 g
    (fun i a ha => ⟨by rw [Nat.zero_add]; exact ha, hf a (List.mem_of_getElem? ha)⟩) (fun l i j _ h => hcov l i j h)
  refine ⟨m', g', ?_, fun l i j h => by rw [h2]; exact hcov l i j h⟩
  unfold update
  rw [if_neg (by omega), if_neg (by rw [Nat.mod_eq_zero_of_dvd hd.1, Nat.mod_eq_zero_of_dvd hl.1]; simp), if_neg (by omega)]
  simp only
  rw [h1]
  rfl

/-- C132, violated: a trainer whose map is of a network with fewer layers accesses it out of bounds when the map is updated for another network. -/
theorem C132_reuse_violated {N : Type} {nw : Network N} (hw : Lawful nw) {data labels : List ℝ} {n : N} {m : Crit} (g : Rng) (hi : 0 < nw.inSize n) (ho : 0 < nw.outSize n)
    (hd : nw.inSize n ∣ data.length ∧ data ≠ []) (hl : nw.outSize n ∣ labels.length ∧ labels ≠ []) (hm : m.length < (nw.layers n).length) : update nw data labels n (some m) g = .ub := by
  cases h : update nw data labels n (some m) g with
  | ub => rfl
  | ok o =>
    obtain ⟨n', c', g'⟩ := o
    have hd' := Nat.le_of_dvd (List.length_pos_of_ne_nil hd.2) hd.1
    have hl' := Nat.le_of_dvd (List.length_pos_of_ne_nil hl.2) hl.1
    unfold update at h
    rw [if_neg (by omega), if_neg (by rw [Nat.mod_eq_zero_of_dvd hd.1, Nat.mod_eq_zero_of_dvd hl.1]; simp), if_neg (by omega)] at h
    simp only at h
    cases h1 : probeLayers nw (data.take (nw.inSize n)) (labels.take (nw.outSize n)) (nw.loss n (data.take (nw.inSize n)) (labels.take (nw.outSize n))) 0 (nw.layers n) n ((some m).getD (zeros (nw.layers n))) g with
    | ub => rw [h1] at h; cases h
    | ok s =>
      obtain ⟨n1, m1, g1⟩ := s
      obtain ⟨-, S, h3, -, h4⟩ := probeLayers_ok hw _ 0 h1
      obtain ⟨p, hp⟩ := Finset.card_pos.mp (h4 m.length _ (List.getElem?_eq_getElem hm)).1
      rw [Finset.mem_filter, Nat.zero_add] at hp
      obtain ⟨p1, p2, p3⟩ := p
      obtain ⟨hp, rfl⟩ := hp
      obtain ⟨v, hv, -⟩ := h3.inn _ _ _ hp
      have := h3.same m.length p2 p3
      rw [hv] at this
      simp [at3] at this

/-- C132, violated: a layer without weights (or with an empty row that is drawn) is indexed out of bounds. -/
theorem C132_empty_layer_violated {N : Type} {nw : Network N} {data labels : List ℝ} {n : N} {c : Option Crit} (g : Rng) (hi : 0 < nw.inSize n) (ho : 0 < nw.outSize n)
    (hd : nw.inSize n ∣ data.length ∧ data ≠ []) (hl : nw.outSize n ∣ labels.length ∧ labels ≠ []) (he : ∃ a ∈ nw.layers n, a.weights = []) : update nw data labels n c g = .ub := by
  have key : ∀ (x y : List ℝ) (base : ℝ) (ls : List Layer) (k : ℕ) (n : N) (m : Crit) (g : Rng), (∃ a ∈ ls, a.weights = []) → probeLayers nw x y base k ls n m g = .ub := by
    intro x y base ls
    induction ls with
    | nil => intro k n m g h; simp at h
    | cons a t ih =>
      intro k n m g h
      unfold probeLayers
      by_cases ha : a.weights = []
      · have : picks a.weights (toTest a.weights) g = .ub := by
          rw [ha]
          have : toTest [] = 0 + 1 := rfl
          rw [this]
          simp [picks, pickPos, Outcome.bind]
        rw [this]; rfl
      · have ht : ∃ a ∈ t, a.weights = [] := by
          obtain ⟨b, hb, hb'⟩ := h
          rcases List.mem_cons.mp hb with rfl | hb
          · exact absurd hb' ha
          · exact ⟨b, hb, hb'⟩
        cases picks a.weights (toTest a.weights) g with
        | ub => rfl
        | ok ps =>
          simp only [Outcome.bind]
          cases probes nw x y base k ps.1 n m ps.2 with
          | ub => rfl
          | ok s => exact ih (k + 1) s.1 s.2.1 s.2.2 ht
  have hd' := Nat.le_of_dvd (List.length_pos_of_ne_nil hd.2) hd.1
  have hl' := Nat.le_of_dvd (List.length_pos_of_ne_nil hl.2) hl.1
  unfold update
  rw [if_neg (by omega), if_neg (by rw [Nat.mod_eq_zero_of_dvd hd.1, Nat.mod_eq_zero_of_dvd hl.1]; simp), if_neg (by omega)]
  simp only
  rw [key _ _ _ _ _ _ _ _ he]
  rfl

/-! ### Cases -/

/-- All draws one half. -/
noncomputable def half : Rng := ⟨fun _ => 1 / 2, fun _ => by norm_num, fun _ => by norm_num⟩

/-- A network of one layer with two weights. -/
noncomputable def tiny : Lib := ⟨1, 2, fun x => x ++ x, fun _ _ => 0, [⟨[[5#32, 9#32]], [1#32, 2#32]⟩]⟩

example : Const half (1 / 2) := fun _ => rfl
example : ∀ a ∈ lib.layers tiny, Full a := by simp [lib, tiny, Full]
example : InRange (Trainer.new).crit := by intro m h; simp [Trainer.new] at h
example : ∃ m g', update lib [3] [1, 0] tiny none half = .ok (tiny, some m, g') := by
  obtain ⟨m, g', h, -⟩ := C132_total lib_lawful (n := tiny) (c := none) (data := [3]) (labels := [1, 0]) half (by decide) (by decide) (by simp [lib, tiny]) (by simp [lib, tiny]) (by simp [lib, tiny, Full]) (by simp)
  exact ⟨m, g', h⟩
example : (([[]] : Crit)).length < (lib.layers ⟨1, 1, id, fun _ _ => 0, [⟨[[1#32]], []⟩, ⟨[[1#32]], []⟩]⟩).length := by decide

end Verif.RadTraining
