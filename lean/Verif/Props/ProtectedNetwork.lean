import Verif.Model.ProtectedNetwork
import Verif.Lemmas.Bits
import Mathlib.Tactic.ByContra
/-!
C85-C88: the protected neural network.

The specification is an ordinary feed-forward network (`Ideal`): matrices of words, no protection objects, no statistics.
-/
namespace Verif.Props.PNetP
open Verif Verif.Spec Verif.Multibit Verif.PNet

/-! ### Specification: a plain feed-forward network -/

/-- A feed-forward network: sizes, weights, biases and activation functions. -/
structure Ideal where
  sizes : List Nat
  W : Nat → Nat → Nat → Word
  B : Nat → Nat → Word
  act : Nat → Word → Word

/-- Number of neurons of layer `l`. -/
def Ideal.size (I : Ideal) (l : Nat) : Nat := I.sizes.getD l 0

/-- Number of weight layers. -/
def Ideal.depth (I : Ideal) : Nat := I.sizes.length - 1

/-- The output of layer `l + 1` for the output `prev` of layer `l`: activation of bias plus weighted sum. -/
def Ideal.layer (A : Arith) (I : Ideal) (l : Nat) (prev : List Word) : List Word :=
  (List.range (I.size (l + 1))).map fun k =>
    I.act l ((List.range (I.size l)).foldl (fun s p => A.add s (A.mul (I.W l p k) (prev.getD p 0))) (I.B l k))

/-- The output of the network. -/
def Ideal.eval (A : Arith) (I : Ideal) (input : List Word) : List Word :=
  (List.range I.depth).foldl (fun a l => I.layer A l a) input

/-- Writing a weight matrix: nothing if the layer or the number of rows does not fit; otherwise the rows before the first ill-shaped one
(all of them if there is none). -/
def Ideal.setW (I : Ideal) (l : Nat) (M : List (List Word)) : Ideal :=
  if l < I.depth ∧ M.length = I.size l then
    { I with W := fun l' i j => if l' = l ∧ i < (M.takeWhile fun r => r.length = I.size (l + 1)).length ∧ j < I.size (l + 1) then
        (M.getD i []).getD j 0 else I.W l' i j }
  else I

/-- Writing a bias vector. -/
def Ideal.setB (I : Ideal) (l : Nat) (v : List Word) : Ideal :=
  if l < I.depth ∧ v.length = I.size (l + 1) then
    { I with B := fun l' j => if l' = l ∧ j < v.length then v.getD j 0 else I.B l' j }
  else I

/-- Setting an activation function. -/
def Ideal.setAct (I : Ideal) (l : Nat) (f : Word → Word) : Ideal :=
  if l < I.depth then { I with act := fun k => if k = l then f else I.act k } else I

/-- A strike on a weight. -/
def Ideal.hitW (I : Ideal) (h : WHit) : Ideal :=
  if h.l < I.depth ∧ h.i < I.size h.l ∧ h.j < I.size (h.l + 1) then
    { I with W := fun l i j => if l = h.l ∧ i = h.i ∧ j = h.j then h.f (I.W l i j) else I.W l i j }
  else I

/-- A strike on a bias. -/
def Ideal.hitB (I : Ideal) (h : BHit) : Ideal :=
  if h.l < I.depth ∧ h.j < I.size (h.l + 1) then
    { I with B := fun l j => if l = h.l ∧ j = h.j then h.f (I.B l j) else I.B l j }
  else I

/-- The operations of the API. -/
inductive Op where
  | setW (l : Nat) (M : List (List Word))
  | setB (l : Nat) (v : List Word)
  | setAct (l : Nat) (f : Word → Word)
  | forward (input : List Word) (rad : Rat) (dr : Nat → Nat → Strikes)
  | radiate (rad : Rat) (ws : List WHit) (bs : List BHit)
  | editW (l i j : Nat) (v : Word)
  | editB (l j : Nat) (v : Word)
  | resetStats
  | train (data labels : List Word) (epochs : Int)
  | copy

/-- The object after an operation. -/
def step (A : Arith) (n : Net) : Op → Net
  | .setW l M => (setLayerWeights n l M).1
  | .setB l v => (setLayerBiases n l v).1
  | .setAct l f => (setActivation n l f).1
  | .forward x r d => match forward A n x r d with | .ok (_, n) => n | .error _ => n
  | .radiate r ws bs => applyRadiation n r ws bs
  | .editW l i j v => (editLayerWeight n l i j v).1
  | .editB l j v => (editLayerBias n l j v).1
  | .resetStats => PNet.resetStats n
  | .train d l e => PNet.train A n d l e
  | .copy => PNet.copy n

/-- The effect of an operation on an unprotected network: only the setters and the strikes count. -/
def istep (L : Level) (I : Ideal) : Op → Ideal
  | .setW l M => I.setW l M
  | .setB l v => I.setB l v
  | .setAct l f => I.setAct l f
  | .radiate r ws bs => if r ≤ 0 then I else
      let I := ws.foldl Ideal.hitW I
      if L.rank ≥ 2 then bs.foldl Ideal.hitB I else I
  | _ => I

/-- Reading the object as a plain network. -/
def view (n : Net) : Ideal := ⟨n.sizes, fun l i j => (n.w l i j).value, fun l j => (n.b l j).value, n.act⟩

/-! ### The objects holding weights never have a coding scheme -/

/-- Every weight object has scheme NONE and is valid. -/
def Plain (n : Net) : Prop :=
  (∀ l i j, (n.w l i j).scheme = .none ∧ (n.w l i j).valid = true) ∧ (∀ l j, (n.b l j).scheme = .none ∧ (n.b l j).valid = true)

theorem obj_plain {o : Obj} (h : o.scheme = .none ∧ o.valid = true) : o.hasError = false ∧ o.getValue = (o.value, o) := by
  have h1 : o.hasError = false := by unfold Obj.hasError; rw [h.1, h.2]; rfl
  refine ⟨h1, ?_⟩
  unfold Obj.getValue
  rw [h1]; rfl

theorem obj_set {o : Obj} (v : Word) (h : o.scheme = .none ∧ o.valid = true) : o.setValue v = { o with value := v } := by
  unfold Obj.setValue Obj.updateECC
  simp only [h.1]
  rw [← h.1, ← h.2]

theorem upd3_self {α : Type} (f : Nat → Nat → Nat → α) (l i j : Nat) : upd3 f l i j (f l i j) = f := by
  funext a b c
  unfold upd3
  split
  · rename_i h; rw [h.1, h.2.1, h.2.2]
  · rfl

theorem upd2_self {α : Type} (f : Nat → Nat → α) (l j : Nat) : upd2 f l j (f l j) = f := by
  funext a c
  unfold upd2
  split
  · rename_i h; rw [h.1, h.2]
  · rfl

theorem account_plain {o : Obj} (h : o.scheme = .none ∧ o.valid = true) (n : Net) : account o n = (o, n) := by
  unfold account; rw [(obj_plain h).1]; rfl

theorem getWeight_plain {n : Net} (hp : Plain n) {l i j : Nat} (hl : l < n.depth) (hi : i < n.size l) (hj : j < n.size (l + 1)) :
    getWeight n l i j = .ok ((n.w l i j).value, n) := by
  unfold getWeight
  rw [if_neg (by omega)]
  simp only [(obj_plain (hp.1 l i j)).2, account_plain (hp.1 l i j), upd3_self]

theorem getBias_plain {n : Net} (hp : Plain n) {l j : Nat} (hl : l < n.depth) (hj : j < n.size (l + 1)) :
    getBias n l j = .ok ((n.b l j).value, n) := by
  unfold getBias
  rw [if_neg (by omega)]
  simp only [(obj_plain (hp.2 l j)).2, account_plain (hp.2 l j), upd2_self]

theorem repairAll_plain {n : Net} (hp : Plain n) : repairAll n = n := by
  unfold repairAll repairOne
  have h1 : forN n.depth (fun l n => forN (n.size l) (fun i n => forN (n.size (l + 1)) (fun j n =>
      let r := account (n.w l i j) n; { r.2 with w := upd3 n.w l i j r.1 }) n) n) n = n := by
    refine forN_inv (fun _ (m : Net) => m = n) n.depth _ n rfl ?_
    rintro l m - rfl
    refine forN_inv (fun _ (m' : Net) => m' = m) (m.size l) _ m rfl ?_
    rintro i m' - rfl
    refine forN_inv (fun _ (m : Net) => m = m') (m'.size (l + 1)) _ m' rfl ?_
    rintro j m'' - rfl
    simp only [account_plain (hp.1 l i j), upd3_self]
  have h2 : forN n.depth (fun l n => forN (n.size (l + 1)) (fun j n =>
      let r := account (n.b l j) n; { r.2 with b := upd2 n.b l j r.1 }) n) n = n := by
    refine forN_inv (fun _ (m : Net) => m = n) n.depth _ n rfl ?_
    rintro l m - rfl
    refine forN_inv (fun _ (m' : Net) => m' = m) (m.size (l + 1)) _ m rfl ?_
    rintro j m' - rfl
    simp only [account_plain (hp.2 l j), upd2_self]
  simp only
  simp only at h1 h2
  rw [h1, h2]

/-- The parts of the object that determine its function are unchanged; only the counters may differ. -/
def Same (n m : Net) : Prop :=
  m.sizes = n.sizes ∧ m.level = n.level ∧ m.w = n.w ∧ m.b = n.b ∧ m.act = n.act ∧ m.vw = n.vw ∧ m.vb = n.vb

theorem Same.refl (n : Net) : Same n n := ⟨rfl, rfl, rfl, rfl, rfl, rfl, rfl⟩

theorem Same.trans {a b c : Net} (h : Same a b) (k : Same b c) : Same a c :=
  ⟨k.1.trans h.1, k.2.1.trans h.2.1, k.2.2.1.trans h.2.2.1, k.2.2.2.1.trans h.2.2.2.1, k.2.2.2.2.1.trans h.2.2.2.2.1,
    k.2.2.2.2.2.1.trans h.2.2.2.2.2.1, k.2.2.2.2.2.2.trans h.2.2.2.2.2.2⟩

theorem Same.view {n m : Net} (h : Same n m) : view m = view n := by
  obtain ⟨h1, -, h3, h4, h5, -, -⟩ := h
  unfold PNetP.view; rw [h1, h3, h4, h5]

theorem Same.plain {n m : Net} (h : Same n m) (hp : Plain n) : Plain m := by
  obtain ⟨-, -, h3, h4, -, -, -⟩ := h
  unfold Plain; rw [h3, h4]; exact hp

theorem Same.size {n m : Net} (h : Same n m) (l : Nat) : m.size l = n.size l := by unfold Net.size; rw [h.1]

theorem Same.depth {n m : Net} (h : Same n m) : m.depth = n.depth := by unfold Net.depth; rw [h.1]

theorem adapt_same {n : Net} (hp : Plain n) (rad : Rat) :
    Same n (adapt n rad) ∧ (adapt n rad).detected = n.detected ∧ (adapt n rad).corrected = n.corrected ∧
      (adapt n rad).uncorrectable = n.uncorrectable := by
  have hp' : Plain { n with counter := n.counter + 1 } := hp
  unfold adapt
  simp only [repairAll_plain hp']
  split
  · exact ⟨Same.refl n, rfl, rfl, rfl⟩
  · split <;> split <;> exact ⟨⟨rfl, rfl, rfl, rfl, rfl, rfl, rfl⟩, rfl, rfl, rfl⟩

theorem voteActivation_same (a c1 c2 : Word) (n : Net) : Same n (voteActivation a c1 c2 n).2 := by
  unfold voteActivation
  split
  · exact Same.refl n
  · split
    · exact ⟨rfl, rfl, rfl, rfl, rfl, rfl, rfl⟩
    · split <;> exact ⟨rfl, rfl, rfl, rfl, rfl, rfl, rfl⟩

theorem protect_same (acts : List Word) (rad : Rat) (dr : Nat → Strikes) (n : Net) :
    Same n (protectActivations acts rad dr n).2 ∧ (protectActivations acts rad dr n).1.length = acts.length := by
  unfold protectActivations
  split
  · exact ⟨Same.refl n, rfl⟩
  · split
    · refine forN_inv (fun _ (st : List Word × Net) => Same n st.2 ∧ st.1.length = acts.length) acts.length _ _ ⟨Same.refl n, rfl⟩ ?_
      rintro i st - ⟨h1, h2⟩
      exact ⟨h1.trans (voteActivation_same _ _ _ _), by simp only [List.length_set]; exact h2⟩
    · exact ⟨Same.refl n, rfl⟩

theorem weightedSum_plain (A : Arith) {n : Net} (hp : Plain n) {l k : Nat} (hl : l < n.depth) (hk : k < n.size (l + 1))
    (prev : List Word) (s : Word) (m : Nat) (hm : m ≤ n.size l) :
    weightedSum A l k prev s n m = .ok ((List.range m).foldl (fun s p => A.add s (A.mul (n.w l p k).value (prev.getD p 0))) s, n) := by
  induction m with
  | zero => rfl
  | succ m ih =>
    rw [weightedSum, ih (by omega)]
    simp only [getWeight_plain hp hl (by omega : m < n.size l) hk, List.range_succ, List.foldl_append, List.foldl_cons, List.foldl_nil]

theorem neuron_plain (A : Arith) {n : Net} (hp : Plain n) {l k : Nat} (hl : l < n.depth) (hk : k < n.size (l + 1)) (prev : List Word) :
    neuron A l k prev n = .ok (n.act l ((List.range (n.size l)).foldl (fun s p => A.add s (A.mul (n.w l p k).value (prev.getD p 0)))
      (n.b l k).value), n) := by
  unfold neuron
  rw [getBias_plain hp hl hk]
  simp only [weightedSum_plain A hp hl hk prev _ _ (Nat.le_refl _)]

theorem neurons_plain (A : Arith) {n : Net} (hp : Plain n) {l : Nat} (hl : l < n.depth) (prev : List Word) (m : Nat)
    (hm : m ≤ n.size (l + 1)) :
    neurons A l prev n m = .ok ((List.range m).map (fun k => n.act l ((List.range (n.size l)).foldl
      (fun s p => A.add s (A.mul (n.w l p k).value (prev.getD p 0))) (n.b l k).value)), n) := by
  induction m with
  | zero => rfl
  | succ m ih =>
    rw [neurons, ih (by omega)]
    simp only [neuron_plain A hp hl (by omega : m < n.size (l + 1)), List.range_succ, List.map_append, List.map_cons, List.map_nil]

/-- The forward pass never fails, and changes only the counters. -/
theorem layers_plain (A : Arith) {n : Net} (hp : Plain n) (input : List Word) (rad : Rat) (dr : Nat → Nat → Strikes) (m : Nat)
    (hm : m ≤ n.depth) :
    ∃ out n', layers A input rad dr n m = .ok (out, n') ∧ Same n n' ∧
      ((∀ l acts n'', l < m → Same n n'' → (protectActivations acts rad (dr l) n'').1 = acts) →
        out = (List.range m).foldl (fun a l => (view n).layer A l a) input) := by
  induction m with
  | zero => exact ⟨input, n, rfl, Same.refl n, fun _ => rfl⟩
  | succ m ih =>
    obtain ⟨out, n', h1, h2, h3⟩ := ih (by omega)
    have hp' := h2.plain hp
    have hn := neurons_plain A hp' (l := m) (by rw [h2.depth]; omega) out (n'.size (m + 1)) (Nat.le_refl _)
    rw [layers, h1]
    simp only [hn]
    generalize ha : (List.range (n'.size (m + 1))).map (fun k => n'.act m ((List.range (n'.size m)).foldl
      (fun s p => A.add s (A.mul (n'.w m p k).value (out.getD p 0))) (n'.b m k).value)) = acts
    refine ⟨(protectActivations acts rad (dr m) n').1, (protectActivations acts rad (dr m) n').2, rfl, h2.trans (protect_same _ _ _ _).1, fun hprot => ?_⟩
    rw [hprot m acts n' (by omega) h2, List.range_succ, List.foldl_append, List.foldl_cons, List.foldl_nil,
      ← h3 (fun l acts n'' hl => hprot l acts n'' (by omega)), ← ha]
    have hv := h2.view
    unfold Ideal.layer
    rw [← hv]
    rfl

theorem forward_plain (A : Arith) {n : Net} (hp : Plain n) (input : List Word) (rad : Rat) (dr : Nat → Nat → Strikes)
    (hi : input.length = n.size 0) :
    ∃ out n', forward A n input rad dr = .ok (out, n') ∧ Same n n' ∧
      ((∀ l acts n'', l < n.depth → Same n n'' → (protectActivations acts rad (dr l) n'').1 = acts) → out = (view n).eval A input) := by
  unfold forward
  rw [if_neg (by omega)]
  by_cases h : n.level = .adaptiveTmr
  · rw [if_pos h]
    have ha := (adapt_same hp rad).1
    obtain ⟨out, n', h1, h2, h3⟩ := layers_plain A (ha.plain hp) input rad dr (adapt n rad).depth (Nat.le_refl _)
    refine ⟨out, n', h1, ha.trans h2, fun hprot => ?_⟩
    rw [h3 (fun l acts n'' hl hs => hprot l acts n'' (by rw [← ha.depth]; exact hl) (ha.trans hs)), ha.view, ha.depth]
    rfl
  · rw [if_neg h]
    obtain ⟨out, n', h1, h2, h3⟩ := layers_plain A hp input rad dr n.depth (Nat.le_refl _)
    exact ⟨out, n', h1, h2, fun hprot => by rw [h3 hprot]; rfl⟩

/-! ### Setters -/

theorem setWeight_plain {n : Net} (hp : Plain n) {l i j : Nat} (v : Word) (hl : l < n.depth) (hi : i < n.size l)
    (hj : j < n.size (l + 1)) :
    (setWeight n l i j v) = ({ n with w := upd3 n.w l i j { n.w l i j with value := v }, vw := upd3 n.vw l i j v }, none) := by
  unfold setWeight
  rw [if_neg (by omega), obj_set v (hp.1 l i j)]

theorem setBias_plain {n : Net} (hp : Plain n) {l j : Nat} (v : Word) (hl : l < n.depth) (hj : j < n.size (l + 1)) :
    (setBias n l j v) = ({ n with b := upd2 n.b l j { n.b l j with value := v }, vb := upd2 n.vb l j v }, none) := by
  unfold setBias
  rw [if_neg (by omega), obj_set v (hp.2 l j)]

/-- What a partial write of row `i` of layer `l` leaves: `m` entries written. -/
theorem setRow_plain {n : Net} (hp : Plain n) {l i : Nat} (hl : l < n.depth) (hi : i < n.size l) (val : Nat → Word) (m : Nat)
    (hm : m ≤ n.size (l + 1)) :
    let n' := forN m (fun j n => (setWeight n l i j (val j)).1) n
    n'.sizes = n.sizes ∧ n'.level = n.level ∧ n'.act = n.act ∧ n'.b = n.b ∧ n'.vb = n.vb ∧
      (n'.detected, n'.corrected, n'.uncorrectable, n'.counter) = (n.detected, n.corrected, n.uncorrectable, n.counter) ∧ Plain n' ∧
      (∀ l' i' j', (n'.w l' i' j').value = if l' = l ∧ i' = i ∧ j' < m then val j' else (n.w l' i' j').value) ∧
      (∀ l' i' j', n'.vw l' i' j' = if l' = l ∧ i' = i ∧ j' < m then val j' else n.vw l' i' j') := by
  intro n'
  refine forN_inv (fun m (n' : Net) => n'.sizes = n.sizes ∧ n'.level = n.level ∧ n'.act = n.act ∧ n'.b = n.b ∧ n'.vb = n.vb ∧
      (n'.detected, n'.corrected, n'.uncorrectable, n'.counter) = (n.detected, n.corrected, n.uncorrectable, n.counter) ∧ Plain n' ∧
      (∀ l' i' j', (n'.w l' i' j').value = if l' = l ∧ i' = i ∧ j' < m then val j' else (n.w l' i' j').value) ∧
      (∀ l' i' j', n'.vw l' i' j' = if l' = l ∧ i' = i ∧ j' < m then val j' else n.vw l' i' j')) m _ n
    ⟨rfl, rfl, rfl, rfl, rfl, rfl, hp, fun l' i' j' => by simp, fun l' i' j' => by simp⟩ ?_
  rintro j t hj ⟨h1, h2, h3, h4, h5, h6, h7, h8, h9⟩
  have hs : ∀ x, t.size x = n.size x := fun x => by unfold Net.size; rw [h1]
  have hd : t.depth = n.depth := by unfold Net.depth; rw [h1]

  rw [setWeight_plain h7 (val j) (by omega) (by rw [hs]; omega) (by rw [hs]; omega)]
  refine ⟨h1, h2, h3, h4, h5, h6, ⟨fun l' i' j' => ?_, h7.2⟩, fun l' i' j' => ?_, fun l' i' j' => ?_⟩
  · show (upd3 t.w l i j _ l' i' j').scheme = _ ∧ (upd3 t.w l i j _ l' i' j').valid = _
    unfold upd3
    split
    · exact h7.1 l i j
    · exact h7.1 l' i' j'
  · show (upd3 t.w l i j _ l' i' j').value = _
    unfold upd3
    by_cases h : l' = l ∧ i' = i ∧ j' = j
    · rw [if_pos h, if_pos ⟨h.1, h.2.1, by omega⟩, h.2.2]
    · rw [if_neg h, h8]
      by_cases h' : l' = l ∧ i' = i ∧ j' < j
      · rw [if_pos h', if_pos ⟨h'.1, h'.2.1, by omega⟩]
      · rw [if_neg h', if_neg (by omega)]
  · show upd3 t.vw l i j _ l' i' j' = _
    unfold upd3
    by_cases h : l' = l ∧ i' = i ∧ j' = j
    · rw [if_pos h, if_pos ⟨h.1, h.2.1, by omega⟩, h.2.2]
    · rw [if_neg h, h9]
      by_cases h' : l' = l ∧ i' = i ∧ j' < j
      · rw [if_pos h', if_pos ⟨h'.1, h'.2.1, by omega⟩]
      · rw [if_neg h', if_neg (by omega)]

/-- The counters are the same. -/
def SameStats (n m : Net) : Prop :=
  m.detected = n.detected ∧ m.corrected = n.corrected ∧ m.uncorrectable = n.uncorrectable ∧ m.counter = n.counter

theorem setRows_plain {l : Nat} : ∀ (M : List (List Word)) (i : Nat) {n : Net}, Plain n → l < n.depth → i + M.length ≤ n.size l →
    let good := M.takeWhile fun r => r.length = n.size (l + 1)
    let n' := (setRows n l i M).1
    n'.sizes = n.sizes ∧ n'.level = n.level ∧ n'.act = n.act ∧ n'.b = n.b ∧ n'.vb = n.vb ∧ SameStats n n' ∧ Plain n' ∧
      (∀ l' i' j', (n'.w l' i' j').value = if l' = l ∧ i ≤ i' ∧ i' < i + good.length ∧ j' < n.size (l + 1) then
        (M.getD (i' - i) []).getD j' 0 else (n.w l' i' j').value) ∧
      (∀ l' i' j', n'.vw l' i' j' = if l' = l ∧ i ≤ i' ∧ i' < i + good.length ∧ j' < n.size (l + 1) then
        (M.getD (i' - i) []).getD j' 0 else n.vw l' i' j') ∧
      ((setRows n l i M).2 = none ↔ ∀ r ∈ M, r.length = n.size (l + 1)) ∧
      ((setRows n l i M).2 = none ∨ (setRows n l i M).2 = some .invalidArgument) := by
  intro M
  induction M with
  | nil =>
    intro i n hp hl hi
    refine ⟨rfl, rfl, rfl, rfl, rfl, ⟨rfl, rfl, rfl, rfl⟩, hp, fun l' i' j' => ?_, fun l' i' j' => ?_, by simp [setRows], Or.inl rfl⟩
    · rw [if_neg (by simp; omega)]; rfl
    · rw [if_neg (by simp; omega)]; rfl
  | cons row rest ih =>
    intro i n hp hl hi
    rw [List.length_cons] at hi
    by_cases hr : row.length = n.size (l + 1)
    · have hrow := setRow_plain hp hl (by omega : i < n.size l) (fun j => row.getD j 0) row.length (by omega)
      have e1 : setRows n l i (row :: rest) = setRows (setRow n l i row) l (i + 1) rest := by
        rw [setRows, if_neg (by omega)]
      have e2 : (row :: rest).takeWhile (fun r => r.length = n.size (l + 1)) =
          row :: rest.takeWhile (fun r => r.length = n.size (l + 1)) := by
        rw [List.takeWhile_cons, if_pos (by simp [hr])]
      simp only [e1, e2, List.length_cons]
      have hrow' : (setRow n l i row) = forN row.length (fun j n => (setWeight n l i j (row.getD j 0)).1) n := rfl
      rw [← hrow'] at hrow
      obtain ⟨r1, r2, r3, r4, r5, r6, r7, r8, r9⟩ := hrow
      have hsz : ∀ x, (setRow n l i row).size x = n.size x := fun x => by unfold Net.size; rw [r1]
      have hdp : (setRow n l i row).depth = n.depth := by unfold Net.depth; rw [r1]
      have := ih (i + 1) r7 (by omega) (by rw [hsz]; omega)
      simp only [hsz] at this
      obtain ⟨q1, q2, q3, q4, q5, q6, q7, q8, q9, q10, q11⟩ := this
      simp only [Prod.mk.injEq] at r6
      refine ⟨q1.trans r1, q2.trans r2, q3.trans r3, q4.trans r4, q5.trans r5,
        ⟨q6.1.trans r6.1, q6.2.1.trans r6.2.1, q6.2.2.1.trans r6.2.2.1, q6.2.2.2.trans r6.2.2.2⟩, q7, fun l' i' j' => ?_, fun l' i' j' => ?_, ?_, q11⟩
      · rw [q8, r8]
        by_cases h : l' = l ∧ j' < n.size (l + 1)
        · by_cases h1 : i' = i
          · rw [if_neg (by omega), if_pos ⟨h.1, h1, by omega⟩, if_pos ⟨h.1, by omega, by omega, h.2⟩, h1, Nat.sub_self]; rfl
          · by_cases h2 : i + 1 ≤ i' ∧ i' < i + 1 + (rest.takeWhile fun r => r.length = n.size (l + 1)).length
            · rw [if_pos ⟨h.1, h2.1, h2.2, h.2⟩, if_pos ⟨h.1, by omega, by omega, h.2⟩, show i' - i = (i' - (i + 1)) + 1 by omega]; rfl
            · rw [if_neg (by omega), if_neg (by omega), if_neg (by omega)]
        · rw [if_neg (by omega), if_neg (by omega), if_neg (by omega)]
      · rw [q9, r9]
        by_cases h : l' = l ∧ j' < n.size (l + 1)
        · by_cases h1 : i' = i
          · rw [if_neg (by omega), if_pos ⟨h.1, h1, by omega⟩, if_pos ⟨h.1, by omega, by omega, h.2⟩, h1, Nat.sub_self]; rfl
          · by_cases h2 : i + 1 ≤ i' ∧ i' < i + 1 + (rest.takeWhile fun r => r.length = n.size (l + 1)).length
            · rw [if_pos ⟨h.1, h2.1, h2.2, h.2⟩, if_pos ⟨h.1, by omega, by omega, h.2⟩, show i' - i = (i' - (i + 1)) + 1 by omega]; rfl
            · rw [if_neg (by omega), if_neg (by omega), if_neg (by omega)]
        · rw [if_neg (by omega), if_neg (by omega), if_neg (by omega)]
      · rw [q10]; simp [hr]
    · have e1 : setRows n l i (row :: rest) = (n, some .invalidArgument) := by rw [setRows, if_pos hr]
      have e2 : (row :: rest).takeWhile (fun r => r.length = n.size (l + 1)) = [] := by
        rw [List.takeWhile_cons, if_neg (by simp [hr])]
      simp only [e1, e2, List.length_nil]
      refine ⟨trivial, trivial, trivial, trivial, trivial, ⟨rfl, rfl, rfl, rfl⟩, hp, fun l' i' j' => ?_, fun l' i' j' => ?_, ?_, Or.inr trivial⟩
      · rw [if_neg (by omega)]
      · rw [if_neg (by omega)]
      · constructor
        · intro h; cases h
        · intro h; exact absurd (h row (by simp)) hr

theorem Ideal.ext' {I J : Ideal} (h1 : I.sizes = J.sizes) (h2 : ∀ l i j, I.W l i j = J.W l i j) (h3 : ∀ l j, I.B l j = J.B l j)
    (h4 : I.act = J.act) : I = J := by
  obtain ⟨a, b, c, d⟩ := I
  obtain ⟨a', b', c', d'⟩ := J
  simp only at h1 h2 h3 h4
  rw [h1, h4, show b = b' from funext fun l => funext fun i => funext fun j => h2 l i j,
    show c = c' from funext fun l => funext fun j => h3 l j]

theorem setLayerWeights_plain {n : Net} (hp : Plain n) (l : Nat) (M : List (List Word)) :
    Plain (setLayerWeights n l M).1 ∧ (setLayerWeights n l M).1.level = n.level ∧ SameStats n (setLayerWeights n l M).1 ∧
      view (setLayerWeights n l M).1 = (view n).setW l M := by
  unfold setLayerWeights Ideal.setW
  by_cases hl : l ≥ n.depth
  · rw [if_pos hl, if_neg (by intro h; have : l < n.depth := h.1; omega)]
    exact ⟨hp, rfl, ⟨rfl, rfl, rfl, rfl⟩, rfl⟩
  · rw [if_neg hl]
    by_cases hM : M.length ≠ n.size l
    · rw [if_pos hM, if_neg (by intro h; exact hM h.2)]
      exact ⟨hp, rfl, ⟨rfl, rfl, rfl, rfl⟩, rfl⟩
    · rw [if_neg hM, if_pos ⟨by show l < n.depth; omega, by show M.length = n.size l; omega⟩]
      have := setRows_plain M 0 hp (by omega) (by omega : 0 + M.length ≤ n.size l)
      obtain ⟨q1, q2, q3, q4, q5, q6, q7, q8, q9, q10, q11⟩ := this
      refine ⟨q7, q2, q6, Ideal.ext' q1 (fun l' i' j' => ?_) (fun l' j' => ?_) q3⟩
      · show ((setRows n l 0 M).1.w l' i' j').value = _
        rw [q8]
        simp only [Nat.zero_le, Nat.zero_add, true_and, Nat.sub_zero]
        rfl
      · show ((setRows n l 0 M).1.b l' j').value = _
        rw [q4]; rfl

theorem setBiases_plain {n : Net} (hp : Plain n) {l : Nat} (hl : l < n.depth) (val : Nat → Word) (m : Nat) (hm : m ≤ n.size (l + 1)) :
    let n' := forN m (fun j n => (setBias n l j (val j)).1) n
    n'.sizes = n.sizes ∧ n'.level = n.level ∧ n'.act = n.act ∧ n'.w = n.w ∧ n'.vw = n.vw ∧ SameStats n n' ∧ Plain n' ∧
      (∀ l' j', (n'.b l' j').value = if l' = l ∧ j' < m then val j' else (n.b l' j').value) ∧
      (∀ l' j', n'.vb l' j' = if l' = l ∧ j' < m then val j' else n.vb l' j') := by
  intro n'
  refine forN_inv (fun m (n' : Net) => n'.sizes = n.sizes ∧ n'.level = n.level ∧ n'.act = n.act ∧ n'.w = n.w ∧ n'.vw = n.vw ∧
      SameStats n n' ∧ Plain n' ∧
      (∀ l' j', (n'.b l' j').value = if l' = l ∧ j' < m then val j' else (n.b l' j').value) ∧
      (∀ l' j', n'.vb l' j' = if l' = l ∧ j' < m then val j' else n.vb l' j')) m _ n
    ⟨rfl, rfl, rfl, rfl, rfl, ⟨rfl, rfl, rfl, rfl⟩, hp, fun l' j' => by simp, fun l' j' => by simp⟩ ?_
  rintro j t hj ⟨h1, h2, h3, h4, h5, h6, h7, h8, h9⟩
  have hs : ∀ x, t.size x = n.size x := fun x => by unfold Net.size; rw [h1]
  have hd : t.depth = n.depth := by unfold Net.depth; rw [h1]

  rw [setBias_plain h7 (val j) (by omega) (by rw [hs]; omega)]
  refine ⟨h1, h2, h3, h4, h5, h6, ⟨h7.1, fun l' j' => ?_⟩, fun l' j' => ?_, fun l' j' => ?_⟩
  · show (upd2 t.b l j _ l' j').scheme = _ ∧ (upd2 t.b l j _ l' j').valid = _
    unfold upd2
    split
    · exact h7.2 l j
    · exact h7.2 l' j'
  · show (upd2 t.b l j _ l' j').value = _
    unfold upd2
    by_cases h : l' = l ∧ j' = j
    · rw [if_pos h, if_pos ⟨h.1, by omega⟩, h.2]
    · rw [if_neg h, h8]
      by_cases h' : l' = l ∧ j' < j
      · rw [if_pos h', if_pos ⟨h'.1, by omega⟩]
      · rw [if_neg h', if_neg (by omega)]
  · show upd2 t.vb l j _ l' j' = _
    unfold upd2
    by_cases h : l' = l ∧ j' = j
    · rw [if_pos h, if_pos ⟨h.1, by omega⟩, h.2]
    · rw [if_neg h, h9]
      by_cases h' : l' = l ∧ j' < j
      · rw [if_pos h', if_pos ⟨h'.1, by omega⟩]
      · rw [if_neg h', if_neg (by omega)]

theorem setLayerBiases_plain {n : Net} (hp : Plain n) (l : Nat) (v : List Word) :
    Plain (setLayerBiases n l v).1 ∧ (setLayerBiases n l v).1.level = n.level ∧ SameStats n (setLayerBiases n l v).1 ∧
      view (setLayerBiases n l v).1 = (view n).setB l v := by
  unfold setLayerBiases Ideal.setB
  by_cases hl : l ≥ n.depth
  · rw [if_pos hl, if_neg (by intro h; have : l < n.depth := h.1; omega)]
    exact ⟨hp, rfl, ⟨rfl, rfl, rfl, rfl⟩, rfl⟩
  · rw [if_neg hl]
    by_cases hM : v.length ≠ n.size (l + 1)
    · rw [if_pos hM, if_neg (by intro h; exact hM h.2)]
      exact ⟨hp, rfl, ⟨rfl, rfl, rfl, rfl⟩, rfl⟩
    · rw [if_neg hM, if_pos ⟨by show l < n.depth; omega, by show v.length = n.size (l + 1); omega⟩]
      obtain ⟨q1, q2, q3, q4, q5, q6, q7, q8, q9⟩ := setBiases_plain hp (by omega : l < n.depth) (fun j => v.getD j 0) v.length (by omega)
      refine ⟨q7, q2, q6, Ideal.ext' q1 (fun l' i' j' => ?_) (fun l' j' => ?_) q3⟩
      · show (Net.w _ l' i' j').value = _
        rw [q4]; rfl
      · show (Net.b _ l' j').value = _
        rw [q8]; rfl

/-! ### Strikes -/

theorem hitWeight_plain {n : Net} (hp : Plain n) (h : WHit) :
    Plain (hitWeight n h) ∧ (hitWeight n h).level = n.level ∧ SameStats n (hitWeight n h) ∧ view (hitWeight n h) = (view n).hitW h := by
  unfold hitWeight Ideal.hitW
  by_cases hr : h.l < n.depth ∧ h.i < n.size h.l ∧ h.j < n.size (h.l + 1)
  · rw [getWeight_plain hp hr.1 hr.2.1 hr.2.2, if_pos (by exact hr)]
    simp only [rawSetWeight]
    rw [if_neg (by omega)]
    refine ⟨⟨fun l i j => ?_, hp.2⟩, rfl, ⟨rfl, rfl, rfl, rfl⟩, Ideal.ext' rfl (fun l i j => ?_) (fun _ _ => rfl) rfl⟩
    · show (upd3 n.w h.l h.i h.j _ l i j).scheme = _ ∧ (upd3 n.w h.l h.i h.j _ l i j).valid = _
      unfold upd3
      split
      · exact hp.1 _ _ _
      · exact hp.1 _ _ _
    · show (upd3 n.w h.l h.i h.j _ l i j).value = if l = h.l ∧ i = h.i ∧ j = h.j then h.f ((n.w l i j).value) else (n.w l i j).value
      unfold upd3
      split
      · rename_i e; rw [e.1, e.2.1, e.2.2]
      · rfl
  · have : getWeight n h.l h.i h.j = .error .outOfRange := by unfold getWeight; rw [if_pos (by omega)]
    rw [this, if_neg (by exact hr)]
    exact ⟨hp, rfl, ⟨rfl, rfl, rfl, rfl⟩, rfl⟩

theorem hitBias_plain {n : Net} (hp : Plain n) (h : BHit) :
    Plain (hitBias n h) ∧ (hitBias n h).level = n.level ∧ SameStats n (hitBias n h) ∧ view (hitBias n h) = (view n).hitB h := by
  unfold hitBias Ideal.hitB
  by_cases hr : h.l < n.depth ∧ h.j < n.size (h.l + 1)
  · rw [getBias_plain hp hr.1 hr.2, if_pos (by exact hr)]
    simp only [rawSetBias]
    rw [if_neg (by omega)]
    refine ⟨⟨hp.1, fun l j => ?_⟩, rfl, ⟨rfl, rfl, rfl, rfl⟩, Ideal.ext' rfl (fun _ _ _ => rfl) (fun l j => ?_) rfl⟩
    · show (upd2 n.b h.l h.j _ l j).scheme = _ ∧ (upd2 n.b h.l h.j _ l j).valid = _
      unfold upd2
      split
      · exact hp.2 _ _
      · exact hp.2 _ _
    · show (upd2 n.b h.l h.j _ l j).value = if l = h.l ∧ j = h.j then h.f ((n.b l j).value) else (n.b l j).value
      unfold upd2
      split
      · rename_i e; rw [e.1, e.2]
      · rfl
  · have : getBias n h.l h.j = .error .outOfRange := by unfold getBias; rw [if_pos (by omega)]
    rw [this, if_neg (by exact hr)]
    exact ⟨hp, rfl, ⟨rfl, rfl, rfl, rfl⟩, rfl⟩

theorem SameStats.trans {a b c : Net} (h : SameStats a b) (k : SameStats b c) : SameStats a c :=
  ⟨k.1.trans h.1, k.2.1.trans h.2.1, k.2.2.1.trans h.2.2.1, k.2.2.2.trans h.2.2.2⟩

theorem hitWeights_plain (ws : List WHit) : ∀ {n : Net}, Plain n →
    Plain (ws.foldl hitWeight n) ∧ (ws.foldl hitWeight n).level = n.level ∧ SameStats n (ws.foldl hitWeight n) ∧
      view (ws.foldl hitWeight n) = ws.foldl Ideal.hitW (view n) := by
  induction ws with
  | nil => intro n hp; exact ⟨hp, rfl, ⟨rfl, rfl, rfl, rfl⟩, rfl⟩
  | cons h t ih =>
    intro n hp
    obtain ⟨h1, h2, h3, h4⟩ := hitWeight_plain hp h
    obtain ⟨k1, k2, k3, k4⟩ := ih h1
    rw [List.foldl_cons, List.foldl_cons]
    exact ⟨k1, k2.trans h2, h3.trans k3, by rw [k4, h4]⟩

theorem hitBiases_plain (bs : List BHit) : ∀ {n : Net}, Plain n →
    Plain (bs.foldl hitBias n) ∧ (bs.foldl hitBias n).level = n.level ∧ SameStats n (bs.foldl hitBias n) ∧
      view (bs.foldl hitBias n) = bs.foldl Ideal.hitB (view n) := by
  induction bs with
  | nil => intro n hp; exact ⟨hp, rfl, ⟨rfl, rfl, rfl, rfl⟩, rfl⟩
  | cons h t ih =>
    intro n hp
    obtain ⟨h1, h2, h3, h4⟩ := hitBias_plain hp h
    obtain ⟨k1, k2, k3, k4⟩ := ih h1
    rw [List.foldl_cons, List.foldl_cons]
    exact ⟨k1, k2.trans h2, h3.trans k3, by rw [k4, h4]⟩

theorem applyRadiation_plain {n : Net} (hp : Plain n) (rad : Rat) (ws : List WHit) (bs : List BHit) :
    Plain (applyRadiation n rad ws bs) ∧ (applyRadiation n rad ws bs).level = n.level ∧ SameStats n (applyRadiation n rad ws bs) ∧
      view (applyRadiation n rad ws bs) = istep n.level (view n) (.radiate rad ws bs) := by
  unfold applyRadiation istep
  by_cases hr : rad ≤ 0
  · rw [if_pos hr]
    simp only [if_pos hr]
    exact ⟨hp, trivial, ⟨rfl, rfl, rfl, rfl⟩, trivial⟩
  · rw [if_neg hr]
    simp only [if_neg hr]
    obtain ⟨h1, h2, h3, h4⟩ := hitWeights_plain ws hp
    have key : ∀ m : Net, Plain m → m.level = n.level →
        (if m.level = .adaptiveTmr ∨ m.level = .fullTmr then repairAll m else m) = m := by
      intro m hm _
      split
      · exact repairAll_plain hm
      · rfl
    by_cases hb : (ws.foldl hitWeight n).level.rank ≥ Level.selectiveTmr.rank
    · obtain ⟨k1, k2, k3, k4⟩ := hitBiases_plain bs h1
      rw [if_pos hb, key _ k1 (k2.trans h2)]
      rw [if_pos (by rw [← h2]; exact hb), ← h4]
      exact ⟨k1, k2.trans h2, h3.trans k3, k4⟩
    · rw [if_neg hb, key _ h1 h2]
      rw [if_neg (by rw [← h2]; exact hb), ← h4]
      exact ⟨h1, h2, h3, rfl⟩

/-! ### Construction -/

/-- The network the constructor is meant to build: the drawn weights, zero biases, one activation function. -/
def start (sizes : List Nat) (vals : Nat → Nat → Nat → Word) (relu : Word → Word) : Ideal :=
  ⟨sizes, fun l i j => if l < sizes.length - 1 ∧ i < sizes.getD l 0 ∧ j < sizes.getD (l + 1) 0 then vals l i j else 0#32,
    fun _ _ => 0#32, fun _ => relu⟩

/-- What the initialisation of some layers keeps and writes. -/
structure Init (n : Net) (m : Net) (W : Nat → Nat → Nat → Word) : Prop where
  sizes : m.sizes = n.sizes
  level : m.level = n.level
  act : m.act = n.act
  stats : SameStats n m
  plain : Plain m
  w : ∀ l i j, (m.w l i j).value = W l i j
  vw : ∀ l i j, m.vw l i j = W l i j
  b : ∀ l j, (m.b l j).value = 0#32
  vb : ∀ l j, m.vb l j = 0#32

theorem initLayer_init {n m : Net} {vals : Nat → Nat → Nat → Word} {l : Nat} (hl : l < n.depth)
    (h : Init n m (fun l' i j => if l' < l ∧ i < n.size l' ∧ j < n.size (l' + 1) then vals l' i j else 0#32)) :
    Init n (initLayer vals l m) (fun l' i j => if l' < l + 1 ∧ i < n.size l' ∧ j < n.size (l' + 1) then vals l' i j else 0#32) := by
  unfold initLayer
  have hsz : m.size l = n.size l := by unfold Net.size; rw [h.sizes]
  have key : Init n (forN (m.size l) (fun i n => forN (n.size (l + 1)) (fun j n => (setWeight n l i j (vals l i j)).1) n) m)
      (fun l' i' j => if (l' < l ∧ i' < n.size l' ∧ j < n.size (l' + 1)) ∨ (l' = l ∧ i' < m.size l ∧ j < n.size (l + 1)) then
        vals l' i' j else 0#32) := by
    refine forN_inv (fun i (t : Net) => Init n t (fun l' i' j =>
      if (l' < l ∧ i' < n.size l' ∧ j < n.size (l' + 1)) ∨ (l' = l ∧ i' < i ∧ j < n.size (l + 1)) then vals l' i' j else 0#32))
      (m.size l) _ m ?_ ?_
    · have : (fun l' i' j => if (l' < l ∧ i' < n.size l' ∧ j < n.size (l' + 1)) ∨ (l' = l ∧ i' < 0 ∧ j < n.size (l + 1)) then
          vals l' i' j else 0#32) = (fun l' i j => if l' < l ∧ i < n.size l' ∧ j < n.size (l' + 1) then vals l' i j else 0#32) := by
        funext l' i' j
        by_cases hc : l' < l ∧ i' < n.size l' ∧ j < n.size (l' + 1)
        · rw [if_pos hc, if_pos (Or.inl hc)]
        · rw [if_neg hc, if_neg (by omega)]
      rw [this]; exact h
    · intro i t hi ht
      have hs : ∀ x, t.size x = n.size x := fun x => by unfold Net.size; rw [ht.sizes]
      have hd : t.depth = n.depth := by unfold Net.depth; rw [ht.sizes]
      obtain ⟨r1, r2, r3, r4, r5, r6, r7, r8, r9⟩ :=
        setRow_plain ht.plain (l := l) (i := i) (by omega) (by rw [hs]; omega) (fun j => vals l i j) (t.size (l + 1)) (Nat.le_refl _)
      simp only [Prod.mk.injEq] at r6
      have hval : ∀ l' i' j', (if l' = l ∧ i' = i ∧ j' < t.size (l + 1) then vals l i j' else
          if (l' < l ∧ i' < n.size l' ∧ j' < n.size (l' + 1)) ∨ (l' = l ∧ i' < i ∧ j' < n.size (l + 1)) then vals l' i' j' else 0#32) =
          if (l' < l ∧ i' < n.size l' ∧ j' < n.size (l' + 1)) ∨ (l' = l ∧ i' < i + 1 ∧ j' < n.size (l + 1)) then vals l' i' j' else 0#32 := by
        intro l' i' j'
        rw [hs]
        by_cases hc : l' = l ∧ i' = i ∧ j' < n.size (l + 1)
        · rw [if_pos hc, if_pos (Or.inr ⟨hc.1, by omega, hc.2.2⟩), hc.1, hc.2.1]
        · rw [if_neg hc]
          by_cases hc' : (l' < l ∧ i' < n.size l' ∧ j' < n.size (l' + 1)) ∨ (l' = l ∧ i' < i ∧ j' < n.size (l + 1))
          · rw [if_pos hc', if_pos (by omega)]
          · rw [if_neg hc', if_neg (by omega)]
      exact ⟨r1.trans ht.sizes, r2.trans ht.level, r3.trans ht.act,
        ⟨r6.1.trans ht.stats.1, r6.2.1.trans ht.stats.2.1, r6.2.2.1.trans ht.stats.2.2.1, r6.2.2.2.trans ht.stats.2.2.2⟩, r7,
        fun l' i' j' => by rw [r8, ht.w]; exact hval l' i' j', fun l' i' j' => by rw [r9, ht.vw]; exact hval l' i' j',
        fun l' j' => by rw [r4]; exact ht.b l' j', fun l' j' => by rw [r5]; exact ht.vb l' j'⟩
  simp only
  generalize forN (m.size l) (fun i n => forN (n.size (l + 1)) (fun j n => (setWeight n l i j (vals l i j)).1) n) m = t at key
  have hs : ∀ x, t.size x = n.size x := fun x => by unfold Net.size; rw [key.sizes]
  have hd : t.depth = n.depth := by unfold Net.depth; rw [key.sizes]
  obtain ⟨q1, q2, q3, q4, q5, q6, q7, q8, q9⟩ :=
    setBiases_plain key.plain (l := l) (by omega) (fun _ => 0#32) (t.size (l + 1)) (Nat.le_refl _)
  have hval : ∀ l' i' j', (if (l' < l ∧ i' < n.size l' ∧ j' < n.size (l' + 1)) ∨ (l' = l ∧ i' < m.size l ∧ j' < n.size (l + 1)) then
      vals l' i' j' else 0#32) = if l' < l + 1 ∧ i' < n.size l' ∧ j' < n.size (l' + 1) then vals l' i' j' else 0#32 := by
    intro l' i' j'
    rw [hsz]
    by_cases hc : l' = l
    · subst hc
      by_cases hc' : i' < n.size l' ∧ j' < n.size (l' + 1)
      · rw [if_pos (Or.inr ⟨rfl, hc'⟩), if_pos ⟨by omega, hc'⟩]
      · rw [if_neg (by omega), if_neg (by omega)]
    · by_cases hc' : l' < l ∧ i' < n.size l' ∧ j' < n.size (l' + 1)
      · rw [if_pos (Or.inl hc'), if_pos ⟨by omega, hc'.2⟩]
      · rw [if_neg (by omega), if_neg (by omega)]
  exact ⟨q1.trans key.sizes, q2.trans key.level, q3.trans key.act, key.stats.trans q6, q7,
    fun l' i' j' => by rw [q4, key.w]; exact hval l' i' j', fun l' i' j' => by rw [q5, key.vw]; exact hval l' i' j',
    fun l' j' => by rw [q8, key.b]; split <;> rfl, fun l' j' => by rw [q9, key.vb]; split <;> rfl⟩

/-- What a successful construction gives. -/
theorem construct_plain {sizes : List Nat} {level : Level} {vals : Nat → Nat → Nat → Word} {relu : Word → Word} {junk : Nat → BitVec 8}
    {n : Net} (h : construct sizes level vals relu junk = .ok n) :
    2 ≤ sizes.length ∧ Plain n ∧ n.level = level ∧ view n = start sizes vals relu ∧ n.detected = 0 ∧ n.corrected = 0 ∧
      n.uncorrectable = 0 ∧ n.counter = 0 ∧ n.vw = (view n).W ∧ n.vb = (view n).B := by
  unfold construct at h
  by_cases hs : sizes.length < 2
  · rw [if_pos hs] at h; cases h
  · rw [if_neg hs] at h
    simp only [Except.ok.injEq] at h
    generalize hn0 : (⟨sizes, level, 0, fun _ _ _ => blank junk, fun _ _ => blank junk, fun _ => relu, fun _ _ _ => 0#32,
      fun _ _ => 0#32, 0, 0, 0⟩ : Net) = n0 at h
    have key : Init n0 n (fun l' i j => if l' < n0.depth ∧ i < n0.size l' ∧ j < n0.size (l' + 1) then vals l' i j else 0#32) := by
      rw [← h]
      refine forN_inv (fun l (t : Net) => Init n0 t (fun l' i j =>
        if l' < l ∧ i < n0.size l' ∧ j < n0.size (l' + 1) then vals l' i j else 0#32)) n0.depth _ n0 ?_ ?_
      · subst hn0
        exact ⟨rfl, rfl, rfl, ⟨rfl, rfl, rfl, rfl⟩, ⟨fun _ _ _ => ⟨rfl, rfl⟩, fun _ _ => ⟨rfl, rfl⟩⟩,
          fun l i j => by rw [if_neg (by omega)]; rfl, fun l i j => by rw [if_neg (by omega)], fun _ _ => rfl, fun _ _ => rfl⟩
      · intro l t hl ht
        exact initLayer_init hl ht
    have hv : view n = start sizes vals relu := by
      refine Ideal.ext' ?_ (fun l i j => ?_) (fun l j => ?_) ?_
      · show n.sizes = sizes
        rw [key.sizes, ← hn0]
      · show (n.w l i j).value = _
        rw [key.w, ← hn0]; rfl
      · exact key.b l j
      · show n.act = fun _ => relu
        rw [key.act, ← hn0]
    refine ⟨by omega, key.plain, by rw [key.level, ← hn0], hv, by rw [key.stats.1, ← hn0], by rw [key.stats.2.1, ← hn0],
      by rw [key.stats.2.2.1, ← hn0], by rw [key.stats.2.2.2, ← hn0], ?_, ?_⟩
    · funext l i j
      show n.vw l i j = (n.w l i j).value
      rw [key.vw, key.w]
    · funext l j
      show n.vb l j = (n.b l j).value
      rw [key.vb, key.b]

/-! ### Loss and training -/

theorem lossLoop_plain (A : Arith) {n : Net} (hp : Plain n) (data labels : List Word) (m : Nat) (hm : m * n.size 0 ≤ data.length) :
    ∃ n', lossLoop A data labels n m = .ok ((List.range m).map (fun s =>
      ((view n).eval A ((data.drop (s * n.size 0)).take (n.size 0)), (labels.drop (s * n.sizes.getLastD 0)).take (n.sizes.getLastD 0))),
        n') ∧ Same n n' := by
  induction m with
  | zero => exact ⟨n, rfl, Same.refl n⟩
  | succ m ih =>
    rw [Nat.succ_mul] at hm
    obtain ⟨n', h1, h2⟩ := ih (by omega)
    rw [lossLoop, h1]
    simp only
    have hlen : ((data.drop (m * n'.size 0)).take (n'.size 0)).length = n'.size 0 := by
      rw [List.length_take, List.length_drop, h2.size]; omega
    obtain ⟨out, n'', k1, k2, k3⟩ := forward_plain A (h2.plain hp) _ 0 (fun _ _ => (none, none)) hlen
    rw [k1]
    refine ⟨n'', ?_, h2.trans k2⟩
    have hout : out = (view n').eval A ((data.drop (m * n'.size 0)).take (n'.size 0)) := by
      refine k3 fun l acts n3 _ _ => ?_
      unfold protectActivations
      split
      · rfl
      · rw [if_neg (by intro h; exact absurd h.2 (by decide +kernel))]
    simp only [hout, h2.view, h2.size, h2.1, List.range_succ, List.map_append, List.map_cons, List.map_nil]

theorem calculateLoss_same (A : Arith) {n : Net} (hp : Plain n) (data labels : List Word) : Same n (calculateLoss A n data labels).2 := by
  unfold calculateLoss
  simp only
  split
  · exact Same.refl n
  · split
    · exact Same.refl n
    · obtain ⟨n', h1, h2⟩ := lossLoop_plain A hp data labels (data.length / n.size 0) (Nat.div_mul_le_self _ _)
      rw [h1]; exact h2

theorem train_same (A : Arith) {n : Net} (hp : Plain n) (data labels : List Word) (e : Int) : Same n (train A n data labels e) := by
  unfold train
  refine forN_inv (fun _ (t : Net) => Same n t) e.toNat _ n (Same.refl n) ?_
  intro _ t _ ht
  exact ht.trans (calculateLoss_same A (ht.plain hp) data labels)

/-! ### Histories -/

theorem step_plain (A : Arith) {n : Net} (hp : Plain n) (op : Op) :
    Plain (step A n op) ∧ (step A n op).level = n.level ∧ view (step A n op) = istep n.level (view n) op := by
  cases op with
  | setW l M => have := setLayerWeights_plain hp l M; exact ⟨this.1, this.2.1, this.2.2.2⟩
  | setB l v => have := setLayerBiases_plain hp l v; exact ⟨this.1, this.2.1, this.2.2.2⟩
  | setAct l f =>
    show Plain (setActivation n l f).1 ∧ (setActivation n l f).1.level = n.level ∧ view (setActivation n l f).1 = (view n).setAct l f
    unfold setActivation Ideal.setAct
    by_cases hl : l ≥ n.depth
    · rw [if_pos hl, if_neg (by intro h; have : l < n.depth := h; omega)]; exact ⟨hp, rfl, rfl⟩
    · rw [if_neg hl, if_pos (by show l < n.depth; omega)]; exact ⟨hp, rfl, rfl⟩
  | forward x r d =>
    show Plain (match PNet.forward A n x r d with | .ok (_, n) => n | .error _ => n) ∧ _
    by_cases hx : x.length = n.size 0
    · obtain ⟨out, n', h1, h2, -⟩ := forward_plain A hp x r d hx
      simp only [step, h1]
      exact ⟨h2.plain hp, h2.2.1, h2.view⟩
    · have : PNet.forward A n x r d = .error .invalidArgument := by unfold PNet.forward; rw [if_pos hx]
      simp only [step, this]
      exact ⟨hp, trivial, rfl⟩
  | radiate r ws bs => have := applyRadiation_plain hp r ws bs; exact ⟨this.1, this.2.1, this.2.2.2⟩
  | editW l i j v =>
    show Plain (editLayerWeight n l i j v).1 ∧ (editLayerWeight n l i j v).1.level = n.level ∧ view (editLayerWeight n l i j v).1 = view n
    unfold editLayerWeight; split <;> exact ⟨hp, rfl, rfl⟩
  | editB l j v =>
    show Plain (editLayerBias n l j v).1 ∧ (editLayerBias n l j v).1.level = n.level ∧ view (editLayerBias n l j v).1 = view n
    unfold editLayerBias; split <;> exact ⟨hp, rfl, rfl⟩
  | resetStats => exact ⟨hp, rfl, rfl⟩
  | train d l e => have := train_same A hp d l e; exact ⟨this.plain hp, this.2.1, this.view⟩
  | copy => exact ⟨hp, rfl, rfl⟩

/-- The object after a history. -/
def run (A : Arith) (n : Net) (h : List Op) : Net := h.foldl (step A) n

theorem run_plain (A : Arith) (h : List Op) : ∀ {n : Net}, Plain n →
    Plain (run A n h) ∧ (run A n h).level = n.level ∧ view (run A n h) = h.foldl (istep n.level) (view n) := by
  induction h with
  | nil => intro n hp; exact ⟨hp, rfl, rfl⟩
  | cons op t ih =>
    intro n hp
    obtain ⟨h1, h2, h3⟩ := step_plain A hp op
    obtain ⟨k1, k2, k3⟩ := ih h1
    exact ⟨k1, k2.trans h2, by rw [List.foldl_cons, ← h3, ← h2]; exact k3⟩

theorem eval_length (A : Arith) (I : Ideal) (input : List Word) (hi : input.length = I.size 0) :
    (I.eval A input).length = I.size I.depth := by
  have : ∀ m, m ≤ I.depth → ((List.range m).foldl (fun a l => I.layer A l a) input).length = I.size m := by
    intro m
    induction m with
    | zero => intro _; exact hi
    | succ m ih =>
      intro hm
      rw [List.range_succ, List.foldl_append]
      simp [Ideal.layer]
  exact this _ (Nat.le_refl _)

/-! ### Statistics -/

theorem layers_inv (A : Arith) {n : Net} (hp : Plain n) (input : List Word) (rad : Rat) (dr : Nat → Nat → Strikes) (Q : Net → Prop)
    (hQ : ∀ l acts n', Q n' → Q (protectActivations acts rad (dr l) n').2) (h0 : Q n) (m : Nat) (hm : m ≤ n.depth) :
    ∃ out n', layers A input rad dr n m = .ok (out, n') ∧ Same n n' ∧ Q n' := by
  induction m with
  | zero => exact ⟨input, n, rfl, Same.refl n, h0⟩
  | succ m ih =>
    obtain ⟨out, n', h1, h2, h3⟩ := ih (by omega)
    have hn := neurons_plain A (h2.plain hp) (l := m) (by rw [h2.depth]; omega) out (n'.size (m + 1)) (Nat.le_refl _)
    rw [layers, h1]
    simp only [hn]
    generalize (List.range (n'.size (m + 1))).map (fun k => n'.act m ((List.range (n'.size m)).foldl
      (fun s p => A.add s (A.mul (n'.w m p k).value (out.getD p 0))) (n'.b m k).value)) = acts
    exact ⟨(protectActivations acts rad (dr m) n').1, (protectActivations acts rad (dr m) n').2, rfl,
      h2.trans (protect_same _ _ _ _).1, hQ _ _ _ h3⟩

theorem forward_inv (A : Arith) {n : Net} (hp : Plain n) (input : List Word) (rad : Rat) (dr : Nat → Nat → Strikes) (Q : Net → Prop)
    (hQ : ∀ l acts n', Q n' → Q (protectActivations acts rad (dr l) n').2) (ha : Q (adapt n rad)) (h0 : Q n)
    {out : List Word} {n' : Net} (h : forward A n input rad dr = .ok (out, n')) : Q n' := by
  unfold forward at h
  by_cases hi : input.length ≠ n.size 0
  · rw [if_pos hi] at h; cases h
  · rw [if_neg hi] at h
    by_cases hl : n.level = .adaptiveTmr
    · simp only [if_pos hl] at h
      obtain ⟨o, m, h1, -, h3⟩ := layers_inv A ((adapt_same hp rad).1.plain hp) input rad dr Q hQ ha (adapt n rad).depth (Nat.le_refl _)
      rw [h1] at h; injection h with h; injection h with _ h; rw [← h]; exact h3
    · simp only [if_neg hl] at h
      obtain ⟨o, m, h1, -, h3⟩ := layers_inv A hp input rad dr Q hQ h0 n.depth (Nat.le_refl _)
      rw [h1] at h; injection h with h; injection h with _ h; rw [← h]; exact h3

/-- The three error counters are the same. -/
def SameErr (n m : Net) : Prop :=
  m.detected = n.detected ∧ m.corrected = n.corrected ∧ m.uncorrectable = n.uncorrectable

/-- Activations are not voted on. -/
def Quiet (L : Level) (rad : Rat) : Prop := (L ≠ .fullTmr ∧ L ≠ .adaptiveTmr) ∨ rad ≤ 1 / 5

theorem protect_quiet {n : Net} {rad : Rat} (h : Quiet n.level rad) (acts : List Word) (dr : Nat → Strikes) :
    protectActivations acts rad dr n = (acts, n) := by
  unfold protectActivations
  split
  · rfl
  · rw [if_neg]
    intro hc
    rcases h with h | h
    · rcases hc.1 with h' | h'
      · exact h.1 h'
      · exact h.2 h'
    · exact absurd hc.2 (Rat.not_lt.2 h)

theorem forward_quiet (A : Arith) {n : Net} (hp : Plain n) {input : List Word} {rad : Rat} {dr : Nat → Nat → Strikes}
    (hq : Quiet n.level rad) {out : List Word} {n' : Net} (h : forward A n input rad dr = .ok (out, n')) : SameErr n n' := by
  have := forward_inv A hp input rad dr (fun m => SameErr n m ∧ m.level = n.level) ?_ ?_ ⟨⟨rfl, rfl, rfl⟩, rfl⟩ h
  · exact this.1
  · rintro l acts m ⟨h1, h2⟩
    rw [protect_quiet (by rw [h2]; exact hq)]
    exact ⟨h1, h2⟩
  · have := adapt_same hp rad
    exact ⟨this.2, this.1.2.1⟩

theorem vote_balance (a c1 c2 : Word) (n : Net) (h : n.detected = n.corrected + n.uncorrectable) :
    (voteActivation a c1 c2 n).2.detected = (voteActivation a c1 c2 n).2.corrected + (voteActivation a c1 c2 n).2.uncorrectable := by
  unfold voteActivation
  split
  · exact h
  · split
    · show n.detected + 1 = n.corrected + 1 + n.uncorrectable; omega
    · split
      · show n.detected + 1 = n.corrected + 1 + n.uncorrectable; omega
      · show n.detected + 1 = n.corrected + (n.uncorrectable + 1); omega

theorem forward_balance (A : Arith) {n : Net} (hp : Plain n) {input : List Word} {rad : Rat} {dr : Nat → Nat → Strikes}
    (hb : n.detected = n.corrected + n.uncorrectable) {out : List Word} {n' : Net} (h : forward A n input rad dr = .ok (out, n')) :
    n'.detected = n'.corrected + n'.uncorrectable := by
  refine forward_inv A hp input rad dr (fun m => m.detected = m.corrected + m.uncorrectable) ?_ ?_ hb h
  · intro l acts m hm
    unfold protectActivations
    split
    · exact hm
    · split
      · refine forN_inv (fun _ (st : List Word × Net) => st.2.detected = st.2.corrected + st.2.uncorrectable) acts.length _ _ hm ?_
        intro i st _ hst
        exact vote_balance _ _ _ _ hst
      · exact hm
  · have := adapt_same hp rad
    rw [this.2.1, this.2.2.1, this.2.2.2]; exact hb

theorem lossLoop_quiet (A : Arith) {n : Net} (hp : Plain n) (data labels : List Word) (m : Nat) (hm : m * n.size 0 ≤ data.length) :
    ∃ ps n', lossLoop A data labels n m = .ok (ps, n') ∧ Same n n' ∧ SameErr n n' := by
  induction m with
  | zero => exact ⟨[], n, rfl, Same.refl n, rfl, rfl, rfl⟩
  | succ m ih =>
    rw [Nat.succ_mul] at hm
    obtain ⟨ps, n', h1, h2, h3⟩ := ih (by omega)
    rw [lossLoop, h1]
    simp only
    have hlen : ((data.drop (m * n'.size 0)).take (n'.size 0)).length = n'.size 0 := by
      rw [List.length_take, List.length_drop, h2.size]; omega
    obtain ⟨out, n'', k1, k2, -⟩ := forward_plain A (h2.plain hp) _ 0 (fun _ _ => (none, none)) hlen
    have k3 := forward_quiet A (h2.plain hp) (Or.inr (by decide +kernel)) k1
    rw [k1]
    exact ⟨_, n'', rfl, h2.trans k2, k3.1.trans h3.1, k3.2.1.trans h3.2.1, k3.2.2.trans h3.2.2⟩

theorem train_quiet (A : Arith) {n : Net} (hp : Plain n) (data labels : List Word) (e : Int) : SameErr n (train A n data labels e) := by
  unfold train
  have := forN_inv (fun _ (t : Net) => Same n t ∧ SameErr n t) e.toNat (fun _ n => (calculateLoss A n data labels).2) n
    ⟨Same.refl n, rfl, rfl, rfl⟩ ?_
  · exact this.2
  · rintro _ t _ ⟨h1, h2⟩
    refine ⟨h1.trans (calculateLoss_same A (h1.plain hp) data labels), ?_⟩
    unfold calculateLoss
    simp only
    split
    · exact h2
    · split
      · exact h2
      · obtain ⟨ps, n', k1, -, k3⟩ := lossLoop_quiet A (h1.plain hp) data labels (data.length / t.size 0) (Nat.div_mul_le_self _ _)
        rw [k1]
        exact ⟨k3.1.trans h2.1, k3.2.1.trans h2.2.1, k3.2.2.trans h2.2.2⟩

/-- Only a forward pass and a reset can change the error counters. -/
theorem step_err (A : Arith) {n : Net} (hp : Plain n) (op : Op) (h1 : ∀ x r d, op = .forward x r d → Quiet n.level r)
    (h2 : op ≠ .resetStats) : SameErr n (step A n op) := by
  have ofS : ∀ {m : Net}, SameStats n m → SameErr n m := fun h => ⟨h.1, h.2.1, h.2.2.1⟩
  cases op with
  | setW l M => exact ofS (setLayerWeights_plain hp l M).2.2.1
  | setB l v => exact ofS (setLayerBiases_plain hp l v).2.2.1
  | setAct l f => simp only [step, setActivation]; split <;> exact ⟨rfl, rfl, rfl⟩
  | forward x r d =>
    simp only [step]
    split
    · rename_i h; exact forward_quiet A hp (h1 x r d rfl) h
    · exact ⟨rfl, rfl, rfl⟩
  | radiate r ws bs => exact ofS (applyRadiation_plain hp r ws bs).2.2.1
  | editW l i j v => simp only [step, editLayerWeight]; split <;> exact ⟨rfl, rfl, rfl⟩
  | editB l j v => simp only [step, editLayerBias]; split <;> exact ⟨rfl, rfl, rfl⟩
  | resetStats => exact absurd rfl h2
  | train d l e => exact train_quiet A hp d l e
  | copy => exact ⟨rfl, rfl, rfl⟩

/-- A history observed at the API: the network `n` was constructed with these arguments and then used. -/
structure Reached (A : Arith) (sizes : List Nat) (level : Level) (vals : Nat → Nat → Nat → Word) (relu : Word → Word) (h : List Op)
    (n : Net) : Prop where
  intro ::
  made : ∃ junk n0, construct sizes level vals relu junk = .ok n0 ∧ n = run A n0 h

theorem Reached.facts {A : Arith} {sizes : List Nat} {level : Level} {vals : Nat → Nat → Nat → Word} {relu : Word → Word} {h : List Op}
    {n : Net} (r : Reached A sizes level vals relu h n) :
    2 ≤ sizes.length ∧ Plain n ∧ n.level = level ∧ view n = h.foldl (istep level) (start sizes vals relu) := by
  obtain ⟨junk, n0, h1, rfl⟩ := r.made
  obtain ⟨h0, hp, hl, hv, -⟩ := construct_plain h1
  obtain ⟨k1, k2, k3⟩ := run_plain A h hp
  exact ⟨h0, k1, k2.trans hl, by rw [k3, hl, hv]⟩

theorem istep_sizes (L : Level) (I : Ideal) (op : Op) : (istep L I op).sizes = I.sizes := by
  have hw : ∀ (ws : List WHit) (I : Ideal), (ws.foldl Ideal.hitW I).sizes = I.sizes := by
    intro ws
    induction ws with
    | nil => intro I; rfl
    | cons a t ih => intro I; rw [List.foldl_cons, ih]; unfold Ideal.hitW; split <;> rfl
  have hb : ∀ (ws : List BHit) (I : Ideal), (ws.foldl Ideal.hitB I).sizes = I.sizes := by
    intro ws
    induction ws with
    | nil => intro I; rfl
    | cons a t ih => intro I; rw [List.foldl_cons, ih]; unfold Ideal.hitB; split <;> rfl
  cases op with
  | setW l M => simp only [istep, Ideal.setW]; split <;> rfl
  | setB l v => simp only [istep, Ideal.setB]; split <;> rfl
  | setAct l f => simp only [istep, Ideal.setAct]; split <;> rfl
  | radiate r ws bs =>
    simp only [istep]
    split
    · rfl
    · split
      · rw [hb, hw]
      · rw [hw]
  | _ => rfl

theorem fold_sizes (L : Level) (h : List Op) : ∀ I : Ideal, (h.foldl (istep L) I).sizes = I.sizes := by
  induction h with
  | nil => intro I; rfl
  | cons a t ih => intro I; rw [List.foldl_cons, ih, istep_sizes]

theorem Reached.sizes {A : Arith} {sizes : List Nat} {level : Level} {vals : Nat → Nat → Nat → Word} {relu : Word → Word} {h : List Op}
    {n : Net} (r : Reached A sizes level vals relu h n) : n.sizes = sizes := by
  have := congrArg Ideal.sizes r.facts.2.2.2
  rw [fold_sizes] at this
  exact this

theorem takeWhile_all {α : Type} {p : α → Bool} : ∀ M : List α, (∀ r ∈ M, p r = true) → M.takeWhile p = M
  | [], _ => rfl
  | a :: t, h => by
    rw [List.takeWhile_cons, if_pos (h a (by simp)), takeWhile_all t fun r hr => h r (by simp [hr])]

/-! ### C85: the network computes what its parameters say -/

/-- The constructor accepts exactly the networks of at least two layers. -/
theorem C85_construct (sizes : List Nat) (level : Level) (vals : Nat → Nat → Nat → Word) (relu : Word → Word) (junk : Nat → BitVec 8) :
    (sizes.length < 2 → construct sizes level vals relu junk = .error .invalidArgument) ∧
    (2 ≤ sizes.length → ∃ n, construct sizes level vals relu junk = .ok n ∧ view n = start sizes vals relu ∧ n.level = level ∧
      errorStats n = (0, 0)) := by
  constructor
  · intro h; unfold construct; rw [if_pos h]
  · intro h
    have : ∃ n, construct sizes level vals relu junk = .ok n := by unfold construct; rw [if_neg (by omega)]; exact ⟨_, rfl⟩
    obtain ⟨n, hn⟩ := this
    obtain ⟨-, -, h3, h4, h5, h6, -⟩ := construct_plain hn
    exact ⟨n, hn, h4, h3, by unfold errorStats; rw [h5, h6]⟩

/-- For every history of setter calls, strikes, forward passes, training and edits, a forward pass over an input of the right size
succeeds and returns exactly what the plain network with the parameters written (and struck) so far computes, as long as activations
are not voted on. -/
theorem C85_forward {A : Arith} {sizes : List Nat} {level : Level} {vals : Nat → Nat → Nat → Word} {relu : Word → Word} {h : List Op}
    {n : Net} (r : Reached A sizes level vals relu h n) (input : List Word) (rad : Rat) (dr : Nat → Nat → Strikes)
    (hq : (level ≠ .fullTmr ∧ level ≠ .adaptiveTmr) ∨ rad ≤ 1 / 5) :
    (input.length = sizes.getD 0 0 → ∃ n', forward A n input rad dr =
      .ok ((h.foldl (istep level) (start sizes vals relu)).eval A input, n')) ∧
    (input.length ≠ sizes.getD 0 0 → forward A n input rad dr = .error .invalidArgument) := by
  obtain ⟨-, hp, hl, hv⟩ := r.facts
  constructor
  · intro hi
    obtain ⟨out, n', h1, -, h3⟩ := forward_plain A hp input rad dr (by unfold Net.size; rw [r.sizes]; exact hi)
    refine ⟨n', ?_⟩
    rw [h1, h3, hv]
    intro l acts n'' _ hs
    rw [protect_quiet (by rw [hs.2.1, hl]; exact hq)]
  · intro hi
    unfold forward
    rw [if_pos (by unfold Net.size; rw [r.sizes]; exact hi)]

/-- The output has as many elements as the last layer, at every protection and radiation level, and the pass changes no parameter. -/
theorem C85_forward_shape {A : Arith} {sizes : List Nat} {level : Level} {vals : Nat → Nat → Nat → Word} {relu : Word → Word}
    {h : List Op} {n : Net} (r : Reached A sizes level vals relu h n) (input : List Word) (rad : Rat) (dr : Nat → Nat → Strikes)
    (hi : input.length = sizes.getD 0 0) :
    ∃ out n', forward A n input rad dr = .ok (out, n') ∧ out.length = sizes.getD (sizes.length - 1) 0 ∧ view n' = view n ∧
      n'.vw = n.vw ∧ n'.vb = n.vb ∧ n'.level = n.level := by
  obtain ⟨h0, hp, hl, hv⟩ := r.facts
  obtain ⟨out, n', h1, h2, -⟩ := forward_plain A hp input rad dr (by unfold Net.size; rw [r.sizes]; exact hi)
  refine ⟨out, n', h1, ?_, h2.view, h2.2.2.2.2.2.1, h2.2.2.2.2.2.2, h2.2.1⟩
  have key : ∀ {m : Net}, Plain m → m.sizes = sizes → ∀ {o m'}, layers A input rad dr m m.depth = .ok (o, m') →
      o.length = sizes.getD (sizes.length - 1) 0 := by
    intro m hpm hm o m' hlay
    have hd : m.depth = (sizes.length - 2) + 1 := by unfold Net.depth; rw [hm]; omega
    rw [hd] at hlay
    obtain ⟨o1, m1, k1, k2, -⟩ := layers_plain A hpm input rad dr (sizes.length - 2) (by omega)
    rw [layers, k1] at hlay
    have hn := neurons_plain A (k2.plain hpm) (l := sizes.length - 2) (by rw [k2.depth]; omega) o1 (m1.size (sizes.length - 2 + 1)) (Nat.le_refl _)
    simp only [hn] at hlay
    injection hlay with hlay
    rw [show o = _ from (congrArg Prod.fst hlay).symm, (protect_same _ _ _ _).2, List.length_map, List.length_range, k2.size]
    unfold Net.size; rw [hm, show sizes.length - 2 + 1 = sizes.length - 1 by omega]
  unfold forward at h1
  rw [if_neg (by unfold Net.size; rw [r.sizes]; omega)] at h1
  by_cases ha : n.level = .adaptiveTmr
  · simp only [if_pos ha] at h1
    have hs := (adapt_same hp rad).1
    exact key (hs.plain hp) (hs.1.trans r.sizes) h1
  · simp only [if_neg ha] at h1
    exact key hp r.sizes h1

/-- `setLayerWeights`: which calls succeed, and what each failure is. -/
theorem C85_set_weights_result {A : Arith} {sizes : List Nat} {level : Level} {vals : Nat → Nat → Nat → Word} {relu : Word → Word}
    {h : List Op} {n : Net} (r : Reached A sizes level vals relu h n) (l : Nat) (M : List (List Word)) :
    (setLayerWeights n l M).2 =
      if l ≥ sizes.length - 1 then some .outOfRange
      else if M.length = sizes.getD l 0 ∧ (∀ row ∈ M, row.length = sizes.getD (l + 1) 0) then none else some .invalidArgument := by
  obtain ⟨-, hp, -, -⟩ := r.facts
  have hd : n.depth = sizes.length - 1 := by unfold Net.depth; rw [r.sizes]
  have hs : ∀ x, n.size x = sizes.getD x 0 := fun x => by unfold Net.size; rw [r.sizes]
  unfold setLayerWeights
  rw [hd]
  by_cases hl : l ≥ sizes.length - 1
  · rw [if_pos hl, if_pos hl]
  · rw [if_neg hl, if_neg hl, hs]
    by_cases hM : M.length = sizes.getD l 0
    · rw [if_neg (by omega)]
      obtain ⟨-, -, -, -, -, -, -, -, -, q10, q11⟩ := setRows_plain (l := l) M 0 hp (by omega) (by rw [hs]; omega)
      simp only [hs] at q10
      by_cases hr : ∀ row ∈ M, row.length = sizes.getD (l + 1) 0
      · rw [if_pos ⟨hM, hr⟩, q10.2 hr]
      · rw [if_neg (by intro h; exact hr h.2)]
        rcases q11 with q | q
        · exact absurd (q10.1 q) hr
        · exact q
    · rw [if_pos hM, if_neg (by intro h; exact hM h.1)]

/-- A successful `setLayerWeights` stores the whole matrix, in the weights used and in the layer view, and nothing else. -/
theorem C85_set_weights_stores {A : Arith} {sizes : List Nat} {level : Level} {vals : Nat → Nat → Nat → Word} {relu : Word → Word}
    {h : List Op} {n : Net} (r : Reached A sizes level vals relu h n) (l : Nat) (M : List (List Word))
    (hok : (setLayerWeights n l M).2 = none) (l' i j : Nat) :
    let n' := (setLayerWeights n l M).1
    (view n').W l' i j = (if l' = l ∧ i < sizes.getD l 0 ∧ j < sizes.getD (l + 1) 0 then (M.getD i []).getD j 0 else (view n).W l' i j) ∧
    n'.vw l' i j = (if l' = l ∧ i < sizes.getD l 0 ∧ j < sizes.getD (l + 1) 0 then (M.getD i []).getD j 0 else n.vw l' i j) ∧
    (view n').B = (view n).B ∧ n'.vb = n.vb ∧ n'.act = n.act := by
  obtain ⟨-, hp, -, -⟩ := r.facts
  have hres := C85_set_weights_result r l M
  rw [hok] at hres
  have hd : n.depth = sizes.length - 1 := by unfold Net.depth; rw [r.sizes]
  have hs : ∀ x, n.size x = sizes.getD x 0 := fun x => by unfold Net.size; rw [r.sizes]
  by_cases hl : l ≥ sizes.length - 1
  · rw [if_pos hl] at hres; cases hres
  · rw [if_neg hl] at hres
    by_cases hc : M.length = sizes.getD l 0 ∧ (∀ row ∈ M, row.length = sizes.getD (l + 1) 0)
    · have e : setLayerWeights n l M = setRows n l 0 M := by
        unfold setLayerWeights; rw [if_neg (by omega), if_neg (by rw [hs]; omega)]
      intro n'
      have hn' : n' = (setRows n l 0 M).1 := by show (setLayerWeights n l M).1 = _; rw [e]
      obtain ⟨-, -, q3, q4, q5, -, -, q8, q9, -, -⟩ := setRows_plain (l := l) M 0 hp (by omega) (by rw [hs]; omega)
      have ht : (M.takeWhile fun r => r.length = sizes.getD (l + 1) 0) = M :=
        takeWhile_all M fun row hrow => by simpa using hc.2 row hrow
      rw [hn']
      simp only [hs, ht, hc.1, Nat.zero_le, true_and, Nat.zero_add, Nat.sub_zero] at q8 q9
      refine ⟨q8 l' i j, q9 l' i j, ?_, q5, q3⟩
      funext a b
      show ((setRows n l 0 M).1.b a b).value = (n.b a b).value
      rw [q4]
    · rw [if_neg hc] at hres; cases hres

/-- `setLayerBiases`: which calls succeed, and what they store. -/
theorem C85_set_biases {A : Arith} {sizes : List Nat} {level : Level} {vals : Nat → Nat → Nat → Word} {relu : Word → Word}
    {h : List Op} {n : Net} (r : Reached A sizes level vals relu h n) (l : Nat) (v : List Word) :
    (setLayerBiases n l v).2 =
      (if l ≥ sizes.length - 1 then some .outOfRange else if v.length = sizes.getD (l + 1) 0 then none else some .invalidArgument) ∧
    ((setLayerBiases n l v).2 = none → ∀ l' j, (view (setLayerBiases n l v).1).B l' j =
      if l' = l ∧ j < sizes.getD (l + 1) 0 then v.getD j 0 else (view n).B l' j) ∧
    ((setLayerBiases n l v).2 ≠ none → (setLayerBiases n l v).1 = n) ∧ (view (setLayerBiases n l v).1).W = (view n).W := by
  obtain ⟨-, hp, -, -⟩ := r.facts
  have hd : n.depth = sizes.length - 1 := by unfold Net.depth; rw [r.sizes]
  have hs : ∀ x, n.size x = sizes.getD x 0 := fun x => by unfold Net.size; rw [r.sizes]
  have hv := (setLayerBiases_plain hp l v).2.2.2
  have hd' : (view n).depth = sizes.length - 1 := hd
  have hs' : ∀ x, (view n).size x = sizes.getD x 0 := hs
  rw [hv]
  unfold setLayerBiases Ideal.setB
  rw [hd, hs, hd', hs']
  by_cases hl : l ≥ sizes.length - 1
  · rw [if_pos hl, if_pos hl, if_neg (by omega)]
    exact ⟨rfl, fun h => (by cases h), fun _ => rfl, rfl⟩
  · rw [if_neg hl, if_neg hl]
    by_cases hM : v.length = sizes.getD (l + 1) 0
    · rw [if_neg (by omega), if_pos hM, if_pos ⟨by omega, hM⟩]
      exact ⟨rfl, fun _ l' j => by show (if l' = l ∧ j < v.length then _ else _) = _; rw [hM], fun h => absurd rfl h, rfl⟩
    · rw [if_pos hM, if_neg hM, if_neg (by omega)]
      exact ⟨rfl, fun h => (by cases h), fun _ => rfl, rfl⟩

/-- Integer arithmetic on words, as a concrete instance for the examples. -/
def demoA : Arith := ⟨(· + ·), (· * ·)⟩

/-- A two-input, one-output network with weights 3 and 5. -/
def demo (L : Level) : Except Exc Net :=
  construct [2, 1] L (fun _ i _ => if i = 0 then 3#32 else 5#32) id (fun _ => 0#8)

/-- Non-vacuity: the example network exists at every level, and computes 3·10 + 5·100 = 530. -/
example : ∃ n, Reached demoA [2, 1] .fullTmr (fun _ i _ => if i = 0 then 3#32 else 5#32) id [] n ∧
    ∃ n', forward demoA n [10#32, 100#32] 0 (fun _ _ => (none, none)) = .ok ([530#32], n') := by
  obtain ⟨n, hn, -⟩ := (C85_construct [2, 1] .fullTmr (fun _ i _ => if i = 0 then 3#32 else 5#32) id (fun _ => 0#8)).2 (by decide)
  have r : Reached demoA [2, 1] .fullTmr (fun _ i _ => if i = 0 then 3#32 else 5#32) id [] n := ⟨⟨_, n, hn, rfl⟩⟩
  refine ⟨n, r, ?_⟩
  obtain ⟨n', h⟩ := (C85_forward r [10#32, 100#32] 0 (fun _ _ => (none, none)) (Or.inr (by decide +kernel))).1 rfl
  exact ⟨n', by rw [h]; rfl⟩

/-- The exception of a ragged matrix is not atomic: the call fails with `invalidArgument`, but the rows before the bad one have been
written and the next forward pass uses them. -/
theorem C85_ragged_violated :
    ∃ (n : Net) (M : List (List Word)), Reached demoA [2, 1] .fullTmr (fun _ i _ => if i = 0 then 3#32 else 5#32) id [] n ∧
      (setLayerWeights n 0 M).2 = some .invalidArgument ∧
      (∃ n', forward demoA n [10#32, 100#32] 0 (fun _ _ => (none, none)) = .ok ([530#32], n')) ∧
      ∃ n', forward demoA (setLayerWeights n 0 M).1 [10#32, 100#32] 0 (fun _ _ => (none, none)) = .ok ([510#32], n') := by
  obtain ⟨n, hn, -⟩ := (C85_construct [2, 1] .fullTmr (fun _ i _ => if i = 0 then 3#32 else 5#32) id (fun _ => 0#8)).2 (by decide)
  have r : Reached demoA [2, 1] .fullTmr (fun _ i _ => if i = 0 then 3#32 else 5#32) id [] n := ⟨⟨_, n, hn, rfl⟩⟩
  have r' : Reached demoA [2, 1] .fullTmr (fun _ i _ => if i = 0 then 3#32 else 5#32) id [.setW 0 [[1#32], []]]
      (setLayerWeights n 0 [[1#32], []]).1 := ⟨⟨_, n, hn, rfl⟩⟩
  refine ⟨n, [[1#32], []], r, ?_, ?_, ?_⟩
  · rw [C85_set_weights_result r]; decide
  · obtain ⟨n', h⟩ := (C85_forward r [10#32, 100#32] 0 (fun _ _ => (none, none)) (Or.inr (by decide +kernel))).1 rfl
    exact ⟨n', by rw [h]; rfl⟩
  · obtain ⟨n', h⟩ := (C85_forward r' [10#32, 100#32] 0 (fun _ _ => (none, none)) (Or.inr (by decide +kernel))).1 rfl
    exact ⟨n', by rw [h]; rfl⟩

/-! ### C86: the protection level protects no weight -/

/-- A strike on a weight or bias survives everything the network does: at every level, after `applyRadiationEffects` (which ends with a
repair of all weights at FULL and ADAPTIVE), and after any number of further passes, training runs and repairs, the parameter read is the
struck one. -/
theorem C86_strike_persists_violated {A : Arith} {sizes : List Nat} {level : Level} {vals : Nat → Nat → Nat → Word} {relu : Word → Word}
    {h : List Op} {n : Net} (r : Reached A sizes level vals relu h n) (rad : Rat) (hr : 0 < rad) (hit : WHit)
    (h1 : hit.l < sizes.length - 1) (h2 : hit.i < sizes.getD hit.l 0) (h3 : hit.j < sizes.getD (hit.l + 1) 0) :
    let n' := applyRadiation n rad [hit] []
    (view n').W hit.l hit.i hit.j = hit.f ((view n).W hit.l hit.i hit.j) ∧ repairAll n' = n' ∧ errorStats n' = errorStats n ∧
    (∃ n'', getWeight n' hit.l hit.i hit.j = .ok (hit.f ((view n).W hit.l hit.i hit.j), n'') ∧ errorStats n'' = errorStats n) := by
  obtain ⟨-, hp, -, -⟩ := r.facts
  obtain ⟨k1, -, k3, k4⟩ := applyRadiation_plain hp rad [hit] []
  intro n'
  have hW : (view n').W hit.l hit.i hit.j = hit.f ((view n).W hit.l hit.i hit.j) := by
    show (view (applyRadiation n rad [hit] [])).W hit.l hit.i hit.j = _
    rw [k4]
    simp only [istep, if_neg (Rat.not_le.2 hr), List.foldl_cons, List.foldl_nil, ite_self]
    unfold Ideal.hitW
    rw [if_pos ⟨by show _ < n.sizes.length - 1; rw [r.sizes]; exact h1, by show _ < n.sizes.getD _ _; rw [r.sizes]; exact h2,
      by show _ < n.sizes.getD _ _; rw [r.sizes]; exact h3⟩]
    simp
  have hst : errorStats n' = errorStats n := by unfold errorStats; rw [k3.1, k3.2.1]
  have hsz : n'.sizes = sizes := by
    have : n'.sizes = (view n').sizes := rfl
    rw [this, show view n' = _ from k4, istep_sizes]; exact r.sizes
  refine ⟨hW, repairAll_plain k1, hst, n', ?_, hst⟩
  rw [getWeight_plain k1 (by show _ < n'.sizes.length - 1; rw [hsz]; exact h1) (by show _ < n'.sizes.getD _ _; rw [hsz]; exact h2)
    (by show _ < n'.sizes.getD _ _; rw [hsz]; exact h3)]
  rw [← hW]; rfl

/-- Whatever happened before, repairing changes nothing. -/
theorem C86_repair_does_nothing_violated {A : Arith} {sizes : List Nat} {level : Level} {vals : Nat → Nat → Nat → Word}
    {relu : Word → Word} {h : List Op} {n : Net} (r : Reached A sizes level vals relu h n) : repairAll n = n :=
  repairAll_plain r.facts.2.1

/-- No strike on a parameter is ever reported: if activations are not voted on, the statistics read (0, 0) after every history. -/
theorem C86_stats_blind_violated {A : Arith} {sizes : List Nat} {level : Level} {vals : Nat → Nat → Nat → Word}
    {relu : Word → Word} {h : List Op} {n : Net} (r : Reached A sizes level vals relu h n)
    (hq : ∀ x rad d, Op.forward x rad d ∈ h → (level ≠ .fullTmr ∧ level ≠ .adaptiveTmr) ∨ rad ≤ 1 / 5) : errorStats n = (0, 0) := by
  obtain ⟨junk, n0, h1, rfl⟩ := r.made
  obtain ⟨-, hp, hl, -, hd, hc, hu, -⟩ := construct_plain h1
  have key : ∀ (h : List Op) (m : Net), Plain m → m.level = level → m.detected = 0 → m.corrected = 0 → m.uncorrectable = 0 →
      (∀ x rad d, Op.forward x rad d ∈ h → Quiet level rad) → errorStats (run A m h) = (0, 0) := by
    intro h
    induction h with
    | nil => intro m _ _ hd hc _ _; simp only [run, List.foldl_nil, errorStats, hd, hc]
    | cons op t ih =>
      intro m hpm hlm hd hc hu hq
      obtain ⟨k1, k2, -⟩ := step_plain A hpm op
      have hz : (step A m op).detected = 0 ∧ (step A m op).corrected = 0 ∧ (step A m op).uncorrectable = 0 := by
        by_cases hrs : op = .resetStats
        · subst hrs; exact ⟨rfl, rfl, rfl⟩
        · have := step_err A hpm op (fun x r d e => by rw [hlm]; exact hq x r d (by simp [e])) hrs
          exact ⟨this.1.trans hd, this.2.1.trans hc, this.2.2.trans hu⟩
      exact ih _ k1 (k2.trans hlm) hz.1 hz.2.1 hz.2.2 fun x r d hm => hq x r d (by simp [hm])
  exact key h n0 hp hl hd hc hu hq

/-- A history that strikes no bias. -/
def NoBiasStrike (h : List Op) : Prop := ∀ rad ws bs, Op.radiate rad ws bs ∈ h → bs = []

/-- Two networks that differ only in their protection level (NONE and FULL_TMR, say) give the same output after the same history of
writes and weight strikes. -/
theorem C86_levels_alike_violated {A : Arith} {sizes : List Nat} {L1 L2 : Level} {vals : Nat → Nat → Nat → Word}
    {relu : Word → Word} {h : List Op} {n1 n2 : Net} (r1 : Reached A sizes L1 vals relu h n1) (r2 : Reached A sizes L2 vals relu h n2)
    (hb : NoBiasStrike h) (input : List Word) (hi : input.length = sizes.getD 0 0) (rad : Rat) (hr : rad ≤ 1 / 5)
    (d1 d2 : Nat → Nat → Strikes) :
    ∃ out n1' n2', forward A n1 input rad d1 = .ok (out, n1') ∧ forward A n2 input rad d2 = .ok (out, n2') := by
  obtain ⟨n1', e1⟩ := (C85_forward r1 input rad d1 (Or.inr hr)).1 hi
  obtain ⟨n2', e2⟩ := (C85_forward r2 input rad d2 (Or.inr hr)).1 hi
  have key : ∀ (h : List Op) (I : Ideal), NoBiasStrike h → h.foldl (istep L1) I = h.foldl (istep L2) I := by
    intro h
    induction h with
    | nil => intro I _; rfl
    | cons op t ih =>
      intro I hb
      rw [List.foldl_cons, List.foldl_cons, ih _ fun r w b hm => hb r w b (by simp [hm])]
      congr 1
      cases op with
      | radiate rad ws bs =>
        have := hb rad ws bs (by simp)
        subst this
        simp only [istep, List.foldl_nil, ite_self]
      | _ => rfl
  rw [← key h _ hb] at e2
  exact ⟨_, n1', n2', e1, e2⟩

/-- The strikes on biases are applied only to the protected network: after the same radiation, the network of level NONE still computes
its result and the one of level FULL_TMR does not. -/
theorem C86_protected_is_struck_more_violated :
    ∃ (h : List Op) (n1 n2 : Net), Reached demoA [2, 1] .none (fun _ i _ => if i = 0 then 3#32 else 5#32) id h n1 ∧
      Reached demoA [2, 1] .fullTmr (fun _ i _ => if i = 0 then 3#32 else 5#32) id h n2 ∧
      (∃ n', forward demoA n1 [10#32, 100#32] 0 (fun _ _ => (none, none)) = .ok ([530#32], n')) ∧
      ∃ n', forward demoA n2 [10#32, 100#32] 0 (fun _ _ => (none, none)) = .ok ([534#32], n') := by
  obtain ⟨n1, hn1, -⟩ := (C85_construct [2, 1] .none (fun _ i _ => if i = 0 then 3#32 else 5#32) id (fun _ => 0#8)).2 (by decide)
  obtain ⟨n2, hn2, -⟩ := (C85_construct [2, 1] .fullTmr (fun _ i _ => if i = 0 then 3#32 else 5#32) id (fun _ => 0#8)).2 (by decide)
  have r1 : Reached demoA [2, 1] .none (fun _ i _ => if i = 0 then 3#32 else 5#32) id [.radiate 1 [] [⟨0, 0, fun v => bitFlip v 2⟩]] _ :=
    ⟨⟨_, n1, hn1, rfl⟩⟩
  have r2 : Reached demoA [2, 1] .fullTmr (fun _ i _ => if i = 0 then 3#32 else 5#32) id [.radiate 1 [] [⟨0, 0, fun v => bitFlip v 2⟩]] _ :=
    ⟨⟨_, n2, hn2, rfl⟩⟩
  refine ⟨_, _, _, r1, r2, ?_, ?_⟩
  · obtain ⟨n', h⟩ := (C85_forward r1 [10#32, 100#32] 0 (fun _ _ => (none, none)) (Or.inr (by decide +kernel))).1 rfl
    refine ⟨n', ?_⟩
    rw [h]
    simp only [List.foldl_cons, List.foldl_nil, istep, if_neg (by decide +kernel : ¬ (1 : Rat) ≤ 0)]
    rfl
  · obtain ⟨n', h⟩ := (C85_forward r2 [10#32, 100#32] 0 (fun _ _ => (none, none)) (Or.inr (by decide +kernel))).1 rfl
    refine ⟨n', ?_⟩
    rw [h]
    simp only [List.foldl_cons, List.foldl_nil, istep, if_neg (by decide +kernel : ¬ (1 : Rat) ≤ 0)]
    rfl

/-! ### C87: the vote on activations -/

theorem f32eq_comm' (a b : Word) : f32eq a b = f32eq b a := by
  unfold f32eq
  rw [Bool.eq_iff_iff]
  simp only [Bool.and_eq_true, Bool.or_eq_true, beq_iff_eq, Bool.not_eq_true']
  constructor <;> (rintro ⟨⟨h1, h2⟩, h3⟩; exact ⟨⟨h2, h1⟩, by rcases h3 with h3 | h3; exacts [Or.inl h3.symm, Or.inr (by simpa [and_comm] using h3)]⟩)

/-- The vote returns the activation computed unless both copies are struck. -/
theorem vote_one (a : Word) (s : Strikes) (hs : s.1 = none ∨ s.2 = none) (n : Net) :
    (voteActivation a (struck a s.1) (struck a s.2) n).1 = a := by
  unfold voteActivation
  rcases hs with h | h
  · rw [h]
    show (if f32eq a a then _ else _ : Word × Net).1 = a
    split
    · rfl
    · split
      · rfl
      · split <;> rfl
  · rw [h]
    show (if f32eq a (struck a s.1) then _ else if f32eq (struck a s.1) a then _ else _ : Word × Net).1 = a
    rw [f32eq_comm' (struck a s.1) a]
    by_cases he : f32eq a (struck a s.1) = true
    · rw [if_pos he]
    · rw [if_neg he, if_neg he]
      split <;> rfl

/-- For every history, radiation level and protection level: if no activation has both its copies struck, the forward pass returns
bit for bit what the plain network computes (NaNs and signed zeros included). -/
theorem C87_single_strike {A : Arith} {sizes : List Nat} {level : Level} {vals : Nat → Nat → Nat → Word} {relu : Word → Word}
    {h : List Op} {n : Net} (r : Reached A sizes level vals relu h n) (input : List Word) (rad : Rat) (dr : Nat → Nat → Strikes)
    (hs : ∀ l i, (dr l i).1 = none ∨ (dr l i).2 = none) (hi : input.length = sizes.getD 0 0) :
    ∃ n', forward A n input rad dr = .ok ((h.foldl (istep level) (start sizes vals relu)).eval A input, n') := by
  obtain ⟨-, hp, hl, hv⟩ := r.facts
  obtain ⟨out, n', h1, -, h3⟩ := forward_plain A hp input rad dr (by unfold Net.size; rw [r.sizes]; exact hi)
  refine ⟨n', ?_⟩
  rw [h1, h3, hv]
  intro l acts n'' _ _
  unfold protectActivations
  split
  · rfl
  · split
    · have := forN_inv (fun _ (st : List Word × Net) => st.1 = acts) acts.length (fun i (st : List Word × Net) =>
        let a := st.1.getD i 0
        let r := voteActivation a (struck a (dr l i).1) (struck a (dr l i).2) st.2
        (st.1.set i r.1, r.2)) (acts, n'') rfl ?_
      · exact this
      · intro i st hi hst
        show st.1.set i _ = acts
        rw [vote_one _ _ (hs l i), hst]
        apply List.ext_getElem (by simp)
        intro k k1 k2
        rw [List.getElem_set]
        split
        · rename_i e; subst e; rw [List.getD_eq_getElem?_getD, List.getElem?_eq_getElem k2]; rfl
        · rfl
    · rfl

/-- Non-vacuity: at FULL_TMR under strong radiation with one copy of the output struck, the example still returns 530. -/
example : ∃ n, Reached demoA [2, 1] .fullTmr (fun _ i _ => if i = 0 then 3#32 else 5#32) id [] n ∧
    ∃ n', forward demoA n [10#32, 100#32] 1 (fun _ _ => (some 30, none)) = .ok ([530#32], n') := by
  obtain ⟨n, hn, -⟩ := (C85_construct [2, 1] .fullTmr (fun _ i _ => if i = 0 then 3#32 else 5#32) id (fun _ => 0#8)).2 (by decide)
  have r : Reached demoA [2, 1] .fullTmr (fun _ i _ => if i = 0 then 3#32 else 5#32) id [] n := ⟨⟨_, n, hn, rfl⟩⟩
  refine ⟨n, r, ?_⟩
  obtain ⟨n', h⟩ := C87_single_strike r [10#32, 100#32] 1 (fun _ _ => (some 30, none)) (fun _ _ => Or.inr rfl) rfl
  exact ⟨n', by rw [h]; rfl⟩

/-- The statistics always balance: detections are corrections plus uncorrectable errors, after every history. -/
theorem C87_stats_balance {A : Arith} {sizes : List Nat} {level : Level} {vals : Nat → Nat → Nat → Word}
    {relu : Word → Word} {h : List Op} {n : Net} (r : Reached A sizes level vals relu h n) :
    n.detected = n.corrected + n.uncorrectable ∧ (errorStats n).2 ≤ (errorStats n).1 := by
  obtain ⟨junk, n0, h1, rfl⟩ := r.made
  obtain ⟨-, hp, -, -, hd, hc, hu, -⟩ := construct_plain h1
  have key : ∀ (h : List Op) (m : Net), Plain m → m.detected = m.corrected + m.uncorrectable →
      (run A m h).detected = (run A m h).corrected + (run A m h).uncorrectable := by
    intro h
    induction h with
    | nil => intro m _ hb; exact hb
    | cons op t ih =>
      intro m hpm hb
      refine ih _ (step_plain A hpm op).1 ?_
      by_cases hf : ∃ x r d, op = .forward x r d
      · obtain ⟨x, r, d, rfl⟩ := hf
        simp only [step]
        split
        · rename_i e; exact forward_balance A hpm hb e
        · exact hb
      · by_cases hrs : op = .resetStats
        · subst hrs; rfl
        · have := step_err A hpm op (fun x r d e => absurd ⟨x, r, d, e⟩ hf) hrs
          rw [this.1, this.2.1, this.2.2]; exact hb
  have := key h n0 hp (by omega)
  exact ⟨this, by unfold errorStats; simp only; omega⟩

/-- The activation being protected is never struck, only its copies are: when both copies are struck at the same bit, the vote throws
the correct value away, returns the struck one and counts a corrected error. -/
theorem C87_double_strike_violated (a : Word) (k : Nat) (n : Net) (h1 : f32eq a (bitFlip a k) = false) (h2 : f32eq (bitFlip a k) (bitFlip a k) = true) :
    (voteActivation a (struck a (some k)) (struck a (some k)) n).1 = bitFlip a k ∧
    (voteActivation a (struck a (some k)) (struck a (some k)) n).2.corrected = n.corrected + 1 := by
  unfold voteActivation
  simp only [struck, h1, h2, if_true, Bool.false_eq_true, if_false]
  exact ⟨trivial, trivial⟩

/-- The case exists: 1.0 becomes −1.0. -/
example (n : Net) : (voteActivation 0x3f800000#32 (struck 0x3f800000#32 (some 31)) (struck 0x3f800000#32 (some 31)) n).1 = 0xbf800000#32 := by
  have := C87_double_strike_violated 0x3f800000#32 31 n (by decide) (by decide)
  rw [this.1]; decide

/-- End to end: at FULL_TMR and radiation 1 with one such draw, the network returns a wrong output although none of its parameters,
inputs or activations was struck; at level NONE the same draws are harmless. -/
theorem C87_vote_corrupts_violated :
    ∃ (n1 n2 : Net) (dr : Nat → Nat → Strikes), Reached demoA [2, 1] .none (fun _ i _ => if i = 0 then 3#32 else 5#32) id [] n1 ∧
      Reached demoA [2, 1] .fullTmr (fun _ i _ => if i = 0 then 3#32 else 5#32) id [] n2 ∧
      (∃ n', forward demoA n1 [10#32, 100#32] 1 dr = .ok ([530#32], n')) ∧
      ∃ out n', forward demoA n2 [10#32, 100#32] 1 dr = .ok (out, n') ∧ out ≠ [530#32] := by
  obtain ⟨n1, hn1, -⟩ := (C85_construct [2, 1] .none (fun _ i _ => if i = 0 then 3#32 else 5#32) id (fun _ => 0#8)).2 (by decide)
  have r1 : Reached demoA [2, 1] .none (fun _ i _ => if i = 0 then 3#32 else 5#32) id [] n1 := ⟨⟨_, n1, hn1, rfl⟩⟩
  have e2 : ∃ n2, construct [2, 1] .fullTmr (fun _ i _ => if i = 0 then 3#32 else 5#32) id (fun _ => 0#8) = .ok n2 ∧
      ∃ out n', forward demoA n2 [10#32, 100#32] 1 (fun _ _ => (some 30, some 30)) = .ok (out, n') ∧ out ≠ [530#32] := by
    refine ⟨_, rfl, ?_⟩
    refine ⟨_, _, rfl, ?_⟩
    decide +kernel
  obtain ⟨n2, hn2, he⟩ := e2
  refine ⟨n1, n2, fun _ _ => (some 30, some 30), r1, ⟨⟨_, n2, hn2, rfl⟩⟩, ?_, he⟩
  obtain ⟨n', h⟩ := (C85_forward r1 [10#32, 100#32] 1 (fun _ _ => (some 30, some 30)) (Or.inl (by decide))).1 rfl
  exact ⟨n', by rw [h]; rfl⟩

/-- A strike inverts exactly the bit drawn and no other, so it always changes the value and striking the same bit again undoes it. -/
theorem C87_strike_one_bit (a : Word) (k : Nat) (hk : k < 32) :
    (∀ j, j < 32 → (struck a (some k)).getLsbD j = (if j = k then !a.getLsbD j else a.getLsbD j)) ∧
    struck a (some k) ≠ a ∧ struck (struck a (some k)) (some k) = a := by
  have key : ∀ (a : Word) j, j < 32 → (struck a (some k)).getLsbD j = (if j = k then !a.getLsbD j else a.getLsbD j) := by
    intro a j hj
    show (a ^^^ (1#32 <<< k)).getLsbD j = _
    rw [BitVec.getLsbD_xor, BitVec.getLsbD_shiftLeft, BitVec.getLsbD_one]
    by_cases e : j = k
    · subst e; simp [hj]
    · rw [if_neg e]
      by_cases hl : j < k
      · simp [hl]
      · have : j - k ≠ 0 := by omega
        simp [this]
  refine ⟨key a, ?_, ?_⟩
  · intro h
    have := key a k hk
    rw [h, if_pos rfl] at this
    cases hb : a.getLsbD k <;> simp [hb] at this
  · apply BitVec.eq_of_getLsbD_eq
    intro j hj
    rw [key _ j hj, key a j hj]
    by_cases e : j = k
    · simp [e]
    · simp [e]

/-- Non-vacuity: bit 31 of 1.0 gives −1.0. -/
example : struck 0x3f800000#32 (some 31) = 0xbf800000#32 ∧ (31 : Nat) < 32 := by decide

/-- A NaN activation is counted as an uncorrectable error although nothing was struck. -/
theorem C87_nan_counted_violated (a : Word) (n : Net) (h : f32eq a a = false) :
    (voteActivation a (struck a none) (struck a none) n).2.detected = n.detected + 1 ∧
    (voteActivation a (struck a none) (struck a none) n).2.uncorrectable = n.uncorrectable + 1 := by
  unfold voteActivation
  simp only [struck, h, Bool.false_eq_true, if_false]
  exact ⟨trivial, trivial⟩

example : f32eq 0x7fc00000#32 0x7fc00000#32 = false := by decide

/-! ### C88: layer view, copy, training, loss -/

/-- Operations that neither strike parameters nor write through the mutable layer view. -/
def Clean : Op → Prop
  | .radiate .. => False
  | .editW .. => False
  | .editB .. => False
  | _ => True

/-- As long as only the setters write, the layer view shows exactly the parameters used. -/
theorem C88_view_tracks_setters {A : Arith} {sizes : List Nat} {level : Level} {vals : Nat → Nat → Nat → Word}
    {relu : Word → Word} {h : List Op} {n : Net} (r : Reached A sizes level vals relu h n) (hc : ∀ op ∈ h, Clean op) :
    n.vw = (view n).W ∧ n.vb = (view n).B := by
  obtain ⟨junk, n0, h1, rfl⟩ := r.made
  obtain ⟨-, hp, -, -, -, -, -, -, hw, hb⟩ := construct_plain h1
  have ofS : ∀ {m m' : Net}, Same m m' → (m.vw = (view m).W ∧ m.vb = (view m).B) → (m'.vw = (view m').W ∧ m'.vb = (view m').B) := by
    intro m m' hs h
    rw [hs.2.2.2.2.2.1, hs.2.2.2.2.2.2, hs.view]; exact h
  have key : ∀ (h : List Op) (m : Net), Plain m → (∀ op ∈ h, Clean op) → m.vw = (view m).W ∧ m.vb = (view m).B →
      (run A m h).vw = (view (run A m h)).W ∧ (run A m h).vb = (view (run A m h)).B := by
    intro h
    induction h with
    | nil => intro m _ _ hv; exact hv
    | cons op t ih =>
      intro m hpm hcl hv
      refine ih _ (step_plain A hpm op).1 (fun o ho => hcl o (by simp [ho])) ?_
      have hcop := hcl op (by simp)
      cases op with
      | setW l M =>
        show (setLayerWeights m l M).1.vw = _ ∧ _
        simp only [step]
        unfold setLayerWeights
        by_cases hl : l ≥ m.depth
        · rw [if_pos hl]; exact hv
        · rw [if_neg hl]
          by_cases hM : M.length ≠ m.size l
          · rw [if_pos hM]; exact hv
          · rw [if_neg hM]
            obtain ⟨-, -, -, q4, q5, -, -, q8, q9, -⟩ := setRows_plain M 0 hpm (by omega) (by omega : 0 + M.length ≤ m.size l)
            constructor
            · funext a b c
              show (setRows m l 0 M).1.vw a b c = ((setRows m l 0 M).1.w a b c).value
              rw [q8, q9, hv.1]; rfl
            · rw [q5, hv.2]
              funext a b
              show (m.b a b).value = ((setRows m l 0 M).1.b a b).value
              rw [q4]
      | setB l v =>
        simp only [step]
        unfold setLayerBiases
        by_cases hl : l ≥ m.depth
        · rw [if_pos hl]; exact hv
        · rw [if_neg hl]
          by_cases hM : v.length ≠ m.size (l + 1)
          · rw [if_pos hM]; exact hv
          · rw [if_neg hM]
            obtain ⟨-, -, -, q4, q5, -, -, q8, q9⟩ := setBiases_plain hpm (by omega : l < m.depth) (fun j => v.getD j 0) v.length (by omega)
            constructor
            · rw [q5, hv.1]
              funext a b c
              show (m.w a b c).value = (Net.w _ a b c).value
              rw [q4]
            · funext a b
              show Net.vb _ a b = (Net.b _ a b).value
              rw [q8, q9, hv.2]; rfl
      | setAct l f => simp only [step, setActivation]; split <;> exact hv
      | forward x r d =>
        simp only [step]
        split
        · rename_i o n' e
          have hx : x.length = m.size 0 := by
            by_contra hx
            unfold PNet.forward at e; rw [if_pos hx] at e; cases e
          obtain ⟨o', m', e1, e2, -⟩ := forward_plain A hpm x r d hx
          rw [e1] at e; injection e with e; injection e with _ e
          rw [← e]; exact ofS e2 hv
        · exact hv
      | radiate r ws bs => exact absurd hcop (by simp [Clean])
      | editW l i j v => exact absurd hcop (by simp [Clean])
      | editB l j v => exact absurd hcop (by simp [Clean])
      | resetStats => exact hv
      | train d l e => exact ofS (train_same A hpm d l e) hv
      | copy => exact hv
  exact key h n0 hp hc ⟨hw, hb⟩

/-- Writing through `getLayerMutable`/`getLayers` changes the view but never the network: every later output is the same, whatever was
written. -/
theorem C88_edit_ignored_violated {A : Arith} {sizes : List Nat} {level : Level} {vals : Nat → Nat → Nat → Word}
    {relu : Word → Word} {h : List Op} {n : Net} (r : Reached A sizes level vals relu h n) (l i j : Nat) (v : Word)
    (hl : l < sizes.length - 1) (input : List Word) (hi : input.length = sizes.getD 0 0) (rad : Rat) (hr : rad ≤ 1 / 5)
    (dr : Nat → Nat → Strikes) :
    (editLayerWeight n l i j v).1.vw l i j = v ∧
    ∃ out n1 n2, forward A n input rad dr = .ok (out, n1) ∧ forward A (editLayerWeight n l i j v).1 input rad dr = .ok (out, n2) := by
  have hd : n.depth = sizes.length - 1 := by unfold Net.depth; rw [r.sizes]
  constructor
  · unfold editLayerWeight; rw [if_neg (by omega)]; simp [upd3]
  · obtain ⟨n1, e1⟩ := (C85_forward r input rad dr (Or.inr hr)).1 hi
    have r2 : Reached A sizes level vals relu (h ++ [.editW l i j v]) (editLayerWeight n l i j v).1 := by
      obtain ⟨junk, n0, h1, h2⟩ := r.made
      refine ⟨⟨junk, n0, h1, ?_⟩⟩
      unfold run
      rw [List.foldl_append, List.foldl_cons, List.foldl_nil, h2]; rfl
    obtain ⟨n2, e2⟩ := (C85_forward r2 input rad dr (Or.inr hr)).1 hi
    rw [List.foldl_append, List.foldl_cons, List.foldl_nil] at e2
    exact ⟨_, n1, n2, e1, e2⟩

/-- `train` returns a network that computes exactly what it computed before, for all data, labels and numbers of epochs. -/
theorem C88_train_learns_nothing_violated {A : Arith} {sizes : List Nat} {level : Level} {vals : Nat → Nat → Nat → Word}
    {relu : Word → Word} {h : List Op} {n : Net} (r : Reached A sizes level vals relu h n) (data labels : List Word) (epochs : Int) :
    Same n (train A n data labels epochs) ∧ errorStats (train A n data labels epochs) = errorStats n := by
  obtain ⟨-, hp, -, -⟩ := r.facts
  have := train_quiet A hp data labels epochs
  exact ⟨train_same A hp data labels epochs, by unfold errorStats; rw [this.1, this.2.1]⟩

/-- `calculateLoss` on a reachable network: it never throws; a network without inputs divides by zero; ill-shaped data give the constant
loss; otherwise the loss is computed from the plain network's outputs and the labels, sample by sample, whatever the protection level. -/
theorem C88_loss {A : Arith} {sizes : List Nat} {level : Level} {vals : Nat → Nat → Nat → Word}
    {relu : Word → Word} {h : List Op} {n : Net} (r : Reached A sizes level vals relu h n) (data labels : List Word) :
    let is := sizes.getD 0 0
    let os := sizes.getLastD 0
    (calculateLoss A n data labels).1 =
      if is = 0 then .divByZero
      else if data.length < is ∨ labels.length ≠ data.length / is * os then .mismatch
      else .of ((List.range (data.length / is)).map fun s =>
        ((h.foldl (istep level) (start sizes vals relu)).eval A ((data.drop (s * is)).take is), (labels.drop (s * os)).take os)) := by
  intro is os
  obtain ⟨-, hp, hl, hv⟩ := r.facts
  have hs : n.size 0 = is := by unfold Net.size; rw [r.sizes]
  have ho : n.sizes.getLastD 0 = os := by rw [r.sizes]
  unfold calculateLoss
  simp only [hs, ho]
  by_cases h0 : is = 0
  · rw [if_pos h0, if_pos h0]
  · rw [if_neg h0, if_neg h0]
    have hz : data.length / is = 0 ↔ data.length < is := by
      rw [Nat.div_eq_zero_iff]; omega
    by_cases hm : data.length < is ∨ labels.length ≠ data.length / is * os
    · rw [if_pos hm, if_pos (by rw [hz]; exact hm)]
    · rw [if_neg hm, if_neg (by rw [hz]; exact hm)]
      obtain ⟨n', h1, -⟩ := lossLoop_plain A hp data labels (data.length / is) (by rw [hs]; exact Nat.div_mul_le_self _ _)
      rw [hs, ho, hv] at h1
      rw [h1]

/-- A network without input neurons is accepted by the constructor and makes `calculateLoss` divide by zero. -/
theorem C88_loss_division_violated :
    ∃ n, Reached demoA [0, 1] .none (fun _ _ _ => 0#32) id [] n ∧ (calculateLoss demoA n [] []).1 = .divByZero := by
  obtain ⟨n, hn, -⟩ := (C85_construct [0, 1] .none (fun _ _ _ => 0#32) id (fun _ => 0#8)).2 (by decide)
  have r : Reached demoA [0, 1] .none (fun _ _ _ => 0#32) id [] n := ⟨⟨_, n, hn, rfl⟩⟩
  exact ⟨n, r, C88_loss r [] []⟩

/-- A copy is interchangeable with the original: the same later history gives the same outputs and statistics. -/
theorem C88_copy (A : Arith) (n : Net) (later : List Op) (input : List Word) (rad : Rat) (dr : Nat → Nat → Strikes) :
    forward A (run A (copy n) later) input rad dr = forward A (run A n later) input rad dr ∧
      errorStats (run A (copy n) later) = errorStats (run A n later) := ⟨rfl, rfl⟩

/-- Non-vacuity for the view: after writing a matrix the view shows it. -/
example : ∃ n, Reached demoA [2, 1] .fullTmr (fun _ i _ => if i = 0 then 3#32 else 5#32) id [.setW 0 [[7#32], [8#32]]] n ∧
    n.vw 0 1 0 = 8#32 := by
  obtain ⟨n, hn, -⟩ := (C85_construct [2, 1] .fullTmr (fun _ i _ => if i = 0 then 3#32 else 5#32) id (fun _ => 0#8)).2 (by decide)
  have r : Reached demoA [2, 1] .fullTmr (fun _ i _ => if i = 0 then 3#32 else 5#32) id [.setW 0 [[7#32], [8#32]]] _ := ⟨⟨_, n, hn, rfl⟩⟩
  refine ⟨_, r, ?_⟩
  rw [(C88_view_tracks_setters r (by simp [Clean])).1, r.facts.2.2.2]
  rfl

end Verif.Props.PNetP
