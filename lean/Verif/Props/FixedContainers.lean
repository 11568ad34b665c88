import Verif.Model.FixedContainers
import Mathlib.Tactic.Basic
/-!
Properties C29, C30: `FixedVector` refines a bounded sequence, `FixedMap` a bounded finite map.
-/
namespace Verif.Props.FixedC
open Verif Verif.FixedC

/-! ### C29: specification of the vector -/

/-- Calls a client can make on a vector.  `set i v` is `vec[i] = v`, `get i` reads `vec[i]`. -/
inductive VOp (α : Type) where
  | push (v : α) | at' (i : Nat) | get (i : Nat) | set (i : Nat) (v : α) | clear | size | empty

/-- What the client observes. -/
inductive VObs (α : Type) where
  | code (e : Err) | read (e : Err) (v : Option α) | val (v : α) | num (n : Nat) | flag (b : Bool) | unit
  deriving DecidableEq

variable {α : Type}

/-- The bounded sequence: `none` means the call is outside the contract (`vec[i]` with `i` not a current index). -/
def vspec (cap : Nat) (l : List α) : VOp α → Option (VObs α × List α)
  | .push v => if l.length < cap then some (.code .success, l ++ [v]) else some (.code .full, l)
  | .at' i => match l[i]? with
    | some v => some (.read .success (some v), l)
    | none => some (.read .outOfBounds none, l)
  | .get i => match l[i]? with
    | some v => some (.val v, l)
    | none => none
  | .set i v => if i < l.length then some (.unit, l.set i v) else none
  | .clear => some (.unit, [])
  | .size => some (.num l.length, l)
  | .empty => some (.flag (l.length == 0), l)

/-- The observations of a whole history on the bounded sequence, `none` if a call breaks the contract. -/
def vspecRun (cap : Nat) : List α → List (VOp α) → Option (List (VObs α))
  | _, [] => some []
  | l, op :: ops => match vspec cap l op with
    | none => none
    | some (o, l') => (vspecRun cap l' ops).map (o :: ·)

/-- One call on the model of the code. -/
def vstep (cap : Nat) (s : Vec α) : VOp α → Outcome (VObs α × Vec α)
  | .push v => Outcome.bind (s.pushBack cap v) fun (e, s') => .ok (.code e, s')
  | .at' i => Outcome.bind (s.at' cap i) fun (e, v) => .ok (.read e v, s)
  | .get i => Outcome.bind (s.index cap i) fun v => .ok (.val v, s)
  | .set i v => Outcome.bind (s.assign cap i v) fun s' => .ok (.unit, s')
  | .clear => .ok (.unit, s.clear)
  | .size => .ok (.num s.size, s)
  | .empty => .ok (.flag s.empty, s)

/-- A whole history on the model of the code. -/
def vrun (cap : Nat) : Vec α → List (VOp α) → Outcome (List (VObs α))
  | _, [] => .ok []
  | s, op :: ops => Outcome.bind (vstep cap s op) fun (o, s') => Outcome.bind (vrun cap s' ops) fun os => .ok (o :: os)

/-- `s` represents the sequence `l`. -/
def VRep (cap : Nat) (s : Vec α) (l : List α) : Prop :=
  s.size = l.length ∧ l.length ≤ cap ∧ ∀ i (h : i < l.length), s.data i = l[i]

theorem vstep_rep (cap : Nat) (s : Vec α) (l : List α) (h : VRep cap s l) (op : VOp α) (o : VObs α) (l' : List α)
    (hs : vspec cap l op = some (o, l')) : ∃ s', vstep cap s op = .ok (o, s') ∧ VRep cap s' l' := by
  obtain ⟨h1, h2, h3⟩ := h
  cases op with
  | push v =>
    simp only [vspec] at hs
    by_cases hl : l.length < cap
    · rw [if_pos hl] at hs
      cases hs
      refine ⟨⟨fun j => if j = s.size then v else s.data j, s.size + 1⟩, ?_, ?_, ?_, ?_⟩
      · simp [vstep, Vec.pushBack, writeCell, Outcome.bind, h1, hl, Nat.not_le_of_lt hl]
      · simp [h1]
      · simp; omega
      · intro i hi
        simp only [List.length_append, List.length_singleton] at hi
        by_cases hii : i = l.length
        · subst hii; simp [h1]
        · have : i < l.length := by omega
          simp [h1, hii, h3 i this, List.getElem_append_left this]
    · rw [if_neg hl] at hs
      cases hs
      refine ⟨s, ?_, h1, h2, h3⟩
      simp [vstep, Vec.pushBack, Outcome.bind, h1, Nat.le_of_not_lt hl]
  | at' i =>
    simp only [vspec] at hs
    by_cases hi : i < l.length
    · rw [List.getElem?_eq_getElem hi] at hs
      cases hs
      refine ⟨s, ?_, h1, h2, h3⟩
      have : ¬ l.length ≤ i := by omega
      have : i < cap := by omega
      simp [vstep, Vec.at', readCell, Outcome.bind, h3 i hi, *]
    · rw [List.getElem?_eq_none (by omega)] at hs
      cases hs
      exact ⟨s, by simp [vstep, Vec.at', Outcome.bind, h1, Nat.le_of_not_lt hi], h1, h2, h3⟩
  | get i =>
    simp only [vspec] at hs
    by_cases hi : i < l.length
    · rw [List.getElem?_eq_getElem hi] at hs
      cases hs
      have : i < cap := by omega
      exact ⟨s, by simp [vstep, Vec.index, readCell, Outcome.bind, h3 i hi, this], h1, h2, h3⟩
    · rw [List.getElem?_eq_none (by omega)] at hs
      cases hs
  | set i v =>
    simp only [vspec] at hs
    by_cases hi : i < l.length
    · rw [if_pos hi] at hs
      cases hs
      have : i < cap := by omega
      refine ⟨{ s with data := fun j => if j = i then v else s.data j }, ?_, ?_, ?_, ?_⟩
      · simp [vstep, Vec.assign, writeCell, Outcome.bind, this]
      · simp [h1]
      · simpa using h2
      · intro j hj
        simp only [List.length_set] at hj
        by_cases hji : j = i
        · subst hji; simp
        · have : ¬ i = j := fun e => hji e.symm
          simp [hji, h3 j hj, this]
    · rw [if_neg hi] at hs; cases hs
  | clear =>
    cases hs
    exact ⟨s.clear, rfl, rfl, by simp, by simp⟩
  | size =>
    cases hs
    exact ⟨s, by simp [vstep, h1], h1, h2, h3⟩
  | empty =>
    cases hs
    exact ⟨s, by simp [vstep, Vec.empty, h1], h1, h2, h3⟩

theorem vrun_rep (cap : Nat) (ops : List (VOp α)) : ∀ (s : Vec α) (l : List α), VRep cap s l →
    ∀ os, vspecRun cap l ops = some os → vrun cap s ops = .ok os := by
  induction ops with
  | nil => intro s l _ os h; cases h; rfl
  | cons op ops ih =>
    intro s l hr os h
    simp only [vspecRun] at h
    cases hs : vspec cap l op with
    | none => rw [hs] at h; cases h
    | some p =>
      obtain ⟨o, l'⟩ := p
      rw [hs] at h
      simp only [Option.map_eq_some_iff] at h
      obtain ⟨os', h', rfl⟩ := h
      obtain ⟨s', e, hr'⟩ := vstep_rep cap s l hr op o l' hs
      simp [vrun, e, Outcome.bind, ih s' l' hr' os' h']

/-- **C29.** For every capacity, every initial memory content and every history of calls in which `vec[i]` is
only used with a current index, the code has no undefined behaviour and every call returns exactly what the
bounded sequence returns. -/
theorem C29_vector_refines_bounded_sequence (cap : Nat) (junk : Nat → α) (ops : List (VOp α)) (os : List (VObs α))
    (h : vspecRun cap [] ops = some os) : vrun cap (Vec.new junk) ops = .ok os :=
  vrun_rep cap ops _ [] ⟨rfl, by simp, by simp⟩ os h

/-- The hypothesis of C29 holds for a history that fills the vector, overflows it, updates and clears it. -/
example : vspecRun 2 ([] : List Nat) [.push 5, .push 7, .push 9, .at' 1, .at' 2, .set 0 8, .get 0, .size, .clear,
    .empty, .at' 0] =
    some [.code .success, .code .success, .code .full, .read .success (some 7), .read .outOfBounds none, .unit,
      .val 8, .num 2, .unit, .flag true, .read .outOfBounds none] := by decide

/-- Calls that check their arguments. -/
def VOp.checked : VOp α → Prop
  | .get _ => False
  | .set _ _ => False
  | _ => True

/-- **C29.** Histories that do not use the unchecked `operator[]` are always within the contract, so such a
client never causes undefined behaviour, whatever indices it passes to `at`. -/
theorem C29_checked_calls_always_defined (cap : Nat) (junk : Nat → α) (ops : List (VOp α))
    (h : ∀ op ∈ ops, op.checked) : ∃ os, vrun cap (Vec.new junk) ops = .ok os ∧ vspecRun cap [] ops = some os := by
  suffices ∀ l, ∃ os, vspecRun cap l ops = some os by
    obtain ⟨os, ho⟩ := this []
    exact ⟨os, C29_vector_refines_bounded_sequence cap junk ops os ho, ho⟩
  induction ops with
  | nil => intro l; exact ⟨[], rfl⟩
  | cons op ops ih =>
    intro l
    have ih' := ih (fun o ho => h o (List.mem_cons_of_mem _ ho))
    have hop := h op List.mem_cons_self
    have : ∃ o l', vspec cap l op = some (o, l') := by
      cases op with
      | push v => simp only [vspec]; split <;> exact ⟨_, _, rfl⟩
      | at' i => simp only [vspec]; split <;> exact ⟨_, _, rfl⟩
      | get i => exact hop.elim
      | set i v => exact hop.elim
      | clear => exact ⟨_, _, rfl⟩
      | size => exact ⟨_, _, rfl⟩
      | empty => exact ⟨_, _, rfl⟩
    obtain ⟨o, l', e⟩ := this
    obtain ⟨os, hos⟩ := ih' l'
    exact ⟨o :: os, by simp [vspecRun, e, hos]⟩

example : ∀ op ∈ ([.push 5, .at' 99, .push 6] : List (VOp Nat)), op.checked := by simp [VOp.checked]

/-! ### C30: specification of the map -/

variable {κ ν : Type} [DecidableEq κ]

inductive MOp (κ ν : Type) where
  | insert (k : κ) (v : ν) | find (k : κ) | erase (k : κ) | clear | size

inductive MObs (ν : Type) where
  | code (e : Err) | read (e : Err) (v : Option ν) | num (n : Nat) | unit
  deriving DecidableEq

/-- A finite map with its number of bindings. -/
structure FMap (κ ν : Type) where
  look : κ → Option ν
  card : Nat

/-- The bounded finite map: insertion of a new key fails exactly when `cap` keys are bound. -/
def mspec (cap : Nat) (m : FMap κ ν) : MOp κ ν → MObs ν × FMap κ ν
  | .insert k v =>
    if (m.look k).isSome then (.code .success, ⟨fun j => if j = k then some v else m.look j, m.card⟩)
    else if m.card < cap then (.code .success, ⟨fun j => if j = k then some v else m.look j, m.card + 1⟩)
    else (.code .full, m)
  | .find k => match m.look k with
    | some v => (.read .success (some v), m)
    | none => (.read .notFound none, m)
  | .erase k =>
    if (m.look k).isSome then (.code .success, ⟨fun j => if j = k then none else m.look j, m.card - 1⟩)
    else (.code .notFound, m)
  | .clear => (.unit, ⟨fun _ => none, 0⟩)
  | .size => (.num m.card, m)

def mspecRun (cap : Nat) : FMap κ ν → List (MOp κ ν) → List (MObs ν)
  | _, [] => []
  | m, op :: ops => (mspec cap m op).1 :: mspecRun cap (mspec cap m op).2 ops

def mstep (cap : Nat) (s : Map κ ν) : MOp κ ν → Outcome (MObs ν × Map κ ν)
  | .insert k v => Outcome.bind (s.insert cap k v) fun (e, s') => .ok (.code e, s')
  | .find k => Outcome.bind (s.find cap k) fun (e, v) => .ok (.read e v, s)
  | .erase k => Outcome.bind (s.erase cap k) fun (e, s') => .ok (.code e, s')
  | .clear => .ok (.unit, s.clear)
  | .size => .ok (.num s.size, s)

def mrun (cap : Nat) : Map κ ν → List (MOp κ ν) → Outcome (List (MObs ν))
  | _, [] => .ok []
  | s, op :: ops => Outcome.bind (mstep cap s op) fun (o, s') => Outcome.bind (mrun cap s' ops) fun os => .ok (o :: os)

/-- Representation invariant. -/
structure MRep (cap : Nat) (s : Map κ ν) (m : FMap κ ν) : Prop where
  card : s.size = m.card
  le : s.size ≤ cap
  inj : ∀ i j, i < s.size → j < s.size → s.keys i = s.keys j → i = j
  sound : ∀ i, i < s.size → m.look (s.keys i) = some (s.vals i)
  complete : ∀ k v, m.look k = some v → ∃ i, i < s.size ∧ s.keys i = k

theorem search_spec (cap : Nat) (keys : Nat → κ) (key : κ) : ∀ (fuel i : Nat), i + fuel ≤ cap →
    (∃ j, i ≤ j ∧ j < i + fuel ∧ keys j = key ∧ search cap keys key fuel i = .ok (some j)) ∨
    ((∀ j, i ≤ j → j < i + fuel → keys j ≠ key) ∧ search cap keys key fuel i = .ok none) := by
  intro fuel
  induction fuel with
  | zero => intro i _; right; exact ⟨fun j h1 h2 => by omega, rfl⟩
  | succ n ih =>
    intro i hi
    have hic : i < cap := by omega
    by_cases hk : keys i = key
    · left; exact ⟨i, Nat.le_refl _, by omega, hk, by simp [search, readCell, Outcome.bind, hic, hk]⟩
    · have e : search cap keys key (n + 1) i = search cap keys key n (i + 1) := by
        simp [search, readCell, Outcome.bind, hic, hk]
      rcases ih (i + 1) (by omega) with ⟨j, h1, h2, h3, h4⟩ | ⟨h1, h2⟩
      · left; exact ⟨j, by omega, by omega, h3, by rw [e, h4]⟩
      · right
        refine ⟨fun j hj1 hj2 => ?_, by rw [e, h2]⟩
        by_cases hji : j = i
        · rw [hji]; exact hk
        · exact h1 j (by omega) (by omega)

/-- What `search` over the whole map finds. -/
theorem search_rep {cap : Nat} {s : Map κ ν} {m : FMap κ ν} (h : MRep cap s m) (k : κ) :
    (∃ i, i < s.size ∧ s.keys i = k ∧ m.look k = some (s.vals i) ∧ search cap s.keys k s.size 0 = .ok (some i)) ∨
    (m.look k = none ∧ (∀ i, i < s.size → s.keys i ≠ k) ∧ search cap s.keys k s.size 0 = .ok none) := by
  rcases search_spec cap s.keys k s.size 0 (by have := h.le; omega) with ⟨j, _, h2, h3, h4⟩ | ⟨h1, h2⟩
  · left; exact ⟨j, by omega, h3, by rw [← h3]; exact h.sound j (by omega), h4⟩
  · right
    refine ⟨?_, fun i hi => h1 i (Nat.zero_le _) (by omega), h2⟩
    cases hl : m.look k with
    | none => rfl
    | some v =>
      obtain ⟨i, hi, hk⟩ := h.complete k v hl
      exact absurd hk (h1 i (Nat.zero_le _) (by omega))

theorem mstep_rep (cap : Nat) (s : Map κ ν) (m : FMap κ ν) (h : MRep cap s m) (op : MOp κ ν) :
    ∃ s', mstep cap s op = .ok ((mspec cap m op).1, s') ∧ MRep cap s' (mspec cap m op).2 := by
  cases op with
  | insert k v =>
    rcases search_rep h k with ⟨i, hi, hk, hl, hs⟩ | ⟨hl, hne, hs⟩
    · have hic : i < cap := by have := h.le; omega
      refine ⟨{ s with vals := fun j => if j = i then v else s.vals j }, ?_, ?_⟩
      · simp [mstep, Map.insert, hs, Outcome.bind, writeCell, hic, mspec, hl]
      · have e : (mspec cap m (.insert k v)).2 = ⟨fun j => if j = k then some v else m.look j, m.card⟩ := by
          simp [mspec, hl]
        rw [e]
        refine ⟨h.card, h.le, h.inj, ?_, ?_⟩
        · intro j hj
          by_cases hji : j = i
          · simp [hji, hk]
          · have : s.keys j ≠ k := fun e => hji (h.inj j i hj hi (by rw [e, hk]))
            simp [hji, this, h.sound j hj]
        · intro k' v' hk'
          by_cases hkk : k' = k
          · exact ⟨i, hi, by rw [hk, hkk]⟩
          · exact h.complete k' v' (by simpa [hkk] using hk')
    · by_cases hc : s.size < cap
      · refine ⟨⟨fun j => if j = s.size then k else s.keys j, fun j => if j = s.size then v else s.vals j,
          s.size + 1⟩, ?_, ?_⟩
        · have := h.card
          have h2 : m.card < cap := by omega
          have h3 : ¬ cap ≤ s.size := by omega
          simp [mstep, Map.insert, hs, Outcome.bind, writeCell, hc, mspec, hl, h2, h3]
        · have h2 : m.card < cap := by have := h.card; omega
          have e : (mspec cap m (.insert k v)).2 =
              ⟨fun j => if j = k then some v else m.look j, m.card + 1⟩ := by
            simp [mspec, hl, h2]
          rw [e]
          refine ⟨by simp [h.card], by simp; omega, ?_, ?_, ?_⟩
          · intro i j hi hj hij
            simp only at hi hj hij
            by_cases h1 : i = s.size <;> by_cases h2 : j = s.size
            · omega
            · rw [if_pos h1, if_neg h2] at hij
              exact absurd hij.symm (hne j (by omega))
            · rw [if_neg h1, if_pos h2] at hij
              exact absurd hij (hne i (by omega))
            · rw [if_neg h1, if_neg h2] at hij
              exact h.inj i j (by omega) (by omega) hij
          · intro i hi
            simp only at hi
            by_cases h1 : i = s.size
            · simp [h1]
            · have := hne i (by omega)
              simp [h1, this, h.sound i (by omega)]
          · intro k' v' hk'
            by_cases hkk : k' = k
            · exact ⟨s.size, by simp, by simp [hkk]⟩
            · obtain ⟨i, hi, hki⟩ := h.complete k' v' (by simpa [hkk] using hk')
              exact ⟨i, by simp; omega, by simp [Nat.ne_of_lt hi, hki]⟩
      · refine ⟨s, ?_, ?_⟩
        · have := h.card
          have h2 : ¬ m.card < cap := by omega
          have h3 : cap ≤ s.size := by omega
          simp [mstep, Map.insert, hs, Outcome.bind, mspec, hl, h2, h3]
        · have h2 : ¬ m.card < cap := by have := h.card; omega
          have e : (mspec cap m (.insert k v)).2 = m := by simp [mspec, hl, h2]
          rw [e]; exact h
  | find k =>
    rcases search_rep h k with ⟨i, hi, hk, hl, hs⟩ | ⟨hl, hne, hs⟩
    · have hic : i < cap := by have := h.le; omega
      refine ⟨s, by simp [mstep, Map.find, hs, Outcome.bind, readCell, hic, mspec, hl], ?_⟩
      simpa [mspec, hl] using h
    · refine ⟨s, by simp [mstep, Map.find, hs, Outcome.bind, mspec, hl], ?_⟩
      simpa [mspec, hl] using h
  | erase k =>
    rcases search_rep h k with ⟨i, hi, hk, hl, hs⟩ | ⟨hl, hne, hs⟩
    · have hic : i < cap := by have := h.le; omega
      have hlc : s.size - 1 < cap := by have := h.le; omega
      have e : (mspec cap m (.erase k)) =
          (.code .success, ⟨fun j => if j = k then none else m.look j, m.card - 1⟩) := by
        simp [mspec, hl]
      rw [e]
      by_cases hlast : i < s.size - 1
      · refine ⟨⟨fun j => if j = i then s.keys (s.size - 1) else s.keys j,
            fun j => if j = i then s.vals (s.size - 1) else s.vals j, s.size - 1⟩, ?_, ?_⟩
        · simp [mstep, Map.erase, hs, Outcome.bind, readCell, writeCell, hic, hlc, hlast]
        · have hkl : s.keys (s.size - 1) ≠ k := fun e =>
            by have := h.inj (s.size - 1) i (by omega) hi (by rw [e, hk]); omega
          refine ⟨by simp [h.card], by have := h.le; simp; omega, ?_, ?_, ?_⟩
          · intro a b ha hb hab
            simp only at ha hb hab
            by_cases h1 : a = i <;> by_cases h2 : b = i
            · omega
            · rw [if_pos h1, if_neg h2] at hab
              have := h.inj _ b (by omega) (by omega) hab; omega
            · rw [if_neg h1, if_pos h2] at hab
              have := h.inj a _ (by omega) (by omega) hab; omega
            · rw [if_neg h1, if_neg h2] at hab
              exact h.inj a b (by omega) (by omega) hab
          · intro a ha
            simp only at ha
            by_cases h1 : a = i
            · simp [h1, hkl, h.sound (s.size - 1) (by omega)]
            · have : s.keys a ≠ k := fun e => h1 (h.inj a i (by omega) hi (by rw [e, hk]))
              simp [h1, this, h.sound a (by omega)]
          · intro k' v' hk'
            by_cases hkk : k' = k
            · simp [hkk] at hk'
            · obtain ⟨a, ha, hka⟩ := h.complete k' v' (by simpa [hkk] using hk')
              by_cases h1 : a = s.size - 1
              · exact ⟨i, hlast, by simp [← h1, hka]⟩
              · have h2 : a ≠ i := fun e => hkk (by rw [← hka, e, hk])
                exact ⟨a, by simp; omega, by simp [h2, hka]⟩
      · have hil : i = s.size - 1 := by omega
        refine ⟨{ s with size := s.size - 1 }, ?_, ?_⟩
        · simp [mstep, Map.erase, hs, Outcome.bind, hlast]
        · refine ⟨by simp [h.card], by have := h.le; simp; omega, ?_, ?_, ?_⟩
          · intro a b ha hb hab
            simp only at ha hb hab
            exact h.inj a b (by omega) (by omega) hab
          · intro a ha
            simp only at ha
            have : s.keys a ≠ k := fun e => by
              have := h.inj a i (by omega) hi (by rw [e, hk]); omega
            simp [this, h.sound a (by omega)]
          · intro k' v' hk'
            by_cases hkk : k' = k
            · simp [hkk] at hk'
            · obtain ⟨a, ha, hka⟩ := h.complete k' v' (by simpa [hkk] using hk')
              have h2 : a ≠ i := fun e => hkk (by rw [← hka, e, hk])
              exact ⟨a, by simp; omega, hka⟩
    · refine ⟨s, by simp [mstep, Map.erase, hs, Outcome.bind, mspec, hl], ?_⟩
      simpa [mspec, hl] using h
  | clear =>
    exact ⟨s.clear, rfl, ⟨rfl, Nat.zero_le _, fun i j hi => absurd hi (Nat.not_lt_zero _), fun i hi => absurd hi (Nat.not_lt_zero _),
      fun k v hk => by cases hk⟩⟩
  | size => exact ⟨s, by simp [mstep, mspec, h.card], h⟩

/-- **C30.** For every capacity, every initial memory content and every history of insert/find/erase/clear/size
calls (keys with an honest `==`), the code has no undefined behaviour and every call returns exactly what the
bounded finite map returns. -/
theorem C30_map_refines_finite_map (cap : Nat) (jk : Nat → κ) (jv : Nat → ν) (ops : List (MOp κ ν)) :
    mrun cap (Map.new jk jv) ops = .ok (mspecRun cap ⟨fun _ => none, 0⟩ ops) := by
  suffices ∀ (s : Map κ ν) (m : FMap κ ν), MRep cap s m → mrun cap s ops = .ok (mspecRun cap m ops) from
    this _ _ ⟨rfl, Nat.zero_le _, fun i j hi => absurd hi (Nat.not_lt_zero _),
      fun i hi => absurd hi (Nat.not_lt_zero _), fun k v hk => by cases hk⟩
  induction ops with
  | nil => intro s m _; rfl
  | cons op ops ih =>
    intro s m h
    obtain ⟨s', e, h'⟩ := mstep_rep cap s m h op
    simp [mrun, e, Outcome.bind, ih s' _ h', mspecRun]

/-- The specification on a history with update, overflow, erasure of a middle key and re-insertion. -/
example : mspecRun 2 (⟨fun _ => none, 0⟩ : FMap Nat Nat)
    [.insert 1 10, .insert 2 20, .insert 3 30, .insert 1 11, .erase 1, .find 2, .find 1, .insert 3 31, .find 3, .size,
      .erase 9] =
    [.code .success, .code .success, .code .full, .code .success, .code .success, .read .success (some 20),
      .read .notFound none, .code .success, .read .success (some 31), .num 2, .code .notFound] := by decide

/-- The `card` of the specification really is the number of bound keys: after any history there is a duplicate
free list of exactly that many keys, and it lists precisely the bound ones. -/
theorem C30_spec_card (cap : Nat) (ops : List (MOp κ ν)) :
    let m := ops.foldl (fun m op => (mspec cap m op).2) (⟨fun _ => none, 0⟩ : FMap κ ν)
    ∃ ks : List κ, ks.Nodup ∧ ks.length = m.card ∧ m.card ≤ cap ∧ ∀ k, k ∈ ks ↔ (m.look k).isSome := by
  suffices ∀ m : FMap κ ν, (∃ ks : List κ, ks.Nodup ∧ ks.length = m.card ∧ m.card ≤ cap ∧
      ∀ k, k ∈ ks ↔ (m.look k).isSome) →
      let m' := ops.foldl (fun m op => (mspec cap m op).2) m
      ∃ ks : List κ, ks.Nodup ∧ ks.length = m'.card ∧ m'.card ≤ cap ∧ ∀ k, k ∈ ks ↔ (m'.look k).isSome from
    this _ ⟨[], by simp⟩
  induction ops with
  | nil => intro m h; exact h
  | cons op ops ih =>
    intro m ⟨ks, h1, h2, h3, h4⟩
    refine ih (mspec cap m op).2 ?_
    cases op with
    | insert k v =>
      by_cases hk : (m.look k).isSome
      · refine ⟨ks, h1, ?_⟩
        simp only [mspec, hk, if_true]
        refine ⟨h2, h3, fun k' => ?_⟩
        by_cases hkk : k' = k
        · simp [hkk, (h4 k).2 hk]
        · simp [hkk, h4]
      · by_cases hc : m.card < cap
        · refine ⟨k :: ks, List.nodup_cons.2 ⟨fun hm => hk ((h4 k).1 hm), h1⟩, ?_⟩
          simp only [mspec, hk, hc, if_true]
          refine ⟨by simp [h2], by simp; omega, fun k' => ?_⟩
          by_cases hkk : k' = k
          · simp [hkk]
          · simp [hkk, h4]
        · refine ⟨ks, h1, ?_⟩
          simp only [mspec, hk, hc]
          exact ⟨h2, h3, h4⟩
    | find k =>
      refine ⟨ks, h1, ?_⟩
      simp only [mspec]
      split <;> exact ⟨h2, h3, h4⟩
    | erase k =>
      by_cases hk : (m.look k).isSome
      · refine ⟨ks.erase k, h1.erase _, ?_⟩
        simp only [mspec, hk, if_true]
        refine ⟨by rw [List.length_erase_of_mem ((h4 k).2 hk), h2], by omega, fun k' => ?_⟩
        rw [h1.mem_erase_iff, h4]
        by_cases hkk : k' = k
        · simp [hkk]
        · simp [hkk]
      · refine ⟨ks, h1, ?_⟩
        simp only [mspec, hk]
        exact ⟨h2, h3, h4⟩
    | clear => exact ⟨[], by simp [mspec]⟩
    | size => exact ⟨ks, h1, h2, h3, h4⟩

end Verif.Props.FixedC
