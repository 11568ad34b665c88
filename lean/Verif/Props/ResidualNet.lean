import Verif.Model.ResidualNet
import Mathlib.Data.List.Perm.Basic
import Mathlib.Data.List.Nodup
import Mathlib.Tactic.Linarith
import Mathlib.Algebra.Order.Ring.Rat
/-!
C113: skip connections of a residual network; C114: their file; C115: training and evaluation.
-/
namespace Verif.ResidualNet

variable {P I O : Type}

/-! ### Specification: what is connected after a history -/

/-- Calls on the connections. -/
inductive Op (P : Type) where
  | add (src dst : Nat)
  | remove (src dst : Nat)
  | project (src dst : Nat) (p : P)

/-- The projection of the connection from `s` to `d` after a history (most recent call first), `none` if they are not connected. -/
def current (one : P) (layers : Nat) : List (Op P) → Nat → Nat → Option P
  | [], _, _ => none
  | .add a b :: t, s, d => if a = s ∧ b = d ∧ s < d ∧ d < layers then some one else current one layers t s d
  | .remove a b :: t, s, d => if a = s ∧ b = d then none else current one layers t s d
  | .project a b p :: t, s, d => if a = s ∧ b = d then (current one layers t s d).map fun _ => p else current one layers t s d

/-- One call on the model. -/
def Net.step (one : P) (n : Net P I O) : Op P → Net P I O
  | .add s d => (n.add one s d).2
  | .remove s d => (n.remove s d).2
  | .project s d p => n.project s d p

/-- The model after a history (most recent call first), starting without connections. -/
def Net.after (one : P) (layers : Nat) (base : I → Rat → O) : List (Op P) → Net P I O
  | [] => { layers := layers, base := base }
  | o :: t => (Net.after one layers base t).step one o

/-! ### Keys -/

theorem digit_toNat {d : Nat} (h : d < 10) : (digit d).toNat = 48 + d := by
  unfold digit; rw [BitVec.toNat_ofNat]; omega

theorem isDigit_iff (c : Byte) : isDigit c = true ↔ 48 ≤ c.toNat ∧ c.toNat ≤ 57 := by
  unfold isDigit
  rw [Bool.and_eq_true, decide_eq_true_iff, decide_eq_true_iff, BitVec.le_def, BitVec.le_def]
  exact Iff.rfl

theorem dec_digits (n : Nat) : ∀ c ∈ dec n, isDigit c = true := by
  induction n using Nat.strongRecOn with
  | ind n ih =>
    intro c hc
    unfold dec at hc
    split at hc
    · rename_i h
      rw [List.mem_singleton] at hc
      rw [hc, isDigit_iff, digit_toNat h]; omega
    · rename_i h
      rcases List.mem_append.1 hc with hc | hc
      · exact ih (n / 10) (by omega) c hc
      · rw [List.mem_singleton] at hc
        rw [hc, isDigit_iff, digit_toNat (by omega)]; omega

theorem dec_ne (n : Nat) : dec n ≠ [] := by
  unfold dec; split <;> simp

theorem value_dec (n : Nat) : value (dec n) = n := by
  induction n using Nat.strongRecOn with
  | ind n ih =>
    unfold dec
    split
    · rename_i h
      simp only [value, List.foldl_cons, List.foldl_nil]
      rw [digit_toNat h]; omega
    · rename_i h
      have := ih (n / 10) (by omega)
      unfold value at this ⊢
      rw [List.foldl_append, this]
      simp only [List.foldl_cons, List.foldl_nil]
      rw [digit_toNat (by omega)]; omega

theorem takeWhile_all {α : Type} {p : α → Bool} (l : List α) (h : ∀ c ∈ l, p c = true) : l.takeWhile p = l := by
  induction l with
  | nil => rfl
  | cons a t ih => rw [List.takeWhile_cons, if_pos (h a (by simp)), ih fun c hc => h c (by simp [hc])]

theorem stoull_dec {n : Nat} (h : n < 2 ^ 64) : stoull (dec n) = some n := by
  have hd := dec_digits n
  have hn := dec_ne n
  have hv := value_dec n
  have ht := takeWhile_all (dec n) hd
  have hdig : digits (dec n) = some n := by
    unfold digits; simp only; rw [ht, if_neg hn, hv, if_pos h]
  unfold stoull
  generalize dec n = l at *
  match l with
  | [] => exact absurd rfl hn
  | c :: t =>
    have hc := (isDigit_iff c).1 (hd c (by simp))
    have hs : isSpace c = false := by
      rw [Bool.eq_false_iff]
      intro hh
      unfold isSpace at hh
      rw [Bool.or_eq_true, Bool.and_eq_true, beq_iff_eq, decide_eq_true_iff, decide_eq_true_iff, BitVec.le_def, BitVec.le_def] at hh
      rcases hh with rfl | hh
      · simp at hc
      · have : c.toNat ≤ 13 := hh.2
        omega
    rw [List.dropWhile_cons, if_neg (by rw [hs]; simp)]
    simp only
    rw [if_neg, if_neg, hdig]
    · rintro rfl; simp at hc
    · rintro rfl; simp at hc

theorem split_key (l r : List Byte) (h : ∀ c ∈ l, isDigit c = true) : splitArrow (l ++ [45#8, 62#8] ++ r) = some (l, r) := by
  induction l with
  | nil => simp [splitArrow]
  | cons a t ih =>
    have ha := (isDigit_iff a).1 (h a (by simp))
    have hne : a ≠ 45#8 := by rintro rfl; simp at ha
    have := ih fun c hc => h c (by simp [hc])
    rw [List.cons_append, List.cons_append]
    generalize hm : t ++ [45#8, 62#8] ++ r = m at this ⊢
    match m with
    | [] => simp at hm
    | b :: m =>
      rw [splitArrow, if_neg (fun x => hne x.1), this]; rfl

theorem key_inj {s d s' d' : Nat} (h : key s d = key s' d') : s = s' ∧ d = d' := by
  have h1 := split_key (dec s) (dec d) (dec_digits s)
  have h2 := split_key (dec s') (dec d') (dec_digits s')
  unfold key at h
  rw [h, h2] at h1
  simp only [Option.some.injEq, Prod.mk.injEq] at h1
  exact ⟨by rw [← value_dec s, ← value_dec s', h1.1], by rw [← value_dec d, ← value_dec d', h1.2]⟩

theorem parse_key {s d : Nat} (hs : s < 2 ^ 64) (hd : d < 2 ^ 64) : parse (key s d) = some (s, d) := by
  unfold parse key
  rw [split_key _ _ (dec_digits s)]
  simp only
  rw [stoull_dec hs, stoull_dec hd]; rfl

/-! ### The map -/

/-- Entry of a key. -/
def find (m : List (List Byte × Conn P)) (k : List Byte) : Option (Conn P) := (m.find? (·.1 = k)).map (·.2)

theorem find_none {m : List (List Byte × Conn P)} {k : List Byte} : find m k = none ↔ k ∉ m.map (·.1) := by
  unfold find
  rw [Option.map_eq_none_iff, List.find?_eq_none]
  simp only [List.mem_map, not_exists, not_and, decide_eq_true_eq]

theorem any_iff (m : List (List Byte × Conn P)) (k : List Byte) : m.any (·.1 = k) = true ↔ k ∈ m.map (·.1) := by
  simp [List.any_eq_true]

theorem find_mem {m : List (List Byte × Conn P)} {k : List Byte} {c : Conn P} (h : find m k = some c) : (k, c) ∈ m := by
  unfold find at h
  rw [Option.map_eq_some_iff] at h
  obtain ⟨e, he, rfl⟩ := h
  have h1 := List.find?_some he
  have h2 := List.mem_of_find?_eq_some he
  simp only [decide_eq_true_eq] at h1
  rw [← h1]; exact h2

theorem put_keys (m : List (List Byte × Conn P)) (k : List Byte) (c : Conn P) :
    (put m k c).map (·.1) = if k ∈ m.map (·.1) then m.map (·.1) else m.map (·.1) ++ [k] := by
  unfold put
  by_cases h : k ∈ m.map (·.1)
  · rw [if_pos ((any_iff m k).2 h), if_pos h, List.map_map]
    apply List.map_congr_left
    intro e _
    simp only [Function.comp]
    split <;> simp_all
  · rw [if_neg (fun x => h ((any_iff m k).1 x)), if_neg h]; simp

theorem put_new {m : List (List Byte × Conn P)} {k : List Byte} (h : k ∉ m.map (·.1)) (c : Conn P) : put m k c = m ++ [(k, c)] := by
  unfold put
  rw [if_neg (fun x => h ((any_iff m k).1 x))]

theorem find_map_if (m : List (List Byte × Conn P)) (k q : List Byte) (f : Conn P → Conn P) :
    find (m.map fun e => if e.1 = k then (e.1, f e.2) else e) q = if q = k then (find m q).map f else find m q := by
  induction m with
  | nil => simp [find]
  | cons e t ih =>
    unfold find at *
    rw [List.map_cons, List.find?_cons, List.find?_cons]
    have e1 : (if e.1 = k then (e.1, f e.2) else e).1 = e.1 := by split <;> rfl
    by_cases he : e.1 = q
    · rw [e1]
      by_cases hk : q = k
      · subst hk; simp [he]
      · simp only [he, decide_true, if_neg hk]
    · rw [e1]
      simp only [he, decide_false]
      exact ih

theorem find_put (m : List (List Byte × Conn P)) (k q : List Byte) (c : Conn P) : find (put m k c) q = if q = k then some c else find m q := by
  by_cases h : k ∈ m.map (·.1)
  · unfold put
    rw [if_pos ((any_iff m k).2 h)]
    have e : (m.map fun e => if e.1 = k then (k, c) else e) = m.map fun e => if e.1 = k then (e.1, (fun _ => c) e.2) else e := by
      apply List.map_congr_left
      intro e _
      split
      · rename_i hh; rw [hh]
      · rfl
    rw [e, find_map_if m k q fun _ => c]
    by_cases hq : q = k
    · rw [if_pos hq, if_pos hq, hq]
      cases hf : find m k with
      | none => exact absurd h (find_none.1 hf)
      | some x => rfl
    · rw [if_neg hq, if_neg hq]
  · rw [put_new h]
    unfold find
    rw [List.find?_append]
    by_cases hq : q = k
    · rw [if_pos hq, hq]
      have : m.find? (·.1 = k) = none := by
        have := find_none.2 h
        unfold find at this
        exact Option.map_eq_none_iff.1 this
      rw [this]; simp
    · rw [if_neg hq]
      have : ¬ k = q := fun x => hq x.symm
      cases hm : m.find? (·.1 = q) with
      | none => simp [this]
      | some x => simp

theorem find_filter (m : List (List Byte × Conn P)) (k q : List Byte) : find (m.filter (·.1 ≠ k)) q = if q = k then none else find m q := by
  induction m with
  | nil => simp [find]
  | cons e t ih =>
    unfold find at *
    by_cases he : e.1 = k
    · rw [List.filter_cons_of_neg (by simpa using he), ih]
      by_cases hq : q = k
      · rw [if_pos hq, if_pos hq]
      · rw [if_neg hq, if_neg hq, List.find?_cons_of_neg (by simp; rw [he]; exact fun x => hq x.symm)]
    · rw [List.filter_cons_of_pos (by simpa using he), List.find?_cons, List.find?_cons]
      by_cases h2 : e.1 = q
      · simp only [h2, decide_true]
        rw [if_neg (by rw [← h2]; exact he)]
      · simp only [h2, decide_false]
        exact ih

/-- What holds after every history. -/
structure Inv (one : P) (layers : Nat) (base : I → Rat → O) (h : List (Op P)) (n : Net P I O) : Prop where
  depth : n.layers = layers
  inherited : n.base = base
  nodup : (n.conns.map (·.1)).Nodup
  keys : ∀ k ∈ n.conns.map (·.1), ∃ s d, k = key s d ∧ s < d ∧ d < layers
  bare : ∀ e ∈ n.conns, e.2.weights = [] ∧ e.2.prot = false
  look : ∀ s d, (find n.conns (key s d)).map (·.proj) = current one layers h s d

theorem add_eq (one : P) (n : Net P I O) (s d : Nat) :
    n.add one s d = if s < d ∧ d < n.layers then (true, { n with conns := put n.conns (key s d) { proj := one } }) else (false, n) := by
  unfold Net.add
  by_cases h : s < d ∧ d < n.layers
  · rw [if_pos h, if_neg, if_neg (by omega)]
    rw [if_neg (by omega)]; omega
  · rw [if_neg h]
    by_cases h2 : s ≥ (if n.layers = 0 then 2 ^ 64 - 1 else n.layers - 1) ∨ d ≥ n.layers
    · rw [if_pos h2]
    · rw [if_neg h2, if_pos (by omega)]

theorem inv_after (one : P) (layers : Nat) (base : I → Rat → O) (h : List (Op P)) : Inv one layers base h (Net.after one layers base h) := by
  induction h with
  | nil => exact ⟨rfl, rfl, by simp [Net.after], by simp [Net.after], by simp [Net.after], fun _ _ => by simp [Net.after, find, current]⟩
  | cons o t ih =>
    generalize hn : (Net.after one layers base t : Net P I O) = n at ih
    have e : (Net.after one layers base (o :: t) : Net P I O) = n.step one o := by rw [← hn]; rfl
    rw [e]
    cases o with
    | add a b =>
      simp only [Net.step]
      rw [add_eq, ih.depth]
      by_cases hc : a < b ∧ b < layers
      · rw [if_pos hc]
        refine ⟨rfl, ih.inherited, ?_, ?_, ?_, ?_⟩
        · simp only [put_keys]
          split
          · exact ih.nodup
          · rename_i hk
            rw [List.nodup_append]
            refine ⟨ih.nodup, by simp, ?_⟩
            intro x hx y hy hxy
            rw [List.mem_singleton] at hy
            rw [hxy, hy] at hx; exact hk hx
        · simp only [put_keys]
          intro k hk
          split at hk
          · exact ih.keys k hk
          · rcases List.mem_append.1 hk with hk | hk
            · exact ih.keys k hk
            · exact ⟨a, b, List.mem_singleton.1 hk, hc⟩
        · simp only
          unfold put
          intro e he
          split at he
          · obtain ⟨e', h1, rfl⟩ := List.mem_map.1 he
            split
            · exact ⟨rfl, rfl⟩
            · exact ih.bare e' h1
          · rcases List.mem_append.1 he with he | he
            · exact ih.bare e he
            · rw [List.mem_singleton.1 he]; exact ⟨rfl, rfl⟩
        · intro s d
          simp only [find_put, current]
          by_cases hk : a = s ∧ b = d
          · obtain ⟨rfl, rfl⟩ := hk
            rw [if_pos rfl, if_pos ⟨rfl, rfl, hc⟩]; rfl
          · rw [if_neg (fun x => hk (by have := key_inj x; exact ⟨this.1.symm, this.2.symm⟩)), if_neg (fun x => hk ⟨x.1, x.2.1⟩)]
            exact ih.look s d
      · rw [if_neg hc]
        refine ⟨ih.depth, ih.inherited, ih.nodup, ih.keys, ih.bare, fun s d => ?_⟩
        simp only [current]
        rw [if_neg (by rintro ⟨rfl, rfl, h1, h2⟩; exact hc ⟨h1, h2⟩)]
        exact ih.look s d
    | remove a b =>
      simp only [Net.step, Net.remove]
      by_cases hk : key a b ∈ n.conns.map (·.1)
      · rw [if_pos ((any_iff _ _).2 hk)]
        refine ⟨ih.depth, ih.inherited, ?_, ?_, ?_, ?_⟩
        · exact ih.nodup.sublist (List.filter_sublist.map _)
        · intro k hk
          obtain ⟨e, he, rfl⟩ := List.mem_map.1 hk
          exact ih.keys _ (List.mem_map_of_mem (List.mem_of_mem_filter he))
        · intro e he
          exact ih.bare e (List.mem_of_mem_filter he)
        · intro s d
          simp only [find_filter, current]
          by_cases hk : a = s ∧ b = d
          · obtain ⟨rfl, rfl⟩ := hk
            rw [if_pos rfl, if_pos ⟨rfl, rfl⟩]; rfl
          · rw [if_neg (fun x => hk (by have := key_inj x; exact ⟨this.1.symm, this.2.symm⟩)), if_neg hk]
            exact ih.look s d
      · rw [if_neg (fun x => hk ((any_iff _ _).1 x))]
        refine ⟨ih.depth, ih.inherited, ih.nodup, ih.keys, ih.bare, fun s d => ?_⟩
        simp only [current]
        by_cases hk' : a = s ∧ b = d
        · obtain ⟨rfl, rfl⟩ := hk'
          rw [if_pos ⟨rfl, rfl⟩, find_none.2 hk]; rfl
        · rw [if_neg hk']; exact ih.look s d
    | project a b p =>
      simp only [Net.step, Net.project]
      have hkeys : (n.conns.map fun e => if e.1 = key a b then (e.1, { e.2 with proj := p }) else e).map (·.1) = n.conns.map (·.1) := by
        rw [List.map_map]
        apply List.map_congr_left
        intro e _
        simp only [Function.comp]
        split <;> rfl
      refine ⟨ih.depth, ih.inherited, ?_, ?_, ?_, ?_⟩
      · simp only [hkeys]; exact ih.nodup
      · simp only [hkeys]; exact ih.keys
      · intro e he
        obtain ⟨e', h1, rfl⟩ := List.mem_map.1 he
        have := ih.bare e' h1
        split <;> exact this
      · intro s d
        simp only [current]
        rw [find_map_if n.conns (key a b) (key s d) fun c => { c with proj := p }]
        by_cases hk : a = s ∧ b = d
        · obtain ⟨rfl, rfl⟩ := hk
          rw [if_pos rfl, if_pos ⟨rfl, rfl⟩, ← ih.look a b, Option.map_map, Option.map_map]; rfl
        · rw [if_neg (fun x => hk (by have := key_inj x; exact ⟨this.1.symm, this.2.symm⟩)), if_neg hk]
          exact ih.look s d

/-! ### C113 -/

/-- C113, validation: a connection is accepted exactly if it leads forward between existing layers; a removal succeeds exactly if there is such a connection; a refused call changes nothing. -/
theorem C113_results (one : P) (layers : Nat) (base : I → Rat → O) (h : List (Op P)) (s d : Nat) :
    let n := Net.after one layers base h
    ((n.add one s d).1 = true ↔ s < d ∧ d < layers) ∧ ((n.add one s d).1 = false → (n.add one s d).2 = n) ∧
    ((n.remove s d).1 = true ↔ (current one layers h s d).isSome = true) ∧ ((n.remove s d).1 = false → (n.remove s d).2 = n) := by
  intro n
  have hi := inv_after one layers base h
  have hl : n.layers = layers := hi.depth
  refine ⟨?_, ?_, ?_, ?_⟩
  · rw [add_eq, hl]; split <;> simp_all
  · rw [add_eq, hl]; split <;> simp
  · rw [← hi.look s d, Option.isSome_map]
    have : (find n.conns (key s d)).isSome = true ↔ key s d ∈ n.conns.map (·.1) := by
      rw [← not_iff_not, ← find_none]; simp
    rw [this]
    unfold Net.remove
    by_cases hk : key s d ∈ n.conns.map (·.1)
    · rw [if_pos ((any_iff _ _).2 hk)]; simp only [hk]
    · rw [if_neg (fun x => hk ((any_iff _ _).1 x))]; simp [hk]
  · unfold Net.remove; split <;> simp

theorem mapM_parse (l : List (List Byte)) (hl : ∀ k ∈ l, ∃ s d, k = key s d ∧ s < d ∧ d < 2 ^ 64) :
    ∃ ps, l.mapM parse = some ps ∧ l = ps.map (fun x => key x.1 x.2) := by
  induction l with
  | nil => exact ⟨[], rfl, rfl⟩
  | cons a t ih =>
    obtain ⟨ps, h1, h2⟩ := ih fun k hk => hl k (by simp [hk])
    obtain ⟨s, d, rfl, h3, h4⟩ := hl a (by simp)
    refine ⟨(s, d) :: ps, ?_, by simp [← h2]⟩
    rw [List.mapM_cons, parse_key (by omega) h4, h1]; rfl

/-- C113, registry: after every history, in whatever order the map is traversed, the list of connections is produced without exception, contains each connection once and exactly those added and not removed since, and has as many entries as reported. -/
theorem C113_registry (one : P) (layers : Nat) (base : I → Rat → O) (hl : layers ≤ 2 ^ 64) (h : List (Op P))
    (order : List (List Byte) → List (List Byte)) (ho : ∀ l, (order l).Perm l) :
    let n := Net.after one layers base h
    ∃ l, n.list order = some l ∧ l.Nodup ∧ (∀ s d, (s, d) ∈ l ↔ (current one layers h s d).isSome = true) ∧ l.length = n.count := by
  intro n
  have hi := inv_after one layers base h
  have hp := ho (n.conns.map (·.1))
  obtain ⟨ps, h1, h2⟩ := mapM_parse (order (n.conns.map (·.1))) (by
    intro k hk
    obtain ⟨s, d, h1, h2, h3⟩ := hi.keys k (hp.mem_iff.1 hk)
    exact ⟨s, d, h1, h2, by omega⟩)
  refine ⟨ps, h1, ?_, ?_, ?_⟩
  · have := (hp.nodup_iff).2 hi.nodup
    rw [h2] at this
    exact List.Nodup.of_map _ this
  · intro s d
    rw [← hi.look s d, Option.isSome_map]
    have h3 : (find n.conns (key s d)).isSome = true ↔ key s d ∈ n.conns.map (·.1) := by
      rw [← not_iff_not, ← find_none]; simp
    rw [h3, ← hp.mem_iff, h2, List.mem_map]
    constructor
    · intro hm; exact ⟨_, hm, rfl⟩
    · rintro ⟨x, hx, hk⟩
      obtain ⟨e1, e2⟩ := key_inj hk
      have : x = (s, d) := by cases x; simp_all
      rw [← this]; exact hx
  · have := hp.length_eq
    rw [h2, List.length_map, List.length_map] at this
    exact this

/-- C113, projections: the connection's projection is the one set last, the identity after it was added (again). -/
theorem C113_projection (one : P) (layers : Nat) (base : I → Rat → O) (h : List (Op P)) (s d : Nat) :
    (find (Net.after one layers base h : Net P I O).conns (key s d)).map (·.proj) = current one layers h s d :=
  (inv_after one layers base h).look s d

theorem copyConns_eq (l : List (List Byte × Conn P)) (h : (l.map (·.1)).Nodup) : copyConns l = l := by
  have : ∀ (l m : List (List Byte × Conn P)), ((m ++ l).map (·.1)).Nodup →
      l.foldl (fun m e => put m e.1 { proj := e.2.proj, weights := e.2.weights, prot := e.2.prot }) m = m ++ l := by
    intro l
    induction l with
    | nil => intro m _; simp
    | cons a t ih =>
      intro m hm
      rw [List.foldl_cons]
      have hk : a.1 ∉ m.map (·.1) := by
        intro hk
        rw [List.map_append, List.map_cons, List.nodup_append] at hm
        exact hm.2.2 _ hk _ (by simp) rfl
      have e : ({ proj := a.2.proj, weights := a.2.weights, prot := a.2.prot } : Conn P) = a.2 := rfl
      rw [e, put_new hk, ih _ (by simpa using hm)]; simp
  have := this l [] (by simpa using h)
  unfold copyConns
  simpa using this

/-- C113, copies: a copy has the same connections with the same projections, and the same inherited network, in whatever order they are copied. -/
theorem C113_copy (one : P) (layers : Nat) (base : I → Rat → O) (h : List (Op P)) (self : Net P I O)
    (order : List (List Byte × Conn P) → List (List Byte × Conn P)) (ho : ∀ l, (order l).Perm l) :
    let n := Net.after one layers base h
    (self.assign order n).conns.Perm n.conns ∧ (self.assign order n).layers = n.layers ∧ (self.assign order n).base = n.base := by
  intro n
  have hi := inv_after one layers base h
  refine ⟨?_, rfl, rfl⟩
  have hp := ho n.conns
  have : ((order n.conns).map (·.1)).Nodup := ((hp.map _).nodup_iff).2 hi.nodup
  simp only [Net.assign]
  rw [copyConns_eq _ this]; exact hp

/-- C113, violated: "Override of forward pass to incorporate skip connections": no skip connection and no projection has any effect on any output; the residual network computes what the plain network computes. -/
theorem C113_no_effect_violated (one : P) (layers : Nat) (base : I → Rat → O) (h : List (Op P)) (x : I) (r : Rat) :
    (Net.after one layers base h).forward x r = base x r := by
  show (Net.after one layers base h).base x r = base x r
  rw [(inv_after one layers base h).inherited]

/-! ### Cases -/

/-- A history: connect 0 to 2 and 10 to 11, project, and remove what is not there. -/
def ops : List (Op Nat) := [.remove 3 4, .project 0 2 7, .add 10 11, .add 5 5, .add 0 2]
example : current 0 12 ops 0 2 = some 7 ∧ current 0 12 ops 10 11 = some 0 ∧ current 0 12 ops 5 5 = none := by decide +kernel
example : (Net.after 0 12 (fun (x : Nat) _ => x) ops : Net Nat Nat Nat).list id = some [(0, 2), (10, 11)] := by decide +kernel
example : (12 : Nat) ≤ 2 ^ 64 ∧ ∀ l : List (List Byte), (id l).Perm l := ⟨by decide, fun l => List.Perm.refl l⟩
example : key 10 2 = [49#8, 48#8, 45#8, 62#8, 50#8] := by decide +kernel

end Verif.ResidualNet
