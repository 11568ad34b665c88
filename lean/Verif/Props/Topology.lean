import Verif.Model.Topology
import Verif.Model.SpaceMission
import Mathlib.Tactic.NormNum
import Mathlib.Tactic.Linarith
import Mathlib.Tactic.Positivity
import Mathlib.Tactic.FieldSimp
import Mathlib.Tactic.Ring
import Mathlib.Algebra.BigOperators.Group.List.Basic
import Mathlib.Algebra.Order.BigOperators.Group.List
import Mathlib.Data.List.Chain
import Mathlib.Data.List.Nodup
/-!
C210-C217: topology, importance and space effects of a network.
-/
namespace Verif.Topology
open Classical

/-! ### Specification -/

/-- A connection: the layer called `a` names `b` among its outputs. -/
def Edge (ls : List Layer) (a b : Text) : Prop := ∃ l ∈ ls, l.name = a ∧ b ∈ l.outputs

/-- Names joined by `" -> "`. -/
def joined : List Text → Text
  | [] => []
  | [a] => a
  | a :: b :: r => a ++ [' ', '-', '>', ' '] ++ joined (b :: r)

/-- A path from a layer without inputs to a layer without outputs that visits no layer twice. -/
structure IsPath (ls : List Layer) (p : List Text) : Prop where
  simple : p.Nodup
  connected : p.IsChain (Edge ls)
  first : ∃ l ∈ ls, l.inputs = [] ∧ p.head? = some l.name
  last : ∃ l ∈ ls, l.outputs = [] ∧ p.getLast? = some l.name

/-- Names identify layers and are not empty. -/
structure Named (ls : List Layer) : Prop where
  distinct : (ls.map Layer.name).Nodup
  nonempty : ∀ l ∈ ls, l.name ≠ []

/-! ### C210: paths -/

theorem lookup_some {ls : List Layer} (h : (ls.map Layer.name).Nodup) (n : Text) (l : Layer) : lookup ls n = some l ↔ l ∈ ls ∧ l.name = n := by
  unfold lookup
  constructor
  · intro hf
    refine ⟨by simpa using List.mem_of_find?_eq_some hf, by simpa using List.find?_some hf⟩
  · rintro ⟨hl, hn⟩
    have hx : (ls.reverse.find? fun l => decide (l.name = n)).isSome := by
      rw [List.find?_isSome]; exact ⟨l, by simpa using hl, by simpa using hn⟩
    obtain ⟨k, hk⟩ := Option.isSome_iff_exists.mp hx
    have hk1 : k ∈ ls := by simpa using List.mem_of_find?_eq_some hk
    have hk2 : k.name = n := by simpa using List.find?_some hk
    rw [hk, List.inj_on_of_nodup_map h hk1 hl (hk2.trans hn.symm)]

/-- The search with lists of names in place of texts. -/
noncomputable def search (m : Text → Option Layer) (fin : Text) : ℕ → Text → List Text → List (List Text)
  | 0, _, _ => []
  | f + 1, s, v =>
    if s = fin then [[s]]
    else match m s with
      | none => []
      | some l => l.outputs.flatMap fun n => if n ∈ s :: v then [] else (search m fin f n (s :: v)).map (s :: ·)

theorem search_head {m : Text → Option Layer} {fin : Text} {f : ℕ} {s : Text} {v p : List Text} (h : p ∈ search m fin f s v) : ∃ t, p = s :: t := by
  cases f with
  | zero => simp [search] at h
  | succ f =>
    simp only [search] at h
    split at h
    · simp at h; exact ⟨[], h⟩
    · split at h
      · simp at h
      · simp only [List.mem_flatMap] at h
        obtain ⟨n, _, h⟩ := h
        split at h
        · simp at h
        · simp only [List.mem_map] at h
          obtain ⟨q, _, rfl⟩ := h
          exact ⟨q, rfl⟩

theorem joined_cons (s : Text) (t : List Text) (h : t ≠ []) : joined (s :: t) = s ++ arrow ++ joined t := by
  cases t with
  | nil => exact absurd rfl h
  | cons a r => rfl

theorem findPaths_search (m : Text → Option Layer) (fin : Text) (f : ℕ) (s : Text) (v : List Text) (cur : Text) (h : s ≠ [] ∨ cur ≠ []) :
    findPaths m fin f s v cur = (search m fin f s v).map fun p => (if cur = [] then [] else cur ++ arrow) ++ joined p := by
  induction f generalizing s v cur with
  | zero => simp [findPaths, search]
  | succ f ih =>
    have hc : (if cur = [] then s else cur ++ arrow ++ s) = (if cur = [] then [] else cur ++ arrow) ++ s := by split <;> simp
    have hne : (if cur = [] then s else cur ++ arrow ++ s) ≠ [] := by
      split
      · rename_i h0; rcases h with h | h
        · exact h
        · exact absurd h0 h
      · simp [arrow]
    simp only [findPaths, search]
    split
    · simp [joined]; split <;> simp
    · cases m s with
      | none => simp
      | some l =>
        simp only []
        rw [List.map_flatMap]
        congr 1
        funext n
        split
        · simp
        · rw [ih n _ _ (Or.inr hne), if_neg hne, List.map_map]
          refine List.map_congr_left fun q hq => ?_
          obtain ⟨t, rfl⟩ := search_head hq
          simp only [Function.comp]
          rw [joined_cons s (n :: t) (by simp), hc]
          simp [List.append_assoc]

theorem search_mem {m : Text → Option Layer} {fin : Text} (f : ℕ) (s : Text) (v p : List Text) :
    p ∈ search m fin f s v ↔ p.length ≤ f ∧ p.head? = some s ∧ p.getLast? = some fin ∧ p.Nodup ∧ p.IsChain (fun a b => ∃ l, m a = some l ∧ b ∈ l.outputs) ∧ ∀ x ∈ p.tail, x ∉ v := by
  induction f generalizing s v p with
  | zero =>
    simp only [search, List.not_mem_nil, false_iff]
    rintro ⟨h, h1, _⟩
    cases p <;> simp_all
  | succ f ih =>
    simp only [search]
    by_cases hs : s = fin
    · rw [if_pos hs]
      constructor
      · intro h; simp at h; subst h; simp [hs]
      · rintro ⟨_, h1, h2, h3, _⟩
        cases p with
        | nil => simp at h1
        | cons a t =>
          simp at h1; subst h1
          cases t with
          | nil => simp
          | cons b r =>
            exfalso
            rw [List.getLast?_cons_cons] at h2
            have := List.mem_of_getLast? h2
            rw [← hs] at this
            exact (List.nodup_cons.mp h3).1 this
    · rw [if_neg hs]
      constructor
      · intro h
        split at h
        · simp at h
        · rename_i l hl
          simp only [List.mem_flatMap] at h
          obtain ⟨n, hn, h⟩ := h
          split at h
          · simp at h
          · rename_i hv
            simp only [List.mem_map] at h
            obtain ⟨q, hq, rfl⟩ := h
            obtain ⟨q1, q2, q3, q4, q5, q6⟩ := (ih n (s :: v) q).mp hq
            cases q with
            | nil => simp at q2
            | cons a t =>
              simp at q2; subst q2
              simp only [List.tail_cons] at q6
              have hsa : a ≠ s := fun e => hv (by simp [e])
              refine ⟨by simpa using q1, by simp, by simpa [List.getLast?_cons_cons] using q3, List.nodup_cons.mpr ⟨?_, q4⟩, List.isChain_cons_cons.mpr ⟨⟨l, hl, hn⟩, q5⟩, ?_⟩
              · intro hm
                rcases List.mem_cons.mp hm with e | hm
                · exact hsa e.symm
                · exact q6 s hm (by simp)
              · intro x hx
                rcases List.mem_cons.mp hx with rfl | hx
                · exact fun h => hv (by simp [h])
                · exact fun h => q6 x hx (by simp [h])
      · rintro ⟨h1, h2, h3, h4, h5, h6⟩
        cases p with
        | nil => simp at h2
        | cons a t =>
          simp at h2; subst h2
          cases t with
          | nil => simp at h3; exact absurd h3 hs
          | cons b r =>
            obtain ⟨⟨l, hl, hb⟩, h5⟩ := List.isChain_cons_cons.mp h5
            rw [hl]
            simp only [List.mem_flatMap]
            obtain ⟨h4a, h4⟩ := List.nodup_cons.mp h4
            simp only [List.tail_cons] at h6
            refine ⟨b, hb, ?_⟩
            rw [if_neg (by
              intro hm
              rcases List.mem_cons.mp hm with e | hm
              · exact h4a (by simp [e])
              · exact h6 b (by simp) hm)]
            simp only [List.mem_map]
            refine ⟨b :: r, (ih b _ _).mpr ⟨by simpa using h1, by simp, by simpa [List.getLast?_cons_cons] using h3, h4, h5, ?_⟩, rfl⟩
            intro x hx
            simp only [List.tail_cons] at hx
            intro hm
            rcases List.mem_cons.mp hm with rfl | hm
            · exact h4a (by simp [hx])
            · exact h6 x (by simp [hx]) hm

theorem search_nodup {m : Text → Option Layer} (hm : ∀ n l, m n = some l → l.outputs.Nodup) (fin : Text) (f : ℕ) (s : Text) (v : List Text) : (search m fin f s v).Nodup := by
  induction f generalizing s v with
  | zero => simp [search]
  | succ f ih =>
    simp only [search]
    split
    · simp
    · split
      · simp
      · rename_i l hl
        rw [List.nodup_flatMap]
        constructor
        · intro n _
          split
          · simp
          · exact (ih n _).map (fun a b h => by simpa using h)
        · refine (hm s l hl).imp ?_
          intro a b hab
          simp only [Function.onFun]
          intro x hx hy
          split at hx
          · simp at hx
          · split at hy
            · simp at hy
            · simp only [List.mem_map] at hx hy
              obtain ⟨q, hq, rfl⟩ := hx
              obtain ⟨q', hq', e⟩ := hy
              obtain ⟨t, rfl⟩ := search_head hq
              obtain ⟨t', rfl⟩ := search_head hq'
              simp at e
              exact hab e.1.symm

/-- The paths between the entries and the exits, as lists of names. -/
noncomputable def pathLists (ls : List Layer) : List (List Text) :=
  (ls.filter fun l => l.inputs = []).flatMap fun i => (ls.filter fun l => l.outputs = []).flatMap fun o => search (lookup ls) o.name (ls.length + 2) i.name []

theorem criticalPaths_eq {ls : List Layer} (h : ∀ l ∈ ls, l.name ≠ []) : criticalPaths ls = (pathLists ls).map joined := by
  unfold criticalPaths pathLists
  rw [List.map_flatMap]
  refine List.flatMap_congr fun i hi => ?_
  rw [List.map_flatMap]
  refine List.flatMap_congr fun o _ => ?_
  have hi : i ∈ ls := (List.mem_filter.mp hi).1
  rw [findPaths_search _ _ _ _ _ _ (Or.inl (h i hi))]
  simp

theorem edge_lookup {ls : List Layer} (h : (ls.map Layer.name).Nodup) (a b : Text) : (∃ l, lookup ls a = some l ∧ b ∈ l.outputs) ↔ Edge ls a b := by
  unfold Edge
  simp only [lookup_some h, and_assoc]

theorem dropLast_names {ls : List Layer} {p : List Text} (h : p.IsChain (Edge ls)) : ∀ x ∈ p.dropLast, x ∈ ls.map Layer.name := by
  induction p with
  | nil => simp
  | cons a t ih =>
    cases t with
    | nil => simp
    | cons b r =>
      obtain ⟨⟨l, hl, hn, _⟩, h2⟩ := List.isChain_cons_cons.mp h
      intro x hx
      rw [List.dropLast_cons_cons] at hx
      rcases List.mem_cons.mp hx with rfl | hx
      · exact List.mem_map.mpr ⟨l, hl, hn⟩
      · exact ih h2 x hx

theorem path_length {ls : List Layer} {p : List Text} (h1 : p.Nodup) (h : p.IsChain (Edge ls)) : p.length ≤ ls.length + 2 := by
  have h3 : p.dropLast.Nodup := h1.sublist (List.dropLast_sublist p)
  have := (List.subperm_of_subset h3 (dropLast_names h)).length_le
  simp at this
  omega

theorem pathLists_mem {ls : List Layer} (h : (ls.map Layer.name).Nodup) (p : List Text) : p ∈ pathLists ls ↔ IsPath ls p := by
  unfold pathLists
  simp only [List.mem_flatMap, search_mem, List.mem_filter, decide_eq_true_eq]
  have he : (fun a b => ∃ l, lookup ls a = some l ∧ b ∈ l.outputs) = Edge ls := by funext a b; exact propext (edge_lookup h a b)
  rw [he]
  constructor
  · rintro ⟨i, ⟨hi, hi'⟩, o, ⟨ho, ho'⟩, _, h1, h2, h3, h4, _⟩
    exact ⟨h3, h4, ⟨i, hi, hi', h1⟩, ⟨o, ho, ho', h2⟩⟩
  · rintro ⟨h3, h4, ⟨i, hi, hi', h1⟩, ⟨o, ho, ho', h2⟩⟩
    exact ⟨i, ⟨hi, hi'⟩, o, ⟨ho, ho'⟩, path_length h3 h4, h1, h2, h3, h4, by simp⟩

/-- **C210.** The critical paths are exactly the paths from a layer without inputs to a layer without outputs that visit no layer twice, in any network, with or without cycles; each is written as its names joined by `" -> "`. -/
theorem C210_paths (ls : List Layer) (h : Named ls) (x : Text) : x ∈ criticalPaths ls ↔ ∃ p, IsPath ls p ∧ x = joined p := by
  rw [criticalPaths_eq h.nonempty]
  simp only [List.mem_map, pathLists_mem h.distinct]
  exact ⟨fun ⟨p, hp, e⟩ => ⟨p, hp, e.symm⟩, fun ⟨p, hp, e⟩ => ⟨p, hp, e.symm⟩⟩

theorem nodup_of_names {ls : List Layer} (h : (ls.map Layer.name).Nodup) : ls.Nodup := List.Nodup.of_map _ h

/-- **C210 (once).** If no layer names an output twice, the list contains each path once. -/
theorem C210_once (ls : List Layer) (h : Named ls) (ho : ∀ l ∈ ls, l.outputs.Nodup) :
    ∃ L : List (List Text), L.Nodup ∧ (∀ p, p ∈ L ↔ IsPath ls p) ∧ criticalPaths ls = L.map joined := by
  refine ⟨pathLists ls, ?_, pathLists_mem h.distinct, criticalPaths_eq h.nonempty⟩
  have hm : ∀ n l, lookup ls n = some l → l.outputs.Nodup := fun n l hl => ho l ((lookup_some h.distinct n l).mp hl).1
  have hn := nodup_of_names h.distinct
  have inj : ∀ a ∈ ls, ∀ b ∈ ls, a.name = b.name → a = b := fun a ha b hb e => List.inj_on_of_nodup_map h.distinct ha hb e
  unfold pathLists
  rw [List.nodup_flatMap]
  constructor
  · intro i _
    rw [List.nodup_flatMap]
    refine ⟨fun o _ => search_nodup hm _ _ _ _, ?_⟩
    have := (hn.filter fun l => decide (l.outputs = []))
    refine List.Pairwise.imp_of_mem ?_ this
    intro a b ha hb hab x hx hy
    have h1 := ((search_mem _ _ _ _).mp hx).2.2.1
    have h2 := ((search_mem _ _ _ _).mp hy).2.2.1
    rw [h1] at h2
    exact hab (inj a (List.mem_filter.mp ha).1 b (List.mem_filter.mp hb).1 (by simpa using h2))
  · have := (hn.filter fun l => decide (l.inputs = []))
    refine List.Pairwise.imp_of_mem ?_ this
    intro a b ha hb hab x hx hy
    simp only [List.mem_flatMap] at hx hy
    obtain ⟨_, _, hx⟩ := hx
    obtain ⟨_, _, hy⟩ := hy
    have h1 := ((search_mem _ _ _ _).mp hx).2.1
    have h2 := ((search_mem _ _ _ _).mp hy).2.1
    rw [h1] at h2
    exact hab (inj a (List.mem_filter.mp ha).1 b (List.mem_filter.mp hb).1 (by simpa using h2))

/-- A network with a cycle between `b` and `c`: `a → b → c → b`, `c → d`. -/
def demo : List Layer :=
  [⟨['a'], .dense, 4, 4, [], [['b']], false⟩, ⟨['b'], .dense, 4, 4, [['a'], ['c']], [['c']], false⟩,
   ⟨['c'], .dense, 4, 4, [['b']], [['b'], ['d']], false⟩, ⟨['d'], .dense, 4, 2, [['c']], [], false⟩]

theorem demo_named : Named demo := ⟨by decide, by simp [demo]⟩

theorem demo_path : IsPath demo [['a'], ['b'], ['c'], ['d']] where
  simple := by decide
  connected := by
    simp [Edge, demo]
  first := ⟨demo[0], by simp [demo], by simp [demo], by simp [demo]⟩
  last := ⟨demo[3], by simp [demo], by simp [demo], by simp [demo]⟩

example : "a -> b -> c -> d".toList ∈ criticalPaths demo := (C210_paths demo demo_named _).mpr ⟨_, demo_path, rfl⟩
example : ∀ l ∈ demo, l.outputs.Nodup := by simp [demo]

/-! ### C211: connections and propagation -/

theorem zero_map (ls : List Layer) (m0 : Text → Option ℕ) (n : Text) :
    (ls.foldl (fun (m : Text → Option ℕ) l => fun n => if n = l.name then some 0 else m n) m0) n = if n ∈ ls.map Layer.name then some 0 else m0 n := by
  induction ls generalizing m0 with
  | nil => simp
  | cons a t ih =>
    rw [List.foldl_cons, ih]
    simp only [List.map_cons, List.mem_cons]
    by_cases h1 : n = a.name <;> by_cases h2 : n ∈ t.map Layer.name <;> simp [h1, h2]

theorem add_map (size : Layer → ℕ) (ls : List Layer) (m0 : Text → Option ℕ) (n : Text) :
    (ls.foldl (fun (m : Text → Option ℕ) l => fun n => if n = l.name then some ((m n).getD 0 + size l) else m n) m0) n
      = if n ∈ ls.map Layer.name then some ((m0 n).getD 0 + ((ls.filter fun l => l.name = n).map size).sum) else m0 n := by
  induction ls generalizing m0 with
  | nil => simp
  | cons a t ih =>
    rw [List.foldl_cons, ih]
    simp only [List.map_cons, List.mem_cons, List.filter_cons]
    by_cases h1 : n = a.name
    · subst h1
      by_cases h2 : a.name ∈ t.map Layer.name
      · simp [h2, add_assoc]
      · have : t.filter (fun l => decide (l.name = a.name)) = [] := by
          rw [List.filter_eq_nil_iff]; intro l hl; simp only [decide_eq_true_eq]; intro e; exact h2 (List.mem_map.mpr ⟨l, hl, e⟩)
        simp [h2, this]
    · have h1' : ¬ a.name = n := fun e => h1 e.symm
      by_cases h2 : n ∈ t.map Layer.name <;> simp [h1, h1', h2]

theorem countMap_eq (size : Layer → ℕ) (ls : List Layer) (n : Text) :
    countMap size ls n = if n ∈ ls.map Layer.name then some ((ls.filter fun l => l.name = n).map size).sum else none := by
  unfold countMap
  rw [add_map, zero_map]
  by_cases h : n ∈ ls.map Layer.name <;> simp [h]

theorem filter_name {ls : List Layer} (h : (ls.map Layer.name).Nodup) {l : Layer} (hl : l ∈ ls) : ls.filter (fun k => k.name = l.name) = [l] := by
  induction ls with
  | nil => simp at hl
  | cons a t ih =>
    simp only [List.map_cons, List.nodup_cons] at h
    rw [List.filter_cons]
    rcases List.mem_cons.mp hl with rfl | hl
    · simp only [decide_true, if_true]
      congr 1
      rw [List.filter_eq_nil_iff]; intro k hk; simp only [decide_eq_true_eq]; intro e; exact h.1 (List.mem_map.mpr ⟨k, hk, e⟩)
    · have : a.name ≠ l.name := fun e => h.1 (List.mem_map.mpr ⟨l, hl, e.symm⟩)
      simp only [this, decide_false, Bool.false_eq_true, if_false]
      exact ih h.2 hl

/-- **C211.** The analysis counts, for every layer, the inputs and the outputs it names; other names have no count. -/
theorem C211_connections (ls : List Layer) (h : (ls.map Layer.name).Nodup) :
    (∀ l ∈ ls, (analysis ls).fanIn l.name = some l.inputs.length ∧ (analysis ls).fanOut l.name = some l.outputs.length) ∧
    ∀ n, n ∉ ls.map Layer.name → (analysis ls).fanIn n = none ∧ (analysis ls).fanOut n = none := by
  constructor
  · intro l hl
    have : l.name ∈ ls.map Layer.name := List.mem_map.mpr ⟨l, hl, rfl⟩
    simp only [analysis, fanIn, fanOut, countMap_eq, if_pos this, filter_name h hl]
    simp
  · intro n hn
    simp only [analysis, fanIn, fanOut, countMap_eq, if_neg hn]
    simp

/-- **C211 (one name for several layers).** If several layers have one name, their connections are counted together. -/
theorem C211_shared_limit (ls : List Layer) (n : Text) (h : n ∈ ls.map Layer.name) :
    (analysis ls).fanIn n = some ((ls.filter fun l => l.name = n).map fun l => l.inputs.length).sum ∧
    (analysis ls).fanOut n = some ((ls.filter fun l => l.name = n).map fun l => l.outputs.length).sum := by
  simp only [analysis, fanIn, fanOut, countMap_eq, if_pos h]
  simp

/-- How a layer passes errors on: the square root of the growth of a dense layer, a constant for the others. -/
noncomputable def gain (l : Layer) : ℝ :=
  match l.kind with
  | .dense => Real.sqrt (l.outSize / l.inSize)
  | .conv => 7 / 10
  | .pool => 1 / 2
  | .dropout => 3 / 10
  | .batchNorm => 6 / 5
  | .activation => 1
  | .other => 1

/-- More than one output raises propagation by a tenth of the logarithm of their number. -/
noncomputable def spread (l : Layer) : ℝ := if 1 < l.outputs.length then 1 + Real.log l.outputs.length / 10 else 1

theorem ratio_fin (l : Layer) (h : 0 < l.inSize) : ratio l = .fin (l.outSize / l.inSize) := XD.div_fin _ _ (by exact_mod_cast h.ne')

theorem propagation_eq (l : Layer) (h : 0 < l.inSize) : propagation l = .fin (gain l * spread l) := by
  have hr : (0:ℝ) ≤ (l.outSize:ℝ) / l.inSize := by positivity
  unfold propagation spread
  rw [ratio_fin l h]
  simp only [xsqrt, if_pos hr]
  cases hk : l.kind <;> (simp only [gain, hk]; split <;> (try simp only [XD.mul_fin]) <;> congr 1 <;> ring)

theorem spread_pos (l : Layer) : 1 ≤ spread l := by
  unfold spread
  split
  · rename_i h
    have : 0 ≤ Real.log (l.outputs.length : ℝ) := Real.log_nonneg (by exact_mod_cast h.le)
    linarith
  · exact le_refl _

theorem gain_pos (l : Layer) (h : 0 < l.inSize) (h' : 0 < l.outSize) : 0 < gain l := by
  unfold gain
  cases l.kind <;> first | norm_num; done | (apply Real.sqrt_pos.mpr; positivity)

/-- **C211 (propagation).** The propagation factor of a layer with inputs and outputs is positive: how its kind passes errors on, raised for several outputs. -/
theorem C211_propagation (ls : List Layer) (h : (ls.map Layer.name).Nodup) (l : Layer) (hl : l ∈ ls) (hi : 0 < l.inSize) (ho : 0 < l.outSize) :
    (analysis ls).propagation l.name = some (.fin (gain l * spread l)) ∧ 0 < gain l * spread l := by
  constructor
  · simp only [analysis, (lookup_some h l.name l).mpr ⟨hl, rfl⟩, Option.map_some, propagation_eq l hi]
  · exact mul_pos (gain_pos l hi ho) (lt_of_lt_of_le one_pos (spread_pos l))

/-- **C211 (more outputs).** A layer with more outputs never propagates less. -/
theorem C211_outputs (l : Layer) (outs : List Text) (hi : 0 < l.inSize) (h : l.outputs.length ≤ outs.length) :
    ∃ x y, propagation l = .fin x ∧ propagation { l with outputs := outs } = .fin y ∧ x ≤ y := by
  refine ⟨_, _, propagation_eq l hi, propagation_eq { l with outputs := outs } hi, ?_⟩
  have hg : gain { l with outputs := outs } = gain l := rfl
  rw [hg]
  have hg0 : 0 ≤ gain l := by unfold gain; cases l.kind <;> first | norm_num; done | positivity
  refine mul_le_mul_of_nonneg_left ?_ hg0
  unfold spread
  by_cases h1 : 1 < l.outputs.length
  · have h2 : 1 < outs.length := by omega
    simp only [if_pos h1, if_pos h2]
    have : Real.log (l.outputs.length : ℝ) ≤ Real.log (outs.length : ℝ) := Real.log_le_log (by positivity) (by exact_mod_cast h)
    linarith
  · rw [if_neg h1]
    exact spread_pos { l with outputs := outs }

/-- **C211 (size 0).** The factor of a dense layer with input size 0 is infinite or not a number. -/
theorem C211_size_limit (l : Layer) (hk : l.kind = .dense) (hi : l.inSize = 0) (h1 : l.outputs.length ≤ 1) :
    propagation l = if l.outSize = 0 then .nan else .pinf := by
  unfold propagation ratio
  rw [hk, hi, if_neg (by omega)]
  by_cases h : l.outSize = 0
  · simp [h, XD.div_zero_zero, xsqrt]
  · rw [if_neg h]
    have : XD.div (.fin (l.outSize : ℝ)) (.fin ((0:ℕ):ℝ)) = .pinf := by
      rw [Nat.cast_zero]; exact XD.div_zero_pos _ (by exact_mod_cast Nat.pos_of_ne_zero h)
    simp only [this, xsqrt]

example : (analysis demo).propagation ['c'] = some (.fin (Real.sqrt (4 / 4) * (1 + Real.log 2 / 10))) := by
  have := (C211_propagation demo demo_named.distinct demo[2] (by simp [demo]) (by simp [demo]) (by simp [demo])).1
  simpa [demo, gain, spread] using this
example : (analysis demo).fanIn ['b'] = some 2 ∧ (analysis demo).fanOut ['c'] = some 2 := by
  have := (C211_connections demo demo_named.distinct).1
  exact ⟨by simpa [demo] using (this demo[1] (by simp [demo])).1, by simpa [demo] using (this demo[2] (by simp [demo])).2⟩
example : propagation ⟨['a'], .dense, 0, 3, [], [], false⟩ = .pinf := by
  simpa using C211_size_limit ⟨['a'], .dense, 0, 3, [], [], false⟩ rfl rfl (by simp)

/-! ### C212: criticality -/

/-- Not negative, or not a number. -/
def Soft : XD → Prop
  | .fin x => 0 ≤ x
  | .pinf => True
  | .nan => True
  | .ninf => False

theorem soft_add {x y : XD} (hx : Soft x) (hy : Soft y) : Soft (XD.add x y) := by
  cases x <;> cases y <;> simp_all [Soft, XD.add] <;> linarith

theorem soft_mul {x : XD} {a : ℝ} (hx : Soft x) (ha : 0 < a) : Soft (XD.mul x (.fin a)) := by
  cases x <;> simp_all [Soft, XD.mul]

theorem cut_soft {x : XD} (c : ℝ) (hc : 0 ≤ c) (hx : Soft x) : ∃ y, xmin (.fin c) x = .fin y ∧ 0 ≤ y ∧ y ≤ c := by
  cases x with
  | fin x =>
    unfold xmin
    by_cases h : XD.lt (.fin x) (.fin c)
    · rw [if_pos h]; exact ⟨x, rfl, hx, (XD.lt_fin _ _ |>.mp h).le⟩
    · rw [if_neg h]; exact ⟨c, rfl, hc, le_refl _⟩
  | pinf => exact ⟨c, by simp [xmin, XD.lt], hc, le_refl _⟩
  | nan => exact ⟨c, by simp [xmin], hc, le_refl _⟩
  | ninf => exact absurd hx id

theorem ratio_soft (l : Layer) : Soft (ratio l) := by
  unfold ratio
  by_cases h : l.inSize = 0
  · rw [h, Nat.cast_zero]
    by_cases h' : l.outSize = 0
    · rw [h', Nat.cast_zero, XD.div_zero_zero]; trivial
    · rw [XD.div_zero_pos _ (by exact_mod_cast Nat.pos_of_ne_zero h')]; trivial
  · rw [XD.div_fin _ _ (by exact_mod_cast h)]; exact div_nonneg (Nat.cast_nonneg _) (Nat.cast_nonneg _)

theorem propagation_soft (l : Layer) : Soft (propagation l) := by
  have h : Soft (xsqrt (ratio l)) := by
    have := ratio_soft l
    cases hr : ratio l with
    | fin x => rw [hr] at this; simp only [xsqrt, if_pos (show 0 ≤ x from this)]; exact Real.sqrt_nonneg _
    | pinf => trivial
    | nan => trivial
    | ninf => rw [hr] at this; exact absurd this id
  unfold propagation
  have hb : Soft (match l.kind with
    | .dense => xsqrt (ratio l)
    | .conv => .fin (7 / 10)
    | .pool => .fin (5 / 10)
    | .dropout => .fin (3 / 10)
    | .batchNorm => .fin (12 / 10)
    | _ => .fin 1 : XD) := by
    cases l.kind <;> first | exact h | (show (0:ℝ) ≤ _; norm_num)
  simp only []
  split
  · rename_i h1
    refine soft_mul hb ?_
    have : 0 ≤ Real.log (l.outputs.length : ℝ) := Real.log_nonneg (by exact_mod_cast h1.le)
    positivity
  · exact hb

theorem bottleneck_soft (l : Layer) (i o : ℕ) : Soft (bottleneck l i o) := by
  have hr := ratio_soft l
  have hs : ∀ k : ℕ, XD.lt (ratio l) (.fin 1) → Soft (XD.mul (.fin (k * (3 / 10))) (XD.sub (.fin 1) (ratio l))) := by
    intro k h
    cases he : ratio l with
    | fin x =>
      rw [he] at h hr
      have h : x < 1 := h
      show (0:ℝ) ≤ (k * (3 / 10)) * (1 + -x)
      have : (0:ℝ) ≤ 1 + -x := by linarith
      positivity
    | pinf => rw [he] at h; exact absurd h id
    | nan => rw [he] at h; exact absurd h id
    | ninf => rw [he] at hr; exact absurd hr id
  have hb : Soft (if 1 < i ∧ XD.lt (ratio l) (.fin 1) then XD.mul (.fin (i * (3 / 10))) (XD.sub (.fin 1) (ratio l))
    else if 1 < o ∧ XD.lt (ratio l) (.fin 1) then XD.mul (.fin (o * (3 / 10))) (XD.sub (.fin 1) (ratio l))
    else .fin (1 / 10)) := by
    split
    · rename_i h; exact hs i h.2
    · split
      · rename_i h; exact hs o h.2
      · show (0:ℝ) ≤ 1 / 10; norm_num
  unfold bottleneck
  simp only []
  split
  · exact soft_mul hb (by norm_num)
  · exact hb

/-- The sum of the contributions and the bonus, before the cut at 1. -/
noncomputable def rawCrit (l : Layer) (a : Analysis) : XD :=
  let c := XD.add (XD.add (XD.add
    (match a.propagation l.name with
      | some x => XD.div x (.fin 2)
      | none => .fin 0)
    (match a.bottleneck l.name with
      | some x => xmin (.fin (5 / 10)) x
      | none => .fin 0))
    (match a.fanIn l.name, a.fanOut l.name with
      | some i, some o => xmin (.fin (5 / 10)) (.fin (((i + o : ℕ) : ℝ) * (1 / 10)))
      | _, _ => .fin 0))
    (xmin (.fin (5 / 10)) (.fin (onPaths a.paths l.name * (1 / 10))))
  if l.critical then XD.add c (.fin (2 / 10)) else c

theorem criticality_raw (l : Layer) (a : Analysis) : criticality l a = xmin (.fin 1) (rawCrit l a) := rfl

theorem div_two_soft {x : XD} (h : Soft x) : Soft (XD.div x (.fin 2)) := by
  cases x with
  | fin x => rw [XD.div_fin _ _ (by norm_num)]; exact div_nonneg h (by norm_num)
  | pinf => simp [XD.div, Soft]
  | nan => simp [Soft]
  | ninf => exact absurd h id

theorem rawCrit_soft (l : Layer) (ls : List Layer) : Soft (rawCrit l (analysis ls)) := by
  unfold rawCrit
  have h1 : Soft (match (analysis ls).propagation l.name with
      | some x => XD.div x (.fin 2)
      | none => .fin 0 : XD) := by
    simp only [analysis]
    cases lookup ls l.name with
    | none => exact le_refl (0:ℝ)
    | some k => exact div_two_soft (propagation_soft k)
  have h2 : Soft (match (analysis ls).bottleneck l.name with
      | some x => xmin (.fin (5 / 10)) x
      | none => .fin 0 : XD) := by
    simp only [analysis]
    cases lookup ls l.name with
    | none => exact le_refl (0:ℝ)
    | some k =>
      obtain ⟨y, hy, h0, _⟩ := cut_soft (5 / 10) (by norm_num) (bottleneck_soft k ((fanIn ls l.name).getD 0) ((fanOut ls l.name).getD 0))
      simp only [Option.map_some, hy]; exact h0
  have h3 : Soft (match (analysis ls).fanIn l.name, (analysis ls).fanOut l.name with
      | some i, some o => xmin (.fin (5 / 10)) (.fin (((i + o : ℕ) : ℝ) * (1 / 10)))
      | _, _ => .fin 0 : XD) := by
    cases (analysis ls).fanIn l.name with
    | none => exact le_refl (0:ℝ)
    | some i =>
      cases (analysis ls).fanOut l.name with
      | none => exact le_refl (0:ℝ)
      | some o =>
        obtain ⟨y, hy, h0, _⟩ := cut_soft (x := .fin (((i + o : ℕ) : ℝ) * (1 / 10))) (5 / 10) (by norm_num) (by show (0:ℝ) ≤ _; positivity)
        simp only [hy]; exact h0
  have h4 : Soft (xmin (.fin (5 / 10)) (.fin (onPaths (analysis ls).paths l.name * (1 / 10)))) := by
    obtain ⟨y, hy, h0, _⟩ := cut_soft (x := .fin (onPaths (analysis ls).paths l.name * (1 / 10))) (5 / 10) (by norm_num) (by show (0:ℝ) ≤ _; positivity)
    rw [hy]; exact h0
  have h5 := soft_add (soft_add (soft_add h1 h2) h3) h4
  simp only []
  split
  · exact soft_add h5 (by show (0:ℝ) ≤ 2 / 10; norm_num)
  · exact h5

/-- **C212.** Every layer of every network has a criticality, and it is a number between 0 and 1 — also where a size is 0 and factors are infinite or no numbers; no other name has one. -/
theorem C212_range (ls : List Layer) (n : Text) :
    (n ∈ ls.map Layer.name → ∃ c, layerCriticality ls n = some (.fin c) ∧ 0 ≤ c ∧ c ≤ 1) ∧ (n ∉ ls.map Layer.name → layerCriticality ls n = none) := by
  unfold layerCriticality
  constructor
  · intro h
    obtain ⟨l, hl, hn⟩ := List.mem_map.mp h
    have hx : (lookup ls n).isSome := by
      unfold lookup; rw [List.find?_isSome]; exact ⟨l, by simpa using hl, by simpa using hn⟩
    obtain ⟨k, hk⟩ := Option.isSome_iff_exists.mp hx
    rw [hk, Option.map_some, criticality_raw]
    obtain ⟨y, hy, h0, h1⟩ := cut_soft 1 (by norm_num) (rawCrit_soft k ls)
    exact ⟨y, by rw [hy], h0, h1⟩
  · intro h
    have : lookup ls n = none := by
      unfold lookup
      rw [List.find?_eq_none]
      intro l hl; simp only [decide_eq_true_eq]; intro e
      exact h (List.mem_map.mpr ⟨l, by simpa using hl, e⟩)
    rw [this, Option.map_none]

/-- The bottleneck score of a layer with `i` inputs and `o` outputs that shrinks its data: 0.3 for every connection on the side that has several, times the loss; 0.1 for other layers; half as much again inside the network. -/
noncomputable def narrowing (l : Layer) : ℝ :=
  (if 1 < l.inputs.length ∧ l.outSize < l.inSize then 3 / 10 * l.inputs.length * (1 - (l.outSize : ℝ) / l.inSize)
   else if 1 < l.outputs.length ∧ l.outSize < l.inSize then 3 / 10 * l.outputs.length * (1 - (l.outSize : ℝ) / l.inSize)
   else 1 / 10) * (if l.inputs ≠ [] ∧ l.outputs ≠ [] then 3 / 2 else 1)

theorem bottleneck_eq (l : Layer) (h : 0 < l.inSize) : bottleneck l l.inputs.length l.outputs.length = .fin (narrowing l) := by
  have hi : (0:ℝ) < l.inSize := by exact_mod_cast h
  have hlt : XD.lt (ratio l) (.fin 1) ↔ l.outSize < l.inSize := by
    rw [ratio_fin l h, XD.lt_fin, div_lt_one hi]; exact_mod_cast Iff.rfl
  have hsub : ∀ k : ℕ, XD.mul (.fin (k * (3 / 10))) (XD.sub (.fin 1) (ratio l)) = .fin (3 / 10 * k * (1 - (l.outSize : ℝ) / l.inSize)) := by
    intro k; rw [ratio_fin l h]; show XD.fin _ = XD.fin _; congr 1; ring
  unfold bottleneck narrowing
  simp only [hlt, hsub]
  by_cases h1 : 1 < l.inputs.length ∧ l.outSize < l.inSize
  · rw [if_pos h1, if_pos h1]; split <;> ((try simp only [XD.mul_fin]); congr 1; ring)
  · rw [if_neg h1, if_neg h1]
    by_cases h2 : 1 < l.outputs.length ∧ l.outSize < l.inSize
    · rw [if_pos h2, if_pos h2]; split <;> ((try simp only [XD.mul_fin]); congr 1; ring)
    · rw [if_neg h2, if_neg h2]; split <;> ((try simp only [XD.mul_fin]); congr 1; ring)

theorem cut_fin (c x : ℝ) : xmin (.fin c) (.fin x) = .fin (min c x) := by
  unfold xmin
  by_cases h : XD.lt (.fin x) (.fin c)
  · rw [if_pos h, min_eq_right (XD.lt_fin _ _ |>.mp h).le]
  · rw [if_neg h, min_eq_left (not_lt.mp fun h' => h ((XD.lt_fin _ _).mpr h'))]

/-- The number of paths whose text contains the name. -/
noncomputable def mentions (ls : List Layer) (n : Text) : ℕ := ((criticalPaths ls).filter fun p => decide (n <:+: p)).length

/-- **C212 (formula).** The criticality of a layer is the sum of half its propagation factor and of at most a half each for bottleneck, connections and paths, raised by 0.2 for a layer marked as critical, and cut at 1. -/
theorem C212_formula (ls : List Layer) (h : (ls.map Layer.name).Nodup) (l : Layer) (hl : l ∈ ls) (hi : 0 < l.inSize) :
    layerCriticality ls l.name = some (.fin (min 1 (gain l * spread l / 2 + min (1 / 2) (narrowing l) + min (1 / 2) (((l.inputs.length : ℝ) + l.outputs.length) / 10) + min (1 / 2) ((mentions ls l.name : ℝ) / 10) + if l.critical then 1 / 5 else 0))) := by
  have hk := (lookup_some h l.name l).mpr ⟨hl, rfl⟩
  obtain ⟨h1, h2⟩ := (C211_connections ls h).1 l hl
  simp only [layerCriticality, hk, Option.map_some, criticality_raw, rawCrit]
  rw [h1, h2]
  have e1 : (analysis ls).propagation l.name = some (.fin (gain l * spread l)) := by simp only [analysis, hk, Option.map_some, propagation_eq l hi]
  have e2 : (analysis ls).bottleneck l.name = some (.fin (narrowing l)) := by
    have h1' : fanIn ls l.name = some l.inputs.length := h1
    have h2' : fanOut ls l.name = some l.outputs.length := h2
    simp only [analysis, hk, Option.map_some, h1', h2', Option.getD_some, bottleneck_eq l hi]
  rw [e1, e2]
  simp only [cut_fin, XD.div_fin _ _ (two_ne_zero), XD.add_fin]
  have e3 : onPaths (analysis ls).paths l.name = mentions ls l.name := rfl
  rw [e3]
  by_cases hc : l.critical = true
  · simp only [hc, if_true, cut_fin]
    congr 3
    push_cast
    norm_num [mul_one_div]
  · simp only [hc, Bool.false_eq_true, if_false, cut_fin]
    congr 3
    push_cast
    norm_num [mul_one_div]

/-- **C212 (marked).** Marking a layer as critical never lowers its criticality. -/
theorem C212_marked (l : Layer) (ls : List Layer) :
    ∃ x y, criticality { l with critical := false } (analysis ls) = .fin x ∧ criticality { l with critical := true } (analysis ls) = .fin y ∧ x ≤ y ∧ y ≤ x + 1 / 5 := by
  have hs := rawCrit_soft { l with critical := false } ls
  have he : rawCrit { l with critical := true } (analysis ls) = XD.add (rawCrit { l with critical := false } (analysis ls)) (.fin (2 / 10)) := by
    unfold rawCrit; simp
  rw [criticality_raw, criticality_raw, he]
  cases hr : rawCrit { l with critical := false } (analysis ls) with
  | fin x =>
    refine ⟨_, _, cut_fin _ _, by rw [XD.add_fin]; exact cut_fin _ _, min_le_min_left _ (by linarith), ?_⟩
    rcases le_total 1 x with h | h
    · rw [min_eq_left h]; have := min_le_left (1:ℝ) (x + 2 / 10); linarith
    · rw [min_eq_right h]; have := min_le_right (1:ℝ) (x + 2 / 10); linarith
  | pinf => exact ⟨1, 1, by simp [xmin, XD.lt], by simp [xmin, XD.lt, XD.add], le_refl _, by norm_num⟩
  | nan => exact ⟨1, 1, by simp [xmin], by simp [xmin], le_refl _, by norm_num⟩
  | ninf => rw [hr] at hs; exact absurd hs id

/-- **C212, violated: a quarter each.** A dense layer that doubles its error on average — four outputs for every input — has criticality 1 whatever its connections: the propagation factor is not limited to a quarter, or to the half the code states. -/
theorem C212_quarter_violated (ls : List Layer) (h : (ls.map Layer.name).Nodup) (l : Layer) (hl : l ∈ ls) (hk : l.kind = .dense) (hi : 0 < l.inSize) (ho : 4 * l.inSize ≤ l.outSize) :
    layerCriticality ls l.name = some (.fin 1) := by
  rw [C212_formula ls h l hl hi]
  congr 2
  apply min_eq_left
  have hg : 2 ≤ gain l := by
    unfold gain; rw [hk]; simp only []
    apply Real.le_sqrt_of_sq_le
    have : (0:ℝ) < l.inSize := by exact_mod_cast hi
    rw [le_div_iff₀ this]; norm_num; exact_mod_cast ho
  have hn : 0 ≤ narrowing l := by
    have := bottleneck_soft l l.inputs.length l.outputs.length
    rw [bottleneck_eq l hi] at this; exact this
  have h1 : 2 ≤ gain l * spread l := by nlinarith [spread_pos l]
  have h2 : 0 ≤ min (1 / 2) (narrowing l) := le_min (by norm_num) hn
  have h3 : (0:ℝ) ≤ min (1 / 2) (((l.inputs.length : ℝ) + l.outputs.length) / 10) := le_min (by norm_num) (by positivity)
  have h4 : (0:ℝ) ≤ min (1 / 2) ((mentions ls l.name : ℝ) / 10) := le_min (by norm_num) (by positivity)
  have h5 : (0:ℝ) ≤ if l.critical then 1 / 5 else 0 := by split <;> norm_num
  linarith

/-- Two unconnected layers; the second is called `n`. -/
def pair (n : Text) : List Layer := [⟨['f', 'c', '1', '0'], .conv, 1, 1, [], [], false⟩, ⟨n, .conv, 1, 1, [], [], false⟩]

theorem pair_paths (n : Text) (h : n ≠ []) (h' : n ≠ ['f', 'c', '1', '0']) : criticalPaths (pair n) = [['f', 'c', '1', '0'], n] := by
  have h'' : ¬ ['f', 'c', '1', '0'] = n := fun e => h' e.symm
  simp [criticalPaths, pair, findPaths, lookup, h', h'']

/-- **C212, violated: names.** Calling a layer `fc1` instead of `fd1` in a network with a layer `fc10` raises its criticality: it is credited with the paths of the other layer, whose name contains its own. -/
theorem C212_name_violated : layerCriticality (pair ['f', 'd', '1']) ['f', 'd', '1'] = some (.fin (11 / 20)) ∧ layerCriticality (pair ['f', 'c', '1']) ['f', 'c', '1'] = some (.fin (13 / 20)) := by
  constructor
  · have := C212_formula (pair ['f', 'd', '1']) (by decide) ⟨['f', 'd', '1'], .conv, 1, 1, [], [], false⟩ (by simp [pair]) (by simp)
    have hm : mentions (pair ['f', 'd', '1']) ['f', 'd', '1'] = 1 := by
      unfold mentions; rw [pair_paths _ (by simp) (by simp)]; decide
    rw [hm] at this
    rw [this]
    norm_num [gain, spread, narrowing]
  · have := C212_formula (pair ['f', 'c', '1']) (by decide) ⟨['f', 'c', '1'], .conv, 1, 1, [], [], false⟩ (by simp [pair]) (by simp)
    have hm : mentions (pair ['f', 'c', '1']) ['f', 'c', '1'] = 2 := by
      unfold mentions; rw [pair_paths _ (by simp) (by simp)]; decide
    rw [hm] at this
    rw [this]
    norm_num [gain, spread, narrowing]

example : ∃ c, layerCriticality demo ['c'] = some (.fin c) ∧ 0 ≤ c ∧ c ≤ 1 := (C212_range demo ['c']).1 (by simp [demo])
example : layerCriticality [⟨['a'], .dense, 3, 12, [], [], false⟩] ['a'] = some (.fin 1) :=
  C212_quarter_violated [⟨['a'], .dense, 3, 12, [], [], false⟩] (by simp) ⟨['a'], .dense, 3, 12, [], [], false⟩ (by simp) rfl (by simp) (by simp)

/-! ### C213: importance of parameters -/

/-- The largest of some numbers, at least 0. -/
noncomputable def top (xs : List ℝ) : ℝ := xs.foldr max 0

theorem top_foldl (m : List (Text × ℝ)) (a : ℝ) (ha : 0 ≤ a) :
    (m.map fun e => (e.1, XD.fin e.2)).foldl (fun a e => XD.max a e.2) (.fin a) = .fin (max a (top (m.map Prod.snd))) := by
  induction m generalizing a with
  | nil => simp [top, ha]
  | cons e t ih =>
    rw [List.map_cons, List.foldl_cons]
    have : XD.max (.fin a) (.fin e.2) = .fin (max a e.2) := by
      unfold XD.max
      by_cases h : XD.lt (.fin a) (.fin e.2)
      · rw [if_pos h, max_eq_right (XD.lt_fin _ _ |>.mp h).le]
      · rw [if_neg h, max_eq_left (not_lt.mp fun h' => h ((XD.lt_fin _ _).mpr h'))]
    rw [this, ih _ (le_max_of_le_left ha)]
    simp only [top, List.map_cons, List.foldr_cons, max_assoc]

theorem top_nonneg (xs : List ℝ) : 0 ≤ top xs := by
  cases xs with
  | nil => simp [top]
  | cons a t =>
    induction t generalizing a with
    | nil => simp [top]
    | cons b t ih => exact le_max_of_le_right (ih b)

theorem le_top {xs : List ℝ} {x : ℝ} (h : x ∈ xs) : x ≤ top xs := by
  induction xs with
  | nil => simp at h
  | cons a t ih =>
    rcases List.mem_cons.mp h with rfl | h
    · exact le_max_left _ _
    · exact le_max_of_le_right (ih h)

theorem top_mem (xs : List ℝ) : top xs = 0 ∨ top xs ∈ xs := by
  induction xs with
  | nil => left; rfl
  | cons a t ih =>
    show max a (top t) = 0 ∨ max a (top t) ∈ _
    rcases le_total a (top t) with h | h
    · rw [max_eq_right h]; rcases ih with h | h
      · left; exact h
      · right; exact List.mem_cons_of_mem _ h
    · rw [max_eq_left h]; right; simp

/-- Numbers relative to the largest; unchanged if none is positive. -/
noncomputable def relative (m : List (Text × ℝ)) : List (Text × ℝ) := if 0 < top (m.map Prod.snd) then m.map fun e => (e.1, e.2 / top (m.map Prod.snd)) else m

theorem normalize_fin (m : List (Text × ℝ)) : normalize (m.map fun e => (e.1, XD.fin e.2)) = (relative m).map fun e => (e.1, XD.fin e.2) := by
  unfold normalize relative
  rw [top_foldl m 0 (le_refl _), max_eq_right (top_nonneg _)]
  simp only [XD.lt_fin]
  by_cases h : 0 < top (m.map Prod.snd)
  · rw [if_pos h, if_pos h, List.map_map, List.map_map]
    exact List.map_congr_left fun e _ => by simp only [Function.comp, XD.div_fin _ _ h.ne']
  · rw [if_neg h, if_neg h]

theorem relative_range {m : List (Text × ℝ)} (h : ∀ e ∈ m, 0 ≤ e.2) : ∀ e ∈ relative m, 0 ≤ e.2 ∧ e.2 ≤ 1 := by
  unfold relative
  split
  · rename_i ht
    intro e he
    obtain ⟨k, hk, rfl⟩ := List.mem_map.mp he
    exact ⟨div_nonneg (h k hk) ht.le, (div_le_one ht).mpr (le_top (List.mem_map.mpr ⟨k, hk, rfl⟩))⟩
  · rename_i ht
    intro e he
    have h1 := le_top (List.mem_map.mpr ⟨e, he, rfl⟩ : e.2 ∈ m.map Prod.snd)
    have h2 := h e he
    exact ⟨h2, by linarith⟩

theorem relative_one {m : List (Text × ℝ)} (h : ∃ e ∈ m, 0 < e.2) : ∃ e ∈ relative m, e.2 = 1 := by
  obtain ⟨e, he, h0⟩ := h
  have ht : 0 < top (m.map Prod.snd) := lt_of_lt_of_le h0 (le_top (List.mem_map.mpr ⟨e, he, rfl⟩))
  unfold relative
  rw [if_pos ht]
  rcases top_mem (m.map Prod.snd) with h | h
  · exact absurd h ht.ne'
  · obtain ⟨k, hk, e2⟩ := List.mem_map.mp h
    refine ⟨_, List.mem_map.mpr ⟨k, hk, rfl⟩, ?_⟩
    simp only [e2]
    exact div_self ht.ne'

/-- The mean change of the output for each unit the parameter is moved, over the first 50 samples. -/
noncomputable def response {N I : Type} (net : Net N I) (n : N) (data : List I) (p : Text × ℝ) : ℝ :=
  ((data.take 50).map fun x => distance (net.forward n x) (net.forward (net.set n p.1 (p.2 * (1001 / 1000))) x)).sum / |p.2 * (1 / 1000)| / (data.take 50).length

theorem response_nonneg {N I : Type} (net : Net N I) (n : N) (data : List I) (p : Text × ℝ) : 0 ≤ response net n data p := by
  unfold response
  have : 0 ≤ ((data.take 50).map fun x => distance (net.forward n x) (net.forward (net.set n p.1 (p.2 * (1001 / 1000))) x)).sum := by
    apply List.sum_nonneg
    intro y hy
    obtain ⟨x, _, rfl⟩ := List.mem_map.mp hy
    exact Real.sqrt_nonneg _
  positivity

theorem sum_foldl {I : Type} (f : I → ℝ) (d : ℝ) (hd : d ≠ 0) (xs : List I) (s : ℝ) :
    xs.foldl (fun s x => XD.add s (XD.div (.fin (f x)) (.fin d))) (.fin s) = .fin (s + (xs.map f).sum / d) := by
  induction xs generalizing s with
  | nil => simp
  | cons a t ih =>
    rw [List.foldl_cons, XD.div_fin _ _ hd, XD.add_fin, ih]
    congr 1
    simp only [List.map_cons, List.sum_cons, add_div]; ring

theorem sensitivity_abs {N I : Type} (net : Net N I) (n : N) (data : List I) (p : Text × ℝ) (hp : p.2 ≠ 0) (hd : data ≠ []) :
    XD.abs (sensitivity net n data p) = .fin (response net n data p) := by
  have hl : ((data.take 50).length : ℝ) ≠ 0 := by
    have : data.length ≠ 0 := by simpa using hd
    rw [List.length_take]
    exact_mod_cast (by omega : min 50 data.length ≠ 0)
  have hq : p.2 * (1 / 1000) ≠ 0 := mul_ne_zero hp (by norm_num)
  unfold sensitivity
  rw [sum_foldl (fun x => distance (net.forward n x) (net.forward (net.set n p.1 (p.2 * (1001 / 1000))) x)) _ hq, XD.div_fin _ _ hl]
  show XD.fin |_| = _
  congr 1
  unfold response
  have : 0 ≤ ((data.take 50).map fun x => distance (net.forward n x) (net.forward (net.set n p.1 (p.2 * (1001 / 1000))) x)).sum := by
    apply List.sum_nonneg
    intro y hy
    obtain ⟨x, _, rfl⟩ := List.mem_map.mp hy
    exact Real.sqrt_nonneg _
  rw [zero_add, abs_div, abs_div, abs_of_nonneg this, Nat.abs_cast]

theorem put_new (k : Text) (x : XD) (m : List (Text × XD)) (h : k ∉ m.map Prod.fst) : put k x m = m ++ [(k, x)] := by
  induction m with
  | nil => rfl
  | cons e t ih =>
    simp only [List.map_cons, List.mem_cons, not_or] at h
    have : ¬ e.1 = k := fun e' => h.1 e'.symm
    simp only [put, if_neg this, ih h.2, List.cons_append]

theorem put_all (f : Text × ℝ → XD) (ps : List (Text × ℝ)) (m : List (Text × XD)) (h : (m.map Prod.fst ++ ps.map Prod.fst).Nodup) :
    ps.foldl (fun m p => put p.1 (f p) m) m = m ++ ps.map fun p => (p.1, f p) := by
  induction ps generalizing m with
  | nil => simp
  | cons a t ih =>
    have hn : a.1 ∉ m.map Prod.fst := by
      rw [List.map_cons, List.nodup_append] at h
      exact fun hm => (h.2.2 a.1 hm a.1 (by simp)) rfl
    rw [List.foldl_cons, put_new _ _ _ hn, ih _ (by simpa using h)]
    simp

/-- **C213.** If the parameters have different names and none is 0, and there is at least one sample, the importance of a parameter is the mean response of the output to it, relative to the largest of all. -/
theorem C213_importance {N I : Type} (net : Net N I) (n : N) (data : List I) (hd : data ≠ []) (h : ((net.params n).map Prod.fst).Nodup) (h0 : ∀ p ∈ net.params n, p.2 ≠ 0) :
    parameterImportance net n data = (relative ((net.params n).map fun p => (p.1, response net n data p))).map fun e => (e.1, XD.fin e.2) := by
  unfold parameterImportance
  rw [put_all (fun p => XD.abs (sensitivity net n data p)) _ [] (by simpa using h), List.nil_append, ← normalize_fin, List.map_map]
  congr 1
  exact List.map_congr_left fun p hp => by simp only [Function.comp, sensitivity_abs net n data p (h0 p hp) hd]

/-- **C213 (range).** Under the same conditions every importance is a number between 0 and 1, and if the output responds to any parameter some importance is exactly 1. -/
theorem C213_range {N I : Type} (net : Net N I) (n : N) (data : List I) (hd : data ≠ []) (h : ((net.params n).map Prod.fst).Nodup) (h0 : ∀ p ∈ net.params n, p.2 ≠ 0) :
    (∀ e ∈ parameterImportance net n data, ∃ x, e.2 = .fin x ∧ 0 ≤ x ∧ x ≤ 1) ∧
    ((∃ p ∈ net.params n, 0 < response net n data p) → ∃ e ∈ parameterImportance net n data, e.2 = .fin 1) := by
  rw [C213_importance net n data hd h h0]
  constructor
  · intro e he
    obtain ⟨k, hk, rfl⟩ := List.mem_map.mp he
    have := relative_range (m := (net.params n).map fun p => (p.1, response net n data p)) (by
      intro e he; obtain ⟨p, _, rfl⟩ := List.mem_map.mp he; exact response_nonneg _ _ _ _) k hk
    exact ⟨k.2, rfl, this⟩
  · rintro ⟨p, hp, h⟩
    obtain ⟨e, he, h1⟩ := relative_one (m := (net.params n).map fun p => (p.1, response net n data p)) ⟨_, List.mem_map.mpr ⟨p, hp, rfl⟩, h⟩
    exact ⟨_, List.mem_map.mpr ⟨e, he, rfl⟩, by simp [h1]⟩

theorem nan_foldl {I : Type} (g : XD → I → XD) (hg : ∀ x, g .nan x = .nan) (xs : List I) : xs.foldl g .nan = .nan := by
  induction xs with
  | nil => rfl
  | cons a t ih => rw [List.foldl_cons, hg, ih]

theorem distance_self (a : List ℝ) : distance a a = 0 := by
  unfold distance
  have : (List.zipWith (fun x y => (x - y) * (x - y)) a a).sum = 0 := by
    induction a with
    | nil => simp
    | cons x t ih => simp [ih]
  rw [this, Real.sqrt_zero]

theorem mem_normalize_nan {m : List (Text × XD)} {k : Text} (h : (k, XD.nan) ∈ m) : (k, XD.nan) ∈ normalize m := by
  unfold normalize
  simp only []
  split
  · exact List.mem_map.mpr ⟨_, h, by simp⟩
  · exact h

theorem sensitivity_zero {N I : Type} (net : Net N I) (n : N) (data : List I) (p : Text × ℝ) (hp : p.2 = 0) (hs : ∀ x, net.forward (net.set n p.1 0) x = net.forward n x) :
    sensitivity net n data p = .nan := by
  unfold sensitivity
  cases data with
  | nil => simp [XD.div_zero_zero]
  | cons a t =>
    rw [List.take_succ_cons, List.foldl_cons]
    simp only [hp, zero_mul, hs, distance_self, XD.div_zero_zero, XD.add_nan]
    rw [nan_foldl _ (fun x => by simp)]
    simp

/-- **C213, violated.** A parameter whose value is 0 — every bias of a new network — has no importance: it is divided by its step of 0, and the result is not a number.  With no samples no parameter has one. -/
theorem C213_zero_violated {N I : Type} (net : Net N I) (n : N) (data : List I) (h : ((net.params n).map Prod.fst).Nodup) (p : Text × ℝ) (hp : p ∈ net.params n) :
    (p.2 = 0 → (∀ x, net.forward (net.set n p.1 0) x = net.forward n x) → (p.1, XD.nan) ∈ parameterImportance net n data) ∧
    (data = [] → (p.1, XD.nan) ∈ parameterImportance net n data) := by
  have key : sensitivity net n data p = .nan → (p.1, XD.nan) ∈ parameterImportance net n data := by
    intro hs
    unfold parameterImportance
    rw [put_all (fun p => XD.abs (sensitivity net n data p)) _ [] (by simpa using h), List.nil_append]
    exact mem_normalize_nan (List.mem_map.mpr ⟨p, hp, by simp only [hs]; rfl⟩)
  refine ⟨fun h0 hs => key (sensitivity_zero net n data p h0 hs), fun hd => key ?_⟩
  subst hd
  simp [sensitivity, XD.div_zero_zero]

/-- A network with the parameters `w` and `b` that computes `w x + b`. -/
def line : Net (ℝ × ℝ) ℝ where
  params n := [(['w'], n.1), (['b'], n.2)]
  set n k v := if k = ['w'] then (v, n.2) else (n.1, v)
  forward n x := [n.1 * x + n.2]

example : ∀ e ∈ parameterImportance line (2, 1) [1, 3], ∃ x, e.2 = .fin x ∧ 0 ≤ x ∧ x ≤ 1 :=
  (C213_range line (2, 1) [1, 3] (by simp) (by simp [line]) (by simp [line])).1
example : (['b'], XD.nan) ∈ parameterImportance line (2, 0) [1, 3] :=
  (C213_zero_violated line (2, 0) [1, 3] (by simp [line]) (['b'], 0) (by simp [line])).1 rfl (by simp [line])

/-! ### C214: importance of activations -/

theorem sparsity_range (v : List ℝ) : 0 ≤ sparsity v ∧ sparsity v ≤ 1 := by
  unfold sparsity
  split
  · norm_num
  · rename_i h
    have h0 : (0:ℝ) < v.length := by exact_mod_cast List.length_pos_of_ne_nil h
    refine ⟨by positivity, (div_le_one h0).mpr ?_⟩
    exact_mod_cast List.length_filter_le _ _

/-- In every sample a layer has at most one activation. -/
def Single (samples : List (List (Text × List ℝ))) : Prop := ∀ s ∈ samples, (s.map Prod.fst).Nodup

/-- The activations of a layer in the samples that count. -/
noncomputable def seen (samples : List (List (Text × List ℝ))) (n : Text) : List (List ℝ) := ((samples.take 50).flatten.filter fun a => a.1 = n).map Prod.snd

/-- The mean magnitude of a layer, lowered by its mean share of zeros. -/
noncomputable def strength (samples : List (List (Text × List ℝ))) (n : Text) : ℝ :=
  (1 - ((seen samples n).map sparsity).sum / (samples.take 50).length) * (((seen samples n).map magnitude).sum / (samples.take 50).length)

theorem single_count {s : List (Text × List ℝ)} (h : (s.map Prod.fst).Nodup) (n : Text) : (s.filter fun a => decide (a.1 = n)).length ≤ 1 := by
  induction s with
  | nil => simp
  | cons a t ih =>
    simp only [List.map_cons, List.nodup_cons] at h
    rw [List.filter_cons]
    split
    · rename_i e
      have e : a.1 = n := by simpa using e
      have : t.filter (fun a => decide (a.1 = n)) = [] := by
        rw [List.filter_eq_nil_iff]; intro k hk; simp only [decide_eq_true_eq]; intro e'
        exact h.1 (List.mem_map.mpr ⟨k, hk, e'.trans e.symm⟩)
      simp [this]
    · exact ih h.2

theorem seen_length {samples : List (List (Text × List ℝ))} (h : Single samples) (n : Text) : (seen samples n).length ≤ (samples.take 50).length := by
  unfold seen
  have h : ∀ s ∈ samples.take 50, (s.map Prod.fst).Nodup := fun s hs => h s (List.mem_of_mem_take hs)
  rw [List.length_map]
  revert h
  generalize samples.take 50 = ss
  intro h
  induction ss with
  | nil => simp
  | cons s t ih =>
    rw [List.flatten_cons, List.filter_append, List.length_append, List.length_cons]
    have := single_count (h s (by simp)) n
    have := ih (fun s hs => h s (by simp [hs]))
    omega

theorem sum_le_length (xs : List ℝ) (h : ∀ x ∈ xs, x ≤ 1) : xs.sum ≤ xs.length := by
  induction xs with
  | nil => simp
  | cons a t ih =>
    have := ih (fun x hx => h x (by simp [hx]))
    have := h a (by simp)
    simp; linarith

theorem strength_nonneg {samples : List (List (Text × List ℝ))} (h : Single samples) (n : Text) : 0 ≤ strength samples n := by
  unfold strength
  have h1 : ((seen samples n).map sparsity).sum ≤ (samples.take 50).length := by
    refine le_trans (sum_le_length _ ?_) ?_
    · intro x hx; obtain ⟨v, _, rfl⟩ := List.mem_map.mp hx; exact (sparsity_range v).2
    · rw [List.length_map]; exact_mod_cast seen_length h n
  have h2 : 0 ≤ ((seen samples n).map magnitude).sum := by
    apply List.sum_nonneg; intro x hx; obtain ⟨v, _, rfl⟩ := List.mem_map.mp hx; exact Real.sqrt_nonneg _
  refine mul_nonneg ?_ (by positivity)
  have : ((seen samples n).map sparsity).sum / ((samples.take 50).length : ℝ) ≤ 1 := div_le_one_of_le₀ h1 (by positivity)
  linarith

/-- **C214.** The importance of a layer is its mean magnitude times its mean share of values that are not zero, relative to the largest of all layers that were seen; the first 50 samples count. -/
theorem C214_importance (samples : List (List (Text × List ℝ))) :
    activationImportance samples = (relative (((samples.take 50).flatten.map Prod.fst).dedup.map fun n => (n, strength samples n))).map fun e => (e.1, XD.fin e.2) := by
  rw [← normalize_fin, List.map_map]
  rfl

/-- **C214 (range).** If a layer has at most one activation in every sample, every importance is a number between 0 and 1. -/
theorem C214_range (samples : List (List (Text × List ℝ))) (h : Single samples) : ∀ e ∈ activationImportance samples, ∃ x, e.2 = .fin x ∧ 0 ≤ x ∧ x ≤ 1 := by
  rw [C214_importance]
  intro e he
  obtain ⟨k, hk, rfl⟩ := List.mem_map.mp he
  exact ⟨k.2, rfl, relative_range (by intro e he; obtain ⟨n, _, rfl⟩ := List.mem_map.mp he; exact strength_nonneg h n) k hk⟩

/-- **C214, violated.** "Sparse activations with high magnitude are more critical": of two layers with equal magnitude the sparser one is always the less important. -/
theorem C214_sparse_violated (s t : Text) (hst : s ≠ t) (v w : List ℝ) (hm : magnitude v = magnitude w) (h0 : 0 < magnitude w) (hs : sparsity w < sparsity v) (h1 : sparsity w < 1) :
    ∃ x y, activationImportance [[(s, v), (t, w)]] = [(s, .fin x), (t, .fin y)] ∧ x < y := by
  have hts : ¬ t = s := fun e => hst e.symm
  have a1 : strength [[(s, v), (t, w)]] s = (1 - sparsity v) * magnitude w := by simp [strength, seen, hts, hm]
  have a2 : strength [[(s, v), (t, w)]] t = (1 - sparsity w) * magnitude w := by simp [strength, seen, hst]
  have hpos : 0 < (1 - sparsity w) * magnitude w := mul_pos (by linarith) h0
  have hlt : (1 - sparsity v) * magnitude w < (1 - sparsity w) * magnitude w := mul_lt_mul_of_pos_right (by linarith) h0
  have hd : [s, t].dedup = [s, t] := by simp [hst]
  have htop : top [(1 - sparsity v) * magnitude w, (1 - sparsity w) * magnitude w] = (1 - sparsity w) * magnitude w := by
    simp only [top, List.foldr_cons, List.foldr_nil, max_eq_left hpos.le, max_eq_right hlt.le]
  refine ⟨(1 - sparsity v) * magnitude w / ((1 - sparsity w) * magnitude w), (1 - sparsity w) * magnitude w / ((1 - sparsity w) * magnitude w), ?_, div_lt_div_of_pos_right hlt hpos⟩
  rw [C214_importance]
  have : (((([[(s, v), (t, w)]] : List (List (Text × List ℝ))).take 50).flatten.map Prod.fst).dedup.map fun n => (n, strength [[(s, v), (t, w)]] n)) = [(s, (1 - sparsity v) * magnitude w), (t, (1 - sparsity w) * magnitude w)] := by
    simp only [List.take_succ_cons, List.take_nil, List.flatten_cons, List.flatten_nil, List.append_nil, List.map_cons, List.map_nil, hd, a1, a2]
  rw [this]
  unfold relative
  simp only [List.map_cons, List.map_nil, htop, if_pos hpos]

example : magnitude [5, 0] = magnitude [3, 4] ∧ 0 < magnitude [3, 4] ∧ sparsity [3, 4] < sparsity [5, 0] ∧ sparsity [3, 4] < 1 := by
  have e : (List.filter (fun x : ℝ => decide (|x| < 1 / 10 ^ 6)) [3, 4]) = [] := by norm_num
  have e' : (List.filter (fun x : ℝ => decide (|x| < 1 / 10 ^ 6)) [5, 0]) = [0] := by norm_num [List.filter_cons]
  refine ⟨by norm_num [magnitude], by norm_num [magnitude], ?_, ?_⟩ <;> simp only [sparsity, e, e', reduceCtorEq, if_false] <;> norm_num
example : Single [[(['a'], [5, 0]), (['b'], [3, 4])]] := by simp [Single]

/-! ### C215: effects of the environment -/

theorem clamp_range (x : XD) : ∃ y, clamp x = .fin y ∧ 0 ≤ y ∧ y ≤ 1 := by
  unfold clamp
  have : Soft (XD.max (.fin 0) x) := by
    unfold XD.max
    split
    · rename_i h; cases x <;> simp_all [Soft, XD.lt]; exact h.le
    · exact le_refl (0:ℝ)
  exact cut_soft 1 (by norm_num) this

theorem clamp_fin (x : ℝ) : clamp (.fin x) = .fin (min 1 (max 0 x)) := by
  unfold clamp
  have : XD.max (.fin 0) (.fin x) = .fin (max 0 x) := by
    unfold XD.max
    by_cases h : XD.lt (.fin 0) (.fin x)
    · rw [if_pos h, max_eq_right (XD.lt_fin _ _ |>.mp h).le]
    · rw [if_neg h, max_eq_left (not_lt.mp fun h' => h ((XD.lt_fin _ _).mpr h'))]
  rw [this, cut_fin]

theorem total_fin (names : List Text) (f : Text → Option XD) (h : ∀ n, ∃ y, term (f n) = .fin y ∧ 0 ≤ y ∧ y ≤ 1) (s : ℝ) :
    ∃ y, names.foldl (fun s n => XD.add s (term (f n))) (.fin s) = .fin y ∧ s ≤ y ∧ y ≤ s + names.length := by
  induction names generalizing s with
  | nil => exact ⟨s, rfl, le_refl _, by simp⟩
  | cons a t ih =>
    obtain ⟨z, hz, h0, h1⟩ := h a
    obtain ⟨y, hy, h2, h3⟩ := ih (s + z)
    refine ⟨y, by rw [List.foldl_cons, hz, XD.add_fin, hy], by linarith, ?_⟩
    simp only [List.length_cons, Nat.cast_add, Nat.cast_one]; linarith

/-- **C215.** Vulnerability, thermal sensitivity and power impact of every layer — of any size, also 0 — are numbers between 0 and 1 in any environment, and so is the overall impact. -/
theorem C215_range (flux : Option ℝ) (ls : List Layer) (crit : List (Text × XD)) (l : Layer) (c : Option XD) :
    (∃ y, vulnerability flux l = .fin y ∧ 0 ≤ y ∧ y ≤ 1) ∧ (∃ y, thermal l = .fin y ∧ 0 ≤ y ∧ y ≤ 1) ∧ (∃ y, power l c = .fin y ∧ 0 ≤ y ∧ y ≤ 1) ∧
    ∃ y, (spaceAnalysis flux ls crit).impact = .fin y ∧ 0 ≤ y ∧ y ≤ 1 := by
  have hv : ∀ l, ∃ y, vulnerability flux l = .fin y ∧ 0 ≤ y ∧ y ≤ 1 := fun l => clamp_range _
  have ht : ∀ l, ∃ y, thermal l = .fin y ∧ 0 ≤ y ∧ y ≤ 1 := fun l => clamp_range _
  have hp : ∀ l c, ∃ y, power l c = .fin y ∧ 0 ≤ y ∧ y ≤ 1 := fun l c => clamp_range _
  refine ⟨hv l, ht l, hp l c, ?_⟩
  have key : ∀ g : Text → Layer → XD, (∀ n l, ∃ y, g n l = .fin y ∧ 0 ≤ y ∧ y ≤ 1) → ∀ n, ∃ y, term ((lookup ls n).map (g n)) = .fin y ∧ 0 ≤ y ∧ y ≤ 1 := by
    intro g hg n
    cases lookup ls n with
    | none => exact ⟨0, rfl, le_refl _, by norm_num⟩
    | some k => exact hg n k
  unfold spaceAnalysis impact
  simp only []
  by_cases hn : 0 < (crit.map Prod.fst).length
  · rw [if_pos hn]
    have hn' : (0:ℝ) < (crit.map Prod.fst).length := by exact_mod_cast hn
    obtain ⟨a, ha, a0, a1⟩ := total_fin (crit.map Prod.fst) (fun n => (lookup ls n).map (vulnerability flux)) (key (fun _ l => vulnerability flux l) (fun _ l => hv l)) 0
    obtain ⟨b, hb, b0, b1⟩ := total_fin (crit.map Prod.fst) (fun n => (lookup ls n).map thermal) (key (fun _ l => thermal l) (fun _ l => ht l)) 0
    obtain ⟨d, hd, d0, d1⟩ := total_fin (crit.map Prod.fst) (fun n => (lookup ls n).map fun l => power l ((crit.find? fun e : Text × XD => decide (e.1 = n)).map Prod.snd)) (key (fun n l => power l ((crit.find? fun e : Text × XD => decide (e.1 = n)).map Prod.snd)) (fun n l => hp l _)) 0
    simp only [ha, hb, hd, XD.div_fin _ _ hn'.ne', XD.mul_fin, XD.add_fin]
    have e : ∀ z : ℝ, 0 ≤ z → z ≤ 0 + (crit.map Prod.fst).length → 0 ≤ z / (crit.map Prod.fst).length ∧ z / (crit.map Prod.fst).length ≤ 1 :=
      fun z h0 h1 => ⟨by positivity, (div_le_one hn').mpr (by linarith)⟩
    have ea := e a a0 a1
    have eb := e b b0 b1
    have ed := e d d0 d1
    exact ⟨_, rfl, by linarith [ea.1, eb.1, ed.1], by linarith [ea.2, eb.2, ed.2]⟩
  · rw [if_neg hn]; exact ⟨0, rfl, le_refl _, by norm_num⟩

/-- Size of a layer on a scale from 0 to 1: a tenth of the decimal logarithm of its weights. -/
noncomputable def scale (l : Layer) : ℝ := min 1 (Real.logb 10 ((l.inSize : ℝ) * l.outSize) / 10)

/-- A layer with weights whose number fits the machine. -/
def Sized (l : Layer) : Prop := 1 ≤ l.inSize * l.outSize ∧ l.inSize * l.outSize < 2 ^ 64

theorem sizeFactor_eq (l : Layer) (h : Sized l) : sizeFactor l = .fin (scale l) := by
  unfold sizeFactor scale
  rw [Nat.mod_eq_of_lt h.2]
  have : (0:ℝ) < ((l.inSize * l.outSize : ℕ) : ℝ) := by exact_mod_cast h.1
  simp only [xlog10, if_pos this, XD.div_fin _ _ (show (10:ℝ) ≠ 0 by norm_num), cut_fin]
  push_cast; rfl

theorem scale_nonneg (l : Layer) (h : Sized l) : 0 ≤ scale l := by
  refine le_min (by norm_num) (div_nonneg (Real.logb_nonneg (by norm_num) ?_) (by norm_num))
  exact_mod_cast h.1

/-- Flux on the scale the code uses for vulnerability: decades above 1e-15, at most one. -/
noncomputable def decade (flux : ℝ) : ℝ := min 1 (Real.logb 10 (flux + 1 / 10 ^ 15) + 15)

theorem logb_floor (flux : ℝ) (h : 0 ≤ flux) : -15 ≤ Real.logb 10 (flux + 1 / 10 ^ 15) := by
  rw [Real.le_logb_iff_rpow_le (by norm_num) (by positivity)]
  have : (10:ℝ) ^ (-15:ℝ) = 1 / 10 ^ 15 := by
    rw [show (-15:ℝ) = ((-15:ℤ):ℝ) by norm_num, Real.rpow_intCast]; norm_num
  rw [this]; linarith

theorem decade_nonneg (flux : ℝ) (h : 0 ≤ flux) : 0 ≤ decade flux := le_min (by norm_num) (by linarith [logb_floor flux h])

/-- **C215 (formula).** In an environment with a flux that is not negative the vulnerability of a layer is the mean of its base value and its size, times 0.5 plus a twentieth of the decade of the flux, raised by a fifth if it is marked as critical, and cut at 1.  Thermal sensitivity and power impact weigh base and size 6 to 4 and 7 to 3; power grows with criticality. -/
theorem C215_formula (flux : ℝ) (hf : 0 ≤ flux) (l : Layer) (h : Sized l) (c : ℝ) (hc : 0 ≤ c) :
    vulnerability (some flux) l = .fin (min 1 ((baseVulnerability l.kind / 2 + scale l / 2) * (1 / 2 + decade flux / 20) * if l.critical then 6 / 5 else 1)) ∧
    thermal l = .fin (min 1 (3 / 5 * baseThermal l.kind + 2 / 5 * scale l)) ∧
    power l (some (.fin c)) = .fin (min 1 ((7 / 10 * basePower l.kind + 3 / 10 * scale l) * (1 + c / 2))) := by
  have hs := scale_nonneg l h
  have hd := decade_nonneg flux hf
  have b1 : 0 ≤ baseVulnerability l.kind := by cases l.kind <;> norm_num [baseVulnerability]
  have b2 : 0 ≤ baseThermal l.kind := by cases l.kind <;> norm_num [baseThermal]
  have b3 : 0 ≤ basePower l.kind := by cases l.kind <;> norm_num [basePower]
  have hq : 0 < flux + 1 / 10 ^ 15 := by positivity
  refine ⟨?_, ?_, ?_⟩
  · unfold vulnerability
    simp only [sizeFactor_eq l h, Option.getD_some, xlog10, if_pos hq, XD.add_fin, cut_fin, XD.mul_fin, XD.div_fin _ _ (show (10:ℝ) ≠ 0 by norm_num)]
    have hdef : min 1 (Real.logb 10 (flux + 1 / 10 ^ 15) + 15) = decade flux := rfl
    rw [hdef]
    by_cases hcr : l.critical = true
    · simp only [hcr, if_true, clamp_fin]
      rw [max_eq_right (by positivity)]
      congr 2; ring
    · simp only [hcr, Bool.false_eq_true, if_false, clamp_fin]
      rw [max_eq_right (by positivity)]
      congr 2; ring
  · unfold thermal
    simp only [sizeFactor_eq l h, XD.add_fin, XD.mul_fin, clamp_fin]
    rw [max_eq_right (by positivity)]
    congr 2; ring
  · unfold power
    simp only [sizeFactor_eq l h, XD.add_fin, XD.mul_fin, clamp_fin]
    rw [max_eq_right (by positivity)]
    congr 2; ring

/-- **C215, violated: flux.** Every flux of at least 9e-15 gives the same vulnerability: the flux factor is cut at 1 before it is divided by 10.  A solar flare and the ground level are no different for it. -/
theorem C215_flux_violated (f g : ℝ) (hf : 9 / 10 ^ 15 ≤ f) (hg : 9 / 10 ^ 15 ≤ g) (l : Layer) : vulnerability (some f) l = vulnerability (some g) l := by
  have key : ∀ f : ℝ, 9 / 10 ^ 15 ≤ f → xmin (.fin 1) (XD.add (xlog10 (.fin (f + 1 / 10 ^ 15))) (.fin 15)) = .fin 1 := by
    intro f hf
    have hq : 0 < f + 1 / 10 ^ 15 := by have : (0:ℝ) < 9 / 10 ^ 15 := by norm_num
                                        positivity
    simp only [xlog10, if_pos hq, XD.add_fin, cut_fin]
    congr 1
    apply min_eq_left
    have : -14 ≤ Real.logb 10 (f + 1 / 10 ^ 15) := by
      rw [Real.le_logb_iff_rpow_le (by norm_num) hq]
      have : (10:ℝ) ^ (-14:ℝ) = 9 / 10 ^ 15 + 1 / 10 ^ 15 := by
        rw [show (-14:ℝ) = ((-14:ℤ):ℝ) by norm_num, Real.rpow_intCast]; norm_num
      rw [this]; linarith
    linarith
  unfold vulnerability
  simp only [Option.getD_some, key f hf, key g hg]

/-- **C215, violated: size.** A layer with 2^32 inputs and outputs counts as the smallest there can be: the product of the sizes wraps to 0, and its vulnerability, thermal sensitivity and power impact are 0. -/
theorem C215_wrap_violated (l : Layer) (hi : l.inSize = 2 ^ 32) (ho : l.outSize = 2 ^ 32) (flux : ℝ) (hf : 0 ≤ flux) :
    vulnerability (some flux) l = .fin 0 ∧ thermal l = .fin 0 ∧ power l none = .fin 0 := by
  have hs : sizeFactor l = .ninf := by
    unfold sizeFactor
    rw [hi, ho]
    have : (((2 ^ 32 * 2 ^ 32 % 2 ^ 64 : ℕ) : ℕ) : ℝ) = 0 := by norm_num
    rw [this]
    simp [xlog10, XD.div, xmin, XD.lt]
  have hm : ∀ a : ℝ, 0 < a → XD.mul (.fin a) .ninf = .ninf := fun a ha => by simp [XD.mul, ha]
  have hm' : ∀ a : ℝ, 0 < a → XD.mul .ninf (.fin a) = .ninf := fun a ha => by simp [XD.mul, ha]
  have ha : ∀ a : ℝ, XD.add (.fin a) .ninf = .ninf := fun a => rfl
  have hc : clamp .ninf = .fin 0 := by simp [clamp, XD.max, XD.lt, xmin]
  refine ⟨?_, ?_, ?_⟩
  · unfold vulnerability
    have hq : 0 < flux + 1 / 10 ^ 15 := by positivity
    simp only [hs, hm _ (show (0:ℝ) < 5 / 10 by norm_num), ha, Option.getD_some, xlog10, if_pos hq, XD.add_fin, cut_fin, XD.mul_fin, XD.div_fin _ _ (show (10:ℝ) ≠ 0 by norm_num)]
    have hd : 0 ≤ min 1 (Real.logb 10 (flux + 1 / 10 ^ 15) + 15) := decade_nonneg flux hf
    rw [hm' _ (by positivity)]
    split
    · rw [hm' _ (by norm_num), hc]
    · exact hc
  · unfold thermal
    rw [hs, hm _ (by norm_num), ha, hc]
  · unfold power
    simp only [hs, hm _ (show (0:ℝ) < 3 / 10 by norm_num), ha, hc]

example : Sized ⟨['a'], .dense, 100, 10, [], [], true⟩ := by norm_num [Sized]
example : (9 / 10 ^ 15 : ℝ) ≤ SpaceMission.stdFlux .groundLevel ∧ (9 / 10 ^ 15 : ℝ) ≤ SpaceMission.stdFlux .solarFlare := by norm_num [SpaceMission.stdFlux]

/-! ### C216: recommended levels -/

/-- How much a level protects. -/
def Level.rank : Level → ℕ
  | .checksum => 0
  | .recovery => 1
  | .selective => 2
  | .health => 3
  | .full => 4

/-- The level for a value: one level for each of 0.2, 0.4, 0.6 and 0.8 it exceeds. -/
noncomputable def rankOf (x : ℝ) : ℕ := if 4 / 5 < x then 4 else if 3 / 5 < x then 3 else if 2 / 5 < x then 2 else if 1 / 5 < x then 1 else 0

/-- Flux on a scale from 0 to 1: a tenth of the decades above 1e-15. -/
noncomputable def exposure (flux : ℝ) : ℝ := min 1 ((Real.logb 10 (flux + 1 / 10 ^ 15) + 15) / 10)

theorem fluxFactor_eq (flux : ℝ) (h : 0 ≤ flux) : fluxFactor flux = .fin (exposure flux) := by
  unfold fluxFactor exposure
  have hq : 0 < flux + 1 / 10 ^ 15 := by positivity
  have h0 : 0 ≤ Real.logb 10 (flux + 1 / 10 ^ 15) + 15 := by linarith [logb_floor flux h]
  simp only [xlog10, if_pos hq, XD.add_fin]
  have : XD.max (.fin 0) (.fin (Real.logb 10 (flux + 1 / 10 ^ 15) + 15)) = .fin (Real.logb 10 (flux + 1 / 10 ^ 15) + 15) := by
    unfold XD.max
    by_cases h : XD.lt (.fin 0) (.fin (Real.logb 10 (flux + 1 / 10 ^ 15) + 15))
    · rw [if_pos h]
    · rw [if_neg h]; congr 1; exact le_antisymm h0 (not_lt.mp fun h' => h ((XD.lt_fin _ _).mpr h'))
  rw [this, XD.div_fin _ _ (by norm_num), cut_fin]

/-- **C216.** The recommended level is the higher of two: one level for each of 0.2, 0.4, 0.6 and 0.8 that the criticality, raised by the vulnerability, exceeds, and the same for the exposure to the flux.  A layer whose vulnerability is not known counts as fully vulnerable. -/
theorem C216_level (c : ℝ) (rad : Option ℝ) (flux : ℝ) (h : 0 ≤ flux) :
    (levelOf (.fin c) (rad.map XD.fin) flux).rank = max (rankOf (c * (1 + rad.getD 1))) (rankOf (exposure flux)) := by
  have hr : (rad.map XD.fin).getD (.fin 1) = .fin (rad.getD 1) := by cases rad <;> rfl
  unfold levelOf
  rw [hr, fluxFactor_eq flux h]
  simp only [XD.add_fin, XD.mul_fin, XD.lt_fin]
  generalize c * (1 + rad.getD 1) = a
  generalize exposure flux = f
  unfold rankOf
  norm_num only
  split_ifs <;> simp only [Level.rank] <;> first | rfl | (exfalso; simp_all; done) | (exfalso; grind)

theorem rankOf_mono {x y : ℝ} (h : x ≤ y) : rankOf x ≤ rankOf y := by
  unfold rankOf
  split_ifs <;> first | omega | (exfalso; linarith)

theorem exposure_mono {f g : ℝ} (hf : 0 ≤ f) (h : f ≤ g) : exposure f ≤ exposure g := by
  unfold exposure
  have : Real.logb 10 (f + 1 / 10 ^ 15) ≤ Real.logb 10 (g + 1 / 10 ^ 15) := Real.logb_le_logb_of_le (by norm_num) (by positivity) (by linarith)
  exact min_le_min_left _ (by linarith)

/-- **C216 (monotone).** More criticality, more vulnerability or more flux never lowers the recommended level. -/
theorem C216_monotone (c c' r r' f f' : ℝ) (hc : 0 ≤ c) (hcc : c ≤ c') (hr : 0 ≤ r) (hrr : r ≤ r') (hf : 0 ≤ f) (hff : f ≤ f') :
    (levelOf (.fin c) (some (.fin r)) f).rank ≤ (levelOf (.fin c') (some (.fin r')) f').rank := by
  have h1 := C216_level c (some r) f hf
  have h2 := C216_level c' (some r') f' (hf.trans hff)
  simp only [Option.map_some, Option.getD_some] at h1 h2
  rw [h1, h2]
  refine max_le_max (rankOf_mono ?_) (rankOf_mono (exposure_mono hf hff))
  have : 0 ≤ c' := hc.trans hcc
  nlinarith

/-- **C216 (every layer).** Every layer of the analysis, and no other, gets a level. -/
theorem C216_every (r : SpaceResult) : (recommended r).map Prod.fst = r.crit.map Prod.fst := by
  unfold recommended
  rw [List.map_map]; rfl

/-- **C216, violated.** In every space environment the library defines — low Earth orbit included, which is also the default — every layer gets full triplication, whatever its criticality: the flux alone exceeds the threshold. -/
theorem C216_flux_violated (r : SpaceResult) (h : ∃ t, r.flux = SpaceMission.stdFlux t ∧ t ≠ .groundLevel ∧ t ≠ .avionic ∧ t ≠ .custom) :
    ∀ e ∈ recommended r, e.2 = .full := by
  obtain ⟨t, ht, h1, h2, h3⟩ := h
  have hf : 1 / 10 ^ 7 ≤ r.flux := by
    rw [ht]; cases t <;> first | (exact absurd rfl h1) | (exact absurd rfl h2) | (exact absurd rfl h3) | norm_num [SpaceMission.stdFlux]
  have h0 : 0 ≤ r.flux := le_trans (by norm_num) hf
  have hx : 8 / 10 < exposure r.flux := by
    unfold exposure
    refine lt_min (by norm_num) ?_
    have : -7 < Real.logb 10 (r.flux + 1 / 10 ^ 15) := by
      rw [Real.lt_logb_iff_rpow_lt (by norm_num) (by positivity)]
      have : (10:ℝ) ^ (-7:ℝ) = 1 / 10 ^ 7 := by
        rw [show (-7:ℝ) = ((-7:ℤ):ℝ) by norm_num, Real.rpow_intCast]; norm_num
      rw [this]
      have : (0:ℝ) < 1 / 10 ^ 15 := by norm_num
      linarith
    linarith
  intro e he
  obtain ⟨k, _, rfl⟩ := List.mem_map.mp he
  show levelOf _ _ _ = _
  unfold levelOf
  rw [fluxFactor_eq r.flux h0]
  simp only [XD.lt_fin, hx, or_true, if_true]

/-- **C216, violated: the default.** Without an environment the analysis assumes low Earth orbit, so a layer with criticality 0 is triplicated. -/
theorem C216_default_violated (ls : List Layer) (crit : List (Text × XD)) : ∀ e ∈ recommended (spaceAnalysis none ls crit), e.2 = .full :=
  C216_flux_violated _ ⟨.leo, by simp [spaceAnalysis, SpaceMission.stdFlux], by simp, by simp, by simp⟩

example : (recommended (spaceAnalysis none demo [(['a'], .fin 0)])).map Prod.snd = [.full] := by
  have := C216_default_violated demo [(['a'], .fin 0)]
  have h := this (['a'], levelOf (.fin 0) ((spaceAnalysis none demo [(['a'], .fin 0)]).rad ['a']) (spaceAnalysis none demo [(['a'], .fin 0)]).flux) (by simp [recommended, spaceAnalysis])
  simp only [recommended, spaceAnalysis, List.map_cons, List.map_nil] at *
  rw [h]
example : levelOf (.fin (1 / 2)) (some (.fin (1 / 2))) 0 = .health := by
  have := C216_level (1 / 2) (some (1 / 2)) 0 (le_refl _)
  have e0 : exposure 0 = 0 := by
    unfold exposure
    have : Real.logb 10 ((0:ℝ) + 1 / 10 ^ 15) = -15 := by
      rw [zero_add, one_div, Real.logb_inv, Real.logb_pow]; norm_num
    rw [this]; norm_num
  rw [e0] at this
  have hr : rankOf (1 / 2 * (1 + (some (1 / 2 : ℝ)).getD 1)) = 3 := by norm_num [rankOf]
  have hr' : rankOf 0 = 0 := by norm_num [rankOf]
  rw [hr, hr'] at this
  simp only [Option.map_some] at this
  cases h : levelOf (.fin (1 / 2)) (some (.fin (1 / 2))) 0 <;> rw [h] at this <;> simp_all [Level.rank]

/-! ### C217: adjusted criticality -/

/-- **C217.** The radiation-adjusted criticality is the criticality raised by the vulnerability, where one is known, relative to the largest: all values lie between 0 and 1, and unless all are 0 one of them is exactly 1. -/
theorem C217_adjusted (crit : List (Text × ℝ)) (rad : Text → Option ℝ) (hc : ∀ e ∈ crit, 0 ≤ e.2) (hr : ∀ n v, rad n = some v → 0 ≤ v) :
    ∃ m : List (Text × ℝ), adjusted (crit.map fun e => (e.1, XD.fin e.2)) (fun n => (rad n).map XD.fin) = m.map (fun e => (e.1, XD.fin e.2)) ∧
      m = relative (crit.map fun e => (e.1, e.2 * (1 + (rad e.1).getD 0))) ∧
      (∀ e ∈ m, 0 ≤ e.2 ∧ e.2 ≤ 1) ∧ ((∃ e ∈ crit, 0 < e.2) → ∃ e ∈ m, e.2 = 1) := by
  have hg : ∀ n, 0 ≤ (rad n).getD 0 := by
    intro n
    cases h : rad n with
    | none => exact le_refl _
    | some v => exact hr n v h
  refine ⟨_, ?_, rfl, ?_, ?_⟩
  · rw [← normalize_fin]
    unfold adjusted
    rw [List.map_map, List.map_map]
    congr 1
    refine List.map_congr_left fun e _ => ?_
    simp only [Function.comp]
    cases rad e.1 with
    | none => simp
    | some v => simp
  · apply relative_range
    intro e he
    obtain ⟨k, hk, rfl⟩ := List.mem_map.mp he
    exact mul_nonneg (hc k hk) (by linarith [hg k.1])
  · rintro ⟨e, he, h0⟩
    exact relative_one ⟨_, List.mem_map.mpr ⟨e, he, rfl⟩, mul_pos h0 (by linarith [hg e.1])⟩

/-- **C217 (order).** Between two layers of equal vulnerability the order of criticality is kept. -/
theorem C217_order (crit : List (Text × ℝ)) (rad : Text → Option ℝ) (hr : ∀ n v, rad n = some v → 0 ≤ v) (i j : Text × ℝ) (hij : rad i.1 = rad j.1) (h : i.2 ≤ j.2) :
    ∃ s : ℝ, 0 < s ∧ relative (crit.map fun e => (e.1, e.2 * (1 + (rad e.1).getD 0))) = (crit.map fun e => (e.1, e.2 * (1 + (rad e.1).getD 0) / s)) ∧
      i.2 * (1 + (rad i.1).getD 0) / s ≤ j.2 * (1 + (rad j.1).getD 0) / s := by
  have hg : 0 ≤ (rad j.1).getD 0 := by
    cases h : rad j.1 with
    | none => exact le_refl _
    | some v => exact hr _ v h
  have hle : i.2 * (1 + (rad i.1).getD 0) ≤ j.2 * (1 + (rad j.1).getD 0) := by rw [hij]; exact mul_le_mul_of_nonneg_right h (by linarith)
  unfold relative
  split
  · rename_i ht
    exact ⟨_, ht, by rw [List.map_map]; rfl, div_le_div_of_nonneg_right hle ht.le⟩
  · exact ⟨1, one_pos, by simp, by simpa using hle⟩

example : adjusted ([(['a'], (1 / 2 : ℝ)), (['b'], 1 / 4)].map fun e => (e.1, XD.fin e.2)) (fun n => ((fun n => if n = ['b'] then some (1 : ℝ) else none) n).map XD.fin) = [(['a'], .fin 1), (['b'], .fin 1)] := by
  obtain ⟨m, h1, h2, _⟩ := C217_adjusted [(['a'], (1 / 2 : ℝ)), (['b'], 1 / 4)] (fun n => if n = ['b'] then some (1 : ℝ) else none) (by norm_num) (by intro n v h; split at h <;> simp at h; rw [← h]; norm_num)
  rw [h1, h2]
  have hab : ¬ ('a' : Char) = 'b' := by decide
  norm_num [relative, top, hab]

/-- **C214 (sparsity).** The sparsity of an activation is the share of its entries strictly between -0.000001 and 0.000001; negative activations of any
other size are not counted. -/
theorem C214_sparsity_counts (v : List ℝ) :
    sparsity v * v.length = ((v.filter fun x => decide (-(1 / 10 ^ 6) < x ∧ x < 1 / 10 ^ 6)).length : ℝ) := by
  unfold sparsity
  by_cases h : v = []
  · subst h; simp
  · have h0 : (v.length : ℝ) ≠ 0 := by exact_mod_cast (List.length_pos_of_ne_nil h).ne'
    rw [if_neg h, div_mul_cancel₀ _ h0]
    simp only [abs_lt]

example : sparsity [-3, 0] * 2 = 1 := by
  have h := C214_sparsity_counts [-3, 0]
  have e : ([-3, 0] : List ℝ).filter (fun x => decide (-(1 / 10 ^ 6) < x ∧ x < 1 / 10 ^ 6)) = [0] := by norm_num [List.filter]
  rw [e] at h
  norm_num at h ⊢
  linarith

theorem total_sum (names : List Text) (f : Text → ℝ) (s : ℝ) :
    names.foldl (fun s n => XD.add s (term ((fun n => some (XD.fin (f n))) n))) (.fin s) = .fin (s + (names.map f).sum) := by
  induction names generalizing s with
  | nil => simp
  | cons n names ih =>
    rw [List.foldl_cons]
    have : XD.add (.fin s) (term (some (XD.fin (f n)))) = .fin (s + f n) := by rw [term, Option.getD_some, XD.add_fin]
    rw [this, ih, List.map_cons, List.sum_cons, add_assoc]

/-- **C215 (impact).** The overall impact is half the mean vulnerability plus three tenths of the mean thermal sensitivity plus two tenths of the mean power
impact. -/
theorem C215_impact_formula (names : List Text) (hn : names ≠ []) (rad therm pow : Text → ℝ) :
    impact names (fun n => some (.fin (rad n))) (fun n => some (.fin (therm n))) (fun n => some (.fin (pow n))) =
      .fin (0.5 * ((names.map rad).sum / names.length) + 0.3 * ((names.map therm).sum / names.length) +
        0.2 * ((names.map pow).sum / names.length)) := by
  have h0 : 0 < names.length := List.length_pos_of_ne_nil hn
  have h1 : (names.length : ℝ) ≠ 0 := by exact_mod_cast h0.ne'
  unfold impact
  simp only []
  rw [if_pos h0, total_sum, total_sum, total_sum, XD.div_fin _ _ h1, XD.div_fin _ _ h1, XD.div_fin _ _ h1]
  simp only [XD.mul_fin, XD.add_fin]
  congr 1
  norm_num

end Verif.Topology
