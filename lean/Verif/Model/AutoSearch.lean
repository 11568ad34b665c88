import Verif.Model.ArchTester
import Mathlib.Data.List.Dedup
import Mathlib.Data.List.Lex
/-!
Model of `research::AutoArchSearch` (/repo/include/rad_ml/research/auto_arch_search.hpp, /repo/src/rad_ml/research/auto_arch_search.cpp).

The engine is a stream of real numbers in [0,1): an index below `n` is the integer part of n times the next number.
`std::map` is a list of entries searched by equivalence of keys; the order of entries is not modelled.  The tester's own list of results and the console output are left out: they do not influence the search.
A variable of type `ArchitectureTestResult` that was never assigned holds indeterminate values, which may not be read (undefined).
-/
namespace Verif.AutoSearch
open Verif.ArchTester (Env Prot Result)
open Classical

/-- `NetworkConfig` (auto_arch_search.hpp:29-45). -/
@[ext] structure Config where
  layers : List ℕ
  dropout : ℝ
  residual : Bool
  prot : Prot

/-- `operator==` (auto_arch_search.hpp:48-54). -/
def Config.eqv (a b : Config) : Prop := a.layers = b.layers ∧ |a.dropout - b.dropout| < 1 / 10 ^ 6 ∧ a.residual = b.residual ∧ a.prot = b.prot

/-- `operator<` (auto_arch_search.hpp:57-69). -/
def Config.lt (a b : Config) : Prop :=
  if a.layers ≠ b.layers then a.layers < b.layers
  else if |a.dropout - b.dropout| ≥ 1 / 10 ^ 6 then a.dropout < b.dropout
  else if a.residual ≠ b.residual then a.residual = false ∧ b.residual = true
  else a.prot.toNat < b.prot.toNat

/-- Two keys that a map takes for the same: neither is less. -/
def Config.same (a b : Config) : Prop := ¬ a.lt b ∧ ¬ b.lt a

/-- `std::map<NetworkConfig, ArchitectureTestResult>` (auto_arch_search.hpp:245). -/
abbrev Tested := List (Config × Result)

/-- `find` or `count`. -/
noncomputable def Tested.get (m : Tested) (c : Config) : Option Result :=
  match m with
  | [] => none
  | p :: t => if Config.same p.1 c then some p.2 else Tested.get t c

/-- `operator[]` with assignment: an existing key is kept. -/
noncomputable def Tested.set (m : Tested) (c : Config) (r : Result) : Tested :=
  match m with
  | [] => [(c, r)]
  | p :: t => if Config.same p.1 c then (p.1, r) :: t else p :: Tested.set t c r

/-- The stream of random numbers. -/
structure Rng where
  seq : ℕ → ℝ
  lo : ∀ i, 0 ≤ seq i
  hi : ∀ i, seq i < 1

/-- The stream after one number was taken. -/
def Rng.next (g : Rng) : Rng := ⟨fun i => g.seq (i + 1), fun i => g.lo _, fun i => g.hi _⟩

/-- A uniformly chosen element; from an empty list the index is out of bounds. -/
noncomputable def pick {α : Type} (l : List α) (g : Rng) : Outcome (α × Rng) :=
  match l[⌊g.seq 0 * l.length⌋₊]? with
  | some x => .ok (x, g.next)
  | none => .ub

/-- `AutoArchSearch` (auto_arch_search.hpp:215-250) without the data sets. -/
structure Search where
  env : Env
  widths : List ℕ
  dropouts : List ℝ
  prots : List Prot
  input : ℕ
  output : ℕ
  hidden : ℕ
  residual : Bool
  tested : Tested

/-- Constructor (auto_arch_search.cpp:20-70); no labels: division by zero. -/
noncomputable def Search.new (trainData trainLabels : List ℝ) (env : Env) (widths : List ℕ := [32, 64, 128, 256]) (dropouts : List ℝ := [3 / 10, 4 / 10, 5 / 10, 6 / 10, 7 / 10]) : Outcome Search :=
  if trainLabels.length = 0 then .ub
  else
    let unique := trainLabels.dedup.length
    .ok ⟨env, widths, dropouts, [.none, .checksum, .selective, .full], trainData.length / trainLabels.length,
      if unique > 1 ∧ unique < 100 then unique else 1, 0, true, []⟩

/-- `setProtectionLevels` (auto_arch_search.cpp:338-341). -/
def Search.setProts (s : Search) (l : List Prot) : Search := { s with prots := l }
/-- `setTestResidualConnections` (auto_arch_search.cpp:344-347). -/
def Search.setResidual (s : Search) (b : Bool) : Search := { s with residual := b }
/-- `setFixedParameters` (auto_arch_search.cpp:357-368). -/
def Search.setFixed (s : Search) (input output : ℕ) (hidden : ℕ := 2) : Search := { s with input := input, output := output, hidden := hidden }

/-- `testConfiguration` (auto_arch_search.cpp:442-487). -/
noncomputable def Search.testConfig (s : Search) (draw : BitVec 32 → ℕ → ℝ) (c : Config) (mc : Bool) (trials : ℕ) : Outcome Result :=
  if mc then
    (ArchTester.collect ((List.range trials).map fun i => ArchTester.test draw c.layers c.dropout c.residual c.prot s.env (BitVec.ofNat 32 i))).bind fun l => .ok (ArchTester.stats l)
  else ArchTester.test draw c.layers c.dropout c.residual c.prot s.env 0

/-- `generateLayerSizeCombinations` (auto_arch_search.cpp:683-697): the combinations appended for `current`. -/
def combos (widths : List ℕ) : ℕ → List ℕ → List (List ℕ)
  | 0, current => [current]
  | n + 1, current => widths.flatMap fun w => combos widths n (current ++ [w])

/-- The layer patterns of the grid (auto_arch_search.cpp:624-662). -/
def Search.patterns (s : Search) : List (List ℕ) :=
  if s.hidden = 0 then
    s.widths.map (fun w => [s.input, w, s.output]) ++
      s.widths.flatMap fun w1 => s.widths.flatMap fun w2 => if w1 ≠ w2 then [[s.input, w1, w2, s.output]] else []
  else (combos s.widths s.hidden []).map fun h => s.input :: h ++ [s.output]

/-- `generateAllConfigs` (auto_arch_search.cpp:621-680). -/
def Search.allConfigs (s : Search) : List Config :=
  s.patterns.flatMap fun l => s.dropouts.flatMap fun d => s.prots.flatMap fun p =>
    ⟨l, d, false, p⟩ :: if s.residual = true ∧ l.length ≥ 4 then [⟨l, d, true, p⟩] else []

/-- `SearchResult` (auto_arch_search.hpp:74-85). -/
structure Found where
  config : Config
  base : ℝ
  rad : ℝ
  pres : ℝ
  iterations : ℕ
  baseDev : ℝ
  radDev : ℝ
  presDev : ℝ
  trials : ℕ

/-- The variables of a search: results so far, the best preservation, and the best configuration with its result, if assigned. -/
structure Progress where
  tested : Tested
  bestPres : ℝ
  best : Option (Config × Result)

/-- Before the search (auto_arch_search.cpp:89-91, 156-158, 239-241). -/
noncomputable def Progress.start (s : Search) : Progress := ⟨s.tested, 0, none⟩

/-- "Check if this is the best so far" (auto_arch_search.cpp:101-104, 177-180, 262-265). -/
noncomputable def Progress.consider (p : Progress) (c : Config) (r : Result) : Progress :=
  if r.pres > p.bestPres then { p with bestPres := r.pres, best := some (c, r) } else p

/-- The returned value (auto_arch_search.cpp:140-143, 213-216, 331-334): reads the best result. -/
def Progress.found (p : Progress) (iterations : ℕ) : Outcome Found :=
  match p.best with
  | none => .ub
  | some (c, r) => .ok ⟨c, r.base, r.rad, r.pres, iterations, r.baseDev, r.radDev, r.presDev, r.trials⟩

/-- One configuration of the grid (auto_arch_search.cpp:93-126). -/
noncomputable def Search.gridStep (s : Search) (draw : BitVec 32 → ℕ → ℝ) (mc : Bool) (trials : ℕ) (p : Progress) (c : Config) : Outcome Progress :=
  (s.testConfig draw c mc trials).bind fun r => .ok (Progress.consider { p with tested := Tested.set p.tested c r } c r)

/-- The loop over configurations (auto_arch_search.cpp:93-133). -/
noncomputable def Search.gridLoop (s : Search) (draw : BitVec 32 → ℕ → ℝ) (mc : Bool) (trials : ℕ) : List Config → Progress → Outcome Progress
  | [], p => .ok p
  | c :: t, p => (s.gridStep draw mc trials p c).bind fun q => s.gridLoop draw mc trials t q

/-- `findOptimalArchitecture` (auto_arch_search.cpp:73-144). -/
noncomputable def Search.findOptimal (s : Search) (draw : BitVec 32 → ℕ → ℝ) (mc : Bool := false) (trials : ℕ := 50) : Outcome (Found × Search) :=
  (s.gridLoop draw mc trials s.allConfigs (.start s)).bind fun p =>
    (p.found s.allConfigs.length).bind fun f => .ok (f, { s with tested := p.tested })

/-- The random hidden layers (auto_arch_search.cpp:508-510). -/
noncomputable def randLayers (widths : List ℕ) : ℕ → Rng → Outcome (List ℕ × Rng)
  | 0, g => .ok ([], g)
  | n + 1, g => (pick widths g).bind fun x => (randLayers widths n x.2).bind fun y => .ok (x.1 :: y.1, y.2)

/-- `generateRandomConfig` (auto_arch_search.cpp:490-530). -/
noncomputable def Search.randomConfig (s : Search) (g : Rng) : Outcome (Config × Rng) :=
  (if s.hidden > 0 then .ok (s.hidden, g) else pick [1, 2, 3] g : Outcome (ℕ × Rng)).bind fun n =>
  (randLayers s.widths n.1 n.2).bind fun h =>
  (pick s.dropouts h.2).bind fun d =>
  (if s.residual then pick [false, true] d.2 else .ok (false, d.2) : Outcome (Bool × Rng)).bind fun r =>
  (pick s.prots r.2).bind fun p => .ok (⟨s.input :: h.1 ++ [s.output], d.1, r.1, p.1⟩, p.2)

/-- The state of the random search's loop: `i`, the engine and the progress. -/
structure RandState where
  i : ℕ
  rng : Rng
  prog : Progress

/-- One pass through the loop body and `++i` (auto_arch_search.cpp:160-207).  Skipping a tested configuration decrements `i` first; that it passes below zero and back is not modelled. -/
noncomputable def Search.randStep (s : Search) (draw : BitVec 32 → ℕ → ℝ) (mc : Bool) (trials : ℕ) (st : RandState) : Outcome RandState :=
  (s.randomConfig st.rng).bind fun c =>
    match Tested.get st.prog.tested c.1 with
    | some _ => .ok { st with rng := c.2 }
    | none =>
      (s.testConfig draw c.1 mc trials).bind fun r =>
        .ok ⟨st.i + 1, c.2, Progress.consider { st.prog with tested := Tested.set st.prog.tested c.1 r } c.1 r⟩

/-- The loop after at most `fuel` passes: `none` if it has not finished by then. -/
noncomputable def Search.randLoop (s : Search) (draw : BitVec 32 → ℕ → ℝ) (max : ℕ) (mc : Bool) (trials : ℕ) : ℕ → RandState → Option (Outcome RandState)
  | 0, st => if st.i < max then none else some (.ok st)
  | fuel + 1, st =>
    if st.i < max then
      match s.randStep draw mc trials st with
      | .ub => some .ub
      | .ok st' => s.randLoop draw max mc trials fuel st'
    else some (.ok st)

/-- `randomSearch` (auto_arch_search.cpp:147-217) if its loop finishes within `fuel` passes. -/
noncomputable def Search.randomSearch (s : Search) (draw : BitVec 32 → ℕ → ℝ) (g : Rng) (fuel : ℕ) (max : ℕ := 30) (mc : Bool := false) (trials : ℕ := 50) : Option (Outcome (Found × Search × Rng)) :=
  (s.randLoop draw max mc trials fuel ⟨0, g, .start s⟩).map fun o =>
    o.bind fun st => (st.prog.found max).bind fun f => .ok (f, { s with tested := st.prog.tested }, st.rng)

/-- Mutation of the layers (auto_arch_search.cpp:542-553). -/
noncomputable def Search.mutLayers (s : Search) (l : List ℕ) (rate : ℝ) (g : Rng) : Outcome (List ℕ × Rng) :=
  if g.seq 0 < rate then
    if l.length > 2 then
      let i := 1 + ⌊g.next.seq 0 * (l.length - 2 : ℕ)⌋₊
      (pick s.widths g.next.next).bind fun w => .ok (l.set i w.1, w.2)
    else .ok (l, g.next)
  else .ok (l, g.next)

/-- `mutateConfig` (auto_arch_search.cpp:533-572). -/
noncomputable def Search.mutate (s : Search) (c : Config) (rate : ℝ) (g : Rng) : Outcome (Config × Rng) :=
  (s.mutLayers c.layers rate g).bind fun l =>
  (if l.2.seq 0 < rate then pick s.dropouts l.2.next else .ok (c.dropout, l.2.next) : Outcome (ℝ × Rng)).bind fun d =>
  let r : Bool × Rng := if s.residual then (if d.2.seq 0 < rate then !c.residual else c.residual, d.2.next) else (c.residual, d.2)
  (if r.2.seq 0 < rate then pick s.prots r.2.next else .ok (c.prot, r.2.next) : Outcome (Prot × Rng)).bind fun p =>
  .ok (⟨l.1, d.1, r.1, p.1⟩, p.2)

/-- One of two values (auto_arch_search.cpp:584-586, 604-615). -/
noncomputable def choose {α : Type} (a b : α) (g : Rng) : α × Rng := (if ⌊g.seq 0 * 2⌋₊ = 0 then a else b, g.next)

/-- Hidden layers taken from either parent (auto_arch_search.cpp:593-598). -/
noncomputable def crossLayers : List ℕ → List ℕ → Rng → List ℕ × Rng
  | a :: s, b :: t, g =>
    let x := choose a b g
    let y := crossLayers s t x.2
    (x.1 :: y.1, y.2)
  | _, _, g => ([], g)

/-- `crossoverConfigs` (auto_arch_search.cpp:575-618); `size() - 1` of an empty list of layers, which would run out of bounds, does not occur. -/
noncomputable def Search.cross (s : Search) (a b : Config) (g : Rng) : Config × Rng :=
  let l := if a.layers.length ≠ b.layers.length then choose a.layers b.layers g
    else
      let h := crossLayers (a.layers.tail.dropLast) (b.layers.tail.dropLast) g
      (s.input :: h.1 ++ [s.output], h.2)
  let d := choose a.dropout b.dropout l.2
  let r := choose a.residual b.residual d.2
  let p := choose a.prot b.prot r.2
  (⟨l.1, d.1, r.1, p.1⟩, p.2)

/-- Fitness of one individual (auto_arch_search.cpp:249-266): tested unless already in the map. -/
noncomputable def Search.evalOne (s : Search) (draw : BitVec 32 → ℕ → ℝ) (mc : Bool) (trials : ℕ) (p : Progress) (c : Config) : Outcome (ℝ × Progress) :=
  match Tested.get p.tested c with
  | some r => .ok (r.pres, p.consider c r)
  | none => (s.testConfig draw c mc trials).bind fun r => .ok (r.pres, Progress.consider { p with tested := Tested.set p.tested c r } c r)

/-- Fitness of the population (auto_arch_search.cpp:247-289). -/
noncomputable def Search.evalAll (s : Search) (draw : BitVec 32 → ℕ → ℝ) (mc : Bool) (trials : ℕ) : List Config → Progress → Outcome (List ℝ × Progress)
  | [], p => .ok ([], p)
  | c :: t, p => (s.evalOne draw mc trials p c).bind fun x => (s.evalAll draw mc trials t x.2).bind fun y => .ok (x.1 :: y.1, y.2)

/-- `std::max_element` on the fitness values: index of the first highest (auto_arch_search.cpp:295-296). -/
noncomputable def maxIdx : List ℝ → ℕ
  | [] => 0
  | [_] => 0
  | x :: y :: t => let j := maxIdx (y :: t); if x < (y :: t).getD j 0 then j + 1 else 0

/-- Tournament of two (auto_arch_search.cpp:302-311): an index into the population. -/
noncomputable def tournament (fitness : List ℝ) (n : ℕ) (g : Rng) : ℕ × Rng :=
  let i := ⌊g.seq 0 * n⌋₊
  let j := ⌊g.next.seq 0 * n⌋₊
  (if fitness.getD i 0 > fitness.getD j 0 then i else j, g.next.next)

/-- The children (auto_arch_search.cpp:300-322). -/
noncomputable def Search.children (s : Search) (pop : List Config) (fitness : List ℝ) (rate : ℝ) : ℕ → Rng → Outcome (List Config × Rng)
  | 0, g => .ok ([], g)
  | n + 1, g =>
    let i := tournament fitness pop.length g
    let j := tournament fitness pop.length i.2
    match pop[i.1]?, pop[j.1]? with
    | some a, some b =>
      let c := s.cross a b j.2
      (s.mutate c.1 rate c.2).bind fun m => (s.children pop fitness rate n m.2).bind fun r => .ok (m.1 :: r.1, r.2)
    | _, _ => .ub

/-- One generation (auto_arch_search.cpp:244-328): the best of an empty population is out of bounds. -/
noncomputable def Search.generation (s : Search) (draw : BitVec 32 → ℕ → ℝ) (size : ℕ) (rate : ℝ) (mc : Bool) (trials : ℕ) (pop : List Config) (p : Progress) (g : Rng) : Outcome (List Config × Progress × Rng) :=
  (s.evalAll draw mc trials pop p).bind fun e =>
    match pop[maxIdx e.1]? with
    | none => .ub
    | some best => (s.children pop e.1 rate (size - 1) g).bind fun c => .ok (best :: c.1, e.2, c.2)

/-- The generations (auto_arch_search.cpp:244-328). -/
noncomputable def Search.evolve (s : Search) (draw : BitVec 32 → ℕ → ℝ) (size : ℕ) (rate : ℝ) (mc : Bool) (trials : ℕ) : ℕ → List Config → Progress → Rng → Outcome (List Config × Progress × Rng)
  | 0, pop, p, g => .ok (pop, p, g)
  | n + 1, pop, p, g => (s.generation draw size rate mc trials pop p g).bind fun x => s.evolve draw size rate mc trials n x.1 x.2.1 x.2.2

/-- The first population (auto_arch_search.cpp:235-237). -/
noncomputable def Search.population (s : Search) : ℕ → Rng → Outcome (List Config × Rng)
  | 0, g => .ok ([], g)
  | n + 1, g => (s.randomConfig g).bind fun c => (s.population n c.2).bind fun r => .ok (c.1 :: r.1, r.2)

/-- `evolutionarySearch` (auto_arch_search.cpp:220-335). -/
noncomputable def Search.evolutionary (s : Search) (draw : BitVec 32 → ℕ → ℝ) (g : Rng) (size : ℕ := 10) (generations : ℕ := 10) (rate : ℝ := 1 / 10) (mc : Bool := false) (trials : ℕ := 50) : Outcome (Found × Search × Rng) :=
  (s.population size g).bind fun p0 =>
  (s.evolve draw size rate mc trials generations p0.1 (.start s) p0.2).bind fun x =>
  (x.2.1.found (generations * size)).bind fun f => .ok (f, { s with tested := x.2.1.tested }, x.2.2)

/-- `exportResults` (auto_arch_search.cpp:371-439): one row per entry. -/
def Search.exported (s : Search) : List (Config × Result) := s.tested

end Verif.AutoSearch
