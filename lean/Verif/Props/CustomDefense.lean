import Verif.Model.CustomDefense
import Verif.Props.PhysicsSystem
import Mathlib.Tactic
/-!
Properties of the custom defense interface: C233 configurations for environments, C234 registration of strategies, C235 the strategy a system uses,
C236 what a system wraps values and networks with, C237 the bit interleaving example, C238 hardened networks.
-/
namespace Verif.CustomDefense

open Verif.PhysicsSim (Place)

variable {ε σ α : Type}

/-! ### C233 -/

/-- **C233.** `forEnvironment` selects hybrid protection of everything for Jupiter, approximate selective protection for the South Atlantic Anomaly and
Mars, enhanced adaptive protection otherwise; the environment is the one asked for and all other settings are the defaults. -/
theorem C233_config (create : Place → ε) (p : Place) :
    (((forEnvironment create p).strategy, (forEnvironment create p).level) =
      if p = .jupiter then (.multi, .fullTmr) else if p = .saa ∨ p = .mars then (.spaceTmr, .selectiveTmr) else (.enhancedTmr, .adaptiveTmr)) ∧
    (forEnvironment create p).env = create p ∧ (forEnvironment create p).weights = true ∧ (forEnvironment create p).activations = true ∧
    (forEnvironment create p).gradients = false ∧ (forEnvironment create p).useHw = false ∧ (∀ k, (forEnvironment create p).params k = none) ∧
    (forEnvironment create p).monitoring = true ∧ (forEnvironment create p).statistics = true := by
  cases p <;> simp [forEnvironment]

/-- **C233, violated.** "Harsh environments need stronger protection": the harshest environment, the solar flare and deep space get what the surface of
the Earth gets, although each has a higher radiation level and bit error rate than the South Atlantic Anomaly and Mars, and the first more
than Jupiter. -/
theorem C233_harsh_violated (create : Place → ε) :
    (∀ p, p ∈ [Place.extreme, .solarFlare, .deepSpace] →
      ((forEnvironment create p).strategy, (forEnvironment create p).level) = ((forEnvironment create .earth).strategy, (forEnvironment create .earth).level) ∧
      (∀ q, q ∈ [Place.saa, .mars] → PhysicsSim.level q < PhysicsSim.level p ∧ PhysicsSim.bitErrorRate q < PhysicsSim.bitErrorRate p ∧ (forEnvironment create q).strategy = .spaceTmr)) ∧
    PhysicsSim.level .jupiter < PhysicsSim.level .extreme ∧ PhysicsSim.bitErrorRate .jupiter < PhysicsSim.bitErrorRate .extreme ∧ (forEnvironment create .jupiter).strategy = .multi := by
  refine ⟨?_, ?_, ?_, rfl⟩
  · intro p hp
    fin_cases hp
    all_goals refine ⟨rfl, ?_⟩
    all_goals intro q hq
    all_goals fin_cases hq
    all_goals refine ⟨?_, ?_, rfl⟩
    all_goals norm_num [PhysicsSim.level, PhysicsSim.bitErrorRate]
  · norm_num [PhysicsSim.level]
  · norm_num [PhysicsSim.bitErrorRate]

/-! ### C234 -/

/-- The registrations in a history, in order. -/
def registrations : List (Op ε σ) → List (String × Creator ε σ)
  | [] => []
  | .register n c :: l => (n, c) :: registrations l
  | _ :: l => registrations l

theorem registrations_append (a b : List (Op ε σ)) : registrations (a ++ b) = registrations a ++ registrations b := by
  induction a with
  | nil => rfl
  | cons o a ih => cases o <;> simp [registrations, ih]

theorem find_nil (n : String) : Factory.find ([] : Factory ε σ) n = none := rfl

theorem find_append (f : Factory ε σ) (n m : String) (c : Creator ε σ) : Factory.find (f ++ [(m, c)]) n = (f.find n).or (if m = n then some c else none) := by
  unfold Factory.find
  rw [List.find?_append]
  cases h : List.find? (fun e => decide (e.1 = n)) f with
  | some e => simp
  | none => by_cases hm : m = n <;> simp [hm]

/-- The factory after any history finds the first creator registered under a name. -/
theorem run_find (available : ℕ → Bool) (told : σ → ε → σ) (ops : List (Op ε σ)) (n : String) :
    (run available told ops).1.find n = ((registrations ops).find? fun e => e.1 = n).map Prod.snd := by
  induction ops using List.reverseRecOn with
  | nil => rfl
  | append_singleton ops o ih =>
    rw [run, List.foldl_append, registrations_append, List.find?_append]
    change ((step available told (run available told ops) o).1).find n = _
    cases o with
    | register m c =>
      simp only [step, Factory.register, registrations]
      cases hm : (run available told ops).1.find m with
      | some c' =>
        simp only
        by_cases h : m = n
        · subst h
          rw [hm] at ih ⊢
          cases hf : (registrations ops).find? (fun e => e.1 = m) with
          | none => rw [hf] at ih; exact absurd ih (by simp)
          | some e => rw [hf] at ih; simpa using ih
        · rw [ih]
          have : List.find? (fun e : String × Creator ε σ => decide (e.1 = n)) [(m, c)] = none := by simp [h]
          rw [this, Option.or_none]
      | none =>
        simp only
        rw [find_append, ih]
        cases hf : (registrations ops).find? (fun e => e.1 = n) with
        | some e => simp
        | none => by_cases h : m = n <;> simp [h]
    | build cfg => simp [step, registrations, ih]
    | update e => simp [step, registrations, ih]

/-- **C234.** After every history of registrations, constructions and updates: a registration succeeds exactly if the name has not been registered
before, then the factory creates objects of that name with it, and whether or not it succeeds, every other name and every name registered
before keeps its creator; an unknown name gives a null pointer. -/
theorem C234_register (available : ℕ → Bool) (told : σ → ε → σ) (ops : List (Op ε σ)) (n : String) (c : Creator ε σ) (cfg : Config ε) :
    (((run available told ops).1.register n c).1 = true ↔ ∀ c', (n, c') ∉ registrations ops) ∧
    (((run available told ops).1.register n c).1 = true → ((run available told ops).1.register n c).2.create n cfg = c cfg) ∧
    (((run available told ops).1.register n c).1 = false → ∀ m, ((run available told ops).1.register n c).2.create m cfg = (run available told ops).1.create m cfg) ∧
    (∀ m, m ≠ n → ((run available told ops).1.register n c).2.create m cfg = (run available told ops).1.create m cfg) ∧
    ((∀ c', (n, c') ∉ registrations ops) → (run available told ops).1.create n cfg = none) ∧
    (∀ before after c', ops = before ++ .register n c' :: after → (∀ d, (n, d) ∉ registrations before) → (run available told ops).1.create n cfg = c' cfg) := by
  have hnone : (run available told ops).1.find n = none ↔ ∀ c', (n, c') ∉ registrations ops := by
    rw [run_find, Option.map_eq_none_iff, List.find?_eq_none]
    constructor
    · intro h c' hc; exact h _ hc (by simp)
    · rintro h ⟨a, b⟩ hc
      simp only [decide_eq_true_eq]
      rintro rfl
      exact h b hc
  refine ⟨?_, ?_, ?_, ?_, ?_, ?_⟩
  · rw [← hnone]
    unfold Factory.register
    cases (run available told ops).1.find n <;> simp
  · unfold Factory.register
    cases h : (run available told ops).1.find n with
    | some _ => simp
    | none => simp [Factory.create, find_append, h]
  · unfold Factory.register
    cases h : (run available told ops).1.find n with
    | some _ => simp
    | none => simp
  · intro m hm
    unfold Factory.register
    cases h : (run available told ops).1.find n with
    | some _ => rfl
    | none =>
      simp only [Factory.create, find_append, if_neg (Ne.symm hm), Option.or_none]
  · intro h
    rw [← hnone] at h
    simp [Factory.create, h]
  · rintro before after c' rfl hb
    have : (run available told (before ++ .register n c' :: after)).1.find n = some c' := by
      rw [run_find, registrations_append, List.find?_append]
      have hb' : (registrations before).find? (fun e => e.1 = n) = none := by
        rw [List.find?_eq_none]
        rintro ⟨a, b⟩ hc
        simp only [decide_eq_true_eq]
        rintro rfl
        exact hb b hc
      rw [hb']
      simp [registrations]
    simp [Factory.create, this]

example : ((run (fun _ => false) (fun (s : ℕ) (_ : Unit) => s) [.register "a" fun _ => some 1]).1.register "a" fun _ => some 2).1 = false := by decide

/-! ### C235 -/

/-- **C235.** The strategy of a new system: with `CUSTOM`, the object the registered creator of the given name makes from the configuration, and
physics-driven protection for the configured environment if no name is given, the name is not registered, or the creator returns a null pointer. -/
theorem C235_custom (f : Factory ε σ) (available : ℕ → Bool) (cfg : Config ε) (hc : cfg.strategy = .custom) :
    (∀ n s, cfg.params "name" = some n → f.create n cfg = some s → (System.new f available cfg).prot = .user s) ∧
    (cfg.params "name" = none → (System.new f available cfg).prot = .physics cfg.env) ∧
    (∀ n, cfg.params "name" = some n → f.create n cfg = none → (System.new f available cfg).prot = .physics cfg.env) := by
  refine ⟨?_, ?_, ?_⟩
  · intro n s hn hs
    simp [System.new, initProt, hc, hn, hs]
  · intro hn
    simp [System.new, initProt, hc, hn]
  · intro n hn hs
    simp [System.new, initProt, hc, hn, hs]

/-- **C235, violated.** All eight other strategies are one: whatever the configuration asks for — standard, enhanced or space-optimized redundancy,
Reed-Solomon, adaptive, hardware or several layers — functions run with physics-driven protection. -/
theorem C235_same_violated (f : Factory ε σ) (available : ℕ → Bool) (cfg : Config ε) (hc : cfg.strategy ≠ .custom) :
    (System.new f available cfg).prot = .physics cfg.env := by
  unfold System.new initProt
  cases h : cfg.strategy <;> simp_all

/-- What the object is after the environment changed. -/
def tell (told : σ → ε → σ) : Object ε σ → List ε → Object ε σ
  | .physics e, es => .physics (es.getLast?.getD e)
  | .user s, es => .user (es.foldl told s)

/-- The updates at the end of a history, after its last construction, in order. -/
def updatesOf : List (Op ε σ) → List ε
  | [] => []
  | .update e :: l => e :: updatesOf l
  | _ :: l => updatesOf l

theorem updatesOf_append (a b : List (Op ε σ)) : updatesOf (a ++ b) = updatesOf a ++ updatesOf b := by
  induction a with
  | nil => rfl
  | cons o a ih => cases o <;> simp [updatesOf, ih]

/-- **C235 (environment).** After any history that constructs a system and then registers strategies and changes the environment in any order: the
configuration holds the latest environment, physics-driven protection was told it, a user's object was told every environment in order; the
registrations after the construction have no effect on the system, nor does anything change its other settings. -/
theorem C235_environment (available : ℕ → Bool) (told : σ → ε → σ) (before after : List (Op ε σ)) (cfg : Config ε)
    (ha : ∀ o ∈ after, ∀ c, o ≠ .build c) :
    ∃ s, (run available told (before ++ .build cfg :: after)).2 = some s ∧
      s.config = { cfg with env := (updatesOf after).getLast?.getD cfg.env } ∧
      s.prot = tell told (initProt (run available told before).1 cfg) (updatesOf after) ∧
      s.hw = (cfg.useHw && available cfg.accel) := by
  induction after using List.reverseRecOn with
  | nil =>
    refine ⟨System.new (run available told before).1 available cfg, ?_, rfl, ?_, rfl⟩
    · rw [run, List.foldl_append]; rfl
    · simp only [updatesOf, System.new]
      cases initProt (run available told before).1 cfg <;> rfl
  | append_singleton l o ih =>
    obtain ⟨s, h1, h2, h3, h4⟩ := ih fun o' ho' => ha o' (by simp [ho'])
    have hr : run available told (before ++ .build cfg :: (l ++ [o])) = step available told (run available told (before ++ .build cfg :: l)) o := by
      rw [show before ++ Op.build cfg :: (l ++ [o]) = (before ++ Op.build cfg :: l) ++ [o] by simp, run, List.foldl_append]; rfl
    rw [hr]
    cases o with
    | register n c =>
      refine ⟨s, h1, ?_, ?_, h4⟩
      · rw [h2, updatesOf_append]; simp [updatesOf]
      · rw [h3, updatesOf_append]; simp [updatesOf]
    | build c => exact absurd rfl (ha _ (by simp) c)
    | update e =>
      refine ⟨s.update told e, ?_, ?_, ?_, h4⟩
      · simp [step, h1]
      · rw [updatesOf_append]
        simp [System.update, h2, updatesOf]
      · rw [updatesOf_append]
        simp only [System.update, h3, updatesOf]
        cases initProt (run available told before).1 cfg <;> simp [tell]

example : ∃ s, (run (fun _ => true) (fun (s : ℕ) (e : ℕ) => s + e) [.register "x" fun _ => some 5, .build { strategy := .custom, env := 0, params := fun _ => some "x" }, .update 3, .update 4]).2 = some s ∧ s.prot = .user 12 :=
  ⟨_, rfl, rfl⟩

/-- **C235 (late registration), limit.** A strategy registered only after the system was built is not used by it. -/
theorem C235_late_limit (available : ℕ → Bool) (told : σ → ε → σ) (n : String) (c : Creator ε σ) (cfg : Config ε) :
    ((run available told [.build cfg, .register n c]).2.map fun s => s.prot) = some (.physics cfg.env) := by
  simp only [run, List.foldl, step, Option.map_some, System.new, initProt]
  cases cfg.strategy <;> simp
  cases cfg.params "name" <;> simp [Factory.create, find_nil]

/-! ### C236 -/

/-- **C236.** Values are wrapped in standard redundancy with `STANDARD_TMR`, in hybrid redundancy with `MULTI_LAYERED`, in approximate redundancy with
`SPACE_OPTIMIZED_TMR` if they are of a floating point type, and in enhanced redundancy otherwise; networks get the configured level and switches, and
adaptive protection for the current environment exactly with `ADAPTIVE_PROTECTION`. -/
theorem C236_wrap (s : System ε σ) (isFloat : Bool) (arch : List ℕ) :
    (s.wrapper isFloat = .standard ↔ s.config.strategy = .standardTmr) ∧
    (s.wrapper isFloat = .hybrid ↔ s.config.strategy = .multi) ∧
    (s.wrapper isFloat = .approximate ↔ s.config.strategy = .spaceTmr ∧ isFloat = true) ∧
    (s.network arch).architecture = arch ∧ (s.network arch).level = s.config.level ∧
    ((s.network arch).weights, (s.network arch).activations, (s.network arch).gradients) = (s.config.weights, s.config.activations, s.config.gradients) ∧
    (∀ e, (s.network arch).adaptive = some e ↔ s.config.strategy = .adaptive ∧ e = s.config.env) := by
  refine ⟨?_, ?_, ?_, rfl, rfl, rfl, ?_⟩
  · unfold System.wrapper; cases s.config.strategy <;> cases isFloat <;> simp
  · unfold System.wrapper; cases s.config.strategy <;> cases isFloat <;> simp
  · unfold System.wrapper; cases s.config.strategy <;> cases isFloat <;> simp
  · intro e
    unfold System.network
    by_cases h : s.config.strategy = .adaptive <;> simp [h, eq_comm]

/-- **C236, violated.** Reed-Solomon, adaptive, physics-driven, hardware and custom protection of a value are all enhanced redundancy: also a system
that runs functions with a user's strategy does not use it for values. -/
theorem C236_ignored_violated (f : Factory ε σ) (available : ℕ → Bool) (cfg : Config ε) (isFloat : Bool)
    (h : cfg.strategy ∈ [Strategy.reedSolomon, .adaptive, .physics, .hardware, .custom]) : (System.new f available cfg).wrapper isFloat = .enhanced := by
  unfold System.new System.wrapper
  cases hs : cfg.strategy <;> simp_all

/-- **C236 (accelerator).** A system uses an accelerator exactly if it is asked to and one is available, and this never changes; with
`HARDWARE_ACCELERATED` alone it does not. -/
theorem C236_accelerator (f : Factory ε σ) (available : ℕ → Bool) (told : σ → ε → σ) (cfg : Config ε) (es : List ε) :
    ((es.foldl (fun s e => s.update told e) (System.new f available cfg)).hw = true ↔ cfg.useHw = true ∧ available cfg.accel = true) := by
  have : ∀ (es : List ε) (s : System ε σ), (es.foldl (fun s e => s.update told e) s).hw = s.hw := by
    intro es
    induction es with
    | nil => exact fun _ => rfl
    | cons e es ih => intro s; rw [List.foldl_cons, ih]; rfl
  rw [this]
  simp [System.new]

example : ((System.new ([] : Factory ℕ ℕ) (fun _ => true) { strategy := .hardware, env := 0 }).hw = false) := rfl

/-! ### C237 -/

/-- **C237, violated.** "Bit interleaving": for every factor and every value, `protect` returns the value as it is and reports that nothing was
detected and nothing corrected. -/
theorem C237_nothing_violated {τ : Type} (factor : ℕ) (v : τ) : (protect factor v).value = v ∧ (protect factor v).detected = false ∧ (protect factor v).corrected = false :=
  ⟨rfl, rfl, rfl⟩

/-- **C237.** The factor of a new object is 8 without, and the number given with the parameter; the constructor throws exactly if the parameter is no number. -/
theorem C237_factor (stoi : String → Option Int) (cfg : Config ε) :
    (cfg.params "interleave_factor" = none → interleaving stoi cfg = some 8) ∧
    (∀ t (n : ℕ), cfg.params "interleave_factor" = some t → stoi t = some n → n < 2 ^ 64 → interleaving stoi cfg = some n) ∧
    (∀ t, cfg.params "interleave_factor" = some t → (interleaving stoi cfg = none ↔ stoi t = none)) := by
  refine ⟨?_, ?_, ?_⟩
  · intro h; simp [interleaving, h]
  · intro t n h hs hn
    simp only [interleaving, h, hs]
    refine congrArg some ?_
    beta_reduce
    omega
  · intro t h; simp [interleaving, h]

example : interleaving (fun _ => some 16) { env := (), params := fun _ => some "16" } = some 16 := by decide

/-- **C237, violated: configured factor.** The configured factor is lost with the first change of the environment: from then on it is 16 in a harsh
environment and 8 in every other, for every sequence of environments. -/
theorem C237_lost_violated (harsh : ε → Bool) (factor : ℕ) (es : List ε) (e : ε) :
    (es ++ [e]).foldl (interleavingTold harsh) factor = if harsh e then 16 else 8 := by
  rw [List.foldl_append]; rfl

/-- **C237, violated: negative factor.** A negative parameter is accepted and gives a factor of more than `2^63`. -/
theorem C237_negative_violated (stoi : String → Option Int) (cfg : Config ε) (t : String) (n : ℕ) (h0 : 0 < n) (hn : n ≤ 2 ^ 31)
    (hp : cfg.params "interleave_factor" = some t) (hs : stoi t = some (-(n : Int))) : interleaving stoi cfg = some (2 ^ 64 - n) := by
  simp only [interleaving, hp, hs, Option.map_some, Option.some.injEq]
  omega

example : interleaving (fun _ => some (-3)) { env := (), params := fun _ => some "-3" } = some (2 ^ 64 - 3) :=
  C237_negative_violated _ _ "-3" 3 (by norm_num) (by norm_num) rfl rfl

/-! ### C238 -/

/-- The sum of the first products in the network's order. -/
def sumProducts (A : Arith α) (x : List α) : α := x.foldl (fun s a => A.add s (A.mul a A.tenth)) A.zero

/-- What every hidden neuron and every output of a new network computes. -/
def hiddenValue (A : Arith α) (x : List α) : α := A.relu (A.add (sumProducts A x) A.zero)
def outputValue (A : Arith α) (h : ℕ) (v : α) : α := A.add (sumProducts A (List.replicate h v)) A.zero

theorem dot_replicate (A : Arith α) (x : List α) (stride i m n : ℕ) (hn : n ≤ x.length) (hi : i < stride) (hm : n ≤ m) :
    dot A x (List.replicate (m * stride) A.tenth) stride i n = .ok (sumProducts A (x.take n)) := by
  induction n with
  | zero => simp [dot, sumProducts]
  | succ n ih =>
    rw [dot, ih (by omega) (by omega)]
    have hx : x[n]? = some x[n] := List.getElem?_eq_getElem (by omega)
    have hw : (List.replicate (m * stride) A.tenth)[n * stride + i]? = some A.tenth := by
      rw [List.getElem?_replicate, if_pos]
      calc n * stride + i < n * stride + stride := by omega
        _ = (n + 1) * stride := by ring
        _ ≤ m * stride := Nat.mul_le_mul_right _ hm
    have e : x.take (n + 1) = x.take n ++ [x[n]] := (List.take_concat_get' x n (by omega)).symm
    simp only [Outcome.bind, at?, hx, hw, e, sumProducts, List.foldl_append, List.foldl_cons, List.foldl_nil]

theorem layer_replicate (one : ℕ → Outcome α) (n : ℕ) (v : α) (h : ∀ i < n, one i = .ok v) : layer one n = .ok (List.replicate n v) := by
  induction n with
  | zero => rfl
  | succ n ih =>
    rw [layer, ih fun i hi => h i (by omega), h n (by omega)]
    simp [Outcome.bind, List.replicate_succ']

/-- **C238.** A new `SimpleNN` on at least as many values as it has inputs returns as many numbers as it has outputs, and all are the same: the
rectified sum of the first `i` inputs times 0.1, repeated for every hidden neuron, summed with weights 0.1 again; more values are ignored. This
holds for every arithmetic of `float`. -/
theorem C238_simple (A : Arith α) (i h o : ℕ) (x : List α) (hx : i ≤ x.length) :
    (Simple.new A i h o).forward A x = .ok (List.replicate o (outputValue A h (hiddenValue A (x.take i)))) := by
  unfold Simple.forward
  have h1 : layer (fun k => (dot A x (Simple.new A i h o).w1 (Simple.new A i h o).hidden k (Simple.new A i h o).inputs).bind fun s =>
      (at? (Simple.new A i h o).b1 k).bind fun b => .ok (A.relu (A.add s b))) (Simple.new A i h o).hidden = .ok (List.replicate h (hiddenValue A (x.take i))) := by
    apply layer_replicate
    intro k hk
    simp only [Simple.new] at hk ⊢
    rw [dot_replicate A x h k i i hx hk le_rfl]
    simp only [Outcome.bind, at?, List.getElem?_replicate, if_pos hk, hiddenValue]
  rw [h1]
  simp only [Outcome.bind]
  apply layer_replicate
  intro k hk
  simp only [Simple.new] at hk ⊢
  rw [dot_replicate A (List.replicate h (hiddenValue A (x.take i))) o k h h (by simp) hk le_rfl]
  simp only [at?, List.getElem?_replicate, if_pos hk, outputValue]
  rw [List.take_of_length_le (by simp)]

/-- The arithmetic of the integers, as an example. -/
def intArith : Arith ℤ := ⟨(· + ·), (· * ·), max 0, 0, 1⟩

example : (Simple.new intArith 2 3 2).forward intArith [5, -1, 100] = .ok [12, 12] := by decide

theorem dot_short (A : Arith α) (x w : List α) (stride i n : ℕ) (h : x.length < n) : dot A x w stride i n = .ub := by
  induction n with
  | zero => omega
  | succ n ih =>
    rw [dot]
    by_cases hn : x.length < n
    · rw [ih hn]; rfl
    · have : x[n]? = none := by simp; omega
      cases dot A x w stride i n <;> simp [Outcome.bind, at?, this]

theorem layer_ub (one : ℕ → Outcome α) (n : ℕ) (hn : 0 < n) (h : ∀ k, one k = .ub) : layer one n = .ub := by
  induction n with
  | zero => omega
  | succ n ih =>
    rw [layer]
    cases layer one n <;> simp [Outcome.bind, h]

/-- **C238, violated: short input.** Fewer values than inputs are not rejected: whatever the weights, the network with at least one hidden neuron reads
behind the end of its input, which is undefined. -/
theorem C238_short_violated (A : Arith α) (net : Simple α) (x : List α) (hx : x.length < net.inputs) (hh : 0 < net.hidden) : net.forward A x = .ub := by
  unfold Simple.forward
  rw [layer_ub _ _ hh]
  · rfl
  · intro k
    rw [dot_short A x net.w1 net.hidden k net.inputs hx]; rfl

example : (Simple.new intArith 3 1 1).forward intArith [1, 2] = .ub := C238_short_violated _ _ _ (by decide) (by decide)

/-- How the objects execute a function: physics-driven protection in a state `p`, which was built for any number of layers and has seen any
history, for any layer index (tmr/physics_driven_protection.hpp:528-574); a user's object as it likes. -/
noncomputable def runObject {β : Type} (user : σ → (ℕ → β) → Outcome β) (eq : β → β → Bool) (stuck : β → Bool) (fix : β → β → β → β) (p : Phys.PDP) (i : Int) (c : ℚ) :
    Object ε σ → (ℕ → β) → Outcome β
  | .physics _, op => (p.execute eq (fun _ => some 0) stuck fix i op c).bind fun t => .ok t.value
  | .user u, op => user u op

/-- **C238 (hardened network).** With every strategy but a custom one, in every state the protection can reach, a hardened network returns what the network itself
returns, for every network and every input on which its result equals itself. -/
theorem C238_hardened {β ι : Type} (user : σ → (ℕ → β) → Outcome β) (eq : β → β → Bool) (stuck : β → Bool) (fix : β → β → β → β) (n : ℕ) (p : Phys.PDP)
    (hp : Verif.Props.PhysP.Reach n p) (i : Int) (c : ℚ) (f : Factory ε σ) (available : ℕ → Bool) (cfg : Config ε) (hc : cfg.strategy ≠ .custom) (forward : ι → β) (x : ι)
    (hx : eq (forward x) (forward x) = true) :
    hardenedForward (runObject user eq stuck fix p i c) (System.new f available cfg) forward x = .ok (forward x) := by
  obtain ⟨t, h1, h2⟩ := Verif.Props.PhysP.execute_clean eq stuck fix n p hp i (forward x) c hx
  simp only [hardenedForward, C235_same_violated f available cfg hc, runObject, h1, Outcome.bind, h2]

/-- **C238, violated: weights.** The redundancy repeats the computation, not the weights: a network of which one weight was hit returns the result of the hit
weights, which is not what the undamaged network returns, in every state and with every strategy but a custom one (shown in exact arithmetic with
initial weights 1). -/
theorem C238_weights_violated (user : σ → (ℕ → Outcome (List ℤ)) → Outcome (Outcome (List ℤ))) (eq : Outcome (List ℤ) → Outcome (List ℤ) → Bool) (heq : ∀ a, eq a a = true)
    (stuck : Outcome (List ℤ) → Bool) (fix : Outcome (List ℤ) → Outcome (List ℤ) → Outcome (List ℤ) → Outcome (List ℤ))
    (n : ℕ) (p : Phys.PDP) (hp : Verif.Props.PhysP.Reach n p) (i : Int) (c : ℚ) (f : Factory ε σ) (available : ℕ → Bool) (cfg : Config ε) (hc : cfg.strategy ≠ .custom) :
    ∃ good hit : Simple ℤ, good = Simple.new intArith 2 2 1 ∧ hit = { good with w1 := good.w1.set 0 (1 + 2 ^ 20) } ∧
      good.forward intArith [1, 1] = .ok [4] ∧
      hardenedForward (runObject user eq stuck fix p i c) (System.new f available cfg) (hit.forward intArith) [1, 1] = .ok (.ok [4 + 2 ^ 20]) := by
  refine ⟨_, _, rfl, rfl, by decide, ?_⟩
  rw [C238_hardened user eq stuck fix n p hp i c f available cfg hc _ _ (heq _)]
  decide

end Verif.CustomDefense
