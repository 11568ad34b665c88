import Verif.Model.Loop
import Verif.Model.PhysicsSim
/-!
The custom defense interface: /repo/include/rad_ml/api/custom_defense_api.hpp and custom_defense_api.cpp.

Neither file is part of a build target, and the header names entities that exist nowhere (`sim::createEnvironment`,
`sim::Environment::SOLAR_STORM`, `hw::HardwareAccelerator::is_available`) or are of another shape (two different types `RadiationEnvironment`, the
arguments of `PhysicsDrivenProtection`, one `auto` for several return types).  The model follows the text: `ε` is the type of radiation environments,
`σ` the type of user-defined strategies with what happens to them when the environment changes, and objects made by the library are
named by their kind and the environments they were told.
-/
namespace Verif.CustomDefense

open Verif.PhysicsSim (Place)

/-- `DefenseStrategy` (custom_defense_api.hpp:25-35). -/
inductive Strategy where
  | standardTmr | enhancedTmr | spaceTmr | reedSolomon | adaptive | physics | hardware | multi | custom
  deriving DecidableEq, Repr

/-- `neural::ProtectionLevel` (neural/protected_neural_network.hpp:77-84). -/
inductive Level where
  | none | checksumOnly | selectiveTmr | fullTmr | adaptiveTmr | spaceOptimized
  deriving DecidableEq, Repr

/-- `DefenseConfig` (custom_defense_api.hpp:40-60); the map of custom parameters is used by lookup only. -/
structure Config (ε : Type) where
  strategy : Strategy := .enhancedTmr
  env : ε
  level : Level := .adaptiveTmr
  weights : Bool := true
  activations : Bool := true
  gradients : Bool := false
  useHw : Bool := false
  accel : ℕ := 0
  params : String → Option String := fun _ => none
  monitoring : Bool := true
  statistics : Bool := true

/-- `DefenseConfig::forEnvironment` (custom_defense_api.hpp:63-92); `create` is `sim::createEnvironment`. `SOLAR_STORM` is no enumerator, so that
case is left out. -/
def forEnvironment {ε : Type} (create : Place → ε) (p : Place) : Config ε :=
  match p with
  | .jupiter => { env := create p, strategy := .multi, level := .fullTmr }
  | .saa | .mars => { env := create p, strategy := .spaceTmr, level := .selectiveTmr }
  | _ => { env := create p, strategy := .enhancedTmr, level := .adaptiveTmr }

variable {ε σ : Type}

/-- `CreatorFunction` (custom_defense_api.hpp:100-101); the result may be a null pointer. -/
abbrev Creator (ε σ : Type) := Config ε → Option σ

/-- `DefenseFactory` (custom_defense_api.hpp:125). -/
abbrev Factory (ε σ : Type) := List (String × Creator ε σ)

/-- `find` in the factory's map (custom_defense_api.hpp:117). -/
def Factory.find (f : Factory ε σ) (name : String) : Option (Creator ε σ) := (List.find? (fun e => e.1 = name) f).map Prod.snd

/-- `registerStrategy` (custom_defense_api.hpp:109-112): `emplace` keeps what is there. -/
def Factory.register (f : Factory ε σ) (name : String) (c : Creator ε σ) : Bool × Factory ε σ :=
  match f.find name with
  | some _ => (false, f)
  | none => (true, f ++ [(name, c)])

/-- `createStrategy` (custom_defense_api.hpp:114-122). -/
def Factory.create (f : Factory ε σ) (name : String) (cfg : Config ε) : Option σ :=
  match f.find name with
  | some c => c cfg
  | none => none

/-- The objects `protection_strategy_` can point to (custom_defense_api.hpp:261-295): a `PhysicsDrivenProtection` of the fixed material with the
environment it was told last, or an object of the user. -/
inductive Object (ε σ : Type) where
  | physics (env : ε)
  | user (s : σ)

/-- `UnifiedDefenseSystem` (custom_defense_api.hpp:256-258); `hw` tells whether an accelerator is in use. -/
structure System (ε σ : Type) where
  config : Config ε
  prot : Object ε σ
  hw : Bool

/-- `initializeProtectionStrategy` (custom_defense_api.hpp:261-295). -/
def initProt (f : Factory ε σ) (cfg : Config ε) : Object ε σ :=
  match cfg.strategy with
  | .physics => .physics cfg.env
  | .custom =>
    match (match cfg.params "name" with | some n => f.create n cfg | none => none) with
    | some s => .user s
    | none => .physics cfg.env
  | _ => .physics cfg.env

/-- The constructor (custom_defense_api.hpp:136-154); `available` tells whether an accelerator of the type can be used. -/
def System.new (f : Factory ε σ) (available : ℕ → Bool) (cfg : Config ε) : System ε σ :=
  { config := cfg, prot := initProt f cfg, hw := cfg.useHw && available cfg.accel }

/-- `updateEnvironment` (custom_defense_api.hpp:235-241); `told` is what the user's class does with it. -/
def System.update (told : σ → ε → σ) (s : System ε σ) (e : ε) : System ε σ :=
  { s with
    config := { s.config with env := e },
    prot := match s.prot with
      | .physics _ => .physics e
      | .user u => .user (told u e) }

/-- The kinds of wrappers (api/rad_ml.hpp, `make_tmr`). -/
inductive Wrapper where
  | standard | enhanced | approximate | hybrid
  deriving DecidableEq, Repr

/-- `protectValue` (custom_defense_api.hpp:191-215); `isFloat` tells whether the value's type is a floating point type. -/
def System.wrapper (s : System ε σ) (isFloat : Bool) : Wrapper :=
  match s.config.strategy with
  | .standardTmr => .standard
  | .enhancedTmr => .enhanced
  | .spaceTmr => if isFloat then .approximate else .enhanced
  | .multi => .hybrid
  | _ => .enhanced

/-- What `protectNeuralNetwork` (custom_defense_api.hpp:163-182) makes: architecture, level, environment of adaptive protection if enabled, and
the three switches. -/
structure Net (ε : Type) where
  architecture : List ℕ
  level : Level
  adaptive : Option ε
  weights : Bool
  activations : Bool
  gradients : Bool

/-- `protectNeuralNetwork` (custom_defense_api.hpp:163-182). -/
def System.network (s : System ε σ) (arch : List ℕ) : Net ε :=
  ⟨arch, s.config.level, if s.config.strategy = .adaptive then some s.config.env else none, s.config.weights, s.config.activations, s.config.gradients⟩

/-- What a program does with the factory and one system: `build` replaces the system. -/
inductive Op (ε σ : Type) where
  | register (name : String) (c : Creator ε σ)
  | build (cfg : Config ε)
  | update (e : ε)

/-- One step; registration's answer is returned (custom_defense_api.hpp:109-112, 136-154, 235-241, 249-253). -/
def step (available : ℕ → Bool) (told : σ → ε → σ) (st : Factory ε σ × Option (System ε σ)) : Op ε σ → Factory ε σ × Option (System ε σ)
  | .register n c => ((st.1.register n c).2, st.2)
  | .build cfg => (st.1, some (System.new st.1 available cfg))
  | .update e => (st.1, st.2.map fun s => s.update told e)

/-- A history of the program (custom_defense_api.hpp:103-107: the factory lives as long as the program). -/
def run (available : ℕ → Bool) (told : σ → ε → σ) (ops : List (Op ε σ)) : Factory ε σ × Option (System ε σ) :=
  ops.foldl (step available told) ([], none)

/-! ### `CustomBitInterleaving` -/

/-- The constructor (custom_defense_api.cpp:18-25): the interleave factor; `stoi` is the library's, which throws (`none`) if there is no number or it
does not fit; the conversion to `size_t` wraps. -/
def interleaving (stoi : String → Option Int) (cfg : Config ε) : Option ℕ :=
  match cfg.params "interleave_factor" with
  | none => some 8
  | some t => (stoi t).map fun i => (i % 2 ^ 64).toNat

/-- `updateEnvironment` (custom_defense_api.cpp:40-51); `harsh` is the comparison with `JUPITER` and `SOLAR_PROBE`. -/
def interleavingTold (harsh : ε → Bool) (_factor : ℕ) (e : ε) : ℕ := if harsh e then 16 else 8

/-- `ProtectionResult` (custom_defense_api.cpp:33-36). -/
structure Result (τ : Type) where
  value : τ
  detected : Bool
  corrected : Bool

/-- `protect` (custom_defense_api.cpp:28-38) of an object with the given factor. -/
def protect {τ : Type} (_factor : ℕ) (v : τ) : Result τ := ⟨v, false, false⟩

/-! ### `SimpleNN` -/

/-- The arithmetic of `float` that the network uses; nothing is assumed about it. -/
structure Arith (α : Type) where
  add : α → α → α
  mul : α → α → α
  /-- `std::max(0.0f, x)` -/
  relu : α → α
  zero : α
  tenth : α

/-- `SimpleNN` (custom_defense_api.cpp:65-71). -/
structure Simple (α : Type) where
  w1 : List α
  w2 : List α
  b1 : List α
  b2 : List α
  inputs : ℕ
  hidden : ℕ
  outputs : ℕ

variable {α : Type}

/-- The constructor (custom_defense_api.cpp:74-82). -/
def Simple.new (A : Arith α) (i h o : ℕ) : Simple α :=
  ⟨List.replicate (i * h) A.tenth, List.replicate (h * o) A.tenth, List.replicate h A.zero, List.replicate o A.zero, i, h, o⟩

/-- Element access without a check (custom_defense_api.cpp:92-94, 104-106): outside of the vector it is undefined. -/
def at? (l : List α) (i : ℕ) : Outcome α :=
  match l[i]? with
  | some a => .ok a
  | none => .ub

/-- A sum of products, the inner loops (custom_defense_api.cpp:91-93, 103-105): `n` terms, term `j` is `x[j] * w[j * stride + i]`. -/
def dot (A : Arith α) (x w : List α) (stride i : ℕ) : ℕ → Outcome α
  | 0 => .ok A.zero
  | j + 1 => (dot A x w stride i j).bind fun s => (at? x j).bind fun a => (at? w (j * stride + i)).bind fun b => .ok (A.add s (A.mul a b))

/-- A layer: all `n` elements from left to right (custom_defense_api.cpp:90-97, 102-107). -/
def layer (one : ℕ → Outcome α) : ℕ → Outcome (List α)
  | 0 => .ok []
  | n + 1 => (layer one n).bind fun l => (one n).bind fun a => .ok (l ++ [a])

/-- `forward` (custom_defense_api.cpp:84-110). -/
def Simple.forward (A : Arith α) (net : Simple α) (x : List α) : Outcome (List α) :=
  (layer (fun i => (dot A x net.w1 net.hidden i net.inputs).bind fun s => (at? net.b1 i).bind fun b => .ok (A.relu (A.add s b))) net.hidden).bind fun h =>
    layer (fun i => (dot A h net.w2 net.outputs i net.hidden).bind fun s => (at? net.b2 i).bind fun b => .ok (A.add s b)) net.outputs

/-- `RadiationHardenedNN::forward` (custom_defense_api.hpp:340-347): the strategy of the defense system executes the network's forward function,
`exec` tells how the object executes a function, given what each execution returns. -/
def hardenedForward {β ι : Type} (exec : Object ε σ → (ℕ → β) → Outcome β) (s : System ε σ) (forward : ι → β) (input : ι) : Outcome β :=
  exec s.prot fun _ => forward input

end Verif.CustomDefense
