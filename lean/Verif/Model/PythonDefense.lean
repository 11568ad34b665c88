import Verif.Model.UpsetTmr
import Verif.Spec.XReal
/-!
The Python layer: /repo/rad_ml/tmr.py (identical copies in python/rad_ml, rad_ml_minimal/rad_ml and build_python/rad_ml) on the minimal bindings
/repo/python/rad_ml_minimal.cpp, and /repo/python/rad_ml/unified_defense.py.

Python floats are real numbers in the wrapper (the conversion to `float` is a parameter `narrow`) and ideal doubles (`XD`) in the defense module; Python `int` is ℤ.
The pybind11 classes are registered without a `shared_ptr` holder although the factories return one; the model takes the factories to work.
Modules are a function of weights and input that may raise; random draws are parameters.
-/
namespace Verif.PyDef
open Classical

/-! ### tmr.py -/

/-- A Python value as `__init__` tells them apart (tmr.py:25-30); `bool` is a subclass of `int`. -/
inductive PyVal where
  | int (n : ℤ)
  | bool (b : Bool)
  | float (x : ℝ)
  | other

/-- The object `_tmr` (tmr.py:26, 28): a `SimpleTMR<int>` or a `SimpleTMR<float>`. -/
inductive Core where
  | int (s : CoreTmr.State ℤ)
  | float (s : CoreTmr.State ℝ)

/-- A `StandardTMR` or `EnhancedTMR` of tmr.py:18-67, 70-119, which differ only in the factories they call; those are the same functions
(rad_ml_minimal.cpp:185-223). -/
structure Obj where
  value : PyVal
  tmr : Option Core

/-- An exception or a result. -/
inductive Py (β : Type) where
  | ret (b : β)
  | raise

/-- `==` of C++ (rad_ml_minimal.cpp:38-41) for numbers that are not NaN. -/
noncomputable def same {α : Type} (a b : α) : Bool := decide (a = b)

/-- Whether pybind11 converts a Python `int` to a C++ `int`. -/
def fits (n : ℤ) : Prop := -2 ^ 31 ≤ n ∧ n < 2 ^ 31

/-- The `int` of a `bool`. -/
def ofBool (b : Bool) : ℤ := if b then 1 else 0

/-- `__init__` (tmr.py:21-34, 73-86); `narrow` is the conversion to `float` by the factory. -/
noncomputable def create (narrow : ℝ → ℝ) (v : PyVal) : Obj :=
  match v with
  | .int n => ⟨v, if fits n then some (.int (CoreTmr.set n)) else none⟩
  | .bool b => ⟨v, some (.int (CoreTmr.set (ofBool b)))⟩
  | .float x => ⟨v, some (.float (CoreTmr.set (narrow x)))⟩
  | .other => ⟨v, none⟩

/-- The property `value` (tmr.py:36-41, 88-93). -/
noncomputable def value (o : Obj) : PyVal :=
  match o.tmr with
  | none => o.value
  | some (.int s) => .int (CoreTmr.get same s)
  | some (.float s) => .float (CoreTmr.get same s)

/-- `isinstance(new_value, type(self._value))` (tmr.py:46, 98). -/
def instanceOf : PyVal → PyVal → Bool
  | .int _, .int _ => true
  | .bool _, .int _ => true
  | .bool _, .bool _ => true
  | .float _, .float _ => true
  | _, _ => false

/-- The setter (tmr.py:43-50, 95-102): result and object afterwards, also after an exception. -/
noncomputable def assign (narrow : ℝ → ℝ) (o : Obj) (v : PyVal) : Py Unit × Obj :=
  if instanceOf v o.value = false then (.raise, o)
  else match o.tmr, v with
    | none, _ => (.ret (), ⟨v, none⟩)
    | some (.int s), .int n => if fits n then (.ret (), ⟨v, some (.int (CoreTmr.set n))⟩) else (.raise, ⟨v, some (.int s)⟩)
    | some (.int _), .bool b => (.ret (), ⟨v, some (.int (CoreTmr.set (ofBool b)))⟩)
    | some (.float _), .float x => (.ret (), ⟨v, some (.float (CoreTmr.set (narrow x)))⟩)
    | some c, _ => (.raise, ⟨v, some c⟩)

/-- `correct` (tmr.py:52-56, 104-108). -/
noncomputable def correct (o : Obj) : Bool × Obj :=
  match o.tmr with
  | none => (false, o)
  | some (.int s) => let r := UpsetTmr.simpleCorrect same s; (r.1, ⟨o.value, some (.int r.2)⟩)
  | some (.float s) => let r := UpsetTmr.simpleCorrect same s; (r.1, ⟨o.value, some (.float r.2)⟩)

/-- `check_integrity` (tmr.py:58-62, 110-114). -/
noncomputable def checkIntegrity (o : Obj) : Bool :=
  match o.tmr with
  | none => true
  | some (.int s) => UpsetTmr.simpleIntegrity same s
  | some (.float s) => UpsetTmr.simpleIntegrity same s

/-- An upset of one copy of an integer, outside the code. -/
def upset (o : Obj) (k : Fin 3) (x : ℤ) : Obj :=
  match o.tmr with
  | some (.int s) => ⟨o.value, some (.int (CoreTmr.corrupt s k x))⟩
  | _ => o

/-! ### unified_defense.py -/

/-- `DefenseStrategy` (unified_defense.py:19-28). -/
inductive Strategy where
  | standard | enhanced | spaceOptimized | reedSolomon | adaptive | physics | hardware | multiLayered | custom
  deriving DecidableEq

/-- `ProtectionLevel` (unified_defense.py:31-37). -/
inductive Level where
  | none | checksum | selective | full | adaptive | spaceOptimized
  deriving DecidableEq

/-- `Environment` (unified_defense.py:40-49). -/
inductive Env where
  | earth | earthOrbit | leo | geo | lunar | mars | jupiter | solarStorm | saa
  deriving DecidableEq

/-- The members of `DefenseConfig` that are read (unified_defense.py:54-69). -/
structure Config where
  strategy : Strategy := .enhanced
  env : Env := .leo
  level : Level := .adaptive
  protectWeights : Bool := true

/-- `for_environment` (unified_defense.py:72-87). -/
def forEnvironment : Env → Config
  | .jupiter => ⟨.multiLayered, .jupiter, .full, true⟩
  | .solarStorm => ⟨.multiLayered, .solarStorm, .full, true⟩
  | .saa => ⟨.spaceOptimized, .saa, .selective, true⟩
  | .mars => ⟨.spaceOptimized, .mars, .selective, true⟩
  | e => ⟨.enhanced, e, .adaptive, true⟩

/-- `_get_correction_probability` (unified_defense.py:149-178). -/
noncomputable def correctionProbability (c : Config) : ℝ :=
  let base : ℝ := match c.level with
    | .none => 2 / 10
    | .checksum => 4 / 10
    | .selective => 6 / 10
    | .full => 85 / 100
    | .adaptive => 8 / 10
    | .spaceOptimized => 75 / 100
  let modifier : ℝ := match c.strategy with
    | .multiLayered => 15 / 100
    | .reedSolomon => 1 / 10
    | .physics => 12 / 100
    | _ => 5 / 100
  min (95 / 100) (max (2 / 10) (base + modifier))

/-- `_get_protection_effectiveness` (unified_defense.py:344-400). -/
noncomputable def effectiveness (c : Config) : ℝ :=
  let base : ℝ := match c.level with
    | .none => 3 / 10
    | .checksum => 5 / 10
    | .selective => 7 / 10
    | .full => 85 / 100
    | .adaptive => 8 / 10
    | .spaceOptimized => 75 / 100
  let modifier : ℝ := match c.strategy with
    | .standard => 0
    | .enhanced => 5 / 100
    | .spaceOptimized => 8 / 100
    | .reedSolomon => 1 / 10
    | .adaptive => 12 / 100
    | .physics => 15 / 100
    | .multiLayered => 18 / 100
    | _ => 5 / 100
  let factor : ℝ := if c.env = .jupiter ∨ c.env = .solarStorm then
      (if c.strategy = .multiLayered ∨ c.strategy = .physics then 115 / 100 else 85 / 100) else 1
  min (95 / 100) (max (3 / 10) ((base + modifier) * factor))

/-- What `execute_protected` returns (unified_defense.py:137-147). -/
structure Report (β : Type) where
  value : Option β
  detected : Bool
  corrected : Bool

/-- `execute_protected` (unified_defense.py:115-147): a call that may raise, and two draws in [0, 1). -/
noncomputable def execute {β : Type} (c : Config) (f : Py β) (u₁ u₂ : ℝ) : Report β :=
  match f with
  | .raise => ⟨none, true, false⟩
  | .ret b => if u₁ < 1 / 10 then ⟨some b, true, decide (u₂ < correctionProbability c)⟩ else ⟨some b, false, false⟩

/-- The copies of a `TMRProtectedValue` (unified_defense.py:188). -/
structure Three (α : Type) where
  c0 : α
  c1 : α
  c2 : α

/-- Copy `i`. -/
def Three.at {α : Type} (t : Three α) (i : Fin 3) : α := match i with
  | 0 => t.c0
  | 1 => t.c1
  | 2 => t.c2

/-- The constructor and `set` (unified_defense.py:187-191, 219-221). -/
def all {α : Type} (v : α) : Three α := ⟨v, v, v⟩

/-- Replaces copy `i`, outside the code. -/
def Three.hit {α : Type} (t : Three α) (i : Fin 3) (x : α) : Three α := match i with
  | 0 => { t with c0 := x }
  | 1 => { t with c1 := x }
  | 2 => { t with c2 := x }

/-- `abs(a - b) < abs(a - c)` (unified_defense.py:206-208). -/
def closer (a b c : XD) : Prop := ((a.sub b).abs).lt ((a.sub c).abs)

/-- `TMRProtectedValue.get` (unified_defense.py:193-217); `mid` is the middle one of the three values as `sorted` orders them. -/
noncomputable def readValue (mid : XD → XD → XD → XD) (s : Strategy) (t : Three XD) : XD :=
  if t.c0.eq t.c1 ∨ t.c0.eq t.c2 then t.c0
  else if t.c1.eq t.c2 then t.c1
  else match s with
    | .multiLayered =>
      if closer t.c0 t.c1 t.c2 then t.c0
      else if closer t.c1 t.c2 t.c0 then t.c1
      else if closer t.c2 t.c0 t.c1 then t.c2
      else t.c0
    | .reedSolomon => mid t.c0 t.c1 t.c2
    | _ => t.c0

/-- `TMRProtectedValue.repair` (unified_defense.py:223-229): its result and the copies. -/
noncomputable def repair (mid : XD → XD → XD → XD) (s : Strategy) (t : Three XD) : Bool × Three XD := (true, all (readValue mid s t))

/-- `np.argmin` of three numbers (unified_defense.py:262): the first NaN if there is one, else the first smallest. -/
noncomputable def argmin (a b c : XD) : Fin 3 :=
  if a = .nan then 0 else if b = .nan then 1 else if c = .nan then 2
  else if a.le b ∧ a.le c then 0 else if b.le c then 1 else 2

/-- The value of one element (unified_defense.py:248-278); `med` is `np.median` of three numbers. -/
noncomputable def vote (med : XD → XD → XD → XD) (s : Strategy) (t : Three XD) : XD :=
  if t.c0.eq t.c1 ∨ t.c0.eq t.c2 then t.c0
  else if t.c1.eq t.c2 then t.c1
  else match s with
    | .multiLayered =>
      match argmin ((t.c0.sub t.c1).abs) ((t.c0.sub t.c2).abs) ((t.c1.sub t.c2).abs) with
      | 0 => (t.c0.add t.c1).div (.fin 2)
      | 1 => (t.c0.add t.c2).div (.fin 2)
      | 2 => (t.c1.add t.c2).div (.fin 2)
    | .spaceOptimized => med t.c0 t.c1 t.c2
    | _ => t.c0

/-- The copies of a `ProtectedArray` of floats with `n` elements in all (unified_defense.py:234-239); `original` is never read. -/
abbrev Arrays (n : ℕ) := Three (Fin n → XD)

/-- `ProtectedArray.get` (unified_defense.py:241-280). -/
noncomputable def arrayGet (med : XD → XD → XD → XD) (s : Strategy) {n : ℕ} (t : Arrays n) : Fin n → XD := fun i => vote med s ⟨t.c0 i, t.c1 i, t.c2 i⟩

/-- `ProtectedArray.repair` (unified_defense.py:287-291). -/
noncomputable def arrayRepair (med : XD → XD → XD → XD) (s : Strategy) {n : ℕ} (t : Arrays n) : Bool × Arrays n := (true, all (arrayGet med s t))

/-- A `RadiationHardenedModule` (unified_defense.py:295-315): the weights of the module, the copy saved when it was wrapped. -/
structure Hardened (ω : Type) where
  config : Config
  weights : ω
  saved : Option ω

/-- The constructor (unified_defense.py:296-315). -/
def wrap {ω : Type} (c : Config) (w : ω) : Hardened ω := ⟨c, w, if c.protectWeights then some w else none⟩

/-- `forward` (unified_defense.py:317-342) for a module `f` and four draws. -/
noncomputable def forward {ω ι β : Type} (f : ω → ι → Py β) (h : Hardened ω) (x : ι) (u₁ u₂ u₃ _u₄ : ℝ) : Option β :=
  let input := if u₁ < effectiveness h.config then x else x
  (execute h.config (f h.weights input) u₂ u₃).value

/-- `repair` (unified_defense.py:402-408): its result and the object. -/
def restore {ω : Type} (h : Hardened ω) : Bool × Hardened ω :=
  match h.saved with
  | some w => (true, { h with weights := w })
  | none => (true, h)

/-- `update_environment` (unified_defense.py:410-413). -/
def updateEnvironment {ω : Type} (h : Hardened ω) (e : Env) : Hardened ω := { h with config := { h.config with env := e } }

end Verif.PyDef
