import Mathlib.Algebra.Order.Field.Rat
import Verif.Model.Loop
/-!
Models of the header-only library in /repo/rad_ml:
* `BasicTMR` and `EnhancedTMR` (/repo/rad_ml/tmr/basic_tmr.hpp);
* `PhysicsDrivenProtection` (/repo/rad_ml/tmr/physics_driven_protection.hpp).

`eq` is `==` of the element type.  Doubles are exact rationals.
-/
namespace Verif.BTmr

/-! ### BasicTMR -/

/-- The three copies (basic_tmr.hpp:82). -/
structure Basic (α : Type) where
  c0 : α
  c1 : α
  c2 : α
  deriving DecidableEq, Repr

variable {α : Type}

/-- Constructor and `set` (basic_tmr.hpp:22-27, 51-55). -/
def Basic.set (v : α) : Basic α := ⟨v, v, v⟩

/-- `get` (basic_tmr.hpp:33-45). -/
def Basic.get (eq : α → α → Bool) (s : Basic α) : α :=
  if eq s.c0 s.c1 || eq s.c0 s.c2 then s.c0
  else if eq s.c1 s.c2 then s.c1
  else s.c0

/-- `hasErrors` (basic_tmr.hpp:61-63). -/
def Basic.hasErrors (eq : α → α → Bool) (s : Basic α) : Bool := !(eq s.c0 s.c1 && eq s.c1 s.c2)

/-- `repair` (basic_tmr.hpp:68-71). -/
def Basic.repair (eq : α → α → Bool) (s : Basic α) : Basic α := Basic.set (s.get eq)

/-- A fault: one copy is overwritten. -/
def Basic.strike (s : Basic α) (k : Fin 3) (v : α) : Basic α :=
  match k with
  | 0 => { s with c0 := v }
  | 1 => { s with c1 := v }
  | 2 => { s with c2 := v }

/-! ### EnhancedTMR -/

/-- The four copies and the counter (basic_tmr.hpp:182-183). -/
structure Quad (α : Type) where
  c0 : α
  c1 : α
  c2 : α
  c3 : α
  errors : Nat := 0
  deriving DecidableEq, Repr

/-- The copies in order. -/
def Quad.copies (s : Quad α) : List α := [s.c0, s.c1, s.c2, s.c3]

/-- Constructor and `set` (basic_tmr.hpp:97-103, 137-142): the counter is reset. -/
def Quad.set (v : α) : Quad α := ⟨v, v, v, v, 0⟩

/-- The loop over `value_counts` (basic_tmr.hpp:124-129); `keys` is the iteration order of the `unordered_map`. -/
def mostCommon [DecidableEq α] (copies : List α) (first : α) (keys : List α) : α × Nat :=
  keys.foldl (fun st x => if copies.count x > st.2 then (x, copies.count x) else st) (first, 0)

/-- `get` (basic_tmr.hpp:109-132) for iteration order `keys`. -/
def Quad.get [DecidableEq α] (s : Quad α) (keys : List α) : α :=
  if s.c0 = s.c1 ∧ s.c1 = s.c2 ∧ s.c2 = s.c3 then s.c0
  else (mostCommon s.copies s.c0 keys).1

/-- The iteration orders an `unordered_map` with these keys may have. -/
def Quad.Keys (s : Quad α) (keys : List α) : Prop := keys.Nodup ∧ ∀ x, x ∈ keys ↔ x ∈ s.copies

/-- `hasErrors` (basic_tmr.hpp:148-155). -/
def Quad.hasErrors [DecidableEq α] (s : Quad α) : Bool := decide (s.c0 ≠ s.c1) || decide (s.c0 ≠ s.c2) || decide (s.c0 ≠ s.c3)

/-- `repair` (basic_tmr.hpp:161-170). -/
def Quad.repair [DecidableEq α] (s : Quad α) (keys : List α) : Bool × Quad α :=
  if !s.hasErrors then (false, s)
  else
    let t := Quad.set (s.get keys)
    (true, { t with errors := t.errors + 1 })

/-- A fault: one copy is overwritten. -/
def Quad.strike (s : Quad α) (k : Fin 4) (v : α) : Quad α :=
  match k with
  | 0 => { s with c0 := v }
  | 1 => { s with c1 := v }
  | 2 => { s with c2 := v }
  | 3 => { s with c3 := v }

/-! ### PhysicsDrivenProtection: execution -/

/-- `TMRResult` without `level_used` (physics_driven_protection.hpp:23-29). -/
structure Result (α : Type) where
  value : α
  detected : Bool
  corrected : Bool
  deriving DecidableEq, Repr

/-- Level BASIC_TMR (physics_driven_protection.hpp:90-111). -/
def execBasic (eq : α → α → Bool) (a b c : α) : Result α :=
  if eq a b || eq a c then ⟨a, false, false⟩
  else if eq b c then ⟨b, true, true⟩
  else ⟨a, true, false⟩

/-- Level ENHANCED_TMR (physics_driven_protection.hpp:113-143). -/
def execEnhanced (eq : α → α → Bool) (a b c d : α) : Result α :=
  if eq a b && eq b c then ⟨a, false, false⟩
  else if eq a b && eq a d then ⟨a, true, true⟩
  else if eq a c && eq a d then ⟨a, true, true⟩
  else if eq b c && eq b d then ⟨b, true, true⟩
  else ⟨d, true, false⟩

/-- Levels STUCK_BIT_TMR, HEALTH_WEIGHTED_TMR and HYBRID_REDUNDANCY (physics_driven_protection.hpp:145-188): `lucky` is the outcome of
the draw `< 0.85`. -/
def execAdvanced (eq : α → α → Bool) (r0 r1 r2 r3 r4 : α) (lucky : Bool) : Result α :=
  if !(eq r1 r0 && eq r2 r0 && eq r3 r0 && eq r4 r0) then
    if lucky then ⟨r4, true, true⟩ else ⟨r0, true, false⟩
  else ⟨r0, false, false⟩

/-- `executeProtected` (physics_driven_protection.hpp:76-192): `op i` is the result of the `i`-th execution of the operation; levels are
numbered as in the enumeration (lines 13-20). -/
def executeProtected (eq : α → α → Bool) (level : Fin 6) (op : Nat → α) (lucky : Bool) : Result α :=
  match level with
  | 0 => ⟨op 0, false, false⟩
  | 1 => execBasic eq (op 0) (op 1) (op 2)
  | 2 => execEnhanced eq (op 0) (op 1) (op 2) (op 3)
  | _ => execAdvanced eq (op 0) (op 1) (op 2) (op 3) (op 4) lucky

/-! ### PhysicsDrivenProtection: level -/

/-- The members of `sim::RadiationEnvironment` read (rad_ml/sim/mission_environment.hpp:9-26), with their initialisers. -/
structure Env where
  proton : ℚ := 0
  electron : ℚ := 0
  tmin : ℚ := 273
  tmax : ℚ := 293

/-- `radiation_factor_` (physics_driven_protection.hpp:198-200). -/
def radFactor (e : Env) : ℚ := min 5 (max 1 (e.proton * (2 / 10 ^ 12) + e.electron * (5 / 10 ^ 13) + 1))

/-- `temperature_factor_` (physics_driven_protection.hpp:203-205). -/
def tempFactor (e : Env) : ℚ := min 3 (max 1 (1 + |(e.tmin + e.tmax) / 2 - 293| / 100))

/-- `synergy_factor_` (physics_driven_protection.hpp:208). -/
def synergyFactor (e : Env) : ℚ := min 2 (radFactor e * tempFactor e / 3)

/-- `threat_level` (physics_driven_protection.hpp:211-221). -/
def threat (e : Env) (tolerance : ℚ) (phase : String) : ℚ :=
  let t := (radFactor e * (1 / 2) + tempFactor e * (3 / 10) + synergyFactor e * (1 / 5)) * (1 - tolerance / 100)
  if phase = "SAA_CROSSING" then t * (3 / 2) else if phase = "SOLAR_STORM" then t * 2 else t

/-- Level and checkpoint interval for a threat (physics_driven_protection.hpp:224-240). -/
def select (t : ℚ) : Fin 6 × ℚ :=
  if t < 3 / 2 then (1, 30)
  else if t < 3 then (2, 15)
  else if t < 5 then (3, 10)
  else if t < 8 then (4, 5)
  else (5, 2)

/-- The members (physics_driven_protection.hpp:243-253). -/
structure State where
  tolerance : ℚ
  env : Env
  phase : String
  level : Fin 6
  interval : ℚ
  temp : ℚ
  rad : ℚ
  syn : ℚ

/-- Constructor (physics_driven_protection.hpp:34-46). -/
def State.new (tolerance : ℚ) : State := ⟨tolerance, {}, "", 1, 10, 1, 1, 1⟩

/-- `updateProtectionLevel` (physics_driven_protection.hpp:196-241). -/
def State.update (s : State) : State :=
  let l := select (threat s.env s.tolerance s.phase)
  { s with level := l.1, interval := l.2, temp := tempFactor s.env, rad := radFactor s.env, syn := synergyFactor s.env }

/-- The two operations (physics_driven_protection.hpp:49-58). -/
inductive Op where
  | env (e : Env)
  | phase (p : String)

/-- One call. -/
def State.step (s : State) : Op → State
  | .env e => ({ s with env := e } : State).update
  | .phase p => ({ s with phase := p } : State).update

/-- A history. -/
def State.run (s : State) (h : List Op) : State := h.foldl State.step s

end Verif.BTmr
