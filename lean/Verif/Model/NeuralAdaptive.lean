import Verif.Model.ReedSolomon
import Verif.Spec.XReal
import Mathlib.Algebra.Order.Floor.Semiring
import Mathlib.Algebra.Order.Archimedean.Real.Basic
/-!
Adaptive protection of network weights: /repo/include/rad_ml/neural/adaptive_protection.hpp.

The header includes a file that does not exist (`multi_bit_protection.hpp`) and calls members other classes do not have; the model follows its text. A value of
type `U` is its `w` bits (`w` = 8 * `sizeof(U)`, little-endian, so bit 7 of the last byte is bit `w - 1`). Counters are natural numbers, doubles real numbers, or
ideal doubles where a divisor may be 0. Random numbers, the environment's upset probability, the upset generator and the network are parameters.
-/
namespace Verif.NeuralAdaptive

/-- `ProtectionLevel` (neural/adaptive_protection.hpp:44-51). -/
inductive Level where
  | none | minimal | moderate | high | veryHigh | adaptive
  deriving DecidableEq, Repr

/-- The `MultibitUpsetType`s used here (neural/adaptive_protection.hpp:127, 427, 432, 437). -/
inductive Upset where
  | singleBit | adjacentBits | randomMulti | other
  deriving DecidableEq, Repr

/-- `ProtectionStats` (neural/adaptive_protection.hpp:96-105). -/
structure Stats where
  total : ℕ := 0
  protectedW : ℕ := 0
  corrections : ℕ := 0
  uncorrectable : ℕ := 0
  bits : ℕ := 0
  flipped : ℕ := 0
  overhead : ℝ := 0
  rate : ℝ := 0

/-- `ProtectionStats::reset` (neural/adaptive_protection.hpp:108-112). -/
def Stats.reset (s : Stats) : Stats := { s with corrections := 0, uncorrectable := 0, flipped := 0 }

/-- `correction_ratio` (neural/adaptive_protection.hpp:115-119). -/
noncomputable def Stats.ratio (s : Stats) : ℝ :=
  if s.corrections + s.uncorrectable = 0 then 1 else s.corrections / ((s.corrections + s.uncorrectable : ℕ) : ℝ)

/-- The object (neural/adaptive_protection.hpp:568-572) without the random engine. -/
structure State (ε : Type) where
  env : ε
  model : Upset := .singleBit
  level : Level := .moderate
  stats : Stats := {}

/-- A Reed-Solomon codec for `w` bits (neural/adaptive_protection.hpp:227-247, 315-357): its construction, which may be undefined, and its members. -/
structure Codec (w : ℕ) where
  ready : Outcome Unit
  encode : BitVec w → List ℕ
  strike : List ℕ → ℝ → ℕ → List ℕ
  decode : List ℕ → Option (BitVec w)
  overhead : ℝ

/-- The construction of `AdvancedReedSolomon<U, 8, ecc>` for `n` bytes (neural/advanced_reed_solomon.hpp:472-475), by the model of that class. -/
def shippedReady (n ecc : ℕ) : Outcome Unit :=
  match (RS.Cfg.mk n 8 ecc).construct with
  | .ok _ => .ok ()
  | _ => .ub

open Classical in
/-- The thresholds of criticality (neural/adaptive_protection.hpp:585-596; the same at 507-517). -/
noncomputable def byCriticality (c : XD) : Level :=
  if (XD.fin 10).lt c then .veryHigh
  else if (XD.fin 5).lt c then .high
  else if (XD.fin 1).lt c then .moderate
  else if (XD.fin (1 / 10)).lt c then .minimal
  else .none

/-- `get_effective_protection_level` (neural/adaptive_protection.hpp:580-597). -/
noncomputable def effective {ε : Type} (s : State ε) (c : XD) : Level := if s.level ≠ .adaptive then s.level else byCriticality c

/-- `compute_parity` (neural/adaptive_protection.hpp:606-620). -/
def parity {w : ℕ} (v : BitVec w) : Bool := (List.range w).foldl (fun p i => p ^^ v.getLsbD i) false

/-- `add_parity_bit` (neural/adaptive_protection.hpp:630-643). -/
def addParity {w : ℕ} (v : BitVec w) (p : Bool) : BitVec w := if p then v ||| BitVec.twoPow w (w - 1) else v

/-- `extract_parity_bit` (neural/adaptive_protection.hpp:652-657). -/
def extractParity {w : ℕ} (v : BitVec w) : Bool := v.getLsbD (w - 1)

/-- `remove_parity_bit` (neural/adaptive_protection.hpp:666-674). -/
def removeParity {w : ℕ} (v : BitVec w) : BitVec w := v &&& ~~~ BitVec.twoPow w (w - 1)

/-- `apply_hamming_protection` (neural/adaptive_protection.hpp:683-687). -/
def hamming {w : ℕ} (v : BitVec w) : BitVec w := v

/-- `recover_with_hamming` (neural/adaptive_protection.hpp:696-700). -/
def recoverHamming {w : ℕ} (v : BitVec w) : BitVec w × Bool := (v, false)

/-- The end of `protect_value` (neural/adaptive_protection.hpp:257-261). -/
def counted {ε : Type} (s : State ε) (l : Level) : State ε :=
  { s with stats := { s.stats with total := s.stats.total + 1, protectedW := s.stats.protectedW + (if l = .none then 0 else 1) } }

/-- The two Reed-Solomon cases of `protect_value` (neural/adaptive_protection.hpp:227-247): encode, forget the code, add the overhead. -/
noncomputable def protectRs {ε : Type} {w : ℕ} (k : Codec w) (s : State ε) (v : BitVec w) (l : Level) : Outcome (BitVec w × State ε) :=
  k.ready.bind fun _ => .ok (v, counted { s with stats := { s.stats with overhead := s.stats.overhead + k.overhead } } l)

/-- `protect_value` (neural/adaptive_protection.hpp:201-264), `high` and `very` being the two codecs. -/
noncomputable def protect {ε : Type} {w : ℕ} (high very : Codec w) (s : State ε) (v : BitVec w) (c : XD) : Outcome (BitVec w × State ε) :=
  match effective s c with
  | .none => .ok (v, counted s .none)
  | .minimal => .ok (addParity v (parity v), counted s .minimal)
  | .moderate => .ok (hamming v, counted s .moderate)
  | .high => protectRs high s v .high
  | .veryHigh => protectRs very s v .veryHigh
  | .adaptive => .ok (hamming v, counted s .adaptive)

/-- One correction more (neural/adaptive_protection.hpp:310, 334, 351, 367). -/
def corrected {ε : Type} (s : State ε) : State ε := { s with stats := { s.stats with corrections := s.stats.corrections + 1 } }

/-- One uncorrectable error more (neural/adaptive_protection.hpp:295, 336, 353). -/
def failed {ε : Type} (s : State ε) : State ε := { s with stats := { s.stats with uncorrectable := s.stats.uncorrectable + 1 } }

/-- The two Reed-Solomon cases of `recover_value` (neural/adaptive_protection.hpp:315-357). -/
noncomputable def recoverRs {ε : Type} {w : ℕ} (prob : ε → ℝ) (k : Codec w) (s : State ε) (v : BitVec w) (seed : ℕ) : Outcome ((BitVec w × Bool) × State ε) :=
  k.ready.bind fun _ =>
    match k.decode (k.strike (k.encode v) (prob s.env) seed) with
    | some d => .ok ((d, true), corrected s)
    | .none => .ok ((v, false), failed s)

/-- The Hamming cases of `recover_value` (neural/adaptive_protection.hpp:303-313, 359-370). -/
def recoverMod {ε : Type} {w : ℕ} (s : State ε) (v : BitVec w) : (BitVec w × Bool) × State ε :=
  let r := recoverHamming v
  (r, if r.2 then corrected s else s)

/-- `recover_value` (neural/adaptive_protection.hpp:274-374). -/
noncomputable def recover {ε : Type} {w : ℕ} (prob : ε → ℝ) (high very : Codec w) (s : State ε) (v : BitVec w) (c : XD) (seed : ℕ) :
    Outcome ((BitVec w × Bool) × State ε) :=
  match effective s c with
  | .none => .ok ((v, false), s)
  | .minimal => .ok ((removeParity v, false), if extractParity v ≠ parity v then failed s else s)
  | .moderate => .ok (recoverMod s v)
  | .high => recoverRs prob high s v seed
  | .veryHigh => recoverRs prob very s v seed
  | .adaptive => .ok (recoverMod s v)

/-- `count_bit_differences` (neural/adaptive_protection.hpp:710-727). -/
def differences {w : ℕ} (a b : BitVec w) : ℕ := (List.range w).foldl (fun n i => if (a ^^^ b).getLsbD i then n + 1 else n) 0

/-- `apply_radiation_effects` (neural/adaptive_protection.hpp:384-414), `upset` being `apply_multi_bit_upset`. -/
noncomputable def radiate {ε : Type} {w : ℕ} (prob : ε → ℝ) (upset : BitVec w → Upset → ℝ → ℕ → BitVec w) (s : State ε) (v : BitVec w) (p : ℝ) (seed : ℕ) :
    BitVec w × State ε :=
  let q := if p < 0 then prob s.env else p
  if q ≤ 0 then (v, s)
  else
    let r := upset v s.model q seed
    let bits := s.stats.bits + w
    let flipped := s.stats.flipped + differences v r
    (r, { s with stats := { s.stats with bits := bits, flipped := flipped, rate := (flipped : ℝ) / bits } })

/-- `adapt_to_environment` (neural/adaptive_protection.hpp:422-452). -/
noncomputable def adapt {ε : Type} (prob : ε → ℝ) (s : State ε) : State ε :=
  let p := prob s.env
  if 1 / 1000 < p then { s with model := if 1 / 100 < p then .randomMulti else .adjacentBits, level := .veryHigh }
  else if 1 / 10000 < p then { s with model := .singleBit, level := .high }
  else if 1 / 100000 < p then { s with model := .singleBit, level := .moderate }
  else if 1 / 1000000 < p then { s with model := .singleBit, level := .minimal }
  else { s with model := .singleBit, level := .none }

/-- `set_environment` (neural/adaptive_protection.hpp:154-157). -/
noncomputable def setEnvironment {ε : Type} (prob : ε → ℝ) (s : State ε) (e : ε) : State ε := adapt prob { s with env := e }

/-! ### Critical weights -/

/-- What the class uses of a network (neural/adaptive_protection.hpp:476, 489, 499, 772); `forward` is taken not to change it, outputs and samples are real. -/
structure Network (N : Type) (w : ℕ) where
  weights : N → List (BitVec w)
  replace : BitVec w → BitVec w → N → N
  forward : N → List ℝ → List ℝ

/-- The squared errors of one sample (neural/adaptive_protection.hpp:775-779): as many as both lists have. -/
def sampleErrors (out expected : List ℝ) : List ℝ := (out.zip expected).map fun p => (p.1 - p.2) ^ 2

/-- `calculate_network_error` (neural/adaptive_protection.hpp:763-784); a missing expected sample is not reached, the callers check the numbers. -/
noncomputable def networkError {N : Type} {w : ℕ} (net : Network N w) (n : N) (inputs expected : List (List ℝ)) : ℝ :=
  let es := (inputs.zip expected).flatMap fun p => sampleErrors (net.forward n p.1) p.2
  if es.length = 0 then 0 else es.sum / es.length

/-- `WeightCriticality` (neural/adaptive_protection.hpp:69-78). -/
structure Critical (w : ℕ) where
  weight : BitVec w
  sensitivity : XD
  level : Level

/-- `flip_random_bit` (neural/adaptive_protection.hpp:737-752), given the position chosen. -/
def flipBit {w : ℕ} (v : BitVec w) (i : ℕ) : BitVec w := v ^^^ BitVec.twoPow w i

/-- The loop over the weights (neural/adaptive_protection.hpp:484-520); `pick` are the positions chosen. -/
noncomputable def criticalLoop {N : Type} {w : ℕ} (net : Network N w) (inputs expected : List (List ℝ)) (base : ℝ) :
    List (BitVec w) → (ℕ → ℕ) → N → List (Critical w) × N
  | [], _, n => ([], n)
  | v :: vs, pick, n =>
    let m := flipBit v (pick 0)
    let hit := net.replace v m n
    let sens := XD.div (.fin (networkError net hit inputs expected - base)) (.fin base)
    let r := criticalLoop net inputs expected base vs (fun i => pick (i + 1)) (net.replace m v hit)
    (⟨v, sens, byCriticality sens⟩ :: r.1, r.2)

/-- What `std::sort` with this comparison may return (neural/adaptive_protection.hpp:523-526): a permutation in which no element is greater than an earlier one. -/
def SortedOf {w : ℕ} (l out : List (Critical w)) : Prop :=
  out.Perm l ∧ out.Pairwise fun a b => ¬ a.sensitivity.lt b.sensitivity

/-- `identify_critical_weights` (neural/adaptive_protection.hpp:463-529) before sorting. -/
noncomputable def identify {N : Type} {w : ℕ} (net : Network N w) (inputs expected : List (List ℝ)) (pick : ℕ → ℕ) (n : N) : List (Critical w) × N :=
  if inputs = [] ∨ expected = [] ∨ inputs.length ≠ expected.length then ([], n)
  else criticalLoop net inputs expected (networkError net n inputs expected) (net.weights n) pick n

/-- The loop of `apply_optimized_protection` (neural/adaptive_protection.hpp:556-560). -/
noncomputable def optimizeLoop {ε N : Type} {w : ℕ} (net : Network N w) (high very : Codec w) : List (Critical w) → State ε × N → Outcome (State ε × N)
  | [], x => .ok x
  | c :: cs, x => (protect high very x.1 c.weight c.sensitivity).bind fun r => optimizeLoop net high very cs (r.2, net.replace c.weight r.1 x.2)

/-- The number of weights to protect (neural/adaptive_protection.hpp:549-553). -/
noncomputable def quota (n : ℕ) (budget : ℝ) : ℕ := max ⌊(n : ℝ) * budget⌋₊ 1

/-- `apply_optimized_protection` (neural/adaptive_protection.hpp:539-565). -/
noncomputable def optimize {ε N : Type} {w : ℕ} (net : Network N w) (high very : Codec w) (cs : List (Critical w)) (budget : ℝ) (s : State ε) (n : N) :
    Outcome (State ε × N) :=
  if cs = [] ∨ budget ≤ 0 then .ok (s, n)
  else
    (optimizeLoop net high very (cs.take (min (quota cs.length budget) cs.length)) (s, n)).bind fun r =>
      .ok ({ r.1 with stats := { r.1.stats with total := cs.length, protectedW := quota cs.length budget } }, r.2)

end Verif.NeuralAdaptive
