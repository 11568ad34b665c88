import Verif.Model.NeuralAdaptive
import Verif.Props.ReedSolomon
import Mathlib.Tactic
/-!
Properties of the adaptive protection of weights: C249 choice of the level, C250 unprotected and "Hamming" levels, C251 parity, C252 Reed-Solomon levels,
C253 statistics, C254 critical weights, C255 optimized protection.
-/
namespace Verif.NeuralAdaptive

/-- The strength of a level. -/
def rank : Level → ℕ
  | .none => 0
  | .minimal => 1
  | .moderate => 2
  | .high => 3
  | .veryHigh => 4
  | .adaptive => 5

/-! ### C249 -/

/-- **C249.** A level that was set is used whatever the criticality; in adaptive mode the level depends on the criticality only, is one of the five others, is never
weaker for a more critical weight, and is that of the thresholds 0.1, 1, 5 and 10. -/
theorem C249_effective {ε : Type} (s : State ε) (c c' : ℝ) :
    (s.level ≠ .adaptive → effective s (.fin c) = s.level) ∧
    (s.level = .adaptive → effective s (.fin c) ≠ .adaptive ∧
      (c ≤ c' → rank (effective s (.fin c)) ≤ rank (effective s (.fin c'))) ∧
      (effective s (.fin c) = .none ↔ c ≤ 1 / 10) ∧ (effective s (.fin c) = .minimal ↔ 1 / 10 < c ∧ c ≤ 1) ∧
      (effective s (.fin c) = .moderate ↔ 1 < c ∧ c ≤ 5) ∧ (effective s (.fin c) = .high ↔ 5 < c ∧ c ≤ 10) ∧
      (effective s (.fin c) = .veryHigh ↔ 10 < c)) := by
  refine ⟨fun h => if_pos h, fun h => ?_⟩
  have e : ∀ x, effective s x = byCriticality x := fun x => if_neg (by simpa using h)
  simp only [e, byCriticality, XD.lt_fin]
  refine ⟨?_, ?_, ?_, ?_, ?_, ?_, ?_⟩
  · split_ifs <;> simp
  · intro hc
    split_ifs <;> simp only [rank] <;> first | omega | (exfalso; linarith)
  all_goals
    split_ifs <;> simp <;> first | linarith | (intro; linarith) | (constructor <;> linarith)

example : effective { env := (), level := .adaptive } (.fin 7) = .high := by
  have := (C249_effective ({ env := (), level := .adaptive } : State Unit) 7 7).2 rfl
  exact this.2.2.2.2.2.1.2 ⟨by norm_num, by norm_num⟩

/-- **C249 (environment).** Setting an environment gives a level that depends on its upset probability only, whatever happened before; it is never weaker for a
harsher environment, and upsets of several bits are expected exactly above 1/1000. -/
theorem C249_environment {ε : Type} (prob : ε → ℝ) (s t : State ε) (e e' : ε) :
    (setEnvironment prob s e).level = (setEnvironment prob t e).level ∧ (setEnvironment prob s e).env = e ∧ (setEnvironment prob s e).stats = s.stats ∧
    (prob e ≤ prob e' → rank (setEnvironment prob s e).level ≤ rank (setEnvironment prob t e').level) ∧
    ((setEnvironment prob s e).model ≠ .singleBit ↔ 1 / 1000 < prob e) ∧
    ((setEnvironment prob s e).level = .none ↔ prob e ≤ 1 / 1000000) ∧ ((setEnvironment prob s e).level = .veryHigh ↔ 1 / 1000 < prob e) := by
  unfold setEnvironment adapt
  dsimp only
  refine ⟨?_, ?_, ?_, ?_, ?_, ?_, ?_⟩
  · split_ifs <;> rfl
  · split_ifs <;> rfl
  · split_ifs <;> rfl
  · intro h
    split_ifs <;> simp only [rank] <;> first | omega | (exfalso; linarith)
  · split_ifs <;> simp <;> first | assumption | linarith
  · split_ifs <;> simp <;> first | assumption | linarith
  · split_ifs <;> simp <;> first | assumption | linarith

/-- **C249, violated.** Adaptive mode, like every level a user has set, does not survive the next environment: `set_environment` replaces it, so no weight is protected
according to its criticality any more; in a quiet environment also critical weights lose all protection. -/
theorem C249_mode_violated {ε : Type} (prob : ε → ℝ) (s : State ε) (l : Level) (e : ε) :
    (setEnvironment prob { s with level := l } e).level ≠ .adaptive ∧
    (setEnvironment prob { s with level := l } e).level = (setEnvironment prob s e).level ∧
    (prob e ≤ 1 / 1000000 → ∀ c : XD, effective (setEnvironment prob { s with level := l } e) c = .none) := by
  have h := C249_environment prob { s with level := l } s e e
  refine ⟨?_, h.1, ?_⟩
  · unfold setEnvironment adapt
    dsimp only
    split_ifs <;> simp
  · intro hp c
    have hn := h.2.2.2.2.2.1.2 hp
    unfold effective
    rw [if_pos (by rw [hn]; decide), hn]

/-! ### C250 -/

/-- **C250.** Without protection values are stored and read as they are, and nothing but the number of weights is counted. -/
theorem C250_none {ε : Type} {w : ℕ} (prob : ε → ℝ) (high very : Codec w) (s : State ε) (c : XD) (h : effective s c = .none) (v : BitVec w) (seed : ℕ) :
    ∃ t, protect high very s v c = .ok (v, t) ∧ t.stats = { s.stats with total := s.stats.total + 1 } ∧ recover prob high very s v c seed = .ok ((v, false), s) := by
  refine ⟨counted s .none, ?_, ?_, ?_⟩
  · unfold protect; rw [h]
  · simp [counted]
  · unfold recover; rw [h]

example : effective ({ env := (), level := .none } : State Unit) (.fin 100) = .none := (C249_effective _ 100 100).1 (by decide)

/-- **C250, violated.** The level documented as "TMR or Hamming code" stores the bare value: whatever was hit, all bits included, reading it returns the corrupted
value, reports no correction and counts no error, although the weight counts as protected. -/
theorem C250_hamming_violated {ε : Type} {w : ℕ} (prob : ε → ℝ) (high very : Codec w) (s : State ε) (c : XD) (h : effective s c = .moderate) (v hit : BitVec w)
    (seed : ℕ) :
    ∃ t, protect high very s v c = .ok (v, t) ∧ t.stats.protectedW = s.stats.protectedW + 1 ∧ recover prob high very t hit c seed = .ok ((hit, false), t) := by
  refine ⟨counted s .moderate, ?_, ?_, ?_⟩
  · unfold protect; rw [h]; rfl
  · simp [counted]
  · have : effective (counted s .moderate) c = .moderate := h
    unfold recover
    rw [this]
    rfl

example : effective ({ env := () } : State Unit) (.fin 1) = .moderate := (C249_effective _ 1 1).1 (by decide)

/-! ### C251 -/

theorem fold_xor (f : ℕ → Bool) (n : ℕ) (b : Bool) : (List.range n).foldl (fun p i => p ^^ f i) b = (b ^^ (List.range n).foldl (fun p i => p ^^ f i) false) := by
  induction n with
  | zero => simp
  | succ n ih =>
    rw [List.range_succ, List.foldl_append, List.foldl_append, ih]
    simp

theorem fold_flip (f g : ℕ → Bool) (i : ℕ) (hg : ∀ j, g j = if j = i then !f j else f j) (n : ℕ) :
    (List.range n).foldl (fun p i => p ^^ g i) false = ((List.range n).foldl (fun p i => p ^^ f i) false ^^ decide (i < n)) := by
  induction n with
  | zero => simp
  | succ n ih =>
    rw [List.range_succ, List.foldl_append, List.foldl_append, ih]
    simp only [List.foldl_cons, List.foldl_nil, hg n]
    rcases Nat.lt_trichotomy n i with h | h | h
    · simp [show ¬ n = i by omega, show ¬ i < n by omega, show ¬ i < n + 1 by omega]
    · subst h; simp
    · rw [if_neg (by omega), decide_eq_true h, decide_eq_true (show i < n + 1 by omega)]
      generalize List.foldl _ _ _ = x
      cases x <;> cases f n <;> rfl

/-- Flipping one bit changes the parity. -/
theorem parity_flip {w : ℕ} (v : BitVec w) (i : ℕ) (hi : i < w) : parity (flipBit v i) = !parity v := by
  unfold parity
  rw [fold_flip (fun j => v.getLsbD j) (fun j => (flipBit v i).getLsbD j) i, decide_eq_true hi]
  · simp
  · intro j
    simp only [flipBit, BitVec.getLsbD_xor, BitVec.getLsbD_twoPow]
    by_cases h : j = i
    · subst h; simp [hi]
    · simp [h, show ¬ i = j by omega]

theorem or_eq_flip {w : ℕ} (v : BitVec w) (i : ℕ) (h : v.getLsbD i = false) : v ||| BitVec.twoPow w i = flipBit v i := by
  apply BitVec.eq_of_getLsbD_eq
  intro j hj
  simp only [flipBit, BitVec.getLsbD_or, BitVec.getLsbD_xor, BitVec.getLsbD_twoPow]
  by_cases e : i = j
  · subst e; simp [h]
  · simp [e]

theorem removeParity_bit {w : ℕ} (v : BitVec w) (j : ℕ) (hj : j < w) : (removeParity v).getLsbD j = (v.getLsbD j && decide (j ≠ w - 1)) := by
  simp only [removeParity, BitVec.getLsbD_and, BitVec.getLsbD_not, BitVec.getLsbD_twoPow, hj, decide_true, Bool.true_and]
  by_cases e : j = w - 1
  · rw [← e]; simp [hj]
  · simp [e, show ¬ w - 1 = j by omega]

theorem removeParity_clear {w : ℕ} (v : BitVec w) (h : v.getLsbD (w - 1) = false) : removeParity v = v := by
  apply BitVec.eq_of_getLsbD_eq
  intro j hj
  rw [removeParity_bit v j hj]
  by_cases e : j = w - 1
  · rw [e, h]; rfl
  · simp [e]

theorem removeParity_flip {w : ℕ} (v : BitVec w) (h : v.getLsbD (w - 1) = false) : removeParity (flipBit v (w - 1)) = v := by
  apply BitVec.eq_of_getLsbD_eq
  intro j hj
  rw [removeParity_bit _ j hj]
  by_cases e : j = w - 1
  · rw [e, h]; simp
  · simp [e, flipBit, show ¬ w - 1 = j by omega]

theorem flip_bit {w : ℕ} (v : BitVec w) (i j : ℕ) (hi : i < w) : (flipBit v i).getLsbD j = if j = i then !v.getLsbD j else v.getLsbD j := by
  simp only [flipBit, BitVec.getLsbD_xor, BitVec.getLsbD_twoPow]
  by_cases h : j = i
  · subst h; simp [hi]
  · simp [h, show ¬ i = j by omega]

/-- What reading at the parity level does. -/
theorem recover_minimal {ε : Type} {w : ℕ} (prob : ε → ℝ) (high very : Codec w) (s : State ε) (c : XD) (h : effective s c = .minimal) (v : BitVec w) (seed : ℕ) :
    recover prob high very s v c seed = .ok ((removeParity v, false), if v.getLsbD (w - 1) ≠ parity v then failed s else s) := by
  unfold recover
  rw [h]
  rfl

/-- **C251.** Values with a clear top bit survive the parity level unharmed. -/
theorem C251_roundtrip {ε : Type} {w : ℕ} (prob : ε → ℝ) (high very : Codec w) (s : State ε) (c : XD) (h : effective s c = .minimal) (v : BitVec w)
    (hv : v.getLsbD (w - 1) = false) (seed : ℕ) :
    ∃ x t u, protect high very s v c = .ok (x, t) ∧ recover prob high very t x c seed = .ok ((v, false), u) := by
  have h2 : effective (counted s .minimal) c = .minimal := h
  refine ⟨addParity v (parity v), counted s .minimal, ?_⟩
  have hp : protect high very s v c = .ok (addParity v (parity v), counted s .minimal) := by unfold protect; rw [h]
  have hr : removeParity (addParity v (parity v)) = v := by
    unfold addParity
    split
    · rw [or_eq_flip v _ hv, removeParity_flip v hv]
    · exact removeParity_clear v hv
  have e := recover_minimal prob high very _ c h2 (addParity v (parity v)) seed
  rw [hr] at e
  exact ⟨_, hp, e⟩

/-- **C251 (detection).** If such a value has even parity, then reading it unhit reports nothing, and after any single flip the error is reported or the value read
is the right one. -/
theorem C251_detect {ε : Type} {w : ℕ} (prob : ε → ℝ) (high very : Codec w) (s : State ε) (c : XD) (h : effective s c = .minimal) (v : BitVec w)
    (hv : v.getLsbD (w - 1) = false) (he : parity v = false) (seed : ℕ) :
    ∃ t, protect high very s v c = .ok (v, t) ∧ recover prob high very t v c seed = .ok ((v, false), t) ∧
      ∀ i < w, (i ≠ w - 1 → ∃ x, recover prob high very t (flipBit v i) c seed = .ok ((x, false), failed t)) ∧
        (i = w - 1 → recover prob high very t (flipBit v i) c seed = .ok ((v, false), t)) := by
  have h2 : effective (counted s .minimal) c = .minimal := h
  refine ⟨counted s .minimal, ?_, ?_, ?_⟩
  · unfold protect; rw [h, he]; rfl
  · rw [recover_minimal prob high very _ c h2, removeParity_clear v hv, hv, he]
    rfl
  · intro i hi
    constructor
    · intro hne
      refine ⟨removeParity (flipBit v i), ?_⟩
      rw [recover_minimal prob high very _ c h2, flip_bit v i _ hi, if_neg (Ne.symm hne), parity_flip v i hi, hv, he]
      rfl
    · intro e
      subst e
      rw [recover_minimal prob high very _ c h2, flip_bit v _ _ hi, if_pos rfl, parity_flip v _ hi, hv, he, removeParity_flip v hv]
      rfl

example : (5#8).getLsbD 7 = false ∧ parity (5#8) = false := by decide

/-- **C251, violated: odd parity.** For every value of odd parity the check is the wrong way round, as the parity bit is included in the parity it is compared with:
an unhit value is reported as an error, and after a flip of any bit but the parity bit nothing is reported and a wrong value is returned. -/
theorem C251_odd_violated {ε : Type} {w : ℕ} (hw : 0 < w) (prob : ε → ℝ) (high very : Codec w) (s : State ε) (c : XD) (h : effective s c = .minimal) (v : BitVec w)
    (hv : v.getLsbD (w - 1) = false) (ho : parity v = true) (seed : ℕ) :
    ∃ x t, protect high very s v c = .ok (x, t) ∧ recover prob high very t x c seed = .ok ((v, false), failed t) ∧
      ∀ i < w - 1, ∃ y, recover prob high very t (flipBit x i) c seed = .ok ((y, false), t) ∧ y ≠ v := by
  have h2 : effective (counted s .minimal) c = .minimal := h
  have hx : addParity v true = flipBit v (w - 1) := or_eq_flip v _ hv
  have hlast : w - 1 < w := by omega
  refine ⟨flipBit v (w - 1), counted s .minimal, ?_, ?_, ?_⟩
  · unfold protect; rw [h, ho]; dsimp only; rw [hx]
  · rw [recover_minimal prob high very _ c h2, flip_bit v _ _ hlast, if_pos rfl, parity_flip v _ hlast, hv, ho, removeParity_flip v hv]
    rfl
  · intro i hi
    have hi' : i < w := by omega
    refine ⟨removeParity (flipBit (flipBit v (w - 1)) i), ?_, ?_⟩
    · have hb : (flipBit (flipBit v (w - 1)) i).getLsbD (w - 1) = true := by
        rw [flip_bit _ i _ hi', if_neg (by omega), flip_bit v _ _ hlast, if_pos rfl, hv]
        rfl
      rw [recover_minimal prob high very _ c h2, hb, parity_flip _ i hi', parity_flip v _ hlast, ho]
      rfl
    · intro e
      have : (removeParity (flipBit (flipBit v (w - 1)) i)).getLsbD i = v.getLsbD i := by rw [e]
      rw [removeParity_bit _ i hi', flip_bit _ i _ hi', if_pos rfl, flip_bit v _ _ hlast, if_neg (by omega)] at this
      have hne : i ≠ w - 1 := by omega
      simp [hne] at this

example : (7#8).getLsbD 7 = false ∧ parity (7#8) = true := by decide

/-- **C251, violated: sign.** The parity bit takes the place of the top bit, the sign of every signed integer and floating-point number: a negative value is never read
back, hit or not, but its top bit is cleared (for `float` and `double`: its absolute value). -/
theorem C251_sign_violated {ε : Type} {w : ℕ} (hw : 0 < w) (prob : ε → ℝ) (high very : Codec w) (s : State ε) (c : XD) (h : effective s c = .minimal) (v : BitVec w)
    (hv : v.getLsbD (w - 1) = true) (seed : ℕ) :
    ∃ x t y u, protect high very s v c = .ok (x, t) ∧ recover prob high very t x c seed = .ok ((y, false), u) ∧ y ≠ v ∧ y = flipBit v (w - 1) := by
  have h2 : effective (counted s .minimal) c = .minimal := h
  have hlast : w - 1 < w := by omega
  have hx : addParity v (parity v) = v := by
    unfold addParity
    split
    · apply BitVec.eq_of_getLsbD_eq
      intro j hj
      simp only [BitVec.getLsbD_or, BitVec.getLsbD_twoPow]
      by_cases e : w - 1 = j
      · rw [← e, hv]; rfl
      · simp [e]
    · rfl
  have hy : removeParity v = flipBit v (w - 1) := by
    apply BitVec.eq_of_getLsbD_eq
    intro j hj
    rw [removeParity_bit _ j hj, flip_bit v _ _ hlast]
    by_cases e : j = w - 1
    · rw [if_pos e, e, hv]; simp
    · simp [e]
  refine ⟨v, counted s .minimal, removeParity v, _, ?_, recover_minimal prob high very _ c h2 v seed, ?_, hy⟩
  · unfold protect; rw [h]; dsimp only; rw [hx]
  · intro e
    have : (removeParity v).getLsbD (w - 1) = v.getLsbD (w - 1) := by rw [e]
    rw [removeParity_bit _ _ hlast, hv] at this
    simp at this

/-! ### C252 -/

/-- **C252, violated.** With the codecs of the repository the two highest levels cannot be used at all: their tables are written out of bounds when a codec is created,
so protecting and reading any value is undefined, for all types. -/
theorem C252_shipped_violated {ε : Type} {w : ℕ} (prob : ε → ℝ) (high very : Codec w) (n : ℕ) (hh : high.ready = shippedReady n 8) (hv : very.ready = shippedReady n 16)
    (s : State ε) (c : XD) (h : effective s c = .high ∨ effective s c = .veryHigh) (v : BitVec w) (seed : ℕ) :
    protect high very s v c = .ub ∧ recover prob high very s v c seed = .ub := by
  have e : ∀ ecc, shippedReady n ecc = .ub := by
    intro ecc
    unfold shippedReady
    rw [Props.Rs.C25_symbol8_violated]
  rw [e] at hh hv
  rcases h with h | h <;> (constructor <;> [unfold protect; unfold recover] <;> rw [h] <;> simp [protectRs, recoverRs, hh, hv, Outcome.bind])

/-- A codec that works, for the examples: nothing is changed. -/
def plainCodec (w : ℕ) : Codec w := ⟨.ok (), fun v => [v.toNat], fun l _ _ => l, fun l => some (BitVec.ofNat w (l.headD 0)), 25⟩

example : shippedReady 4 8 = .ub ∧ effective ({ env := (), level := .high } : State Unit) (.fin 1) = .high :=
  ⟨by unfold shippedReady; rw [Props.Rs.C25_symbol8_violated], (C249_effective _ 1 1).1 (by decide)⟩

/-- **C252 (working codec).** Given any codec that can be created, protecting at these levels stores the bare value; reading returns what the codec decodes from a
fresh encoding of what is stored after simulated errors, or what is stored if it cannot be decoded, and says which. -/
theorem C252_codec {ε : Type} {w : ℕ} (prob : ε → ℝ) (k : Codec w) (hk : k.ready = .ok ()) (s : State ε) (c : XD) (h : effective s c = .high) (v : BitVec w)
    (seed : ℕ) :
    (∃ t, protect k k s v c = .ok (v, t) ∧ t.stats.overhead = s.stats.overhead + k.overhead) ∧
    (∀ d, k.decode (k.strike (k.encode v) (prob s.env) seed) = some d → recover prob k k s v c seed = .ok ((d, true), corrected s)) ∧
    (k.decode (k.strike (k.encode v) (prob s.env) seed) = none → recover prob k k s v c seed = .ok ((v, false), failed s)) := by
  refine ⟨⟨counted { s with stats := { s.stats with overhead := s.stats.overhead + k.overhead } } .high, ?_, ?_⟩, ?_, ?_⟩
  · unfold protect; rw [h]; dsimp only [protectRs]; rw [hk]; rfl
  · rfl
  · intro d hd
    unfold recover; rw [h]; dsimp only [recoverRs]; rw [hk]; simp only [Outcome.bind]; rw [hd]
  · intro hd
    unfold recover; rw [h]; dsimp only [recoverRs]; rw [hk]; simp only [Outcome.bind]; rw [hd]

/-- **C252, violated.** Even with a perfect codec these levels protect nothing: in the absence of simulated errors every value read, in particular every corrupted one,
is returned as it is and reported, and counted, as corrected. -/
theorem C252_corrected_violated {ε : Type} {w : ℕ} (prob : ε → ℝ) (k : Codec w) (hk : k.ready = .ok ()) (hs : ∀ l p seed, k.strike l p seed = l)
    (hd : ∀ v, k.decode (k.encode v) = some v) (s : State ε) (c : XD) (h : effective s c = .high) (v hit : BitVec w) (seed : ℕ) :
    ∃ t, protect k k s v c = .ok (v, t) ∧ recover prob k k t hit c seed = .ok ((hit, true), corrected t) := by
  obtain ⟨⟨t, ht, _⟩, _, _⟩ := C252_codec prob k hk s c h v seed
  refine ⟨t, ht, ?_⟩
  have h2 : effective t c = .high := by
    unfold protect at ht; rw [h] at ht; dsimp only [protectRs] at ht; rw [hk] at ht
    simp only [Outcome.bind] at ht
    injection ht with ht
    injection ht with _ ht
    rw [← ht]
    exact h
  exact (C252_codec prob k hk t c h2 hit seed).2.1 hit (by rw [hs, hd])

example : (plainCodec 8).ready = .ok () ∧ (∀ l p seed, (plainCodec 8).strike l p seed = l) ∧ ∀ v, (plainCodec 8).decode ((plainCodec 8).encode v) = some v :=
  ⟨rfl, fun _ _ _ => rfl, fun v => by simp [plainCodec]⟩

/-! ### C253 -/

theorem differences_eq {w : ℕ} (a b : BitVec w) : differences a b = (List.range w).countP fun i => a.getLsbD i != b.getLsbD i := by
  have key : ∀ (l : List ℕ) (n : ℕ), l.foldl (fun n i => if (a ^^^ b).getLsbD i then n + 1 else n) n = n + l.countP fun i => a.getLsbD i != b.getLsbD i := by
    intro l
    induction l with
    | nil => simp
    | cons i l ih =>
      intro n
      rw [List.foldl_cons, ih, List.countP_cons]
      simp only [BitVec.getLsbD_xor]
      cases a.getLsbD i <;> cases b.getLsbD i <;> simp <;> omega
  unfold differences
  rw [key]
  simp

/-- **C253 (count).** The number of flips counted is the number of positions in which the values differ: at most all bits, and 0 exactly for equal values. -/
theorem C253_differences {w : ℕ} (a b : BitVec w) :
    differences a b = (List.range w).countP (fun i => a.getLsbD i != b.getLsbD i) ∧ differences a b ≤ w ∧ (differences a b = 0 ↔ a = b) := by
  refine ⟨differences_eq a b, ?_, ?_⟩
  · rw [differences_eq]
    exact List.countP_le_length.trans (by simp)
  · rw [differences_eq, List.countP_eq_zero]
    constructor
    · intro h
      apply BitVec.eq_of_getLsbD_eq
      intro i hi
      have := h i (List.mem_range.2 hi)
      simpa using this
    · rintro rfl i _
      simp

/-- The calls. -/
inductive Op (ε : Type) (w : ℕ) where
  | setEnvironment (e : ε)
  | setLevel (l : Level)
  | setModel (m : Upset)
  | reset
  | protect (v : BitVec w) (c : XD)
  | recover (v : BitVec w) (c : XD) (seed : ℕ)
  | radiate (v : BitVec w) (p : ℝ) (seed : ℕ)

/-- One call. -/
noncomputable def Op.step {ε : Type} {w : ℕ} (prob : ε → ℝ) (upset : BitVec w → Upset → ℝ → ℕ → BitVec w) (high very : Codec w) (s : State ε) : Op ε w → Outcome (State ε)
  | .setEnvironment e => .ok (NeuralAdaptive.setEnvironment prob s e)
  | .setLevel l => .ok { s with level := l }
  | .setModel m => .ok { s with model := m }
  | .reset => .ok { s with stats := s.stats.reset }
  | .protect v c => (NeuralAdaptive.protect high very s v c).bind fun r => .ok r.2
  | .recover v c seed => (NeuralAdaptive.recover prob high very s v c seed).bind fun r => .ok r.2
  | .radiate v p seed => .ok (NeuralAdaptive.radiate prob upset s v p seed).2

/-- Any number of calls. -/
noncomputable def runOps {ε : Type} {w : ℕ} (prob : ε → ℝ) (upset : BitVec w → Upset → ℝ → ℕ → BitVec w) (high very : Codec w) : List (Op ε w) → State ε → Outcome (State ε)
  | [], s => .ok s
  | o :: os, s => (o.step prob upset high very s).bind (runOps prob upset high very os)

/-- The calls of `protect_value` in a history. -/
def isProtect {ε : Type} {w : ℕ} : Op ε w → Bool
  | .protect _ _ => true
  | _ => false

/-- What holds of the statistics. -/
structure Sane (t : Stats) : Prop where
  flips : t.flipped ≤ t.bits
  weights : t.protectedW ≤ t.total
  low : 0 ≤ t.rate
  high : t.rate ≤ 1

theorem protect_stats {ε : Type} {w : ℕ} (high very : Codec w) (s : State ε) (v : BitVec w) (c : XD) (r : BitVec w × State ε) (h : protect high very s v c = .ok r) :
    r.2.stats.total = s.stats.total + 1 ∧ r.2.stats.protectedW = s.stats.protectedW + (if effective s c = .none then 0 else 1) ∧ r.2.stats.flipped = s.stats.flipped ∧
    r.2.stats.bits = s.stats.bits ∧ r.2.stats.rate = s.stats.rate ∧ r.2.stats.corrections = s.stats.corrections ∧ r.2.stats.uncorrectable = s.stats.uncorrectable ∧
    r.2.level = s.level := by
  unfold protect at h
  have rs : ∀ (k : Codec w) (l : Level), protectRs k s v l = .ok r →
      r.2 = counted { s with stats := { s.stats with overhead := s.stats.overhead + k.overhead } } l := by
    intro k l hh
    unfold protectRs at hh
    cases hr : k.ready with
    | ok _ =>
      rw [hr] at hh
      simp only [Outcome.bind] at hh
      injection hh with hh
      rw [← hh]
    | ub =>
      rw [hr] at hh
      cases hh
  have fin : ∀ (l : Level) (o : ℝ), r.2 = counted { s with stats := { s.stats with overhead := o } } l →
      r.2.stats.total = s.stats.total + 1 ∧ r.2.stats.protectedW = s.stats.protectedW + (if l = .none then 0 else 1) ∧ r.2.stats.flipped = s.stats.flipped ∧
      r.2.stats.bits = s.stats.bits ∧ r.2.stats.rate = s.stats.rate ∧ r.2.stats.corrections = s.stats.corrections ∧ r.2.stats.uncorrectable = s.stats.uncorrectable ∧
      r.2.level = s.level := by
    intro l o e
    rw [e]
    exact ⟨rfl, rfl, rfl, rfl, rfl, rfl, rfl, rfl⟩
  have plain : ∀ (x : BitVec w) (l : Level), (Outcome.ok (x, counted s l) : Outcome (BitVec w × State ε)) = .ok r →
      r.2 = counted { s with stats := { s.stats with overhead := s.stats.overhead } } l := by
    intro x l e
    injection e with e
    rw [← e]
  generalize effective s c = l at h
  cases l <;> dsimp only at h
  · exact fin _ _ (plain _ _ h)
  · exact fin _ _ (plain _ _ h)
  · exact fin _ _ (plain _ _ h)
  · exact fin _ _ (rs _ _ h)
  · exact fin _ _ (rs _ _ h)
  · exact fin _ _ (plain _ _ h)

theorem recover_stats {ε : Type} {w : ℕ} (prob : ε → ℝ) (high very : Codec w) (s : State ε) (v : BitVec w) (c : XD) (seed : ℕ) (r : (BitVec w × Bool) × State ε)
    (h : recover prob high very s v c seed = .ok r) : r.2 = s ∨ r.2 = corrected s ∨ r.2 = failed s := by
  have rs : ∀ (k : Codec w), recoverRs prob k s v seed = .ok r → r.2 = s ∨ r.2 = corrected s ∨ r.2 = failed s := by
    intro k hh
    unfold recoverRs at hh
    cases hr : k.ready with
    | ok _ =>
      rw [hr] at hh
      simp only [Outcome.bind] at hh
      cases hd : k.decode (k.strike (k.encode v) (prob s.env) seed) with
      | none => rw [hd] at hh; injection hh with hh; rw [← hh]; exact Or.inr (Or.inr rfl)
      | some d => rw [hd] at hh; injection hh with hh; rw [← hh]; exact Or.inr (Or.inl rfl)
    | ub =>
      rw [hr] at hh
      cases hh
  unfold recover at h
  generalize effective s c = l at h
  cases l <;> dsimp only at h
  · injection h with h; rw [← h]; exact Or.inl rfl
  · injection h with h; rw [← h]
    dsimp only
    split
    · exact Or.inr (Or.inr rfl)
    · exact Or.inl rfl
  · injection h with h; rw [← h]; exact Or.inl rfl
  · exact rs _ h
  · exact rs _ h
  · injection h with h; rw [← h]; exact Or.inl rfl

/-- **C253.** After any history of calls that ended, the statistics are consistent: not more flips than bits, not more protected weights than weights, an upset
rate and a correction ratio between 0 and 1; the number of weights is the number of values that were protected. -/
theorem C253_history {ε : Type} {w : ℕ} (prob : ε → ℝ) (upset : BitVec w → Upset → ℝ → ℕ → BitVec w) (high very : Codec w) (ops : List (Op ε w)) (s t : State ε)
    (hs : s.stats = {}) (h : runOps prob upset high very ops s = .ok t) :
    Sane t.stats ∧ 0 ≤ t.stats.ratio ∧ t.stats.ratio ≤ 1 ∧ t.stats.total = ops.countP isProtect := by
  have ratio : ∀ u : Stats, 0 ≤ u.ratio ∧ u.ratio ≤ 1 := by
    intro u
    unfold Stats.ratio
    split
    · constructor <;> norm_num
    · next hne =>
      have hp : (0 : ℝ) < ((u.corrections + u.uncorrectable : ℕ) : ℝ) := by
        have : 0 < u.corrections + u.uncorrectable := by omega
        exact_mod_cast this
      constructor
      · positivity
      · rw [div_le_one hp]
        push_cast
        have : (0 : ℝ) ≤ u.uncorrectable := Nat.cast_nonneg _
        linarith
  have step : ∀ (o : Op ε w) (s u : State ε), Sane s.stats → o.step prob upset high very s = .ok u →
      Sane u.stats ∧ u.stats.total = s.stats.total + (if isProtect o then 1 else 0) := by
    intro o s u hsane ho
    cases o with
    | setEnvironment e =>
      injection ho with ho
      have : u.stats = s.stats := by rw [← ho]; exact (C249_environment prob s s e e).2.2.1
      rw [this]
      exact ⟨hsane, rfl⟩
    | setLevel l => injection ho with ho; rw [← ho]; exact ⟨hsane, rfl⟩
    | setModel m => injection ho with ho; rw [← ho]; exact ⟨hsane, rfl⟩
    | reset =>
      injection ho with ho
      rw [← ho]
      exact ⟨⟨Nat.zero_le _, hsane.weights, hsane.low, hsane.high⟩, rfl⟩
    | protect v c =>
      simp only [Op.step] at ho
      cases hp : protect high very s v c with
      | ub => rw [hp] at ho; cases ho
      | ok r =>
        rw [hp] at ho
        injection ho with ho
        obtain ⟨a, b, c', d, e, _⟩ := protect_stats high very s v c r hp
        rw [← ho]
        refine ⟨⟨?_, ?_, ?_, ?_⟩, a⟩
        · rw [c', d]; exact hsane.flips
        · rw [a, b]
          have := hsane.weights
          split <;> omega
        · rw [e]; exact hsane.low
        · rw [e]; exact hsane.high
    | recover v c seed =>
      simp only [Op.step] at ho
      cases hp : recover prob high very s v c seed with
      | ub => rw [hp] at ho; cases ho
      | ok r =>
        rw [hp] at ho
        injection ho with ho
        rcases recover_stats prob high very s v c seed r hp with e | e | e
        · rw [← ho, e]; exact ⟨hsane, rfl⟩
        · rw [← ho, e]; exact ⟨⟨hsane.flips, hsane.weights, hsane.low, hsane.high⟩, rfl⟩
        · rw [← ho, e]; exact ⟨⟨hsane.flips, hsane.weights, hsane.low, hsane.high⟩, rfl⟩
    | radiate v p seed =>
      injection ho with ho
      rw [← ho]
      unfold NeuralAdaptive.radiate
      dsimp only
      generalize (if p < 0 then prob s.env else p) = q
      split
      · exact ⟨hsane, rfl⟩
      · have hd := (C253_differences v (upset v s.model q seed)).2.1
        have hf := hsane.flips
        have hle : s.stats.flipped + differences v (upset v s.model q seed) ≤ s.stats.bits + w := by omega
        refine ⟨⟨hle, hsane.weights, ?_, ?_⟩, rfl⟩
        · positivity
        · apply div_le_one_of_le₀
          · exact_mod_cast hle
          · positivity
  have run : ∀ (ops : List (Op ε w)) (s t : State ε), Sane s.stats → runOps prob upset high very ops s = .ok t →
      Sane t.stats ∧ t.stats.total = s.stats.total + ops.countP isProtect := by
    intro ops
    induction ops with
    | nil => intro s t hsane h; injection h with h; rw [← h]; exact ⟨hsane, rfl⟩
    | cons o ops ih =>
      intro s t hsane h
      unfold runOps at h
      cases ho : o.step prob upset high very s with
      | ub => rw [ho] at h; cases h
      | ok u =>
        rw [ho] at h
        obtain ⟨a, b⟩ := step o s u hsane ho
        obtain ⟨c, d⟩ := ih u t a h
        refine ⟨c, ?_⟩
        rw [d, b, List.countP_cons]
        omega
  have h0 : Sane s.stats := by rw [hs]; exact ⟨le_refl _, le_refl _, le_refl _, by norm_num⟩
  obtain ⟨a, b⟩ := run ops s t h0 h
  refine ⟨a, (ratio _).1, (ratio _).2, ?_⟩
  rw [b, hs]
  simp

example : ∃ t, runOps (fun _ : Unit => 0) (fun v _ _ _ => v) (plainCodec 8) (plainCodec 8) [.setLevel .none, .recover 3 (.fin 1) 0, .radiate 3 1 0, .reset] { env := () } = .ok t := by
  have h : recover (fun _ : Unit => (0 : ℝ)) (plainCodec 8) (plainCodec 8) { env := (), level := .none } 3 (.fin 1) 0 = .ok ((3, false), { env := (), level := .none }) := rfl
  simp only [runOps, Op.step, Outcome.bind, h]
  exact ⟨_, rfl⟩

/-- **C253 (exposure).** A probability of 0 changes nothing and counts nothing; a negative one stands for that of the environment; otherwise all bits are counted, and
the rate times the bits is the number of flips. -/
theorem C253_radiate {ε : Type} {w : ℕ} (hw : 0 < w) (prob : ε → ℝ) (upset : BitVec w → Upset → ℝ → ℕ → BitVec w) (s : State ε) (v : BitVec w) (seed : ℕ) :
    radiate prob upset s v 0 seed = (v, s) ∧
    (∀ p < 0, 0 ≤ prob s.env → radiate prob upset s v p seed = radiate prob upset s v (prob s.env) seed) ∧
    ∀ p, 0 < p → ∃ t, radiate prob upset s v p seed = (upset v s.model p seed, t) ∧ t.stats.bits = s.stats.bits + w ∧
      t.stats.flipped = s.stats.flipped + differences v (upset v s.model p seed) ∧ t.stats.rate * t.stats.bits = t.stats.flipped := by
  refine ⟨?_, ?_, ?_⟩
  · simp [radiate]
  · intro p hp he
    unfold radiate
    rw [if_pos hp, if_neg (show ¬ prob s.env < 0 by linarith)]
  · intro p hp
    unfold radiate
    rw [if_neg (show ¬ p < 0 by linarith)]
    dsimp only
    rw [if_neg (show ¬ p ≤ 0 by linarith)]
    refine ⟨_, rfl, rfl, rfl, ?_⟩
    dsimp only
    have : ((s.stats.bits + w : ℕ) : ℝ) ≠ 0 := by positivity
    rw [div_mul_cancel₀ _ this]

/-- **C253, violated: reset.** `reset` forgets the flips but not the bits: after a reset the rate of the next exposure is too low whenever there was an earlier one, by
any factor if there were many. Weights, overhead and the rate itself are kept as well. -/
theorem C253_reset_violated {ε : Type} {w : ℕ} (prob : ε → ℝ) (upset : BitVec w → Upset → ℝ → ℕ → BitVec w) (s : State ε) (hb : 0 < s.stats.bits)
    (v : BitVec w) (p : ℝ) (hp : 0 < p) (seed : ℕ) (hd : 0 < differences v (upset v s.model p seed)) :
    s.stats.reset.rate = s.stats.rate ∧ s.stats.reset.total = s.stats.total ∧ s.stats.reset.overhead = s.stats.overhead ∧
    (radiate prob upset { s with stats := s.stats.reset } v p seed).2.stats.rate < (radiate prob upset { s with stats := {} } v p seed).2.stats.rate := by
  refine ⟨rfl, rfl, rfl, ?_⟩
  have hw : 0 < w := lt_of_lt_of_le hd (C253_differences _ _).2.1
  unfold radiate
  simp only [if_neg (show ¬ p < 0 by linarith), if_neg (show ¬ p ≤ 0 by linarith)]
  dsimp only [Stats.reset]
  have h1 : (0 : ℝ) < (differences v (upset v s.model p seed) : ℝ) := by exact_mod_cast hd
  have h2 : (0 : ℝ) < w := by exact_mod_cast hw
  have h3 : (0 : ℝ) < s.stats.bits := by exact_mod_cast hb
  push_cast
  simp only [zero_add]
  exact div_lt_div_of_pos_left h1 h2 (lt_add_of_pos_left _ h3)

example : 0 < differences (3#8) (2#8) := by decide

/-- **C253, violated: overhead.** The "memory overhead" adds up the percentage of every value that was protected: it grows without bound. -/
theorem C253_overhead_violated {ε : Type} {w : ℕ} (k : Codec w) (hk : k.ready = .ok ()) (prob : ε → ℝ) (upset : BitVec w → Upset → ℝ → ℕ → BitVec w)
    (s : State ε) (hl : s.level = .high) (v : BitVec w) (c : XD) (n : ℕ) :
    ∃ t, runOps prob upset k k (List.replicate n (.protect v c)) s = .ok t ∧ t.stats.overhead = s.stats.overhead + n * k.overhead := by
  induction n generalizing s with
  | zero => exact ⟨s, rfl, by simp⟩
  | succ n ih =>
    have he : effective s c = .high := by unfold effective; rw [hl]; rfl
    have hp : protect k k s v c = .ok (v, counted { s with stats := { s.stats with overhead := s.stats.overhead + k.overhead } } .high) := by
      unfold protect; rw [he]; dsimp only [protectRs]; rw [hk]; rfl
    obtain ⟨t, h1, h2⟩ := ih (counted { s with stats := { s.stats with overhead := s.stats.overhead + k.overhead } } .high) hl
    refine ⟨t, ?_, ?_⟩
    · rw [List.replicate_succ, runOps, Op.step, hp]
      exact h1
    · rw [h2]
      simp only [counted]
      push_cast
      ring

/-! ### C254 -/

/-- The weight survives being replaced and put back. -/
def Restores {N : Type} {w : ℕ} (net : Network N w) (n : N) : Prop := ∀ v i, v ∈ net.weights n → net.replace (flipBit v i) v (net.replace v (flipBit v i) n) = n

/-- **C254.** In a network in which a replaced weight can be put back, the analysis leaves the network as it was, and gives one entry for each weight, in order before
sorting: the relative growth of the error by a flip in the intact network, and the level of that growth. Without samples, or with different numbers of them, it gives
none. -/
theorem C254_identify {N : Type} {w : ℕ} (net : Network N w) (inputs expected : List (List ℝ)) (pick : ℕ → ℕ) (n : N) (hr : Restores net n) :
    (inputs = [] ∨ expected = [] ∨ inputs.length ≠ expected.length → identify net inputs expected pick n = ([], n)) ∧
    (inputs ≠ [] → inputs.length = expected.length →
      (identify net inputs expected pick n).2 = n ∧ (identify net inputs expected pick n).1.map Critical.weight = net.weights n ∧
      ∀ (i : ℕ) (v : BitVec w), (net.weights n)[i]? = some v → ∃ c, (identify net inputs expected pick n).1[i]? = some c ∧ c.weight = v ∧ c.level = byCriticality c.sensitivity ∧
        c.sensitivity = XD.div (.fin (networkError net (net.replace v (flipBit v (pick i)) n) inputs expected - networkError net n inputs expected))
          (.fin (networkError net n inputs expected))) := by
  constructor
  · intro h
    unfold identify
    rw [if_pos h]
  · intro h1 h2
    have h3 : expected ≠ [] := by
      intro e
      rw [e] at h2
      exact h1 (List.length_eq_zero_iff.1 h2)
    unfold identify
    rw [if_neg (by simp [h1, h2, h3])]
    generalize networkError net n inputs expected = base
    have loop : ∀ (vs : List (BitVec w)) (pick : ℕ → ℕ), (∀ v ∈ vs, v ∈ net.weights n) →
        (criticalLoop net inputs expected base vs pick n).2 = n ∧ (criticalLoop net inputs expected base vs pick n).1.map Critical.weight = vs ∧
        ∀ (i : ℕ) (v : BitVec w), vs[i]? = some v → ∃ c, (criticalLoop net inputs expected base vs pick n).1[i]? = some c ∧ c.weight = v ∧
          c.level = byCriticality c.sensitivity ∧
          c.sensitivity = XD.div (.fin (networkError net (net.replace v (flipBit v (pick i)) n) inputs expected - base)) (.fin base) := by
      intro vs
      induction vs with
      | nil => intro pick _; exact ⟨rfl, rfl, fun i v h => by simp at h⟩
      | cons v vs ih =>
        intro pick hv
        have hback := hr v (pick 0) (hv v (List.mem_cons_self ..))
        obtain ⟨a, b, c⟩ := ih (fun i => pick (i + 1)) fun u hu => hv u (List.mem_cons_of_mem _ hu)
        unfold criticalLoop
        dsimp only
        rw [hback]
        refine ⟨a, by rw [List.map_cons, b], ?_⟩
        intro i u hu
        cases i with
        | zero =>
          have : v = u := by simpa using hu
          subst this
          exact ⟨_, rfl, rfl, rfl, rfl⟩
        | succ i =>
          have hu' : vs[i]? = some u := by simpa using hu
          obtain ⟨k, hk⟩ := c i u hu'
          exact ⟨k, by simpa using hk.1, hk.2⟩
    exact loop _ _ fun v h => h

/-- A network that is its list of weights; `replace` finds the first weight of the value. -/
def listNet (w : ℕ) (f : List (BitVec w) → List ℝ → List ℝ) : Network (List (BitVec w)) w :=
  ⟨id, fun a b l => if a ∈ l then l.take (l.idxOf a) ++ b :: l.drop (l.idxOf a + 1) else l, f⟩

example : Restores (listNet 8 fun _ _ => [0]) [5] := by
  intro v i hv
  have : v = 5 := by simpa [listNet] using hv
  subst this
  simp [listNet]

/-- **C254 (order).** With a positive error of the intact network the result has the most sensitive weights first; every level in it is that of its sensitivity. -/
theorem C254_sorted {N : Type} {w : ℕ} (net : Network N w) (inputs expected : List (List ℝ)) (pick : ℕ → ℕ) (n : N) (hr : Restores net n)
    (hi : inputs ≠ []) (hl : inputs.length = expected.length) (hb : 0 < networkError net n inputs expected) (out : List (Critical w))
    (hs : SortedOf (identify net inputs expected pick n).1 out) :
    (out.map Critical.weight).Perm (net.weights n) ∧
    (∀ c ∈ out, ∃ x : ℝ, c.sensitivity = .fin x ∧ c.level = byCriticality (.fin x)) ∧
    out.Pairwise (fun a b => ∃ x y : ℝ, a.sensitivity = .fin x ∧ b.sensitivity = .fin y ∧ y ≤ x) := by
  obtain ⟨h1, h2, h3⟩ := (C254_identify net inputs expected pick n hr).2 hi hl
  have hfin : ∀ c ∈ out, ∃ x : ℝ, c.sensitivity = .fin x ∧ c.level = byCriticality (.fin x) := by
    intro c hc
    have hc' := hs.1.mem_iff.1 hc
    obtain ⟨i, hi', e⟩ := List.mem_iff_getElem.1 hc'
    have hlen : (identify net inputs expected pick n).1.length = (net.weights n).length := by rw [← h2, List.length_map]
    obtain ⟨k, hk, _, hkl, hks⟩ := h3 i (net.weights n)[i] (List.getElem?_eq_getElem (by omega))
    rw [List.getElem?_eq_getElem hi', e] at hk
    injection hk with hk
    subst hk
    rw [XD.div_fin _ _ hb.ne'] at hks
    exact ⟨_, hks, by rw [hkl, hks]⟩
  refine ⟨?_, hfin, ?_⟩
  · rw [← h2]
    exact hs.1.map _
  · refine List.Pairwise.imp_of_mem ?_ hs.2
    intro a b ha hb' hab
    obtain ⟨x, hx, _⟩ := hfin a ha
    obtain ⟨y, hy, _⟩ := hfin b hb'
    refine ⟨x, y, hx, hy, ?_⟩
    rw [hx, hy, XD.lt_fin] at hab
    exact not_lt.1 hab

/-- **C254, violated: perfect networks.** If the network makes no error on the samples, every sensitivity is infinite or NaN, which no comparison orders: any
permutation may be returned, and a budget may go to the weights that matter least. -/
theorem C254_perfect_violated {N : Type} {w : ℕ} (net : Network N w) (inputs expected : List (List ℝ)) (pick : ℕ → ℕ) (n : N) (hr : Restores net n)
    (hi : inputs ≠ []) (hl : inputs.length = expected.length) (hb : networkError net n inputs expected = 0) (out : List (Critical w)) :
    SortedOf (identify net inputs expected pick n).1 out ↔ out.Perm (identify net inputs expected pick n).1 := by
  refine ⟨fun h => h.1, fun h => ⟨h, ?_⟩⟩
  obtain ⟨h1, h2, h3⟩ := (C254_identify net inputs expected pick n hr).2 hi hl
  have nonneg : ∀ m, 0 ≤ networkError net m inputs expected := by
    intro m
    unfold networkError
    dsimp only
    split
    · exact le_refl _
    · apply div_nonneg
      · apply List.sum_nonneg
        intro x hx
        obtain ⟨p, _, hp⟩ := List.mem_flatMap.1 hx
        obtain ⟨q, _, hq⟩ := List.mem_map.1 hp
        rw [← hq]
        positivity
      · positivity
  have hinf : ∀ c ∈ out, c.sensitivity = .pinf ∨ c.sensitivity = .nan := by
    intro c hc
    have hc' := h.mem_iff.1 hc
    obtain ⟨i, hi', e⟩ := List.mem_iff_getElem.1 hc'
    have hlen : (identify net inputs expected pick n).1.length = (net.weights n).length := by rw [← h2, List.length_map]
    obtain ⟨k, hk, _, _, hks⟩ := h3 i (net.weights n)[i] (List.getElem?_eq_getElem (by omega))
    rw [List.getElem?_eq_getElem hi', e] at hk
    injection hk with hk
    subst hk
    rw [hb, sub_zero] at hks
    rcases (nonneg (net.replace (net.weights n)[i] (flipBit (net.weights n)[i] (pick i)) n)).eq_or_lt with h0 | h0
    · right; rw [hks, ← h0, XD.div_zero_zero]
    · left; rw [hks, XD.div_zero_pos _ h0]
  apply List.Pairwise.imp_of_mem (R := fun _ _ => True)
  · intro a b ha hb' _
    rcases hinf a ha with e | e <;> rcases hinf b hb' with e' | e' <;> rw [e, e'] <;> intro h <;> exact h
  · exact List.pairwise_of_forall fun _ _ => trivial

example : networkError (listNet 8 fun _ _ => [0]) [5] [[1]] [[0]] = 0 := by norm_num [networkError, listNet, sampleErrors]

/-- **C254, violated: equal weights.** Weights are found by value. In a network of a list of weights, for two that differ in one bit, the analysis of the second puts
the value back into the place of the first: the network has other weights after its analysis, and is another network. -/
theorem C254_restore_violated {w : ℕ} (f : List (BitVec w) → List ℝ → List ℝ) (inputs expected : List (List ℝ)) (base : ℝ) (a : BitVec w) (i : ℕ) (hi : i < w) :
    (criticalLoop (listNet w f) inputs expected base [flipBit a i] (fun _ => i) [a, flipBit a i]).2 = [flipBit a i, a] ∧ [flipBit a i, a] ≠ [a, flipBit a i] := by
  have hne : flipBit a i ≠ a := by
    intro e
    have : (flipBit a i).getLsbD i = a.getLsbD i := by rw [e]
    rw [flip_bit a i i hi, if_pos rfl] at this
    cases h : a.getLsbD i <;> rw [h] at this <;> cases this
  have hff : flipBit (flipBit a i) i = a := by
    simp [flipBit, BitVec.xor_assoc]
  constructor
  · unfold criticalLoop criticalLoop
    dsimp only
    rw [hff]
    simp [listNet, hne, hne.symm]
  · intro e
    injection e with e _
    exact hne e

/-! ### C255 -/

/-- **C255.** For a positive budget the first `k` entries are handled, `k` being the budget's share of all, but at least one and at most all: each weight is replaced by
its protected form, in order. The statistics say how many there are and how many the budget is for. -/
theorem C255_optimize {ε N : Type} {w : ℕ} (net : Network N w) (high very : Codec w) (cs : List (Critical w)) (budget : ℝ) (s : State ε) (n : N)
    (hc : cs ≠ []) (hb : 0 < budget) :
    ∃ k, 1 ≤ k ∧ k ≤ cs.length ∧ ((k : ℝ) ≤ cs.length * budget ∨ k = 1) ∧ (budget ≤ 1 → (cs.length : ℝ) * budget < k + 1) ∧
      ∀ t m, optimize net high very cs budget s n = .ok (t, m) ↔
        ∃ u, optimizeLoop net high very (cs.take k) (s, n) = .ok (u, m) ∧ t = { u with stats := { u.stats with total := cs.length, protectedW := quota cs.length budget } } := by
  have hlen : 1 ≤ cs.length := List.length_pos_of_ne_nil hc
  have hprod : (0 : ℝ) ≤ cs.length * budget := by positivity
  refine ⟨min (quota cs.length budget) cs.length, ?_, min_le_right _ _, ?_, ?_, ?_⟩
  · exact le_min (le_max_right _ _) hlen
  · unfold quota
    rcases Nat.lt_or_ge 1 ⌊(cs.length : ℝ) * budget⌋₊ with h | h
    · left
      have h1 : (min (max ⌊(cs.length : ℝ) * budget⌋₊ 1) cs.length : ℕ) ≤ ⌊(cs.length : ℝ) * budget⌋₊ := by omega
      exact le_trans (by exact_mod_cast h1) (Nat.floor_le hprod)
    · right; omega
  · intro hb1
    have h1 : (cs.length : ℝ) * budget < (⌊(cs.length : ℝ) * budget⌋₊ : ℝ) + 1 := Nat.lt_floor_add_one _
    have h2 : ⌊(cs.length : ℝ) * budget⌋₊ ≤ cs.length := by
      have : (cs.length : ℝ) * budget ≤ cs.length := by
        have : (0 : ℝ) ≤ cs.length := Nat.cast_nonneg _
        nlinarith
      exact (Nat.floor_le_floor this).trans (by simp)
    have h3 : ⌊(cs.length : ℝ) * budget⌋₊ ≤ min (quota cs.length budget) cs.length := by unfold quota; omega
    have h4 : (⌊(cs.length : ℝ) * budget⌋₊ : ℝ) ≤ (min (quota cs.length budget) cs.length : ℕ) := by exact_mod_cast h3
    linarith
  · intro t m
    unfold optimize
    rw [if_neg (by rintro (h | h); exact hc h; linarith)]
    cases hl : optimizeLoop net high very (cs.take (min (quota cs.length budget) cs.length)) (s, n) with
    | ub =>
      simp only [Outcome.bind]
      constructor
      · intro h; cases h
      · rintro ⟨u, h, _⟩; cases h
    | ok r =>
      obtain ⟨u, m'⟩ := r
      simp only [Outcome.bind]
      constructor
      · intro h
        injection h with h
        injection h with h1 h2
        exact ⟨u, by rw [h2], h1.symm⟩
      · rintro ⟨u', h, e⟩
        injection h with h
        injection h with h1 h2
        rw [e, ← h1, h2]

example : [(⟨3, .fin 2, .moderate⟩ : Critical 8)] ≠ [] := by simp

/-- **C255, violated: budget.** A budget above 1 is not refused: more weights are then reported as protected than there are. -/
theorem C255_budget_violated {ε N : Type} {w : ℕ} (net : Network N w) (high very : Codec w) (cs : List (Critical w)) (budget : ℝ) (s t : State ε) (n m : N)
    (hc : cs ≠ []) (hb : (cs.length : ℝ) + 1 ≤ cs.length * budget) (h : optimize net high very cs budget s n = .ok (t, m)) : t.stats.total < t.stats.protectedW := by
  have hlen : (1 : ℝ) ≤ cs.length := by exact_mod_cast (List.length_pos_of_ne_nil hc)
  have hpos : 0 < budget := by
    by_contra hn
    push Not at hn
    nlinarith
  obtain ⟨k, _, _, _, _, hk⟩ := C255_optimize net high very cs budget s n hc hpos
  obtain ⟨u, _, rfl⟩ := (hk t m).1 h
  show cs.length < quota cs.length budget
  unfold quota
  have : cs.length + 1 ≤ ⌊(cs.length : ℝ) * budget⌋₊ := Nat.le_floor (by push_cast; exact hb)
  omega

/-- **C255, violated: sign.** "Protecting" a weight at the parity level writes the parity bit into the network in place of the sign: every weight of odd parity that is
not negative is replaced by its negative counterpart, with which the network then computes. -/
theorem C255_sign_violated {ε N : Type} {w : ℕ} (net : Network N w) (high very : Codec w) (s : State ε) (n : N) (c : Critical w)
    (h : effective s c.sensitivity = .minimal) (hv : c.weight.getLsbD (w - 1) = false) (ho : parity c.weight = true) (budget : ℝ) (hb : 0 < budget) :
    ∃ t, optimize net high very [c] budget s n = .ok (t, net.replace c.weight (flipBit c.weight (w - 1)) n) := by
  have hp : protect high very s c.weight c.sensitivity = .ok (flipBit c.weight (w - 1), counted s .minimal) := by
    unfold protect
    rw [h, ho]
    dsimp only
    rw [show addParity c.weight true = flipBit c.weight (w - 1) from or_eq_flip c.weight _ hv]
  have hq : min (quota [c].length budget) [c].length = 1 := by
    have : 1 ≤ quota [c].length budget := le_max_right _ _
    simp only [List.length_cons, List.length_nil] at this ⊢
    omega
  unfold optimize
  rw [if_neg (by rintro (h | h); simp at h; linarith), hq, List.take_one]
  simp only [List.head?_cons, Option.toList_some, optimizeLoop, hp, Outcome.bind]
  exact ⟨_, rfl⟩

example : effective ({ env := (), level := .minimal } : State Unit) (.fin 1) = .minimal ∧ (7#8).getLsbD 7 = false ∧ parity (7#8) = true :=
  ⟨(C249_effective _ 1 1).1 (by decide), by decide, by decide⟩

/-- **C249 (thresholds).** Adapting to an environment chooses the level and the upset model by the upset probability alone, with these thresholds, and changes nothing else. -/
theorem C249_thresholds {ε : Type} (prob : ε → ℝ) (s : State ε) :
    (adapt prob s).env = s.env ∧ (adapt prob s).stats = s.stats ∧
    ((adapt prob s).level = .veryHigh ↔ 0.001 < prob s.env) ∧
    ((adapt prob s).level = .high ↔ 0.0001 < prob s.env ∧ prob s.env ≤ 0.001) ∧
    ((adapt prob s).level = .moderate ↔ 0.00001 < prob s.env ∧ prob s.env ≤ 0.0001) ∧
    ((adapt prob s).level = .minimal ↔ 0.000001 < prob s.env ∧ prob s.env ≤ 0.00001) ∧
    ((adapt prob s).level = .none ↔ prob s.env ≤ 0.000001) ∧
    ((adapt prob s).model = .randomMulti ↔ 0.01 < prob s.env) ∧
    ((adapt prob s).model = .adjacentBits ↔ 0.001 < prob s.env ∧ prob s.env ≤ 0.01) ∧
    ((adapt prob s).model = .singleBit ↔ prob s.env ≤ 0.001) := by
  unfold adapt
  generalize prob s.env = p
  refine ⟨?_, ?_, ?_, ?_, ?_, ?_, ?_, ?_, ?_, ?_⟩ <;> norm_num <;> split_ifs <;> simp <;>
    first | linarith | (intros; linarith) | (refine ⟨?_, ?_⟩ <;> linarith)

/-- **C253 (reset and ratio).** Resetting clears the corrected and the uncorrectable errors and the flipped bits, after which the ratio is 1; in general the ratio is the share of
the corrected among all errors, between 0 and 1, and 1 if there were none. -/
theorem C253_ratio (s : Stats) :
    s.reset.corrections = 0 ∧ s.reset.uncorrectable = 0 ∧ s.reset.flipped = 0 ∧ s.reset.ratio = 1 ∧
    s.reset.total = s.total ∧ s.reset.protectedW = s.protectedW ∧ s.reset.bits = s.bits ∧ s.reset.overhead = s.overhead ∧ s.reset.rate = s.rate ∧
    (s.corrections = 0 ∧ s.uncorrectable = 0 → s.ratio = 1) ∧
    (0 < s.corrections ∨ 0 < s.uncorrectable → s.ratio * (s.corrections + s.uncorrectable) = s.corrections) ∧ 0 ≤ s.ratio ∧ s.ratio ≤ 1 := by
  refine ⟨rfl, rfl, rfl, ?_, rfl, rfl, rfl, rfl, rfl, ?_, ?_, ?_, ?_⟩
  · simp [Stats.reset, Stats.ratio]
  · rintro ⟨h, h'⟩; simp [Stats.ratio, h, h']
  · intro h
    have h0 : s.corrections + s.uncorrectable ≠ 0 := by omega
    have h1 : ((s.corrections : ℝ) + s.uncorrectable) ≠ 0 := by exact_mod_cast h0
    rw [Stats.ratio, if_neg h0]
    push_cast
    exact div_mul_cancel₀ _ h1
  · unfold Stats.ratio; split_ifs <;> positivity
  · unfold Stats.ratio
    split_ifs with h
    · exact le_rfl
    · refine div_le_one_of_le₀ ?_ (by positivity)
      exact_mod_cast Nat.le_add_right _ _

example : (⟨0, 0, 3, 1, 0, 0, 0, 0⟩ : Stats).ratio = 3 / 4 := by norm_num [Stats.ratio]

end Verif.NeuralAdaptive
