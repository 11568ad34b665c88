import Verif.Model.MonitoredTmr
import Verif.Lemmas.Crc
import Mathlib.Tactic.Linarith
import Mathlib.Tactic.NormNum
import Mathlib.Tactic.Ring
/-!
Properties C67–C71: `rad_ml::tmr::EnhancedTMR` (health scores, mutex).
-/
namespace Verif.Props.MTmrP
open Verif Verif.MTmr

variable {α : Type}

/-! ### C67: majority read -/

/-- The values of the copies. -/
def vals (s : State α) : Fin 3 → α := fun i => (s.at i).val

theorem vals_verifyOne (crc : α → BitVec 32) (i : Fin 3) (r : Bool × State α) : vals (verifyOne crc i r).2 = vals r.2 := by
  unfold verifyOne
  simp only
  split
  · funext j; match i, j with
    | 0, 0 => rfl | 0, 1 => rfl | 0, 2 => rfl | 1, 0 => rfl | 1, 1 => rfl | 1, 2 => rfl | 2, 0 => rfl | 2, 1 => rfl | 2, 2 => rfl
  · rfl

theorem vals_verify (crc : α → BitVec 32) (s : State α) : vals (verifyCRCs crc s).2 = vals s := by
  unfold verifyCRCs; rw [vals_verifyOne, vals_verifyOne, vals_verifyOne]

theorem vals_select (s : State α) (r : ℚ) : vals (select s r).2 = vals s := by
  unfold select
  repeat' split
  all_goals funext j; match j with
    | 0 => rfl | 1 => rfl | 2 => rfl

theorem vals_vote (eq : α → α → Bool) (s : State α) (r : ℚ) : vals (vote eq s r).2 = vals s := by
  unfold vote
  simp only
  repeat' split
  all_goals first
    | (rw [vals_select]; rfl)
    | (funext j; match j with
        | 0 => rfl | 1 => rfl | 2 => rfl)

theorem vals_get (eq : α → α → Bool) (crc : α → BitVec 32) (s : State α) (now : Int) (r : ℚ) :
    vals (get eq crc s now r).2 = vals s := by
  unfold MTmr.get
  simp only
  show vals (vote eq _ r).2 = _
  rw [vals_vote]
  split
  · exact vals_verify crc s
  · rfl

theorem vote_majority [DecidableEq α] (s : State α) (r : ℚ) (v : α) (i j : Fin 3) (hij : i ≠ j)
    (hi : vals s i = v) (hj : vals s j = v) : (vote (fun a b => decide (a = b)) s r).1 = v := by
  unfold vote
  simp only [vals, State.at] at hi hj
  simp only [Bool.and_eq_true, decide_eq_true_eq]
  match i, j with
  | 0, 0 => exact absurd rfl hij
  | 1, 1 => exact absurd rfl hij
  | 2, 2 => exact absurd rfl hij
  | 0, 1 => simp only at hi hj; split; exact hi; split <;> rw [if_pos (hi.trans hj.symm)] <;> exact hi
  | 1, 0 => simp only at hi hj; split; exact hj; split <;> rw [if_pos (hj.trans hi.symm)] <;> exact hj
  | 0, 2 =>
    simp only at hi hj; split; exact hi
    split <;> (split; exact hi; rw [if_pos (hi.trans hj.symm)]; exact hi)
  | 2, 0 =>
    simp only at hi hj; split; exact hj
    split <;> (split; exact hj; rw [if_pos (hj.trans hi.symm)]; exact hj)
  | 1, 2 =>
    simp only at hi hj
    split
    · rename_i h; rw [h.1]; exact hi
    · split
      all_goals
        split
        · rename_i h; rw [h]; exact hi
        · split
          · rename_i h; rw [h]; exact hj
          · rw [if_pos (hi.trans hj.symm)]; exact hi
  | 2, 1 =>
    simp only at hi hj
    split
    · rename_i h; rw [h.1]; exact hj
    · split
      all_goals
        split
        · rename_i h; rw [h]; exact hj
        · split
          · rename_i h; rw [h]; exact hi
          · rw [if_pos (hj.trans hi.symm)]; exact hj

/-- **C67 (majority read).** In every state — whatever the health scores, the stored checksums, the settings, the time and
the random numbers — if two copies hold `v` then `get()` returns `v`, and `get()` changes no copy. -/
theorem C67_majority_read [DecidableEq α] (crc : α → BitVec 32) (s : State α) (now : Int) (r : ℚ) (v : α) (i j : Fin 3)
    (hij : i ≠ j) (hi : (s.at i).val = v) (hj : (s.at j).val = v) :
    (get (fun a b => decide (a = b)) crc s now r).1 = v ∧
    ∀ k, ((get (fun a b => decide (a = b)) crc s now r).2.at k).val = (s.at k).val := by
  constructor
  · unfold MTmr.get
    simp only
    apply vote_majority _ r v i j hij
    · split
      · exact (congrFun (vals_verify crc s) i).trans hi
      · exact hi
    · split
      · exact (congrFun (vals_verify crc s) j).trans hj
      · exact hj
  · intro k; exact congrFun (vals_get _ crc s now r) k

/-- Events that leave all copies other than `k` alone and are not `regenerateCopies()`. -/
def Harmless (k : Fin 3) : Op α → Prop
  | .get _ _ | .verify | .resetStats | .enable _ | .setInterval _ | .faultCrc _ _ => True
  | .fault i _ => i = k
  | .set _ | .setRaw _ _ | .regenerate => False

theorem vals_harmless (eq : α → α → Bool) (crc : α → BitVec 32) (s : State α) (k : Fin 3) (op : Op α) (h : Harmless k op)
    (j : Fin 3) (hj : j ≠ k) : vals (step eq crc s op) j = vals s j := by
  cases op with
  | get now r => exact congrFun (vals_get eq crc s now r) j
  | verify => exact congrFun (vals_verify crc s) j
  | resetStats => match j with
    | 0 => rfl | 1 => rfl | 2 => rfl
  | enable b => match j with
    | 0 => rfl | 1 => rfl | 2 => rfl
  | setInterval b => match j with
    | 0 => rfl | 1 => rfl | 2 => rfl
  | faultCrc i c => match i, j with
    | 0, 0 => rfl | 0, 1 => rfl | 0, 2 => rfl | 1, 0 => rfl | 1, 1 => rfl | 1, 2 => rfl | 2, 0 => rfl | 2, 1 => rfl | 2, 2 => rfl
  | fault i c =>
    have : i = k := h
    subst this
    match i, j with
    | 0, 0 => exact absurd rfl hj
    | 1, 1 => exact absurd rfl hj
    | 2, 2 => exact absurd rfl hj
    | 0, 1 => rfl | 0, 2 => rfl | 1, 0 => rfl | 1, 2 => rfl | 2, 0 => rfl | 2, 1 => rfl
  | set v => exact absurd h id
  | setRaw i v => exact absurd h id
  | regenerate => exact absurd h id

/-- **C67 (masking, partial).** After `set(v)` on any object, in every history of reads, verifications, configuration calls,
checksum faults and faults of the single copy `k` (any number, any values), a read returns `v`.  Missing:
`regenerateCopies()` in the history, see `C67_regenerate_spreads_fault_violated`. -/
theorem C67_single_copy_masked_partial [DecidableEq α] (crc : α → BitVec 32) (s : State α) (v : α) (k : Fin 3)
    (ops : List (Op α)) (h : ∀ op ∈ ops, Harmless k op) (now : Int) (r : ℚ) :
    (get (fun a b => decide (a = b)) crc (run (fun a b => decide (a = b)) crc (set crc s v) ops) now r).1 = v := by
  have key : ∀ t : State α, ∀ j, j ≠ k → vals (run (fun a b => decide (a = b)) crc t ops) j = vals t j := by
    unfold run
    induction ops with
    | nil => intro t j _; rfl
    | cons op ops ih =>
      intro t j hj
      rw [List.foldl_cons, ih (fun o ho => h o (List.mem_cons_of_mem _ ho)) _ j hj]
      exact vals_harmless _ crc t k op (h op List.mem_cons_self) j hj
  have hv : ∀ j, vals (set crc s v) j = v := fun j => match j with
    | 0 => rfl | 1 => rfl | 2 => rfl
  obtain ⟨a, b, hab, ha, hb⟩ : ∃ a b : Fin 3, a ≠ b ∧ a ≠ k ∧ b ≠ k := by
    match k with
    | 0 => exact ⟨1, 2, by decide⟩
    | 1 => exact ⟨0, 2, by decide⟩
    | 2 => exact ⟨0, 1, by decide⟩
  exact (C67_majority_read crc _ now r v a b hab ((key _ a ha).trans (hv a)) ((key _ b hb).trans (hv b))).1

/-- **C67 (violated).** A single fault in copy 0 followed by `regenerateCopies()` — which reports success — destroys the two
good copies: all three now hold the corrupted value with matching checksums, and later reads and verifications find nothing
wrong. This holds for every stored value, every corrupted value and every checksum function. -/
theorem C67_regenerate_spreads_fault_violated [DecidableEq α] (crc : α → BitVec 32) (s : State α) (v x : α) (now : Int)
    (r : ℚ) :
    let t := step (fun a b => decide (a = b)) crc (set crc s v) (.fault 0 x)
    (regenerateCopies crc t).1 = true ∧
    (get (fun a b => decide (a = b)) crc (regenerateCopies crc t).2 now r).1 = x ∧
    (verify crc (regenerateCopies crc t).2).1 = true := by
  have hb : bestIndex (step (fun a b => decide (a = b)) crc (set crc s v) (.fault 0 x)) = 0 := by
    simp [bestIndex, step, MTmr.set, recalculateCRCs, State.mapAll, State.modify, State.at]
  have e : regenerateCopies crc (step (fun a b => decide (a = b)) crc (set crc s v) (.fault 0 x)) =
      (true, { set crc s v with c0 := ⟨x, crc x, 1⟩, c1 := ⟨x, crc x, 9 / 10⟩, c2 := ⟨x, crc x, 9 / 10⟩ }) := by
    unfold regenerateCopies
    simp only [hb]
    rw [if_neg]
    · rfl
    · show ¬ (1 : ℚ) < 3 / 5
      norm_num
  intro t
  have e' : regenerateCopies crc t = _ := e
  rw [e']
  refine ⟨rfl, ?_, ?_⟩
  · exact (C67_majority_read crc _ now r x 0 1 (by decide) rfl rfl).1
  · simp [verify, verifyCRCs, verifyOne, State.at]

/-- Copy `k` holds `x`, the others are perfect copies of `v`. -/
def OneBad (crc : α → BitVec 32) (k : Fin 3) (v x : α) (s : State α) : Prop :=
  s.weighted = true ∧ (s.at k).val = x ∧ (s.at k).health ≤ 1 ∧ ∀ j, j ≠ k → (s.at j).val = v ∧ (s.at j).crc = crc v ∧
    (s.at j).health = 1

theorem oneBad_verifyOne (crc : α → BitVec 32) (k : Fin 3) (v x : α) (i : Fin 3) (r : Bool × State α)
    (h : OneBad crc k v x r.2) : OneBad crc k v x (verifyOne crc i r).2 := by
  obtain ⟨hw, hx, hh, hj⟩ := h
  unfold verifyOne
  simp only
  split
  · rename_i hc
    by_cases hik : i = k
    · subst hik
      have hm : max (1 / 10 : ℚ) ((r.2.at i).health - 3 / 10) ≤ 1 := max_le (by norm_num) (by linarith)
      refine ⟨?_, ?_, ?_, ?_⟩
      · match i with
        | 0 => exact hw
        | 1 => exact hw
        | 2 => exact hw
      · match i with
        | 0 => exact hx
        | 1 => exact hx
        | 2 => exact hx
      · match i with
        | 0 => exact hm
        | 1 => exact hm
        | 2 => exact hm
      · intro j hji
        have := hj j hji
        match i, j with
        | 0, 0 => exact absurd rfl hji
        | 1, 1 => exact absurd rfl hji
        | 2, 2 => exact absurd rfl hji
        | 0, 1 => exact this
        | 0, 2 => exact this
        | 1, 0 => exact this
        | 1, 2 => exact this
        | 2, 0 => exact this
        | 2, 1 => exact this
    · exact absurd ((hj i hik).2.1.symm ▸ congrArg crc (hj i hik).1) hc
  · exact ⟨hw, hx, hh, hj⟩

theorem one_bad_vote [DecidableEq α] (crc : α → BitVec 32) (k : Fin 3) (v x : α) (hxv : x ≠ v) (s : State α) (r : ℚ)
    (h : OneBad crc k v x s) :
    ((vote (fun a b => decide (a = b)) s r).2.at k).health < 1 ∧
    ∀ j, j ≠ k → ((vote (fun a b => decide (a = b)) s r).2.at j).health = 1 := by
  obtain ⟨hw, hx, hh, hj⟩ := h
  have hlow : ∀ c : Copy α, c.health ≤ 1 → (lower c).health < 1 := fun c hc =>
    max_lt (by norm_num) (by linarith)
  have hup : ∀ c : Copy α, c.health = 1 → (raise (1 / 20) c).health = 1 := fun c hc => by
    show min 1 (c.health + 1 / 20) = 1
    rw [hc]; norm_num
  unfold vote
  simp only [hw, if_true]
  match k with
  | 0 =>
    have h1 := hj 1 (by decide)
    have h2 := hj 2 (by decide)
    simp only [State.at] at hx hh h1 h2
    rw [hx, h1.1, h2.1, if_neg (by simp [hxv]), if_neg (by simp [hxv]), if_neg (by simp [hxv]), if_pos (by simp)]
    refine ⟨hlow _ hh, fun j hj => ?_⟩
    match j with
    | 0 => exact absurd rfl hj
    | 1 => exact hup _ h1.2.2
    | 2 => exact hup _ h2.2.2
  | 1 =>
    have h1 := hj 0 (by decide)
    have h2 := hj 2 (by decide)
    simp only [State.at] at hx hh h1 h2
    rw [hx, h1.1, h2.1, if_neg (by simp [Ne.symm hxv]), if_neg (by simp [Ne.symm hxv]), if_pos (by simp)]
    refine ⟨hlow _ hh, fun j hj => ?_⟩
    match j with
    | 1 => exact absurd rfl hj
    | 0 => exact hup _ h1.2.2
    | 2 => exact hup _ h2.2.2
  | 2 =>
    have h1 := hj 0 (by decide)
    have h2 := hj 1 (by decide)
    simp only [State.at] at hx hh h1 h2
    rw [hx, h1.1, h2.1, if_neg (by simp [Ne.symm hxv]), if_pos (by simp)]
    refine ⟨hlow _ hh, fun j hj => ?_⟩
    match j with
    | 2 => exact absurd rfl hj
    | 0 => exact hup _ h1.2.2
    | 1 => exact hup _ h2.2.2

theorem regenerate_good (crc : α → BitVec 32) (k : Fin 3) (v : α) (s : State α) (hk : (s.at k).health < 1)
    (hg : ∀ j, j ≠ k → (s.at j).health = 1 ∧ (s.at j).val = v) :
    (regenerateCopies crc s).1 = true ∧ ∀ j, ((regenerateCopies crc s).2.at j).val = v ∧
      ((regenerateCopies crc s).2.at j).crc = crc v := by
  have hb : bestIndex s ≠ k := by
    unfold bestIndex
    match k with
    | 0 =>
      have h1 := (hg 1 (by decide)).1
      have h2 := (hg 2 (by decide)).1
      simp only [State.at] at hk h1 h2
      simp [State.at, h1, h2, hk]
    | 1 =>
      have h1 := (hg 0 (by decide)).1
      have h2 := (hg 2 (by decide)).1
      simp only [State.at] at hk h1 h2
      simp [State.at, h1, h2, not_lt.mpr hk.le]
    | 2 =>
      have h1 := (hg 0 (by decide)).1
      have h2 := (hg 1 (by decide)).1
      simp only [State.at] at hk h1 h2
      simp [State.at, h1, h2, not_lt.mpr hk.le]
  unfold regenerateCopies
  simp only
  generalize bestIndex s = b at hb ⊢
  obtain ⟨h1, h2⟩ := hg b hb
  rw [if_neg (by rw [h1]; norm_num), h2]
  refine ⟨rfl, ?_⟩
  intro j
  match b, j with
  | 0, 0 => exact ⟨h2, congrArg crc h2⟩
  | 1, 1 => exact ⟨h2, congrArg crc h2⟩
  | 2, 2 => exact ⟨h2, congrArg crc h2⟩
  | 0, 1 => exact ⟨rfl, rfl⟩
  | 0, 2 => exact ⟨rfl, rfl⟩
  | 1, 0 => exact ⟨rfl, rfl⟩
  | 1, 2 => exact ⟨rfl, rfl⟩
  | 2, 0 => exact ⟨rfl, rfl⟩
  | 2, 1 => exact ⟨rfl, rfl⟩

/-- **C67 (repair after a read).** After `set(v)`, a fault of copy `k` and one `get()` with health weighting on,
`regenerateCopies()` restores all three copies to `v`, with matching checksums. -/
theorem C67_read_then_regenerate [DecidableEq α] (crc : α → BitVec 32) (s : State α) (v x : α) (k : Fin 3) (hx : x ≠ v)
    (now : Int) (r : ℚ) (hw : s.weighted = true) :
    let eq : α → α → Bool := fun a b => decide (a = b)
    let t := (get eq crc (step eq crc (set crc s v) (.fault k x)) now r).2
    (regenerateCopies crc t).1 = true ∧ ∀ j, ((regenerateCopies crc t).2.at j).val = v ∧
      ((regenerateCopies crc t).2.at j).crc = crc v := by
  intro eq t
  have h0 : OneBad crc k v x (step eq crc (set crc s v) (.fault k x)) := by
    match k with
    | 0 => exact ⟨hw, rfl, le_refl (1 : ℚ), fun j hj => match j with
        | 0 => absurd rfl hj | 1 => ⟨rfl, rfl, rfl⟩ | 2 => ⟨rfl, rfl, rfl⟩⟩
    | 1 => exact ⟨hw, rfl, le_refl (1 : ℚ), fun j hj => match j with
        | 1 => absurd rfl hj | 0 => ⟨rfl, rfl, rfl⟩ | 2 => ⟨rfl, rfl, rfl⟩⟩
    | 2 => exact ⟨hw, rfl, le_refl (1 : ℚ), fun j hj => match j with
        | 2 => absurd rfl hj | 0 => ⟨rfl, rfl, rfl⟩ | 1 => ⟨rfl, rfl, rfl⟩⟩
  generalize hu : step eq crc (set crc s v) (.fault k x) = u at h0
  have ht : t = (get eq crc u now r).2 := by rw [← hu]
  -- the state on which the vote is taken
  have hvote : ∃ w, OneBad crc k v x w ∧ (∀ j, (t.at j).health = ((vote eq w r).2.at j).health) := by
    rw [ht]
    unfold MTmr.get
    simp only
    split
    · refine ⟨{ (verifyCRCs crc u).2 with last := now }, ?_, fun j => ?_⟩
      · have := oneBad_verifyOne crc k v x 2 _ (oneBad_verifyOne crc k v x 1 _ (oneBad_verifyOne crc k v x 0 (true, u) h0))
        obtain ⟨a, b, c, d⟩ := this
        refine ⟨a, ?_, ?_, ?_⟩
        · match k with
          | 0 => exact b
          | 1 => exact b
          | 2 => exact b
        · match k with
          | 0 => exact c
          | 1 => exact c
          | 2 => exact c
        · intro j hj
          have := d j hj
          match j with
          | 0 => exact this
          | 1 => exact this
          | 2 => exact this
      · match j with
        | 0 => rfl
        | 1 => rfl
        | 2 => rfl
    · refine ⟨u, h0, fun j => ?_⟩
      match j with
      | 0 => rfl
      | 1 => rfl
      | 2 => rfl
  obtain ⟨w, hw1, hw2⟩ := hvote
  have hv := one_bad_vote crc k v x hx w r hw1
  apply regenerate_good crc k v t
  · rw [hw2]; exact hv.1
  · intro j hj
    refine ⟨(hw2 j).trans (hv.2 j hj), ?_⟩
    rw [ht]
    exact (congrFun (vals_get eq crc u now r) j).trans (h0.2.2.2 j hj).1

/-- Both situations are reachable: a byte object set to 7, copy 1 corrupted to 5. -/
example : (5 : Nat) ≠ 7 ∧ (new (fun _ : Nat => 0#32) 0 0).weighted = true ∧
    (get (fun a b => decide (a = b)) (fun _ : Nat => 0#32)
      (run (fun a b => decide (a = b)) (fun _ => 0#32) (set (fun _ => 0#32) (new (fun _ => 0#32) 0 0) 7)
        [.fault 1 5, .verify, .fault 1 6, .get 3 0]) 9 0).1 = 7 := by
  refine ⟨by decide, rfl, ?_⟩
  apply C67_single_copy_masked_partial (fun _ : Nat => 0#32) _ 7 1
  intro op h
  simp only [List.mem_cons, List.not_mem_nil, or_false] at h
  rcases h with h | h | h | h <;> subst h <;> simp [Harmless]

/-! ### C68: health scores -/

/-- All health scores satisfy `P`. -/
def All (P : ℚ → Prop) (s : State α) : Prop := P s.c0.health ∧ P s.c1.health ∧ P s.c2.health

/-- `P` is preserved by every adjustment except the one of `setRawCopy`. -/
structure Closed (P : ℚ → Prop) : Prop where
  one : P 1
  nine : P (9 / 10)
  up : ∀ h d, P h → 0 ≤ d → P (min 1 (h + d))
  down : ∀ h d, P h → 0 ≤ d → P (max (1 / 10) (h - d))

variable {P : ℚ → Prop}

theorem all_verifyOne (hP : Closed P) (crc : α → BitVec 32) (i : Fin 3) (r : Bool × State α) (h : All P r.2) :
    All P (verifyOne crc i r).2 := by
  obtain ⟨h0, h1, h2⟩ := h
  unfold verifyOne
  simp only
  split
  · match i with
    | 0 => exact ⟨hP.down _ _ h0 (by norm_num), h1, h2⟩
    | 1 => exact ⟨h0, hP.down _ _ h1 (by norm_num), h2⟩
    | 2 => exact ⟨h0, h1, hP.down _ _ h2 (by norm_num)⟩
  · exact ⟨h0, h1, h2⟩

theorem all_verify (hP : Closed P) (crc : α → BitVec 32) (s : State α) (h : All P s) : All P (verifyCRCs crc s).2 :=
  all_verifyOne hP crc 2 _ (all_verifyOne hP crc 1 _ (all_verifyOne hP crc 0 (true, s) h))

theorem all_vote (hP : Closed P) (eq : α → α → Bool) (s : State α) (r : ℚ) (h : All P s) : All P (vote eq s r).2 := by
  obtain ⟨h0, h1, h2⟩ := h
  have u0 := hP.up _ (1 / 20) h0 (by norm_num)
  have u1 := hP.up _ (1 / 20) h1 (by norm_num)
  have u2 := hP.up _ (1 / 20) h2 (by norm_num)
  have v0 := hP.up _ (1 / 50) h0 (by norm_num)
  have v1 := hP.up _ (1 / 50) h1 (by norm_num)
  have v2 := hP.up _ (1 / 50) h2 (by norm_num)
  have d0 := hP.down _ (1 / 5) h0 (by norm_num)
  have d1 := hP.down _ (1 / 5) h1 (by norm_num)
  have d2 := hP.down _ (1 / 5) h2 (by norm_num)
  unfold vote select
  simp only
  repeat' split
  all_goals first
    | exact ⟨u0, u1, u2⟩ | exact ⟨u0, u1, d2⟩ | exact ⟨u0, d1, u2⟩ | exact ⟨d0, u1, u2⟩ | exact ⟨h0, h1, h2⟩
    | exact ⟨v0, h1, h2⟩ | exact ⟨h0, v1, h2⟩ | exact ⟨h0, h1, v2⟩

theorem all_get (hP : Closed P) (eq : α → α → Bool) (crc : α → BitVec 32) (s : State α) (now : Int) (r : ℚ)
    (h : All P s) : All P (get eq crc s now r).2 := by
  unfold MTmr.get
  simp only
  show All P (vote eq _ r).2
  apply all_vote hP
  split
  · exact all_verify hP crc s h
  · exact h

theorem all_regenerate (hP : Closed P) (crc : α → BitVec 32) (s : State α) (h : All P s) :
    All P (regenerateCopies crc s).2 := by
  obtain ⟨h0, h1, h2⟩ := h
  unfold regenerateCopies
  simp only
  split
  · exact ⟨h0, h1, h2⟩
  · generalize bestIndex s = b
    match b with
    | 0 => exact ⟨h0, hP.nine, hP.nine⟩
    | 1 => exact ⟨hP.nine, h1, hP.nine⟩
    | 2 => exact ⟨hP.nine, hP.nine, h2⟩

theorem all_step (hP : Closed P) (eq : α → α → Bool) (crc : α → BitVec 32) (s : State α) (op : Op α)
    (hr : (∃ i v, op = .setRaw i v) → ∀ h, P h → P (h * (9 / 10))) (h : All P s) : All P (step eq crc s op) := by
  cases op with
  | get now r => exact all_get hP eq crc s now r h
  | verify => exact all_verify hP crc s h
  | set v => exact ⟨hP.one, hP.one, hP.one⟩
  | setRaw i v =>
    have hq := hr ⟨i, v, rfl⟩
    obtain ⟨h0, h1, h2⟩ := h
    show All P (setRawCopy crc s i v)
    unfold setRawCopy
    simp only
    split
    · exact ⟨hq _ h0, h1, h2⟩
    · split
      · exact ⟨h0, hq _ h1, h2⟩
      · split
        · exact ⟨h0, h1, hq _ h2⟩
        · exact ⟨h0, h1, h2⟩
  | regenerate => exact all_regenerate hP crc s h
  | resetStats => exact ⟨hP.one, hP.one, hP.one⟩
  | enable b => exact h
  | setInterval b => exact h
  | fault i v => match i with
    | 0 => exact h
    | 1 => exact h
    | 2 => exact h
  | faultCrc i v => match i with
    | 0 => exact h
    | 1 => exact h
    | 2 => exact h

theorem closed_floor : Closed (fun h : ℚ => 1 / 10 ≤ h ∧ h ≤ 1) where
  one := by norm_num
  nine := by norm_num
  up := fun h d hh hd => ⟨le_min (by norm_num) (by linarith [hh.1]), min_le_left _ _⟩
  down := fun h d hh hd => ⟨le_max_left _ _, max_le (by norm_num) (by linarith [hh.2])⟩

theorem closed_pos : Closed (fun h : ℚ => 0 < h ∧ h ≤ 1) where
  one := by norm_num
  nine := by norm_num
  up := fun h d hh hd => ⟨lt_min (by norm_num) (by linarith [hh.1]), min_le_left _ _⟩
  down := fun h d hh hd => ⟨lt_of_lt_of_le (by norm_num) (le_max_left _ _), max_le (by norm_num) (by linarith [hh.2])⟩

/-- **C68 (health scores).** In every history of calls and faults all health scores stay above 0 and at most 1. -/
theorem C68_health_range (eq : α → α → Bool) (crc : α → BitVec 32) (v : α) (now : Int) (ops : List (Op α)) (i : Fin 3) :
    0 < ((run eq crc (new crc v now) ops).at i).health ∧ ((run eq crc (new crc v now) ops).at i).health ≤ 1 := by
  have key : ∀ s : State α, All (fun h => 0 < h ∧ h ≤ 1) s → All (fun h => 0 < h ∧ h ≤ 1) (run eq crc s ops) := by
    unfold run
    induction ops with
    | nil => intro s h; exact h
    | cons op ops ih =>
      intro s h
      exact ih _ (all_step closed_pos eq crc s op (fun _ h hh => ⟨by linarith [hh.1], by linarith [hh.1, hh.2]⟩) h)
  have h1 : (0 : ℚ) < 1 ∧ (1 : ℚ) ≤ 1 := by norm_num
  obtain ⟨a, b, c⟩ := key (new crc v now) ⟨h1, h1, h1⟩
  match i with
  | 0 => exact a
  | 1 => exact b
  | 2 => exact c

/-- **C68 (floor, partial).** In every history without `setRawCopy` the scores respect the documented floor 0.1.  Missing:
`setRawCopy`, see `C68_health_floor_violated`. -/
theorem C68_health_floor_partial (eq : α → α → Bool) (crc : α → BitVec 32) (v : α) (now : Int) (ops : List (Op α))
    (hn : ∀ i x, Op.setRaw i x ∉ ops) (i : Fin 3) :
    1 / 10 ≤ ((run eq crc (new crc v now) ops).at i).health := by
  have key : ∀ s : State α, All (fun h => 1 / 10 ≤ h ∧ h ≤ 1) s → All (fun h => 1 / 10 ≤ h ∧ h ≤ 1) (run eq crc s ops) := by
    unfold run
    induction ops with
    | nil => intro s h; exact h
    | cons op ops ih =>
      intro s h
      refine ih (fun i x hm => hn i x (List.mem_cons_of_mem _ hm)) _ (all_step closed_floor eq crc s op ?_ h)
      rintro ⟨i, x, e⟩
      exact absurd (e ▸ List.mem_cons_self) (hn i x)
  have h1 : (1 / 10 : ℚ) ≤ 1 ∧ (1 : ℚ) ≤ 1 := by norm_num
  obtain ⟨a, b, c⟩ := key (new crc v now) ⟨h1, h1, h1⟩
  match i with
  | 0 => exact a.1
  | 1 => exact b.1
  | 2 => exact c.1

theorem health_setRaw (crc : α → BitVec 32) (x : α) (n : Nat) (s : State α) :
    ((run (fun _ _ => false) crc s (List.replicate n (.setRaw 0 x))).c0).health = s.c0.health * (9 / 10) ^ n := by
  unfold run
  induction n generalizing s with
  | zero => simp
  | succ n ih =>
    rw [List.replicate_succ, List.foldl_cons, ih, pow_succ']
    show s.c0.health * (9 / 10) * (9 / 10) ^ n = _
    ring

/-- **C68 (floor, violated).** 22 writes of the raw copy 0 bring its score below 0.1, whatever is written. -/
theorem C68_health_floor_violated (crc : α → BitVec 32) (v x : α) (now : Int) :
    ((run (fun _ _ => false) crc (new crc v now) (List.replicate 22 (.setRaw 0 x))).at 0).health < 1 / 10 := by
  show ((run (fun _ _ => false) crc (new crc v now) (List.replicate 22 (.setRaw 0 x))).c0).health < 1 / 10
  rw [health_setRaw]
  show (1 : ℚ) * (9 / 10) ^ 22 < 1 / 10
  norm_num

/-- The hypothesis of the floor theorem is met by a history with faults, reads and regeneration. -/
example : (∀ i x, Op.setRaw i x ∉ ([.fault 1 5, .verify, .get 3 0, .regenerate] : List (Op Nat))) := by
  intro i x h
  simp at h

/-! ### C69: verification -/

/-- Copy `i` disagrees with its stored checksum. -/
def Bad (crc : α → BitVec 32) (s : State α) (i : Fin 3) : Prop := crc (s.at i).val ≠ (s.at i).crc

theorem bad_verifyOne (crc : α → BitVec 32) (i j : Fin 3) (r : Bool × State α) :
    Bad crc (verifyOne crc i r).2 j ↔ Bad crc r.2 j := by
  unfold verifyOne Bad
  simp only
  split
  · match i, j with
    | 0, 0 => rfl | 0, 1 => rfl | 0, 2 => rfl | 1, 0 => rfl | 1, 1 => rfl | 1, 2 => rfl | 2, 0 => rfl | 2, 1 => rfl | 2, 2 => rfl
  · rfl

theorem flag_verifyOne (crc : α → BitVec 32) (i : Fin 3) (r : Bool × State α) :
    (verifyOne crc i r).1 = true ↔ r.1 = true ∧ ¬ Bad crc r.2 i := by
  unfold verifyOne Bad
  simp only
  split
  · rename_i h; simp [h]
  · rename_i h; simp only [ne_eq, not_not] at h; simp [h]

/-- **C69 (verification is exact).** `verify()` returns true exactly if every copy matches its stored checksum; it changes
neither values nor checksums, so that it gives the same answer when repeated. -/
theorem C69_verify_iff (crc : α → BitVec 32) (s : State α) :
    ((verify crc s).1 = true ↔ ∀ i, crc (s.at i).val = (s.at i).crc) ∧
    (∀ i, ((verify crc s).2.at i).val = (s.at i).val) ∧
    (verify crc (verify crc s).2).1 = (verify crc s).1 := by
  have h : ∀ t : State α, (verify crc t).1 = true ↔ ¬ Bad crc t 0 ∧ ¬ Bad crc t 1 ∧ ¬ Bad crc t 2 := by
    intro t
    unfold verify verifyCRCs
    rw [flag_verifyOne, flag_verifyOne, flag_verifyOne, bad_verifyOne, bad_verifyOne, bad_verifyOne]
    simp [and_assoc]
  refine ⟨?_, fun i => congrFun (vals_verify crc s) i, ?_⟩
  · rw [h]
    unfold Bad
    simp only [ne_eq, not_not]
    constructor
    · rintro ⟨a, b, c⟩ i
      match i with
      | 0 => exact a
      | 1 => exact b
      | 2 => exact c
    · intro g; exact ⟨g 0, g 1, g 2⟩
  · have hb : ∀ i, Bad crc (verify crc s).2 i ↔ Bad crc s i := by
      intro i; unfold verify verifyCRCs; rw [bad_verifyOne, bad_verifyOne, bad_verifyOne]
    apply Bool.eq_iff_iff.mpr
    rw [h, h, hb, hb, hb]

theorem fault_report (c : α → BitVec 32) (eq : α → α → Bool) (s : State α) (v x : α) (k : Fin 3) (hne : c x ≠ c v) :
    (verify c (step eq c (set c s v) (.fault k x))).1 = false ∧
    (verify c (step eq c (set c s v) (.fault k x))).2.crcFailures = s.crcFailures + 1 ∧
    (verify c (step eq c (set c s v) (.fault k x))).2.calls = s.calls ++ [(v, x)] ∧
    ∀ j, ((verify c (step eq c (set c s v) (.fault k x))).2.at j).health = if j = k then 7 / 10 else 1 := by
  have hm : max (1 / 10 : ℚ) (1 - 3 / 10) = 7 / 10 := by norm_num
  match k with
  | 0 =>
    simp only [verify, verifyCRCs, verifyOne, step, MTmr.set, recalculateCRCs, State.mapAll, State.modify, State.at, hne, ne_eq,
      not_false_eq_true, if_true, not_true_eq_false, if_false, hm]
    refine ⟨trivial, trivial, trivial, fun j => ?_⟩
    match j with
    | 0 => rfl
    | 1 => rfl
    | 2 => rfl
  | 1 =>
    simp only [verify, verifyCRCs, verifyOne, step, MTmr.set, recalculateCRCs, State.mapAll, State.modify, State.at, hne, ne_eq,
      not_false_eq_true, if_true, not_true_eq_false, if_false, hm]
    refine ⟨trivial, trivial, rfl, fun j => ?_⟩
    match j with
    | 0 => rfl
    | 1 => rfl
    | 2 => rfl
  | 2 =>
    simp only [verify, verifyCRCs, verifyOne, step, MTmr.set, recalculateCRCs, State.mapAll, State.modify, State.at, hne, ne_eq,
      not_false_eq_true, if_true, not_true_eq_false, if_false, hm]
    refine ⟨trivial, trivial, rfl, fun j => ?_⟩
    match j with
    | 0 => rfl
    | 1 => rfl
    | 2 => rfl

/-- **C69 (fault report).** After `set(v)` of an object of `n` bytes, a fault that changes copy `k` inside a window of at
most 32 consecutive bits makes `verify()` return false, count exactly one failure, lower only the health of copy `k` and
call the error callback exactly once, with the good value and the corrupted value. -/
theorem C69_fault_reported (n : Nat) (s : State (BitVec (8 * n))) (v x : BitVec (8 * n)) (k : Fin 3)
    (hx : Spec.BurstDiffer 32 (Crc.bytesOf n v) (Crc.bytesOf n x)) :
    let crc : BitVec (8 * n) → BitVec 32 := fun y => Crc.crc32Table Crc.generatedTable (Crc.bytesOf n y)
    let t := step (fun a b => decide (a = b)) crc (set crc s v) (.fault k x)
    (verify crc t).1 = false ∧ (verify crc t).2.crcFailures = s.crcFailures + 1 ∧
    (verify crc t).2.calls = s.calls ++ [(v, x)] ∧
    ∀ j, ((verify crc t).2.at j).health = if j = k then 7 / 10 else 1 := by
  intro crc t
  apply fault_report
  intro h
  have e : ∀ d, Crc.crc32Table Crc.generatedTable d = Crc.crc32 d := fun d =>
    Verif.crc32Table_eq _ Verif.generatedTable_ok d
  have h' : Crc.crc32 (Crc.bytesOf n x) = Crc.crc32 (Crc.bytesOf n v) := by rw [← e, ← e]; exact h
  exact Verif.crc32_burst hx h'.symm

/-- A one-bit fault of a two-byte object meets the hypothesis. -/
example : Spec.BurstDiffer 32 (Crc.bytesOf 2 0x1234#16) (Crc.bytesOf 2 0x1235#16) :=
  ⟨[], [false], [true], (Spec.bitsOf (Crc.bytesOf 2 0x1234#16)).drop 1, by decide, by decide, rfl, by decide, by decide⟩

/-! ### C70: three different copies -/

/-- **C70 (selection).** If the three copies are pairwise different and health weighting is on, the read returns copy `i`
exactly when the random number lies in the `i`-th of three consecutive intervals whose lengths are the health scores. -/
theorem C70_selection_proportional [DecidableEq α] (s : State α) (r : ℚ) (h01 : s.c0.val ≠ s.c1.val)
    (h02 : s.c0.val ≠ s.c2.val) (h12 : s.c1.val ≠ s.c2.val) (hw : s.weighted = true)
    (hp : ∀ i, 0 < (s.at i).health) (hr' : r ≤ s.c0.health + s.c1.health + s.c2.health) (i : Fin 3) :
    (vote (fun a b => decide (a = b)) s r).1 = (s.at i).val ↔
      (match i with
        | 0 => r ≤ s.c0.health
        | 1 => s.c0.health < r ∧ r ≤ s.c0.health + s.c1.health
        | 2 => s.c0.health + s.c1.health < r) := by
  have h0 : 0 < s.c0.health := hp 0
  have h1 : 0 < s.c1.health := hp 1
  have h2 : 0 < s.c2.health := hp 2
  unfold vote select
  simp only [hw, h01, h02, h12, decide_false, Bool.false_and, Bool.false_eq_true, if_false, if_true]
  rw [if_neg (by linarith)]
  by_cases c0 : r ≤ s.c0.health
  · rw [if_pos c0]
    match i with
    | 0 => simp [State.at, c0]
    | 1 => simp [State.at, h01, not_lt.mpr c0]
    | 2 => simp only [State.at, h02, false_iff, not_lt]; linarith
  · rw [if_neg c0]
    by_cases c1 : r ≤ s.c0.health + s.c1.health
    · rw [if_pos c1]
      match i with
      | 0 => simp [State.at, c0, Ne.symm h01]
      | 1 => simp [State.at, not_le.mp c0, c1]
      | 2 => simp [State.at, h12, not_lt.mpr c1]
    · rw [if_neg c1, if_pos hr']
      match i with
      | 0 => simp [State.at, c0, Ne.symm h02]
      | 1 => simp [State.at, c1, Ne.symm h12]
      | 2 => simp [State.at, not_le.mp c1]

/-- **C70 (no invention).** A read always returns the value of one of the three copies. -/
theorem C70_read_is_a_copy (eq : α → α → Bool) (crc : α → BitVec 32) (s : State α) (now : Int) (r : ℚ) :
    ∃ i, (get eq crc s now r).1 = (s.at i).val := by
  have hv : ∀ t : State α, ∃ i, (vote eq t r).1 = vals t i := by
    intro t
    unfold vote select
    simp only
    repeat' split
    all_goals first
      | exact ⟨0, rfl⟩ | exact ⟨1, rfl⟩ | exact ⟨2, rfl⟩
  unfold MTmr.get
  simp only
  obtain ⟨i, hi⟩ := hv (if now - s.last ≥ s.intervalMs * 1000000 then { (verifyCRCs crc s).2 with last := now } else s)
  refine ⟨i, hi.trans ?_⟩
  split
  · exact congrFun (vals_verify crc s) i
  · rfl

/-- **C70 (checksums are ignored, violated).** The documentation promises integrity checking of each copy.  Take a two-byte
object set to 7 whose copies 0 and 1 are then corrupted to 6 and 5; even though the read itself verifies the checksums and
only copy 2 passes, the read returns the corrupted 6. -/
theorem C70_valid_copy_ignored_violated :
    let crc : BitVec 16 → BitVec 32 := fun y => Crc.crc32 (Crc.bytesOf 2 y)
    let eq : BitVec 16 → BitVec 16 → Bool := fun a b => decide (a = b)
    let s := run eq crc (set crc (new crc 0 0) 7) [.fault 0 6, .fault 1 5]
    (crc (s.at 0).val ≠ (s.at 0).crc ∧ crc (s.at 1).val ≠ (s.at 1).crc ∧ crc (s.at 2).val = (s.at 2).crc) ∧
    (get eq crc s 6000000000 0).1 = 6 := by
  decide +kernel

/-- The hypotheses of the selection theorem are reachable. -/
example : let s := run (fun a b => decide (a = b)) (fun _ : Nat => 0#32) (new (fun _ => 0#32) 7 0) [.fault 0 6, .fault 1 5]
    s.c0.val ≠ s.c1.val ∧ s.c0.val ≠ s.c2.val ∧ s.c1.val ≠ s.c2.val ∧ s.weighted = true ∧ 0 < s.c0.health := by
  refine ⟨by decide, by decide, by decide, rfl, ?_⟩
  show (0 : ℚ) < 1
  norm_num

/-! ### C71: locking -/

/-- A thread making `n` plain calls one after the other. -/
def plain (n : Nat) : List Instr := (List.replicate n plainBody).flatten

/-- What a thread of plain calls may still have to do, and whether it holds the mutex. -/
def Shape (l : List Instr) (holds : Bool) : Prop :=
  ∃ n, (holds = false ∧ l = plain n) ∨
    (holds = true ∧ (l = .work :: .unlock :: plain n ∨ l = .unlock :: plain n))

/-- Invariant of a system of plain callers. -/
def PlainOk (s : Locks) : Prop := ∀ i, Shape (s.prog i) (decide (s.holder = some i))

theorem plain_succ (n : Nat) : plain (n + 1) = .lock :: .work :: .unlock :: plain n := by
  unfold plain; rw [List.replicate_succ]; rfl

theorem plainOk_step (s : Locks) (h : PlainOk s) (i : Nat) : PlainOk (s.step i) := by
  unfold Locks.step
  have hi := h i
  split
  · exact h
  · rename_i l e
    split
    · rename_i hn
      intro j
      by_cases hj : j = i
      · subst hj
        simp only [if_true]
        rw [e, hn] at hi
        obtain ⟨n, ⟨_, hp⟩ | ⟨hh, _⟩⟩ := hi
        · cases n with
          | zero => cases hp
          | succ n =>
            rw [plain_succ] at hp
            refine ⟨n, Or.inr ⟨by simp, Or.inl ?_⟩⟩
            exact (List.cons.inj hp).2
        · simp at hh
      · have := h j
        simp only [if_neg hj]
        rw [hn] at this
        have e2 : decide (some i = some j) = decide ((none : Option Nat) = some j) := by
          simp [Ne.symm hj]
        rw [e2]; exact this
    · exact h
  · rename_i l e
    have hhold : s.holder = some i := by
      rw [e] at hi
      obtain ⟨n, ⟨_, hp⟩ | ⟨hh, _⟩⟩ := hi
      · cases n with
        | zero => cases hp
        | succ n => rw [plain_succ] at hp; cases hp
      · simpa using hh
    intro j
    by_cases hj : j = i
    · subst hj
      simp only [if_true]
      rw [e] at hi
      obtain ⟨n, ⟨hh, _⟩ | ⟨_, hp | hp⟩⟩ := hi
      · simp [hhold] at hh
      · cases hp
      · exact ⟨n, Or.inl ⟨by simp, (List.cons.inj hp).2⟩⟩
    · simp only [if_neg hj]
      have := h j
      rw [hhold] at this
      have e2 : decide (some i = some j) = decide ((none : Option Nat) = some j) := by
        simp [Ne.symm hj]
      rw [e2] at this
      exact this
  · rename_i l e
    intro j
    by_cases hj : j = i
    · subst hj
      simp only [if_true]
      rw [e] at hi
      obtain ⟨n, ⟨hh, hp⟩ | ⟨hh, hp | hp⟩⟩ := hi
      · cases n with
        | zero => cases hp
        | succ n => rw [plain_succ] at hp; cases hp
      · refine ⟨n, Or.inr ⟨hh, Or.inr ?_⟩⟩
        exact (List.cons.inj hp).2
      · cases hp
    · simp only [if_neg hj]
      exact h j

theorem plainOk_run (sched : List Nat) (t : Locks) (h : PlainOk t) : PlainOk (Locks.run t sched) := by
  unfold Locks.run
  induction sched generalizing t with
  | nil => exact h
  | cons i l ih => exact ih _ (plainOk_step t h i)

/-- **C71 (no deadlock among the other member functions).** Any number of threads, each making any number of calls of the
member functions other than `clone`, in any schedule: whenever some thread is not finished, some thread can take a step. -/
theorem C71_plain_calls_progress (calls : Nat → Nat) (sched : List Nat) :
    let s := Locks.run ⟨none, fun i => plain (calls i)⟩ sched
    (∃ i, s.prog i ≠ []) → ∃ i, (s.step i).prog i ≠ s.prog i := by
  intro s hne
  have inv : PlainOk s := plainOk_run sched _ (fun i => ⟨calls i, Or.inl ⟨rfl, rfl⟩⟩)
  cases hh : s.holder with
  | none =>
    obtain ⟨i, hi⟩ := hne
    refine ⟨i, ?_⟩
    obtain ⟨n, ⟨_, hp⟩ | ⟨h1, _⟩⟩ := inv i
    · cases n with
      | zero => exact absurd hp hi
      | succ n =>
        rw [plain_succ] at hp
        unfold Locks.step
        rw [hp]
        simp only [hh, if_true]
        intro hc
        have := congrArg List.length hc
        simp at this
    · rw [hh] at h1; simp at h1
  | some i =>
    refine ⟨i, ?_⟩
    obtain ⟨n, ⟨h1, _⟩ | ⟨_, hp | hp⟩⟩ := inv i
    · rw [hh] at h1; simp at h1
    · unfold Locks.step
      rw [hp]
      simp only [if_true]
      intro hc
      have := congrArg List.length hc
      simp at this
    · unfold Locks.step
      rw [hp]
      simp only [if_true]
      intro hc
      have := congrArg List.length hc
      simp at this

/-- Thread `i` is in its `clone` call: waiting for the mutex, or holding it and about to lock it again. -/
def InClone (s : Locks) (i : Nat) : Prop :=
  s.prog i = cloneBody ∨ (s.holder = some i ∧ s.prog i = plainBody ++ [.work, .unlock])

theorem inClone_step (s : Locks) (i j : Nat) (h : InClone s i)
    (hu : ∀ k, k ≠ i → s.holder ≠ some k → ∀ l, s.prog k ≠ .unlock :: l) : InClone (s.step j) i := by
  by_cases hj : j = i
  · subst hj
    rcases h with h | ⟨h1, h2⟩
    · unfold Locks.step
      rw [h]
      show InClone (if s.holder = none then _ else s) j
      split
      · exact Or.inr ⟨rfl, if_pos rfl⟩
      · exact Or.inl h
    · unfold Locks.step
      rw [h2]
      show InClone (if s.holder = none then _ else s) j
      rw [h1, if_neg (by simp)]
      exact Or.inr ⟨h1, h2⟩
  · have hij : i ≠ j := fun e => hj e.symm
    unfold Locks.step
    split
    · exact h
    · split
      · rename_i hn
        rcases h with h | ⟨h1, h2⟩
        · exact Or.inl (by simp only [if_neg hij]; exact h)
        · rw [hn] at h1; cases h1
      · exact h
    · rename_i l e
      rcases h with h | ⟨h1, h2⟩
      · exact Or.inl (by simp only [if_neg hij]; exact h)
      · exact absurd e (hu j hj (by rw [h1]; simp [hij]) l)
    · rcases h with h | ⟨h1, h2⟩
      · exact Or.inl (by simp only [if_neg hij]; exact h)
      · exact Or.inr ⟨h1, by simp only [if_neg hij]; exact h2⟩

/-- System invariant with one `clone` caller `i` among plain callers. -/
def CloneOk (s : Locks) (i : Nat) : Prop :=
  InClone s i ∧ ∀ j, j ≠ i → Shape (s.prog j) (decide (s.holder = some j))

theorem cloneOk_step (s : Locks) (i j : Nat) (h : CloneOk s i) : CloneOk (s.step j) i := by
  obtain ⟨h1, h2⟩ := h
  have hu : ∀ k, k ≠ i → s.holder ≠ some k → ∀ l, s.prog k ≠ .unlock :: l := by
    intro k hk hh l e
    obtain ⟨n, ⟨_, hp⟩ | ⟨h3, _⟩⟩ := h2 k hk
    · rw [e] at hp
      cases n with
      | zero => cases hp
      | succ n => rw [plain_succ] at hp; cases hp
    · simp at h3; exact hh h3
  refine ⟨inClone_step s i j h1 hu, ?_⟩
  intro k hk
  by_cases hji : j = i
  · subst hji
    rcases h1 with h | ⟨h3, h4⟩
    · unfold Locks.step
      rw [h]
      show Shape ((if s.holder = none then _ else s : Locks).prog k) (decide ((if s.holder = none then _ else s : Locks).holder = some k))
      by_cases hn : s.holder = none
      · rw [if_pos hn]
        have := h2 k hk
        rw [hn] at this
        simp only [if_neg hk]
        have e2 : decide (some j = some k) = decide ((none : Option Nat) = some k) := by simp [Ne.symm hk]
        rw [e2]; exact this
      · rw [if_neg hn]; exact h2 k hk
    · unfold Locks.step
      rw [h4]
      show Shape ((if s.holder = none then _ else s : Locks).prog k) (decide ((if s.holder = none then _ else s : Locks).holder = some k))
      rw [if_neg (by rw [h3]; simp)]; exact h2 k hk
  · -- a plain caller moves: replace the clone caller by a finished thread and use the plain invariant
    have hs := h2 j hji
    have hkk := h2 k hk
    unfold Locks.step
    split
    · exact hkk
    · rename_i l e
      split
      · rename_i hn
        by_cases hkj : k = j
        · subst hkj
          simp only [if_true]
          rw [e, hn] at hs
          obtain ⟨n, ⟨_, hp⟩ | ⟨hh, _⟩⟩ := hs
          · cases n with
            | zero => cases hp
            | succ n =>
              rw [plain_succ] at hp
              exact ⟨n, Or.inr ⟨by simp, Or.inl (List.cons.inj hp).2⟩⟩
          · simp at hh
        · simp only [if_neg hkj]
          rw [hn] at hkk
          have e2 : decide (some j = some k) = decide ((none : Option Nat) = some k) := by simp [Ne.symm hkj]
          rw [e2]; exact hkk
      · exact hkk
    · rename_i l e
      have hhold : s.holder = some j := by
        by_contra hh
        exact hu j hji hh l e
      by_cases hkj : k = j
      · subst hkj
        simp only [if_true]
        rw [e] at hs
        obtain ⟨n, ⟨hh, _⟩ | ⟨_, hp | hp⟩⟩ := hs
        · simp [hhold] at hh
        · cases hp
        · exact ⟨n, Or.inl ⟨by simp, (List.cons.inj hp).2⟩⟩
      · simp only [if_neg hkj]
        rw [hhold] at hkk
        have e2 : decide (some j = some k) = decide ((none : Option Nat) = some k) := by simp [Ne.symm hkj]
        rw [e2] at hkk; exact hkk
    · rename_i l e
      by_cases hkj : k = j
      · subst hkj
        simp only [if_true]
        rw [e] at hs
        obtain ⟨n, ⟨hh, hp⟩ | ⟨hh, hp | hp⟩⟩ := hs
        · cases n with
          | zero => cases hp
          | succ n => rw [plain_succ] at hp; cases hp
        · exact ⟨n, Or.inr ⟨hh, Or.inr (List.cons.inj hp).2⟩⟩
        · cases hp
      · simp only [if_neg hkj]; exact hkk

/-- **C71 (`clone` never returns, violated).** One thread calls `clone()`, any number of others make any number of plain calls:
under every schedule the `clone` call is unfinished at every time. -/
theorem C71_clone_never_returns_violated (i : Nat) (calls : Nat → Nat) (sched : List Nat) :
    (Locks.run ⟨none, fun j => if j = i then cloneBody else plain (calls j)⟩ sched).prog i ≠ [] := by
  have key : ∀ t : Locks, CloneOk t i → CloneOk (Locks.run t sched) i := by
    unfold Locks.run
    induction sched with
    | nil => intro t h; exact h
    | cons j l ih => intro t h; exact ih _ (cloneOk_step t i j h)
  have h := key ⟨none, fun j => if j = i then cloneBody else plain (calls j)⟩
    ⟨Or.inl (if_pos rfl), fun j hj => ⟨calls j, Or.inl ⟨by simp, if_neg hj⟩⟩⟩
  rcases h.1 with h | ⟨_, h⟩ <;> rw [h] <;> simp [cloneBody, plainBody]

/-- Two threads of plain calls are interleaved up to the end. -/
example : (Locks.run ⟨none, fun i => plain (if i < 2 then 1 else 0)⟩ [0, 1, 0, 0, 1, 1, 1]).prog 1 = [] := by decide

end Verif.Props.MTmrP
