import Verif.Model.ErrorResult
/-!
Properties C42 (status codes and results) and C63 (error handler and callbacks).
-/
namespace Verif.Props.Status
open Verif.Status

/-- **C42 (status equality).** Equality of status codes is an equivalence relation that holds exactly if domain and code
agree, whatever the messages; `!=` is its negation. -/
theorem C42_status_equality (a b c : StatusCode) :
    (a.eq b = true ↔ a.domain = b.domain ∧ a.code = b.code) ∧ a.eq a = true ∧ (a.eq b = true → b.eq a = true) ∧
    (a.eq b = true → b.eq c = true → a.eq c = true) ∧ (a.ne b = true ↔ ¬ (a.domain = b.domain ∧ a.code = b.code)) := by
  have key : ∀ x y : StatusCode, x.eq y = true ↔ x.domain = y.domain ∧ x.code = y.code := by
    intro x y; simp [StatusCode.eq]
  refine ⟨key a b, by rw [key]; exact ⟨rfl, rfl⟩, ?_, ?_, ?_⟩
  · rw [key, key]; exact fun h => ⟨h.1.symm, h.2.symm⟩
  · rw [key, key, key]; exact fun h k => ⟨h.1.trans k.1, h.2.trans k.2⟩
  · rw [← key]; simp [StatusCode.ne]

/-- **C42 (success is one code).** A status is a success exactly if it equals the predefined `SUCCESS`, is an error
otherwise, and equal codes agree on it. -/
theorem C42_success_iff (a b : StatusCode) :
    (a.isSuccess = true ↔ a.eq SUCCESS = true) ∧ (a.isError = !a.isSuccess) ∧ (a.eq b = true → a.isSuccess = b.isSuccess) := by
  refine ⟨by unfold StatusCode.isSuccess StatusCode.eq SUCCESS; exact Iff.rfl, rfl, ?_⟩
  intro h
  obtain ⟨h1, h2⟩ := (C42_status_equality a b a).1.mp h
  simp [StatusCode.isSuccess, h1, h2]

/-- **C42 (predefined codes).** The ten predefined failures are errors and pairwise different. -/
theorem C42_predefined : (∀ s ∈ failures, s.isError = true) ∧
    failures.Pairwise (fun a b => a.ne b = true) := by
  decide

/-- **C42 (status-code results).** A result made from a value succeeds, has status `SUCCESS` and yields exactly that value;
a result made from a status fails, keeps exactly that status, and reading the value leaves the caller's variable alone. -/
theorem C42_core_result {T : Type} (v out : T) (s : StatusCode) :
    (Result.ofValue v).isSuccess = true ∧ (Result.ofValue v).isError = false ∧
    (Result.ofValue v).getStatus.isSuccess = true ∧ (Result.ofValue v).getValue out = (true, some v) ∧
    (Result.ofStatus (T := T) s).isSuccess = false ∧ (Result.ofStatus (T := T) s).isError = true ∧
    (Result.ofStatus (T := T) s).getStatus = s ∧ (Result.ofStatus s).getValue out = (false, some out) := by
  refine ⟨rfl, rfl, rfl, rfl, rfl, rfl, rfl, rfl⟩

/-- **C42 (void results).** A `Result<void>` succeeds exactly if its status does. -/
theorem C42_core_void (s : StatusCode) :
    VoidResult.ok.isSuccess = true ∧ VoidResult.ok.status.isSuccess = true ∧
    (VoidResult.ofStatus s).isSuccess = s.isSuccess ∧ (VoidResult.ofStatus s).isError = s.isError ∧
    (VoidResult.ofStatus s).status = s := by
  refine ⟨rfl, by decide, rfl, rfl, rfl⟩

/-- **C42 (success status without a value, violated).** For results with a value the status does not tell success: one
made from `SUCCESS` reports an error with a success status. -/
theorem C42_success_status_violated :
    (Result.ofStatus (T := Nat) SUCCESS).isError = true ∧ (Result.ofStatus (T := Nat) SUCCESS).getStatus.isSuccess = true ∧
    (VoidResult.ofStatus SUCCESS).isError = false := by decide

end Verif.Props.Status

namespace Verif.Props.ErrorHandling
open Verif.ErrorHandling

variable {T U V : Type}

/-! ### Specification: `Except ErrorInfo` -/

/-- A result as a value of Lean's `Except`. -/
def toExcept : Result T → Except ErrorInfo T
  | .val v => .ok v
  | .err e => .error e

/-- **C42 (access).** Exactly one of success and error holds; `value()` returns the stored value of a success and throws
the framework exception carrying the stored error otherwise; `valueOr` never throws; `error()` returns the stored error
and throws on a success. -/
theorem C42_access (r : Result T) (d : T) :
    (r.isSuccess = !r.isError) ∧
    (∀ v, toExcept r = .ok v → r.isSuccess = true ∧ r.value = .ok v ∧ r.valueOr d = .ok v ∧ r.error = .error .logic) ∧
    (∀ e, toExcept r = .error e → r.isError = true ∧ r.value = .error (.framework e) ∧ r.valueOr d = .ok d ∧ r.error = .ok e) := by
  cases r with
  | val v =>
    refine ⟨rfl, ?_, ?_⟩
    · intro w h; cases h; exact ⟨rfl, rfl, rfl, rfl⟩
    · intro e h; cases h
  | err e =>
    refine ⟨rfl, ?_, ?_⟩
    · intro w h; cases h
    · intro e h; cases h; exact ⟨rfl, rfl, rfl, rfl⟩

/-- **C42 (map and flatMap are those of `Except`).** With callables that do not throw, `map` and `flatMap` never throw and
are the functor map and monadic bind of `Except ErrorInfo`. -/
theorem C42_except (r : Result T) (f : T → U) (k : T → Result U) :
    (∃ r', r.map (fun v => .ok (f v)) = .ok r' ∧ toExcept r' = (toExcept r).map f) ∧
    (∃ r', r.flatMap (fun v => .ok (k v)) = .ok r' ∧ toExcept r' = (toExcept r).bind (fun v => toExcept (k v))) := by
  cases r with
  | val v => exact ⟨⟨_, rfl, rfl⟩, ⟨_, rfl, rfl⟩⟩
  | err e => exact ⟨⟨_, rfl, rfl⟩, ⟨_, rfl, rfl⟩⟩

/-- **C42 (functor and monad laws).** They hold for all values and callables, including callables that throw. -/
theorem C42_laws (r : Result T) (v : T) (f : T → Except Exn U) (g : U → Except Exn V)
    (k : T → Except Exn (Result U)) (l : U → Except Exn (Result V)) :
    r.map (fun v => .ok v) = .ok r ∧
    (r.map f).bind (fun r' => r'.map g) = r.map (fun v => (f v).bind g) ∧
    (Result.val v).flatMap k = k v ∧
    r.flatMap (fun v => .ok (.val v)) = .ok r ∧
    (r.flatMap k).bind (fun r' => r'.flatMap l) = r.flatMap (fun v => (k v).bind fun r' => r'.flatMap l) := by
  cases r with
  | val v =>
    refine ⟨rfl, ?_, rfl, rfl, rfl⟩
    have hm : ∀ {A B : Type} (a : A) (q : A → Except Exn B), (Result.val a).map q = (q a).map .val := by
      intro A B a q
      change (match q a with
        | Except.ok u => (Except.ok (Result.val u) : Except Exn (Result B))
        | Except.error x => Except.error x) = _
      cases q a <;> rfl
    rw [hm, hm]
    cases f v with
    | error x => rfl
    | ok u => exact hm u g
  | err e => exact ⟨rfl, rfl, rfl, rfl, rfl⟩

/-- **C42 (errors pass through).** On an error the callable is not consulted and the same error comes out. -/
theorem C42_error_through (e : ErrorInfo) (f : T → Except Exn U) (k : T → Except Exn (Result U)) :
    (Result.err e).map f = .ok (.err e) ∧ (Result.err e).flatMap k = .ok (.err e) := ⟨rfl, rfl⟩

/-- **C42 (void results).** -/
theorem C42_void (e : ErrorInfo) :
    VoidResult.ok.isSuccess = true ∧ VoidResult.ok.isError = false ∧ VoidResult.ok.error = .error .logic ∧
    (VoidResult.ofError e).isSuccess = false ∧ (VoidResult.ofError e).isError = true ∧
    (VoidResult.ofError e).error = .ok (some e) := ⟨rfl, rfl, rfl, rfl, rfl, rfl⟩

example : (Result.val 5).map (fun v => .ok (v + 1)) = .ok (Result.val 6) := rfl
example : (Result.err ⟨3, "io"⟩).map (fun v : Nat => .ok (v + 1)) = .ok (Result.err ⟨3, "io"⟩) := rfl

/-! ### C63 -/

/-- **C63 (reporting level).** Over every sequence of logged errors, the logger receives exactly those of at least the
reporting level, in order; without a logger, nothing. -/
theorem C63_reporting (h : Handler) (es : List ErrorInfo) :
    (es.foldl Handler.logError h).out = h.out ++ (if h.logger then es.filter (fun e => h.level ≤ e.severity) else []) := by
  have gen : ∀ (es : List ErrorInfo) (h : Handler), (es.foldl Handler.logError h).out =
      h.out ++ (if h.logger then es.filter (fun e => h.level ≤ e.severity) else []) := by
    intro es
    induction es with
    | nil => intro h; simp
    | cons e es ih =>
      intro h
      rw [List.foldl_cons, ih]
      unfold Handler.logError
      cases hl : h.logger with
      | false => simp [hl]
      | true =>
        by_cases hs : h.level ≤ e.severity
        · simp [hs]
        · simp [hs, hl]
  exact gen es h

/-- **C63 (throwing).** Handling an error result throws the framework exception with exactly that error iff its severity
reaches the threshold, otherwise returns false; the error is logged in both cases; a success returns true and logs
nothing. -/
theorem C63_handle (h : Handler) (throwOn : Severity) (v : T) (e : ErrorInfo) :
    h.handleErrorResult (Result.val v) throwOn = (h, .ok true) ∧
    (h.handleErrorResult (T := T) (Result.err e) throwOn).1 = h.logError e ∧
    (throwOn ≤ e.severity → (h.handleErrorResult (T := T) (Result.err e) throwOn).2 = .error (.framework e)) ∧
    (¬ throwOn ≤ e.severity → (h.handleErrorResult (T := T) (Result.err e) throwOn).2 = .ok false) := by
  refine ⟨rfl, ?_, ?_, ?_⟩
  · by_cases hs : throwOn ≤ e.severity <;>
      simp [Handler.handleErrorResult, Result.isError, Result.error, Result.getErr, Handler.handleError, hs]
  · intro hs
    simp [Handler.handleErrorResult, Result.isError, Result.error, Result.getErr, Handler.handleError, hs]
  · intro hs
    simp [Handler.handleErrorResult, Result.isError, Result.error, Result.getErr, Handler.handleError, hs]

/-! Callback registry -/

/-- Abstract registry: the live registrations (id, callback) in registration order, and the next id. -/
structure Abs where
  live : List (Nat × Nat) := [(0, 0)]
  next : Nat := 1
  calls : List (Nat × ErrorInfo) := []

def Abs.apply (a : Abs) : Op → Abs
  | .register c => { a with live := a.live ++ [(a.next, c)], next := a.next + 1 }
  | .unregister id => { a with live := a.live.filter (fun x => (x.1 : Int) ≠ id) }
  | .log e => { a with calls := a.calls ++ a.live.map (fun x => (x.2, e)) }

def Abs.run (a : Abs) (ops : List Op) : Abs := ops.foldl Abs.apply a

/-- The occupied slots of a vector of callbacks. -/
def slots (l : List (Option Nat)) (off : Nat) : List (Nat × Nat) := match l with
  | [] => []
  | some c :: l => (off, c) :: slots l (off + 1)
  | none :: l => slots l (off + 1)

theorem slots_append (l : List (Option Nat)) (c : Nat) (off : Nat) :
    slots (l ++ [some c]) off = slots l off ++ [(off + l.length, c)] := by
  induction l generalizing off with
  | nil => simp [slots]
  | cons x l ih =>
    cases x <;> simp [slots, ih] <;> omega

theorem slots_ge (l : List (Option Nat)) (off : Nat) : ∀ x ∈ slots l off, off ≤ x.1 := by
  induction l generalizing off with
  | nil => simp [slots]
  | cons y l ih =>
    intro x hx
    cases y with
    | none => have := ih (off + 1) x hx; omega
    | some c =>
      rcases List.mem_cons.mp hx with rfl | hx
      · exact Nat.le_refl _
      · have := ih (off + 1) x hx; omega

theorem slots_lt (l : List (Option Nat)) (off : Nat) : ∀ x ∈ slots l off, x.1 < off + l.length := by
  induction l generalizing off with
  | nil => simp [slots]
  | cons y l ih =>
    intro x hx
    rw [List.length_cons]
    cases y with
    | none => have := ih (off + 1) x hx; omega
    | some c =>
      rcases List.mem_cons.mp hx with rfl | hx
      · simp only; omega
      · have := ih (off + 1) x hx; omega

theorem slots_nodup (l : List (Option Nat)) (off : Nat) : (slots l off).Pairwise (fun a b => a.1 < b.1) := by
  induction l generalizing off with
  | nil => exact List.Pairwise.nil
  | cons y l ih =>
    cases y with
    | none => exact ih (off + 1)
    | some c =>
      refine List.pairwise_cons.mpr ⟨?_, ih (off + 1)⟩
      intro b hb
      have := slots_ge l (off + 1) b hb
      simp only; omega

theorem slots_set (l : List (Option Nat)) (off i : Nat) :
    slots (l.set i none) off = (slots l off).filter (fun x => x.1 ≠ off + i) := by
  induction l generalizing off i with
  | nil => simp [slots]
  | cons y l ih =>
    cases i with
    | zero =>
      have hkeep : (slots l (off + 1)).filter (fun x => decide (x.1 ≠ off + 0)) = slots l (off + 1) := by
        apply List.filter_eq_self.mpr
        intro a ha
        have := slots_ge l (off + 1) a ha
        simp only [decide_eq_true_eq]; omega
      cases y with
      | none => simp only [List.set_cons_zero, slots, hkeep]
      | some c =>
        simp only [List.set_cons_zero, slots]
        rw [List.filter_cons_of_neg (by simp), hkeep]
    | succ i =>
      cases y with
      | none =>
        simp only [List.set_cons_succ, slots, ih]
        congr 1; funext x; congr 2; omega
      | some c =>
        simp only [List.set_cons_succ, slots, ih]
        rw [List.filter_cons_of_pos (by simp only [decide_eq_true_eq]; omega)]
        congr 2; funext x; congr 2; omega

theorem log_calls (l : List (Option Nat)) (e : ErrorInfo) (off : Nat) (acc : List (Nat × ErrorInfo)) :
    l.foldl (callOne e) acc = acc ++ (slots l off).map (fun x => (x.2, e)) := by
  induction l generalizing off acc with
  | nil => simp [slots]
  | cons y l ih =>
    cases y with
    | none => rw [List.foldl_cons, ih (off + 1)]; rfl
    | some c => rw [List.foldl_cons, ih (off + 1)]; simp [slots, callOne]

/-- Agreement of the vector with the abstract registry. -/
structure Agree (r : Registry) (a : Abs) : Prop where
  live : slots r.callbacks 0 = a.live
  next : r.callbacks.length = a.next
  calls : r.calls = a.calls

theorem agree_apply {r : Registry} {a : Abs} (h : Agree r a) (o : Op) : Agree (r.apply o) (a.apply o) := by
  cases o with
  | register c =>
    refine ⟨?_, ?_, h.calls⟩
    · simp only [Registry.apply, Registry.register, Abs.apply]
      rw [slots_append, h.live, Nat.zero_add, h.next]
    · simp only [Registry.apply, Registry.register, Abs.apply, List.length_append, List.length_singleton, h.next]
  | unregister id =>
    have key : slots ((r.unregister id).1).callbacks 0 = (a.live.filter (fun x => (x.1 : Int) ≠ id)) ∧
        ((r.unregister id).1).callbacks.length = a.next ∧ (r.unregister id).1.calls = a.calls := by
      unfold Registry.unregister
      by_cases hc : id ≥ 0 ∧ id < r.callbacks.length
      · have : (decide (id ≥ 0) && decide (id < (r.callbacks.length : Int))) = true := by simp [hc]
        rw [if_pos this]
        refine ⟨?_, by simp [h.next], h.calls⟩
        simp only
        rw [slots_set, h.live]
        congr 1; funext x
        congr 1
        apply propext
        constructor <;> intro hx e <;> apply hx <;> omega
      · have : ¬ (decide (id ≥ 0) && decide (id < (r.callbacks.length : Int))) = true := by
          simp only [Bool.and_eq_true, decide_eq_true_eq]; exact hc
        rw [if_neg this]
        refine ⟨?_, h.next, h.calls⟩
        simp only
        rw [← h.live]
        symm
        apply List.filter_eq_self.mpr
        intro x hx
        have := slots_lt r.callbacks 0 x hx
        simp only [decide_eq_true_eq]; omega
    exact ⟨key.1, key.2.1, key.2.2⟩
  | log e =>
    refine ⟨h.live, h.next, ?_⟩
    simp only [Registry.apply, Registry.logError, Abs.apply]
    rw [log_calls r.callbacks e 0, h.live, h.calls]

theorem agree_run (ops : List Op) : Agree (Registry.init.run ops) (({} : Abs).run ops) := by
  have gen : ∀ (ops : List Op) r a, Agree r a → Agree (r.run ops) (a.run ops) := by
    intro ops
    induction ops with
    | nil => intro r a h; exact h
    | cons o ops ih => intro r a h; exact ih _ _ (agree_apply h o)
  exact gen ops _ _ ⟨rfl, rfl, rfl⟩

/-- **C63 (callbacks).** For every history of registering, unregistering and logging: the sequence of callback
invocations is that of the abstract registry, in which logging calls every live callback exactly once, in order of
registration, and no other. -/
theorem C63_callbacks (ops : List Op) : (Registry.init.run ops).calls = (({} : Abs).run ops).calls :=
  (agree_run ops).calls

/-- **C63 (ids).** In every reachable state the ids of live callbacks are distinct, and registering returns an id that no
callback has ever had (all ids handed out so far are smaller). -/
theorem C63_ids (ops : List Op) (c : Nat) :
    let a := ({} : Abs).run ops
    a.live.Pairwise (fun x y => x.1 ≠ y.1) ∧ (∀ x ∈ a.live, x.1 < a.next) ∧
    ((Registry.init.run ops).register (some c)).2 = a.next := by
  have h := agree_run ops
  refine ⟨?_, ?_, ?_⟩
  · rw [← h.live]; exact (slots_nodup _ 0).imp (fun hab => Nat.ne_of_lt hab)
  · intro x hx
    rw [← h.live] at hx
    have := slots_lt _ 0 x hx
    rw [← h.next]; omega
  · simp only [Registry.register, List.length_append, List.length_singleton]
    rw [← h.next]; simp

/-- **C63 (unregister, partial).** Unregistering a live id returns true and removes that callback only (the last part by
`C63_callbacks`); an id never handed out is refused. -/
theorem C63_unregister_partial (ops : List Op) (id : Int) :
    let a := ({} : Abs).run ops
    ((∃ x ∈ a.live, (x.1 : Int) = id) → ((Registry.init.run ops).unregister id).2 = true) ∧
    (id < 0 ∨ (a.next : Int) ≤ id → ((Registry.init.run ops).unregister id).2 = false) := by
  have h := agree_run ops
  refine ⟨?_, ?_⟩
  · rintro ⟨x, hx, rfl⟩
    rw [← h.live] at hx
    have := slots_lt _ 0 x hx
    unfold Registry.unregister
    have hlt : ((x.1 : Int) < ((Registry.init.run ops).callbacks.length : Int)) := by omega
    simp [hlt]
  · intro hid
    rw [← h.next] at hid
    unfold Registry.unregister
    have : ¬ (decide (id ≥ 0) && decide (id < ((Registry.init.run ops).callbacks.length : Int))) = true := by
      simp only [Bool.and_eq_true, decide_eq_true_eq]; omega
    rw [if_neg this]

/-- **C63 (unregistering twice, violated).** The documented result is "true if the callback was found and unregistered";
a second call with the same id finds nothing and still returns true. -/
theorem C63_unregister_violated :
    ((Registry.init.run [.register 7, .unregister 1]).unregister 1).2 = true ∧
    (1, 7) ∉ (({} : Abs).run [.register 7, .unregister 1]).live := by decide

example : (Registry.init.run [.register 7, .log ⟨3, "a"⟩, .unregister 0, .log ⟨5, "b"⟩]).calls =
    [(0, ⟨3, "a"⟩), (7, ⟨3, "a"⟩), (7, ⟨5, "b"⟩)] := by decide

end Verif.Props.ErrorHandling
