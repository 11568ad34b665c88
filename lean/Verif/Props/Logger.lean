import Verif.Model.Logger
import Mathlib.Tactic.NormNum
import Mathlib.Data.List.Basic
/-!
Properties of `Logger` (C108).
-/
namespace Verif.Props.LoggerP
open Verif.Logger

/-! Specification. -/

/-- The lines a history should show, starting with threshold `t`: the messages at or above the threshold last set, in order. -/
def shown (t : Level) : List Op → List Line
  | [] => []
  | .init l _ _ :: ops => shown l ops
  | .log l m :: ops => if t.num ≤ l.num then (l, m) :: shown t ops else shown t ops
  | .close :: ops => shown t ops

/-- The messages of a history of `log` calls. -/
def logs (ms : List Line) : List Op := ms.map fun x => .log x.1 x.2

theorem log_console (s : St) (l : Level) (m : String) : (s.log l m).console = s.console ++ if s.level.num ≤ l.num then [(l, m)] else [] := by
  unfold St.log
  by_cases h : l.num < s.level.num
  · rw [if_pos h, if_neg (by omega)]; simp
  · rw [if_neg h, if_pos (by omega)]
    simp only
    split
    · split <;> rfl
    · rfl

theorem log_rest (s : St) (l : Level) (m : String) : (s.log l m).level = s.level ∧ (s.log l m).toFile = s.toFile ∧ (s.log l m).path = s.path ∧ (s.log l m).stream = s.stream := by
  unfold St.log
  by_cases h : l.num < s.level.num
  · rw [if_pos h]; exact ⟨rfl, rfl, rfl, rfl⟩
  · rw [if_neg h]
    simp only
    split
    · rename_i p hp
      split
      · exact ⟨rfl, rfl, rfl, rfl⟩
      · exact ⟨rfl, rfl, rfl, rfl⟩
    · exact ⟨rfl, rfl, rfl, rfl⟩

theorem log_files (s : St) (l : Level) (m : String) (q : String) : (s.log l m).files q = s.files q ++ if s.level.num ≤ l.num ∧ s.toFile = true ∧ s.stream = some q then [(l, m)] else [] := by
  unfold St.log
  by_cases h : l.num < s.level.num
  · rw [if_pos h, if_neg (by rintro ⟨h1, _⟩; omega)]; simp
  · rw [if_neg h]
    simp only
    cases hs : s.stream with
    | none => simp
    | some p =>
      simp only
      cases hf : s.toFile with
      | false => simp
      | true =>
        by_cases hq : q = p
        · subst hq; simp; omega
        · have : ¬ (p = q) := fun hh => hq hh.symm
          simp [hq, this]

theorem init_rest (canOpen : String → Bool) (s : St) (l : Level) (f : Bool) (p : String) : (s.init canOpen l f p).console = s.console ∧ (s.init canOpen l f p).files = s.files ∧
    (s.init canOpen l f p).level = l ∧ (s.init canOpen l f p).toFile = f ∧
    (s.init canOpen l f p).stream = if f && s.stream.isNone then (if canOpen p then some p else none) else s.stream := by
  unfold St.init
  simp only
  by_cases h : (f && s.stream.isNone) = true
  · rw [if_pos h, if_pos h]; exact ⟨rfl, rfl, rfl, rfl, rfl⟩
  · rw [if_neg h, if_neg h]; exact ⟨rfl, rfl, rfl, rfl, rfl⟩

/-- C108: in every history the console shows exactly the messages whose level is not below the threshold set by the last `init` (INFO before the first), each once and in order. -/
theorem C108_console (canOpen : String → Bool) (ops : List Op) : (St.run canOpen {} ops).console = shown .info ops := by
  have : ∀ (ops : List Op) (s : St), (s.run canOpen ops).console = s.console ++ shown s.level ops := by
    intro ops
    induction ops with
    | nil => intro s; simp [St.run, shown]
    | cons o t ih =>
      intro s
      have e : s.run canOpen (o :: t) = (s.step canOpen o).run canOpen t := rfl
      rw [e, ih]
      cases o with
      | init l f p =>
        have := init_rest canOpen s l f p
        simp only [St.step, shown, this.1, this.2.2.1]
      | log l m =>
        simp only [St.step, shown, log_console, (log_rest s l m).1]
        split <;> simp
      | close => rfl
  rw [this]; rfl

/-- Non-vacuity. -/
example : (St.run (fun _ => true) {} [.log .debug "a", .log .info "b", .init .error false "x", .log .warning "c", .log .critical "d"]).console = [(.info, "b"), (.critical, "d")] := by decide

/-- C108: every file contains only lines that were shown, in the order in which they were shown. -/
theorem C108_file_sublist (canOpen : String → Bool) (ops : List Op) (q : String) : ((St.run canOpen {} ops).files q).Sublist (St.run canOpen {} ops).console := by
  have : ∀ (ops : List Op) (s : St), (s.files q).Sublist s.console → ((s.run canOpen ops).files q).Sublist (s.run canOpen ops).console := by
    intro ops
    induction ops with
    | nil => intro s h; exact h
    | cons o t ih =>
      intro s h
      have e : s.run canOpen (o :: t) = (s.step canOpen o).run canOpen t := rfl
      rw [e]
      apply ih
      cases o with
      | init l f p =>
        have := init_rest canOpen s l f p
        simp only [St.step, this.1, this.2.1]; exact h
      | log l m =>
        simp only [St.step, log_console, log_files]
        refine h.append ?_
        by_cases h1 : s.level.num ≤ l.num
        · rw [if_pos h1]; split
          · exact List.Sublist.refl _
          · exact List.nil_sublist _
        · rw [if_neg h1, if_neg (fun hh => h1 hh.1)]
      | close => exact h
  exact this ops {} (List.Sublist.refl _)

/-- Non-vacuity: a file opened after the first message and closed before the last. -/
example : (St.run (fun _ => true) {} [.log .info "a", .init .info true "x", .log .error "b", .close, .log .error "c"]).files "x" = [(.error, "b")] := by decide

theorem logs_run (canOpen : String → Bool) (ms : List Line) : ∀ s : St, 
    (s.run canOpen (logs ms)).console = s.console ++ shown s.level (logs ms) ∧
    ∀ q, (s.run canOpen (logs ms)).files q = s.files q ++ if s.toFile = true ∧ s.stream = some q then shown s.level (logs ms) else [] := by
  induction ms with
  | nil => intro s; simp [logs, St.run, shown]
  | cons x t ih =>
    intro s
    have e : s.run canOpen (logs (x :: t)) = (s.log x.1 x.2).run canOpen (logs t) := rfl
    have e2 : shown s.level (logs (x :: t)) = (if s.level.num ≤ x.1.num then [x] else []) ++ shown s.level (logs t) := by
      simp only [logs, List.map_cons, shown]
      split <;> simp
    obtain ⟨h1, h2⟩ := ih (s.log x.1 x.2)
    obtain ⟨r1, r2, r3, r4⟩ := log_rest s x.1 x.2
    rw [e]
    refine ⟨?_, ?_⟩
    · rw [h1, log_console, r1, e2]; simp
    · intro q
      rw [h2 q, log_files, r1, r2, r4, e2]
      by_cases hq : s.toFile = true ∧ s.stream = some q
      · by_cases hl : s.level.num ≤ x.1.num
        · rw [if_pos ⟨hl, hq⟩, if_pos hq, if_pos hl, if_pos hq]; simp
        · rw [if_neg (fun hh => hl hh.1), if_pos hq, if_neg hl, if_pos hq]; simp
      · rw [if_neg (fun hh => hq hh.2), if_neg hq, if_neg hq]; simp

/-- C108: after `init` with file logging, when no file is open and the file can be opened, exactly the lines shown from then on are appended to that file, and to no other. -/
theorem C108_file (canOpen : String → Bool) (s : St) (hs : s.stream = none) (l : Level) (p : String) (hp : canOpen p = true) (ms : List Line) :
    let s' := s.run canOpen (.init l true p :: logs ms)
    s'.files p = s.files p ++ shown l (logs ms) ∧ (∀ q, q ≠ p → s'.files q = s.files q) ∧ s'.console = s.console ++ shown l (logs ms) := by
  intro s'
  obtain ⟨i1, i2, i3, i4, i5⟩ := init_rest canOpen s l true p
  rw [hs, hp] at i5
  obtain ⟨h1, h2⟩ := logs_run canOpen ms (s.init canOpen l true p)
  have e : s' = (s.init canOpen l true p).run canOpen (logs ms) := rfl
  refine ⟨?_, ?_, ?_⟩
  · rw [e, h2, i2, i3, i4, i5]; simp
  · intro q hq
    rw [e, h2, i2, i3, i4, i5]
    have : ¬ (p = q) := fun hh => hq hh.symm
    simp [this]
  · rw [e, h1, i1, i3]

/-- Non-vacuity. -/
example : (St.run (fun _ => true) {} [.init .warning true "m.log", .log .info "a", .log .error "b"]).files "m.log" = [(.error, "b")] := by decide

/-- C108 (negation): `init` with another path while a file is open is ignored: all lines still go to the old file and the named one stays as it was. -/
theorem C108_repath_violated (canOpen : String → Bool) (s : St) (p q : String) (hs : s.stream = some p) (hpq : p ≠ q) (l : Level) (ms : List Line) :
    let s' := s.run canOpen (.init l true q :: logs ms)
    s'.files q = s.files q ∧ s'.files p = s.files p ++ shown l (logs ms) := by
  intro s'
  obtain ⟨i1, i2, i3, i4, i5⟩ := init_rest canOpen s l true q
  rw [hs] at i5
  obtain ⟨h1, h2⟩ := logs_run canOpen ms (s.init canOpen l true q)
  have e : s' = (s.init canOpen l true q).run canOpen (logs ms) := rfl
  refine ⟨?_, ?_⟩
  · rw [e, h2, i2, i3, i4, i5]
    simp [hpq]
  · rw [e, h2, i2, i3, i4, i5]; simp

/-- Non-vacuity. -/
example : let s := St.run (fun _ => true) {} [.init .info true "a.log", .init .info true "b.log", .log .error "x"]
    s.files "b.log" = [] ∧ s.files "a.log" = [(.error, "x")] := by decide

/-- C108 (limit): after `close`, or when the file cannot be opened, lines go to the console only, although file logging was asked for; nothing is reported. -/
theorem C108_silent_limit (canOpen : String → Bool) (s : St) (ms : List Line) (l : Level) (p : String) :
    (∀ q, (s.run canOpen (.close :: logs ms)).files q = s.files q) ∧
    (s.stream = none → canOpen p = false → ∀ q, (s.run canOpen (.init l true p :: logs ms)).files q = s.files q) := by
  refine ⟨?_, ?_⟩
  · intro q
    have := (logs_run canOpen ms s.close).2 q
    have e : s.run canOpen (.close :: logs ms) = s.close.run canOpen (logs ms) := rfl
    rw [e, this]
    simp [St.close]
  · intro hs hp q
    obtain ⟨i1, i2, i3, i4, i5⟩ := init_rest canOpen s l true p
    rw [hs, hp] at i5
    have e : s.run canOpen (.init l true p :: logs ms) = (s.init canOpen l true p).run canOpen (logs ms) := rfl
    rw [e, (logs_run canOpen ms (s.init canOpen l true p)).2 q, i2, i5]
    simp

/-- Non-vacuity. -/
example : (St.run (fun _ => false) {} [.init .info true "a.log", .log .error "x"]).console = [(.error, "x")] := by decide

end Verif.Props.LoggerP
