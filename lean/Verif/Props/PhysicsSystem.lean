import Verif.Props.PhysicsScales
import Verif.Props.Strategies
/-!
C94-C95: the physics-driven protection system and its example layer
(/repo/include/rad_ml/tmr/physics_driven_protection.hpp).
-/
namespace Verif.Props.PhysP
open Verif Verif.Strat Verif.Phys Verif.Props.StratP

variable {α : Type}

/-! ### Invariant of every history -/

/-- What every reachable state satisfies, for `n` layers. -/
structure Inv (n : Nat) (p : PDP) : Prop where
  lev : p.policy.levels.length = n
  pol : p.policy.sens = p.sens
  sen : p.sens.length = n
  all : p.alloc.length = n
  ran : ∀ l ∈ p.policy.levels, l ∈ ([1, 2, 4, 5] : List Level)

theorem layerLevel_range (e : Env) (n i : Nat) (s : ℚ) : layerLevel e n i s ∈ ([1, 2, 4, 5] : List Level) := by
  unfold layerLevel
  dsimp only
  split_ifs <;> decide

theorem inv_new (tol yield : ℚ) (n : Nat) (t0 : ℤ) : Inv n (PDP.new tol yield n t0) := by
  refine ⟨by simp [PDP.new, Policy.new], ?_, by simp [PDP.new], by simp [PDP.new], ?_⟩
  · simp [PDP.new, Policy.new]; norm_num
  · intro l hl
    simp only [PDP.new, Policy.new] at hl
    rw [(List.mem_replicate.1 hl).2]
    decide

theorem inv_setSens (n : Nat) (p : PDP) (h : Inv n p) (i : Int) (s : ℚ) : Inv n (p.setSens i s) := by
  unfold PDP.setSens
  split
  · rename_i hc
    have hp : p.policy.setSens i s = { p.policy with sens := p.policy.sens.set i.toNat s } := by
      rw [Policy.setSens, h.pol, if_pos hc]
    exact ⟨by rw [hp]; exact h.lev, by rw [hp, h.pol], by simpa using h.sen, h.all, by rw [hp]; exact h.ran⟩
  · exact h

theorem inv_update (n : Nat) (p q : PDP) (h : Inv n p) (now : ℤ) (e : PEnv) (stress : ℚ) (hq : p.update now e stress = .ok q) : Inv n q ∧
    ∃ mr, p.multi.update now e p.tol = .ok mr ∧ q = { p with
      tempF := tempThreshold 1 e.temp, stressF := loadFactor stress p.yield e.dose,
      synF := synergyFactor e.temp stress p.yield, ctrl := p.ctrl.updateEnv e.toEnv,
      policy := { p.policy with levels := (List.range n).map fun i => layerLevel e.toEnv n i (p.sens.getD i 0) },
      ckpt := ckptInterval e (tempThreshold 1 e.temp) (loadFactor stress p.yield e.dose) (synergyFactor e.temp stress p.yield),
      alloc := allocate 1 (p.sens.map fun q => ((q : ℚ) : ℝ)) (severity e), multi := mr.1 } := by
  have ho : p.policy.optimize e.toEnv = some { p.policy with levels := (List.range n).map fun i => layerLevel e.toEnv n i (p.sens.getD i 0) } := by
    rw [Policy.optimize, h.pol, h.sen, h.lev, if_neg (by omega), ← h.pol]
  unfold PDP.update at hq
  rw [ho] at hq
  simp only at hq
  rw [bind_ok] at hq
  obtain ⟨mr, hmr, hq⟩ := hq
  have hq' := (Outcome.ok.inj hq).symm
  refine ⟨?_, mr, hmr, hq'⟩
  subst hq'
  refine ⟨by simp, h.pol, h.sen, by simp [allocate, h.sen], ?_⟩
  intro l hl
  obtain ⟨i, _, rfl⟩ := List.mem_map.1 hl
  exact layerLevel_range _ _ _ _

theorem inv_enter (n : Nat) (p : PDP) (h : Inv n p) (name : String) : Inv n (p.enter name) := ⟨h.lev, h.pol, h.sen, h.all, h.ran⟩

theorem inv_run (n : Nat) (ops : List PDPOp) : ∀ p q : PDP, Inv n p → p.run ops = .ok q → Inv n q := by
  induction ops with
  | nil => intro p q h hq; rw [PDP.run] at hq; exact (Outcome.ok.inj hq) ▸ h
  | cons o l ih =>
    intro p q h hq
    rw [PDP.run, bind_ok] at hq
    obtain ⟨r, hr, hq⟩ := hq
    refine ih r q ?_ hq
    cases o with
    | setSens i s => exact (Outcome.ok.inj hr) ▸ inv_setSens n p h i s
    | update now e stress => exact (inv_update n p r h now e stress hr).1
    | enter name => exact (Outcome.ok.inj hr) ▸ inv_enter n p h name

/-- A state some history reaches from the constructor. -/
def Reach (n : Nat) (p : PDP) : Prop := ∃ tol yield t0 ops, (PDP.new tol yield n t0).run ops = .ok p

theorem reach_inv (n : Nat) (p : PDP) (h : Reach n p) : Inv n p := by
  obtain ⟨tol, yield, t0, ops, h⟩ := h
  exact inv_run n ops _ _ (inv_new tol yield n t0) h

/-- Non-vacuity: the constructed system is reachable, and so is the one after a sensitivity is set and a phase entered. -/
example : Reach 3 ((PDP.new 50 270 3 0).setSens 0 (9 / 10)) := ⟨50, 270, 0, [.setSens 0 (9 / 10)], rfl⟩

theorem level_range (n : Nat) (p : PDP) (h : Inv n p) (i : Int) : p.level i ∈ ([1, 2, 4, 5] : List Level) := by
  have h1 := (C92_level p.alloc i).2.2.2.2
  have h2 : p.policy.getLevel i ∈ ([1, 2, 4, 5] : List Level) := by
    unfold Policy.getLevel
    split
    · rename_i hc
      have hlt : i.toNat < p.policy.levels.length := by omega
      have : p.policy.levels.getD i.toNat 1 = p.policy.levels[i.toNat] := by simp [hlt]
      rw [this]
      exact h.ran _ (List.getElem_mem hlt)
    · decide
  unfold PDP.level
  split
  · exact h1
  · exact h2

/-! ### C94: the system -/

/-- C94: after an update, the level of layer `i` is the larger of the level bought by its share of the resources and the level the layer
policy gives it in the reported environment; a layer index outside the network gets BASIC_TMR, always. -/
theorem C94_level (n : Nat) (p q : PDP) (h : Reach n p) (now : ℤ) (e : PEnv) (stress : ℚ) (hq : p.update now e stress = .ok q) :
    (∀ k : Nat, k < n → q.level k = max (resourceLevel ((allocate 1 (p.sens.map fun q => ((q : ℚ) : ℝ)) (severity e)).getD k 0)) (layerLevel e.toEnv n k (p.sens.getD k 0))) ∧
    (∀ i : Int, i < 0 ∨ i ≥ n → q.level i = 1 ∧ p.level i = 1) := by
  have hi := reach_inv n p h
  obtain ⟨hiq, mr, _, he⟩ := inv_update n p q hi now e stress hq
  refine ⟨?_, ?_⟩
  · intro k hk
    have ha : allocLevel q.alloc k = resourceLevel ((allocate 1 (p.sens.map fun q => ((q : ℚ) : ℝ)) (severity e)).getD k 0) := by
      rw [allocLevel, if_neg (by rw [hiq.all]; omega)]
      rw [he]
      simp
    have hl : q.policy.getLevel k = layerLevel e.toEnv n k (p.sens.getD k 0) := by
      rw [Policy.getLevel, if_pos (by rw [hiq.lev]; omega)]
      rw [he]
      simp [hk]
    rw [PDP.level, ha, hl]
    split
    · rename_i hgt; exact (max_eq_left (le_of_lt hgt)).symm
    · rename_i hgt; exact (max_eq_right (not_lt.1 hgt)).symm
  · intro i hr
    have out : ∀ r : PDP, Inv n r → r.level i = 1 := by
      intro r hr'
      have h1 : allocLevel r.alloc i = 1 := (C92_level r.alloc i).1 (by rw [hr'.all]; exact hr)
      have h2 : r.policy.getLevel i = 1 := by rw [Policy.getLevel, if_neg (by rw [hr'.lev]; omega)]
      rw [PDP.level, h1, h2]
      rfl
    exact ⟨out q hiq, out p hi⟩

/-- C94: in the anomaly or at solar activity above 0.7 every layer of the network gets the highest level. -/
theorem C94_worst_case (n : Nat) (p q : PDP) (h : Reach n p) (now : ℤ) (e : PEnv) (stress : ℚ) (hq : p.update now e stress = .ok q)
    (hs : e.saa = true ∨ 7 / 10 < e.solar) (k : Nat) (hk : k < n) : q.level k = 5 := by
  rw [(C94_level n p q h now e stress hq).1 k hk]
  have : layerLevel e.toEnv n k (p.sens.getD k 0) = 5 := by
    unfold layerLevel
    rw [if_pos]
    rcases hs with hs | hs
    · exact Or.inl hs
    · exact Or.inr (Or.inl hs)
  rw [this]
  generalize resourceLevel _ = l
  revert l
  decide

/-- The system's level is never NONE and never STUCK_BIT_TMR. -/
theorem level_cases (n : Nat) (p : PDP) (h : Reach n p) (i : Int) : p.level i = 1 ∨ p.level i = 2 ∨ p.level i = 4 ∨ p.level i = 5 := by
  have := level_range n p (reach_inv n p h) i
  simpa using this

theorem majHealth [DecidableEq α] (a b c : α) :
    (execHealth same {} a b c).1.value = (execBasic same a b c).value ∧ (execHealth same {} a b c).1.detected = (execBasic same a b c).detected ∧
    (execHealth same {} a b c).1.corrected = (execBasic same a b c).corrected := by
  have hw : ((1 : ℚ) / (1 + 1 + 1) + 1 / (1 + 1 + 1) > 6 / 10) := by norm_num
  unfold execHealth execBasic healthiest
  dsimp only
  split_ifs <;> simp_all

/-- C94: in every reachable state and for every layer, an operation of which at most one of the three executions goes wrong returns the
right value (the value type has a genuine equality and every value a checksum). -/
theorem C94_single_fault [DecidableEq α] (n : Nat) (p : PDP) (h : Reach n p) (i : Int) (crit : ℚ) (sum : α → Option Nat) (hs : ∀ a, (sum a).isSome)
    (stuck : α → Bool) (fix : α → α → α → α) (op : Nat → α) (v : α) (bad : Nat) (ho : ∀ k, k ≠ bad → op k = v) :
    ∃ r, p.execute same sum stuck fix i op crit = .ok r ∧ r.value = v := by
  have hm : Maj (op 0) (op 1) (op 2) v := by
    by_cases h0 : bad = 0
    · exact Or.inr (Or.inr ⟨ho 1 (by omega), ho 2 (by omega)⟩)
    · by_cases h1 : bad = 1
      · exact Or.inr (Or.inl ⟨ho 0 (by omega), ho 2 (by omega)⟩)
      · exact Or.inl ⟨ho 0 (by omega), ho 1 (by omega)⟩
  have hb : (execBasic same (op 0) (op 1) (op 2)).value = v := (C72_basic (op 0) (op 1) (op 2)).1 v hm
  unfold PDP.execute
  rcases level_cases n p h i with hl | hl | hl | hl <;> rw [hl] <;> rw [if_pos (by decide)]
  · exact ⟨_, rfl, hb⟩
  · obtain ⟨r, hr, hv, _⟩ := C72_enhanced_partial sum hs (op 0) (op 1) (op 2)
    exact ⟨r, hr, hv v hm⟩
  · exact ⟨_, rfl, (majHealth (op 0) (op 1) (op 2)).1.trans hb⟩
  · exact ⟨_, rfl, (C72_hybrid (op 0) (op 1) (op 2)).1 v hm⟩

/-- Non-vacuity: a faulty second execution of an operation returning 7. -/
example : ∃ r, (PDP.new 50 270 3 0).execute same (fun x : Nat => some x) (fun _ => false) (fun a _ _ => a) 0 (fun k => if k = 1 then 9 else 7) 1 = .ok r ∧ r.value = 7 :=
  C94_single_fault 3 _ ⟨50, 270, 0, [], rfl⟩ 0 1 _ (fun _ => rfl) _ _ _ 7 1 (fun k hk => by simp [hk])

/-- C94 (negation): the HEALTH_WEIGHTED_TMR level has no health: a fresh strategy object with full scores is made for every operation, so
its vote is that of BASIC_TMR for all results, whatever went wrong before. -/
theorem C94_health_forgotten_violated [DecidableEq α] (p : PDP) (i : Int) (crit : ℚ) (sum : α → Option Nat) (stuck : α → Bool) (fix : α → α → α → α)
    (op : Nat → α) (hl : p.level i = 4) : ∃ r, p.execute same sum stuck fix i op crit = .ok r ∧ r.value = (execBasic same (op 0) (op 1) (op 2)).value ∧
      r.detected = (execBasic same (op 0) (op 1) (op 2)).detected ∧ r.corrected = (execBasic same (op 0) (op 1) (op 2)).corrected := by
  refine ⟨(execHealth same {} (op 0) (op 1) (op 2)).1, ?_, majHealth _ _ _⟩
  unfold PDP.execute
  rw [hl, if_pos (by decide)]
  rfl

/-- Non-vacuity: a single layer of sensitivity 0.65 in a quiet environment would be at level 4 by the layer policy alone. -/
example : layerLevel ⟨1, 0, false, 0⟩ 1 0 (65 / 100) = 4 := by decide +kernel

/-- Two states that differ only in the mission controller. -/
def Similar (p q : PDP) : Prop := ∃ c, q = { p with ctrl := c }

theorem similar_update (p q : PDP) (h : Similar p q) (now : ℤ) (e : PEnv) (stress : ℚ) :
    (p.update now e stress = .ub ∧ q.update now e stress = .ub) ∨ ∃ p' q', p.update now e stress = .ok p' ∧ q.update now e stress = .ok q' ∧ Similar p' q' := by
  obtain ⟨c, rfl⟩ := h
  unfold PDP.update
  dsimp only
  cases hp : p.policy.optimize e.toEnv with
  | none => exact Or.inl ⟨rfl, rfl⟩
  | some pol =>
    cases hm : p.multi.update now e p.tol with
    | ub => exact Or.inl ⟨rfl, rfl⟩
    | ok mr => exact Or.inr ⟨_, _, rfl, rfl, _, rfl⟩

/-- C94 (negation): mission phases and criticality have no effect on protection: erase every `enterMissionPhase` from a history and change
the criticality, and every operation of every layer runs exactly as before, with the same checkpoint interval and delay. (The reported
"global protection level" does change: `C94_phase_reported`.) -/
theorem C94_phase_ignored_violated (n : Nat) (tol yield : ℚ) (t0 : ℤ) (ops : List PDPOp) (p : PDP) (h : (PDP.new tol yield n t0).run ops = .ok p) :
    ∃ q, (PDP.new tol yield n t0).run (ops.filter fun o => match o with | .enter _ => false | _ => true) = .ok q ∧
      q.ckpt = p.ckpt ∧ q.delay = p.delay ∧ (∀ i, q.level i = p.level i ∧ q.policy.getLevel i = p.policy.getLevel i) ∧
      ∀ (β : Type) (eq : β → β → Bool) (sum : β → Option Nat) (stuck : β → Bool) (fix : β → β → β → β) (i : Int) (op : Nat → β) (c c' : ℚ),
        q.execute eq sum stuck fix i op c = p.execute eq sum stuck fix i op c' := by
  have key : ∀ (ops : List PDPOp) (a b p : PDP), Similar a b → a.run ops = .ok p →
      ∃ q, b.run (ops.filter fun o => match o with | .enter _ => false | _ => true) = .ok q ∧ Similar p q := by
    intro ops
    induction ops with
    | nil =>
      intro a b p hs hr
      rw [PDP.run] at hr
      have := Outcome.ok.inj hr
      subst this
      exact ⟨b, rfl, hs⟩
    | cons o l ih =>
      intro a b p hs hr
      rw [PDP.run, bind_ok] at hr
      obtain ⟨a', ha, hr⟩ := hr
      cases o with
      | setSens i s =>
        have ha' := Outcome.ok.inj ha
        subst ha'
        obtain ⟨q, hq, hsim⟩ := ih (a.setSens i s) (b.setSens i s) p (by
          obtain ⟨c, rfl⟩ := hs
          unfold PDP.setSens
          dsimp only
          split
          · exact ⟨c, rfl⟩
          · exact ⟨c, rfl⟩) hr
        refine ⟨q, ?_, hsim⟩
        rw [List.filter_cons_of_pos rfl, PDP.run, bind_ok]
        exact ⟨_, rfl, hq⟩
      | update now e stress =>
        have ha' : a.update now e stress = .ok a' := ha
        rcases similar_update a b hs now e stress with ⟨h1, _⟩ | ⟨p', q', h1, h2, h3⟩
        · rw [h1] at ha'; cases ha'
        · rw [h1] at ha'
          have := Outcome.ok.inj ha'
          subst this
          obtain ⟨q, hq, hsim⟩ := ih p' q' p h3 hr
          refine ⟨q, ?_, hsim⟩
          rw [List.filter_cons_of_pos rfl, PDP.run, bind_ok]
          exact ⟨q', h2, hq⟩
      | enter name =>
        have ha' := Outcome.ok.inj ha
        subst ha'
        obtain ⟨q, hq, hsim⟩ := ih (a.enter name) b p (by
          obtain ⟨c, rfl⟩ := hs
          exact ⟨c, rfl⟩) hr
        refine ⟨q, ?_, hsim⟩
        rw [List.filter_cons_of_neg (by simp)]
        exact hq
  obtain ⟨q, hq, c, rfl⟩ := key ops _ _ p ⟨_, rfl⟩ h
  refine ⟨_, hq, rfl, rfl, fun i => ⟨rfl, rfl⟩, ?_⟩
  intro β eq sum stuck fix i op c1 c2
  have hl := level_cases n p ⟨tol, yield, t0, ops, h⟩ i
  have hne : p.level i ≠ 0 := by rcases hl with h | h | h | h <;> rw [h] <;> decide
  have hq' : ({ p with ctrl := c } : PDP).level i = p.level i := rfl
  unfold PDP.execute
  rw [hq', if_pos hne, if_pos hne]

/-- C94: `enterMissionPhase` does change the level the system reports as its global protection: a known phase sets it, an unknown one
leaves it. -/
theorem C94_phase_reported (p : PDP) (name : String) :
    ((p.enter name).ctrl.level = match p.ctrl.phases name with | some l => l | none => p.ctrl.level) ∧
    (PDP.new 50 270 3 0).ctrl.level = 1 ∧ ((PDP.new 50 270 3 0).enter "SAA_CROSSING").ctrl.level = 5 := by
  refine ⟨?_, rfl, by decide +kernel⟩
  show (p.ctrl.enter name).level = _
  unfold Ctrl.enter
  cases p.ctrl.phases name <;> rfl

/-- Non-vacuity of the negation: a history whose phase change is erased. -/
example : ∃ p, (PDP.new 50 270 3 0).run [.enter "SAA_CROSSING", .setSens 1 (3 / 10)] = .ok p := ⟨_, rfl⟩

/-! ### Checkpoint interval -/

/-- The factors a physical environment gives. -/
theorem factors_pos (e : PEnv) (hp : Physical e) (stress yield : ℚ) (hs : 0 ≤ stress) (hy : 0 < yield) :
    0 < tempThreshold 1 (e.temp : ℝ) ∧ 1 ≤ loadFactor stress yield e.dose ∧ 1 ≤ synergyFactor e.temp stress yield := by
  have hy' : (0 : ℝ) < (yield : ℝ) := by exact_mod_cast hy
  have hs' : (0 : ℝ) ≤ (stress : ℝ) := by exact_mod_cast hs
  have hd : (0 : ℝ) ≤ ((e.dose : ℚ) : ℝ) := by
    have : 0 ≤ e.dose := by unfold PEnv.dose; have := hp.1; have := hp.2.1; positivity
    exact_mod_cast this
  exact ⟨tf_pos e hp.2.2.2, (C91_load_factor _ _ _ hs' hy' hd).1, (C91_synergy _ _ _ hy').1.1⟩

/-- C94: the checkpoint interval after an update lies between ten seconds and an hour, and, for physical environments, more flux, higher
temperature, more stress, more solar activity or entering the anomaly never lengthen it. -/
theorem C94_checkpoint (e f : PEnv) (s t yield : ℚ) (hy : 0 < yield) (he : Physical e) (hf : Physical f) (h0 : 0 ≤ s)
    (h1 : e.proton + e.electron ≤ f.proton + f.electron) (h2 : e.temp ≤ f.temp) (h3 : s ≤ t) (h4 : e.solar ≤ f.solar) (h5 : e.saa = true → f.saa = true) :
    let ie := ckptInterval e (tempThreshold 1 e.temp) (loadFactor s yield e.dose) (synergyFactor e.temp s yield)
    let jf := ckptInterval f (tempThreshold 1 f.temp) (loadFactor t yield f.dose) (synergyFactor f.temp t yield)
    (10 ≤ ie ∧ ie ≤ 3600) ∧ jf ≤ ie := by
  intro ie jf
  have hy' : (0 : ℝ) < (yield : ℝ) := by exact_mod_cast hy
  have h0' : (0 : ℝ) ≤ (s : ℝ) := by exact_mod_cast h0
  obtain ⟨a1, a2, a3⟩ := factors_pos e he s yield h0 hy
  obtain ⟨b1, b2, b3⟩ := factors_pos f hf t yield (h0.trans h3) hy
  have hdose : (0 : ℝ) ≤ ((e.dose : ℚ) : ℝ) := by
    have : 0 ≤ e.dose := by unfold PEnv.dose; have := he.1; have := he.2.1; positivity
    exact_mod_cast this
  have hdd : ((e.dose : ℚ) : ℝ) ≤ ((f.dose : ℚ) : ℝ) := by
    have : e.dose ≤ f.dose := by unfold PEnv.dose; linarith
    exact_mod_cast this
  have hst : (s : ℝ) ≤ (t : ℝ) := by exact_mod_cast h3
  have hTT : (e.temp : ℝ) ≤ (f.temp : ℝ) := by exact_mod_cast h2
  have c1 : tempThreshold 1 (e.temp : ℝ) ≤ tempThreshold 1 (f.temp : ℝ) := by
    rcases hTT.lt_or_eq with hlt | heq
    · exact ((C91_temperature 1).2.2 _ _ (by exact_mod_cast he.2.2.2) hlt one_pos).le
    · rw [heq]
  have c2 := (C91_load_factor s yield e.dose h0' hy' hdose).2.2.1 t f.dose hst hdd
  have c3 := (C91_synergy e.temp s yield hy').2.1 f.temp t hTT hst
  have s1 : (0 : ℝ) ≤ (e.solar : ℝ) := by exact_mod_cast he.2.2.1
  have s2 : (e.solar : ℝ) ≤ (f.solar : ℝ) := by exact_mod_cast h4
  have step : ∀ x y a b : ℝ, 0 ≤ y → y ≤ x → 0 < a → a ≤ b → y / b ≤ x / a := by
    intro x y a b hy hxy ha hab
    exact div_le_div₀ (hy.trans hxy) hxy ha hab
  refine ⟨⟨le_max_left _ _, max_le (by norm_num) (min_le_left _ _)⟩, ?_⟩
  refine max_le_max le_rfl (min_le_min le_rfl ?_)
  refine step _ _ _ _ ?_ ?_ (by linarith) (by linarith)
  · split_ifs <;> positivity
  · have d1 : 300 / tempThreshold 1 (f.temp : ℝ) / loadFactor t yield f.dose / synergyFactor f.temp t yield ≤
        300 / tempThreshold 1 (e.temp : ℝ) / loadFactor s yield e.dose / synergyFactor e.temp s yield := by
      refine step _ _ _ _ (by positivity) ?_ (by linarith) c3
      refine step _ _ _ _ (by positivity) ?_ (by linarith) c2
      exact step _ _ _ _ (by norm_num) le_rfl a1 c1
    have d0 : 0 ≤ 300 / tempThreshold 1 (f.temp : ℝ) / loadFactor t yield f.dose / synergyFactor f.temp t yield := by positivity
    by_cases hf' : f.saa = true
    · rw [if_pos hf']
      split_ifs <;> linarith
    · rw [if_neg hf', if_neg (fun h => hf' (h5 h))]
      exact d1

/-- Non-vacuity: at the reference temperature without load the interval is the base interval. -/
example : ckptInterval ⟨⟨0, 0, false, 0⟩, 295, 295⟩ 1 1 1 = 300 := by simp [ckptInterval]; norm_num

/-! ### Delay of the hybrid strategy -/

/-- The environment reports of a history. -/
def reports : List PDPOp → List Call
  | [] => []
  | .update now e _ :: l => ⟨now, e⟩ :: reports l
  | _ :: l => reports l

theorem multi_run (tol : ℚ) (ops : List PDPOp) : ∀ p q : PDP, p.tol = tol → p.run ops = .ok q → runMulti tol p.multi (reports ops) = .ok q.multi := by
  induction ops with
  | nil => intro p q _ h; have : p = q := by simpa [PDP.run] using h
           subst this; rfl
  | cons o l ih =>
    intro p q ht h
    rw [PDP.run, bind_ok] at h
    obtain ⟨a, ha, h⟩ := h
    cases o with
    | setSens i s =>
      have ha' : p.setSens i s = a := by simpa [PDP.step] using ha
      have hm : a.multi = p.multi ∧ a.tol = p.tol := by rw [← ha']; unfold PDP.setSens; split <;> exact ⟨rfl, rfl⟩
      have := ih a q (hm.2.trans ht) h
      rw [hm.1] at this
      exact this
    | enter n =>
      have ha' : p.enter n = a := by simpa [PDP.step] using ha
      have hm : a.multi = p.multi ∧ a.tol = p.tol := by rw [← ha']; exact ⟨rfl, rfl⟩
      have := ih a q (hm.2.trans ht) h
      rw [hm.1] at this
      exact this
    | update now e stress =>
      have ha' : p.update now e stress = .ok a := ha
      unfold PDP.update at ha'
      dsimp only at ha'
      cases hpol : p.policy.optimize e.toEnv with
      | none => rw [hpol] at ha'; cases ha'
      | some pol =>
        rw [hpol] at ha'
        simp only at ha'
        rw [bind_ok] at ha'
        obtain ⟨mr, hmr, ha'⟩ := ha'
        have hm : a.multi = mr.1 ∧ a.tol = p.tol := by
          injection ha' with ha'
          rw [← ha']; exact ⟨rfl, rfl⟩
        have := ih a q (hm.2.trans ht) h
        rw [hm.1] at this
        rw [reports, runMulti, bind_ok]
        exact ⟨mr, ht ▸ hmr, this⟩

/-- C94: the hybrid strategy waits 50 ms between executions before any environment is reported; after any history of physical environments
never less, and, as long as the fastest scale stays on the 0-10 scale of the others, never more than 2.5 times that. -/
theorem C94_delay (n : Nat) (tol yield : ℚ) (t0 : ℤ) (ht : 0 < tol) (ops : List PDPOp) (hp : ∀ c ∈ reports ops, Physical c.env) (p : PDP)
    (h : (PDP.new tol yield n t0).run ops = .ok p) :
    50 ≤ p.delay ∧ (reports ops = [] → p.delay = 50) ∧ (p.multi.state 0 ≤ 10 → p.delay ≤ 125) := by
  have hm : runMulti tol (Multi.new t0) (reports ops) = .ok p.multi := multi_run tol ops _ _ rfl h
  obtain ⟨h0, h1, h2⟩ := C93_range_partial tol ht t0 _ hp _ hm
  refine ⟨by unfold PDP.delay; linarith, ?_, ?_⟩
  · intro hr
    rw [hr] at hm
    have : Multi.new t0 = p.multi := by simpa [runMulti] using hm
    unfold PDP.delay
    rw [← this, (C93_factor (Multi.new t0) 0 0).1 (fun _ => rfl)]
    norm_num
  · intro hz
    have b : ∀ s, p.multi.state s ≤ 10 := fun s => by
      by_cases hs : s = 0
      · rw [hs]; exact hz
      · exact h1 s hs
    have c0 : ∀ s, (0 : ℚ) ≤ (p.multi.state s : ℚ) := fun s => by exact_mod_cast h0 s
    have c1 : ∀ s, (p.multi.state s : ℚ) ≤ 10 := fun s => by exact_mod_cast b s
    have f : ∀ s, 0 ≤ percent s → 0 ≤ 1 + percent s * (p.multi.state s : ℚ) / 1000 ∧ 1 + percent s * (p.multi.state s : ℚ) / 1000 ≤ 1 + percent s / 100 := by
      intro s hs
      have u := c0 s
      have v := c1 s
      have w := mul_nonneg hs u
      have x := mul_le_mul_of_nonneg_left v hs
      constructor <;> linarith
    have g0 := f 0 (by norm_num [percent])
    have g1 := f 1 (by norm_num [percent])
    have g2 := f 2 (by norm_num [percent])
    have g3 := f 3 (by norm_num [percent])
    have g4 := f 4 (by norm_num [percent])
    unfold PDP.delay
    rw [factor_eq]
    have m1 := mul_le_mul g0.2 g1.2 g1.1 (g0.1.trans g0.2)
    have m2 := mul_le_mul m1 g2.2 g2.1 (by norm_num [percent])
    have m3 := mul_le_mul m2 g3.2 g3.1 (by norm_num [percent])
    have m4 := mul_le_mul m3 g4.2 g4.1 (by norm_num [percent])
    refine (mul_le_mul_of_nonneg_left m4 (by norm_num)).trans ?_
    norm_num [percent]

/-- Non-vacuity: a history without and one with a report; the worst case allowed, about 123.6 ms. -/
example : (reports [.enter "LAUNCH", .update 5 ⟨⟨1, 0, false, 0⟩, 290, 300⟩ 0]).length = 1 ∧ reports [.setSens 0 1] = [] := ⟨rfl, rfl⟩

/-! ### C95: the layer -/

/-- The plain layer: `relu(b_i + Σ_j w_{i·n+j} x_j)` for each bias. -/
def plain (N : Num α) (w b x : List α) : List α :=
  (List.range b.length).map fun i =>
    let y := (List.range x.length).foldl (fun s j => N.add s (N.mul (w.getD (i * x.length + j) N.zero) (x.getD j N.zero))) (b.getD i N.zero)
    if N.pos y then y else N.zero

theorem forN_foldl {β : Type} (k : Nat) (f : Nat → β → β) (s : β) : forN k f s = (List.range k).foldl (fun s j => f j s) s := by
  induction k with
  | zero => rfl
  | succ k ih => rw [forN, ih, List.range_succ, List.foldl_append]; rfl

/-- Equality on the values a layer can output is reflexive: true of every number type, as `x > 0` is false for NaN. -/
def Sane (N : Num α) : Prop := N.eq N.zero N.zero = true ∧ ∀ x, N.pos x = true → N.eq x x = true

theorem vecEq_refl (eq : α → α → Bool) (l : List α) (h : ∀ x ∈ l, eq x x = true) : vecEq eq l l = true := by
  unfold vecEq
  rw [if_neg (by simp)]
  induction l with
  | nil => rfl
  | cons a l ih =>
    simp only [List.zip_cons_cons, List.all_cons, Bool.and_eq_true]
    exact ⟨h a List.mem_cons_self, ih fun x hx => h x (List.mem_cons_of_mem _ hx)⟩

theorem execute_clean (eq : α → α → Bool) (stuck : α → Bool) (fix : α → α → α → α) (n : Nat) (p : PDP) (h : Reach n p) (i : Int)
    (r : α) (c : ℚ) (hr : eq r r = true) : ∃ t, p.execute eq (fun _ => some 0) stuck fix i (fun _ => r) c = .ok t ∧ t.value = r := by
  unfold PDP.execute
  rcases level_cases n p h i with hl | hl | hl | hl <;> rw [hl] <;> rw [if_pos (by decide)]
  · exact ⟨_, rfl, by simp [execBasic, hr]⟩
  · exact ⟨_, rfl, by simp [voteEnhanced, hr]⟩
  · exact ⟨_, rfl, by simp [execHealth, hr]⟩
  · exact ⟨_, rfl, by simp [execHybrid, hr]⟩

/-- C95: in every reachable state of the protection system, for every layer index and criticality, `forward` computes the plain layer when
the numbers of weights, biases and inputs fit, and returns the empty vector when weights or biases are missing or do not fit. -/
theorem C95_forward_partial (N : Num α) (hN : Sane N) (stuck : List α → Bool) (n : Nat) (p : PDP) (h : Reach n p) (i : Int) (c : ℚ) (L : Layer α)
    (x : List α) :
    (x ≠ [] → L.biases ≠ [] → L.weights.length = L.biases.length * x.length → L.forward N stuck p i c x = .ok (plain N L.weights L.biases x)) ∧
    (L.weights = [] ∨ L.biases = [] → L.forward N stuck p i c x = .ok []) ∧
    (x ≠ [] → L.weights.length / x.length ≠ L.biases.length → L.forward N stuck p i c x = .ok []) := by
  have hnil : ∀ c, ∃ t, p.execute (vecEq N.eq) (fun _ => some 0) stuck fixVec i (fun _ => ([] : List α)) c = .ok t ∧ t.value = [] :=
    fun c => execute_clean _ stuck fixVec n p h i [] c rfl
  refine ⟨?_, ?_, ?_⟩
  · intro hx hb hw
    have hxl : 0 < x.length := List.length_pos_iff.2 hx
    have hbl : 0 < L.biases.length := List.length_pos_iff.2 hb
    have hwne : L.weights ≠ [] := by
      intro hh; rw [hh] at hw
      have := Nat.mul_pos hbl hxl
      simp only [List.length_nil] at hw; omega
    have hdiv : L.weights.length / x.length = L.biases.length := by rw [hw]; exact Nat.mul_div_cancel _ hxl
    have hop : L.forwardOp N x = .ok (plain N L.weights L.biases x) := by
      unfold Layer.forwardOp
      rw [if_neg (by tauto), if_neg (by omega)]
      simp only [hdiv]
      rw [if_neg (by omega)]
      unfold plain
      simp only [forN_foldl]
    have href : vecEq N.eq (plain N L.weights L.biases x) (plain N L.weights L.biases x) = true := by
      apply vecEq_refl
      intro y hy
      unfold plain at hy
      obtain ⟨k, _, rfl⟩ := List.mem_map.1 hy
      dsimp only
      split
      · rename_i hpos; exact hN.2 _ hpos
      · exact hN.1
    obtain ⟨t, ht, hv⟩ := execute_clean _ stuck fixVec n p h i (plain N L.weights L.biases x) c href
    unfold Layer.forward
    rw [hop]
    simp only [Outcome.bind, ht, hv]
  · intro hempty
    obtain ⟨t, ht, hv⟩ := hnil c
    have hop : L.forwardOp N x = .ok [] := by unfold Layer.forwardOp; rw [if_pos hempty]
    unfold Layer.forward
    rw [hop]
    simp only [Outcome.bind, ht, hv]
  · intro hx hne
    obtain ⟨t, ht, hv⟩ := hnil c
    have hop : L.forwardOp N x = .ok [] := by
      unfold Layer.forwardOp
      by_cases he : L.weights = [] ∨ L.biases = []
      · rw [if_pos he]
      · rw [if_neg he, if_neg (by simpa using hx)]
        simp only
        rw [if_pos (Or.inr hne)]
    unfold Layer.forward
    rw [hop]
    simp only [Outcome.bind, ht, hv]

/-- Integers as a number type. -/
def intNum : Num Int := ⟨(· + ·), (· * ·), fun x => decide (x > 0), 0, fun a b => decide (a = b)⟩

/-- Non-vacuity: two neurons, two inputs. -/
example : Sane intNum ∧ plain intNum [1, 2, -3, 4] [10, -100] [5, 6] = [27, 0] := by
  constructor
  · exact ⟨rfl, fun x _ => by simp [intNum]⟩
  · decide

/-- C95 (negation): with weights and biases set, an empty input is divided by: undefined, in every state and at every level. -/
theorem C95_empty_input_violated (N : Num α) (stuck : List α → Bool) (p : PDP) (i : Int) (c : ℚ) (L : Layer α) (hw : L.weights ≠ []) (hb : L.biases ≠ []) :
    L.forward N stuck p i c [] = .ub := by
  unfold Layer.forward Layer.forwardOp
  rw [if_neg (by tauto)]
  rfl

example : (⟨[1], [1]⟩ : Layer Int).weights ≠ [] := by decide

/-- C95 (negation): the shape check divides: up to `inputs - 1` superfluous weights are accepted and ignored, the result is that of the
weight vector without them; and a value that is not positive, NaN included, silently becomes 0. -/
theorem C95_shape_violated (N : Num α) (stuck : List α → Bool) (p : PDP) (i : Int) (c : ℚ) (w extra b x : List α)
    (hx : x ≠ []) (hb : b ≠ []) (hw : w.length = b.length * x.length) (he : extra.length < x.length) :
    (Layer.mk (w ++ extra) b).forward N stuck p i c x = (Layer.mk w b).forward N stuck p i c x ∧
    (∀ y ∈ plain N w b x, N.pos y = false → y = N.zero) := by
  have hxl : 0 < x.length := List.length_pos_iff.2 hx
  have hbl : 0 < b.length := List.length_pos_iff.2 hb
  refine ⟨?_, ?_⟩
  · have hwne : w ≠ [] := by
      intro hh; rw [hh] at hw
      have := Nat.mul_pos hbl hxl
      simp only [List.length_nil] at hw; omega
    have hop : (Layer.mk (w ++ extra) b).forwardOp N x = (Layer.mk w b).forwardOp N x := by
      unfold Layer.forwardOp
      rw [if_neg (show ¬ ((⟨w ++ extra, b⟩ : Layer α).weights = [] ∨ (⟨w ++ extra, b⟩ : Layer α).biases = []) by simp [hwne, hb]),
        if_neg (show ¬ ((⟨w, b⟩ : Layer α).weights = [] ∨ (⟨w, b⟩ : Layer α).biases = []) by simp [hwne, hb])]
      have h1 : (w ++ extra).length / x.length = b.length := by
        rw [List.length_append, hw]
        rw [Nat.mul_comm, Nat.mul_add_div hxl, Nat.div_eq_of_lt he, Nat.add_zero]
      have h2 : w.length / x.length = b.length := by rw [hw]; exact Nat.mul_div_cancel _ hxl
      simp only [h1, h2]
      rw [if_neg (by omega : ¬ x.length = 0), if_neg (by omega : ¬ x.length = 0), if_neg (by omega : ¬ (b.length = 0 ∨ b.length ≠ b.length)),
        if_neg (by omega : ¬ (b.length = 0 ∨ b.length ≠ b.length))]
      congr 1
      apply List.map_congr_left
      intro k hk
      have hk' : k < b.length := List.mem_range.1 hk
      have hforn : ∀ m, m ≤ x.length → ∀ s, forN m (fun j s => N.add s (N.mul ((w ++ extra).getD (k * x.length + j) N.zero) (x.getD j N.zero))) s =
          forN m (fun j s => N.add s (N.mul (w.getD (k * x.length + j) N.zero) (x.getD j N.zero))) s := by
        intro m
        induction m with
        | zero => intro _ s; rfl
        | succ m ih =>
          intro hm s
          rw [forN, forN, ih (by omega)]
          have hlt : k * x.length + m < w.length := by
            rw [hw]
            have : (k + 1) * x.length ≤ b.length * x.length := Nat.mul_le_mul_right _ hk'
            rw [Nat.add_mul] at this
            omega
          have : (w ++ extra).getD (k * x.length + m) N.zero = w.getD (k * x.length + m) N.zero := by
            simp [List.getElem?_append_left hlt]
          rw [this]
      simp only [hforn x.length le_rfl]
    unfold Layer.forward
    rw [hop]
  · intro y hy hpos
    unfold plain at hy
    obtain ⟨k, _, rfl⟩ := List.mem_map.1 hy
    dsimp only at hpos ⊢
    split
    · rename_i hp; rw [if_pos hp] at hpos; rw [hp] at hpos; cases hpos
    · rfl

/-- Non-vacuity: one superfluous weight. -/
example : ([7] : List Int).length < [5, 6].length ∧ ([1, 2, -3, 4] : List Int).length = [10, -100].length * [5, 6].length := by decide

/-- Calls on a layer. -/
inductive LayerOp (α : Type) where
  | weights (w : List α)
  | biases (b : List α)

/-- One call. -/
def layerStep (L : Layer α) : LayerOp α → Layer α
  | .weights w => L.setWeights w
  | .biases b => L.setBiases b

/-- C95: after any history of setter calls the layer holds the last weights and the last biases set. -/
theorem C95_last_write (ops : List (LayerOp α)) :
    (ops.foldl layerStep ⟨[], []⟩).weights = (ops.reverse.findSome? fun o => match o with | .weights w => some w | .biases _ => none).getD [] ∧
    (ops.foldl layerStep ⟨[], []⟩).biases = (ops.reverse.findSome? fun o => match o with | .weights _ => none | .biases b => some b).getD [] := by
  induction ops using List.reverseRecOn with
  | nil => exact ⟨rfl, rfl⟩
  | append_singleton l o ih =>
    rw [List.foldl_append, List.reverse_append]
    cases o with
    | weights w => exact ⟨rfl, ih.2⟩
    | biases b => exact ⟨ih.1, rfl⟩

example : (([.weights [1, 2], .biases [3], .weights [4]] : List (LayerOp Int)).foldl layerStep ⟨[], []⟩).weights = [4] := rfl

end Verif.Props.PhysP
