import Verif.Model.MissionDemo
import Verif.Props.MissionSim
import Verif.Spec.Float
/-! Properties C370–C372: the mission simulator example. -/
namespace Verif.Props.MissionDemo
open Verif.MissionDemo Verif.RadSimulator Verif.MissionSim

/-! ### C370: the network is not touched -/

/-- The three copies hold `v` with its checksum, and nothing was ever reported. -/
def Clean (crc : V → BitVec 32) (v : V) (w : MTmr.State V) : Prop :=
  ((w.c0.val = v ∧ w.c1.val = v ∧ w.c2.val = v) ∧ (w.c0.crc = crc v ∧ w.c1.crc = crc v ∧ w.c2.crc = crc v)) ∧ w.crcFailures = 0 ∧ w.disagreements = 0

theorem verify_clean (crc : V → BitVec 32) (v : V) (w : MTmr.State V) (h : Clean crc v w) : MTmr.verifyCRCs crc w = (true, w) := by
  obtain ⟨⟨⟨a, b, c⟩, d, e, f⟩, -, -⟩ := h
  have h0 : MTmr.verifyOne crc 0 (true, w) = (true, w) := by
    unfold MTmr.verifyOne
    dsimp only
    rw [if_neg]
    show ¬ crc w.c0.val ≠ w.c0.crc
    rw [a, d]
    simp
  have h1 : MTmr.verifyOne crc 1 (true, w) = (true, w) := by
    unfold MTmr.verifyOne
    dsimp only
    rw [if_neg]
    show ¬ crc w.c1.val ≠ w.c1.crc
    rw [b, e]
    simp
  have h2 : MTmr.verifyOne crc 2 (true, w) = (true, w) := by
    unfold MTmr.verifyOne
    dsimp only
    rw [if_neg]
    show ¬ crc w.c2.val ≠ w.c2.crc
    rw [c, f]
    simp
  unfold MTmr.verifyCRCs
  rw [h0, h1, h2]

theorem get_clean (eq : V → V → Bool) (crc : V → BitVec 32) (v : V) (hv : eq v v = true) (w : MTmr.State V) (h : Clean crc v w) (now : ℤ) (r : ℚ) :
    (MTmr.get eq crc w now r).1 = v ∧ Clean crc v (MTmr.get eq crc w now r).2 := by
  have key : ∀ w : MTmr.State V, Clean crc v w → (MTmr.vote eq w r).1 = v ∧ Clean crc v (MTmr.vote eq w r).2 := by
    intro w h
    have hv' : (eq w.c0.val w.c1.val && eq w.c1.val w.c2.val) = true := by
      obtain ⟨⟨⟨a, b, c⟩, -⟩, -⟩ := h
      rw [a, b, c, hv]
      rfl
    unfold MTmr.vote
    rw [if_pos hv']
    exact ⟨h.1.1.1, h⟩
  unfold MTmr.get
  dsimp only
  by_cases g : now - w.last ≥ w.intervalMs * 1000000
  · rw [if_pos g, verify_clean crc v w h]
    have := key { w with last := now } h
    exact ⟨this.1, this.2⟩
  · rw [if_neg g]
    have := key w h
    exact ⟨this.1, this.2⟩

theorem readAll_clean (eq : V → V → Bool) (crc : V → BitVec 32) (now : ℕ → ℤ) (rnd : ℕ → ℚ) : ∀ (vs : List V), (∀ v ∈ vs, eq v v = true) → ∀ (i : ℕ) (ws : List (MTmr.State V)),
    List.Forall₂ (Clean crc) vs ws → (readAll eq crc now rnd i ws).1 = vs ∧ List.Forall₂ (Clean crc) vs (readAll eq crc now rnd i ws).2
  | _, _, _, _, .nil => ⟨rfl, .nil⟩
  | _, hv, i, _, .cons h ht => by
    obtain ⟨a, b⟩ := get_clean eq crc _ (hv _ (by simp)) _ h (now i) (rnd i)
    obtain ⟨c, d⟩ := readAll_clean eq crc now rnd _ (fun v hm => hv v (by simp [hm])) (i + 1) _ ht
    rw [readAll]
    dsimp only
    exact ⟨by rw [a, c], .cons b d⟩

theorem setScrub_clean (crc : V → BitVec 32) (ms : ℤ) {vs : List V} {n : Net} (h : List.Forall₂ (Clean crc) vs n.weights) : List.Forall₂ (Clean crc) vs (n.setScrub ms).weights := by
  show List.Forall₂ _ vs (n.weights.map _)
  rw [List.forall₂_map_right_iff]
  exact h.imp fun _ _ h => h

theorem adapt_clean (crc : V → BitVec 32) {vs : List V} {n : Net} (env : Params) (h : List.Forall₂ (Clean crc) vs n.weights) : List.Forall₂ (Clean crc) vs (adapt n env).weights := by
  unfold adapt
  split_ifs
  · exact setScrub_clean crc 500 h
  · exact setScrub_clean crc 5000 h

theorem adapts_clean (crc : V → BitVec 32) {vs : List V} : ∀ (envs : List Params) {n : Net}, List.Forall₂ (Clean crc) vs n.weights → List.Forall₂ (Clean crc) vs (envs.foldl adapt n).weights
  | [], _, h => h
  | e :: es, _, h => adapts_clean crc es (adapt_clean crc e h)

theorem new_clean (crc : V → BitVec 32) (t0 : ℤ) : ∀ vs : List V, List.Forall₂ (Clean crc) vs (Net.new crc vs t0).weights := by
  intro vs
  show List.Forall₂ _ vs (vs.map _)
  rw [List.forall₂_map_right_iff, List.forall₂_same]
  intro v _
  exact ⟨⟨⟨rfl, rfl, rfl⟩, rfl, rfl, rfl⟩, rfl, rfl⟩

theorem setUp_clean (crc : V → BitVec 32) (c : Config) {vs : List V} {n : Net} (h : List.Forall₂ (Clean crc) vs n.weights) : List.Forall₂ (Clean crc) vs (setUp c n).weights := by
  unfold setUp
  dsimp only
  split_ifs
  · exact setScrub_clean crc 5000 h
  · exact setScrub_clean crc 5000 h

theorem start_clean (eq : V → V → Bool) (crc : V → BitVec 32) (mission : String) (vs : List V) (hv : ∀ v ∈ vs, eq v v = true) (t0 : ℤ) (now : ℕ → ℤ) (rnd : ℕ → ℚ) (rng : ℕ → ℝ) (src : Src) :
    List.Forall₂ (Clean crc) vs (start eq crc mission vs t0 now rnd rng src).2.weights := by
  unfold start
  dsimp only
  exact (readAll_clean eq crc now rnd vs hv 0 _ (setUp_clean crc _ (new_clean crc t0 vs))).2

theorem stats_clean (crc : V → BitVec 32) : ∀ {vs : List V} {n : Net}, List.Forall₂ (Clean crc) vs n.weights → n.stats = (0, 0)
  | _, ⟨_, _, _, _⟩, .nil => rfl
  | _, ⟨_, _, _, _⟩, .cons h _ => Prod.ext h.2.1 h.2.2

theorem infer_clean (eq : V → V → Bool) (crc : V → BitVec 32) (mac : V → V → V) (now : ℕ → ℤ) (rnd : ℕ → ℚ) (k : ℕ) (vs : List V) (hv : ∀ v ∈ vs, eq v v = true) (n : Net) (h : List.Forall₂ (Clean crc) vs n.weights) :
    (n.infer eq crc mac now rnd k).1 = vs.foldl mac 0#32 ∧ List.Forall₂ (Clean crc) vs (n.infer eq crc mac now rnd k).2.weights := by
  obtain ⟨a, b⟩ := readAll_clean eq crc now rnd vs hv k _ h
  unfold Net.infer
  dsimp only
  rw [a]
  exact ⟨rfl, b⟩

/-- **C370 (limit: the mission cannot reach the network).** Whatever the mission, the radiation, the clock and the weights (that are not NaN): the inference after the mission is computed from the weights as drawn, the statistics printed are 0 and 0, and every voter holds its weight in all three copies. The example cannot show protection at work: the radiation strikes only the static copies, which nobody reads. -/
theorem C370_untouched_limit (eq : V → V → Bool) (crc : V → BitVec 32) (mac : V → V → V) (mission : String) (vs : List V) (hv : ∀ v ∈ vs, eq v v = true)
    (t0 : ℤ) (now : ℕ → ℤ) (rnd : ℕ → ℚ) (rng : ℕ → ℝ) (src : Src) (out : V × (ℕ × ℕ)) (net : Net) (envs : List Params)
    (h : main eq crc mac mission vs t0 now rnd rng src = .ok ((out, net), envs)) :
    out = (vs.foldl mac 0#32, (0, 0)) ∧ List.Forall₂ (fun v w => w.c0.val = v ∧ w.c1.val = v ∧ w.c2.val = v) vs net.weights := by
  have hs := start_clean eq crc mission vs hv t0 now rnd rng src
  unfold main at h
  dsimp only at h
  generalize start eq crc mission vs t0 now rnd rng src = s at h hs
  obtain ⟨r, -, h2⟩ := bind_ok.mp h
  simp only [R.ok.injEq, Prod.mk.injEq] at h2
  obtain ⟨h2, -⟩ := h2
  obtain ⟨a, b⟩ := infer_clean eq crc mac now rnd vs.length vs hv _ (adapts_clean crc r.1 hs)
  have c := stats_clean crc b
  unfold finish at h2
  dsimp only at h2
  rw [a, c, Prod.mk.injEq] at h2
  obtain ⟨h2, h3⟩ := h2
  rw [h3] at b
  exact ⟨h2.symm, b.imp fun _ _ h => h.1.1⟩

example : ∀ v ∈ [0x3F000000#32, 0xBF400000#32], Spec.f32eq v v = true := by
  have a : Spec.f32eq 0x3F000000#32 0x3F000000#32 = true := by decide +kernel
  have b : Spec.f32eq 0xBF400000#32 0xBF400000#32 = true := by decide +kernel
  intro v hv
  rcases List.mem_cons.1 hv with rfl | hv
  · exact a
  · rw [List.mem_singleton.1 hv]
    exact b

/-! ### C371: adaptation -/

/-- High radiation, as the callback judges it. -/
def High (p : Params) : Prop := p.saa = true ∨ 5 < p.solar

/-- **C371 (adaptation).** For every sequence of environments: the scrubbing interval of the network and of every weight is 500 ms if the last environment is one of high radiation and 5000 ms otherwise; recovery, once enabled, stays enabled; and after the first environment of high radiation the checkpoint interval stays at 60 s (it is not restored when the radiation goes back). -/
theorem C371_adaptation (n : Net) (envs : List Params) (e : Params) :
    let m := (envs ++ [e]).foldl adapt n
    ((High e → m.scrub = 500) ∧ (¬ High e → m.scrub = 5000) ∧ ∀ w ∈ m.weights, w.intervalMs = m.scrub) ∧
    (n.recovery = true → m.recovery = true) ∧ m.weights.length = n.weights.length ∧
    ((∃ p ∈ envs ++ [e], High p) → m.checkpoint = 60 ∧ m.recovery = true) ∧ ((∀ p ∈ envs ++ [e], ¬ High p) → m.checkpoint = n.checkpoint ∧ m.recovery = n.recovery) := by
  have step : ∀ (n : Net) (e : Params), ((High e → (adapt n e).scrub = 500) ∧ (¬ High e → (adapt n e).scrub = 5000) ∧ ∀ w ∈ (adapt n e).weights, w.intervalMs = (adapt n e).scrub) ∧
      (n.recovery = true → (adapt n e).recovery = true) ∧ (adapt n e).weights.length = n.weights.length ∧
      (High e → (adapt n e).checkpoint = 60 ∧ (adapt n e).recovery = true) ∧ (¬ High e → (adapt n e).checkpoint = n.checkpoint ∧ (adapt n e).recovery = n.recovery) := by
    intro n e
    unfold adapt
    by_cases g : e.saa = true ∨ 5 < e.solar
    · rw [if_pos g]
      refine ⟨⟨fun _ => rfl, fun h => absurd g h, ?_⟩, fun _ => rfl, by simp [Net.setScrub, Net.enableRecovery], fun _ => ⟨rfl, rfl⟩, fun h => absurd g h⟩
      intro w hw
      simp only [Net.setScrub, Net.enableRecovery, List.mem_map] at hw ⊢
      obtain ⟨x, -, rfl⟩ := hw
      rfl
    · rw [if_neg g]
      refine ⟨⟨fun h => absurd h g, fun _ => rfl, ?_⟩, fun h => h, by simp [Net.setScrub], fun h => absurd h g, fun _ => ⟨rfl, rfl⟩⟩
      intro w hw
      simp only [Net.setScrub, List.mem_map] at hw ⊢
      obtain ⟨x, -, rfl⟩ := hw
      rfl
  have all : ∀ (envs : List Params) (n : Net), (n.recovery = true → (envs.foldl adapt n).recovery = true) ∧ (envs.foldl adapt n).weights.length = n.weights.length ∧
      ((∃ p ∈ envs, High p) → (envs.foldl adapt n).checkpoint = 60 ∧ (envs.foldl adapt n).recovery = true) ∧ ((∀ p ∈ envs, ¬ High p) → (envs.foldl adapt n).checkpoint = n.checkpoint ∧ (envs.foldl adapt n).recovery = n.recovery) := by
    intro envs
    induction envs with
    | nil => intro n; exact ⟨fun h => h, rfl, fun ⟨_, h, _⟩ => absurd h (by simp), fun _ => ⟨rfl, rfl⟩⟩
    | cons a t ih =>
      intro n
      obtain ⟨i1, i2, i3, i4⟩ := ih (adapt n a)
      obtain ⟨-, s2, s3, s4, s5⟩ := step n a
      rw [List.foldl_cons]
      refine ⟨fun h => i1 (s2 h), i2.trans s3, ?_, ?_⟩
      · intro hp
        by_cases g : ∃ p ∈ t, High p
        · exact i3 g
        · have g' : ∀ p ∈ t, ¬ High p := fun p hp h => g ⟨p, hp, h⟩
          obtain ⟨p, hm, hh⟩ := hp
          rcases List.mem_cons.1 hm with rfl | hm
          · rw [(i4 g').1, (i4 g').2]; exact s4 hh
          · exact absurd hh (g' p hm)
      · intro hp
        have a1 := i4 fun p hm => hp p (by simp [hm])
        have a2 := s5 (hp a (by simp))
        exact ⟨a1.1.trans a2.1, a1.2.trans a2.2⟩
  dsimp only
  refine ⟨?_, (all _ n).1, (all _ n).2.1, (all _ n).2.2⟩
  rw [List.foldl_append]
  exact (step _ e).1

example : High (boost (missionEnv "LEO") 50) ∧ ¬ High (missionEnv "LEO") := by
  have e : missionEnv "LEO" = ⟨500, 45, 3, false, 5, "Low Earth Orbit"⟩ := by unfold missionEnv; rw [if_pos (by decide)]
  rw [e]
  refine ⟨Or.inl rfl, ?_⟩
  unfold High
  norm_num

/-- **C371 (limit: the level announced).** For every mission name the level announced is MEDIUM and recovery is set up with 300 s: the test for triple redundancy at medium level comes before the one at high level, and every standard configuration enables both. -/
theorem C371_level_limit (mission : String) (n : Net) : label (Config.standard mission) = "MEDIUM" ∧ (setUp (Config.standard mission) n).recovery = true ∧ (setUp (Config.standard mission) n).checkpoint = 300 ∧ (setUp (Config.standard mission) n).scrub = 5000 := by
  have h : (Config.standard mission).medium.tmr = true := by
    unfold Config.standard
    split_ifs <;> rfl
  have hl : label (Config.standard mission) = "MEDIUM" := by unfold label; rw [if_pos h]
  refine ⟨hl, ?_⟩
  unfold setUp
  dsimp only
  rw [if_pos (Or.inl hl)]
  exact ⟨rfl, rfl, rfl⟩

/-! ### C372: the boost -/

/-- **C372 (boost).** By a factor of at least 1 the solar activity does not fall, the anomaly is set, nothing else changes, and shielding of at least 0.5 mm does not grow and stays at least 0.5 mm; shielding below 0.5 mm is raised to it, so that there the boost shields more. -/
theorem C372_boost (p : Params) (k : ℝ) (hk : 1 ≤ k) (h0 : 0 ≤ p.shield) :
    ((boost p k).altitude = p.altitude ∧ (boost p k).inclination = p.inclination ∧ (boost p k).name = p.name ∧ (boost p k).saa = true) ∧
    (boost p k).solar = p.solar * k ∧ (0 ≤ p.solar → p.solar ≤ (boost p k).solar) ∧
    (1 / 2 ≤ p.shield → 1 / 2 ≤ (boost p k).shield ∧ (boost p k).shield ≤ p.shield ∧ (p.shield / k ≤ (boost p k).shield)) ∧ (p.shield < 1 / 2 → (boost p k).shield = 1 / 2 ∧ p.shield < (boost p k).shield) := by
  have hd : p.shield / k ≤ p.shield := div_le_self h0 hk
  unfold boost
  dsimp only
  refine ⟨⟨rfl, rfl, rfl, rfl⟩, rfl, fun h => le_mul_of_one_le_right h hk, fun h => ⟨le_max_left _ _, max_le h hd, le_max_right _ _⟩, fun h => ?_⟩
  have : max (1 / 2 : ℝ) (p.shield / k) = 1 / 2 := max_eq_left (by linarith)
  exact ⟨this, by rw [this]; exact h⟩

example : (1 : ℝ) ≤ 50 ∧ (0 : ℝ) ≤ 5 ∧ (1 / 2 : ℝ) ≤ 5 := by norm_num

theorem steps_undone {s t : Sim} {ms : ℤ} {c d : Clock} {l : List Params} {n m : ℕ} (h : Steps ms s c l t d n m) : (∀ e ∈ l, e ∈ s.profile.envs) ∧ (l ≠ [] → t.env ∈ s.profile.envs) ∧ (s.env ∈ s.profile.envs → t.env ∈ s.profile.envs) := by
  induction h with
  | nil s c => exact ⟨by simp, fun h => absurd rfl h, fun h => h⟩
  | @cons s t u c d e l l' n k m h1 h2 ih =>
    obtain ⟨i1, i2, i3⟩ := ih
    rw [h1.profile] at i1 i2 i3
    have hm : s.idx ≠ t.idx → t.env ∈ s.profile.envs := by
      intro hne
      rcases h1.moved with hm | hm
      · exact absurd hm.1.symm hne
      · exact List.mem_of_getElem? hm
    have hc := h1.calls
    by_cases hne : s.idx ≠ t.idx
    · rw [if_pos hne] at hc
      subst hc
      refine ⟨?_, fun _ => i3 (hm hne), fun _ => i3 (hm hne)⟩
      intro x hx
      simp only [List.cons_append, List.nil_append, List.mem_cons] at hx
      rcases hx with rfl | hx
      · exact hm hne
      · exact i1 x hx
    · rw [if_neg hne] at hc
      subst hc
      refine ⟨by simpa using i1, by simpa using i2, fun hs => i3 ?_⟩
      rcases h1.moved with hm | hm
      · rw [hm.2]; exact hs
      · exact List.mem_of_getElem? hm

/-- **C372 (limit: the boost is lost).** In every mission, from any boosted environment: every environment announced is one of the profile's own, without the boost, and once one has been announced the simulator's environment stays one of them to the end. -/
theorem C372_lost_limit (s t : Sim) (p : Params) (total ms : ℤ) (l : List Params) (h : (s.update p).run total ms = .ok (l, t)) :
    (∀ e ∈ l, e ∈ s.profile.envs) ∧ (l ≠ [] → t.env ∈ s.profile.envs) := by
  obtain ⟨u, d, n, m, h1, -, -, rfl⟩ := run_steps h
  have := steps_undone h1
  exact ⟨this.1, this.2.1⟩

end Verif.Props.MissionDemo
