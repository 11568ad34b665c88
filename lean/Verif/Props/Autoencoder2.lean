import Verif.Props.Autoencoder
import Mathlib.Data.List.Perm.Basic
import Mathlib.Data.List.Perm.Lattice
import Mathlib.Data.Int.ModEq
import Mathlib.Algebra.Order.Floor.Semiring
/-!
C144: splitting and batches; C145: metrics of production training; C146: effect of training; C147: protection of latent variables; C148: statistics and copies; C149: files.
-/
namespace Verif.Autoencoder

variable {M : Machine} {L : Lib}

/-! ### C144 -/

theorem pick_range {α : Type} (data : List α) : (List.range data.length).filterMap (data[·]?) = data := by
  apply List.ext_getElem?
  intro i
  have : (List.range data.length).filterMap (data[·]?) = (List.range data.length).pmap (fun i h => data[i]'h) (fun i h => List.mem_range.mp h) := by
    rw [List.pmap_eq_map_attach]
    have : ∀ l : List ℕ, (∀ i ∈ l, i < data.length) → ∀ f : (i : ℕ) → i ∈ l → α, (∀ i h, data[i]? = some (f i h)) → l.filterMap (data[·]?) = l.attach.map fun i => f i.1 i.2 := by
      intro l
      induction l with
      | nil => intros; rfl
      | cons a t ih =>
        intro h f hf
        rw [List.filterMap_cons, hf a (by simp), List.attach_cons, List.map_cons, List.map_map]
        simp only
        congr 1
        exact ih (fun i hi => h i (by simp [hi])) (fun i hi => f i (by simp [hi])) fun i hi => hf i _
    exact this _ (fun i h => List.mem_range.mp h) (fun i h => data[i]'(List.mem_range.mp h)) fun i h => List.getElem?_eq_getElem _
  rw [this]
  simp only [List.getElem?_pmap]
  by_cases h : i < data.length
  · simp [h]
  · simp [h]

theorem pick_length {α : Type} (data : List α) : ∀ l : List ℕ, (∀ i ∈ l, i < data.length) → (l.filterMap (data[·]?)).length = l.length
  | [], _ => rfl
  | a :: t, h => by
    rw [List.filterMap_cons, List.getElem?_eq_getElem (h a (by simp))]
    simp only [List.length_cons]
    rw [pick_length data t fun i hi => h i (by simp [hi])]

theorem shuffled_perm {α : Type} (g : Rng) (data : List α) : ((L.shuffle g data.length).1.filterMap (data[·]?)).Perm data := by
  have := (L.perm g data.length).filterMap (data[·]?)
  rwa [pick_range] at this

/-- C144, split: with a share between 0 and 1 the data are split into a training and a validation part that together are the data, the training part having the share asked for, rounded down. -/
theorem C144_split {α : Type} {s : ℝ} (h0 : 0 ≤ s) (h1 : s ≤ 1) (g : Rng) {data : List α} (hn : data.length < 2 ^ 64) :
    ∃ t u g', split L s g data = .ok ((t, u), g') ∧ (t ++ u).Perm data ∧ (t.length : ℝ) ≤ data.length * (1 - s) ∧ data.length * (1 - s) < t.length + 1 := by
  set n := data.length with hnn
  have hx0 : 0 ≤ (n : ℝ) * (1 - s) := mul_nonneg (Nat.cast_nonneg _) (by linarith)
  have hxn : (n : ℝ) * (1 - s) ≤ n := by nlinarith [Nat.cast_nonneg (α := ℝ) n]
  have hk : ⌊(n : ℝ) * (1 - s)⌋₊ ≤ n := Nat.floor_le_of_le hxn
  have hts : toSize ((n : ℝ) * (1 - s)) = .ok ⌊(n : ℝ) * (1 - s)⌋₊ := by
    unfold toSize
    rw [if_neg]
    push Not
    exact ⟨by linarith, lt_of_le_of_lt hxn (by exact_mod_cast hn)⟩
  refine ⟨_, _, _, by unfold split; rw [← hnn, hts]; simp only [R.bind]; rw [if_neg (by omega)], ?_, ?_⟩
  · rw [← List.filterMap_append, List.take_append_drop]
    exact shuffled_perm g data
  · have hl : (((L.shuffle g n).1.take ⌊(n : ℝ) * (1 - s)⌋₊).filterMap (data[·]?)).length = ⌊(n : ℝ) * (1 - s)⌋₊ := by
      rw [pick_length data _ fun i hi => ?_, List.length_take, (L.perm g n).length_eq, List.length_range]
      · omega
      · exact List.mem_range.mp ((L.perm g n).mem_iff.mp (List.mem_of_mem_take hi))
    rw [hl]
    exact ⟨Nat.floor_le hx0, Nat.lt_floor_add_one _⟩

/-- C144, violated: a share outside 0 to 1 is not rejected: above 1 the conversion to a size is undefined, below 0 the split throws while reserving memory (for at least one sample more or less). -/
theorem C144_share_violated {α : Type} {s : ℝ} (g : Rng) {data : List α} (hn : (data.length : ℝ) * (1 - s) < 2 ^ 64) :
    ((data.length : ℝ) * (1 - s) ≤ -1 → split L s g data = .ub) ∧ ((data.length : ℝ) + 1 ≤ data.length * (1 - s) → split L s g data = .throw) := by
  constructor
  · intro h
    unfold split toSize
    rw [if_pos (Or.inl h)]
    rfl
  · intro h
    have hpos : (0 : ℝ) ≤ data.length := Nat.cast_nonneg _
    unfold split toSize
    rw [if_neg (by push Not; exact ⟨by linarith, hn⟩)]
    simp only [R.bind]
    rw [if_pos]
    have : data.length + 1 ≤ ⌊(data.length : ℝ) * (1 - s)⌋₊ := Nat.le_floor (by push_cast; exact h)
    omega

/-- C144, violated: of a single sample nothing is left to train on, with any positive share for validation. -/
theorem C144_single_violated {α : Type} {s : ℝ} (h0 : 0 < s) (h1 : s ≤ 1) (g : Rng) (x : α) : ∃ g', split L s g [x] = .ok (([], [x]), g') := by
  obtain ⟨t, u, g', h, hp, hl, -⟩ := C144_split (L := L) h0.le h1 g (data := [x]) (by simp)
  have ht : t = [] := by
    rw [← List.length_eq_zero_iff]
    have : (t.length : ℝ) < 1 := by simp at hl; linarith
    exact_mod_cast Nat.lt_one_iff.mp (by exact_mod_cast this)
  subst ht
  rw [List.nil_append, List.perm_singleton] at hp
  exact ⟨g', by rw [h, hp]⟩

theorem batchLoop_spec {α : Type} (data : List α) {s : ℕ} (hs : 0 < s) (hn : data.length + s < 2 ^ 64) : ∀ (fuel i : ℕ), i ≤ data.length → data.length - i ≤ fuel →
    ∃ bs, batchLoop data s fuel i = some bs ∧ bs.flatten = data.drop i ∧ (∀ b ∈ bs, b ≠ [] ∧ b.length ≤ s) ∧ (∀ j (h : j + 1 < bs.length), (bs[j]'(by omega)).length = s) ∧ bs.length * s < data.length - i + s
  | 0, i, hi, hf => ⟨[], by simp only [batchLoop]; rw [if_neg (by omega)], by simp; omega, by simp, by simp, by simp; omega⟩
  | fuel + 1, i, hi, hf => by
    by_cases h : i < data.length
    · have ha : advance i s = i + s := Nat.mod_eq_of_lt (by omega)
      by_cases h2 : i + s ≤ data.length
      · obtain ⟨bs, k1, k2, k3, k4, k5⟩ := batchLoop_spec data hs hn fuel (i + s) h2 (by omega)
        have hlen : (slice data i (i + s)).length = s := by simp [slice]; omega
        refine ⟨slice data i (i + s) :: bs, ?_, ?_, ?_, ?_, ?_⟩
        · simp only [batchLoop]
          rw [if_pos h, ha, k1, Nat.min_eq_left h2]
          rfl
        · rw [List.flatten_cons, k2]
          unfold slice
          rw [← List.drop_drop, List.drop_take, Nat.add_sub_cancel_left, List.take_append_drop]
        · intro b hb
          rcases List.mem_cons.mp hb with rfl | hb
          · exact ⟨fun h' => by rw [h'] at hlen; simp at hlen; omega, hlen.le⟩
          · exact k3 b hb
        · intro j hj
          cases j with
          | zero => exact hlen
          | succ j => exact k4 j (by simpa using hj)
        · rw [List.length_cons, Nat.add_mul]
          omega
      · refine ⟨[data.drop i], ?_, by simp, ?_, by simp, by simp; omega⟩
        · simp only [batchLoop]
          rw [if_pos h, ha, Nat.min_eq_right (by omega)]
          have : batchLoop data s fuel (i + s) = some [] := by
            cases fuel <;> simp only [batchLoop] <;> rw [if_neg (by omega)]
          rw [this]
          simp [slice]
        · intro b hb
          simp only [List.mem_singleton] at hb
          subst hb
          exact ⟨by simp; omega, by simp; omega⟩
    · refine ⟨[], by simp only [batchLoop]; rw [if_neg h], by simp; omega, by simp, by simp, by simp; omega⟩

theorem step_pos {b : ℤ} (h : 0 < b) (hb : b < 2 ^ 31) : step b = b.toNat := by
  unfold step
  rw [Int.emod_eq_of_lt h.le (by omega)]
theorem step_neg {b : ℤ} (h : b < 0) (hb : -2 ^ 31 ≤ b) : 2 ^ 63 ≤ step b ∧ step b < 2 ^ 64 := by
  unfold step
  have : b % 2 ^ 64 = b + 2 ^ 64 := by
    rw [← Int.add_emod_right, Int.emod_eq_of_lt (by omega) (by omega)]
  rw [this]
  omega

/-- C144, batches: with a positive batch size the batches together are the data in their order, all full but the last, none empty. -/
theorem C144_batches {α : Type} (data : List α) (hn : data.length < 2 ^ 63) {b : ℤ} (h : 0 < b) (hb : b < 2 ^ 31) :
    ∃ bs, batches data b = .ok bs ∧ bs.flatten = data ∧ (∀ c ∈ bs, c ≠ [] ∧ (c.length : ℤ) ≤ b) ∧ ∀ j (h : j + 1 < bs.length), ((bs[j]'(by omega)).length : ℤ) = b := by
  have hs := step_pos h hb
  obtain ⟨bs, k1, k2, k3, k4, -⟩ := batchLoop_spec data (s := step b) (by omega) (by omega) data.length 0 (by omega) (by omega)
  refine ⟨bs, by unfold batches; rw [k1], by simpa using k2, fun c hc => ⟨(k3 c hc).1, ?_⟩, fun j hj => ?_⟩
  · have := (k3 c hc).2; omega
  · have := k4 j hj; omega

/-- C144, batch size 0: the loop never ends unless there are no data. -/
theorem C144_zero_violated {α : Type} (data : List α) : data ≠ [] → batches data 0 = .diverge := by
  intro h
  have hl : 0 < data.length := List.length_pos_iff.mpr h
  have key : ∀ fuel, batchLoop data (step 0) fuel 0 = none := by
    intro fuel
    have h0 : advance 0 (step 0) = 0 := by decide
    induction fuel with
    | zero => simp only [batchLoop]; rw [if_pos hl]
    | succ n ih => simp only [batchLoop]; rw [if_pos hl, h0, ih]; rfl
  unfold batches
  rw [key]

/-- C144, negative batch sizes: taken as a single batch of all data. -/
theorem C144_negative_limit {α : Type} (data : List α) (h : data ≠ []) (hn : data.length < 2 ^ 63) {b : ℤ} (hb : b < 0) (hb' : -2 ^ 31 ≤ b) : batches data b = .ok [data] := by
  have hl : 0 < data.length := List.length_pos_iff.mpr h
  have hs := step_neg hb hb'
  obtain ⟨k, hk⟩ : ∃ k, data.length = k + 1 := ⟨data.length - 1, by omega⟩
  have ha : advance 0 (step b) = step b := by unfold advance; rw [Nat.zero_add, Nat.mod_eq_of_lt hs.2]
  have h2 : batchLoop data (step b) k (step b) = some [] := by
    cases k <;> simp only [batchLoop] <;> rw [if_neg (by omega)]
  unfold batches
  rw [hk]
  simp only [batchLoop]
  rw [if_pos hl, ha, h2, Nat.min_eq_right (by omega)]
  simp [slice]

/-! ### C145 -/

/-- A loss that is a number: total = reconstruction + beta · divergence, neither negative. -/
def Fine (beta : ℝ) (l : Losses) : Prop := ∃ k r : ℝ, 0 ≤ k ∧ 0 ≤ r ∧ l = ⟨some (r + beta * k), some k, some r⟩

theorem fine_zero (beta : ℝ) : Fine beta .zero := ⟨0, 0, le_rfl, le_rfl, by simp [Losses.zero]⟩
theorem Fine.add {beta : ℝ} {a b : Losses} (ha : Fine beta a) (hb : Fine beta b) : Fine beta (a.add b) := by
  obtain ⟨k, r, hk, hr, rfl⟩ := ha
  obtain ⟨k', r', hk', hr', rfl⟩ := hb
  refine ⟨k + k', r + r', by positivity, by positivity, ?_⟩
  simp only [Losses.add, plus, Option.bind_some, Option.map_some, Losses.mk.injEq, Option.some.injEq, and_self, and_true]
  ring
theorem Fine.over {beta : ℝ} {a : Losses} (ha : Fine beta a) {n : ℕ} (hn : n ≠ 0) : Fine beta (a.over n) := by
  obtain ⟨k, r, hk, hr, rfl⟩ := ha
  refine ⟨k / n, r / n, by positivity, by positivity, ?_⟩
  simp only [Losses.over, Verif.Autoencoder.over, per, Option.bind_some, if_neg hn, Losses.mk.injEq, Option.some.injEq, and_self, and_true]
  ring

theorem one_ok {W : Lawful M} {v : Vae M} (g : Good W v) {x : List ℝ} (hx : x.length = v.input) : ∃ l w, v.one L x = .ok (l, w) ∧ (0 < v.input → Fine v.cfg.beta l) := by
  obtain ⟨o, ho, -, h1⟩ := encode_ok g hx 0
  set v1 : Vae M := { v with enc := (M.fwd v.enc (pre x) 0).2 }
  have e1 := (encode_rel (kept_shape W 0) h1).1
  have h2 := sample_zero (L := L) (v := v1) (mean := o.take v.latent) (lv := ((o.drop v.latent).take v.latent).map clamp) (by show (o.take v.latent).length = v.latent; rw [List.length_take]; omega) (by show (((o.drop v.latent).take v.latent).map clamp).length = v.latent; rw [List.length_map, List.length_take, List.length_drop]; omega)
  set v2 : Vae M := { v1 with rng := v1.rng.next }
  have e2 := (sample_rel (kept_shape W 0).refl h2).1
  obtain ⟨p, p1, p2, p3⟩ := decode_ok ((g.rel e1).rel e2) (z := draws L v1.cfg.sampling v1.latent (o.take v.latent) (((o.drop v.latent).take v.latent).map clamp) (v1.rng 0 % 2 ^ 32)) (draws_length ..) 0
  have hp : (p.map sexp).length = x.length := by rw [List.length_map, p1, hx]
  have hmse : mse x (p.map sexp) = .ok (per (sumSq x.length x (p.map sexp)) x.length) := by unfold mse; rw [if_neg (by omega)]
  have hone : ∃ w, v.one L x = .ok (⟨elbo v.cfg.beta (per (sumSq x.length x (p.map sexp)) x.length) (kl v.latent (o.take v.latent) (((o.drop v.latent).take v.latent).map clamp)), some (kl v.latent (o.take v.latent) (((o.drop v.latent).take v.latent).map clamp)), per (sumSq x.length x (p.map sexp)) x.length⟩, w) := by
    unfold Vae.one
    rw [h1]
    simp only [R.bind]
    rw [h2]
    simp only
    rw [p3]
    simp only
    rw [hmse]
    exact ⟨_, rfl⟩
  obtain ⟨w, hone⟩ := hone
  refine ⟨_, w, hone, ?_⟩
  · intro hpos
    refine ⟨kl v.latent (o.take v.latent) (((o.drop v.latent).take v.latent).map clamp), sumSq x.length x (p.map sexp) / x.length, (C143_divergence _ _ _).1, ?_, ?_⟩
    · exact div_nonneg (le_trans (mul_self_nonneg _) (sumSq_ge (by omega : 0 < x.length) x _)) (Nat.cast_nonneg _)
    · unfold per elbo
      rw [if_neg (by omega)]
      rfl

theorem many_ok {W : Lawful M} : ∀ {xs : List (List ℝ)} {acc : Losses} {v : Vae M}, Good W v → (∀ x ∈ xs, x.length = v.input) → ∃ l w, Vae.many L xs acc v = .ok (l, w) ∧ (0 < v.input → Fine v.cfg.beta acc → Fine v.cfg.beta l)
  | [], acc, v, g, h => ⟨acc, v, rfl, fun _ h => h⟩
  | x :: xs, acc, v, g, h => by
    obtain ⟨l, w, h1, h2⟩ := one_ok (L := L) g (h x (by simp))
    have e := (one_rel (kept_shape W 0) h1).1
    obtain ⟨l', w', k1, k2⟩ := many_ok (xs := xs) (acc := acc.add l) (g.rel e) fun y hy => by rw [e.input]; exact h y (by simp [hy])
    refine ⟨l', w', ?_, fun hp ha => ?_⟩
    · simp only [Vae.many]
      rw [h1]
      exact k1
    · rw [e.input, e.cfg] at k2
      exact k2 hp (ha.add (h2 hp))

theorem epochBatches_ok {W : Lawful M} : ∀ {bs : List (List (List ℝ))} {acc : Losses} {v : Vae M}, Good W v → (∀ b ∈ bs, ∀ x ∈ b, x.length = v.input) →
    ∃ l w, Vae.epochBatches L bs acc v = .ok (l, w) ∧ (0 < v.input → (∀ b ∈ bs, b ≠ []) → Fine v.cfg.beta acc → Fine v.cfg.beta l)
  | [], acc, v, g, h => ⟨acc, v, rfl, fun _ _ h => h⟩
  | b :: bs, acc, v, g, h => by
    obtain ⟨l, w, h1, h2⟩ := many_ok (L := L) (acc := .zero) g (h b (by simp))
    have e := (many_rel (kept_shape W 0) h1).1
    obtain ⟨l', w', k1, k2⟩ := epochBatches_ok (bs := bs) (acc := acc.add (l.over b.length)) (g.rel e) fun c hc y hy => by rw [e.input]; exact h c (by simp [hc]) y hy
    refine ⟨l', w', ?_, fun hp hne ha => ?_⟩
    · simp only [Vae.epochBatches]
      rw [h1]
      exact k1
    · rw [e.input, e.cfg] at k2
      have hb : b.length ≠ 0 := fun hb => hne b (by simp) (List.length_eq_zero_iff.mp hb)
      exact k2 hp (fun c hc => hne c (by simp [hc])) (ha.add ((h2 hp (fine_zero _)).over hb))

theorem note_lists (m : Metrics) (d : ℝ) (e : ℕ) (t : Losses) (x : Option ℝ) : (m.note d e t x).train = m.train ++ [t.total] ∧ (m.note d e t x).val = m.val ++ [x] ∧ (m.note d e t x).kl = m.kl ++ [t.kl] ∧ (m.note d e t x).recon = m.recon ++ [t.recon] := by
  unfold Metrics.note
  cases x with
  | none => exact ⟨rfl, rfl, rfl, rfl⟩
  | some x =>
    simp only
    split_ifs <;> exact ⟨rfl, rfl, rfl, rfl⟩

/-- What the metrics say after `e` epochs with minimal improvement `d`: one entry per epoch in each list; every validation loss that is a number is at least the best one minus `d`; the best one is that of the best epoch, since when no epoch improved on it, or there is none. -/
structure Tells (m : Metrics) (e : ℕ) (d : ℝ) : Prop where
  train : m.train.length = e
  val : m.val.length = e
  kl : m.kl.length = e
  recon : m.recon.length = e
  least : ∀ x, some x ∈ m.val → m.best - d ≤ x
  best : (m.val[m.bestEpoch]? = some (some m.best) ∧ m.bestEpoch + m.without + 1 = e) ∨ (m.best = fltMax ∧ m.without = e)
  top : m.best ≤ fltMax

theorem tells_new (d : ℝ) : Tells .new 0 d := ⟨rfl, rfl, rfl, rfl, by simp [Metrics.new], Or.inr ⟨rfl, rfl⟩, le_rfl⟩

theorem Tells.note {m : Metrics} {e : ℕ} {d : ℝ} (hd : 0 ≤ d) (h : Tells m e d) (t : Losses) (x : Option ℝ) : Tells (m.note d e t x) (e + 1) d := by
  obtain ⟨h1, h2, h3, h4, h5, h6, h7⟩ := h
  obtain ⟨n1, n2, n3, n4⟩ := note_lists m d e t x
  have old : (m.val[m.bestEpoch]? = some (some m.best) ∧ m.bestEpoch + m.without + 1 = e) → (m.val ++ [x])[m.bestEpoch]? = some (some m.best) := by
    rintro ⟨hb, hw⟩
    rw [List.getElem?_append_left (by omega)]
    exact hb
  refine ⟨by rw [n1]; simp [h1], by rw [n2]; simp [h2], by rw [n3]; simp [h3], by rw [n4]; simp [h4], ?_, ?_, ?_⟩
  · rw [n2]
    intro y hy
    rw [List.mem_append, List.mem_singleton] at hy
    unfold Metrics.note
    cases x with
    | none =>
      simp only
      rcases hy with hy | hy
      · exact h5 y hy
      · exact absurd hy (by simp)
    | some x =>
      simp only
      split_ifs with hi
      · simp only
        rcases hy with hy | hy
        · have := h5 y hy; linarith
        · rw [Option.some.injEq] at hy; linarith
      · simp only
        rcases hy with hy | hy
        · exact h5 y hy
        · rw [Option.some.injEq] at hy; linarith
  · rw [n2]
    unfold Metrics.note
    cases x with
    | none =>
      simp only
      rcases h6 with h6 | h6
      · exact Or.inl ⟨old h6, by omega⟩
      · exact Or.inr ⟨h6.1, by omega⟩
    | some x =>
      simp only
      split_ifs with hi
      · left
        simp only
        exact ⟨by rw [← h2]; simp, trivial⟩
      · simp only
        rcases h6 with h6 | h6
        · exact Or.inl ⟨old h6, by omega⟩
        · exact Or.inr ⟨h6.1, by omega⟩
  · unfold Metrics.note
    cases x with
    | none => exact h7
    | some x =>
      simp only
      split_ifs with hi
      · simp only; linarith
      · exact h7

theorem epoch_metrics {tr val : List (List ℝ)} {e : ℕ} {v w : Vae M} (h : v.epoch L tr val e = .ok w) : ∃ t x, w.metrics = v.metrics.note v.cfg.minDelta e t x ∧ w.cfg = v.cfg := by
  have K : Kept (M := M) (fun _ _ => True) 0 := ⟨fun _ => trivial, fun _ _ _ _ _ => trivial, fun _ _ => trivial⟩
  have e0 := (epoch_rel K h).1
  unfold Vae.epoch at h
  obtain ⟨bs, -, h⟩ := bind_ok.mp h
  obtain ⟨⟨t, v1⟩, h1, h⟩ := bind_ok.mp h
  obtain ⟨⟨o, v2⟩, h2, h⟩ := bind_ok.mp h
  simp only [R.ok.injEq] at h
  have k1 := epochBatches_rel K h1
  exact ⟨_, _, by rw [← h, ← k1.2.1], e0.cfg⟩

theorem epochs_tells {tr val : List (List ℝ)} {d : ℝ} {p : ℤ} (hd : 0 ≤ d) : ∀ {n e : ℕ} {v w : Vae M}, v.cfg.minDelta = d → v.cfg.patience = p → Vae.epochs L tr val n e v = .ok w → Tells v.metrics e d → (v.metrics.without : ℤ) ≤ max 0 (p - 1) →
    ∃ k ≤ n, Tells w.metrics (e + k) d ∧ (k = n ∨ p ≤ (w.metrics.without : ℤ)) ∧ (w.metrics.without : ℤ) ≤ max 1 p
  | 0, e, v, w, _, _, h, ht, hp => by
    simp only [Vae.epochs, R.ok.injEq] at h
    subst h
    exact ⟨0, le_rfl, ht, Or.inl rfl, by omega⟩
  | n + 1, e, v, w, hd', hp', h, ht, hp => by
    simp only [Vae.epochs] at h
    obtain ⟨v1, h1, h⟩ := bind_ok.mp h
    obtain ⟨t, x, hm, hc⟩ := epoch_metrics h1
    have ht1 : Tells v1.metrics (e + 1) d := by rw [hm, hd']; exact ht.note hd t x
    have hw : v1.metrics.without ≤ v.metrics.without + 1 := by
      rw [hm]
      unfold Metrics.note
      cases x with
      | none => exact le_rfl
      | some x => simp only; split_ifs <;> simp
    rw [hp'] at h
    split_ifs at h with hstop
    · simp only [R.ok.injEq] at h
      subst h
      exact ⟨1, by omega, ht1, Or.inr hstop, by omega⟩
    · obtain ⟨k, hk, k1, k2, k3⟩ := epochs_tells hd (by rw [hc, hd']) (by rw [hc, hp']) h ht1 (by omega)
      refine ⟨k + 1, by omega, by rw [show e + (k + 1) = e + 1 + k by omega]; exact k1, ?_, k3⟩
      rcases k2 with k2 | k2
      · exact Or.inl (by omega)
      · exact Or.inr k2

/-- C145, metrics: after training every list has one entry per epoch run; the best validation loss is that of the best epoch, no epoch was better by more than the minimal improvement; training ran through all epochs or stopped because the last epochs, as many as the patience, did not improve, and then at once. -/
theorem C145_metrics {v w : Vae M} {tr val : List (List ℝ)} (hd : 0 ≤ v.cfg.minDelta) (h : v.trainProduction L tr val = .ok w) :
    ∃ e : ℕ, (e : ℤ) ≤ max 0 v.cfg.epochs ∧ Tells w.metrics e v.cfg.minDelta ∧ ((e : ℤ) = max 0 v.cfg.epochs ∨ v.cfg.patience ≤ w.metrics.without) ∧ (w.metrics.without : ℤ) ≤ max 1 v.cfg.patience := by
  unfold Vae.trainProduction at h
  simp only at h
  have fin : ∀ {tr val : List (List ℝ)} {u : Vae M}, u.cfg = v.cfg → u.metrics = .new → Vae.epochs L tr val v.cfg.epochs.toNat 0 u = .ok w → ∃ e : ℕ, (e : ℤ) ≤ max 0 v.cfg.epochs ∧ Tells w.metrics e v.cfg.minDelta ∧ ((e : ℤ) = max 0 v.cfg.epochs ∨ v.cfg.patience ≤ w.metrics.without) ∧ (w.metrics.without : ℤ) ≤ max 1 v.cfg.patience := by
    intro tr val u hc hm h
    obtain ⟨k, k1, k2, k3, k4⟩ := epochs_tells hd (by rw [hc]) (by rw [hc]) h (by rw [hm]; exact tells_new _) (by rw [hm]; simp [Metrics.new])
    rw [zero_add] at k2
    refine ⟨k, by omega, k2, ?_, k4⟩
    rcases k3 with k3 | k3
    · exact Or.inl (by omega)
    · exact Or.inr k3
  split_ifs at h
  · obtain ⟨s, -, h⟩ := bind_ok.mp h
    exact fin (u := { v with lr := some v.cfg.lr, metrics := .new, rng := s.2 }) rfl rfl h
  · exact fin (u := { v with lr := some v.cfg.lr, metrics := .new }) rfl rfl h

/-- Entries of the metrics of epoch `i`: numbers, the training loss being reconstruction plus beta times divergence. -/
def Numbers (m : Metrics) (beta : ℝ) : Prop := (∀ x ∈ m.val, x.isSome) ∧ ∀ i < m.train.length, ∃ k r : ℝ, 0 ≤ k ∧ 0 ≤ r ∧ m.train[i]? = some (some (r + beta * k)) ∧ m.kl[i]? = some (some k) ∧ m.recon[i]? = some (some r)

theorem epoch_ok {W : Lawful M} {v : Vae M} (g : Good W v) {tr val : List (List ℝ)} (ht : ∀ x ∈ tr, x.length = v.input) (hv : ∀ x ∈ val, x.length = v.input) (hn : tr.length < 2 ^ 63) (hb : 0 < v.cfg.batch) (hb' : v.cfg.batch < 2 ^ 31) (e : ℕ) :
    ∃ w l x, v.epoch L tr val e = .ok w ∧ w.metrics = v.metrics.note v.cfg.minDelta e l x ∧ (0 < v.input → tr ≠ [] → Fine v.cfg.beta l) ∧ (0 < v.input → val ≠ [] → x.isSome) ∧ (val = [] → x = none) := by
  obtain ⟨bs, b1, b2, b3, -⟩ := C144_batches tr hn hb hb'
  obtain ⟨t, v1, h1, h2⟩ := epochBatches_ok (L := L) (bs := bs) (acc := .zero) g fun b hb x hx => ht x (by rw [← b2]; exact List.mem_flatten.mpr ⟨b, hb, hx⟩)
  have e1 := epochBatches_rel (kept_shape W 0) h1
  obtain ⟨o, v2, h3, h4⟩ := many_ok (L := L) (xs := val) (acc := .zero) (g.rel e1.1) fun x hx => by rw [e1.1.input]; exact hv x hx
  have hep : v.epoch L tr val e = .ok { v2 with metrics := v1.metrics.note v.cfg.minDelta e (t.over bs.length) (over o.total val.length) } := by
    unfold Vae.epoch
    rw [b1]
    simp only [R.bind]
    rw [h1]
    simp only
    rw [h3]
  refine ⟨_, t.over bs.length, over o.total val.length, hep, ?_, fun hp hne => ?_, fun hp hne => ?_, fun hne => ?_⟩
  · simp only
    rw [e1.2.1]
  · refine (h2 hp (fun c hc => (b3 c hc).1) (fine_zero _)).over fun h0 => hne ?_
    rw [← b2, List.length_eq_zero_iff.mp h0]
    rfl
  · rw [e1.1.input, e1.1.cfg] at h4
    obtain ⟨k, r, -, -, rfl⟩ := h4 hp (fine_zero _)
    have : val.length ≠ 0 := fun h0 => hne (List.length_eq_zero_iff.mp h0)
    simp [over, per, this]
  · subst hne
    unfold over per
    cases o.total <;> simp

theorem numbers_note {m : Metrics} {beta d : ℝ} {e : ℕ} {l : Losses} {x : Option ℝ} (hl : Fine beta l) (hx : x.isSome) (h : Numbers m beta) (h1 : m.train.length = e) (h2 : m.kl.length = e) (h3 : m.recon.length = e) : Numbers (m.note d e l x) beta := by
  obtain ⟨n1, n2, n3, n4⟩ := note_lists m d e l x
  obtain ⟨k, r, hk, hr, rfl⟩ := hl
  constructor
  · rw [n2]
    intro y hy
    rcases List.mem_append.mp hy with hy | hy
    · exact h.1 y hy
    · rw [List.mem_singleton.mp hy]; exact hx
  · rw [n1, n3, n4]
    intro i hi
    rw [List.length_append] at hi
    simp only [List.length_cons, List.length_nil] at hi
    by_cases hc : i < m.train.length
    · obtain ⟨k', r', a, b, c, d', f⟩ := h.2 i hc
      exact ⟨k', r', a, b, by rw [List.getElem?_append_left hc]; exact c, by rw [List.getElem?_append_left (by omega)]; exact d', by rw [List.getElem?_append_left (by omega)]; exact f⟩
    · have : i = e := by omega
      subst this
      refine ⟨k, r, hk, hr, ?_, ?_, ?_⟩
      · rw [← h1]; simp
      · rw [← h2]; simp
      · rw [← h3]; simp

theorem epochs_ok {W : Lawful M} {tr val : List (List ℝ)} (hn : tr.length < 2 ^ 63) : ∀ {n e : ℕ} {v : Vae M}, Good W v → (∀ x ∈ tr, x.length = v.input) → (∀ x ∈ val, x.length = v.input) → 0 < v.cfg.batch → v.cfg.batch < 2 ^ 31 →
    v.metrics.train.length = e → v.metrics.kl.length = e → v.metrics.recon.length = e →
    ∃ w, Vae.epochs L tr val n e v = .ok w ∧ (0 < v.input → tr ≠ [] → val ≠ [] → Numbers v.metrics v.cfg.beta → Numbers w.metrics v.cfg.beta) ∧ (val = [] → (∀ x ∈ v.metrics.val, x = none) → ∀ x ∈ w.metrics.val, x = none)
  | 0, e, v, g, _, _, _, _, _, _, _ => ⟨v, rfl, fun _ _ _ h => h, fun _ h => h⟩
  | n + 1, e, v, g, ht, hv, hb, hb', l1, l2, l3 => by
    obtain ⟨w, l, x, h1, h2, h3, h4, h5⟩ := epoch_ok (L := L) g ht hv hn hb hb' e
    have e1 := (epoch_rel (kept_shape W 0) h1).1
    obtain ⟨n1, n2, n3, n4⟩ := note_lists v.metrics v.cfg.minDelta e l x
    have num : 0 < v.input → tr ≠ [] → val ≠ [] → Numbers v.metrics v.cfg.beta → Numbers w.metrics v.cfg.beta := fun hp ha hc hN => by
      rw [h2]; exact numbers_note (h3 hp ha) (h4 hp hc) hN l1 l2 l3
    have nan : val = [] → (∀ x ∈ v.metrics.val, x = none) → ∀ x ∈ w.metrics.val, x = none := fun he hN y hy => by
      rw [h2, n2] at hy
      rcases List.mem_append.mp hy with hy | hy
      · exact hN y hy
      · rw [List.mem_singleton.mp hy]; exact h5 he
    simp only [Vae.epochs]
    rw [h1]
    simp only [R.bind]
    split_ifs with hs
    · exact ⟨w, rfl, num, nan⟩
    · obtain ⟨w', k1, k2, k3⟩ := epochs_ok hn (n := n) (e := e + 1) (g.rel e1) (by rw [e1.input]; exact ht) (by rw [e1.input]; exact hv) (by rw [e1.cfg]; exact hb) (by rw [e1.cfg]; exact hb')
        (by rw [h2, n1]; simp [l1]) (by rw [h2, n3]; simp [l2]) (by rw [h2, n4]; simp [l3])
      rw [e1.input, e1.cfg] at k2
      exact ⟨w', k1, fun hp ha hc hN => k2 hp ha hc (num hp ha hc hN), fun he hN => k3 he (nan he hN)⟩

/-- C145, training ends: with data of the right size, a positive batch size and validation data, training returns; with at least one training sample and an input of at least one number all losses are numbers, and each training loss is the reconstruction loss plus beta times the divergence, neither of them negative. -/
theorem C145_returns (W : Lawful M) {v : Vae M} (hv : Reach M L v) {tr val : List (List ℝ)} (ht : ∀ x ∈ tr, x.length = v.input) (hval : ∀ x ∈ val, x.length = v.input) (hne : val ≠ []) (hn : tr.length < 2 ^ 63) (hb : 0 < v.cfg.batch) (hb' : v.cfg.batch < 2 ^ 31) :
    ∃ w, v.trainProduction L tr val = .ok w ∧ (0 < v.input → tr ≠ [] → Numbers w.metrics v.cfg.beta) := by
  have g := reach_good W hv
  obtain ⟨w, h1, h2, -⟩ := epochs_ok (W := W) (L := L) (val := val) hn (n := v.cfg.epochs.toNat) (e := 0) (v := { v with lr := some v.cfg.lr, metrics := .new }) ⟨g.enc, g.dec, g.int, g.out⟩ ht hval hb hb' rfl rfl rfl
  refine ⟨w, ?_, fun hp ha => h2 hp ha hne ⟨by simp [Metrics.new], by simp [Metrics.new]⟩⟩
  unfold Vae.trainProduction
  simp only
  rw [if_neg hne]
  exact h1

/-- C145, own validation data: without validation data and with a share between 0 and 1 the training data are split and training returns too. -/
theorem C145_returns_split (W : Lawful M) {v : Vae M} (hv : Reach M L v) {tr : List (List ℝ)} (ht : ∀ x ∈ tr, x.length = v.input) (h0 : 0 ≤ v.cfg.valSplit) (h1 : v.cfg.valSplit ≤ 1) (hn : tr.length < 2 ^ 63) (hb : 0 < v.cfg.batch) (hb' : v.cfg.batch < 2 ^ 31) :
    ∃ w, v.trainProduction L tr [] = .ok w ∧ (v.cfg.valSplit = 0 → ∀ x ∈ w.metrics.val, x = none) := by
  have g := reach_good W hv
  obtain ⟨t, u, g', s1, s2, s3, s4⟩ := C144_split (L := L) h0 h1 v.rng (data := tr) (by omega)
  have hm : ∀ x, x ∈ t ∨ x ∈ u → x ∈ tr := fun x hx => s2.mem_iff.mp (List.mem_append.mpr hx)
  have hlen : t.length ≤ tr.length := by rw [← s2.length_eq, List.length_append]; omega
  obtain ⟨w, k1, -, k3⟩ := epochs_ok (W := W) (L := L) (tr := t) (val := u) (by omega) (n := v.cfg.epochs.toNat) (e := 0) (v := { v with lr := some v.cfg.lr, metrics := .new, rng := g' }) ⟨g.enc, g.dec, g.int, g.out⟩ (fun x hx => ht x (hm x (Or.inl hx))) (fun x hx => ht x (hm x (Or.inr hx))) hb hb' rfl rfl rfl
  refine ⟨w, ?_, fun hz => k3 ?_ (by simp [Metrics.new])⟩
  · unfold Vae.trainProduction
    simp only
    rw [if_pos trivial, s1]
    exact k1
  · have : tr.length < t.length + 1 := by
      rw [hz, sub_zero, mul_one] at s4
      exact_mod_cast s4
    have h2 := s2.length_eq
    rw [List.length_append] at h2
    exact List.length_eq_zero_iff.mp (by omega)

/-- C145, violated: with the share 0 for validation and no validation data no validation loss is a number, no epoch counts as improvement, and training stops after as many epochs as the patience. -/
theorem C145_no_validation_violated (W : Lawful M) {v : Vae M} (hv : Reach M L v) {tr : List (List ℝ)} (ht : ∀ x ∈ tr, x.length = v.input) (h0 : v.cfg.valSplit = 0) (hd : 0 ≤ v.cfg.minDelta) (hn : tr.length < 2 ^ 63) (hb : 0 < v.cfg.batch) (hb' : v.cfg.batch < 2 ^ 31) :
    ∃ w, v.trainProduction L tr [] = .ok w ∧ (∀ x ∈ w.metrics.val, x = none) ∧ w.metrics.best = fltMax ∧ (w.metrics.val.length : ℤ) ≤ max 1 v.cfg.patience := by
  obtain ⟨w, h1, h2⟩ := C145_returns_split W hv ht (by rw [h0]) (by rw [h0]; norm_num) hn hb hb'
  obtain ⟨e, -, k2, -, k4⟩ := C145_metrics hd h1
  refine ⟨w, h1, h2 h0, ?_⟩
  rcases k2.best with ⟨hb1, -⟩ | ⟨hb1, hb2⟩
  · exact absurd (h2 h0 _ (List.mem_of_getElem? hb1)) (by simp)
  · exact ⟨hb1, by rw [k2.val, ← hb2]; exact k4⟩

/-! ### C146 -/

/-- A network in which nothing is to be repaired: a pass without radiation leaves it as it is. -/
def Calm (M : Machine) : Prop := ∀ s x, (M.fwd s x 0).2 = s

theorem calm_kept (h : Calm M) : Kept (M := M) (fun s t => t = s) 0 := ⟨fun _ => rfl, fun _ _ _ h1 h2 => h2.trans h1, fun s x => h s x⟩

/-- C146, violated: training learns nothing: production training and the older training leave encoder, decoder and interpolator exactly as they were; every input is encoded and every latent vector decoded as before, and the learning rate is never decayed. -/
theorem C146_learning_violated (h : Calm M) {v w : Vae M} {tr val : List (List ℝ)} (ht : v.trainProduction L tr val = .ok w) :
    w.enc = v.enc ∧ w.dec = v.dec ∧ w.int = v.int ∧ w.lr = some v.cfg.lr ∧ (∀ x rad a u, v.encode x rad = .ok (a, u) → ∃ u', w.encode x rad = .ok (a, u')) ∧ ∀ z rad a u, v.decode z rad = .ok (a, u) → ∃ u', w.decode z rad = .ok (a, u') := by
  obtain ⟨k, hl⟩ := trainProduction_rel (calm_kept h) ht
  refine ⟨k.enc, k.dec, k.int, hl, fun x rad a u hx => ?_, fun z rad a u hz => ?_⟩
  · unfold Vae.encode at hx ⊢
    rw [k.enc, k.latent]
    generalize M.fwd v.enc (pre x) rad = q at hx ⊢
    obtain ⟨p, s⟩ := q
    cases p with
    | none => simp at hx
    | some p =>
      simp only at hx ⊢
      split_ifs at hx ⊢
      simp only [R.ok.injEq, Prod.mk.injEq] at hx
      exact ⟨_, by rw [hx.1]⟩
  · unfold Vae.decode at hz ⊢
    rw [k.dec]
    generalize M.fwd v.dec z rad = q at hz ⊢
    obtain ⟨p, s⟩ := q
    cases p with
    | none => simp at hz
    | some p =>
      simp only [R.ok.injEq, Prod.mk.injEq] at hz ⊢
      exact ⟨_, hz.1, rfl⟩

/-- C146, violated: the older training learns nothing either. -/
theorem C146_legacy_violated (h : Calm M) {v w : Vae M} {data : List (List ℝ)} {e b : ℤ} {l : Option ℝ} (ht : v.train L data e b = .ok (l, w)) : w.enc = v.enc ∧ w.dec = v.dec ∧ w.int = v.int := by
  have k := trainLoop_rel (calm_kept h) ht
  exact ⟨k.enc, k.dec, k.int⟩

/-- C146, the loss reported: for one epoch, the sum of the means of the batches divided by one more than the whole batches in the data. -/
theorem C146_loss {v w : Vae M} {data : List (List ℝ)} (hn : data.length < 2 ^ 63) {b : ℤ} (hb : 0 < b) (hb' : b < 2 ^ 31) {l : Option ℝ} (ht : v.train L data 1 b = .ok (l, w)) :
    ∃ bs s, batches ((L.shuffle v.rng data.length).1.filterMap (data[·]?)) b = .ok bs ∧ bs.flatten.Perm data ∧ Vae.batchesLegacy L bs (some 0) { v with rng := (L.shuffle v.rng data.length).2 } = .ok (s, w) ∧
      l = over s (data.length / b.toNat + 1) ∧ bs.length = (data.length + b.toNat - 1) / b.toNat := by
  unfold Vae.train at ht
  rw [if_neg (by omega), if_neg (by norm_num)] at ht
  have h1 : (1 : ℤ).toNat = 0 + 1 := rfl
  rw [h1] at ht
  simp only [Vae.trainLoop] at ht
  obtain ⟨bs, k1, ht⟩ := bind_ok.mp ht
  obtain ⟨⟨s, v1⟩, k2, ht⟩ := bind_ok.mp ht
  have hs := step_pos hb hb'
  rw [hs] at ht
  rw [if_neg (by omega)] at ht
  simp only [R.ok.injEq, Prod.mk.injEq] at ht
  obtain ⟨rfl, rfl⟩ := ht
  have hp := shuffled_perm (L := L) v.rng data
  have hl := hp.length_eq
  have hcount : bs.flatten = (L.shuffle v.rng data.length).1.filterMap (data[·]?) ∧ bs.length * b.toNat < data.length + b.toNat ∧ data.length ≤ bs.length * b.toNat := by
    obtain ⟨bs', q1, q2, q3, -, q5⟩ := batchLoop_spec ((L.shuffle v.rng data.length).1.filterMap (data[·]?)) (s := step b) (by omega) (by omega) ((L.shuffle v.rng data.length).1.filterMap (data[·]?)).length 0 (by omega) (by omega)
    unfold batches at k1
    rw [q1] at k1
    simp only [R.ok.injEq] at k1
    subst k1
    refine ⟨by simpa using q2, by rw [hs] at q5; omega, ?_⟩
    have : ∀ cs : List (List (List ℝ)), (∀ c ∈ cs, c ≠ [] ∧ c.length ≤ step b) → cs.flatten.length ≤ cs.length * step b := by
      intro cs
      induction cs with
      | nil => simp
      | cons c t ih =>
        intro h
        have := ih fun d hd => h d (by simp [hd])
        have := (h c (by simp)).2
        rw [List.flatten_cons, List.length_append, List.length_cons, Nat.add_mul]
        omega
    have h3 := this bs' q3
    rw [q2, List.drop_zero, hl, hs] at h3
    exact h3
  refine ⟨bs, s, k1, by rw [hcount.1]; exact hp, k2, rfl, ?_⟩
  have hpos : 0 < b.toNat := by omega
  symm
  rw [Nat.div_eq_iff hpos]
  omega

/-- C146, violated: when the batch size divides the number of samples the divisor is one more than the number of batches, so the loss reported is too small. -/
theorem C146_average_violated {v w : Vae M} {data : List (List ℝ)} (hn : data.length < 2 ^ 63) {b : ℤ} (hb : 0 < b) (hb' : b < 2 ^ 31) {l : Option ℝ} (ht : v.train L data 1 b = .ok (l, w)) (hdiv : b.toNat ∣ data.length) :
    ∃ bs s, batches ((L.shuffle v.rng data.length).1.filterMap (data[·]?)) b = .ok bs ∧ Vae.batchesLegacy L bs (some 0) { v with rng := (L.shuffle v.rng data.length).2 } = .ok (s, w) ∧ l = over s (bs.length + 1) := by
  obtain ⟨bs, s, h1, -, h2, h3, h4⟩ := C146_loss hn hb hb' ht
  refine ⟨bs, s, h1, h2, ?_⟩
  rw [h3, h4]
  obtain ⟨k, hk⟩ := hdiv
  have hpos : 0 < b.toNat := by omega
  rw [hk, Nat.mul_div_cancel_left _ hpos]
  congr 2
  symm
  rw [Nat.div_eq_iff hpos, Nat.mul_comm]
  omega

/-- C146, violated: with the batch size 0 the older training never returns, or, without data, divides by 0. -/
theorem C146_zero_violated (v : Vae M) (data : List (List ℝ)) {e : ℤ} (he : 0 < e) : v.train L data e 0 = if data = [] then .ub else .diverge := by
  unfold Vae.train
  rw [if_neg (by norm_num), if_neg (by omega)]
  obtain ⟨k, hk⟩ : ∃ k, e.toNat = k + 1 := ⟨e.toNat - 1, by omega⟩
  rw [hk]
  simp only [Vae.trainLoop]
  have hp := shuffled_perm (L := L) v.rng data
  by_cases hd : data = []
  · subst hd
    rw [if_pos rfl]
    have : (L.shuffle v.rng ([] : List (List ℝ)).length).1.filterMap (([] : List (List ℝ))[·]?) = [] := by simp
    rw [this]
    rfl
  · rw [if_neg hd, C144_zero_violated _ fun h => hd (by rw [h] at hp; exact hp.symm.eq_nil)]
    rfl

/-! ### C147 -/

theorem noise_mem (r : ℕ) : -1 / 100 ≤ noise r ∧ noise r < 1 / 100 := by
  unfold noise
  have h : (r % 2 ^ 32 : ℕ) < 2 ^ 32 := Nat.mod_lt _ (by norm_num)
  have h' : ((r % 2 ^ 32 : ℕ) : ℝ) < 2 ^ 32 := by exact_mod_cast h
  have h0 : (0 : ℝ) ≤ ((r % 2 ^ 32 : ℕ) : ℝ) := Nat.cast_nonneg _
  have h1 : ((r % 2 ^ 32 : ℕ) : ℝ) / 2 ^ 32 < 1 := by rw [div_lt_one (by norm_num)]; exact h'
  have h2 : 0 ≤ ((r % 2 ^ 32 : ℕ) : ℝ) / 2 ^ 32 := by positivity
  constructor <;> linarith

theorem vote_near {x a b c d : ℝ} (ha : |a - x| ≤ d) (hb : |b - x| ≤ d) (hc : |c - x| ≤ d) : |vote a b c - x| ≤ d := by
  rw [abs_le] at *
  unfold vote
  split_ifs <;> constructor <;> linarith

theorem vote_same (x : ℝ) : vote x x x = x := by
  unfold vote
  split_ifs <;> ring

/-- C147, majority: if two of three copies agree the vote gives their value. -/
theorem C147_majority (a b : ℝ) : vote a a b = a ∧ vote a b a = a ∧ vote b a a = a := by
  unfold vote
  refine ⟨?_, ?_, ?_⟩
  · by_cases h : a = b
    · subst h; simp
    · rw [if_pos (by rw [sub_self, abs_zero]; exact abs_pos.mpr (sub_ne_zero.mpr h))]; ring
  · by_cases h : a = b
    · subst h; simp
    · rw [if_neg (by rw [sub_self, abs_zero]; exact not_lt.mpr (abs_nonneg _)), if_pos (by rw [sub_self, abs_zero]; exact abs_pos.mpr (sub_ne_zero.mpr fun e => h e.symm))]; ring
  · rw [if_neg (lt_irrefl _), if_neg (by rw [sub_self, abs_zero]; exact not_lt.mpr (abs_nonneg _))]; ring

theorem protectAll_calm {rad : ℝ} (h : rad ≤ 1 / 2) : ∀ (z : List ℝ) (g : Rng), protectAll rad z g = (z, 0, g)
  | [], _ => rfl
  | x :: xs, g => by
    have h1 : protectOne rad x g = (x, g) := by unfold protectOne; rw [if_neg (by linarith), vote_same]
    simp only [protectAll, h1, protectAll_calm h xs, sub_self, abs_zero]
    rw [if_neg (by norm_num)]

/-- C147, low radiation: up to the level 0.5 latent vectors pass unchanged and nothing is counted. -/
theorem C147_unchanged (v : Vae M) (z : List ℝ) {rad : ℝ} (h : rad ≤ 1 / 2) : v.protect z rad = (z, v) := by
  unfold Vae.protect
  rw [protectAll_calm h]
  split_ifs <;> simp

theorem protectAll_near (rad : ℝ) : ∀ (z : List ℝ) (g : Rng) (i : ℕ), |(protectAll rad z g).1.getD i 0 - z.getD i 0| ≤ 1 / 100
  | [], _, i => by simp [protectAll]
  | x :: xs, g, i => by
    cases i with
    | succ i => simpa [protectAll] using protectAll_near rad xs _ i
    | zero =>
      simp only [protectAll, List.getD_cons_zero]
      unfold protectOne
      split_ifs
      · refine vote_near ?_ ?_ ?_ <;> rw [add_sub_cancel_left, abs_le] <;> constructor <;> linarith [noise_mem (g 0), noise_mem (g 1), noise_mem (g 2)]
      · simp [vote_same]

/-- C147, high radiation: every number stays within 0.01 of what it was, and none is lost. -/
theorem C147_near (v : Vae M) (z : List ℝ) (rad : ℝ) : (v.protect z rad).1.length = z.length ∧ ∀ i, |(v.protect z rad).1.getD i 0 - z.getD i 0| ≤ 1 / 100 := by
  refine ⟨protect_length v z rad, fun i => ?_⟩
  unfold Vae.protect
  split_ifs
  · exact protectAll_near _ _ _ i
  · simp

/-- Numbers of one list that differ from those of another by more than a millionth. -/
noncomputable def changed (a b : List ℝ) : ℕ := ((a.zip b).filter fun p => decide (1 / 10 ^ 6 < |p.1 - p.2|)).length

theorem protectAll_counts (rad : ℝ) : ∀ (z : List ℝ) (g : Rng), (protectAll rad z g).2.1 = changed (protectAll rad z g).1 z
  | [], _ => rfl
  | x :: xs, g => by
    have ih := protectAll_counts rad xs (protectOne rad x g).2
    simp only [protectAll]
    unfold changed at ih ⊢
    rw [List.zip_cons_cons, List.filter_cons, ih]
    by_cases h : 1 / 10 ^ 6 < |(protectOne rad x g).1 - x|
    · rw [if_pos h, if_pos (by simpa using h), List.length_cons]; omega
    · rw [if_neg h, if_neg (by simpa using h)]; omega

/-- C147, violated: what is counted as detected and corrected are exactly the numbers that come out different from what went in: the corrections reported are the damage left. -/
theorem C147_counts_violated (v : Vae M) (z : List ℝ) {rad : ℝ} (h : 1 / 10 < rad) :
    (v.protect z rad).2.detected = v.detected + changed (v.protect z rad).1 z ∧ (v.protect z rad).2.corrected = v.corrected + changed (v.protect z rad).1 z := by
  unfold Vae.protect
  rw [if_pos h]
  simp only
  rw [protectAll_counts]
  exact ⟨rfl, rfl⟩

/-- C147, violated: above the level 0.5 protection itself disturbs an undamaged vector: with the next draws 0 every number is lowered by 0.01. -/
theorem C147_noise_violated (v : Vae M) (z : List ℝ) {rad : ℝ} (h : 1 / 2 < rad) (hg : ∀ i < 3 * z.length, v.rng i = 0) : (v.protect z rad).1 = z.map fun x => x - 1 / 100 := by
  have hz : ∀ (z : List ℝ) (g : Rng), (∀ i < 3 * z.length, g i = 0) → (protectAll rad z g).1 = z.map fun x => x - 1 / 100 := by
    intro z
    induction z with
    | nil => intros; rfl
    | cons x xs ih =>
      intro g hg
      rw [List.length_cons] at hg
      have h1 : protectOne rad x g = (x - 1 / 100, g.next.next.next) := by
        unfold protectOne
        rw [if_pos h, hg 0 (by omega), hg 1 (by omega), hg 2 (by omega), vote_same]
        refine Prod.ext ?_ rfl
        simp only [noise]
        norm_num
        ring
      simp only [protectAll, h1, List.map_cons]
      rw [ih g.next.next.next fun i hi => hg (i + 1 + 1 + 1) (by omega)]
  unfold Vae.protect
  rw [if_pos (by linarith)]
  exact hz z v.rng hg

/-- C147, violated: of three different copies the vote does not average the two closest: 0, 10 and 11 give 5. -/
theorem C147_pair_violated : vote 0 10 11 = 5 := by
  unfold vote
  rw [if_pos (by norm_num)]
  norm_num

/-! ### C148 -/

/-- C148, statistics: a reset makes both totals 0 and leaves everything else; the totals are those of the object and its three networks. -/
theorem C148_reset (W : Lawful M) (v : Vae M) : v.resetStats.stats = (0, 0) ∧ v.resetStats.rng = v.rng ∧ v.resetStats.cfg = v.cfg ∧ v.resetStats.metrics = v.metrics := by
  refine ⟨?_, rfl, rfl, rfl⟩
  simp [Vae.stats, Vae.resetStats, W.reset_stats]

/-- C148, totals: errors reported are those of the object and of its three networks. -/
theorem C148_totals (v : Vae M) : v.stats.1 = v.detected + (M.stats v.enc).1 + (M.stats v.dec).1 + (M.stats v.int).1 ∧ v.stats.2 = v.corrected + (M.stats v.enc).2 + (M.stats v.dec).2 + (M.stats v.int).2 := by
  constructor <;> simp only [Vae.stats] <;> omega

/-- C148, radiation: radiation strikes each of the three networks once with its own seed and nothing else. -/
theorem C148_strike (v : Vae M) (rad : ℝ) {seed : ℕ} (hs : seed + 2 < 2 ^ 64) :
    (v.strike rad seed).enc = M.strike v.enc rad seed ∧ (v.strike rad seed).dec = M.strike v.dec rad (seed + 1) ∧ (v.strike rad seed).int = M.strike v.int rad (seed + 2) ∧
    (v.strike rad seed).rng = v.rng ∧ (v.strike rad seed).cfg = v.cfg ∧ (v.strike rad seed).metrics = v.metrics := by
  refine ⟨rfl, ?_, ?_, rfl, rfl, rfl⟩
  · show M.strike v.dec rad ((seed + 1) % 2 ^ 64) = _
    rw [Nat.mod_eq_of_lt (by omega)]
  · show M.strike v.int rad ((seed + 2) % 2 ^ 64) = _
    rw [Nat.mod_eq_of_lt hs]

/-- The result of a call with metrics and learning rate of the object replaced. -/
def R.relabel {α : Type} (m : Metrics) (l : Option ℝ) : R (α × Vae M) → R (α × Vae M)
  | .ok (a, w) => .ok (a, { w with metrics := m, lr := l })
  | .throw => .throw
  | .ub => .ub
  | .diverge => .diverge

/-- The object with other metrics and learning rate. -/
def Vae.relabel (v : Vae M) (m : Metrics) (l : Option ℝ) : Vae M := { v with metrics := m, lr := l }

theorem relabel_bind {α β : Type} {m : Metrics} {l : Option ℝ} {x : R (α × Vae M)} {f : α × Vae M → R (β × Vae M)} (hf : ∀ a w, f (a, w.relabel m l) = (f (a, w)).relabel m l) : (x.relabel m l).bind f = (x.bind f).relabel m l := by
  cases x with
  | ok p => exact hf p.1 p.2
  | _ => rfl

theorem relabel_encode (v : Vae M) (m : Metrics) (l : Option ℝ) (x : List ℝ) (rad : ℝ) : (v.relabel m l).encode x rad = (v.encode x rad).relabel m l := by
  unfold Vae.encode
  have h2 : (v.relabel m l).enc = v.enc := rfl
  have h3 : (v.relabel m l).latent = v.latent := rfl
  rw [h2, h3]
  generalize M.fwd v.enc (pre x) rad = q
  obtain ⟨p, s⟩ := q
  cases p with
  | none => rfl
  | some p =>
    simp only
    by_cases h : p.length < 2 * v.latent
    · rw [if_pos h, if_pos h]; rfl
    · rw [if_neg h, if_neg h]; rfl
theorem relabel_sample (v : Vae M) (m : Metrics) (l : Option ℝ) (a b : List ℝ) (k : ℕ) : (v.relabel m l).sample L a b k = (v.sample L a b k).relabel m l := by
  unfold Vae.sample
  have h3 : (v.relabel m l).latent = v.latent := rfl
  rw [h3]
  by_cases h : a.length < v.latent ∨ b.length < v.latent
  · rw [if_pos h, if_pos h]; rfl
  · rw [if_neg h, if_neg h]
    by_cases hk : k = 0
    · rw [if_pos hk, if_pos hk]; rfl
    · rw [if_neg hk, if_neg hk]; rfl
theorem relabel_decode (v : Vae M) (m : Metrics) (l : Option ℝ) (z : List ℝ) (rad : ℝ) : (v.relabel m l).decode z rad = (v.decode z rad).relabel m l := by
  unfold Vae.decode
  simp only [Vae.relabel]
  generalize M.fwd v.dec z rad = q
  obtain ⟨p, s⟩ := q
  cases p <;> rfl
theorem relabel_protect (v : Vae M) (m : Metrics) (l : Option ℝ) (z : List ℝ) (rad : ℝ) : (v.relabel m l).protect z rad = ((v.protect z rad).1, (v.protect z rad).2.relabel m l) := by
  unfold Vae.protect
  simp only [Vae.relabel]
  split_ifs <;> rfl
theorem relabel_forward (v : Vae M) (m : Metrics) (l : Option ℝ) (x : List ℝ) (rad : ℝ) : (v.relabel m l).forward L x rad = (v.forward L x rad).relabel m l := by
  unfold Vae.forward
  rw [relabel_encode]
  refine relabel_bind fun a w => ?_
  simp only
  rw [relabel_sample]
  refine relabel_bind fun b u => ?_
  simp only
  rw [relabel_protect]
  exact relabel_decode _ m l _ _
theorem relabel_interpolate (v : Vae M) (m : Metrics) (l : Option ℝ) (a b : List ℝ) (t rad : ℝ) : (v.relabel m l).interpolate a b t rad = (v.interpolate a b t rad).relabel m l := by
  unfold Vae.interpolate
  have h1 : (v.relabel m l).cfg = v.cfg := rfl
  have h2 : (v.relabel m l).int = v.int := rfl
  have h3 : (v.relabel m l).latent = v.latent := rfl
  rw [h1, h2, h3]
  by_cases hi : v.cfg.useInterp = true
  · rw [if_pos hi, if_pos hi]
    generalize M.fwd v.int (a ++ b) rad = q
    obtain ⟨p, s⟩ := q
    cases p with
    | none => rfl
    | some p =>
      simp only
      by_cases hc : a.length < p.length
      · rw [if_pos hc, if_pos hc]; rfl
      · rw [if_neg hc, if_neg hc]; exact relabel_decode { v with int := s } m l _ _
  · rw [if_neg hi, if_neg hi]
    by_cases hc : a.length < v.latent ∨ b.length < v.latent
    · rw [if_pos hc, if_pos hc]; rfl
    · rw [if_neg hc, if_neg hc]; exact relabel_decode v m l _ _
theorem relabel_gen (m : Metrics) (l : Option ℝ) (s : ℕ) (rad : ℝ) : ∀ (n i : ℕ) (v : Vae M), genLoop L s rad n i (v.relabel m l) = (genLoop L s rad n i v).relabel m l
  | 0, i, v => rfl
  | n + 1, i, v => by
    simp only [genLoop]
    have h3 : (v.relabel m l).latent = v.latent := rfl
    rw [h3, relabel_decode]
    refine relabel_bind fun a w => ?_
    simp only
    rw [relabel_gen m l s rad n (i + 1) w]
    exact relabel_bind fun b u => rfl
theorem relabel_generate (v : Vae M) (m : Metrics) (l : Option ℝ) (n : ℕ) (rad : ℝ) (seed : ℕ) : (v.relabel m l).generate L n rad seed = (v.generate L n rad seed).relabel m l := by
  unfold Vae.generate
  split_ifs
  · exact relabel_gen m l _ rad n 0 { v with rng := v.rng.next }
  · exact relabel_gen m l _ rad n 0 v

/-- C148, copies: a copy, and an object assigned to, give in every call the results of the original, and stay in step with it afterwards. -/
theorem C148_copy (v o : Vae M) (x a b : List ℝ) (t rad : ℝ) (k n : ℕ) : ∀ c ∈ [v.copy, o.assign v], ∃ m l, c.encode x rad = (v.encode x rad).relabel m l ∧ c.sample L a b k = (v.sample L a b k).relabel m l ∧ c.decode x rad = (v.decode x rad).relabel m l ∧
    c.forward L x rad = (v.forward L x rad).relabel m l ∧ c.interpolate a b t rad = (v.interpolate a b t rad).relabel m l ∧ c.generate L n rad k = (v.generate L n rad k).relabel m l ∧ c.stats = v.stats := by
  have key : ∀ m l, ∃ m' l', (v.relabel m l).encode x rad = (v.encode x rad).relabel m' l' ∧ (v.relabel m l).sample L a b k = (v.sample L a b k).relabel m' l' ∧ (v.relabel m l).decode x rad = (v.decode x rad).relabel m' l' ∧
    (v.relabel m l).forward L x rad = (v.forward L x rad).relabel m' l' ∧ (v.relabel m l).interpolate a b t rad = (v.interpolate a b t rad).relabel m' l' ∧ (v.relabel m l).generate L n rad k = (v.generate L n rad k).relabel m' l' ∧ (v.relabel m l).stats = v.stats :=
    fun m l => ⟨m, l, relabel_encode .., relabel_sample .., relabel_decode .., relabel_forward .., relabel_interpolate .., relabel_generate .., rfl⟩
  intro c hc
  simp only [List.mem_cons, List.not_mem_nil, or_false] at hc
  rcases hc with rfl | rfl
  · exact key .new none
  · exact key o.metrics o.lr

/-- C148, violated: metrics are not copied: a copy reports no training at all, an object assigned to reports its own earlier training. -/
theorem C148_metrics_violated (v o : Vae M) : v.copy.metrics = .new ∧ (o.assign v).metrics = o.metrics := ⟨rfl, rfl⟩

/-! ### C149 -/

theorem le_length (k n : ℕ) : (le k n).length = k := by
  induction k generalizing n with
  | zero => rfl
  | succ k ih => simp [le, ih]
theorem unle_le : ∀ (k n : ℕ), unle (le k n) = n % 256 ^ k
  | 0, n => by simp [le, unle, Nat.mod_one]
  | k + 1, n => by
    simp only [le, unle, unle_le k, Fin.val_ofNat]
    rw [Nat.pow_succ, Nat.mul_comm (256 ^ k) 256, Nat.mod_mul]
theorem unle_le8 {n : ℕ} (h : n < 2 ^ 64) : unle (le 8 n) = n := by
  rw [unle_le, Nat.mod_eq_of_lt (by omega)]

theorem words_length (l : List ℕ) : (words l).length = 8 * l.length := by
  induction l with
  | nil => rfl
  | cons a t ih => simp only [words, List.map_cons, List.flatten_cons, List.length_append, le_length, List.length_cons] at ih ⊢; omega
theorem unwords_words : ∀ (l : List ℕ), (∀ n ∈ l, n < 2 ^ 64) → ∀ rest, unwords l.length (words l ++ rest) = l
  | [], _, _ => rfl
  | a :: t, h, rest => by
    have e : words (a :: t) ++ rest = le 8 a ++ (words t ++ rest) := by simp [words]
    rw [e]
    simp only [List.length_cons, unwords]
    rw [List.take_left' (le_length 8 a), List.drop_left' (le_length 8 a), unle_le8 (h a (by simp)), unwords_words t (fun n hn => h n (by simp [hn]))]

/-- Dimensions that fit their bytes in the file. -/
structure Fits (v : Vae M) : Prop where
  input : v.input < 2 ^ 64
  latent : v.latent < 2 ^ 64
  count : v.hidden.length < 2 ^ 64
  hidden : ∀ n ∈ v.hidden, n < 2 ^ 64

theorem dims_parts {v : Vae M} (h : Fits v) (rest : List Byte) : 24 ≤ (v.dims ++ rest).length ∧ unle ((v.dims ++ rest).take 8) = v.input ∧ unle (((v.dims ++ rest).drop 8).take 8) = v.latent ∧ unle (((v.dims ++ rest).drop 16).take 8) = v.hidden.length ∧ (v.dims ++ rest).drop 24 = words v.hidden ++ rest := by
  have e : v.dims ++ rest = le 8 v.input ++ (le 8 v.latent ++ (le 8 v.hidden.length ++ (words v.hidden ++ rest))) := by simp [Vae.dims]
  have d8 : (v.dims ++ rest).drop 8 = le 8 v.latent ++ (le 8 v.hidden.length ++ (words v.hidden ++ rest)) := by rw [e, List.drop_left' (le_length _ _)]
  have d16 : (v.dims ++ rest).drop 16 = le 8 v.hidden.length ++ (words v.hidden ++ rest) := by
    rw [show 16 = 8 + 8 from rfl, ← List.drop_drop, d8, List.drop_left' (le_length _ _)]
  have d24 : (v.dims ++ rest).drop 24 = words v.hidden ++ rest := by
    rw [show 24 = 16 + 8 from rfl, ← List.drop_drop, d16, List.drop_left' (le_length _ _)]
  refine ⟨?_, ?_, ?_, ?_, d24⟩
  · rw [e]; simp [le_length]; omega
  · rw [e, List.take_left' (le_length _ _), unle_le8 h.input]
  · rw [d8, List.take_left' (le_length _ _), unle_le8 h.latent]
  · rw [d16, List.take_left' (le_length _ _), unle_le8 h.count]

/-- C149, saving: succeeds exactly if the file can be opened, and then the file begins with the input, latent and hidden dimensions. -/
theorem C149_save {v : Vae M} (h : Fits v) (raw : List Byte) (opens : Bool) : ((v.save raw opens).1 = opens) ∧ (opens = true → ∃ f, (v.save raw opens).2 = some f ∧ unle (f.take 8) = v.input ∧ unle ((f.drop 8).take 8) = v.latent ∧ unle ((f.drop 16).take 8) = v.hidden.length ∧ unwords v.hidden.length (f.drop 24) = v.hidden) ∧
    (opens = false → (v.save raw opens).2 = none) := by
  refine ⟨by cases opens <;> rfl, ?_, by rintro rfl; rfl⟩
  rintro rfl
  obtain ⟨-, d1, d2, d3, d4⟩ := dims_parts h raw
  exact ⟨v.dims ++ raw, rfl, d1, d2, d3, by rw [d4]; exact unwords_words _ h.hidden raw⟩

/-- C149, missing file: loading fails and changes nothing. -/
theorem C149_missing (v : Vae M) (room : ℕ) (w : ℕ × ℕ × ℕ) (rest : List Byte → R (Bool × Vae M)) : v.load room w none = .ok (false, v) ∧ v.loadModel rest none = .ok (false, v) := ⟨rfl, rfl⟩

/-- C149, violated: loading what was saved is undefined, for every object and into every object: the configuration, which contains a string, is overwritten byte by byte. -/
theorem C149_load_violated {v : Vae M} (h : Fits v) {raw : List Byte} (hraw : raw ≠ []) (u : Vae M) {room : ℕ} (hroom : v.hidden.length ≤ room) (w : ℕ × ℕ × ℕ) : u.load room w (v.save raw true).2 = .ub := by
  obtain ⟨d0, d1, d2, d3, d4⟩ := dims_parts h raw
  show u.load room w (some (v.dims ++ raw)) = .ub
  unfold Vae.load
  simp only
  rw [if_neg (by omega), d3, d4, if_neg (by omega), if_pos]
  rw [List.length_append, words_length]
  have := List.length_pos_iff.mpr hraw
  omega

/-- C149, violated: a file cut off after the dimensions is loaded with success; the dimensions are those saved, but the weights are new ones and the configuration is not restored. -/
theorem C149_cut_violated {v : Vae M} (h : Fits v) (u : Vae M) {room : ℕ} (hroom : v.hidden.length ≤ room) (w : ℕ × ℕ × ℕ) :
    ∃ u', u.load room w (some v.dims) = .ok (true, u') ∧ u'.input = v.input ∧ u'.latent = v.latent ∧ u'.hidden = v.hidden ∧ u'.cfg = u.cfg ∧ u'.enc = mkEnc M v.input v.latent v.hidden w.1 ∧ u'.dec = mkDec M v.input v.latent v.hidden w.2.1 ∧ u'.int = mkInt M v.latent v.hidden w.2.2 := by
  obtain ⟨d0, d1, d2, d3, d4⟩ := dims_parts h []
  rw [List.append_nil] at d0 d1 d2 d3 d4
  rw [List.append_nil] at d4
  have hh : readHidden u.hidden v.hidden.length (words v.hidden) = v.hidden := by
    unfold readHidden
    simp only
    rw [List.take_of_length_le (by rw [words_length])]
    exact unwords_words _ h.hidden _
  have hl : u.load room w (some v.dims) = .ok (true, { u with input := v.input, latent := v.latent, hidden := v.hidden, enc := mkEnc M v.input v.latent v.hidden w.1, dec := mkDec M v.input v.latent v.hidden w.2.1, int := mkInt M v.latent v.hidden w.2.2 }) := by
    unfold Vae.load
    simp only
    rw [if_neg (by omega), d1, d2, d3, d4, if_neg (by omega), if_neg (by rw [words_length]; omega), hh]
  exact ⟨_, hl, rfl, rfl, rfl, rfl, rfl, rfl, rfl⟩

/-- C149, violated: a damaged count makes loading fail after input and latent dimensions have been replaced: the object then claims dimensions its networks do not have, and rejects inputs of the size it claims. -/
theorem C149_damaged_violated (W : Lawful M) {u : Vae M} (hu : Reach M L u) {room i l n : ℕ} (hi : i < 2 ^ 64) (hl : l < 2 ^ 64) (hn : n < 2 ^ 64) (hroom : room < n) (hne : i ≠ u.input) (w : ℕ × ℕ × ℕ) (rest : List Byte) :
    ∃ u', u.load room w (some (le 8 i ++ le 8 l ++ le 8 n ++ rest)) = .ok (false, u') ∧ u'.input = i ∧ u'.latent = l ∧ ∀ x : List ℝ, x.length = i → u'.encode x 0 = .throw := by
  have e : le 8 i ++ le 8 l ++ le 8 n ++ rest = le 8 i ++ (le 8 l ++ (le 8 n ++ rest)) := by simp
  have d8 : (le 8 i ++ (le 8 l ++ (le 8 n ++ rest))).drop 8 = le 8 l ++ (le 8 n ++ rest) := List.drop_left' (le_length _ _)
  have d16 : (le 8 i ++ (le 8 l ++ (le 8 n ++ rest))).drop 16 = le 8 n ++ rest := by rw [show 16 = 8 + 8 from rfl, ← List.drop_drop, d8, List.drop_left' (le_length _ _)]
  have hload : u.load room w (some (le 8 i ++ le 8 l ++ le 8 n ++ rest)) = .ok (false, { u with input := i, latent := l }) := by
    rw [e]
    unfold Vae.load
    simp only
    rw [if_neg (by simp [le_length]; omega), d8, d16, List.take_left' (le_length _ _), List.take_left' (le_length _ _), List.take_left' (le_length _ _), unle_le8 hi, unle_le8 hl, unle_le8 hn, if_pos hroom]
  refine ⟨_, hload, rfl, rfl, fun x hx => ?_⟩
  have g := reach_good W hu
  have := W.rejects u.enc (pre x) 0 (by rw [g.enc, enc_head, pre_length]; simpa using fun h => hne (by omega))
  unfold Vae.encode
  simp only
  generalize M.fwd u.enc (pre x) 0 = q at this ⊢
  obtain ⟨p, s⟩ := q
  subst this
  rfl

/-- C149, violated: `loadModel` accepts no file at all, not even one written by `saveModel`: it compares 14 characters with a header of 15. -/
theorem C149_model_violated (v : Vae M) (rest : List Byte → R (Bool × Vae M)) (f : Option (List Byte)) : v.loadModel rest f = .ok (false, v) := by
  cases f with
  | none => rfl
  | some f =>
    unfold Vae.loadModel
    simp only
    rw [if_pos]
    intro h
    have h1 := congrArg List.length h
    have h2 : headerBytes.length = 15 := by decide
    have h3 : (readHeader f).length = 14 := by
      unfold readHeader
      rw [List.length_append, List.length_take, List.length_replicate]
      omega
    omega

/-! ### Examples -/

/-- Two inputs and two outputs of training and validation. -/
noncomputable def toyData : List (List ℝ) := [[1, 2], [3, 4], [5, 6]]

example : ∀ x ∈ toyData, x.length = toyVae.input := by intro x hx; simp only [toyData, List.mem_cons, List.not_mem_nil, or_false] at hx; rcases hx with rfl | rfl | rfl <;> rfl
example : toyData ≠ [] ∧ toyData.length < 2 ^ 63 ∧ 0 < toyVae.cfg.batch ∧ toyVae.cfg.batch < 2 ^ 31 ∧ 0 ≤ toyVae.cfg.valSplit ∧ toyVae.cfg.valSplit ≤ 1 ∧ 0 ≤ toyVae.cfg.minDelta := by
  refine ⟨by simp [toyData], by simp [toyData], ?_, ?_, ?_, ?_, ?_⟩ <;> norm_num [toyVae, Vae.new, toyCfg]
example : Calm toy := fun _ _ => rfl
example : ∃ w, toyVae.trainProduction toyLib toyData [[7, 8]] = .ok w ∧ Numbers w.metrics 1 := by
  obtain ⟨w, h1, h2⟩ := C145_returns (L := toyLib) toyLawful (.new 2 1 [3] toyCfg (fun _ => 0) (0, 0, 0)) (v := toyVae) (tr := toyData) (val := [[7, 8]]) (by intro x hx; simp only [toyData, List.mem_cons, List.not_mem_nil, or_false] at hx; rcases hx with rfl | rfl | rfl <;> rfl) (by simp; rfl) (by simp) (by simp [toyData]) (by norm_num [toyVae, Vae.new, toyCfg]) (by norm_num [toyVae, Vae.new, toyCfg])
  exact ⟨w, h1, h2 (by norm_num [toyVae, Vae.new]) (by simp [toyData])⟩
example : batches [1, 2, 3, 4, 5] 2 = .ok [[1, 2], [3, 4], [5]] := rfl
example : batches [1, 2, 3, 4, 5] (-7) = .ok [[1, 2, 3, 4, 5]] := rfl
example : (0 : ℝ) ≤ 1 / 5 ∧ (1 / 5 : ℝ) ≤ 1 := by norm_num
example : ∀ i < 3 * ([1, 2] : List ℝ).length, toyVae.rng i = 0 := fun _ _ => rfl
example : Fits toyVae := by
  constructor <;> simp [toyVae, Vae.new]
example : readHeader headerBytes ≠ headerBytes := by decide

end Verif.Autoencoder
