import Verif.Props.ResidualNet
/-!
C114: saving and loading skip connections; C115: training and evaluation of the residual network.
-/
namespace Verif.ResidualNet

variable {P I O : Type}

/-! ### Lemmas: reading back what was written -/

theorem le_length (k n : Nat) : (le k n).length = k := by
  induction k generalizing n with
  | zero => rfl
  | succ k ih => simp [le, ih]

theorem unle_le (k n : Nat) : unle (le k n) = n % 256 ^ k := by
  induction k generalizing n with
  | zero => simp [le, unle, Nat.mod_one]
  | succ k ih =>
    simp only [le, unle]
    rw [ih, BitVec.toNat_ofNat, Nat.pow_succ 256 k, Nat.mul_comm (256 ^ k), Nat.mod_mul]

theorem read_append (a b : List Byte) : In.read { rest := a ++ b } a.length = (a, { rest := b }) := by
  unfold In.read
  simp

theorem readOver_le (k n old : Nat) (h : n < 256 ^ k) (b : List Byte) : In.readOver { rest := le k n ++ b } k old = (n, { rest := b }) := by
  have := read_append (le k n) b
  rw [le_length] at this
  unfold In.readOver
  simp only
  rw [this]
  simp only
  rw [le_length, List.drop_eq_nil_of_le (by rw [le_length]), List.append_nil, unle_le, Nat.mod_eq_of_lt h]

theorem readFresh_le (n : Nat) (h : n < 256 ^ 8) (b : List Byte) : In.readFresh { rest := le 8 n ++ b } = .ok (n, { rest := b }) := by
  have := read_append (le 8 n) b
  rw [le_length] at this
  unfold In.readFresh
  simp only
  rw [this]
  simp only [le_length, if_true]
  rw [unle_le, Nat.mod_eq_of_lt h]

/-- The bytes of the weights. -/
def raw (ws : List (BitVec 32)) : List Byte := (ws.map fun w => le 4 w.toNat).flatten

theorem raw_length (ws : List (BitVec 32)) : (raw ws).length = ws.length * 4 := by
  induction ws with
  | nil => rfl
  | cons a t ih =>
    unfold raw at *
    rw [List.map_cons, List.flatten_cons, List.length_append, le_length, ih, List.length_cons]; omega

theorem words_raw (ws : List (BitVec 32)) (b : List Byte) : words ws.length (raw ws ++ b) = ws := by
  induction ws with
  | nil => rfl
  | cons a t ih =>
    have e : raw (a :: t) = le 4 a.toNat ++ raw t := rfl
    simp only [List.length_cons, words]
    rw [e, List.append_assoc]
    have h1 : (le 4 a.toNat ++ (raw t ++ b)).take 4 = le 4 a.toNat := by
      have := List.take_left (l₁ := le 4 a.toNat) (l₂ := raw t ++ b)
      rwa [le_length] at this
    have h2 : (le 4 a.toNat ++ (raw t ++ b)).drop 4 = raw t ++ b := by
      have := List.drop_left (l₁ := le 4 a.toNat) (l₂ := raw t ++ b)
      rwa [le_length] at this
    rw [h1, h2, ih, unle_le, Nat.mod_eq_of_lt (by have := a.isLt; omega)]
    simp

/-- The entry as it comes back: with the identity as its projection. -/
def plain (one : P) (e : List Byte × Conn P) : List Byte × Conn P := (e.1, { e.2 with proj := one })

/-- An entry whose parts fit into memory. -/
def Fits (cap : Nat) (e : List Byte × Conn P) : Prop := e.1.length ≤ cap ∧ e.2.weights.length ≤ cap

theorem loadConns_enc (one : P) (cap : Nat) (hc : cap < 2 ^ 64) (l : List (List Byte × Conn P)) (hf : ∀ e ∈ l, Fits cap e) (b : List Byte)
    (m : List (List Byte × Conn P)) (hn : (m.map (·.1) ++ l.map (·.1)).Nodup) :
    loadConns one cap l.length { rest := (l.map encConn).flatten ++ b } m = .done (m ++ l.map (plain one)) := by
  induction l generalizing m with
  | nil => simp [loadConns]
  | cons e t ih =>
    obtain ⟨k, c⟩ := e
    obtain ⟨f1, f2⟩ := hf (k, c) (by simp)
    simp only at f1 f2
    have henc : ((((k, c) :: t).map encConn).flatten ++ b) =
        le 8 k.length ++ (k ++ (le 8 c.weights.length ++ (raw c.weights ++ (le 1 (if c.prot then 1 else 0) ++ ((t.map encConn).flatten ++ b))))) := by
      have : [if c.prot then 1#8 else 0#8] = le 1 (if c.prot then 1 else 0) := by cases c.prot <;> rfl
      simp only [List.map_cons, List.flatten_cons, encConn, this, raw, List.append_assoc]
    simp only [List.length_cons, loadConns]
    rw [henc, readOver_le 8 k.length 0 (by norm_num at hc ⊢; omega)]
    simp only
    rw [if_neg (by omega), read_append]
    simp only
    rw [readOver_le 8 c.weights.length 0 (by norm_num at hc ⊢; omega)]
    simp only
    rw [if_neg (by omega)]
    have hd : (if c.weights.length > 0 then
          In.read { rest := raw c.weights ++ (le 1 (if c.prot then 1 else 0) ++ ((t.map encConn).flatten ++ b)) } (c.weights.length * 4)
        else ([], { rest := raw c.weights ++ (le 1 (if c.prot then 1 else 0) ++ ((t.map encConn).flatten ++ b)) })) =
        (raw c.weights, { rest := le 1 (if c.prot then 1 else 0) ++ ((t.map encConn).flatten ++ b) }) := by
      split
      · have := read_append (raw c.weights) (le 1 (if c.prot then 1 else 0) ++ ((t.map encConn).flatten ++ b))
        rwa [raw_length] at this
      · have : c.weights = [] := List.eq_nil_of_length_eq_zero (by omega)
        rw [this]; rfl
    rw [hd]
    simp only
    rw [readOver_le 1 _ 0 (by split <;> norm_num), words_raw]
    simp only [Nat.sub_self, List.replicate_zero, List.append_nil]
    have hk : k ∉ m.map (·.1) := by
      intro hk
      rw [List.map_cons, List.nodup_append] at hn
      exact hn.2.2 _ hk k (by simp) rfl
    rw [put_new hk, ih (fun e he => hf e (by simp [he])) _ (by simpa using hn)]
    have hp : decide ((if c.prot = true then 1 else 0) ≠ 0) = c.prot := by cases c.prot <;> simp
    rw [hp]
    simp [plain]

/-! ### C114 -/

/-- A network whose connections fit into memory and whose keys are distinct (every network after a history, and every network after a load). -/
structure Sane (cap : Nat) (n : Net P I O) : Prop where
  nodup : (n.conns.map (·.1)).Nodup
  fits : ∀ e ∈ n.conns, Fits cap e
  small : n.conns.length < 2 ^ 64

/-- C114, round trip: whatever was in the loading network, and in whatever order the connections were written, loading a saved file succeeds and gives exactly the saved connections with their weights and protection flags; what comes after them in the file does not matter. -/
theorem C114_roundtrip (one : P) (cap : Nat) (hc : cap < 2 ^ 64) (n m : Net P I O) (hs : Sane cap n)
    (order : List (List Byte × Conn P) → List (List Byte × Conn P)) (ho : ∀ l, (order l).Perm l) (junk : List Byte) :
    ∃ m', m.load one cap (n.save order ++ junk) = .ok (true, m') ∧
      (m'.conns.map fun e => (e.1, e.2.weights, e.2.prot)).Perm (n.conns.map fun e => (e.1, e.2.weights, e.2.prot)) := by
  have hp := ho n.conns
  have hl : (order n.conns).length = n.conns.length := hp.length_eq
  have hlc := loadConns_enc one cap hc (order n.conns) (fun e he => hs.fits e (hp.mem_iff.1 he)) junk [] (by
    simpa using ((hp.map _).nodup_iff).2 hs.nodup)
  rw [hl] at hlc
  refine ⟨{ m with conns := (order n.conns).map (plain one) }, ?_, ?_⟩
  · unfold Net.load Net.save
    rw [List.append_assoc, List.append_assoc, readFresh_le 0 (by norm_num)]
    simp only [Outcome.bind]
    rw [if_neg (by omega)]
    simp only [skipLayers]
    rw [readOver_le 8 n.conns.length 0 (by have := hs.small; norm_num at this ⊢; omega)]
    simp only
    rw [hlc]
    simp
  · simp only [List.map_map]
    exact hp.map _

theorem sane_after (one : P) (layers : Nat) (base : I → Rat → O) (hl : layers ≤ 2 ^ 31) (h : List (Op P)) (cap : Nat) (hc : 22 ≤ cap) :
    Sane cap (Net.after one layers base h) := by
  have hi := inv_after one layers base h
  have hdec : ∀ (j n : Nat), n < 10 ^ (j + 1) → (dec n).length ≤ j + 1 := by
    intro j
    induction j with
    | zero => intro n hn; unfold dec; rw [dif_pos (by simpa using hn)]; simp
    | succ j ih =>
      intro n hn
      unfold dec
      split
      · simp
      · have := ih (n / 10) (by rw [Nat.pow_succ] at hn; omega)
        simp only [List.length_append, List.length_singleton]; omega
  refine ⟨hi.nodup, ?_, ?_⟩
  · intro e he
    obtain ⟨s, d, hk, h1, h2⟩ := hi.keys e.1 (List.mem_map_of_mem he)
    have hb := hi.bare e he
    refine ⟨?_, by rw [hb.1]; simp⟩
    rw [hk]
    have e1 := hdec 9 s (by norm_num at hl ⊢; omega)
    have e2 := hdec 9 d (by norm_num at hl ⊢; omega)
    unfold key
    simp only [List.length_append, List.length_cons, List.length_nil]; omega
  · -- the keys are distinct and come from pairs of layers
    have hsub : (n : List (List Byte)) → n.Nodup → (∀ k ∈ n, ∃ s d, k = key s d ∧ s < d ∧ d < layers) → n.length ≤ layers * layers := by
      intro n hn hk
      have hss : n ⊆ ((List.range layers).flatMap fun s => (List.range layers).map fun d => key s d) := by
        intro k hkm
        obtain ⟨s, d, rfl, h1, h2⟩ := hk k hkm
        rw [List.mem_flatMap]
        exact ⟨s, List.mem_range.2 (by omega), List.mem_map.2 ⟨d, List.mem_range.2 h2, rfl⟩⟩
      have := (List.subperm_of_subset hn hss).length_le
      simpa [List.length_flatMap] using this
    have h1 := hsub _ hi.nodup hi.keys
    rw [List.length_map] at h1
    have h2 : layers * layers ≤ 2 ^ 31 * 2 ^ 31 := Nat.mul_le_mul hl hl
    norm_num at h2 ⊢
    omega

/-- C114, histories: after any history of connecting, removing and projecting, on a network of at most 2³¹ layers, the connections saved come back. -/
theorem C114_history (one : P) (layers : Nat) (base base' : I → Rat → O) (hl : layers ≤ 2 ^ 31) (h h' : List (Op P)) (cap : Nat) (hc : 22 ≤ cap) (hc' : cap < 2 ^ 64)
    (order : List (List Byte × Conn P) → List (List Byte × Conn P)) (ho : ∀ l, (order l).Perm l)
    (walk : List (List Byte) → List (List Byte)) (hw : ∀ l, (walk l).Perm l) :
    ∃ m l, (Net.after one layers base' h').load one cap ((Net.after one layers base h).save order) = .ok (true, m) ∧
      m.list walk = some l ∧ ∀ s d, (s, d) ∈ l ↔ (current one layers h s d).isSome = true := by
  have hi := inv_after one layers base h
  have hs := sane_after one layers base hl h cap hc
  obtain ⟨m, h1, h2⟩ := C114_roundtrip one cap hc' _ (Net.after one layers base' h') hs order ho []
  rw [List.append_nil] at h1
  have hk : (m.conns.map (·.1)).Perm ((Net.after one layers base h).conns.map (·.1)) := by
    have := h2.map (·.1)
    simpa [List.map_map, Function.comp_def] using this
  have hp := (hw (m.conns.map (·.1))).trans hk
  obtain ⟨ps, h3, h4⟩ := mapM_parse (walk (m.conns.map (·.1))) (by
    intro k hk
    obtain ⟨s, d, h1, h2, h3⟩ := hi.keys k (hp.mem_iff.1 hk)
    exact ⟨s, d, h1, h2, by omega⟩)
  refine ⟨m, ps, h1, h3, fun s d => ?_⟩
  rw [← hi.look s d, Option.isSome_map]
  have h5 : (find (Net.after one layers base h).conns (key s d)).isSome = true ↔ key s d ∈ (Net.after one layers base h).conns.map (·.1) := by
    rw [← not_iff_not, ← find_none]; simp
  rw [h5, ← hp.mem_iff, h4, List.mem_map]
  constructor
  · intro hm; exact ⟨_, hm, rfl⟩
  · rintro ⟨x, hx, hk⟩
    obtain ⟨e1, e2⟩ := key_inj hk
    have : x = (s, d) := by cases x; simp_all
    rw [← this]; exact hx

/-- C114, violated: loading never changes what the network computes: the saved weights are neither written nor read, so a network loaded from a file computes what it computed before, not what the saved one computed. -/
theorem C114_network_violated (one : P) (cap : Nat) (m : Net P I O) (file : List Byte) (ok : Bool) (m' : Net P I O) (h : m.load one cap file = .ok (ok, m')) (x : I) (r : Rat) :
    m'.forward x r = m.forward x r := by
  unfold Net.load at h
  cases hr : In.readFresh { rest := file } with
  | ub => rw [hr] at h; cases h
  | ok r0 =>
    rw [hr] at h
    simp only [Outcome.bind] at h
    split at h
    · cases h; rfl
    · cases hk : skipLayers cap r0.1 r0.2 with
      | ub => rw [hk] at h; cases h
      | ok st =>
        rw [hk] at h
        cases st with
        | threw _ => simp only at h; cases h; rfl
        | done s =>
          simp only at h
          split at h <;> · cases h; rfl

/-- C114, violated: projections are lost: after a round trip every connection has the identity. -/
theorem C114_projection_violated (one : P) (cap : Nat) (hc : cap < 2 ^ 64) (n m : Net P I O) (hs : Sane cap n)
    (order : List (List Byte × Conn P) → List (List Byte × Conn P)) (ho : ∀ l, (order l).Perm l) :
    ∃ m', m.load one cap (n.save order) = .ok (true, m') ∧ ∀ e ∈ m'.conns, e.2.proj = one := by
  have hp := ho n.conns
  have hl : (order n.conns).length = n.conns.length := hp.length_eq
  have hlc := loadConns_enc one cap hc (order n.conns) (fun e he => hs.fits e (hp.mem_iff.1 he)) [] [] (by
    simpa using ((hp.map _).nodup_iff).2 hs.nodup)
  rw [hl, List.append_nil] at hlc
  refine ⟨{ m with conns := (order n.conns).map (plain one) }, ?_, ?_⟩
  · unfold Net.load Net.save
    rw [List.append_assoc, readFresh_le 0 (by norm_num)]
    simp only [Outcome.bind]
    rw [if_neg (by omega)]
    simp only [skipLayers]
    rw [readOver_le 8 n.conns.length 0 (by have := hs.small; norm_num at this ⊢; omega)]
    simp only
    rw [hlc]
    simp
  · intro e he
    obtain ⟨e', _, rfl⟩ := List.mem_map.1 he
    rfl

theorem loadConns_dead (one : P) (cap k : Nat) (c : Conn P) (hcn : c = { proj := one }) :
    loadConns one cap (k + 1) { rest := [], good := false } [] = .done [([], c)] ∧
    ∀ k, loadConns one cap k { rest := [], good := false } [([], c)] = .done [([], c)] := by
  have step : ∀ (k : Nat) (m : List (List Byte × Conn P)), loadConns one cap (k + 1) { rest := [], good := false } m =
      loadConns one cap k { rest := [], good := false } (put m [] { proj := one }) := by
    intro k m
    have h8 : In.readOver { rest := [], good := false } 8 0 = (0, { rest := [], good := false }) := by
      simp [In.readOver, In.read, unle_le]
    have h1 : In.readOver { rest := [], good := false } 1 0 = (0, { rest := [], good := false }) := by
      simp [In.readOver, In.read, unle_le]
    simp only [loadConns]
    rw [h8]
    simp only [gt_iff_lt, Nat.not_lt_zero, if_false]
    have h0 : In.read { rest := [], good := false } 0 = ([], { rest := [], good := false }) := by simp [In.read]
    rw [h0]
    simp only
    rw [h8]
    simp only [lt_self_iff_false, Nat.not_lt_zero, if_false]
    rw [h1]
    simp [words]
  have second : ∀ k, loadConns one cap k { rest := [], good := false } [([], c)] = .done [([], c)] := by
    intro k
    induction k with
    | zero => rfl
    | succ k ih =>
      rw [step]
      have : put [(([] : List Byte), c)] [] { proj := one } = [([], c)] := by simp [put, hcn]
      rw [this, ih]
  refine ⟨?_, second⟩
  rw [step]
  have : put ([] : List (List Byte × Conn P)) [] { proj := one } = [([], c)] := by simp [put, hcn]
  rw [this, second]

/-- C114, violated: on a device that fills up after 16 bytes, saving a network with connections reports success, loading the file reports success, and the loaded network has one connection under the empty name, listing which throws. -/
theorem C114_truncated_violated (one : P) (cap : Nat) (n m : Net P I O) (hne : n.conns ≠ []) (hs : Sane cap n)
    (order : List (List Byte × Conn P) → List (List Byte × Conn P)) :
    (n.saveOn 16 order).1 = true ∧ ∃ m', m.load one cap (n.saveOn 16 order).2 = .ok (true, m') ∧ m'.count = 1 ∧ m'.list id = none := by
  refine ⟨rfl, { m with conns := [([], { proj := one })] }, ?_, rfl, rfl⟩
  have hb : (n.saveOn 16 order).2 = le 8 0 ++ (le 8 n.conns.length ++ []) := by
    simp only [Net.saveOn, Net.save]
    have : (le 8 0 ++ le 8 n.conns.length).length = 16 := by rw [List.length_append, le_length, le_length]
    rw [← this, List.take_left, List.append_nil]
  rw [hb]
  unfold Net.load
  rw [readFresh_le 0 (by norm_num)]
  simp only [Outcome.bind]
  rw [if_neg (by omega)]
  simp only [skipLayers]
  rw [readOver_le 8 n.conns.length 0 (by have := hs.small; norm_num at this ⊢; omega)]
  simp only
  obtain ⟨k, hk⟩ : ∃ k, n.conns.length = k + 1 := ⟨n.conns.length - 1, by have := List.length_pos_iff.2 hne; omega⟩
  rw [hk]
  -- the first read hits the end of the file
  have first : loadConns one cap (k + 1) { rest := [] } ([] : List (List Byte × Conn P)) =
      loadConns one cap k { rest := [], good := false } [([], { proj := one })] := by
    have h8 : In.readOver { rest := [] } 8 0 = (0, { rest := [], good := false }) := by
      simp [In.readOver, In.read, unle_le]
    have h8' : In.readOver { rest := [], good := false } 8 0 = (0, { rest := [], good := false }) := by
      simp [In.readOver, In.read, unle_le]
    have h1 : In.readOver { rest := [], good := false } 1 0 = (0, { rest := [], good := false }) := by
      simp [In.readOver, In.read, unle_le]
    have h0 : In.read { rest := [], good := false } 0 = ([], { rest := [], good := false }) := by simp [In.read]
    simp only [loadConns]
    rw [h8]
    simp only [gt_iff_lt, Nat.not_lt_zero, if_false]
    rw [h0]
    simp only
    rw [h8']
    simp only [lt_self_iff_false, Nat.not_lt_zero, if_false]
    rw [h1]
    simp [words, put]
  rw [first, (loadConns_dead one cap 0 { proj := one } rfl).2 k]

/-- C114, violated: a load that fails has already discarded the connections: a file whose first name is too long to allocate makes it report failure and leaves the network without any. -/
theorem C114_failed_load_violated (one : P) (cap : Nat) (hc : cap + 1 < 2 ^ 64) (m : Net P I O) :
    m.load one cap (le 8 0 ++ (le 8 1 ++ (le 8 (cap + 1) ++ []))) = .ok (false, { m with conns := [] }) := by
  unfold Net.load
  rw [readFresh_le 0 (by norm_num)]
  simp only [Outcome.bind]
  rw [if_neg (by omega)]
  simp only [skipLayers]
  rw [readOver_le 8 1 0 (by norm_num)]
  simp only [loadConns]
  rw [readOver_le 8 (cap + 1) 0 (by norm_num at hc ⊢; omega)]
  simp

/-- C114, violated: a file shorter than 8 bytes, for instance an empty one, is undefined behaviour. -/
theorem C114_short_violated (one : P) (cap : Nat) (m : Net P I O) (file : List Byte) (h : file.length < 8) : m.load one cap file = .ub := by
  have h1 : In.readFresh { rest := file } = .ub := by
    unfold In.readFresh In.read
    simp [Nat.not_le.2 h]
    omega
  unfold Net.load
  rw [h1]
  rfl

/-! ### C115 -/

theorem loss_nonneg (output labels : List Rat) : 0 ≤ loss output labels := by
  have h : ∀ (l : List (Rat × Rat)) (a : Rat), 0 ≤ a → 0 ≤ l.foldl (fun a x => a + (x.1 - x.2) * (x.1 - x.2)) a := by
    intro l
    induction l with
    | nil => intro a ha; exact ha
    | cons x t ih => intro a ha; exact ih _ (add_nonneg ha (mul_self_nonneg _))
  unfold loss
  simp only
  split
  · exact h _ _ le_rfl
  · exact div_nonneg (h _ _ le_rfl) (Nat.cast_nonneg _)

theorem fold_zero (l : List (Rat × Rat)) (a : Rat) (h : l.foldl (fun a x => a + (x.1 - x.2) * (x.1 - x.2)) a = 0) (ha : 0 ≤ a) : a = 0 ∧ ∀ x ∈ l, x.1 = x.2 := by
  induction l generalizing a with
  | nil => exact ⟨h, by simp⟩
  | cons x t ih =>
    obtain ⟨h1, h2⟩ := ih _ h (add_nonneg ha (mul_self_nonneg _))
    have hx := mul_self_nonneg (x.1 - x.2)
    have hz : (x.1 - x.2) * (x.1 - x.2) = 0 := by linarith
    refine ⟨by linarith, ?_⟩
    intro y hy
    rcases List.mem_cons.1 hy with rfl | hy
    · have := mul_self_eq_zero.1 hz; linarith
    · exact h2 y hy

/-- C115, loss: the loss is never negative, and for an output and labels of one length it is 0, and the accuracy 1, exactly if they agree. -/
theorem C115_loss (output labels : List Rat) :
    0 ≤ loss output labels ∧ evaluate output labels ≤ 1 ∧
    (output.length = labels.length → (loss output labels = 0 ↔ output = labels) ∧ (evaluate output labels = 1 ↔ output = labels)) := by
  have h0 := loss_nonneg output labels
  refine ⟨h0, by unfold evaluate; linarith, fun hl => ?_⟩
  have key : loss output labels = 0 ↔ output = labels := by
    constructor
    · intro h
      have hf : (output.zip labels).foldl (fun a x => a + (x.1 - x.2) * (x.1 - x.2)) 0 = (0 : Rat) := by
        unfold loss at h
        simp only at h
        split at h
        · exact h
        · rename_i hne
          rcases div_eq_zero_iff.1 h with h | h
          · exact h
          · have := List.length_pos_iff.2 hne
            have : (output.length : Rat) ≠ 0 := Nat.cast_ne_zero.2 (by omega)
            exact absurd h this
      have hz := (fold_zero _ _ hf le_rfl).2
      apply List.ext_getElem hl
      intro i h1 h2
      have := hz (output[i], labels[i]) (by
        rw [List.mem_iff_getElem]
        exact ⟨i, by rw [List.length_zip]; omega, by simp⟩)
      exact this
    · rintro rfl
      have : ∀ (l : List Rat), (l.zip l).foldl (fun a x => a + (x.1 - x.2) * (x.1 - x.2)) 0 = (0 : Rat) := by
        intro l
        induction l with
        | nil => rfl
        | cons a t ih => simp only [List.zip_cons_cons, List.foldl_cons, sub_self, mul_zero, add_zero]; exact ih
      unfold loss
      simp only [this]
      split <;> simp
  refine ⟨key, ?_⟩
  rw [← key]
  unfold evaluate
  constructor
  · intro h; linarith
  · intro h; linarith

/-- C115, violated: training changes nothing: whatever the data, labels and number of epochs, every later output is what it was, and the "final loss" is the loss before training (0 for no epochs). -/
theorem C115_train_violated (n : Net P (List Rat) (List Rat)) (data labels : List Rat) (epochs : Nat) :
    (∀ x r, (n.train data labels epochs).2.forward x r = n.forward x r) ∧
    (0 < epochs → (n.train data labels epochs).1 = loss (n.forward data 0) labels) := by
  refine ⟨fun _ _ => rfl, fun h => ?_⟩
  obtain ⟨k, rfl⟩ : ∃ k, epochs = k + 1 := ⟨epochs - 1, by omega⟩
  rfl

/-- C115, violated: the "accuracy" is no accuracy: it is negative as soon as one of two outputs is off by more than the square root of two, and missing labels count as right: without labels it is 1. -/
theorem C115_accuracy_violated :
    (∀ a b c d : Rat, 2 < (a - c) * (a - c) + (b - d) * (b - d) → evaluate [a, b] [c, d] < 0) ∧ ∀ output : List Rat, evaluate output [] = 1 := by
  refine ⟨fun a b c d h => ?_, fun output => ?_⟩
  · have e : evaluate [a, b] [c, d] = 1 - ((a - c) * (a - c) + (b - d) * (b - d)) / 2 := by
      simp [evaluate, loss]
    rw [e]; linarith
  · simp [evaluate, loss]

/-! ### Cases -/

/-- A network with a connection that has weights and protection (as a file can give it). -/
def nEx : Net Nat Nat Nat := { layers := 4, base := fun x _ => x, conns := [(key 0 2, { proj := 7, weights := [5#32, 1065353216#32], prot := true }), (key 1 3, { proj := 0 })] }
example : Sane 100 nEx := ⟨by decide +kernel, by
  intro e he
  have : e ∈ [(key 0 2, ({ proj := 7, weights := [5#32, 1065353216#32], prot := true } : Conn Nat)), (key 1 3, { proj := 0 })] := he
  simp only [List.mem_cons, List.not_mem_nil, or_false] at this
  rcases this with rfl | rfl <;> exact ⟨by decide +kernel, by decide +kernel⟩, by decide +kernel⟩
example : ((match ({ layers := 4, base := fun x _ => x } : Net Nat Nat Nat).load 0 100 (nEx.save List.reverse) with
    | .ok (true, m) => m.conns
    | _ => [])) = [(key 1 3, { proj := 0 }), (key 0 2, { proj := 0, weights := [5#32, 1065353216#32], prot := true })] := by decide +kernel
example : evaluate [3, 0] [0, 0] < 0 := C115_accuracy_violated.1 _ _ _ _ (by norm_num)
example : loss [1, 2] [1, 4] = 2 := by decide +kernel
example : (22 : Nat) ≤ 1000 ∧ (1000 : Nat) < 2 ^ 64 ∧ (4 : Nat) ≤ 2 ^ 31 := by decide

end Verif.ResidualNet
