import Verif.Lemmas.Rs
import Verif.Lemmas.Bits
import Verif.Props.GaloisField
/-!
Properties C23, C24, C25: Reed–Solomon correction, interleaving, and the codec `AdvancedReedSolomon`.
-/
namespace Verif.Props.Rs
open Verif.GF Verif.RS Verif.Spec Verif.Props.Gf Polynomial

/-! ### C23 -/

/-- All symbols of the word are field elements. -/
def Symbols (P : Params) (msg : List ℕ) : Prop := ∀ x ∈ msg, x < 2 ^ P.m

/-- **C23 (partial: no errors).** `rs_correct_errors` returns an error-free word unchanged. -/
theorem C23_clean_word_partial {P : Params} (hP : Shipped P) {t : Tables} (hc : P.construct = .ok t)
    {msg : List ℕ} (hm : Symbols P msg) {nsym : ℕ} (hn : nsym < 2 ^ P.m) (hw : IsCodeword P.poly 1 nsym msg) :
    correctErrors P t msg nsym = .ok (some msg) :=
  correct_clean hP.good (tab_of hP.good hc) hm (by rw [hP.good.fieldSize_eq]; exact hn) ((codeword_iff msg nsym).mp hw)

/-- **C23 (violated: nothing is ever corrected).** On every word that is not a codeword the correction reads past
the end of the locator vector: no word is ever repaired or reported uncorrectable. -/
theorem C23_dirty_word_violated {P : Params} (hP : Shipped P) {t : Tables} (hc : P.construct = .ok t)
    {msg : List ℕ} (hm : Symbols P msg) {nsym : ℕ} (hn : nsym < 2 ^ P.m) (hw : ¬ IsCodeword P.poly 1 nsym msg) :
    correctErrors P t msg nsym = .ub :=
  correct_dirty hP.good (tab_of hP.good hc) hm (by rw [hP.good.fieldSize_eq]; exact hn)
    (fun h => hw ((codeword_iff msg nsym).mpr h))

/-- **C23 (violated: single symbol errors).** Every codeword with any one symbol replaced by any other value leads to
undefined behaviour, although one error is within the advertised capability for `nsym ≥ 2`. -/
theorem C23_single_error_violated {P : Params} (hP : Shipped P) {t : Tables} (hc : P.construct = .ok t)
    {msg : List ℕ} (hm : Symbols P msg) {nsym : ℕ} (h1 : 1 ≤ nsym) (hn : nsym < 2 ^ P.m)
    (hw : IsCodeword P.poly 1 nsym msg) {i v : ℕ} (hi : i < msg.length) (hv : v < 2 ^ P.m) (hne : v ≠ msg[i]) :
    correctErrors P t (msg.set i v) nsym = .ub := by
  have h := hP.good
  refine C23_dirty_word_violated hP hc ?_ hn ?_
  · intro x hx
    rcases List.mem_or_eq_of_mem_set hx with hx | hx
    · exact hm x hx
    · rw [hx]; exact hv
  · intro hbad
    have e1 := (codeword_iff msg nsym).mp hw 1 le_rfl h1
    have e2 := (codeword_iff _ nsym).mp hbad 1 le_rfl h1
    unfold msgPoly at e1 e2
    rw [List.map_set, listPoly_set _ i (by simpa using hi), eval_add, e1, zero_add] at e2
    simp only [eval_mul, eval_C, eval_pow, eval_X, List.getElem_map, List.length_map] at e2
    rw [← pow_mul] at e2
    have hmi : msg[i] < 2 ^ P.m := hm _ (List.getElem_mem hi)
    have e3 : emb P v - emb P msg[i] = 0 := by
      calc emb P v - emb P msg[i] = ((emb P v - emb P msg[i]) * al P ^ (1 * (msg.length - 1 - i))) *
            al P ^ (P.order * (1 * (msg.length - 1 - i)) - 1 * (msg.length - 1 - i)) := by
              rw [mul_assoc, al_unit h, mul_one]
        _ = 0 := by rw [e2, zero_mul]
    exact hne (emb_inj h hv hmi (sub_eq_zero.mp e3))

/-- **C23 (violated: generator and checker disagree).** The generator polynomial the class produces has the roots
`α^0 … α^(nsym-1)` while the correction tests `α^1 … α^nsym`: handing the generator polynomial itself — a codeword of
the code it generates — to `rs_correct_errors` is undefined behaviour. -/
theorem C23_generator_mismatch_violated {P : Params} (hP : Shipped P) {t : Tables} (hc : P.construct = .ok t)
    {nsym : ℕ} (h1 : 1 ≤ nsym) (hn : nsym < 2 ^ P.m - 1) :
    ∃ g, generatorPoly P t nsym = .ok g ∧ g.length = nsym + 1 ∧ IsCodeword P.poly 0 nsym g ∧
      correctErrors P t g nsym = .ub := by
  have h := hP.good
  have ht := tab_of h hc
  obtain ⟨g, g1, g2, g3, _, g5⟩ := generatorPoly_spec h ht (nsym := nsym) (by rw [h.fieldSize_eq]; omega)
  refine ⟨g, g1, g2, ?_, ?_⟩
  · intro i _ hi
    change (msgPoly P g).eval (al P ^ i) = 0
    rw [g5, eval_prod]
    exact Finset.prod_eq_zero (i := i) (Finset.mem_range.mpr (by omega)) (by simp)
  · refine C23_dirty_word_violated hP hc g3 (by omega) (fun hw => ?_)
    have e := (codeword_iff g nsym).mp hw nsym h1 le_rfl
    have := rg_isDomain h
    rw [g5, eval_prod, Finset.prod_eq_zero_iff] at e
    obtain ⟨i, hi, e⟩ := e
    rw [Finset.mem_range] at hi
    simp only [eval_sub, eval_X, eval_C] at e
    have e' := sub_eq_zero.mp e
    rw [← emb_iter, ← emb_iter] at e'
    exact iter_inj h (by rw [h.order_eq]; omega) hi (emb_inj h (iter_lt h _) (iter_lt h _) e').symm

/-- Witness: the all-zero word is a codeword, so a one-symbol corruption of it satisfies the hypotheses. -/
example : ∃ t, gf16.construct = .ok t ∧ correctErrors gf16 t ([0, 0, 0, 0, 0].set 2 9) 4 = .ub := by
  obtain ⟨t, hc⟩ := C22_constructible (Or.inl rfl)
  refine ⟨t, hc, C23_single_error_violated (Or.inl rfl) hc ?_ (by decide) (by decide) ?_ (by decide) (by decide) (by decide)⟩
  · intro x hx; simp at hx; subst hx; decide
  · intro i _ _; simp [listPoly, elt]

/-! ### C25 -/

/-- `RS4Bit8Sym<T>` generalised to any number of ECC symbols; `n` is `sizeof(T)`. -/
def cfg4 (n ecc : ℕ) : Cfg := ⟨n, 4, ecc⟩

/-- **C25 (violated for 8-bit symbols).** The default symbol size cannot even be constructed. -/
theorem C25_symbol8_violated (n ecc : ℕ) : (Cfg.mk n 8 ecc).construct = .ub := by
  have : (Cfg.mk n 8 ecc).field = gf256 := rfl
  simp [Cfg.construct, this, C22_gf256_construct_violated]

theorem cfg4_field (n ecc : ℕ) : (cfg4 n ecc).field = gf16 := rfl
theorem cfg4_bytes (n ecc : ℕ) : (cfg4 n ecc).symbolBytes = 1 := rfl
theorem cfg4_dataSymbols (n ecc : ℕ) : (cfg4 n ecc).dataSymbols = n := by
  unfold Cfg.dataSymbols
  rw [cfg4_bytes]
  simp [Nat.mod_one, cfg4]
theorem cfg4_total (n ecc : ℕ) : (cfg4 n ecc).totalSymbols = n + ecc := by
  unfold Cfg.totalSymbols
  rw [cfg4_dataSymbols]; rfl

theorem cfg4_symbolAt (n ecc : ℕ) (bytes : List ℕ) (s : ℕ) : (cfg4 n ecc).symbolAt bytes s = bytes.getD s 0 := by
  unfold Cfg.symbolAt
  rw [cfg4_bytes]
  simp only [forN, Nat.mul_one, Nat.add_zero, Nat.zero_mul, Nat.shiftLeft_zero, Nat.zero_or]
  rw [List.getD_eq_getElem?_getD]
  cases bytes[s]? <;> rfl

theorem range_map_getD : ∀ (l : List ℕ) (n : ℕ), n ≤ l.length → (List.range n).map (fun i => l.getD i 0) = l.take n := by
  intro l n hn
  apply List.ext_getElem
  · simp; omega
  · intro i h1 h2
    simp at h1
    simp [show i < l.length by omega]

theorem cfg4_toElements (n ecc : ℕ) {d : List ℕ} (hd : d.length = n) : (cfg4 n ecc).toElements d = d := by
  unfold Cfg.toElements
  rw [cfg4_dataSymbols, List.map_congr_left (fun s _ => cfg4_symbolAt n ecc d s), range_map_getD d n (by omega), ← hd,
    List.take_length]

theorem cfg4_fromElements (n ecc : ℕ) : ∀ (es : List ℕ), (∀ e ∈ es, e < 16) → (cfg4 n ecc).fromElements es = es
  | [], _ => rfl
  | e :: es, h => by
    have ih := cfg4_fromElements n ecc es (fun x hx => h x (List.mem_cons_of_mem _ hx))
    have he := h e (List.mem_cons_self ..)
    unfold Cfg.fromElements at ih ⊢
    rw [List.flatMap_cons, ih, cfg4_bytes]
    have hand : e &&& 255 = e := by
      rw [show (255 : ℕ) = 2 ^ 8 - 1 by norm_num, Nat.and_two_pow_sub_one_eq_mod]
      omega
    have hr1 : List.range 1 = [0] := by decide
    rw [hr1]
    simp [hand]

theorem cfg4_toData (n ecc : ℕ) {es : List ℕ} (hl : es.length = n) (h : ∀ e ∈ es, e < 16) : (cfg4 n ecc).toData es = es := by
  unfold Cfg.toData
  rw [cfg4_bytes]
  apply List.ext_getElem
  · simp [cfg4, hl]
  · intro i h1 h2
    have he := h _ (List.getElem_mem h2)
    have hand : es[i] &&& 255 = es[i] := by
      rw [show (255 : ℕ) = 2 ^ 8 - 1 by norm_num, Nat.and_two_pow_sub_one_eq_mod]
      omega
    simp [Nat.mod_one, h2, hand]

/-! #### Conversion between values and symbols -/

theorem and255 (x : ℕ) : x &&& 255 = x % 256 := by
  rw [show (255 : ℕ) = 2 ^ 8 - 1 by norm_num, Nat.and_two_pow_sub_one_eq_mod]

theorem shl8 (b : ℕ) : b <<< 8 = b * 256 := by rw [Nat.shiftLeft_eq]
theorem or_byte {a b : ℕ} (ha : a < 256) : a ||| (b <<< 8) = b * 256 + a := by
  rw [shl8, show b * 256 = 2 ^ 8 * b by ring, Nat.or_comm, ← Nat.two_pow_add_eq_or_of_lt (by simpa using ha) b]

theorem byte_lt {d : List ℕ} (hb : ∀ b ∈ d, b < 256) (i : ℕ) : d.getD i 0 < 256 := by
  by_cases h : i < d.length
  · rw [getD_lt h]; exact hb _ (List.getElem_mem h)
  · simp [List.getD_eq_getElem?_getD, List.getElem?_eq_none (by omega : d.length ≤ i)]

theorem symbolAt_or (c : Cfg) (d : List ℕ) (s : ℕ) :
    c.symbolAt d s = forN c.symbolBytes (fun j e => e ||| (d.getD (s * c.symbolBytes + j) 0 <<< (j * 8))) 0 := by
  unfold Cfg.symbolAt
  congr 1
  funext j e
  rw [List.getD_eq_getElem?_getD]
  cases d[s * c.symbolBytes + j]? <;> simp

/-- Byte `j` of the symbol number `s` is byte `s * symbolBytes + j` of the value (0 past the end). -/
theorem symbol_byte (c : Cfg) {d : List ℕ} (hb : ∀ b ∈ d, b < 256) (s : ℕ) {j : ℕ} (hj : j < c.symbolBytes) :
    (c.symbolAt d s >>> (j * 8)) &&& 255 = d.getD (s * c.symbolBytes + j) 0 := by
  rw [symbolAt_or]
  have l0 := byte_lt hb (s * c.symbolBytes + 0)
  by_cases h8 : c.symbolSize ≤ 8
  · have h1 : c.symbolBytes = 1 := by unfold Cfg.symbolBytes; rw [if_pos h8]
    rw [h1] at hj l0 ⊢
    obtain rfl : j = 0 := by omega
    simp only [forN, Nat.zero_mul, Nat.zero_or, Nat.shiftRight_zero, Nat.shiftLeft_zero, and255]
    exact Nat.mod_eq_of_lt l0
  · have h2 : c.symbolBytes = 2 := by unfold Cfg.symbolBytes; rw [if_neg h8]
    rw [h2] at hj l0 ⊢
    have l1 := byte_lt hb (s * 2 + 1)
    simp only [forN, Nat.zero_mul, Nat.one_mul, Nat.zero_or, Nat.shiftLeft_zero]
    rw [or_byte l0, and255]
    obtain rfl | rfl : j = 0 ∨ j = 1 := by omega
    · simp only [Nat.zero_mul, Nat.shiftRight_zero]
      omega
    · rw [Nat.one_mul, Nat.shiftRight_eq_div_pow]
      omega

/-- **C25 (conversion between values and symbols).** For every configuration and every value, splitting the value into
symbols and reassembling it — with `convert_elements_to_data`, as `decode` does, or with `convert_from_elements` — gives
back the bytes of the value in order. -/
theorem C25_symbol_conversion (c : Cfg) {d : List ℕ} (hd : d.length = c.dataSize) (hb : ∀ b ∈ d, b < 256) :
    c.toData (c.toElements d) = d ∧ (c.fromElements (c.toElements d)).take c.dataSize = d ∧
    (c.toElements d).length = c.dataSymbols := by
  have hsb : c.symbolBytes = 1 ∨ c.symbolBytes = 2 := by
    unfold Cfg.symbolBytes; split <;> simp
  have hds : ∀ i, i < c.dataSize → i / c.symbolBytes < c.dataSymbols := by
    intro i hi
    unfold Cfg.dataSymbols
    rcases hsb with h | h <;> rw [h]
    · simp [Nat.mod_one]; omega
    · split <;> omega
  have hlen : (c.toElements d).length = c.dataSymbols := by simp [Cfg.toElements]
  have hget : ∀ s, s < c.dataSymbols → (c.toElements d).getD s 0 = c.symbolAt d s := by
    intro s hs
    rw [getD_lt (by rw [hlen]; exact hs)]
    simp [Cfg.toElements]
  have hdm : ∀ i, i / c.symbolBytes * c.symbolBytes + i % c.symbolBytes = i := by
    intro i; rw [Nat.mul_comm]; exact Nat.div_add_mod i c.symbolBytes
  have hmlt : ∀ i, i % c.symbolBytes < c.symbolBytes := fun i => Nat.mod_lt _ (by omega)
  refine ⟨?_, ?_, hlen⟩
  · apply List.ext_getElem
    · simp [Cfg.toData, hd]
    · intro i h1 h2
      simp only [Cfg.toData, List.getElem_map, List.getElem_range]
      rw [hget _ (hds i (by omega)), symbol_byte c hb _ (hmlt i), hdm, getD_lt h2]
  · have hfrom : c.fromElements (c.toElements d) =
        (List.range (c.dataSymbols * c.symbolBytes)).map (fun i => d.getD i 0) := by
      unfold Cfg.fromElements Cfg.toElements
      generalize c.dataSymbols = n
      induction n with
      | zero => simp
      | succ n ih =>
        rw [List.range_succ, List.map_append, List.flatMap_append, ih, Nat.succ_mul]
        rw [show n * c.symbolBytes + c.symbolBytes = n * c.symbolBytes + c.symbolBytes from rfl, List.range_add,
          List.map_append]
        congr 1
        simp only [List.map_cons, List.map_nil, List.flatMap_cons, List.flatMap_nil, List.append_nil, List.map_map]
        apply List.map_congr_left
        intro j hj
        rw [List.mem_range] at hj
        exact symbol_byte c hb n hj
    have hle : c.dataSize ≤ c.dataSymbols * c.symbolBytes := by
      unfold Cfg.dataSymbols
      rcases hsb with h | h <;> rw [h]
      · simp [Nat.mod_one]
      · split <;> omega
    rw [hfrom, ← List.map_take, List.take_range, Nat.min_eq_left hle, range_map_getD d c.dataSize (by omega), ← hd,
      List.take_length]

/-- Witness: a three-byte value under 10-bit symbols (two bytes per symbol, the last one half filled). -/
example : (Cfg.mk 3 10 4).toElements [0x12, 0xAB, 0xFF] = [0xAB12, 0xFF] ∧
    (Cfg.mk 3 10 4).toData [0xAB12, 0xFF] = [0x12, 0xAB, 0xFF] := by decide

theorem cfg4_ready {n ecc : ℕ} (h1 : 1 ≤ ecc) (h2 : ecc ≤ 15) {k : Codec} (hk : (cfg4 n ecc).construct = .ok k) :
    Ready (cfg4 n ecc) k :=
  construct_ready good_gf16 h1 h2 hk

/-- **C25 (construction).** The 4-bit codec can be constructed for up to 15 ECC symbols. -/
theorem C25_symbol4_constructible (n : ℕ) {ecc : ℕ} (h2 : ecc ≤ 15) : ∃ k, (cfg4 n ecc).construct = .ok k :=
  construct_total good_gf16 h2

/-- The generator with its constant term dropped, for the 4-bit codec. -/
noncomputable def cut4 (ecc : ℕ) (k : Codec) : (Rg gf16)[X] := msgPoly gf16 k.gen - C (emb gf16 (k.gen.getD ecc 0))

theorem encode_eq {n ecc : ℕ} (h1 : 1 ≤ ecc) (h2 : ecc ≤ 15) {k : Codec} (hk : (cfg4 n ecc).construct = .ok k)
    {d : List ℕ} (hd : d.length = n) (hb : ∀ b ∈ d, b < 16) :
    ∃ r, (cfg4 n ecc).encode k d = .ok (d ++ r) ∧ r.length = ecc ∧ InField gf16 r ∧
      ∃ q : List (Rg gf16), q.length = n ∧ msgPoly gf16 (d ++ r) = listPoly q * cut4 ecc k := by
  have hr := cfg4_ready h1 h2 hk
  obtain ⟨r, r1, r2, r3, q, q1, q2⟩ := computeEcc_spec hr (message := d ++ List.replicate ecc 0)
    (by rw [cfg4_dataSymbols]; simp; omega)
    (by
      intro x hx
      rcases List.mem_append.mp hx with hx | hx
      · exact hb x hx
      · rw [List.mem_replicate] at hx; rw [hx.2]; exact Nat.pow_pos (by norm_num))
  rw [cfg4_dataSymbols] at q1 q2
  have htake : (d ++ List.replicate ecc 0).take n = d := by rw [← hd, List.take_left]
  refine ⟨r, ?_, r2, r3, q, q1, ?_⟩
  · simp only [Cfg.encode, cfg4_toElements n ecc hd]
    change Eff.bind ((cfg4 n ecc).computeEcc k (d ++ List.replicate ecc 0)) _ = _
    rw [r1, Eff.bind_ok, cfg4_dataSymbols]
    change Eff.ok ((cfg4 n ecc).fromElements (List.take n (d ++ List.replicate ecc 0) ++ r)) = _
    rw [htake, cfg4_fromElements]
    intro e he
    rcases List.mem_append.mp he with he | he
    · exact hb e he
    · exact r3 e he
  · rw [htake] at q2
    have hr2 : r.length = ecc := r2
    change _ = listPoly q * genCut (cfg4 n ecc) k
    rw [← q2]
    unfold msgPoly
    rw [List.map_append, listPoly_append, List.length_map, hr2]
    rfl

/-- **C25 (systematic encoding, partial: values whose bytes are below 16).** For 4-bit symbols and up to 15 ECC symbols
the encoding of such a value succeeds, has `sizeof(T) + ECC` bytes and begins with the bytes of the value. -/
theorem C25_encode_systematic_partial {n ecc : ℕ} (h1 : 1 ≤ ecc) (h2 : ecc ≤ 15) {k : Codec}
    (hk : (cfg4 n ecc).construct = .ok k) {d : List ℕ} (hd : d.length = n) (hb : ∀ b ∈ d, b < 16) :
    ∃ e, (cfg4 n ecc).encode k d = .ok e ∧ e.length = n + ecc ∧ e.take n = d := by
  obtain ⟨r, r1, r2, _⟩ := encode_eq h1 h2 hk hd hb
  exact ⟨d ++ r, r1, by simp [hd, r2], by rw [← hd, List.take_left]⟩

/-- **C25 (systematic encoding for every symbol size, partial: values whose symbols are field elements).** For every
configuration with a usable field (4-bit or 10-bit symbols), with up to `2^m - 1` ECC symbols, encoding such a value
succeeds, has `(data symbols + ECC) * bytes per symbol` bytes, and begins with the bytes of the value. -/
theorem C25_encode_systematic_all_partial {c : Cfg} (hs : Shipped c.field) (h1 : 1 ≤ c.ecc) (h2 : c.ecc ≤ 2 ^ c.field.m - 1)
    {k : Codec} (hk : c.construct = .ok k) {d : List ℕ} (hd : d.length = c.dataSize) (hb : ∀ b ∈ d, b < 256)
    (hsym : ∀ s, s < c.dataSymbols → c.symbolAt d s < 2 ^ c.field.m) :
    ∃ e, c.encode k d = .ok e ∧ e.length = (c.dataSymbols + c.ecc) * c.symbolBytes ∧ e.take c.dataSize = d := by
  have hr := construct_ready hs.good h1 (by rw [hs.good.order_eq]; exact h2) hk
  obtain ⟨_, v2, v3⟩ := C25_symbol_conversion c hd hb
  obtain ⟨r, r1, r2, r3, _⟩ := computeEcc_spec hr (message := c.toElements d ++ List.replicate c.ecc 0)
    (by simp [v3])
    (by
      intro x hx
      rcases List.mem_append.mp hx with hx | hx
      · simp only [Cfg.toElements, List.mem_map, List.mem_range] at hx
        obtain ⟨s, hs, rfl⟩ := hx
        exact hsym s hs
      · rw [List.mem_replicate] at hx; rw [hx.2]; exact Nat.pow_pos (by norm_num))
  have hlen : ∀ es : List ℕ, (c.fromElements es).length = es.length * c.symbolBytes := by
    intro es
    unfold Cfg.fromElements
    induction es with
    | nil => simp
    | cons e es ih => rw [List.flatMap_cons, List.length_append, ih]; simp [Nat.succ_mul, Nat.add_comm]
  refine ⟨c.fromElements (c.toElements d ++ r), ?_, ?_, ?_⟩
  · unfold Cfg.encode
    simp only
    rw [r1, Eff.bind_ok, List.take_left' v3]
  · rw [hlen, List.length_append, v3, r2]
  · unfold Cfg.fromElements
    rw [List.flatMap_append, List.take_append_of_le_length]
    · exact v2
    · change _ ≤ (c.fromElements (c.toElements d)).length
      have := congrArg List.length v2
      rw [List.length_take, hd] at this
      omega

/-- Witness: a three-byte value under 10-bit symbols meets the hypotheses. -/
example : ∃ k e, (Cfg.mk 3 10 4).construct = .ok k ∧ (Cfg.mk 3 10 4).encode k [0x12, 0x03, 0xFF] = .ok e ∧
    e.take 3 = [0x12, 0x03, 0xFF] := by
  obtain ⟨k, hk⟩ := construct_total (c := Cfg.mk 3 10 4) good_gf1024 (by decide)
  obtain ⟨e, e1, _, e3⟩ := C25_encode_systematic_all_partial (c := Cfg.mk 3 10 4) (Or.inr rfl) (by decide) (by decide) hk
    (d := [0x12, 0x03, 0xFF]) rfl (by decide) (by decide)
  exact ⟨k, e, hk, e1, e3⟩

/-- **C25 (short buffers).** Decoding a buffer shorter than a codeword reports failure, for every configuration. -/
theorem C25_short_buffer (c : Cfg) (k : Codec) {e : List ℕ} (h : e.length < c.totalSymbols * c.symbolBytes) :
    c.decode k e = .ok none ∧ c.isCorrectable k e = .ok false := by
  simp [Cfg.decode, Cfg.isCorrectable, h]

theorem decode_eq {n ecc : ℕ} {k : Codec} {w : List ℕ} (hw : w.length = n + ecc) :
    (cfg4 n ecc).decode k w = Eff.bind (correctErrors gf16 k.tab w ecc) fun r =>
      match r with
      | none => .ok none
      | some w => .ok (some ((cfg4 n ecc).toData (w.take n))) := by
  unfold Cfg.decode
  rw [cfg4_total, cfg4_bytes, if_neg (by omega)]
  simp only
  rw [List.map_congr_left (fun s _ => cfg4_symbolAt n ecc w s), range_map_getD w (n + ecc) (by omega), ← hw, List.take_length,
    cfg4_dataSymbols]
  rfl

/-- **C25 (clean round trip, partial: the all-zero value).** -/
theorem C25_roundtrip_zero_partial {n ecc : ℕ} (h1 : 1 ≤ ecc) (h2 : ecc ≤ 15) {k : Codec}
    (hk : (cfg4 n ecc).construct = .ok k) :
    Eff.bind ((cfg4 n ecc).encode k (List.replicate n 0)) ((cfg4 n ecc).decode k) = .ok (some (List.replicate n 0)) := by
  have hr := cfg4_ready h1 h2 hk
  have hz : ∀ i, (cfg4 n ecc).eccStep k (List.replicate n 0 ++ List.replicate ecc 0) i (List.replicate ecc 0) =
      (if i < n + ecc then .ok (List.replicate ecc 0) else .ub) := by
    intro i
    by_cases hi : i < n + ecc
    · rw [if_pos hi]
      unfold Cfg.eccStep
      rw [List.replicate_append_replicate, rd_eq (v := 0) (by rw [List.getElem?_replicate, if_pos hi]),
        rd_eq (v := 0) (by rw [List.getElem?_replicate, if_pos (by omega)])]
      simp only [Eff.bind_ok, add, Nat.xor_self, ne_eq, not_true_eq_false, if_false]
      obtain ⟨s, s1, s2⟩ := forE_inv (f := fun j r => Eff.bind (rd r (j + 1)) fun v => wr r j v)
        (fun _ s => s = List.replicate ecc 0) (ecc - 1) (List.replicate ecc 0) rfl (by
          rintro i hi s rfl
          refine ⟨_, ?_, rfl⟩
          rw [rd_eq (v := 0) (by rw [List.getElem?_replicate, if_pos (by omega)]), Eff.bind_ok, wr_eq (by simp; omega)]
          simp)
      subst s2
      change Eff.bind (forE (ecc - 1) _ _) _ = _
      rw [s1, Eff.bind_ok]
      change wr _ (ecc - 1) 0 = _
      rw [wr_eq (by simp; omega)]
      simp
    · rw [if_neg hi]
      unfold Cfg.eccStep
      rw [rd_oob (by simp; omega)]
      rfl
  have henc : (cfg4 n ecc).encode k (List.replicate n 0) = .ok (List.replicate (n + ecc) 0) := by
    obtain ⟨s, s1, s2⟩ := forE_inv (f := (cfg4 n ecc).eccStep k (List.replicate n 0 ++ List.replicate ecc 0))
      (fun _ s => s = List.replicate ecc 0) n (List.replicate ecc 0) rfl (by
        rintro i hi s rfl
        exact ⟨_, by rw [hz, if_pos (by omega)], rfl⟩)
    subst s2
    simp only [Cfg.encode, cfg4_toElements n ecc (List.length_replicate ..), Cfg.computeEcc, cfg4_dataSymbols]
    change Eff.bind (forE n ((cfg4 n ecc).eccStep k (List.replicate n 0 ++ List.replicate ecc 0)) (List.replicate ecc 0)) _ = _
    rw [s1, Eff.bind_ok, List.take_left' (by simp), List.replicate_append_replicate, cfg4_fromElements]
    intro e he
    rw [List.mem_replicate] at he
    omega
  rw [henc, Eff.bind_ok, decode_eq (by simp)]
  have hcor : correctErrors gf16 k.tab (List.replicate (n + ecc) 0) ecc = .ok (some (List.replicate (n + ecc) 0)) := by
    refine correct_clean good_gf16 hr.tab ?_ (by change ecc < 16; omega) ?_
    · intro x hx; rw [List.mem_replicate] at hx; rw [hx.2]; decide
    · intro i _ _
      unfold msgPoly
      rw [List.map_replicate, emb_zero, listPoly_zeros]
      simp
  rw [hcor, Eff.bind_ok]
  simp only [List.take_replicate, Nat.min_eq_left (Nat.le_add_right n ecc)]
  rw [cfg4_toData n ecc (List.length_replicate ..)]
  intro e he
  rw [List.mem_replicate] at he
  omega

/-- **C25 (clean round trip, violated).** For every value of fewer than `ECC` bytes (each below 16) other than zero,
decoding the *unmodified* encoding is undefined behaviour: the encoder drops the constant term of the generator, so its
output is not a codeword, and the decoder then runs out of bounds. -/
theorem C25_roundtrip_violated {n ecc : ℕ} (h1 : n < ecc) (h2 : ecc ≤ 14) {k : Codec}
    (hk : (cfg4 n ecc).construct = .ok k) {d : List ℕ} (hd : d.length = n) (hb : ∀ b ∈ d, b < 16) (hnz : ∃ b ∈ d, b ≠ 0) :
    Eff.bind ((cfg4 n ecc).encode k d) ((cfg4 n ecc).decode k) = .ub := by
  have hr := cfg4_ready (by omega) (by omega) hk
  obtain ⟨r, r1, r2, r3, q, q1, q2⟩ := encode_eq (by omega) (by omega) hk hd hb
  rw [r1, Eff.bind_ok, decode_eq (by simp [hd, r2])]
  have hfield : InField gf16 (d ++ r) := by
    intro x hx
    rcases List.mem_append.mp hx with hx | hx
    · exact hb x hx
    · exact r3 x hx
  rw [correct_dirty good_gf16 hr.tab hfield (by change ecc < 16; omega)]
  · rfl
  · intro hclean
    have hdom := rg_isDomain good_gf16
    -- the constant term is a unit
    have hgl : emb gf16 (k.gen.getD ecc 0) ≠ 0 := by
      intro e0
      have hp : msgPoly gf16 k.gen = ∏ i ∈ Finset.range ecc, (X - C (al gf16 ^ i)) := hr.genPoly
      have hev : (msgPoly gf16 k.gen).eval 0 = emb gf16 (k.gen.getD ecc 0) := by
        obtain ⟨gs, gl, hkg, hgs, _, hcut⟩ := gen_split hr
        have hc : (cut4 ecc k).eval 0 = 0 := by
          have hcut' : cut4 ecc k = X ^ ecc + listPoly (gs.map (emb gf16)) * X := hcut
          rw [hcut']
          have : ecc ≠ 0 := by omega
          simp [this]
        unfold cut4 at hc
        rw [eval_sub, eval_C] at hc
        exact sub_eq_zero.mp hc
      rw [e0] at hev
      rw [hp, eval_prod, Finset.prod_eq_zero_iff] at hev
      obtain ⟨i, _, hi⟩ := hev
      simp only [eval_sub, eval_X, eval_C, zero_sub, neg_eq_zero] at hi
      have := al_unit good_gf16 i
      rw [hi, zero_mul] at this
      exact one_ne_zero' good_gf16 this.symm
    have hq0 : ∀ i, 1 ≤ i → i < ecc → (listPoly q).eval (al gf16 ^ i) = 0 := by
      intro i hi1 hi2
      have e := hclean i hi1 (by omega)
      rw [q2, eval_mul] at e
      rcases mul_eq_zero.mp e with e | e
      · exact e
      · exfalso
        unfold cut4 at e
        rw [eval_sub, eval_C] at e
        have hroot : (msgPoly gf16 k.gen).eval (al gf16 ^ i) = 0 := by
          have hp : msgPoly gf16 k.gen = ∏ i ∈ Finset.range ecc, (X - C (al gf16 ^ i)) := hr.genPoly
          rw [hp, eval_prod]
          exact Finset.prod_eq_zero (i := i) (Finset.mem_range.mpr hi2) (by simp)
        rw [hroot, zero_sub, neg_eq_zero] at e
        exact hgl e
    have hqz : listPoly q = 0 := by
      by_cases hn0 : n = 0
      · have : q = [] := List.length_eq_zero_iff.mp (by omega)
        rw [this]; rfl
      · have hcard : ((Finset.Ico 1 ecc).image (fun i => al gf16 ^ i)).card = ecc - 1 := by
          rw [Finset.card_image_of_injOn, Nat.card_Ico]
          intro i hi j hj e
          simp only [Finset.coe_Ico, Set.mem_Ico] at hi hj
          have e' : (xt gf16)^[i] 1 = (xt gf16)^[j] 1 :=
            emb_inj good_gf16 (iter_lt good_gf16 i) (iter_lt good_gf16 j) (by rw [emb_iter, emb_iter]; exact e)
          rcases Nat.lt_trichotomy i j with h | h | h
          · exact absurd e' (iter_inj good_gf16 (by change j < 15; omega) h)
          · exact h
          · exact absurd e'.symm (iter_inj good_gf16 (by change i < 15; omega) h)
        by_contra hne
        refine hne (Polynomial.eq_zero_of_natDegree_lt_card_of_eval_eq_zero' (listPoly q)
          ((Finset.Ico 1 ecc).image (fun i => al gf16 ^ i)) ?_ ?_)
        · intro y hy
          rw [Finset.mem_image] at hy
          obtain ⟨i, hi, rfl⟩ := hy
          rw [Finset.mem_Ico] at hi
          exact hq0 i hi.1 hi.2
        · rw [hcard]
          have hdeg := degree_listPoly_lt q
          rw [q1] at hdeg
          have := (Polynomial.natDegree_lt_iff_degree_lt hne).mpr hdeg
          omega
    rw [hqz, zero_mul] at q2
    obtain ⟨b, hbm, hb0⟩ := hnz
    have := listPoly_eq_zero _ q2 (emb gf16 b) (List.mem_map_of_mem (List.mem_append_left _ hbm))
    exact hb0 (emb_eq_zero good_gf16 (hb b hbm) this)

/-- Witness: a two-byte value. -/
example : ∃ k, (cfg4 2 8).construct = .ok k ∧ Eff.bind ((cfg4 2 8).encode k [3, 5]) ((cfg4 2 8).decode k) = .ub := by
  obtain ⟨k, hk⟩ := C25_symbol4_constructible 2 (ecc := 8) (by decide)
  exact ⟨k, hk, C25_roundtrip_violated (by decide) (by decide) hk rfl (by decide) ⟨3, by decide, by decide⟩⟩

/-- **C25 (violated: bytes of 16 and more).** With 4-bit symbols and 8 ECC symbols (`RS4Bit8Sym<T>`) encoding any value
that has a byte of 16 or more is undefined behaviour: whole bytes are used as 4-bit symbols. -/
theorem C25_encode_large_byte_violated {n : ℕ} {k : Codec} (hk : (cfg4 n 8).construct = .ok k) {d : List ℕ}
    (hd : d.length = n) (hbig : ∃ b ∈ d, 16 ≤ b) : (cfg4 n 8).encode k d = .ub := by
  have hr := cfg4_ready (by decide) (by decide) hk
  have hgen : k.gen = [1, 13, 1, 2, 13, 5, 9, 3, 13] := by
    have h0 : (Eff.bind (cfg4 0 8).construct fun k => .ok k.gen) = .ok [1, 13, 1, 2, 13, 5, 9, 3, 13] := by decide +kernel
    have h1 : (cfg4 n 8).construct = (cfg4 0 8).construct := rfl
    rw [← h1, hk, Eff.bind_ok] at h0
    injection h0
  classical
  -- first large byte
  obtain ⟨i, hi, hbi, hmin⟩ : ∃ i, ∃ hi : i < d.length, 16 ≤ d[i] ∧ ∀ j (hj : j < i), d[j]'(by omega) < 16 := by
    have hex : ∃ i, ∃ hi : i < d.length, 16 ≤ d[i] := by
      obtain ⟨b, hb, h16⟩ := hbig
      obtain ⟨i, hi, rfl⟩ := List.mem_iff_getElem.mp hb
      exact ⟨i, hi, h16⟩
    obtain ⟨h1, h2⟩ := Nat.find_spec hex
    refine ⟨Nat.find hex, h1, h2, ?_⟩
    intro j hj
    by_contra hc
    exact Nat.find_min hex hj ⟨by omega, by omega⟩
  have hmsg : ∀ j (hj : j < d.length), (d ++ List.replicate 8 0)[j]? = some d[j] := by
    intro j hj; rw [List.getElem?_append_left hj, List.getElem?_eq_getElem hj]
  obtain ⟨r, r1, r2, r3⟩ := forE_inv (f := (cfg4 n 8).eccStep k (d ++ List.replicate 8 0))
    (fun _ s => s.length = 8 ∧ InField gf16 s) i (List.replicate 8 0)
    ⟨by simp, by intro x hx; rw [List.mem_replicate] at hx; rw [hx.2]; decide⟩ (by
      rintro j hj s ⟨s1, s2⟩
      obtain ⟨r', q1, q2, q3, _⟩ := eccStep_spec hr (hmsg j (by omega)) (hmin j hj) s1 s2
      exact ⟨r', q1, q2, q3⟩)
  have hr0 : r[0]? = some (r[0]'(by omega)) := List.getElem?_eq_getElem _
  have hr0l : r[0]'(by omega) < 16 := r3 _ (List.getElem_mem _)
  have hfb : 16 ≤ d[i] ^^^ r[0]'(by omega) := by
    by_contra hlt
    have h2 : d[i] < 2 ^ 4 := by
      have := Nat.xor_lt_two_pow (n := 4) (show d[i] ^^^ r[0]'(by omega) < 2 ^ 4 by omega) hr0l
      rwa [Nat.xor_assoc, Nat.xor_self, Nat.xor_zero] at this
    omega
  have hub : (cfg4 n 8).eccStep k (d ++ List.replicate 8 0) i r = .ub := by
    unfold Cfg.eccStep
    rw [rd_eq (hmsg i hi), rd_eq hr0]
    simp only [Eff.bind_ok]
    rw [if_pos (by change d[i] ^^^ r[0]'(by omega) ≠ 0; omega)]
    have h1 : forE 1 ((cfg4 n 8).eccInner k (add d[i] (r[0]'(by omega)))) r = .ub := by
      simp only [forE, Eff.bind_ok, Cfg.eccInner]
      rw [if_pos (by rw [hgen]; decide), rd_eq (List.getElem?_eq_getElem (show 0 + 1 < r.length by omega)), Eff.bind_ok]
      have hg : rd k.gen (0 + 1) = .ok 13 := by rw [hgen]; rfl
      rw [hg, Eff.bind_ok]
      unfold multiply
      have hne : add d[i] (r[0]'(by omega)) ≠ 0 := by change d[i] ^^^ r[0]'(by omega) ≠ 0; omega
      rw [if_neg (by simp [hne])]
      have : rd k.tab.log (add d[i] (r[0]'(by omega))) = .ub := rd_oob (by
        rw [hr.tab.logLen]; exact hfb)
      rw [this]
      rfl
    rw [forE_ub _ 1 ((cfg4 n 8).ecc - 1) (show 1 ≤ 8 - 1 by decide) h1]
    rfl
  have hec : (cfg4 n 8).computeEcc k (d ++ List.replicate 8 0) = .ub := by
    unfold Cfg.computeEcc
    rw [cfg4_dataSymbols]
    refine forE_ub _ (i + 1) n (by omega) ?_
    rw [forE]
    change Eff.bind (forE i _ (List.replicate 8 0)) _ = _
    rw [r1, Eff.bind_ok, hub]
  simp only [Cfg.encode, cfg4_toElements n 8 hd]
  change Eff.bind ((cfg4 n 8).computeEcc k (d ++ List.replicate 8 0)) _ = _
  rw [hec]
  rfl

/-- Witness: the four bytes of the IEEE single 1.0f. -/
example : ∃ k, (cfg4 4 8).construct = .ok k ∧ (cfg4 4 8).encode k [0, 0, 0x80, 0x3f] = .ub := by
  obtain ⟨k, hk⟩ := C25_symbol4_constructible 4 (ecc := 8) (by decide)
  exact ⟨k, hk, C25_encode_large_byte_violated hk rfl ⟨0x80, by decide, by decide⟩⟩

/-! ### C24 -/

/-- Bit `b` of byte `i` of a byte string (false outside). -/
def bitAt (l : List ℕ) (i b : ℕ) : Bool := (l.getD i 0).testBit b

theorem bitAt_setBit (l : List ℕ) (i b j c : ℕ) (hi : i < l.length) :
    bitAt (setBit l i b) j c = (bitAt l j c || (decide (i = j) && decide (b = c))) := by
  unfold bitAt setBit
  rw [List.getD_eq_getElem?_getD, List.getElem?_modify, List.getD_eq_getElem?_getD]
  by_cases hij : i = j
  · subst hij
    rw [List.getElem?_eq_getElem hi]
    simp [Nat.testBit_or, Nat.one_shiftLeft, Nat.testBit_two_pow]
  · simp [hij]

theorem nested_inv {σ : Type} {m n : ℕ} {f : ℕ → ℕ → σ → σ} (I : ℕ → σ → Prop) (s : σ) (h0 : I 0 s)
    (hs : ∀ i < m, ∀ j < n, ∀ s, I (i * n + j) s → I (i * n + j + 1) (f i j s)) :
    I (m * n) (forN m (fun i s => forN n (f i) s) s) := by
  refine forN_inv (fun i s => I (i * n) s) m _ s (by simpa using h0) ?_
  intro i s hi hI
  have := forN_inv (fun j s => I (i * n + j) s) n (f i) s hI (fun j s hj h => hs i hi j hj s h)
  rw [Nat.succ_mul]
  exact this

theorem shift_and_one (x b : ℕ) : ((x >>> b) &&& 1) ≠ 0 ↔ x.testBit b = true := by
  rw [Nat.testBit, Nat.and_comm]; simp

theorem interleave_bit (d : List ℕ) : (interleave d).length = d.length ∧ ∀ j c, c < 8 →
    bitAt (interleave d) j c = (decide (8 * j + c < 8 * ((d.length + 7) / 8)) && decide (8 * j + c < d.length) &&
      bitAt d ((8 * j + c) % ((d.length + 7) / 8)) ((8 * j + c) / ((d.length + 7) / 8))) := by
  set bc := (d.length + 7) / 8 with hbc
  have key := nested_inv (m := 8) (n := bc) (f := fun bit block r =>
      let dst := bit * bc + block
      if block < d.length ∧ dst < r.length then
        if ((d.getD block 0 >>> bit) &&& 1) ≠ 0 then setBit r (dst / 8) (dst % 8) else r
      else r)
    (fun k r => r.length = d.length ∧ ∀ j c, c < 8 → bitAt r j c =
      (decide (8 * j + c < k) && decide (8 * j + c < d.length) && bitAt d ((8 * j + c) % bc) ((8 * j + c) / bc)))
    (List.replicate d.length 0) ⟨by simp, by
      intro j c _
      have : (List.replicate d.length 0).getD j 0 = 0 := by
        rw [List.getD_eq_getElem?_getD, List.getElem?_replicate]; split <;> rfl
      unfold bitAt; rw [this]; simp⟩ (by
      rintro bit hbit block hblock r ⟨hl, hv⟩
      have hdiv : (bit * bc + block) / bc = bit := by
        rw [Nat.mul_comm, Nat.mul_add_div (by omega), Nat.div_eq_of_lt hblock, Nat.add_zero]
      have hmod : (bit * bc + block) % bc = block := by
        rw [Nat.mul_comm, Nat.mul_add_mod, Nat.mod_eq_of_lt hblock]
      generalize hD : bit * bc + block = D at *
      have hbl : block < d.length := by omega
      simp only [hD]
      have hcase : ∀ j c, c < 8 → (8 * j + c = D ↔ (D / 8 = j ∧ D % 8 = c)) := by intro j c hc; omega
      by_cases hDl : D < d.length
      · rw [if_pos ⟨hbl, by omega⟩]
        by_cases hb : d[block]?.getD 0 |>.testBit bit
        · rw [if_pos ((shift_and_one _ _).mpr (by rw [List.getD_eq_getElem?_getD]; exact hb))]
          refine ⟨by simp [setBit, hl], ?_⟩
          intro j c hc
          rw [bitAt_setBit _ _ _ _ _ (by omega), hv j c hc]
          by_cases he : 8 * j + c = D
          · have := (hcase j c hc).mp he
            rw [he, hmod, hdiv]
            simp [this.1, this.2, hDl, bitAt, hb]
          · have hne : ¬ (D / 8 = j ∧ D % 8 = c) := fun h => he ((hcase j c hc).mpr h)
            have h1 : (decide (D / 8 = j) && decide (D % 8 = c)) = false := by
              rw [← Bool.decide_and]; exact decide_eq_false hne
            have h2 : decide (8 * j + c < D + 1) = decide (8 * j + c < D) := by
              apply decide_eq_decide.mpr; omega
            rw [h1, h2, Bool.or_false]
        · rw [if_neg (fun h => hb (by rw [← List.getD_eq_getElem?_getD]; exact (shift_and_one _ _).mp h))]
          refine ⟨hl, ?_⟩
          intro j c hc
          rw [hv j c hc]
          by_cases he : 8 * j + c = D
          · rw [he, hmod, hdiv]
            have hbf : bitAt d block bit = false := by unfold bitAt; simpa using hb
            simp [hbf]
          · have h2 : decide (8 * j + c < D + 1) = decide (8 * j + c < D) := by
              apply decide_eq_decide.mpr; omega
            rw [h2]
      · rw [if_neg (by omega)]
        refine ⟨hl, ?_⟩
        intro j c hc
        rw [hv j c hc]
        by_cases he : 8 * j + c < d.length
        · have h2 : decide (8 * j + c < D + 1) = decide (8 * j + c < D) := by
            apply decide_eq_decide.mpr; omega
          rw [h2]
        · simp [he])
  exact key

theorem deinterleave_bit (d : List ℕ) : (deinterleave d).length = d.length ∧ ∀ j c, c < 8 →
    bitAt (deinterleave d) j c = (decide (j < (d.length + 7) / 8) && decide (c * ((d.length + 7) / 8) + j < d.length) &&
      bitAt d ((c * ((d.length + 7) / 8) + j) / 8) ((c * ((d.length + 7) / 8) + j) % 8)) := by
  set bc := (d.length + 7) / 8 with hbc
  have key := nested_inv (m := 8) (n := bc) (f := fun bit block r =>
      let src := bit * bc + block
      if src < d.length ∧ block < r.length then
        if ((d.getD (src / 8) 0 >>> (src % 8)) &&& 1) ≠ 0 then setBit r block bit else r
      else r)
    (fun k r => r.length = d.length ∧ ∀ j c, c < 8 → bitAt r j c =
      (decide (j < bc) && decide (c * bc + j < k) && decide (c * bc + j < d.length) && bitAt d ((c * bc + j) / 8) ((c * bc + j) % 8)))
    (List.replicate d.length 0) ⟨by simp, by
      intro j c _
      have : (List.replicate d.length 0).getD j 0 = 0 := by
        rw [List.getD_eq_getElem?_getD, List.getElem?_replicate]; split <;> rfl
      unfold bitAt; rw [this]; simp⟩ (by
      rintro bit hbit block hblock r ⟨hl, hv⟩
      have hinj : ∀ j c, j < bc → (c * bc + j = bit * bc + block ↔ (block = j ∧ bit = c)) := by
        intro j c hj
        constructor
        · intro h
          have h1 : (c * bc + j) % bc = (bit * bc + block) % bc := by rw [h]
          have h2 : (c * bc + j) / bc = (bit * bc + block) / bc := by rw [h]
          rw [Nat.mul_comm c, Nat.mul_comm bit, Nat.mul_add_mod, Nat.mul_add_mod, Nat.mod_eq_of_lt hj, Nat.mod_eq_of_lt hblock] at h1
          rw [Nat.mul_comm c, Nat.mul_comm bit, Nat.mul_add_div (by omega), Nat.mul_add_div (by omega),
            Nat.div_eq_of_lt hj, Nat.div_eq_of_lt hblock] at h2
          exact ⟨h1.symm, by omega⟩
        · rintro ⟨rfl, rfl⟩; rfl
      generalize hD : bit * bc + block = D at *
      have hbl : block < d.length := by omega
      simp only [hD]
      have hstep : ∀ j c, j < bc → ¬ (c * bc + j = D) →
          decide (c * bc + j < D + 1) = decide (c * bc + j < D) := by
        intro j c _ h; apply decide_eq_decide.mpr; omega
      by_cases hDl : D < d.length
      · rw [if_pos ⟨hDl, by omega⟩]
        by_cases hb : (d.getD (D / 8) 0).testBit (D % 8) = true
        · rw [if_pos ((shift_and_one _ _).mpr hb)]
          refine ⟨by simp [setBit, hl], ?_⟩
          intro j c hc
          rw [bitAt_setBit _ _ _ _ _ (by omega), hv j c hc]
          by_cases hj : j < bc
          · by_cases he : c * bc + j = D
            · have := (hinj j c hj).mp he
              have hba : bitAt d (D / 8) (D % 8) = true := hb
              rw [he, hba]
              simp [this.1, this.2, hDl, hj]
            · have hne : ¬ (block = j ∧ bit = c) := fun h => he ((hinj j c hj).mpr h)
              have h1 : (decide (block = j) && decide (bit = c)) = false := by
                rw [← Bool.decide_and]; exact decide_eq_false hne
              rw [h1, hstep j c hj he, Bool.or_false]
          · have : block ≠ j := by omega
            simp [hj, this]
        · rw [if_neg (fun h => hb ((shift_and_one _ _).mp h))]
          refine ⟨hl, ?_⟩
          intro j c hc
          rw [hv j c hc]
          by_cases hj : j < bc
          · by_cases he : c * bc + j = D
            · rw [he]
              have hbf : bitAt d (D / 8) (D % 8) = false := by unfold bitAt; simpa using hb
              simp [hbf]
            · rw [hstep j c hj he]
          · simp [hj]
      · rw [if_neg (by omega)]
        refine ⟨hl, ?_⟩
        intro j c hc
        rw [hv j c hc]
        by_cases hj : j < bc
        · by_cases he : c * bc + j = D
          · rw [he]; simp [hDl]
          · rw [hstep j c hj he]
        · simp [hj])
  obtain ⟨k1, k2⟩ := key
  refine ⟨k1, ?_⟩
  intro j c hc
  refine (k2 j c hc).trans ?_
  by_cases hj : j < bc
  · have : c * bc + j < 8 * bc := by
      calc c * bc + j < c * bc + bc := by omega
        _ = (c + 1) * bc := by ring
        _ ≤ 8 * bc := Nat.mul_le_mul_right _ (by omega)
    simp [hj, this]
  · simp [hj]

/-- **C24 (what really survives, partial).** For every byte string of `n` bytes, `deinterleave(interleave(d))` has `n`
bytes, and bit `b` of byte `i` survives exactly when `i < ⌈n/8⌉` and `b·⌈n/8⌉ + i < n`; every other bit is cleared. -/
theorem C24_roundtrip_exact_partial (d : List ℕ) : (deinterleave (interleave d)).length = d.length ∧
    ∀ i b, b < 8 → bitAt (deinterleave (interleave d)) i b =
      (decide (i < (d.length + 7) / 8 ∧ b * ((d.length + 7) / 8) + i < d.length) && bitAt d i b) := by
  obtain ⟨h1, h2⟩ := interleave_bit d
  obtain ⟨h3, h4⟩ := deinterleave_bit (interleave d)
  rw [h1] at h3 h4
  refine ⟨h3, ?_⟩
  intro i b hb
  rw [h4 i b hb]
  set bc := (d.length + 7) / 8
  by_cases hi : i < bc
  · by_cases hs : b * bc + i < d.length
    · rw [h2 _ _ (Nat.mod_lt _ (by norm_num))]
      have e : 8 * ((b * bc + i) / 8) + (b * bc + i) % 8 = b * bc + i := Nat.div_add_mod _ _
      rw [e]
      have hmod : (b * bc + i) % bc = i := by rw [Nat.mul_comm, Nat.mul_add_mod, Nat.mod_eq_of_lt hi]
      have hdiv : (b * bc + i) / bc = b := by
        rw [Nat.mul_comm, Nat.mul_add_div (by omega), Nat.div_eq_of_lt hi, Nat.add_zero]
      have h8 : b * bc + i < 8 * bc := by
        calc b * bc + i < b * bc + bc := by omega
          _ = (b + 1) * bc := by ring
          _ ≤ 8 * bc := Nat.mul_le_mul_right _ (by omega)
      rw [hmod, hdiv]
      simp [hi, hs, h8]
    · simp [hs]
  · simp [hi]

/-- **C24 (violated).** Already a single byte does not survive the round trip, and for longer strings all bytes
after the first `⌈n/8⌉` are lost. -/
theorem C24_roundtrip_violated : deinterleave (interleave [2]) = [0] ∧
    deinterleave (interleave [1, 2, 3, 255, 6, 7, 8, 9]) = [1, 0, 0, 0, 0, 0, 0, 0] := by decide +kernel

/-- **C24 (violated, general).** Every byte string with a nonzero byte at index `⌈n/8⌉` or later is changed. -/
theorem C24_tail_lost_violated (d : List ℕ) (i b : ℕ) (hb : b < 8) (hbit : bitAt d i b = true)
    (hi : (d.length + 7) / 8 ≤ i) : deinterleave (interleave d) ≠ d := by
  intro e
  have := (C24_roundtrip_exact_partial d).2 i b hb
  rw [e, hbit] at this
  simp at this
  omega

example : bitAt [1, 2, 3] 2 1 = true ∧ ([1, 2, 3].length + 7) / 8 ≤ 2 := by decide

end Verif.Props.Rs
