import Verif.Model.Crc
import Verif.Spec.Bytes
import Verif.Lemmas.Bits
/-! Linearity and injectivity of the CRC bit step. -/
namespace Verif
open Verif.Spec Verif.Crc

theorem neg_and_one (c : BitVec 32) :
    -(c &&& 1#32) = if c.getLsbD 0 then BitVec.allOnes 32 else 0#32 := by
  have h : c &&& 1#32 = if c.getLsbD 0 then 1#32 else 0#32 := by
    apply BitVec.eq_of_getLsbD_eq
    intro i _
    rw [BitVec.getLsbD_and, BitVec.getLsbD_one]
    by_cases hi : i = 0
    · subst hi; cases c.getLsbD 0 <;> decide
    · cases c.getLsbD 0 <;> simp [hi]
  rw [h]
  cases c.getLsbD 0 <;> decide

theorem getLsbD_bitStep (c : BitVec 32) (j : Nat) :
    (bitStep c).getLsbD j = (c.getLsbD (j + 1) ^^ (c.getLsbD 0 && (0xEDB88320#32).getLsbD j)) := by
  unfold bitStep
  rw [neg_and_one, BitVec.getLsbD_xor, BitVec.getLsbD_ushiftRight, BitVec.getLsbD_and,
    Nat.add_comm 1 j]
  cases h : c.getLsbD 0
  · simp
  · by_cases hj : j < 32
    · simp only [if_true, BitVec.getLsbD_allOnes, hj, decide_true, Bool.and_true, Bool.true_and]
    · have : (0xEDB88320#32).getLsbD j = false := BitVec.getLsbD_of_ge _ _ (by omega)
      simp only [this, Bool.false_and, Bool.and_false]

theorem bitStep_xor (c d : BitVec 32) : bitStep (c ^^^ d) = bitStep c ^^^ bitStep d := by
  apply BitVec.eq_of_getLsbD_eq
  intro j _
  simp only [getLsbD_bitStep, BitVec.getLsbD_xor]
  cases c.getLsbD (j + 1) <;> cases d.getLsbD (j + 1) <;> cases c.getLsbD 0 <;> cases d.getLsbD 0 <;>
    cases (0xEDB88320#32).getLsbD j <;> rfl

/-- If the top bit of `bitStep d` is clear, `d` is just the result shifted left. -/
theorem bitStep_top_clear {d e : BitVec 32} (h : bitStep d = e) (he : e.getLsbD 31 = false) :
    d = e <<< 1 := by
  have h31 := getLsbD_bitStep d 31
  rw [h, he] at h31
  have htop : (0xEDB88320#32).getLsbD 31 = true := by decide
  have hz : d.getLsbD 32 = false := BitVec.getLsbD_of_ge _ _ (by omega)
  rw [htop, hz] at h31
  have h0 : d.getLsbD 0 = false := by simpa using h31.symm
  apply BitVec.eq_of_getLsbD_eq
  intro i hi
  rw [BitVec.getLsbD_shiftLeft]
  cases i with
  | zero => rw [h0]; simp
  | succ i =>
    rw [← h, Nat.add_sub_cancel, getLsbD_bitStep, h0]
    simp [hi]

theorem bitStep_shiftLeft {e : BitVec 32} (he : e.getLsbD 31 = false) : bitStep (e <<< 1) = e := by
  apply BitVec.eq_of_getLsbD_eq
  intro i hi
  rw [getLsbD_bitStep, BitVec.getLsbD_shiftLeft, BitVec.getLsbD_shiftLeft]
  simp only [Nat.add_sub_cancel]
  by_cases h : i + 1 < 32
  · simp [h]
  · have : i = 31 := by omega
    subst this; rw [he]; simp

theorem bitStep_eq_zero {d : BitVec 32} (h : bitStep d = 0#32) : d = 0#32 := by
  have := bitStep_top_clear h (by decide)
  rw [this]; decide

theorem bitStep_inj {c d : BitVec 32} (h : bitStep c = bitStep d) : c = d := by
  have : bitStep (c ^^^ d) = 0#32 := by rw [bitStep_xor, h]; simp
  exact xor_eq_zero_iff'.mp (bitStep_eq_zero this)

/-! ### The CRC as a bit-serial machine -/

def bvOfBool (b : Bool) : BitVec 32 := if b then 1#32 else 0#32

theorem getLsbD_bvOfBool (b : Bool) (j : Nat) : (bvOfBool b).getLsbD j = (decide (j = 0) && b) := by
  cases b with
  | false => simp [bvOfBool]
  | true => simp [bvOfBool, BitVec.getLsbD_one]

def serialStep (c : BitVec 32) (b : Bool) : BitVec 32 := bitStep (c ^^^ bvOfBool b)

/-- First bit is the least significant. -/
def word : List Bool → BitVec 32
  | [] => 0#32
  | b :: t => (word t <<< 1) ^^^ bvOfBool b

theorem getLsbD_word (t : List Bool) (j : Nat) (hj : j < 32) :
    (word t).getLsbD j = t.getD j false := by
  induction t generalizing j with
  | nil => simp [word]
  | cons b t ih =>
    rw [word, BitVec.getLsbD_xor, getLsbD_bvOfBool, BitVec.getLsbD_shiftLeft]
    cases j with
    | zero => simp
    | succ j =>
      rw [Nat.add_sub_cancel, ih j (by omega)]
      simp [hj]

theorem word_top {t : List Bool} (h : t.length ≤ 31) : (word t).getLsbD 31 = false := by
  rw [getLsbD_word t 31 (by omega)]
  simp [List.getD_eq_getElem?_getD, List.getElem?_eq_none (show t.length ≤ 31 from h)]

theorem iter_bitStep_serial (t : List Bool) (ht : t.length ≤ 32) (c : BitVec 32) :
    t.foldl serialStep c = Nat.repeat bitStep t.length (c ^^^ word t) := by
  induction t generalizing c with
  | nil => simp [word, Nat.repeat]
  | cons b t ih =>
    simp only [List.length_cons] at ht
    rw [List.foldl_cons, ih (by omega), List.length_cons]
    have h1 : serialStep c b ^^^ word t = bitStep (c ^^^ word (b :: t)) := by
      have e1 : c ^^^ word (b :: t) = (c ^^^ bvOfBool b) ^^^ (word t <<< 1) := by
        rw [word, BitVec.xor_comm (word t <<< 1), BitVec.xor_assoc]
      rw [e1, bitStep_xor, bitStep_shiftLeft (word_top (by omega))]
      rfl
    rw [h1]
    have comm : ∀ n (x : BitVec 32), Nat.repeat bitStep n (bitStep x) = Nat.repeat bitStep (n + 1) x := by
      intro n
      induction n with
      | zero => intro x; rfl
      | succ n ihn => intro x; simp only [Nat.repeat] at *; rw [ihn]
    exact comm _ _

theorem forN_const {α : Type _} (f : α → α) (n : Nat) (x : α) :
    forN n (fun _ c => f c) x = Nat.repeat f n x := by
  induction n with
  | zero => rfl
  | succ n ih => simp only [forN, Nat.repeat, ih]

theorem word_bitsOfByte (b : BitVec 8) : word (bitsOfByte b) = b.setWidth 32 := by
  apply BitVec.eq_of_getLsbD_eq
  intro i hi
  rw [getLsbD_word _ _ hi, BitVec.getLsbD_setWidth]
  simp only [hi, decide_true, Bool.true_and]
  rcases Nat.lt_or_ge i 8 with h | h
  · have : i = 0 ∨ i = 1 ∨ i = 2 ∨ i = 3 ∨ i = 4 ∨ i = 5 ∨ i = 6 ∨ i = 7 := by omega
    rcases this with h | h | h | h | h | h | h | h <;> subst h <;> rfl
  · rw [BitVec.getLsbD_of_ge _ _ h]
    rw [List.getD_eq_getElem?_getD, List.getElem?_eq_none (by simpa [bitsOfByte] using h)]
    rfl

theorem byteStep_serial (c : BitVec 32) (b : BitVec 8) :
    byteStep c b = (bitsOfByte b).foldl serialStep c := by
  unfold byteStep
  rw [iter_bitStep_serial _ (by simp [bitsOfByte]), word_bitsOfByte, forN_const]
  rfl

theorem foldl_byteStep_serial (data : List (BitVec 8)) (c : BitVec 32) :
    data.foldl byteStep c = (bitsOf data).foldl serialStep c := by
  induction data generalizing c with
  | nil => rfl
  | cons b bs ih => rw [List.foldl_cons, ih, bitsOf, List.foldl_append, byteStep_serial]

theorem serial_inj (t : List Bool) {c d : BitVec 32}
    (h : t.foldl serialStep c = t.foldl serialStep d) : c = d := by
  induction t generalizing c d with
  | nil => exact h
  | cons b t ih =>
    have := bitStep_inj (ih h)
    have h2 := congrArg (fun z => z ^^^ bvOfBool b) this
    simpa [BitVec.xor_assoc] using h2

theorem serial_window {w₁ w₂ : List Bool} (hl : w₁.length = w₂.length) (h32 : w₁.length ≤ 32)
    (c : BitVec 32) (h : w₁.foldl serialStep c = w₂.foldl serialStep c) : w₁ = w₂ := by
  rw [iter_bitStep_serial _ h32, iter_bitStep_serial _ (by omega), ← hl] at h
  have rep_inj : ∀ n (x y : BitVec 32), Nat.repeat bitStep n x = Nat.repeat bitStep n y → x = y := by
    intro n
    induction n with
    | zero => intro x y h; exact h
    | succ n ih => intro x y h; exact ih x y (bitStep_inj h)
  have h2 := rep_inj _ _ _ h
  have h3 : word w₁ = word w₂ := by
    have := congrArg (fun z => c ^^^ z) h2
    simpa [← BitVec.xor_assoc] using this
  apply List.ext_getElem hl
  intro i hi1 hi2
  have h4 := getLsbD_word w₁ i (by omega)
  rw [h3, getLsbD_word w₂ i (by omega)] at h4
  simp only [List.getD_eq_getElem?_getD, List.getElem?_eq_getElem hi1, List.getElem?_eq_getElem hi2,
    Option.getD_some] at h4
  exact h4.symm

theorem crc32_burst {x y : List (BitVec 8)} (h : BurstDiffer 32 x y) : crc32 x ≠ crc32 y := by
  obtain ⟨p, w₁, w₂, s, hx, hy, hl, h32, hne⟩ := h
  intro hc
  apply hne
  unfold crc32 at hc
  have hc := BitVec.not_inj.mp hc
  rw [foldl_byteStep_serial, foldl_byteStep_serial, hx, hy] at hc
  simp only [List.foldl_append] at hc
  exact serial_window hl h32 _ (serial_inj s hc)

theorem bitsOf_append (x y : List (BitVec 8)) : bitsOf (x ++ y) = bitsOf x ++ bitsOf y := by
  induction x with
  | nil => rfl
  | cons b bs ih => simp [bitsOf, ih]

theorem length_bitsOf (x : List (BitVec 8)) : (bitsOf x).length = 8 * x.length := by
  induction x with
  | nil => rfl
  | cons b bs ih => simp [bitsOf, bitsOfByte, ih]; omega

theorem bitsOfByte_inj {a b : BitVec 8} (h : bitsOfByte a = bitsOfByte b) : a = b := by
  simp only [bitsOfByte, List.cons.injEq, and_true] at h
  apply BitVec.eq_of_getLsbD_eq
  intro i hi
  have : i = 0 ∨ i = 1 ∨ i = 2 ∨ i = 3 ∨ i = 4 ∨ i = 5 ∨ i = 6 ∨ i = 7 := by omega
  rcases this with h' | h' | h' | h' | h' | h' | h' | h' <;> subst h' <;> simp only [h]

theorem bitsOf_inj {x y : List (BitVec 8)} (h : bitsOf x = bitsOf y) : x = y := by
  induction x generalizing y with
  | nil =>
    cases y with
    | nil => rfl
    | cons b bs => have := congrArg List.length h; simp [bitsOf, bitsOfByte] at this
  | cons a as ih =>
    cases y with
    | nil => have := congrArg List.length h; simp [bitsOf, bitsOfByte] at this
    | cons b bs =>
      simp only [bitsOf] at h
      have h2 := List.append_inj h (by simp [bitsOfByte])
      rw [bitsOfByte_inj h2.1, ih h2.2]

/-- Byte-aligned windows are bursts. -/
theorem burst_of_bytes {p w₁ w₂ s : List (BitVec 8)} (hl : w₁.length = w₂.length)
    (h4 : w₁.length ≤ 4) (hne : w₁ ≠ w₂) : BurstDiffer 32 (p ++ w₁ ++ s) (p ++ w₂ ++ s) := by
  refine ⟨bitsOf p, bitsOf w₁, bitsOf w₂, bitsOf s, ?_, ?_, ?_, ?_, ?_⟩
  · simp [bitsOf_append]
  · simp [bitsOf_append]
  · rw [length_bitsOf, length_bitsOf, hl]
  · rw [length_bitsOf]; omega
  · intro h; exact hne (bitsOf_inj h)

/-! ### Values and their bytes -/

theorem length_bytesOf {w n : Nat} (x : BitVec w) : (bytesOf n x).length = n := by
  simp [bytesOf]

theorem bytesOf_inj {n : Nat} {x y : BitVec (8 * n)} (h : bytesOf n x = bytesOf n y) : x = y := by
  apply BitVec.eq_of_getLsbD_eq
  intro i hi
  have h1 := congrArg (fun l => l[i / 8]?) h
  simp only [bytesOf, List.getElem?_map] at h1
  have hlt : i / 8 < n := by omega
  rw [List.getElem?_range hlt] at h1
  simp only [Option.map_some, Option.some.injEq] at h1
  have h2 := congrArg (fun z => z.getLsbD (i % 8)) h1
  simp only [BitVec.getLsbD_setWidth, BitVec.getLsbD_ushiftRight] at h2
  have h3 : i % 8 < 8 := Nat.mod_lt _ (by omega)
  have h4 : 8 * (i / 8) + i % 8 = i := Nat.div_add_mod i 8
  simpa [h3, h4] using h2

theorem crcOfValue_inj {n : Nat} (hn : n ≤ 4) {x y : BitVec (8 * n)}
    (h : crcOfValue n x = crcOfValue n y) : x = y := by
  by_cases hxy : x = y
  · exact hxy
  · exfalso
    have hne : bytesOf n x ≠ bytesOf n y := fun h => hxy (bytesOf_inj h)
    have := burst_of_bytes (p := []) (s := []) (w₁ := bytesOf n x) (w₂ := bytesOf n y)
      (by rw [length_bytesOf, length_bytesOf]) (by rw [length_bytesOf]; exact hn) hne
    simp only [List.nil_append, List.append_nil] at this
    exact crc32_burst this h

/-! ### Table-driven variants -/

theorem repeat_bitStep_xor (n : Nat) (c d : BitVec 32) :
    Nat.repeat bitStep n (c ^^^ d) = Nat.repeat bitStep n c ^^^ Nat.repeat bitStep n d := by
  induction n with
  | zero => rfl
  | succ n ih => simp only [Nat.repeat, ih, bitStep_xor]

theorem bitStep_low_clear {d : BitVec 32} (h : d.getLsbD 0 = false) : bitStep d = d >>> 1 := by
  apply BitVec.eq_of_getLsbD_eq
  intro i _
  rw [getLsbD_bitStep, h, BitVec.getLsbD_ushiftRight, Nat.add_comm]; simp

theorem repeat_bitStep_low_clear (n : Nat) (d : BitVec 32) (h : ∀ i, i < n → d.getLsbD i = false) :
    Nat.repeat bitStep n d = d >>> n := by
  induction n with
  | zero => simp [Nat.repeat]
  | succ n ih =>
    simp only [Nat.repeat]
    rw [ih (fun i hi => h i (by omega)), bitStep_low_clear, BitVec.shiftRight_add]
    rw [BitVec.getLsbD_ushiftRight]; exact h n (by omega)

/-- Any table whose entry `i` is eight bit steps of `i` gives the bitwise CRC. -/
theorem tableStep_eq (table : List (BitVec 32))
    (ht : ∀ i, i < 256 → table.getD i 0#32 = Nat.repeat bitStep 8 (BitVec.ofNat 32 i))
    (c : BitVec 32) (b : BitVec 8) : tableStep table c b = byteStep c b := by
  unfold tableStep byteStep
  rw [forN_const]
  have hlow : ((c ^^^ b.setWidth 32) &&& 0xFF#32).toNat < 256 := by
    rw [BitVec.toNat_and]
    exact Nat.lt_of_le_of_lt Nat.and_le_right (by decide)
  rw [ht _ hlow]
  have h1 : BitVec.ofNat 32 ((c ^^^ b.setWidth 32) &&& 0xFF#32).toNat
      = (c ^^^ b.setWidth 32) &&& 0xFF#32 := BitVec.ofNat_toNat .. |>.trans (BitVec.setWidth_eq _)
  rw [h1]
  have hff : ∀ i, i < 32 → (0xFF#32).getLsbD i = decide (i < 8) := by decide
  have hsplit : c ^^^ b.setWidth 32 = (c &&& ~~~0xFF#32) ^^^ ((c ^^^ b.setWidth 32) &&& 0xFF#32) := by
    apply BitVec.eq_of_getLsbD_eq
    intro i hi
    simp only [BitVec.getLsbD_xor, BitVec.getLsbD_and, BitVec.getLsbD_not, BitVec.getLsbD_setWidth,
      hff i hi, hi, decide_true, Bool.true_and]
    by_cases h8 : i < 8
    · simp [h8]
    · rw [BitVec.getLsbD_of_ge b i (by omega)]; simp [h8]
  conv => rhs; rw [hsplit]
  rw [repeat_bitStep_xor, repeat_bitStep_low_clear 8 (c &&& ~~~0xFF#32)]
  · congr 1
    apply BitVec.eq_of_getLsbD_eq
    intro i hi
    simp only [BitVec.getLsbD_ushiftRight, BitVec.getLsbD_and, BitVec.getLsbD_not]
    by_cases h : 8 + i < 32
    · rw [hff _ h]; simp [h]
    · rw [BitVec.getLsbD_of_ge c (8 + i) (by omega)]; simp
  · intro i hi
    simp only [BitVec.getLsbD_and, BitVec.getLsbD_not, hff i (by omega), hi, decide_true]
    simp

theorem crc32Table_eq (table : List (BitVec 32))
    (ht : ∀ i, i < 256 → table.getD i 0#32 = Nat.repeat bitStep 8 (BitVec.ofNat 32 i))
    (data : List (BitVec 8)) : crc32Table table data = crc32 data := by
  unfold crc32Table crc32
  congr 1
  generalize 0xFFFFFFFF#32 = c
  induction data generalizing c with
  | nil => rfl
  | cons b bs ih => rw [List.foldl_cons, List.foldl_cons, tableStep_eq table ht, ih]

theorem scrubbingTable_ok :
    ∀ i, i < 256 → scrubbingTable.getD i 0#32 = Nat.repeat bitStep 8 (BitVec.ofNat 32 i) := by
  decide +kernel

theorem bitStepCond_eq (c : BitVec 32) : bitStepCond c = bitStep c := by
  unfold bitStepCond bitStep
  rw [neg_and_one]
  have h := shiftRight_and_one_eq_zero c 0
  simp only [BitVec.ushiftRight_zero] at h
  cases h0 : c.getLsbD 0
  · rw [if_neg (fun hn => hn (h.mpr h0))]; simp
  · rw [if_pos (by intro h1; rw [h.mp h1] at h0; cases h0)]; simp

theorem genStep_eq (c : BitVec 32) : genStep c = bitStep c := by
  rw [← bitStepCond_eq]
  unfold genStep bitStepCond
  split
  · exact BitVec.xor_comm _ _
  · simp

theorem crc32Unified_eq (data : List (BitVec 8)) : crc32Unified data = crc32 data := by
  unfold crc32Unified crc32
  congr 1
  congr 1
  funext c b
  unfold byteStep
  simp only [bitStepCond_eq]

theorem generatedTable_ok :
    ∀ i, i < 256 → generatedTable.getD i 0#32 = Nat.repeat bitStep 8 (BitVec.ofNat 32 i) := by
  intro i hi
  unfold generatedTable
  rw [List.getD_eq_getElem?_getD, List.getElem?_map, List.getElem?_range hi]
  simp only [Option.map_some, Option.getD_some, genStep_eq]
  exact forN_const _ _ _

end Verif
