import Verif.Props.MultibitRs
/-!
Property C64: life cycle of a `MultibitProtection` object — writing, reading back, marking invalid.
-/
namespace Verif.Props.Multibit
open Verif Verif.Multibit

theorem posXor_zero : posXor 0#32 = 0 := by decide

/-- **C64 (write then read).** After `setValue(v)` on any object (whatever its scheme, check bytes, value and validity
flag) no error is reported, the object is valid, `correctErrors` succeeds without changing it and `getValue` returns
`v` without changing it. -/
theorem C64_write_read (o : Obj) (v : Word) :
    (o.setValue v).hasError = false ∧ (o.setValue v).isValid = true ∧
    (o.setValue v).correctErrors = (true, o.setValue v) ∧ (o.setValue v).getValue = (v, o.setValue v) := by
  have hv : (o.setValue v).value = v := by
    unfold Obj.setValue Obj.updateECC
    cases o.scheme <;> rfl
  have hvalid : (o.setValue v).valid = true := by
    unfold Obj.setValue Obj.updateECC
    cases o.scheme <;> rfl
  have hsch : (o.setValue v).scheme = o.scheme := by
    unfold Obj.setValue Obj.updateECC
    cases o.scheme <;> rfl
  have he : (o.setValue v).hasError = false := by
    unfold Obj.hasError
    rw [hvalid, hsch]
    cases hs : o.scheme with
    | none => rfl
    | hamming =>
      simp only [Obj.checkHamming, hv, Bool.not_true, Bool.false_eq_true, if_false]
      rw [List.any_eq_false]
      intro i hi
      rw [List.mem_range] at hi
      simp [Obj.setValue, Obj.updateECC, hs, hi]
    | secded =>
      simp only [Obj.checkHamming, hv, Bool.not_true, Bool.false_eq_true, if_false]
      rw [List.any_eq_false]
      intro i hi
      rw [List.mem_range] at hi
      simp [Obj.setValue, Obj.updateECC, hs, hi]
    | reedSolomon =>
      have hb : ∀ k, k < 8 → (o.setValue v).ecc k = rsBytes v k := by
        intro k hk
        simp [Obj.setValue, Obj.updateECC, hs, hk]
      have := (rs_hasError (o.setValue v) (hsch.trans hs) hvalid).mpr (fun k hk => by rw [hb k hk, hv])
      unfold Obj.hasError at this
      rw [hvalid, hsch, hs] at this
      exact this
  refine ⟨he, by simp [Obj.isValid, he, hvalid], ?_, ?_⟩
  · unfold Obj.correctErrors; rw [he]; rfl
  · unfold Obj.getValue; rw [he, hv]; rfl

/-- **C64 (invalidation).** After `markInvalid()` an object reports an error and is not valid, whatever its state; writing
a value makes it valid again. -/
theorem C64_invalid (o : Obj) (v : Word) :
    o.markInvalid.hasError = true ∧ o.markInvalid.isValid = false ∧ (o.markInvalid.setValue v).isValid = true := by
  refine ⟨rfl, rfl, (C64_write_read _ v).2.1⟩

/-- **C64 (validity).** An object with a detected error is not valid; one without is valid. -/
theorem C64_valid_iff_no_error (o : Obj) : o.isValid = !o.hasError := by
  unfold Obj.isValid
  cases hv : o.valid
  · unfold Obj.hasError; simp [hv]
  · simp

/-- **C64 (invalidation preserves the value).** Marking an intact object invalid never makes `getValue` return anything
but the value written last, under every scheme: the correction it triggers finds nothing to change. -/
theorem C64_invalid_value (o : Obj) (v : Word) : ((o.setValue v).markInvalid.getValue).1 = v := by
  have he : (o.setValue v).markInvalid.hasError = true := rfl
  rw [getValue_of _ he, setValue_eq]
  cases hs : o.scheme with
  | none => rfl
  | hamming =>
    have hsyn : syndrome (parityBytes v) (Obj.mk' o.ecc v .hamming).ecc = 0 := by
      have := syn_ham o.ecc v 0#32 (Or.inl rfl) (parityBytes v) (by
        intro j hj; rw [BitVec.xor_zero]; exact parityBytes_eq v j hj)
      simpa [upset, posXor_zero] using this
    have hc : ∀ p : Obj, p.scheme = .hamming → p.hasError = true → p.correctErrors = p.correctHamming := by
      intro p hp h; unfold Obj.correctErrors; rw [h, hp]; rfl
    rw [hc _ rfl rfl]
    unfold Obj.correctHamming
    have : syndrome (parityBytes ((Obj.mk' o.ecc v .hamming).markInvalid).value) ((Obj.mk' o.ecc v .hamming).markInvalid).ecc = 0 := hsyn
    simp only [this]
    rfl
  | secded =>
    have hc : ∀ p : Obj, p.scheme = .secded → p.hasError = true → p.correctErrors = p.correctSecded := by
      intro p hp h; unfold Obj.correctErrors; rw [h, hp]; rfl
    rw [hc _ rfl rfl]
    unfold Obj.correctSecded
    have h6 : ((Obj.mk' o.ecc v .secded).markInvalid).ecc 6 = hammingBytes v 6 := rfl
    have hsyn : syndrome (hammingBytes v) (Obj.mk' o.ecc v .secded).ecc = 0 := by
      have := syn_ham o.ecc v 0#32 (Or.inr rfl) (hammingBytes v) (by
        intro j hj; rw [BitVec.xor_zero]; exact hammingBytes_lt v j hj)
      simpa [upset, posXor_zero] using this
    have : syndrome (hammingBytes ((Obj.mk' o.ecc v .secded).markInvalid).value) ((Obj.mk' o.ecc v .secded).markInvalid).ecc = 0 := hsyn
    simp only [this, h6]
    have hval : ((Obj.mk' o.ecc v .secded).markInvalid).value = v := rfl
    simp [hval]
  | reedSolomon =>
    have hc : ∀ p : Obj, p.scheme = .reedSolomon → p.hasError = true → p.correctErrors = p.correctRS := by
      intro p hp h; unfold Obj.correctErrors; rw [h, hp]; rfl
    rw [hc _ rfl rfl]
    have hval : ((Obj.mk' o.ecc v .reedSolomon).markInvalid).value = v := rfl
    have htr : ∀ t, ((Obj.mk' o.ecc v .reedSolomon).markInvalid).trialOk t = (rsObj o.ecc v v).trialOk t := fun _ => rfl
    rw [correctRS_some _ v 0 (byteOf v 0) (by omega) ?_ (by rw [htr]; exact (rs_trial o.ecc v v v).mpr ⟨rfl, rfl, rfl, rfl⟩) ?_]
    · rw [hval]
      apply word_ext
      intro m hm
      rw [byteOf_setByte v 0 m (by omega) hm]
      by_cases e : m = 0
      · rw [if_pos e, e]
      · rw [if_neg e]
    · intro i b hi hok
      rw [htr] at hok
      rw [hval]
      obtain ⟨c0, c1, c2, _⟩ := (rs_trial o.ecc v v _).mp hok
      obtain ⟨p, q, hp, hq, hpq, p1, q1⟩ : ∃ p q, p < 4 ∧ q < 4 ∧ p ≠ q ∧ p ≠ i ∧ q ≠ i := by
        have : ∀ i : Fin 4, ∃ p q : Fin 4, p ≠ q ∧ p ≠ i ∧ q ≠ i := by decide
        obtain ⟨p, q, h1, h2, h3⟩ := this ⟨i, hi⟩
        exact ⟨p, q, p.isLt, q.isLt, fun e => h1 (Fin.ext e), fun e => h2 (Fin.ext e), fun e => h3 (Fin.ext e)⟩
      have hb : ∀ m, m < 4 → m ≠ i → byteOf (setByte v i b) m = byteOf v m := by
        intro m hm hmi
        rw [byteOf_setByte v i m hi hm, if_neg hmi]
      exact two_bytes c0 c1 c2 hp hq hpq (hb p hp p1) (hb q hq q1)

/-- Concrete object: a SECDED object with arbitrary junk check bytes. -/
example : (((Obj.mk 7#32 .secded (fun _ => 0xAA#8) false).setValue 0x3f800000#32).markInvalid.getValue).1 = 0x3f800000#32 ∧
    ((Obj.mk 7#32 .secded (fun _ => 0xAA#8) false).setValue 0x3f800000#32).hasError = false := by
  exact ⟨C64_invalid_value _ _, (C64_write_read _ _).1⟩

end Verif.Props.Multibit
