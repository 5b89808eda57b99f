import Verif.Lemmas.Ints
/-
  C13 checked conversion, C14 checked arithmetic, C15 big-endian fields.
-/
namespace VPdf

/-- **C13**, soundness: a checked conversion that returns, returns the same mathematical value, and that value
belongs to the destination type; otherwise it reports a conversion error. -/
theorem C13_value_preserved (r v : IntTy) (hr : 1 ≤ r.bits) (hv : 1 ≤ v.bits) (x : Int) (h : Spec.Fits v x) :
    (safeConvert r v x = .ok x ∧ Spec.Fits r x) ∨ safeConvert r v x = .error .conversion := by
  unfold safeConvert
  by_cases hc : isInRange r v x = true
  · left
    have := (isInRange_iff r v hr hv x h).1 hc
    rw [if_pos hc, cast_of_fits r hr x this.1]
    exact ⟨rfl, this.1⟩
  · right; rw [if_neg hc]

example : safeConvert .u8 .i32 200 = .ok 200 ∧ safeConvert .u8 .i32 (-1) = .error .conversion ∧
    safeConvert .i8 .i64 (-128) = .ok (-128) ∧ Spec.Fits .i64 (-128) := by decide

/-- **C13**, completeness.  Full statement: an error is reported only when the value does not fit.  Missing: the
largest value of a signed destination converted from an unsigned type, see `C13_maximum_counterexample`. -/
theorem C13_error_only_if_unfit_partial (r v : IntTy) (hr : 1 ≤ r.bits) (hv : 1 ≤ v.bits) (x : Int)
    (h : Spec.Fits v x) (hfit : Spec.Fits r x) (hne : ¬ (r.signed = true ∧ v.signed = false ∧ x = r.max)) :
    safeConvert r v x = .ok x := by
  unfold safeConvert
  rw [if_pos ((isInRange_iff r v hr hv x h).2 ⟨hfit, hne⟩), cast_of_fits r hr x hfit]

example : safeConvert .i64 .u64 (2 ^ 63 - 2) = .ok (2 ^ 63 - 2) :=
  C13_error_only_if_unfit_partial .i64 .u64 (by decide) (by decide) _ (by decide) (by decide) (by decide)

/-- **C13** is false at the top of every signed destination: its largest value is refused when it comes from an
unsigned type that can hold it (conversion_utils.h:92 uses `>` for `>=`). -/
theorem C13_maximum_counterexample (r v : IntTy) (hr : 1 ≤ r.bits) (hv : r.bits ≤ v.bits) (hrs : r.signed = true)
    (hvs : v.signed = false) :
    Spec.Fits v r.max ∧ Spec.Fits r r.max ∧ safeConvert r v r.max = .error .conversion := by
  have hp := pow_pred hr
  have hle : 2 ^ r.bits ≤ 2 ^ v.bits := Nat.pow_le_pow_right (by decide) hv
  have hq := two_pow_pos (r.bits - 1)
  have hf : Spec.Fits v r.max := by
    rw [fits_iff]; simp only [IntTy.lowest, IntTy.max, hvs, hrs, if_true, Bool.false_eq_true, if_false]; omega
  refine ⟨hf, ?_, ?_⟩
  · rw [fits_iff]; simp only [IntTy.lowest, IntTy.max, hrs, if_true]; omega
  · unfold safeConvert
    rw [if_neg]
    rw [isInRange_iff r v hr (by omega) _ hf]
    simp [hrs, hvs]

example : safeConvert .i64 .u64 9223372036854775807 = .error .conversion :=
  (C13_maximum_counterexample .i64 .u64 (by decide) (by decide) rfl rfl).2.2

/-- **C14**, addition: with an unsigned destination and first operand, a checked addition returns the mathematical
sum or reports an error.  The addend may be unsigned, or signed and not wider than the first operand (the calls
`SafeAddition<uint32_t>(x, 7)` and `SafeAddition<big_uint, big_uint, int>(x, i)` of the library); it must not be
wider than the destination, see `C14_narrow_destination_counterexample`. -/
theorem C14_addition_exact (r a b : IntTy) (hr : Spec.Builtin r) (ha : Spec.Builtin a) (hb : Spec.Builtin b)
    (hru : r.signed = false) (hau : a.signed = false)
    (hc : b.signed = false ∨ (32 ≤ a.bits ∧ b.bits ≤ a.bits)) (hbr : b.bits ≤ r.bits)
    (n m : Int) (hn : Spec.Fits a n) (hm : Spec.Fits b m) (hm0 : 0 ≤ m) :
    (safeAddition r a b n m = .ok (n + m) ∧ Spec.Fits r (n + m)) ∨ safeAddition r a b n m = .error .conversion := by
  have hn0 : 0 ≤ n := ((fits_unsigned hau).1 hn).1
  obtain ⟨k, s, h1, h2, h3, _, _⟩ := safeAdd_sum r a b ha hb hru hau hc hbr n m hn hm hm0
  have hi : Spec.Builtin IntTy.i32 := by decide
  have hlt1 : cppLt a IntTy.i32 n 0 = false := by
    rw [cppLt_nonneg ha hi hn0 (by omega) hn (by decide)]; simp; omega
  have hf := cast_fits_unsigned hru s
  have hr0 : 0 ≤ r.cast s := ((fits_unsigned hru).1 hf).1
  have hlt2 : cppLt r a (r.cast s) n = decide (r.cast s < n) := cppLt_nonneg hr ha hr0 hn0 hf hn
  unfold safeAddition
  rw [h1]
  show (if cppLt a IntTy.i32 n 0 = true then _ else _) = _ ∧ _ ∨ (if cppLt a IntTy.i32 n 0 = true then _ else _) = _
  rw [hlt1, hlt2]
  simp only [Bool.false_eq_true, if_false]
  by_cases hx : r.cast s < n
  · right; rw [decide_eq_true hx]; rfl
  · left
    have hcap : m < ((2 ^ k : Nat) : Int) := by
      have e := Nat.pow_le_pow_right (n := 2) (by decide) h3
      rw [fits_nonneg hm0] at hm
      have e2 : 2 ^ (if b.signed = true then b.bits - 1 else b.bits) ≤ 2 ^ b.bits :=
        Nat.pow_le_pow_right (by decide) (by split <;> omega)
      omega
    have hv : r.cast s = n + m := by
      rw [h2]; exact safeAdd_core n m _ hcap hn0 hm0 (by rw [← h2]; exact hx)
    rw [decide_eq_false hx]
    refine ⟨?_, hv ▸ hf⟩
    rw [← hv]; rfl

/-- **C14**, addition within one unsigned type: an error is reported exactly when the sum does not fit. -/
theorem C14_addition_error_iff (t : IntTy) (ht : Spec.Builtin t) (hu : t.signed = false) (n m : Int)
    (hn : Spec.Fits t n) (hm : Spec.Fits t m) :
    safeAddition t t t n m = if n + m < 2 ^ t.bits then .ok (n + m) else .error .conversion := by
  have hn' := (fits_unsigned hu).1 hn
  have hm' := (fits_unsigned hu).1 hm
  have hpow : (2 : Int) ^ t.bits = ((2 ^ t.bits : Nat) : Int) := by push_cast; rfl
  rw [hpow]
  have hdich := C14_addition_exact t t t ht ht ht hu hu (Or.inl hu) (Nat.le_refl _) n m hn hm hm'.1
  by_cases hlt : n + m < ((2 ^ t.bits : Nat) : Int)
  · rw [if_pos hlt]
    rcases hdich with h | h
    · exact h.1
    · exfalso
      obtain ⟨k, s, h1, h2, h3, h4, h5⟩ := safeAdd_sum t t t ht ht hu hu (Or.inl hu) (Nat.le_refl _) n m hn hm hm'.1
      have hk : k = t.bits := by have := h4 (Nat.le_refl _); omega
      rw [hk, Int.emod_eq_of_lt (by omega) hlt] at h2
      have hi : Spec.Builtin IntTy.i32 := by decide
      have hlt1 : cppLt t IntTy.i32 n 0 = false := by
        rw [cppLt_nonneg ht hi hn'.1 (by omega) hn (by decide)]; simp; omega
      have hlt2 : cppLt t t (n + m) n = decide (n + m < n) :=
        cppLt_nonneg ht ht (by omega) hn'.1 ((fits_unsigned hu).2 ⟨by omega, hlt⟩) hn
      unfold safeAddition at h
      rw [h1] at h
      change (if cppLt t IntTy.i32 n 0 = true then _ else _) = _ at h
      rw [hlt1, h2, hlt2, decide_eq_false (by omega)] at h
      simp only [Bool.false_eq_true, if_false] at h
      cases h
  · rw [if_neg hlt]
    rcases hdich with h | h
    · exact absurd ((fits_unsigned hu).1 h.2).2 hlt
    · exact h

example : safeAddition .u32 .u32 .i32 4294967288 7 = .ok 4294967295 ∧
    safeAddition .u32 .u32 .i32 4294967289 7 = .error .conversion ∧
    safeAddition .u8 .u8 .u8 200 55 = .ok 255 ∧ safeAddition .u8 .u8 .u8 200 56 = .error .conversion := by decide

/-- **C14** is false when the addend is wider than the destination: the truncated sum may pass the check. -/
theorem C14_narrow_destination_counterexample : Spec.Fits .u8 1 ∧ Spec.Fits .u32 256 ∧
    safeAddition .u8 .u8 .u32 1 256 = .ok 1 := by decide

/-- For signed operands the check comes after the addition, so an overflow is undefined behaviour and no check at
all (the call at semantics/utils/document_signer.cpp:63 adds to a signed offset). -/
theorem C14_signed_counterexample : safeAddition .i64 .i64 .i64 9223372036854775807 1 = .error .ub := by decide

/-- **C14**, multiplication of unsigned operands into an unsigned type of any width: the mathematical product when it
fits and an error otherwise. -/
theorem C14_multiplication (r v : IntTy) (hr : Spec.Builtin r) (hv : Spec.Builtin v)
    (hru : r.signed = false) (hvu : v.signed = false) (n m : Int) (hn : Spec.Fits v n) (hm : Spec.Fits v m) :
    safeMultiply r v n m = if n * m < 2 ^ r.bits then .ok (n * m) else .error .conversion := by
  have hn' := (fits_unsigned hvu).1 hn
  have hm' := (fits_unsigned hvu).1 hm
  have hpow : (2 : Int) ^ r.bits = ((2 ^ r.bits : Nat) : Int) := by push_cast; rfl
  have hpos : (0 : Int) < ((2 ^ r.bits : Nat) : Int) := by have := two_pow_pos r.bits; omega
  have hmax : r.max = ((2 ^ r.bits : Nat) : Int) - 1 := by unfold IntTy.max; rw [hru]; simp
  rw [hpow]
  unfold safeMultiply
  by_cases hz : n = 0 ∨ m = 0
  · rw [if_pos hz]
    have : n * m = 0 := by rcases hz with h | h <;> simp [h]
    rw [this, if_pos hpos]; rfl
  · rw [if_neg hz]
    have hn1 : 1 ≤ n := by omega
    have hm1 : 1 ≤ m := by omega
    have hconv : ∀ x, Spec.Fits v x → safeConvert r v x = if x < ((2 ^ r.bits : Nat) : Int) then .ok x else .error .conversion := by
      intro x hx
      have hx' := (fits_unsigned hvu).1 hx
      by_cases h : x < ((2 ^ r.bits : Nat) : Int)
      · rw [if_pos h]
        exact C13_error_only_if_unfit_partial r v hr.pos hv.pos x hx ((fits_unsigned hru).2 ⟨hx'.1, h⟩) (by rw [hru]; simp)
      · rw [if_neg h]
        rcases C13_value_preserved r v hr.pos hv.pos x hx with h' | h'
        · exact absurd ((fits_unsigned hru).1 h'.2).2 h
        · exact h'
    have hnm : n ≤ n * m := by nlinarith
    have hmn : m ≤ n * m := by nlinarith
    rw [hconv n hn, hconv m hm]
    by_cases h1 : n < ((2 ^ r.bits : Nat) : Int)
    · by_cases h2 : m < ((2 ^ r.bits : Nat) : Int)
      · rw [if_pos h1, if_pos h2]
        have hdiv : Int.tdiv r.max m < n ↔ ¬ n * m < ((2 ^ r.bits : Nat) : Int) := by
          rw [Int.tdiv_eq_ediv_of_nonneg (by omega), Int.ediv_lt_iff_lt_mul (by omega), hmax]
          omega
        by_cases h3 : n * m < ((2 ^ r.bits : Nat) : Int)
        · rw [if_pos h3]
          show (if Int.tdiv r.max m < n then _ else _) = _
          rw [if_neg (by rw [hdiv]; exact fun c => c h3)]
          have hfp : Spec.Fits r (n * m) := (fits_unsigned hru).2 ⟨by omega, h3⟩
          have hfn : Spec.Fits r n := (fits_unsigned hru).2 ⟨by omega, h1⟩
          have hfm : Spec.Fits r m := (fits_unsigned hru).2 ⟨by omega, h2⟩
          have hmul : cppMul r r n m = .ok (n * m) := by
            unfold cppMul
            dsimp only
            rw [cast_common hr hr (by omega) hfn, cast_common hr hr (by omega) hfm]
            have hfc : Spec.Fits (IntTy.common r r) (n * m) := fits_mono (by omega) hfp (common_cap r r hr hr)
            unfold arith
            rw [if_pos ((fits_iff _ _).1 hfc), cast_of_fits _ (by have := common_bits_pos r r; omega) _ hfc]
            split <;> rfl
          show (cppMul r r n m >>= fun p => pure (r.cast p)) = _
          rw [hmul]
          show Except.ok (r.cast (n * m)) = _
          rw [cast_of_fits r hr.pos _ hfp]
        · rw [if_neg h3]
          show (if Int.tdiv r.max m < n then _ else _) = _
          rw [if_pos (hdiv.2 h3)]; rfl
      · rw [if_pos h1, if_neg h2, if_neg (fun c => h2 (by omega) : ¬ n * m < ((2 ^ r.bits : Nat) : Int))]; rfl
    · rw [if_neg h1, if_neg (fun c => h1 (by omega) : ¬ n * m < ((2 ^ r.bits : Nat) : Int))]; rfl

example : safeMultiply .u32 .u32 65536 65535 = .ok 4294901760 ∧
    safeMultiply .u32 .u32 65536 65536 = .error .conversion ∧
    safeMultiply .u16 .u64 70000 1 = .error .conversion := by decide

/-- **C15**, writing.  Full statement: for every width.  For widths up to 8 bytes writing succeeds exactly when the
number fits in that many bytes, and then the bytes written are its big-endian representation.  Missing: widths over 8,
see `C15_wide_field_counterexample`. -/
theorem C15_write_partial (value width : Nat) (hw : width ≤ 8) :
    (value < 256 ^ width → ∃ bs, writeValue value width = .ok bs ∧ bs.length = width ∧ Spec.bigEndian bs = value) ∧
    (¬ value < 256 ^ width → writeValue value width = .error .throw) := by
  have hsh : value >>> (width * 8) = value / 256 ^ width := by rw [Nat.shiftRight_eq_div_pow, pow256]
  constructor
  · intro h
    obtain ⟨bs, h1, h2, h3⟩ := writeBytesBE_spec value width hw
    refine ⟨bs, ?_, h2, ?_⟩
    · unfold writeValue
      rw [hsh, Nat.div_eq_of_lt h, if_neg (by simp), h1]
    · rw [h3, Nat.mod_eq_of_lt h]
  · intro h
    unfold writeValue
    rw [hsh, if_pos]
    have := Nat.div_pos (Nat.not_lt.1 h) (Nat.pow_pos (n := width) (by decide : 0 < 256))
    omega

/-- **C15**, round trip: what was written in a field is read back (as a signed 64-bit value that converts to the
number written), whatever follows. -/
theorem C15_roundtrip_partial (value width : Nat) (hw : width ≤ 8) (hv : value < 2 ^ 64) (bs rest : Bytes)
    (h : writeValue value width = .ok bs) :
    ∃ v : Int, readField width 0 (bs ++ rest) = .ok (v, rest) ∧ IntTy.u64.cast v = value ∧
      (value < 2 ^ 63 → v = value) := by
  have hlt : value < 256 ^ width := by
    by_contra hc
    rw [(C15_write_partial value width hw).2 hc] at h; cases h
  obtain ⟨bs', h1, h2, h3⟩ := (C15_write_partial value width hw).1 hlt
  rw [h1] at h; cases h
  have := readField_spec bs 0 rest (by rw [h3]; omega) (Or.inl (by decide))
  rw [h2, h3] at this
  simp only [Nat.zero_mul, Nat.zero_add] at this
  have hz : IntTy.i64.cast ((0 : Nat) : Int) = 0 := by decide
  rw [hz] at this
  refine ⟨_, this, ?_, ?_⟩
  · unfold IntTy.cast IntTy.u64 IntTy.i64
    simp only [Bool.true_and, Bool.false_and, Bool.false_eq_true, if_false]
    rw [show (value : Int) % ((2 ^ 64 : Nat) : Int) = value from Int.emod_eq_of_lt (by omega) (by omega)]
    split
    · rw [Int.sub_emod_right]; exact Int.emod_eq_of_lt (by omega) (by omega)
    · exact Int.emod_eq_of_lt (by omega) (by omega)
  · intro h63
    exact cast_of_fits _ (by decide) _ (by rw [fits_nonneg (by omega)]; simp [IntTy.i64]; omega)

example : writeValue 0x0102 3 = .ok [0, 1, 2] ∧ readField 3 0 [0, 1, 2, 9] = .ok (0x0102, [9]) ∧
    writeValue 0x010000 2 = .error .throw := by decide

/-- **C15**, the width chosen by the file writer fits every number not above the largest one, is at most eight bytes,
and no smaller width would do. -/
theorem C15_writer_width_fits (maxv v : Nat) (hm : maxv < 2 ^ 64) (hv : v ≤ maxv) :
    writerWidth maxv ≤ 8 ∧ v < 256 ^ writerWidth maxv ∧ ∀ w, maxv < 256 ^ w → writerWidth maxv ≤ w := by
  obtain ⟨h1, h2, h3⟩ := msb_spec maxv hm
  have hk : maxv = 0 → mostSignificantBit (maxv : Int) = 0 := by rintro rfl; decide
  unfold writerWidth
  generalize mostSignificantBit (maxv : Int) = k at *
  have hle : k ≤ (if k % 8 = 0 then k / 8 else k / 8 + 1) * 8 := by split <;> omega
  refine ⟨by split <;> omega, ?_, ?_⟩
  · rw [pow256]
    have := Nat.pow_le_pow_right (n := 2) (by decide) hle
    omega
  · intro w hw
    rw [pow256] at hw
    by_cases hz : maxv = 0
    · rw [hk hz]; simp
    · have h4 := (h2 (by omega))
      have : 2 ^ (k - 1) < 2 ^ (w * 8) := by omega
      have := (Nat.pow_lt_pow_iff_right (by decide : 1 < 2)).1 this
      split <;> omega

/-- **C15**, the width chosen when the section is re-encoded fits the number; it is at most eight bytes for every number
below 2^63 (all file offsets). -/
theorem C15_content_width_fits_partial (v : Nat) (hv : v < 2 ^ 63) :
    contentWidth v ≤ 8 ∧ v < 256 ^ contentWidth v := by
  obtain ⟨h1, h2, h3⟩ := msb_spec v (by omega)
  unfold contentWidth
  have h4 : mostSignificantBit (v : Int) ≤ 63 := by
    by_cases hz : v = 0
    · subst hz; decide
    · have := (h2 (by omega)).1
      have : 2 ^ (mostSignificantBit (v : Int) - 1) < 2 ^ 63 := by omega
      have := (Nat.pow_lt_pow_iff_right (by decide : 1 < 2)).1 this
      omega
  refine ⟨by omega, ?_⟩
  rw [pow256]
  have := Nat.pow_le_pow_right (n := 2) (by decide) (by omega : mostSignificantBit (v : Int) ≤ (mostSignificantBit (v : Int) / 8 + 1) * 8)
  omega

/-- **C15** is false for fields wider than eight bytes: every value is written by shifting a 64-bit number by 64 or
more, which is undefined; the re-encoder itself chooses nine bytes for numbers from 2^63. -/
theorem C15_wide_field_counterexample (value width : Nat) (hv : value < 2 ^ 64) (hw : 8 < width) :
    writeValue value width = .error .ub ∧ contentWidth (2 ^ 63 : Nat) = 9 := by
  refine ⟨?_, by decide⟩
  unfold writeValue
  rw [Nat.shiftRight_eq_div_pow, Nat.div_eq_of_lt, if_neg (by simp)]
  · obtain ⟨k, rfl⟩ : ∃ k, width = k + 1 := ⟨width - 1, by omega⟩
    unfold writeBytesBE
    rw [if_pos (by omega)]; rfl
  · have := Nat.pow_le_pow_right (n := 2) (by decide) (by omega : 64 ≤ width * 8)
    omega

end VPdf
