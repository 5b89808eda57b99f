import Verif.Model.Tokenizer
import Verif.Model.Strings
import Verif.Spec.Pdf
/-
  Lemmas on single bytes (checked for all 256 values by the kernel) and on the scanning loops.
-/
namespace VPdf

theorem isRegular_iff (c : Byte) : isRegular c = false ↔ c ∈ Spec.whiteSpace ++ Spec.delimiters := by
  revert c; apply forall_byte; decide +kernel

theorem endsToken_cons {c : Byte} {t : Bytes} (h : Spec.EndsToken (c :: t)) : isRegular c = false := by
  rw [isRegular_iff]; exact h c (by simp)

/-! ### Names -/

theorem encodeNameByte_cases (c : Byte) :
    (encodeNameByte c = [c] ∧ isRegular c = true ∧ (c == 0x23) = false) ∨
    (∃ x y, encodeNameByte c = [0x23, x, y] ∧ parseByte 16 [x, y] = .ok c) := by
  have h : ∀ c : Byte,
    (encodeNameByte c = [c] ∧ isRegular c = true ∧ (c == 0x23) = false) ∨
    (encodeNameByte c = 0x23 :: hex2 c ∧ parseByte 16 (hex2 c) = .ok c) := by
    apply forall_byte; decide +kernel
  rcases h c with h | ⟨h1, h2⟩
  · exact Or.inl h
  · exact Or.inr ⟨_, _, h1, h2⟩

theorem readName_regular {c : Byte} {t : Bytes} (h : isRegular c = true) (h2 : (c == 0x23) = false) :
    readName (c :: t) = (do let (n, r) ← readName t; pure (c :: n, r)) := by
  rw [readName.eq_def]; simp only [h, h2]; rfl

theorem readName_hash {x y v : Byte} {t : Bytes} (h : parseByte 16 [x, y] = .ok v) :
    readName (0x23 :: x :: y :: t) = (do let (n, r) ← readName t; pure (v :: n, r)) := by
  have hr : isRegular 0x23 = true := by decide
  rw [readName.eq_def]; simp only [hr, h]; rfl

theorem readName_stop {c : Byte} {t : Bytes} (h : isRegular c = false) :
    readName (c :: t) = .ok ([], c :: t) := by
  rw [readName.eq_def]; simp only [h]; rfl

theorem readName_ends {rest : Bytes} (h : Spec.EndsToken rest) : readName rest = .ok ([], rest) := by
  cases rest with
  | nil => rfl
  | cons c t => exact readName_stop (endsToken_cons h)

theorem readName_encodeName (n rest : Bytes) (h : Spec.EndsToken rest) :
    readName (encodeName n ++ rest) = .ok (n, rest) := by
  induction n with
  | nil => simpa [encodeName] using readName_ends h
  | cons c n ih =>
    have e : encodeName (c :: n) = encodeNameByte c ++ encodeName n := by simp [encodeName]
    rw [e, List.append_assoc]
    rcases encodeNameByte_cases c with ⟨h1, h2, h3⟩ | ⟨x, y, h1, h2⟩
    · rw [h1, List.singleton_append, readName_regular h2 h3, ih]; rfl
    · rw [h1]
      show readName (0x23 :: x :: y :: (encodeName n ++ rest)) = _
      rw [readName_hash h2, ih]; rfl

/-- `CreateFromEncoded` and the tokenizer decode a name in the same way. -/
theorem decodeName_eq_readName (s : Bytes) : decodeName s = (readName s).map Prod.fst := by
  induction s using readName.induct with
  | case1 => rfl
  | case2 c h1 h2 =>
    rw [decodeName.eq_def, readName.eq_def]; simp only [h1, h2]
    cases parseByte 16 [] <;> rfl
  | case3 c h1 h2 x =>
    rw [decodeName.eq_def, readName.eq_def]; simp only [h1, h2]
    cases parseByte 16 [x] <;> rfl
  | case4 c h1 h2 x y rest ih =>
    rw [decodeName.eq_def, readName.eq_def]; simp only [h1, h2]
    cases parseByte 16 [x, y] with
    | error e => rfl
    | ok v =>
      show (decodeName rest >>= _) = _
      rw [ih]; cases readName rest <;> rfl
  | case5 c rest h1 h2 ih =>
    rw [decodeName.eq_def, readName.eq_def]; simp only [h1, h2]
    show (decodeName rest >>= _) = _
    rw [ih]; cases readName rest <;> rfl
  | case6 c rest h1 =>
    rw [decodeName.eq_def, readName.eq_def]; simp only [h1]; rfl

/-! ### Literal strings -/

theorem decodeLiteral_plain {n : Nat} {c : Byte} {t : Bytes} (h1 : (c == 0x29) = false) (h2 : (c == 0x28) = false)
    (h3 : (c == 0x0D) = false) (h4 : (c == 0x5C) = false) :
    decodeLiteral n (c :: t) = (do let r ← decodeLiteral n t; pure (c :: r)) := by
  rw [decodeLiteral.eq_def]; simp [h1, h2, h3, h4, bne]

theorem decodeLiteral_octal {n : Nat} {x y z v : Byte} {t : Bytes} (hx : isNumeric x = true)
    (hy : isNumeric y = true) (hz : isNumeric z = true) (hv : parseByte 8 [x, y, z] = .ok v) :
    decodeLiteral n (0x5C :: x :: y :: z :: t) = (do let r ← decodeLiteral n t; pure (v :: r)) := by
  have hx' : x ≠ 0x72 ∧ x ≠ 0x66 ∧ x ≠ 0x74 ∧ x ≠ 0x6E ∧ x ≠ 0x62 ∧ x ≠ 0x28 ∧ x ≠ 0x29 ∧ x ≠ 0x5C ∧
      x ≠ 0x0D ∧ x ≠ 0x0A := by
    clear hv; revert x; apply forall_byte; decide +kernel
  rw [decodeLiteral.eq_def]; simp [hx, hx', hy, hz, hv]
  rfl

/-- What the writer emits for one byte of a literal string. -/
theorem encodeLiteralByte_cases (c : Byte) :
    (encodeLiteralByte c = [c] ∧ (c == 0x29) = false ∧ (c == 0x28) = false ∧ (c == 0x0D) = false ∧
      (c == 0x5C) = false) ∨
    (∃ x, encodeLiteralByte c = [0x5C, x] ∧
      ∀ n t, decodeLiteral n (0x5C :: x :: t) = (do let r ← decodeLiteral n t; pure (c :: r))) ∨
    (∃ x y z, encodeLiteralByte c = [0x5C, x, y, z] ∧ isNumeric x = true ∧ isNumeric y = true ∧
      isNumeric z = true ∧ parseByte 8 [x, y, z] = .ok c) := by
  have h : ∀ c : Byte,
    (encodeLiteralByte c = [c] ∧ (c == 0x29) = false ∧ (c == 0x28) = false ∧ (c == 0x0D) = false ∧
      (c == 0x5C) = false) ∨
    (encodeLiteralByte c = [0x5C, decDigit (c.toNat / 64), decDigit (c.toNat / 8 % 8), decDigit (c.toNat % 8)] ∧
      isNumeric (decDigit (c.toNat / 64)) = true ∧ isNumeric (decDigit (c.toNat / 8 % 8)) = true ∧
      isNumeric (decDigit (c.toNat % 8)) = true ∧
      parseByte 8 [decDigit (c.toNat / 64), decDigit (c.toNat / 8 % 8), decDigit (c.toNat % 8)] = .ok c) ∨
    c = 0x0A ∨ c = 0x0D ∨ c = 0x09 ∨ c = 0x08 ∨ c = 0x0C ∨ c = 0x28 ∨ c = 0x29 ∨ c = 0x5C := by
    apply forall_byte; decide +kernel
  rcases h c with h | h | h | h | h | h | h | h | h | h
  · exact Or.inl h
  · exact Or.inr (Or.inr ⟨_, _, _, h⟩)
  all_goals
    subst h
    refine Or.inr (Or.inl ⟨_, rfl, ?_⟩)
    intro n t
    rw [decodeLiteral.eq_def]; simp

theorem decodeLiteral_encode (v : Bytes) : decodeLiteral 0 (v.flatMap encodeLiteralByte) = .ok v := by
  induction v with
  | nil => rfl
  | cons c v ih =>
    rw [List.flatMap_cons]
    rcases encodeLiteralByte_cases c with ⟨h, h1, h2, h3, h4⟩ | ⟨x, h, hd⟩ | ⟨x, y, z, h, hx, hy, hz, hv⟩
    · rw [h, List.singleton_append, decodeLiteral_plain h1 h2 h3 h4, ih]; rfl
    · rw [h]
      simp only [List.cons_append, List.nil_append]
      rw [hd, ih]; rfl
    · rw [h]
      simp only [List.cons_append, List.nil_append]
      rw [decodeLiteral_octal hx hy hz hv, ih]; rfl

theorem readLiteral_plain {n : Nat} {c : Byte} {t : Bytes} (h1 : (c == 0x29) = false) (h2 : (c == 0x28) = false)
    (h4 : (c == 0x5C) = false) :
    readLiteral false n (c :: t) = (do let (s, r) ← readLiteral false n t; pure (c :: s, r)) := by
  rw [readLiteral.eq_def]; simp [h1, h2, h4]

theorem readLiteral_escape {n : Nat} {x : Byte} {t : Bytes} :
    readLiteral false n (0x5C :: x :: t) =
      (do let (s, r) ← readLiteral false n t; pure (0x5C :: x :: s, r)) := by
  rw [readLiteral.eq_def]; simp
  rw [readLiteral.eq_def]; simp

theorem numeric_plain {x : Byte} (h : isNumeric x = true) :
    (x == 0x29) = false ∧ (x == 0x28) = false ∧ (x == 0x5C) = false := by
  revert x; apply forall_byte; decide +kernel

theorem readLiteral_encode (v rest : Bytes) :
    readLiteral false 1 (v.flatMap encodeLiteralByte ++ 0x29 :: rest) =
      .ok (v.flatMap encodeLiteralByte, rest) := by
  induction v with
  | nil => rw [readLiteral.eq_def]; rfl
  | cons c v ih =>
    rw [List.flatMap_cons, List.append_assoc]
    rcases encodeLiteralByte_cases c with ⟨h, h1, h2, h3, h4⟩ | ⟨x, h, hd⟩ | ⟨x, y, z, h, hx, hy, hz, hv⟩
    · rw [h, List.singleton_append, readLiteral_plain h1 h2 h4, ih]; rfl
    · rw [h]
      simp only [List.cons_append, List.nil_append]
      rw [readLiteral_escape, ih]; rfl
    · rw [h]
      simp only [List.cons_append, List.nil_append]
      obtain ⟨a1, a2, a3⟩ := numeric_plain hy
      obtain ⟨b1, b2, b3⟩ := numeric_plain hz
      rw [readLiteral_escape, readLiteral_plain a1 a2 a3, readLiteral_plain b1 b2 b3, ih]; rfl

/-! ### Hexadecimal strings -/

theorem hex2_facts (c : Byte) : parseByte 16 (hex2 c) = .ok c ∧
    (∀ d ∈ hex2 c, (d == 0x3E) = false ∧ isWhiteSpace d = false ∧ (isNumeric d || isAlpha d) = true) := by
  revert c; apply forall_byte; decide +kernel

theorem readHexString_digit {c : Byte} {t : Bytes} (h1 : (c == 0x3E) = false) (h2 : isWhiteSpace c = false)
    (h3 : (isNumeric c || isAlpha c) = true) :
    readHexString (c :: t) = (do let (s, r) ← readHexString t; pure (c :: s, r)) := by
  rw [readHexString.eq_def]; simp only [h1, h2, h3]; rfl

theorem readHexString_encode (v rest : Bytes) :
    readHexString (v.flatMap hex2 ++ 0x3E :: rest) = .ok (v.flatMap hex2, rest) := by
  induction v with
  | nil => rw [readHexString.eq_def]; rfl
  | cons c v ih =>
    rw [List.flatMap_cons, List.append_assoc]
    obtain ⟨-, h⟩ := hex2_facts c
    obtain ⟨a1, a2, a3⟩ := h (hexDigit (c.toNat / 16)) (by simp [hex2])
    obtain ⟨b1, b2, b3⟩ := h (hexDigit (c.toNat % 16)) (by simp [hex2])
    simp only [hex2, List.cons_append, List.nil_append]
    rw [readHexString_digit a1 a2 a3, readHexString_digit b1 b2 b3, ih]; rfl

theorem decodeHexPairs_encode (v : Bytes) : decodeHexPairs (v.flatMap hex2) = .ok v := by
  induction v with
  | nil => rfl
  | cons c v ih =>
    rw [List.flatMap_cons]
    obtain ⟨h, -⟩ := hex2_facts c
    simp only [hex2, List.cons_append, List.nil_append]
    rw [decodeHexPairs.eq_def]
    have : parseByte 16 [hexDigit (c.toNat / 16), hexDigit (c.toNat % 16)] = .ok c := h
    simp only [this, ih]; rfl

theorem hexVal_facts (c : Byte) (a : Nat) (h : Spec.hexVal c = some a) :
    digitVal c = a ∧ a < 16 ∧ isCSpace c = false ∧ c ≠ 0x2D ∧ c ≠ 0x2B ∧
    (c == 0x3E) = false ∧ isWhiteSpace c = false ∧ (isNumeric c || isAlpha c) = true := by
  have h' : ∀ c : Byte, ∀ a ∈ Spec.hexVal c, digitVal c = a ∧ a < 16 ∧ isCSpace c = false ∧ c ≠ 0x2D ∧ c ≠ 0x2B ∧
      (c == 0x3E) = false ∧ isWhiteSpace c = false ∧ (isNumeric c || isAlpha c) = true := by
    apply forall_byte; decide +kernel
  exact h' c a h

theorem parseByte_hexpair {x y : Byte} {a b : Nat} (hx : Spec.hexVal x = some a) (hy : Spec.hexVal y = some b) :
    parseByte 16 [x, y] = .ok (UInt8.ofNat (16 * a + b)) := by
  obtain ⟨x1, x2, x3, x4, x5, -⟩ := hexVal_facts x a hx
  obtain ⟨y1, y2, -⟩ := hexVal_facts y b hy
  have e1 : strtolUnsigned 16 [x, y] = .ok (16 * a + b) := by
    have : dropHexPrefix [x, y] = [x, y] := by
      rw [dropHexPrefix.eq_def]; split <;> simp_all
    simp [strtolUnsigned, this, scanDigits, x1, x2, y1, y2, Nat.mul_comm]
  have e2 : strtolInt 16 [x, y] = .ok ((16 * a + b : Nat) : Int) := by
    rw [strtolInt.eq_def]
    simp only [List.dropWhile, x3]
    split
    · rename_i h; simp at h; exact absurd h.1 x4
    · rename_i h; simp at h; exact absurd h.1 x5
    · rw [e1]; rfl
  have hlt : 16 * a + b ≤ 255 := by omega
  have e3 : stoi 16 [x, y] = .ok ((16 * a + b : Nat) : Int) := by
    unfold stoi; rw [e2]
    show (if _ then _ else _) = _
    rw [if_pos (by omega)]; rfl
  unfold parseByte; rw [e3]
  show toUChar _ = _
  unfold toUChar
  rw [if_pos (by omega)]; rfl

/-- The decoder of hexadecimal strings computes the bytes ISO 32000 prescribes, for an even and for an odd
number of digits. -/
theorem decodeHexPairs_spec (s v : Bytes) (h : Spec.hexBytes s = some v) : decodeHexPairs s = .ok v := by
  induction s using Spec.hexBytes.induct generalizing v with
  | case1 => simp [Spec.hexBytes] at h; subst h; rfl
  | case2 x =>
    simp [Spec.hexBytes, Option.bind_eq_some_iff] at h
    obtain ⟨a, ha, rfl⟩ := h
    have h0 : Spec.hexVal 0x30 = some 0 := by decide
    rw [decodeHexPairs.eq_def]; simp only [parseByte_hexpair ha h0]
    show Except.ok _ = Except.ok _
    simp
  | case3 x y rest ih =>
    simp [Spec.hexBytes, Option.bind_eq_some_iff] at h
    obtain ⟨a, ha, b, hb, r, hr, rfl⟩ := h
    rw [decodeHexPairs.eq_def]; simp only [parseByte_hexpair ha hb, ih r hr]
    show Except.ok _ = Except.ok _
    simp

end VPdf
