import Verif.Lemmas.Lex
import Verif.Lemmas.Progress
import Verif.Lemmas.NoTimeout
import Verif.Lemmas.Grammar
/-
  C01, C02, C03, C05: names, strings and the tokenizer.
-/
namespace VPdf

/-! ### C01 -/

/-- **C01.** For every byte string `n` and whatever ends the token behind it, reading the text written for the
name `n` gives a name token with exactly the bytes `n` and stops right behind it. -/
theorem C01_name_roundtrip (dict : List Bytes) (n rest : Bytes) (h : Spec.EndsToken rest) :
    readToken dict (writeName n ++ rest) = .ok (⟨.name, n⟩, rest) := by
  have e : readToken dict (0x2F :: (encodeName n ++ rest)) =
      (do let (v, r) ← readName (encodeName n ++ rest); pure (⟨.name, v⟩, r)) := rfl
  simp only [writeName, List.cons_append]
  rw [e, readName_encodeName n rest h]; rfl

example : Spec.EndsToken (b! " 12") ∧ writeName [0x41, 0x20, 0xFF, 0x23] = b! "/A#20#FF#23" := by decide
example : readToken parserKeywords (b! "/A#20#FF#23>>") = .ok (⟨.name, [0x41, 0x20, 0xFF, 0x23]⟩, b! ">>") := by
  decide

/-- **C01**, second reader: the library's decoder of encoded names inverts the encoder on every byte string. -/
theorem C01_name_decode_encode (n : Bytes) : decodeName (encodeName n) = .ok n := by
  have h := readName_encodeName n [] (by intro c hc; simp at hc)
  rw [List.append_nil] at h
  rw [decodeName_eq_readName, h]; rfl

/-- **C01**, consequence: two different names are never written as the same text. -/
theorem C01_name_injective (n m : Bytes) (h : writeName n = writeName m) : n = m := by
  have h' : encodeName n = encodeName m := by simpa [writeName] using h
  have := C01_name_decode_encode n
  rw [h', C01_name_decode_encode m] at this
  injection this with this; exact this.symm

/-- **C01**, shape of the text: only printable characters that are neither white-space nor delimiters are
written behind the solidus. -/
theorem C01_name_text_regular (n : Bytes) :
    ∀ c ∈ encodeName n, 0x21 ≤ c ∧ c ≤ 0x7E ∧ c ∉ Spec.whiteSpace ++ Spec.delimiters := by
  have h : ∀ b : Byte, ∀ c ∈ encodeNameByte b, 0x21 ≤ c ∧ c ≤ 0x7E ∧ c ∉ Spec.whiteSpace ++ Spec.delimiters := by
    apply forall_byte; decide +kernel
  intro c hc
  obtain ⟨b, -, hb⟩ := List.mem_flatMap.mp hc
  exact h b c hb

/-! ### C02 -/

/-- **C02.** For every decoded value `v` and every continuation `rest`: the tokenizer reads the text written for
the literal string as one literal string token, stops right behind the closing parenthesis, and the decoder
turns the token's raw text into `v`. -/
theorem C02_literal_roundtrip (dict : List Bytes) (v rest : Bytes) :
    ∃ raw, readToken dict (writeLiteral v ++ rest) = .ok (⟨.literalString, raw⟩, rest) ∧
      decodeLiteral 0 raw = .ok v := by
  refine ⟨v.flatMap encodeLiteralByte, ?_, decodeLiteral_encode v⟩
  have e : ∀ t, readToken dict (0x28 :: t) =
      (do let (v, r) ← readLiteral false 1 t; pure (⟨.literalString, v⟩, r)) := fun _ => rfl
  simp only [writeLiteral, List.cons_append, List.append_assoc, List.nil_append]
  rw [e, readLiteral_encode]; rfl

example : writeLiteral [0x28, 0x5C, 0x0A, 0xFF, 0x31] = b! "(\\(\\\\\\n\\3771)" := by decide

/-- **C02**, consequence: different values are written as different texts. -/
theorem C02_literal_injective (v w : Bytes) (h : writeLiteral v = writeLiteral w) : v = w := by
  obtain ⟨r1, h1, d1⟩ := C02_literal_roundtrip [] v []
  obtain ⟨r2, h2, d2⟩ := C02_literal_roundtrip [] w []
  rw [h, h2] at h1
  injection h1 with h1; injection h1 with h1 _; injection h1 with _ h1
  rw [h1, d1] at d2; injection d2

/-! ### C03 -/

/-- **C03.** For every decoded value `v` and every continuation `rest`: the text written for the hexadecimal
string is read as one hexadecimal string token ending at `>`, whose value is `v`. -/
theorem C03_hex_roundtrip (dict : List Bytes) (v rest : Bytes) :
    ∃ raw, readToken dict (writeHex v ++ rest) = .ok (⟨.hexString, raw⟩, rest) ∧
      decodeHexPairs raw = .ok v := by
  refine ⟨v.flatMap hex2, ?_, decodeHexPairs_encode v⟩
  cases v with
  | nil => rfl
  | cons c v =>
    obtain ⟨-, hc⟩ := hex2_facts c
    have hne : hexDigit (c.toNat / 16) ≠ 0x3C ∧ hexDigit (c.toNat / 16) ≠ 0x3E := by
      revert c; apply forall_byte; decide +kernel
    have e : ∀ d t, d ≠ 0x3C → d ≠ 0x3E → readToken dict (0x3C :: d :: t) =
        (do let (v, r) ← readHexString (d :: t); pure (⟨.hexString, v⟩, r)) := by
      intro d t h1 h2
      have : skipBlank false (0x3C :: d :: t) = 0x3C :: d :: t := rfl
      rw [readToken, this]
      split <;> simp_all
    have key := readHexString_encode (c :: v) rest
    simp only [writeHex, List.flatMap_cons, hex2, List.cons_append, List.nil_append, List.append_assoc] at key ⊢
    rw [e _ _ hne.1 hne.2, key]; rfl

example : writeHex [0x00, 0xAF] = b! "<00AF>" := by decide

/-- **C03**, for any source text: digits in either case, white-space anywhere, odd or even count.  If the digits
denote the bytes `v` by ISO 32000 (a missing last digit being 0), the token read has the value `v`. -/
theorem C03_hex_any_text (dict : List Bytes) (s rest v : Bytes) (hs : Spec.hexBytes (Spec.hexDigitsOf s) = some v) :
    ∃ raw, readToken dict (0x3C :: (s ++ 0x3E :: rest)) = .ok (⟨.hexString, raw⟩, rest) ∧
      decodeHexPairs raw = .ok v :=
  ⟨Spec.hexDigitsOf s, readToken_hex dict s rest v hs, decodeHexPairs_spec _ _ hs⟩

example : Spec.hexBytes (Spec.hexDigitsOf (b! "4a 4B\n7")) = some [0x4A, 0x4B, 0x70] := by decide

/-! ### C05 -/

/-- **C05.** A successful token read on any input with any keyword dictionary leaves a suffix of the input, and
either reports the end of input or has consumed at least one byte. -/
theorem C05_token_progress (dict : List Bytes) (s : Bytes) (t : Token) (r : Bytes)
    (h : readToken dict s = .ok (t, r)) :
    r <:+ s ∧ (t.type ≠ .endOfInput → r.length < s.length) := by
  obtain ⟨h1, h2⟩ := readToken_progress' dict s t r h
  refine ⟨h1, fun hne => ?_⟩
  rcases h2 with ⟨h2, -⟩ | h2
  · exact absurd h2 hne
  · exact h2

/-- Reading tokens until the end of input or an error, as every consumer of the tokenizer does
(e.g. syntax/parsers/parser.cpp:790-888); `fuel` bounds the number of reads. -/
def readAll (dict : List Bytes) : Nat → Bytes → Res (List Token)
  | 0, _ => .error .timeout
  | fuel + 1, s => do
    let (t, r) ← readToken dict s
    if t.type == .endOfInput then pure []
    else do
      let ts ← readAll dict fuel r
      pure (t :: ts)

/-- **C05.** Tokenizing any input of `n` bytes ends after at most `n + 1` reads, with the end of input or a
reported error. -/
theorem C05_tokenizing_terminates (dict : List Bytes) (s : Bytes) (fuel : Nat) (hf : s.length < fuel) :
    readAll dict fuel s ≠ .error .timeout := by
  induction fuel generalizing s with
  | zero => omega
  | succ n ih =>
    unfold readAll
    cases ht : readToken dict s with
    | error e => intro h; injection h with h; subst h; exact readToken_no_timeout _ _ ht
    | ok p =>
      obtain ⟨t, r⟩ := p
      show (if t.type == .endOfInput then (pure [] : Res (List Token)) else _) ≠ _
      split
      · exact fun h => nomatch h
      · rename_i hne
        have hlt := (C05_token_progress dict s t r ht).2 (by simpa using hne)
        have := ih r (by omega)
        cases hq : readAll dict n r with
        | ok p => exact fun h => nomatch h
        | error e => intro h; injection h with h; subst h; exact this hq

example : readAll parserKeywords 30 (b! "<</A 1%c\n/B(x)>>") =
    .ok [⟨.dictBegin, []⟩, ⟨.name, b! "A"⟩, ⟨.integer, b! "1"⟩, ⟨.name, b! "B"⟩, ⟨.literalString, b! "x"⟩,
      ⟨.dictEnd, []⟩] := by decide

end VPdf
