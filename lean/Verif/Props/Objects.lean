import Verif.Lemmas.Write
/-
  C04, C07, C08, C56: direct objects.
-/
namespace VPdf
open Spec

theorem litBody_iso {d : Nat} {v s : Bytes} (h : LitBody d v s) : IsoLitBody d v s := by
  have od : ∀ c, ¬ IsDigit c → octVal c = none := by
    intro c hc; unfold octVal; rw [if_neg]; intro h; exact hc ⟨h.1, by omega⟩
  induction h with
  | nil => exact .nil
  | plain d c v s h1 _ ih => exact .plain d c v s h1 ih
  | opening d v s _ ih => exact .opening d v s ih
  | closing d v s _ ih => exact .closing d v s ih
  | escape d x c v s h1 _ ih => exact .escape d x c v s h1 ih
  | continued d v s _ ih => exact .continued d v s ih
  | continuedCrLf d v s _ ih => exact .continuedCrLf d v s ih
  | continuedCr d v s h1 _ ih => exact .continuedCr d v s h1 ih
  | octal3 d x y z a b c v s h1 h2 h3 _ _ ih => exact .octal3 d x y z a b c v s h1 h2 h3 ih
  | octal2 d x y a b v s h1 h2 h3 _ ih => exact .octal2 d x y a b v s h1 h2 (fun c hc => od c (h3 c hc)) ih
  | octal1 d x a v s h1 h2 _ ih => exact .octal1 d x a v s h1 (fun c hc => od c (h2 c hc)) ih
  | ignored d x v s h1 h2 h3 h4 _ ih => exact .ignored d x v s h1 h2 h3 (od x h4) ih

/-! ### C04 -/

theorem expectSkip_of {dict : List Bytes} {s r : Bytes} {t : Token} (h : readTokenSkip dict s = .ok (t, r)) :
    expectSkip dict t.type s = .ok (t, r) := by
  rw [expectSkip, h, ok_bind]; simp; rfl

/-- **C04.** For every savable object, of any nesting, the text the library writes is read back as exactly that
object, and the whole text is consumed. -/
theorem C04_object_roundtrip (e : Env) (o : Obj) (h : Savable o) : parse e (writeObj o) = .ok (.direct o, []) := by
  have := (denotes_parses e (writeObj_denotes h) [] (Or.inr (by intro d hd; simp at hd)) follow_nil).1
    (2 * (writeObj o).length + 2) (by omega)
  rw [List.append_nil] at this
  exact this

example : Savable (.dict [(b! "A b", .arr [.int (-5), .ref 3 0, .null, .hex [1, 255]]),
    (b! "B", .dict [(b! "C", .lit (b! "(\\"))]), (b! "D", .real (-5) 1)]) := by
  refine .dict _ (by unfold SortedKeys; decide) ?_ ?_
  · intro x hx
    simp only [List.mem_cons, List.not_mem_nil, or_false] at hx
    rcases hx with rfl | rfl | rfl
    · refine .arr _ ?_
      intro o ho
      simp only [List.mem_cons, List.not_mem_nil, or_false] at ho
      rcases ho with rfl | rfl | rfl | rfl
      · exact .int _ (by decide) (by decide)
      · exact .ref _ _ (by decide) (by decide)
      · exact .null
      · exact .hex _
    · refine .dict _ (by unfold SortedKeys; decide) ?_ ?_
      · intro x hx; simp only [List.mem_cons, List.not_mem_nil, or_false] at hx; subst hx; exact .lit _
      · intro x hx; simp only [List.mem_cons, List.not_mem_nil, or_false] at hx; subst hx; simp
    · exact .real _ _ (by decide)
  · intro x hx
    simp only [List.mem_cons, List.not_mem_nil, or_false] at hx
    rcases hx with rfl | rfl | rfl <;> simp

/-- **C04**, for other readers: the text the library writes for a savable object is a text that denotes that object by
the syntax of ISO 32000-1. -/
theorem C04_text_is_standard (o : Obj) (h : Savable o) : Denotes o (writeObj o) := writeObj_denotes h

/-- **C02**, for other readers: the text between the parentheses of a written literal string stands for its value by ISO
32000-1, 7.3.4.2, and has no byte outside the printable ASCII characters. -/
theorem C02_text_is_standard (v : Bytes) : ∃ s, writeLiteral v = b! "(" ++ s ++ b! ")" ∧ IsoLitBody 0 v s ∧
    ∀ c ∈ s, 0x20 ≤ c ∧ c ≤ 0x7E := by
  refine ⟨_, by simp [writeLiteral], litBody_iso (encodeLiteral_body v), ?_⟩
  have h : ∀ b : Byte, ∀ c ∈ encodeLiteralByte b, (0x20 : Byte) ≤ c ∧ c ≤ 0x7E := by
    apply forall_byte; decide +kernel
  intro c hc
  obtain ⟨b, -, hb⟩ := List.mem_flatMap.mp hc
  exact h b c hb

/-- **C04**, inside a file: `n g obj` object `endobj` with the separators the file writer uses
(file_writer.cpp:1228-1257) is read as the object with its number and generation, and reading stops behind
`endobj`. -/
theorem C04_indirect_roundtrip (e : Env) (n g : Nat) (o : Obj) (rest : Bytes) (h : Savable o)
    (hn : n ≤ 9223372036854775807) (hg : g ≤ 65535) (hr : EndsToken rest) :
    parseIndirect e (natDec n ++ b! " " ++ natDec g ++ b! " obj\n" ++ writeObj o ++ b! "\nendobj" ++ rest) =
      .ok (n, g, .direct o, rest) := by
  have sn : Sep (b! "\n") := .ws 10 [] (by decide) .nil
  have hd := writeObj_denotes h
  have kobj : ∀ x, EndsToken x → readTokenSkip parserKeywords (b! " obj" ++ x) =
      .ok (⟨.keyword (b! "obj"), b! "obj"⟩, x) := by
    intro x hx
    have := readTokenSkip_sep parserKeywords [0x20] (b! "obj" ++ x) sep_space
    refine this.trans ?_
    apply readTokenSkip_of_token
    · exact readToken_keyword parserKeywords 0x6F (b! "bj") x (by decide) (by decide) (by decide) hx
    · simp
  have kendobj : ∀ x, EndsToken x → readTokenSkip parserKeywords (b! "\nendobj" ++ x) =
      .ok (⟨.keyword (b! "endobj"), b! "endobj"⟩, x) := by
    intro x hx
    have := readTokenSkip_sep parserKeywords (b! "\n") (b! "endobj" ++ x) sn
    refine this.trans ?_
    apply readTokenSkip_of_token
    · exact readToken_keyword parserKeywords 0x65 (b! "ndobj") x (by decide) (by decide) (by decide) hx
    · simp
  have tn : ∀ (m : Nat) x, EndsToken x → readTokenSkip parserKeywords (natDec m ++ x) =
      .ok (⟨.integer, natDec m⟩, x) := by
    intro m x hx
    apply readTokenSkip_of_token
    · exact readToken_int parserKeywords (natDec_text m) x hx
    · simp
  have tg : ∀ (m : Nat) x, EndsToken x → readTokenSkip parserKeywords (b! " " ++ natDec m ++ x) =
      .ok (⟨.integer, natDec m⟩, x) := by
    intro m x hx
    have := readTokenSkip_sep parserKeywords [0x20] (natDec m ++ x) sep_space
    rw [List.append_assoc]
    exact this.trans (tn m x hx)
  have sn' := stoll_text (natDec_text n) (by omega) (by omega)
  have sg' := stoll_text (natDec_text g) (by omega) (by omega)
  have hf : Follow (b! "\nendobj" ++ rest) := follow_of_token (kendobj rest hr) (by simp) (by simp) (by simp)
  have hb : Boundary (writeObj o) (b! "\nendobj" ++ rest) := Or.inr (by intro d hd; simp at hd; subst hd; decide)
  have e1 : natDec n ++ b! " " ++ natDec g ++ b! " obj\n" ++ writeObj o ++ b! "\nendobj" ++ rest =
      natDec n ++ (b! " " ++ natDec g ++ (b! " obj" ++ (b! "\n" ++ (writeObj o ++ (b! "\nendobj" ++ rest))))) := by
    simp
  have hp : ∀ f, 2 * (writeObj o).length ≤ f →
      readDirect e f (b! "\n" ++ (writeObj o ++ (b! "\nendobj" ++ rest))) =
        .ok (.direct o, b! "\nendobj" ++ rest) := by
    intro f hf'
    rw [readDirect_sep e f _ sn]
    exact (denotes_parses e hd _ hb hf).1 f hf'
  have k1 := expectSkip_of (tn n (b! " " ++ natDec g ++ (b! " obj" ++ (b! "\n" ++ (writeObj o ++ (b! "\nendobj" ++ rest)))))
    (by intro d hd; simp at hd; subst hd; decide))
  have k2 := expectSkip_of (tg g (b! " obj" ++ (b! "\n" ++ (writeObj o ++ (b! "\nendobj" ++ rest))))
    (by intro d hd; simp at hd; subst hd; decide))
  have k3 := expectSkip_of (kobj (b! "\n" ++ (writeObj o ++ (b! "\nendobj" ++ rest)))
    (by intro d hd; simp at hd; subst hd; decide))
  have k4 := expectSkip_of (kendobj rest hr)
  rw [e1, parseIndirect, k1, ok_bind]
  simp only []
  rw [k2, ok_bind]
  simp only []
  rw [k3, ok_bind]
  simp only []
  rw [parse, hp _ (by simp; omega), ok_bind]
  simp only []
  rw [k4, ok_bind]
  simp only []
  rw [sn', ok_bind, sg', ok_bind, if_pos ⟨by omega, by omega, by omega⟩]
  rfl

example : parseIndirect ⟨[], true, fun _ _ => .error .missing⟩ (b! "12 0 obj\n<</A [1 2 0 R]>>\nendobj\n") =
    .ok (12, 0, .direct (.dict [(b! "A", .arr [.int 1, .ref 2 0])]), b! "\n") := by rfl

/-- **C04**, consequence: two different savable objects are never written as the same text. -/
theorem C04_write_injective (o o' : Obj) (h : Savable o) (h' : Savable o') (heq : writeObj o = writeObj o') :
    o = o' := by
  have e : Env := ⟨[], false, fun _ _ => .error .missing⟩
  have h1 := C04_object_roundtrip e o h
  rw [heq, C04_object_roundtrip e o' h'] at h1
  injection h1 with h1; injection h1 with h1; injection h1 with h1; exact h1.symm

/-- **C04**, null values: a dictionary may hold null as a value; it is written, and read back as an absent entry, which
means the same. Everything else in the object, at any depth, is read back as it was. -/
theorem C04_null_entries (e : Env) (o : Obj) (h : Holdable o) :
    parse e (writeObj o) = .ok (.direct (dropNulls o), []) := by
  have := (denotes_parses e (writeObj_denotes' h) [] (Or.inr (by intro d hd; simp at hd)) follow_nil).1
    (2 * (writeObj o).length + 2) (by omega)
  rw [List.append_nil] at this
  exact this

/-- **C04**, null values: dropping the null entries changes no value of a dictionary that is not null. -/
theorem C04_null_entries_meaning (d : Dict) (hs : SortedKeys d) (k : Bytes) :
    valueAt k (dropNullsEntries d) = match valueAt k d with
      | none => none | some .null => none | some o => some (dropNulls o) := by
  induction d with
  | nil => rfl
  | cons a d ih =>
    obtain ⟨k', o⟩ := a
    obtain ⟨h1, h2⟩ := List.pairwise_cons.mp hs
    have ih := ih h2
    by_cases hk : k = k'
    · subst hk
      by_cases ho : o = .null
      · subst ho
        have hno : valueAt k (dropNullsEntries d) = none := by
          have : ∀ l : Dict, (∀ x ∈ l, bytesLt k x.1 = true) → valueAt k l = none := by
            intro l hl
            induction l with
            | nil => rfl
            | cons b l ihl =>
              have hb := hl b List.mem_cons_self
              have hne : k ≠ b.1 := by
                intro e; rw [← e, bytesLt_irrefl] at hb; exact nomatch hb
              obtain ⟨kb, ob⟩ := b
              rw [valueAt, if_neg hne]
              exact ihl (fun x hx => hl x (List.mem_cons_of_mem _ hx))
          apply this
          intro x hx
          obtain ⟨y, hy, e⟩ := dropNullsEntries_mem hx
          rw [← e]; exact h1 y hy
        show valueAt k (dropNullsEntries d) = _
        rw [hno, valueAt, if_pos rfl]
      · rw [dropNullsEntries_cons k o d ho, valueAt, valueAt, if_pos rfl, if_pos rfl]
        cases o <;> first | rfl | exact absurd rfl ho
    · rw [valueAt, if_neg hk, ← ih]
      by_cases ho : o = .null
      · subst ho; rfl
      · rw [dropNullsEntries_cons k' o d ho, valueAt, if_neg hk]

example : dropNulls (.dict [(b! "A", .null), (b! "B", .arr [.null, .dict [(b! "C", .null)]])]) =
    .dict [(b! "B", .arr [.null, .dict []])] := rfl

/-- **C04**, followed by other input: the reader stops exactly behind the object, whatever follows, provided the text
does not merge with it or continue it (for example digits behind a number, or the keyword `R` behind two numbers). -/
theorem C04_followed (e : Env) (o : Obj) (h : Holdable o) (rest : Bytes) (hb : Boundary (writeObj o) rest)
    (hf : Follow rest) : parse e (writeObj o ++ rest) = .ok (.direct (dropNulls o), rest) :=
  (denotes_parses e (writeObj_denotes' h) rest hb hf).1 _ (by simp; omega)

/-! ### C59 -/

/-- **C59**, partial: every integer of the signed 64-bit range is read back as it was written. -/
theorem C59_signed_partial (e : Env) (i : Int) (h1 : -9223372036854775808 ≤ i) (h2 : i ≤ 9223372036854775807) :
    parse e (writeObj (.int i)) = .ok (.direct (.int i), []) := C04_object_roundtrip e _ (.int i h1 h2)

/-- **C59** fails for unsigned integers from 2^63, which the library can hold and write: the text is refused. -/
theorem C59_unsigned_counterexample (e : Env) (i : Int) (h : 9223372036854775808 ≤ i) :
    parse e (writeObj (.int i)) = .error .conversion := by
  have ht := intDec_text i
  have hs : stoll (intDec i) = .error .conversion := by
    have := strtolInt_text ht
    unfold stoll
    rw [this, ok_bind, if_neg (by omega)]
    rfl
  have hr : readTokenSkip parserKeywords (intDec i) = .ok (⟨.integer, intDec i⟩, []) := by
    have := readToken_int parserKeywords ht [] (by intro d hd; simp at hd)
    rw [List.append_nil] at this
    exact readTokenSkip_of_token this (by simp)
  show readDirect e (_ + 1) (intDec i) = _
  rw [readDirect, hr]
  show readReference _ _ = _
  rw [readReference, hs]; rfl

/-! ### C07 -/

/-- **C07.** Whatever text denotes an object - any choice of white-space and comments between tokens, of signs and
leading zeros in numbers, of escapes in names and strings, of the order of dictionary entries - it is read as that
object, also when more input follows that neither merges with it nor continues it. -/
theorem C07_any_rendition (e : Env) (o : Obj) (t rest : Bytes) (h : Denotes o t) (hb : Boundary t rest)
    (hf : Follow rest) : parse e (t ++ rest) = .ok (.direct o, rest) :=
  (denotes_parses e h rest hb hf).1 _ (by simp; omega)

/-- **C07**, at the end of the input. -/
theorem C07_any_rendition_end (e : Env) (o : Obj) (t : Bytes) (h : Denotes o t) :
    parse e t = .ok (.direct o, []) := by
  have := C07_any_rendition e o t [] h (Or.inr (by intro d hd; simp at hd)) follow_nil
  rwa [List.append_nil] at this

/-- **C07**, separators in front of an object are skipped. -/
theorem C07_leading_separators (e : Env) (o : Obj) (sep t : Bytes) (hs : Sep sep) (h : Denotes o t) :
    parse e (sep ++ t) = .ok (.direct o, []) := by
  have := (denotes_parses e h [] (Or.inr (by intro d hd; simp at hd)) follow_nil).1
    (2 * (sep ++ t).length + 2) (by simp; omega)
  rw [List.append_nil] at this
  rw [parse, readDirect_sep e _ _ hs]; exact this

/-- **C07**, consequence: the syntax is unambiguous, no text denotes two objects. -/
theorem C07_unambiguous (o o' : Obj) (t : Bytes) (h : Denotes o t) (h' : Denotes o' t) : o = o' := by
  have e : Env := ⟨[], false, fun _ _ => .error .missing⟩
  have h1 := C07_any_rendition_end e o t h
  rw [C07_any_rendition_end e o' t h'] at h1
  injection h1 with h1; injection h1 with h1; injection h1 with h1; exact h1.symm

/-- `[1%x\n+02 /A#42(\\101)]` denotes the array of 1, 2, the name `AB` and the string `A`. -/
example : Denotes (.arr [.int 1, .int 2, .name (b! "AB"), .lit (b! "A")]) (b! "[1%x\n+02 /A#42(\\101)]") := by
  refine .arr _ (b! "1%x\n+02 /A#42(\\101)") ?_
  refine .cons _ _ [] (b! "1") (b! "%x\n+02 /A#42(\\101)") .nil
    (.int 1 _ ⟨b! "1", by decide, by unfold IsDigit; decide, by decide⟩ (by decide) (by decide)) ?_ (Or.inr (by decide))
  refine .cons _ _ (b! "%x\n") (b! "+02") (b! " /A#42(\\101)") (.comment (b! "x") 10 [] (by decide) (by decide) .nil)
    (.int 2 _ ⟨b! "02", by decide, by unfold IsDigit; decide, by decide⟩ (by decide) (by decide)) ?_ (Or.inr (by decide))
  refine .cons _ _ (b! " ") (b! "/A#42") (b! "(\\101)") (.ws 32 [] (by decide) .nil)
    (.name _ _ (.regular 65 _ _ (by decide) (by decide) (.code 52 50 4 2 _ _ (by decide) (by decide) .nil))) ?_
    (Or.inr (by decide))
  refine .cons _ _ [] (b! "(\\101)") [] .nil
    (.lit _ (b! "\\101") (.octal3 0 49 48 49 1 0 1 [] [] (by decide) (by decide) (by decide) (by decide) .nil)) ?_
    (Or.inl ⟨b! "(\\101", 41, by decide, by decide⟩)
  exact .nil [] .nil

/-! ### C08 -/

/-- **C08.** For every list of entries in the text of a dictionary, with repeated keys and null values: the result is
a dictionary whose value for a key is the first value in the text for that key that is not null, and which has no
entry for the key if there is none. -/
theorem C08_first_nonnull_value (e : Env) (es : List (Bytes × Obj)) (s : Bytes) (h : Entries es s) :
    ∃ d : Dict, parse e (b! "<<" ++ s ++ b! ">>") = .ok (.direct (.dict d), []) ∧ SortedKeys d ∧
      ∀ k, valueAt k d = firstValue k es := by
  have hs := buildDict_spec es [] List.Pairwise.nil
  have hv : ∀ k, valueAt k (buildDict [] es) = firstValue k es := by
    intro k; rw [valueAt_eq]; simpa [mapFind] using hs.2 k
  refine ⟨buildDict [] es, ?_, hs.1, hv⟩
  have := C07_any_rendition_end e _ _ (Denotes.dict es (buildDict [] es) s h hs.1 hv)
  simpa using this

/-- **C08**, null values: an entry whose value is null is as good as none. -/
theorem C08_null_is_absent (es es' : List (Bytes × Obj)) (k q : Bytes) :
    firstValue q (es ++ (k, .null) :: es') = firstValue q (es ++ es') := by
  induction es with
  | nil => rfl
  | cons a es ih =>
    obtain ⟨k', o⟩ := a
    cases o <;> simp [firstValue, ih]

example : parse ⟨[], true, fun _ _ => .error .missing⟩ (b! "<</B null/A 1/B 2/A 3/C null>>") =
    .ok (.direct (.dict [(b! "A", .int 1), (b! "B", .int 2)]), []) := by rfl

/-! ### C56 -/

/-- **C56**, partial: texts of literal strings without unescaped CR, octal codes above 255 and short octal codes before
the digits 8 and 9 are decoded as the standard says. -/
theorem C56_literal_text_partial (d : Nat) (v s : Bytes) (h : LitBody d v s) :
    IsoLitBody d v s ∧ decodeLiteral d s = .ok v :=
  ⟨litBody_iso h, decodeLiteral_body h⟩

example : LitBody 0 (b! "A(\n)\t7") (b! "\\101(\\n)\\11\\\n7") :=
  .octal3 0 49 48 49 1 0 1 _ _ (by decide) (by decide) (by decide) (by decide) <|
  .opening 0 _ _ <| .escape 1 110 10 _ _ (by decide) <| .closing 0 _ _ <|
  .octal2 0 49 49 1 1 _ _ (by decide) (by decide) (by unfold IsDigit; decide) <|
  .continued 0 _ _ <| .plain 0 55 _ _ (by decide) .nil

/-- **C56** fails for an unescaped end of line other than LF: CR and CR LF stay in the value. -/
theorem C56_eol_counterexample : IsoLitBody 0 (b! "a\nb") (b! "a\r\nb") ∧
    decodeLiteral 0 (b! "a\r\nb") = .ok (b! "a\r\nb") :=
  ⟨.plain 0 97 _ _ (by decide) (.eolCrLf 0 _ _ (.plain 0 98 _ _ (by decide) .nil)), by decide⟩

/-- **C56** fails for octal codes above 255: the string is refused. -/
theorem C56_overflow_counterexample : IsoLitBody 0 [0xFF] (b! "\\777") ∧
    decodeLiteral 0 (b! "\\777") = .error .conversion :=
  ⟨.octal3 0 55 55 55 7 7 7 [] [] (by decide) (by decide) (by decide) .nil, by decide⟩

/-- **C56** fails for a short octal code before the digit 8 or 9: the digit is lost. -/
theorem C56_digit_counterexample : IsoLitBody 0 [1, 0x38] (b! "\\18") ∧ decodeLiteral 0 (b! "\\18") = .ok [1] :=
  ⟨.octal1 0 49 1 _ _ (by decide) (by decide) (.plain 0 56 _ _ (by decide) .nil), by decide⟩

/-- **C56** fails for a reverse solidus before the digit 8 or 9: the string is refused. -/
theorem C56_nine_counterexample : IsoLitBody 0 [0x39] (b! "\\9") ∧ decodeLiteral 0 (b! "\\9") = .error .invalidArgument :=
  ⟨.ignored 0 57 [] [] (by intro c; simp [escapes]) (by decide) (by decide) (by decide) .nil, by decide⟩

end VPdf
