import Verif.Model.Numbers
/-
  src/vanillapdf/syntax/parsers/tokenizer.cpp and token_dictionary.cpp

  The stream is the list of the bytes still to be read.  `Peek` on an empty list is end of input.  The eof
  and fail flags of the C++ stream carry no information beyond "the list is empty": every function tests
  `Peek()`/`Eof()` before `Get()`, and `Read(2)` at the end returns the bytes that are left.
-/
namespace VPdf

/-- `Token::Type` (syntax/parsers/token.h:12-120).  The members for keywords are represented by the keyword
itself: `token_dictionary.cpp` maps each keyword to one member. -/
inductive TokType where
  | endOfInput | eol
  | dictBegin | dictEnd | hexString | literalString
  | arrayBegin | arrayEnd | name | integer | real
  | keyword (w : Bytes)
  | unknown
  deriving DecidableEq, Repr

/-- `Token`: type and text. token.h:11-13. -/
structure Token where
  type : TokType
  value : Bytes := []
  deriving DecidableEq, Repr

/-- `TokenDictionaryBase::Find`, token_dictionary.cpp:136-157; the dictionary is its list of keywords. -/
def dictFind (dict : List Bytes) (w : Bytes) : TokType :=
  if dict.contains w then .keyword w else .unknown

/-- `ParserTokenDictionary::Initialize`, token_dictionary.cpp:15-26 and 159-177. -/
def parserKeywords : List Bytes :=
  [b! "stream", b! "endstream", b! "obj", b! "endobj", b! "xref", b! "startxref", b! "trailer",
   b! "null", b! "true", b! "false", b! "R"]

/-- The `continue` branches of the loop of `Tokenizer::ReadToken` (tokenizer.cpp:30-52) together with
`ReadComment` (172-197).  The flag tells whether control is inside the loop of `ReadComment`. -/
def skipBlank : Bool → Bytes → Bytes
  | _, [] => []
  | true, 0x0D :: 0x0A :: rest => skipBlank false rest
  | true, c :: rest => skipBlank (!(c == 0x0D || c == 0x0A)) rest
  | false, c :: rest =>
    if c == 0x20 || c == 0x0C || c == 0x09 || c == 0x00 then skipBlank false rest
    else if c == 0x25 then skipBlank true rest
    else c :: rest

/-- `Tokenizer::ReadName`, tokenizer.cpp:232-251, behind the solidus. -/
def readName : Bytes → Res (Bytes × Bytes)
  | [] => .ok ([], [])
  | c :: rest =>
    if isRegular c then
      if c == 0x23 then
        match rest with
        | [] => do let v ← parseByte 16 []; pure ([v], [])
        | [x] => do let v ← parseByte 16 [x]; pure ([v], [])
        | x :: y :: rest' => do
          let v ← parseByte 16 [x, y]
          let (n, r) ← readName rest'
          pure (v :: n, r)
      else do
        let (n, r) ← readName rest
        pure (c :: n, r)
    else .ok ([], c :: rest)

/-- `Tokenizer::ReadHexadecimalString`, tokenizer.cpp:199-230, behind `<`.  End of input terminates the string. -/
def readHexString : Bytes → Res (Bytes × Bytes)
  | [] => .ok ([], [])
  | c :: rest =>
    if c == 0x3E then .ok ([], rest)
    else if isWhiteSpace c then readHexString rest
    else if isNumeric c || isAlpha c then do
      let (s, r) ← readHexString rest
      pure (c :: s, r)
    else .error .throw

/-- `Tokenizer::ReadLiteralString`, tokenizer.cpp:253-302, behind the opening parenthesis.  Arguments:
`previous_backslash` and `nested_count`.  The counter is a natural number: `int` overflow needs more than 2^31
nested parentheses and is not modelled. -/
def readLiteral : Bool → Nat → Bytes → Res (Bytes × Bytes)
  | _, _, [] => .error .throw
  | true, n, c :: rest => do
    let (s, r) ← readLiteral false n rest
    pure (c :: s, r)
  | false, n, c :: rest =>
    if c == 0x29 && n == 1 then .ok ([], rest)
    else do
      let n' := if c == 0x28 then n + 1 else if c == 0x29 then n - 1 else n
      let (s, r) ← readLiteral (c == 0x5C) n' rest
      pure (c :: s, r)

/-- `Tokenizer::ReadUnknown`, tokenizer.cpp:103-170; the first character has been read. -/
def readUnknown (dict : List Bytes) (ch : Byte) (rest : Bytes) : Token × Bytes :=
  if isNumeric ch || ch == 0x2B || ch == 0x2D || ch == 0x2E then
    let ds := rest.takeWhile isNumeric
    let rest1 := rest.dropWhile isNumeric
    if ch == 0x2E then (⟨.real, ch :: ds⟩, rest1)
    else
      match rest1 with
      | 0x2E :: rest2 =>
        (⟨.real, ch :: ds ++ 0x2E :: rest2.takeWhile isNumeric⟩, rest2.dropWhile isNumeric)
      | _ => (⟨.integer, ch :: ds⟩, rest1)
  else
    let w := ch :: rest.takeWhile isRegular
    (⟨dictFind dict w, w⟩, rest.dropWhile isRegular)

/-- `Tokenizer::ReadToken` without the cache, tokenizer.cpp:30-100. -/
def readToken (dict : List Bytes) (s : Bytes) : Res (Token × Bytes) :=
  match skipBlank false s with
  | [] => .ok (⟨.endOfInput, []⟩, [])
  | 0x0A :: rest => .ok (⟨.eol, []⟩, rest)
  | 0x0D :: 0x0A :: rest => .ok (⟨.eol, []⟩, rest)
  | 0x0D :: rest => .ok (⟨.eol, []⟩, rest)
  | 0x3E :: 0x3E :: rest => .ok (⟨.dictEnd, []⟩, rest)
  | 0x3E :: _ => .error .throw
  | 0x3C :: 0x3C :: rest => .ok (⟨.dictBegin, []⟩, rest)
  | 0x3C :: 0x3E :: rest => .ok (⟨.hexString, []⟩, rest)
  | 0x3C :: rest => do
    let (v, r) ← readHexString rest
    pure (⟨.hexString, v⟩, r)
  | 0x5B :: rest => .ok (⟨.arrayBegin, []⟩, rest)
  | 0x5D :: rest => .ok (⟨.arrayEnd, []⟩, rest)
  | 0x2F :: rest => do
    let (v, r) ← readName rest
    pure (⟨.name, v⟩, r)
  | 0x28 :: rest => do
    let (v, r) ← readLiteral false 1 rest
    pure (⟨.literalString, v⟩, r)
  | ch :: rest => .ok (readUnknown dict ch rest)

end VPdf
