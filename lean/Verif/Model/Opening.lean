import Verif.Model.XrefTable
/-
  Opening a file: lines, the header, the offset behind `startxref`, and the chain of cross-reference sections
  (src/vanillapdf/utils/streams/input_stream.cpp, syntax/parsers/parser.cpp, reverse_tokenizer.cpp, reverse_parser.cpp,
  syntax/files/file.cpp, file_writer.cpp).
-/
namespace VPdf

/-- `Version`, syntax/utils/version.h: the supported versions. -/
inductive PdfVersion where
  | v10 | v11 | v12 | v13 | v14 | v15 | v16 | v17 | v20
  deriving DecidableEq, Repr

/-- The match of `%PDF-([0-9])\.([0-9]).*` against a whole line, parser.cpp:742-746: the two digits.  A line has no
line terminators, so the rest always matches. -/
def headerDigits : Bytes → Option (Byte × Byte)
  | 0x25 :: 0x50 :: 0x44 :: 0x46 :: 0x2D :: a :: 0x2E :: b :: _ => if isNumeric a && isNumeric b then some (a, b) else none
  | _ => none

/-- The switch of parser.cpp:750-784; `none` when the loop goes on. -/
def headerVersion (a b : Byte) : Option (Res PdfVersion) :=
  if a = 0x31 then
    some (if b = 0x30 then .ok .v10 else if b = 0x31 then .ok .v11 else if b = 0x32 then .ok .v12
      else if b = 0x33 then .ok .v13 else if b = 0x34 then .ok .v14 else if b = 0x35 then .ok .v15
      else if b = 0x36 then .ok .v16 else if b = 0x37 then .ok .v17 else .error .notSupported)
  else if a = 0x32 then some (if b = 0x30 then .ok .v20 else .error .notSupported)
  else none

/-- `Parser::ReadHeader`, parser.cpp:737-788: the version and the remaining input.  The first argument bounds the number
of lines.  An empty last line is not read, it does not match. -/
def readHeaderLoop : Nat → Bytes → Res (PdfVersion × Bytes)
  | 0, _ => .error .timeout
  | _ + 1, [] => .error .throw
  | f + 1, s =>
    let (l, r) := readLine s
    match headerDigits l with
    | none => readHeaderLoop f r
    | some (a, b) =>
      match headerVersion a b with
      | none => readHeaderLoop f r
      | some v => v.map (fun v => (v, r))

/-- `Parser::ReadHeader` on the whole input, parser.cpp:737-788. -/
def readHeader (s : Bytes) : Res (PdfVersion × Bytes) := readHeaderLoop (s.length + 1) s

/-- The version digits of `WriteHeader`, file_writer.cpp:1277-1297. -/
def versionText : PdfVersion → Bytes
  | .v10 => b! "1.0" | .v11 => b! "1.1" | .v12 => b! "1.2" | .v13 => b! "1.3" | .v14 => b! "1.4"
  | .v15 => b! "1.5" | .v16 => b! "1.6" | .v17 => b! "1.7" | .v20 => b! "2.0"

/-- `FileWriter::WriteHeader`, file_writer.cpp:1271-1316. -/
def writeHeader (v : PdfVersion) : Bytes :=
  b! "%PDF-" ++ versionText v ++ b! "\n" ++ b! "%" ++ [0xDE, 0xAD, 0xC0, 0xDE] ++ b! "\n"

/-- `FileWriter::WriteXrefOffset`, file_writer.cpp:1259-1269. -/
def writeXrefOffset (offset : Int) : Bytes := b! "startxref\n" ++ intDec offset ++ b! "\n%%EOF\n"

/-- Token types of the reverse tokenizer. token.h:39-42. -/
inductive RevType where
  | endOfInput | eol | integer | eofMarker | startXref | unknown
  deriving DecidableEq, Repr

/-- `ReverseTokenDictionary`, token_dictionary.cpp:179-188. -/
def revFind (w : Bytes) : RevType :=
  if w = b! "FOE%%" then .eofMarker else if w = b! "ferxtrats" then .startXref else .unknown

/-- `ReverseTokenizer::ReadUnknown`, reverse_tokenizer.cpp:73-108. -/
def revUnknown (c : Byte) (s : Bytes) : RevType × Bytes × Bytes :=
  if isNumeric c then
    let digits := s.takeWhile isNumeric
    let s1 := s.dropWhile isNumeric
    let signs := s1.takeWhile (fun b => b == 0x2B || b == 0x2D)
    (.integer, c :: digits ++ signs, s1.dropWhile (fun b => b == 0x2B || b == 0x2D))
  else
    let w := c :: s.takeWhile (fun b => !isWhiteSpace b)
    (revFind w, w, s.dropWhile (fun b => !isWhiteSpace b))

/-- `ReverseTokenizer::ReadToken`, reverse_tokenizer.cpp:21-71, on the reversed input: type, value, rest.  The cache is
not used by the reverse parser. -/
def revToken : Bytes → RevType × Bytes × Bytes
  | [] => (.endOfInput, [], [])
  | c :: s =>
    if c = 0x0A then
      match s with
      | 0x0D :: s => (.eol, [], s)
      | s => (.eol, [], s)
    else if c = 0x20 ∨ c = 0x0C ∨ c = 0x09 ∨ c = 0x00 then revToken s
    else if c = 0x0D then (.eol, [], s)
    else revUnknown c s

/-- `ReverseParser::ReadTokenWithTypeSkip`, reverse_parser.cpp:25-49.  The first argument bounds the number of tokens. -/
def revExpect : Nat → RevType → Bytes → Res (Bytes × Bytes)
  | 0, _, _ => .error .timeout
  | f + 1, ty, s =>
    let (t, v, r) := revToken s
    if t = ty then .ok (v, r)
    else if t = .eol then revExpect f ty r
    else .error .throw

/-- `ReverseParser::ReadLastXrefOffset`, reverse_parser.cpp:14-23. -/
def revOffset (s : Bytes) : Res Int := do
  let (_, s) ← revExpect (s.length + 1) .eofMarker s
  let (v, s) ← revExpect (s.length + 1) .integer s
  let (_, _) ← revExpect (s.length + 1) .startXref s
  stoll v.reverse

/-- `File::GetLastXrefOffset`, file.cpp:760-791: the last 16 kilobytes are searched. -/
def lastXrefOffset (file : Bytes) : Res Int :=
  let toRead := if file.length < 16384 then file.length else 16384
  revOffset (file.drop (file.length - toRead)).reverse

example : lastXrefOffset (b! "%PDF-1.4\n\nstartxref 1\n%%EOF\nxref\n" ++ writeXrefOffset 1234) = .ok 1234 := by decide +kernel

/-- A cross-reference section as read: entries and trailer dictionary. xref.h:17-105. -/
abbrev ReadSection := EntrySet × Dict

/-- `Parser::ReadXref`, parser.cpp:715-728: a table or, by the parameter `stream`, a cross-reference stream. -/
def readSection (e : Env) (stream : Bytes → Res ReadSection) (offset : Int) : Res ReadSection := do
  let s := e.seek offset
  let (t, _) ← readTokenSkip parserKeywords s
  if t.type == .keyword (b! "xref") then do
    let (l, d, _) ← readXrefTable e s
    return (l, d)
  else stream s

/-- The entry Prev of a trailer, file.cpp:713-719 (`asInt` is the conversion of `FindAs`). -/
def prevOffset (e : Env) (d : Dict) : Res (Option Int) :=
  match mapFind (b! "Prev") d with
  | none => .ok none
  | some o => (asInt e o).map some

/-- The first loop of `File::ReadXref`, file.cpp:707-720, for any way to read a section.  The first argument bounds the
number of sections. -/
def readChain (e : Env) (section_ : Int → Res ReadSection) : Nat → Int → Res (List ReadSection)
  | 0, _ => .error .timeout
  | f + 1, offset => do
    let x ← section_ offset
    match ← prevOffset e x.2 with
    | none => return [x]
    | some p => do
      let xs ← readChain e section_ f p
      return x :: xs

end VPdf
