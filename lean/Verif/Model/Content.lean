import Verif.Model.Parser
/-
  src/vanillapdf/contents: reading and writing of content streams, and semantics/objects/page_contents.cpp.

  As in Model/Parser.lean the position of the reader is the list of bytes still to be read.  The release build is
  modelled: `assert` does nothing.
-/
namespace VPdf

/-- The operators of content streams, token_dictionary.cpp:60-134 and 224-305; the same texts are written by
content_stream_operators.h:32-134. -/
def contentOperators : List Bytes :=
  [b! "w", b! "J", b! "j", b! "M", b! "d", b! "ri", b! "i", b! "gs", b! "q", b! "Q", b! "cm", b! "m", b! "l", b! "c",
   b! "v", b! "y", b! "h", b! "re", b! "S", b! "s", b! "f", b! "F", b! "f*", b! "B", b! "B*", b! "b", b! "b*", b! "n",
   b! "W", b! "W*", b! "BT", b! "ET", b! "Tc", b! "Tw", b! "Tz", b! "TL", b! "Tf", b! "Tr", b! "Ts", b! "Td", b! "TD",
   b! "Tm", b! "T*", b! "Tj", b! "TJ", b! "'", b! "\"", b! "d0", b! "d1", b! "CS", b! "cs", b! "SC", b! "SCN", b! "sc",
   b! "scn", b! "G", b! "g", b! "RG", b! "rg", b! "K", b! "k", b! "sh", b! "BI", b! "ID", b! "EI", b! "Do", b! "MP",
   b! "DP", b! "BMC", b! "BDC", b! "EMC", b! "BX", b! "EX"]

/-- `ContentStreamTokenDictionary::Initialize`, token_dictionary.cpp:224-305: the operators and the keywords of
`ParserTokenDictionary`. -/
def contentKeywords : List Bytes := contentOperators ++ parserKeywords

mutual
/-- `ContentStreamParser::ReadDirectObject`, content_stream_parser.cpp:397-430, with the readers of parser.cpp:36-128
and 257-310 it calls: as `ParserBase::ReadDirectObject` without references and streams.  The first argument bounds
the recursion; `readOperand` supplies enough for every input. -/
def readContent : Nat → Bytes → Res (Obj × Bytes)
  | 0, _ => .error .timeout
  | f + 1, s => do
    let (t, r) ← readTokenSkip contentKeywords s
    match t.type with
    | .dictBegin => do
      let (d, r) ← readContentDict f r []
      pure (.dict d, r)
    | .integer => do let i ← stoll t.value; pure (.int i, r)
    | .arrayBegin => readContentArr f r []
    | .name => pure (.name t.value, r)
    | .hexString => do let v ← decodeHexPairs t.value; pure (.hex v, r)
    | .literalString => do let v ← decodeLiteral 0 t.value; pure (.lit v, r)
    | .real => do let o ← parseReal t.value; pure (o, r)
    | .keyword w =>
      if w == b! "true" then pure (.bool true, r)
      else if w == b! "false" then pure (.bool false, r)
      else if w == b! "null" then pure (.null, r)
      else throw .throw
    | _ => throw .throw
/-- The loop of `ParserBase::ReadArray`, parser.cpp:257-275, in a content stream. -/
def readContentArr : Nat → Bytes → List Obj → Res (Obj × Bytes)
  | 0, _, _ => .error .timeout
  | f + 1, s, acc => do
    let (t, r) ← readTokenSkip contentKeywords s
    if t.type == .arrayEnd then pure (.arr acc, r)
    else do
      let (o, r) ← readContent f s
      readContentArr f r (acc ++ [o])
/-- The loop of `ParserBase::ReadDictionary`, parser.cpp:79-128, in a content stream. -/
def readContentDict : Nat → Bytes → Dict → Res (Dict × Bytes)
  | 0, _, _ => .error .timeout
  | f + 1, s, acc => do
    let (t, r) ← readTokenSkip contentKeywords s
    if t.type == .dictEnd then pure (acc, r)
    else do
      let (k, r1) ← readContent f s
      let (v, r2) ← readContent f r1
      match v, k with
      | .null, _ => readContentDict f r2 acc
      | o, .name n =>
        match mapFind n acc with
        | some _ => readContentDict f r2 acc
        | none => readContentDict f r2 (mapInsert n o acc)
      | _, _ => readContentDict f r2 acc
end

/-- `ContentStreamParser::ReadDirectObject` with enough fuel for the input, content_stream_parser.cpp:397-430. -/
def readOperand (s : Bytes) : Res (Obj × Bytes) := readContent (2 * s.length + 2) s

/-- `ContentStreamParser::IsOperand`, content_stream_parser.cpp:379-395. -/
def isOperand : TokType → Bool
  | .dictBegin | .integer | .arrayBegin | .name | .hexString | .literalString | .real => true
  | .keyword w => w == b! "true" || w == b! "false" || w == b! "null"
  | _ => false

/-- An operation: `OperationGeneric` and the classes of content_stream_operations.h:14-330, by their operands and
the text of the operator.  The classes for `Tf`, `Tj` and `TJ` hold the operands under names of their own and write
them in the same order (content_stream_operations.cpp:339-372, content_stream_operation_generic.cpp:28-50); the type
of the operation is a function of the text. -/
structure COp where
  operands : List Obj
  op : Bytes
  deriving Repr

/-- `ObjectUtils::IsType<RealObjectPtr>` for a direct object, object_utils.h:100-123: integers are accepted too. -/
def isNumber : Obj → Bool
  | .int _ | .real _ _ => true
  | _ => false

/-- The checks in the constructors of the operations the parser makes, content_stream_operations.cpp:18-30, 98-119,
143-193; the other operators make an `OperationGeneric`, which accepts everything. -/
def makeOp (args : List Obj) (w : Bytes) : Res COp :=
  if w == b! "BT" || w == b! "ET" || w == b! "BI" || w == b! "ID" || w == b! "EI" then
    if args.isEmpty then pure ⟨args, w⟩ else throw .throw
  else if w == b! "Tf" then
    match args with
    | [.name _, x] => if isNumber x then pure ⟨args, w⟩ else throw .throw
    | _ => throw .throw
  else if w == b! "Tj" then
    match args with
    | [.lit _] => pure ⟨args, w⟩
    | [.hex _] => pure ⟨args, w⟩
    | _ => throw .throw
  else if w == b! "TJ" then
    match args with
    | [.arr _] => pure ⟨args, w⟩
    | _ => throw .throw
  else pure ⟨args, w⟩

/-- The loop of `ContentStreamParser::ReadOperation`, content_stream_parser.cpp:198-219, up to the operator.  The
first argument bounds the number of operands. -/
def readOperands : Nat → Bytes → List Obj → Res (List Obj × Bytes)
  | 0, _, _ => .error .timeout
  | f + 1, s, acc => do
    let (t, _) ← readTokenSkip contentKeywords s
    if isOperand t.type then do
      let (o, r) ← readOperand s
      readOperands f r (acc ++ [o])
    else pure (acc, s)

/-- `ContentStreamParser::ReadOperation` and `ReadOperatorReturnOperation`, content_stream_parser.cpp:198-377.  A
token that is no operator, also a closing bracket or the end of the input, gives an unknown operator with the text of
the token. -/
def readOperation (s : Bytes) : Res (COp × Bytes) := do
  let (args, s) ← readOperands (s.length + 1) s []
  let (t, r) ← readTokenSkip contentKeywords s
  let o ← makeOp args t.value
  pure (o, r)

/-- An instruction, content_stream_instruction_base.h:14-24: an operation, or a text or inline image object
(content_stream_objects.h). -/
inductive Instr where
  | op (o : COp)
  | text (ops : List COp)
  | image (d : Dict) (data : Bytes)
  deriving Repr

/-- The loop over the operations of a text object in `ContentStreamParser::ReadInstruction`,
content_stream_parser.cpp:170-191: up to `ET` or the end of the input. -/
def readText : Nat → Bytes → List COp → Res (Instr × Bytes)
  | 0, _, _ => .error .timeout
  | f + 1, s, acc => do
    let (t, _) ← readTokenSkip contentKeywords s
    if t.type == .endOfInput then pure (.text acc, s)
    else do
      let (o, r) ← readOperation s
      if o.op == b! "ET" then pure (.text acc, r) else readText f r (acc ++ [o])

/-- The dictionary of an inline image, content_stream_parser.cpp:49-76.  A key that occurs twice is an error
(`DictionaryObject::Insert`, dictionary_object.cpp).  On a token other than a name and `ID` the loop does not advance:
it runs forever (in the release build the assertion on line 75 is not compiled). -/
def readImageDict : Nat → Bytes → Dict → Res (Dict × Bytes)
  | 0, _, _ => .error .timeout
  | f + 1, s, acc => do
    let (t, r) ← readTokenSkip contentKeywords s
    if t.type == .name then do
      let (v, r2) ← readOperand r
      match v with
      | .null => readImageDict f r2 acc
      | v =>
        match mapFind t.value acc with
        | some _ => throw .duplicateKey
        | none => readImageDict f r2 (mapInsert t.value v acc)
    else if t.type == .keyword (b! "ID") then pure (acc, s)
    else .error .timeout

/-- `stage` of the loop over the data of an inline image with the character stored, content_stream_parser.cpp:87-88. -/
inductive ImgStage where
  | plain
  | ws (w : Byte)
  | e (w : Byte)
  | ei (w : Byte)
  deriving DecidableEq, Repr

/-- The loop over the data of an inline image, content_stream_parser.cpp:84-149: the data and what is behind the
character that follows `EI`.  `Get` at the end of the input returns EOF, which is no `unsigned char`. -/
def readImageData : ImgStage → Bytes → Bytes → Res (Bytes × Bytes)
  | _, [], _ => .error .conversion
  | .plain, c :: rest, acc =>
    if isWhiteSpace c then readImageData (.ws c) rest acc else readImageData .plain rest (acc ++ [c])
  | .ws w, c :: rest, acc =>
    if c == 0x45 then readImageData (.e w) rest acc
    else if isWhiteSpace c then readImageData (.ws c) rest (acc ++ [w])
    else readImageData .plain rest (acc ++ [w, c])
  | .e w, c :: rest, acc =>
    if c == 0x49 then readImageData (.ei w) rest acc
    else readImageData .plain rest (acc ++ [w, 0x45, c])
  | .ei w, c :: rest, acc =>
    if isWhiteSpace c then .ok (acc, rest)
    else readImageData .plain rest (acc ++ [w, 0x45, 0x49, c])

/-- `ContentStreamParser::ReadInlineImageObject`, content_stream_parser.cpp:47-152, behind `BI`. -/
def readImage (s : Bytes) : Res (Instr × Bytes) := do
  let (d, s) ← readImageDict (s.length + 1) s []
  let (_, s) ← readOperation s
  let (data, s) ← readImageData .plain s []
  pure (.image d data, s)

/-- `ContentStreamParser::ReadInstruction`, content_stream_parser.cpp:154-196. -/
def readInstruction (s : Bytes) : Res (Instr × Bytes) := do
  let (o, r) ← readOperation s
  if o.op == b! "BI" then readImage r
  else if o.op == b! "BT" then readText (r.length + 1) r []
  else pure (.op o, r)

/-- The loop of `ContentStreamParser::ReadInstructions`, content_stream_parser.cpp:25-45. -/
def readInstructionsN : Nat → Bytes → List Instr → Res (List Instr)
  | 0, _, _ => .error .timeout
  | f + 1, s, acc => do
    let (t, _) ← readTokenSkip contentKeywords s
    if t.type == .endOfInput then pure acc
    else do
      let (i, r) ← readInstruction s
      readInstructionsN f r (acc ++ [i])

/-- `ContentStreamParser::ReadInstructions` of the whole input, content_stream_parser.cpp:25-45. -/
def readInstructions (s : Bytes) : Res (List Instr) := readInstructionsN (s.length + 1) s []

/-- The operands, a space behind each (content_stream_operation_generic.cpp:31-45). -/
def writeOperands : List Obj → Bytes
  | [] => []
  | o :: os => writeObj o ++ 0x20 :: writeOperands os

/-- `OperationGeneric::ToPdf`, content_stream_operation_generic.cpp:28-50, and `ToPdf` of the other operations the
parser makes, content_stream_operations.cpp:256-266, 335-386. -/
def writeOp (o : COp) : Bytes := writeOperands o.operands ++ o.op

/-- The operations of a text object, one per line, content_stream_objects.cpp:23-25. -/
def writeOps : List COp → Bytes
  | [] => []
  | o :: os => writeOp o ++ 0x0A :: writeOps os

/-- The entries of the dictionary of an inline image, one per line, content_stream_objects.cpp:40-45. -/
def writeImageDict : Dict → Bytes
  | [] => []
  | (k, v) :: rest => writeObj (.name k) ++ 0x20 :: (writeObj v ++ 0x0A :: writeImageDict rest)

/-- `TextObject::ToPdf` and `InlineImageObject::ToPdf`, content_stream_objects.cpp:15-59. -/
def writeInstr : Instr → Bytes
  | .op o => writeOp o
  | .text ops => b! "BT" ++ 0x0A :: (writeOps ops ++ b! "ET")
  | .image d data => b! "BI" ++ 0x0A :: (writeImageDict d ++ b! "ID" ++ 0x0A :: (data ++ 0x0A :: b! "EI"))

/-- The text `PageContents::RecalculateStreamData` writes, page_contents.cpp:60-63. -/
def writeInstructions : List Instr → Bytes
  | [] => []
  | i :: is => writeInstr i ++ 0x0A :: writeInstructions is

/-- `PageContents::Instructions`, page_contents.cpp:97-135: the bodies of the content streams of the page, one
directly behind the other, are read as one input. -/
def pageInstructions (bodies : List Bytes) : Res (List Instr) := readInstructions bodies.flatten

end VPdf
