import Verif.Model.Tokenizer
import Verif.Model.Object
/-
  src/vanillapdf/syntax/parsers/parser.cpp: direct and indirect objects.

  The position of the reader is the list of bytes still to be read.  The peek cache of the tokenizer is left out
  here (see Model/Peek.lean, where it is shown to be unobservable).
-/
namespace VPdf

/-- `ParserBase::ReadTokenSkip`, parser.cpp:429-437; `ReadTokenWithTypeSkip` (462-478) and `PeekTokenSkip`
(439-455) find the same token.  The first argument bounds the number of line ends skipped. -/
def readTokenSkipN (dict : List Bytes) : Nat → Bytes → Res (Token × Bytes)
  | 0, _ => .error .timeout
  | f + 1, s => do
    let (t, r) ← readToken dict s
    if t.type == .eol then readTokenSkipN dict f r else pure (t, r)

/-- `ReadTokenSkip` on the whole remaining input. parser.cpp:429-437. -/
def readTokenSkip (dict : List Bytes) (s : Bytes) : Res (Token × Bytes) := readTokenSkipN dict (s.length + 1) s

/-- `ReadTokenWithTypeSkip` for a type other than EOL, parser.cpp:462-478. -/
def expectSkip (dict : List Bytes) (ty : TokType) (s : Bytes) : Res (Token × Bytes) := do
  let (t, r) ← readTokenSkip dict s
  if t.type == ty then pure (t, r) else throw .throw

/-- The digits of a real number behind the sign: digits, point, digits (`std::stod` on the text of a REAL token,
parser_utils.cpp:41-56).  At least one digit is required.  `m` collects the digits, `p` counts those behind the
point (`none`: the point has not been seen). -/
def scanReal : Bool → Nat → Option Nat → Bytes → Res (Nat × Nat)
  | seen, m, p, [] => if seen then .ok (m, p.getD 0) else .error .invalidArgument
  | seen, m, p, c :: rest =>
    if c == 0x2E then
      match p with
      | none => scanReal seen m (some 0) rest
      | some q => if seen then .ok (m, q) else .error .invalidArgument
    else scanReal true (m * 10 + digitVal c) (p.map (· + 1)) rest

/-- `ParserUtils::CreateReal`, parser_utils.cpp:41-56, with exact decimals instead of `double`. -/
def parseReal (s : Bytes) : Res Obj :=
  match s with
  | 0x2D :: rest => do let (m, p) ← scanReal false 0 none rest; pure (.real (-(m : Int)) p)
  | 0x2B :: rest => do let (m, p) ← scanReal false 0 none rest; pure (.real m p)
  | _ => do let (m, p) ← scanReal false 0 none s; pure (.real m p)

/-- What `ReadDirectObject` returns: a direct object, or a stream object, given by its dictionary and the
position of its data. parser.cpp:130-255, 336-370. -/
inductive PObj where
  | direct (o : Obj)
  | stream (d : Dict) (off : Nat)
  deriving Repr

/-- What the parser uses besides the remaining input: the whole input (to seek), whether the file has been
initialised, and the integer an indirect reference leads to. parser.cpp: `_file`, `m_stream`; file.cpp:793-803. -/
structure Env where
  whole : Bytes
  initialized : Bool
  resolveInt : Nat → Nat → Res Int

/-- Position of the reader. `GetInputPosition`, input_stream.cpp:61-96. -/
def Env.pos (e : Env) (rem : Bytes) : Nat := e.whole.length - rem.length

/-- `SetInputPosition` (input_stream.cpp:61-96) to an absolute position: beyond either end of the input the next
token is the end of input. -/
def Env.seek (e : Env) (p : Int) : Bytes := if p < 0 then [] else e.whole.drop p.toNat

/-- `InputStream::Readline`, utils/streams/input_stream.cpp:102-142: the line and what is behind its end. -/
def readLine : Bytes → Bytes × Bytes
  | [] => ([], [])
  | 0x0D :: 0x0A :: rest => ([], rest)
  | c :: rest =>
    if c == 0x0D || c == 0x0A then ([], rest)
    else ((c :: (readLine rest).1), (readLine rest).2)

/-- `std::string::find`: offset of the first occurrence. parser.cpp:188. -/
def findSub (w : Bytes) : Bytes → Option Nat
  | [] => if w.isEmpty then some 0 else none
  | c :: rest => if w.isPrefixOf (c :: rest) then some 0 else (findSub w rest).map (· + 1)

/-- The value of an object as an integer (`ObjectUtils::ConvertTo<IntegerObjectPtr>`,
syntax/utils/object_utils.h:77-98 and 124-175): integers, truncated reals, and references to them. -/
def asInt (e : Env) : Obj → Res Int
  | .int i => .ok i
  | .real m p => .ok (m.tdiv (10 ^ p : Nat))
  | .ref n g => e.resolveInt n g
  | _ => .error .conversion

/-- Replaces the value of an existing key (`*length = computed_length`, parser.cpp:242-243). -/
def dictSet (k : Bytes) (v : Obj) (d : Dict) : Dict := d.map fun e => if e.1 == k then (k, v) else e

/-- The line at `s` contains `endstream` at column `p`, `r` is behind the line (parser.cpp:199-232): position of the
end of the data, without the line end in front of `endstream`, and the remaining input. -/
def endstreamLine (e : Env) (s r : Bytes) (p : Nat) : Res (Int × Bytes) :=
  let offset : Int := e.pos s
  if p == 0 then do
    let back := e.seek (offset - 2)
    let c1 := back.head?
    let c2 := back.tail.head?
    let (_, r') ← expectSkip parserKeywords (.keyword (b! "endstream")) (back.drop 2)
    pure (if c1 == some 0x0D then (if c2 == some 0x0A then offset - 2 else offset - 1)
      else if c2 == some 0x0D || c2 == some 0x0A then offset - 1
      else offset, r')
  else pure (offset, r)

/-- The length found is stored in the dictionary, parser.cpp:233-247. -/
def correctLength (e : Env) (d : Dict) (len : Int) : Res Dict :=
  match mapFind (b! "Length") d with
  | none => pure (mapInsert (b! "Length") (.int len) d)
  | some (.int _) => pure (dictSet (b! "Length") (.int len) d)
  | some lo =>
    if e.initialized then do
      let _ ← asInt e lo
      match lo with
      | .ref _ _ => pure d
      | _ => pure (dictSet (b! "Length") (.int len) d)
    else pure (mapInsert (b! "Length") (.int len) d)

/-- The search for `endstream` line by line, parser.cpp:182-247.  Returns the dictionary with the corrected
length and the remaining input.  Readline at the end of input throws (input_stream.cpp:110-114). -/
def streamFallback (e : Env) (d : Dict) (off : Nat) : Nat → Bytes → Res (Dict × Bytes)
  | 0, _ => .error .timeout
  | f + 1, s =>
    match s with
    | [] => .error .throw
    | _ =>
      match findSub (b! "endstream") (readLine s).1 with
      | none => streamFallback e d off f (readLine s).2
      | some p => do
        let _ ← readTokenSkip parserKeywords (readLine s).2
        let (offset, rem) ← endstreamLine e s (readLine s).2 p
        let d' ← correctLength e d (max 0 (offset + p - off))
        pure (d', rem)

/-- `ParserBase::ReadDictionaryStream` behind the dictionary, parser.cpp:132-254. -/
def readStreamPart (e : Env) (d : Dict) (s : Bytes) : Res (PObj × Bytes) := do
  let (t, r) ← readTokenSkip parserKeywords s
  if t.type == .keyword (b! "stream") then do
    let (t2, r2) ← readToken parserKeywords r
    if t2.type != .eol then throw .throw
    let off := e.pos r2
    let fallback : Res (PObj × Bytes) := do
      let (d', rem) ← streamFallback e d off (r2.length + 1) r2
      pure (.stream d' off, rem)
    match mapFind (b! "Length") d with
    | none => fallback
    | some lo =>
      if (match lo with | .int _ => false | _ => !e.initialized) then fallback
      else do
        let len ← asInt e lo
        let (t3, r3) ← readTokenSkip parserKeywords (e.seek (off + len))
        if t3.type == .keyword (b! "endstream") then pure (.stream d off, r3)
        else fallback
  else pure (.direct (.dict d), s)

/-- `ParserBase::ReadIndirectReference`, parser.cpp:43-63, behind the first integer token. -/
def readReference (t : Token) (s : Bytes) : Res (PObj × Bytes) := do
  let i ← stoll t.value
  let (t2, r2) ← readTokenSkip parserKeywords s
  if t2.type == .integer then do
    let g ← stoll t2.value
    let (t3, r3) ← readTokenSkip parserKeywords r2
    if t3.type == .keyword (b! "R") then
      if 0 ≤ i ∧ 0 ≤ g ∧ g ≤ 65535 then pure (.direct (.ref i.toNat g.toNat), r3)
      else throw .conversion
    else pure (.direct (.int i), s)
  else pure (.direct (.int i), s)

mutual
/-- `ParserBase::ReadDirectObject`, parser.cpp:336-369, with the readers it calls (36-128, 277-310).  The first
argument bounds the recursion; `parse` supplies enough for every input. -/
def readDirect (e : Env) : Nat → Bytes → Res (PObj × Bytes)
  | 0, _ => .error .timeout
  | f + 1, s => do
    let (t, r) ← readTokenSkip parserKeywords s
    match t.type with
    | .dictBegin => do
      let (d, r) ← readDict e f r []
      readStreamPart e d r
    | .integer => readReference t r
    | .arrayBegin => readArr e f r []
    | .name => pure (.direct (.name t.value), r)
    | .hexString => do let v ← decodeHexPairs t.value; pure (.direct (.hex v), r)
    | .literalString => do let v ← decodeLiteral 0 t.value; pure (.direct (.lit v), r)
    | .real => do let o ← parseReal t.value; pure (.direct o, r)
    | .keyword w =>
      if w == b! "true" then pure (.direct (.bool true), r)
      else if w == b! "false" then pure (.direct (.bool false), r)
      else if w == b! "null" then pure (.direct .null, r)
      else throw .throw
    | _ => throw .throw
/-- The loop of `ParserBase::ReadArray`, parser.cpp:257-275; a stream object is not containable. -/
def readArr (e : Env) : Nat → Bytes → List Obj → Res (PObj × Bytes)
  | 0, _, _ => .error .timeout
  | f + 1, s, acc => do
    let (t, r) ← readTokenSkip parserKeywords s
    if t.type == .arrayEnd then pure (.direct (.arr acc), r)
    else do
      let (o, r) ← readDirect e f s
      match o with
      | .direct o => readArr e f r (acc ++ [o])
      | .stream _ _ => throw .conversion
/-- The loop of `ParserBase::ReadDictionary`, parser.cpp:79-128. -/
def readDict (e : Env) : Nat → Bytes → Dict → Res (Dict × Bytes)
  | 0, _, _ => .error .timeout
  | f + 1, s, acc => do
    let (t, r) ← readTokenSkip parserKeywords s
    if t.type == .dictEnd then pure (acc, r)
    else do
      let (k, r1) ← readDirect e f s
      let (v, r2) ← readDirect e f r1
      match v, k with
      | .direct .null, _ => readDict e f r2 acc
      | .direct o, .direct (.name n) =>
        match mapFind n acc with
        | some _ => readDict e f r2 acc
        | none => readDict e f r2 (mapInsert n o acc)
      | .stream _ _, .direct (.name n) =>
        match mapFind n acc with
        | some _ => readDict e f r2 acc
        | none => throw .conversion
      | _, _ => readDict e f r2 acc
end

/-- `ReadDirectObject` with enough fuel for the input. parser.cpp:130-255, 336-370. -/
def parse (e : Env) (s : Bytes) : Res (PObj × Bytes) := readDirect e (2 * s.length + 2) s

/-- `Parser::ReadIndirectObject`, parser.cpp:312-329: `N G obj` object `endobj`. -/
def parseIndirect (e : Env) (s : Bytes) : Res (Nat × Nat × PObj × Bytes) := do
  let (tn, s) ← expectSkip parserKeywords .integer s
  let (tg, s) ← expectSkip parserKeywords .integer s
  let (_, s) ← expectSkip parserKeywords (.keyword (b! "obj")) s
  let (o, s) ← parse e s
  let (_, s) ← expectSkip parserKeywords (.keyword (b! "endobj")) s
  let n ← stoll tn.value
  let g ← stoll tg.value
  if 0 ≤ n ∧ 0 ≤ g ∧ g ≤ 65535 then pure (n.toNat, g.toNat, o, s) else throw .conversion

end VPdf
