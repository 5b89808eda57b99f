import Verif.Model.Writer
import Verif.Model.Peek
/-
  What is opened when the cross-references of a file cannot be read: `Parser::FindAllObjects` (parser.cpp:790-887), called
  by `File::Initialize` (file.cpp:143-155).
-/
namespace VPdf

/-- An entry of the table that is built, with the object it holds: parser.cpp:856-864. -/
structure FoundEntry where
  num : Nat
  gen : Nat
  off : Nat
  obj : PObj

/-- The chain that is built, parser.cpp:791-793: the table with its trailer (and `SetLastXrefOffset`), and the sections of
cross-reference streams, which are appended to the chain in front of the table. -/
structure Found where
  entries : List FoundEntry := []
  trailer : Dict := []
  last : Option Int := none
  streams : List ReadSection := []

/-- `XrefBase::Add`, xref.cpp:245-271: an entry with the same number is replaced. -/
def addFound (x : FoundEntry) (l : List FoundEntry) : List FoundEntry := l.filter (fun y => y.num != x.num) ++ [x]

/-- `m_stream->Readline()` (input_stream.cpp:102-142) behind token `t`, which was read from `s` and left `r`: Readline throws
when the eof flag is set (110-114). -/
def skipLine (t : Token) (s r : Bytes) : Res Bytes :=
  if r.isEmpty && looksBehind t s then .error .throw else .ok (readLine r).2

/-- The two places of parser.cpp:835-850 that leave a line alone which does not begin with `n g obj`. -/
def skipRest (t : Token) (s r : Bytes) : Res Bytes := if t.type == .eol then .ok r else skipLine t s r

/-- `Parser::ParseXrefStream`, parser.cpp:547-573: the part of `readStreamSection` behind the object. -/
def streamSection (c : Codec) (e : Env) (d : Dict) (off : Nat) : Res ReadSection :=
  match mapFind (b! "W") d, mapFind (b! "Size") d with
  | some (.arr w), some size => do
    let w ← natList w
    let size ← asInt e size
    let index ← (match mapFind (b! "Index") d with
      | none => if size < 0 then .error .notSupported else .ok [0, size.toNat]
      | some (.arr l) => natList l
      | some _ => .error .conversion : Res (List Nat))
    let raw ← rawBody e d off
    let body ← c.decode d raw
    match w with
    | [w1, w2, w3] => do
      let l ← readXrefStream ⟨⟨w1, w2, w3⟩, index, body⟩
      pure (l, d)
    | _ => throw .throw
  | _, _ => throw .missing

/-- The sections of a recovered object: a stream of type XRef is read as such, parser.cpp:867-879. -/
def foundSection (c : Codec) (e : Env) : PObj → Res (List ReadSection)
  | .direct _ => .ok []
  | .stream d off =>
    match mapFind (b! "Type") d with
    | none => .ok []
    | some (.name t) => if t == b! "XRef" then do
        let s ← streamSection c e d off
        pure [s]
      else .ok []
    | some _ => .error .conversion

/-- The entry that begins at `s`, whose first tokens were `tn`, `tg` and `obj`, behind which `r` is left:
parser.cpp:852-883.  The token behind the object is only asserted to be `endobj`. -/
def findObject (c : Codec) (e : Env) (s : Bytes) (tn tg : Token) (r : Bytes) (st : Found) : Res (Found × Bytes) := do
  let n ← stoull tn.value
  let g ← stoull tg.value
  if 65535 < g then throw .conversion
  let (o, r) ← parse e r
  let secs ← foundSection c e o
  let (_, r) ← readTokenSkip parserKeywords r
  pure ({ st with entries := addFound ⟨n, g, e.pos s, o⟩ st.entries, streams := st.streams ++ secs }, r)

/-- One round of the loop of `FindAllObjects`, parser.cpp:796-884, at input `s`: `none` when the loop is left. -/
def findRound (c : Codec) (e : Env) (s : Bytes) (st : Found) : Res (Option (Found × Bytes)) := do
  let (t, r) ← readToken parserKeywords s
  if t.type == .endOfInput then pure none
  else if t.type == .eol then pure (some (st, r))
  else if t.type == .keyword (b! "trailer") then do
    let (_, r) ← expectSkip parserKeywords .dictBegin r
    let (d, r) ← readDict e (2 * r.length + 2) r []
    pure (some ({ st with trailer := d }, r))
  else if t.type == .keyword (b! "startxref") then do
    let (t2, r2) ← readTokenSkip parserKeywords r
    if t2.type == .integer then do
      let i ← stoll t2.value
      pure (some ({ st with last := some i }, r2))
    else pure (some (st, r))
  else if t.type == .integer then do
    let (tg, rg) ← readToken parserKeywords r
    if tg.type == .integer then do
      let (tb, rb) ← readToken parserKeywords rg
      if tb.type == .keyword (b! "obj") then do
        let x ← findObject c e s t tg rb st
        pure (some x)
      else do
        let r ← skipRest tb rg rb
        pure (some (st, r))
    else do
      let r ← skipRest tg r rg
      pure (some (st, r))
  else do
    let r ← skipLine t s r
    pure (some (st, r))

/-- The loop of `FindAllObjects`, parser.cpp:796-884: at most so many rounds. -/
def findLoop (c : Codec) (e : Env) : Nat → Bytes → Found → Res Found
  | 0, _, _ => .error .timeout
  | f + 1, s, st => do
    match ← findRound c e s st with
    | none => pure st
    | some (st', r) => findLoop c e f r st'

/-- `Parser::FindAllObjects`, parser.cpp:790-887. -/
def findAllObjects (c : Codec) (file : Bytes) : Res Found := findLoop c (openEnv file) (file.length + 1) file {}

/-- What `File::Initialize` leaves in `_xref` (file.cpp:143-155). -/
inductive Opened where
  | read (sections : List ReadSection)
  | found (f : Found)

/-- The exceptions of file.cpp:149-155 that start the search: those of the library other than NotSupportedException.
Simplification: `Fault.conversion` stands for ConversionException of the library and for std::out_of_range, which is passed
on; the model passes both on. -/
def searches : Fault → Bool
  | .throw | .missing | .duplicateKey => true
  | _ => false

/-- `File::Initialize`, file.cpp:123-158, up to the flag `_initialized`. -/
def openAny (c : Codec) (file : Bytes) : Res (PdfVersion × Opened) := do
  let (v, _) ← readHeader file
  let chain : Res (List ReadSection) := do
    let off ← lastXrefOffset file
    readChain (openEnv file) (readSection (openEnv file) (readStreamSection c (openEnv file))) (file.length + 1) off
  match chain with
  | .ok xs => pure (v, .read xs)
  | .error f =>
    if searches f then do
      let r ← findAllObjects c file
      pure (v, .found r)
    else throw f

/-- `XrefChain::GetXrefEntry` (xref_chain.cpp:30-49) in the table at the end of the chain. -/
def findFound (n g : Nat) (l : List FoundEntry) : Option FoundEntry :=
  match l.find? (fun x => x.num == n) with
  | none => none
  | some x => if x.gen = g then some x else none

/-- `File::GetIndirectObject` (file.cpp:793-893) in a file whose objects were found by the search: the sections of
cross-reference streams come before the table.  The entries of the table hold their object; the data of a stream is read
when it is asked for (stream_object.cpp:160-202).  Objects in object streams are left out. -/
def foundObject (file : Bytes) (r : Found) : Nat → Nat → Nat → Res SObj
  | 0, _, _ => .error .timeout
  | f + 1, n, g =>
    let resolve : Nat → Nat → Res Int := fun n g => do
      match ← foundObject file r f n g with
      | .direct (.int i) => pure i
      | .direct (.real m p) => pure (m.tdiv (10 ^ p : Nat))
      | _ => throw .conversion
    match findRead r.streams n g with
    | some e =>
      match e.kind with
      | .free _ => .ok (.direct .null)
      | .used off => loadAt (fileEnv file resolve) n g off
      | .compressed _ _ => .error .notSupported
    | none =>
      match findFound n g r.entries with
      | none => .ok (.direct .null)
      | some x =>
        match x.obj with
        | .direct o => .ok (.direct o)
        | .stream d off => do
          let body ← rawBody (fileEnv file resolve) d off
          pure (.stream d body)

end VPdf
