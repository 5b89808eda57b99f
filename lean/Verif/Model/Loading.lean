import Verif.Model.ObjectStream
/-
  Loading objects with the position of the reader: `File::GetIndirectObject` (syntax/files/file.cpp:793-893),
  `XrefUsedEntry::Initialize` and `XrefCompressedEntry::Initialize` (syntax/files/xref_entry.cpp:146-287),
  `File::InitializeObjectStream` (file.cpp:175-232), `ParserBase::ReadDictionaryStream` (syntax/parsers/parser.cpp:130-255) and
  `StreamObject::GetBodyRaw` (syntax/objects/stream_object.cpp:160-202) share one input stream.  Model/ObjectStream has the same
  functions without the position.
-/
namespace VPdf

/-- What a request for an object leaves behind: the state of the file, the position of the reader if it is not where it was
before (file.cpp: `_input`), and the object. -/
structure Fetch where
  st : Loaded
  pos : Option Nat
  obj : Res SObj

/-- An object as an integer, syntax/utils/object_utils.h:77-98. -/
def toInt : SObj → Res Int
  | .direct (.int i) => .ok i
  | .direct (.real m p) => .ok (m.tdiv (10 ^ p : Nat))
  | _ => .error .conversion

/-- The integer a reference leads to; `look` loads the object. object_utils.h:124-160.  Left out: an object that is itself a
reference. -/
def lookInt (look : Nat → Nat → Fetch) (k m : Nat) : Res Int := (look k m).obj >>= toInt

/-- The beginning of an object that is a stream: `n g obj`, the header, `stream` and the end of the line, parser.cpp:130-136 and
312-318; number, generation, header, position of the data, and what is behind it. -/
def streamHead (e : Env) (s : Bytes) : Res (Token × Token × Dict × Nat × Bytes) := do
  let (tn, s) ← expectSkip parserKeywords .integer s
  let (tg, s) ← expectSkip parserKeywords .integer s
  let (_, s) ← expectSkip parserKeywords (.keyword (b! "obj")) s
  let (t, r) ← readTokenSkip parserKeywords s
  if t.type != .dictBegin then throw .throw
  let (d, r) ← readDict e (2 * s.length + 1) r []
  let (t, r) ← readTokenSkip parserKeywords r
  if t.type != .keyword (b! "stream") then throw .throw
  let (t, r) ← readToken parserKeywords r
  if t.type != .eol then throw .throw
  pure (tn, tg, d, e.pos r, r)

/-- The rest of a stream whose length `len` was found by following a reference, parser.cpp:158-254 and 318-329,
stream_object.cpp:160-202.  The reader is at `here` when it skips the data (parser.cpp:160: relative to the current position).
Result: the data, and the length the search for `endstream` has found, which is assigned to the object with the length
(parser.cpp:246-247).  Simplified: the data are read at once (in the code when they are asked for). -/
def streamTail (e : Env) (d : Dict) (data here : Nat) (len : Int) (r : Bytes) : Res (Bytes × Option Int × Bytes) := do
  let (t, r3) ← readTokenSkip parserKeywords (e.seek (here + len))
  if t.type == .keyword (b! "endstream") then
    if len < 0 then throw .conversion
    pure ((e.whole.drop data).take len.toNat, none, r3)
  else do
    let (d', rem) ← streamFallback e (mapInsert (b! "Length") (.int 0) (mapErase (b! "Length") d)) data (r.length + 1) r
    let found ← rawBody e d' data
    pure (found, some (found.length : Int), rem)

/-- `endobj` and the number, parser.cpp:319-329, xref_entry.cpp:247-259.  An object with another number or generation
(file.cpp:834-880) is left out. -/
def streamEnd (n g : Nat) (tn tg : Token) (r : Bytes) : Res Unit := do
  let (_, _) ← expectSkip parserKeywords (.keyword (b! "endobj")) r
  let n' ← stoll tn.value
  let g' ← stoll tg.value
  if n' < 0 ∨ g' < 0 ∨ 65535 < g' then throw .conversion
  if n'.toNat ≠ n ∨ g'.toNat ≠ g then throw .notSupported
  pure ()

/-- The reference in the entry Length of a header. parser.cpp:147-155. -/
def lengthRef (d : Dict) : Option (Nat × Nat) :=
  match mapFind (b! "Length") d with
  | some (.ref k m) => some (k, m)
  | _ => none

/-- `FindAs<IntegerObjectPtr>` of an entry of an object stream with the conversions of file.cpp:191-192 and 203; `look` loads
the object of a reference. -/
def lookNat (look : Loaded → Nat → Nat → Fetch) (st : Loaded) (k : Bytes) (d : Dict) : Loaded × Res Nat :=
  (match mapFind k d with
    | some (.ref n g) => (look st n g).st
    | _ => st, natEntry ⟨[], true, lookInt (look st)⟩ k d)

/-- The objects in the data of an object stream, file.cpp:193-203. -/
def unpack (c : Codec) (resolve : Nat → Nat → Res Int) (d : Dict) (raw : Bytes) (first size : Nat) : Res (List (Nat × Obj)) := do
  let body ← c.decode d raw
  if body = [] then throw .throw
  readObjStm ⟨body, true, resolve⟩ first size

/-- The position of the data of the stream at an offset. stream_object.cpp:184-188. -/
def dataPos (e : Env) (off : Int) : Nat :=
  match streamHead e (e.seek off) with
  | .ok (_, _, _, data, _) => data
  | .error _ => 0

/-- Keeps an object that was read, xref_entry.cpp:261-262. -/
def keep (st : Loaded) (n g : Nat) : Res SObj → Fetch
  | .error er => ⟨st, none, .error er⟩
  | .ok o => ⟨st.set n g o, none, .ok o⟩

/-- A stream at a position, the length of which is the object `k m`: `len` is what loading that object has left behind.
parser.cpp:158-254, with `streamTail` and `streamEnd`. -/
def fetchStream (e : Env) (n g k m : Nat) (tn tg : Token) (d : Dict) (data : Nat) (r : Bytes) (len : Fetch) : Fetch :=
  match len.obj >>= toInt with
  | .error er => ⟨len.st, none, .error er⟩
  | .ok l =>
    match streamTail e d data (len.pos.getD data) l r with
    | .error er => ⟨len.st, none, .error er⟩
    | .ok (body, found, rem) =>
      match streamEnd n g tn tg rem with
      | .error er => ⟨len.st, none, .error er⟩
      | .ok () =>
        keep (match found with
          | some l => len.st.set k m (.direct (.int l))
          | none => len.st) n g (.ok (.stream d body))

/-- `XrefUsedEntry::Initialize`, xref_entry.cpp:146-265.  The reader is put back when the object has been read (228-236).
Simplified: for streams inside of arrays and dictionaries (which the parser refuses) what is loaded to find their length is not
kept. -/
def fetchUsed (file : Bytes) (look : Loaded → Nat → Nat → Fetch) (st : Loaded) (n g : Nat) (off : Int) : Fetch :=
  let e := fileEnv file (lookInt (look st))
  match streamHead e (e.seek off) with
  | .error _ => keep st n g (loadAt e n g off)
  | .ok (tn, tg, d, data, r) =>
    match lengthRef d with
    | none => keep st n g (loadAt e n g off)
    | some (k, m) => fetchStream e n g k m tn tg d data r (look st k m)

/-- `File::InitializeObjectStream` behind the loading of the object stream `sn`, file.cpp:189-229: the objects, or an exception. -/
def fillFrom (c : Codec) (secs : List ReadSection) (look : Loaded → Nat → Nat → Fetch) (st : Loaded) (sn : Nat) (d : Dict)
    (raw : Bytes) : Loaded × Res Unit :=
  match lookNat look st (b! "N") d with
  | (st, .error er) => (st, .error er)
  | (st, .ok size) =>
    match lookNat look st (b! "First") d with
    | (st, .error er) => (st, .error er)
    | (st, .ok first) =>
      match unpack c (lookInt (look st)) d raw first size with
      | .error er => (st, .error er)
      | .ok l =>
        match storeAll secs st l with
        | (st, .error er) => (st, .error er)
        | (st, .ok ()) => (⟨st.objects, sn :: st.streams⟩, .ok ())

/-- `XrefCompressedEntry::Initialize`, xref_entry.cpp:267-296, with `File::InitializeObjectStream`, file.cpp:175-232.  Reading
the data of the object stream leaves the reader at their beginning, because the position to go back to is asked for after it was
set (stream_object.cpp:184-194).  Simplified: also when the data were asked for before (then the reader is not moved). -/
def fetchCompressed (c : Codec) (file : Bytes) (secs : List ReadSection) (look : Loaded → Nat → Nat → Fetch) (st : Loaded)
    (n g sn : Nat) : Fetch :=
  let stm := look st sn 0
  match stm.obj with
  | .error er => ⟨stm.st, none, .error er⟩
  | .ok o =>
    if sn ∈ stm.st.streams then ⟨stm.st, stm.pos, .ok ((stm.st.get n g).getD (.direct .null))⟩
    else
      match o with
      | .direct _ => ⟨stm.st, none, .error .conversion⟩
      | .stream d raw =>
        match fillFrom c secs look stm.st sn d raw with
        | (st, .error er) => ⟨st, none, .error er⟩
        | (st, .ok ()) =>
          let pos := match findRead secs sn 0 with
            | some ⟨_, _, .used off⟩ => some (dataPos (fileEnv file (lookInt (look stm.st))) off)
            | _ => none
          ⟨st, pos, .ok ((st.get n g).getD (.direct .null))⟩

/-- `File::GetIndirectObject`, file.cpp:793-893.  The first argument bounds the depth of lookups. -/
def fetch (c : Codec) (file : Bytes) (secs : List ReadSection) : Nat → Loaded → Nat → Nat → Fetch
  | 0, st, _, _ => ⟨st, none, .error .timeout⟩
  | f + 1, st, n, g =>
    match findRead secs n g with
    | none => ⟨st, none, .ok (.direct .null)⟩
    | some x =>
      match x.kind, st.get n g with
      | .free _, _ => ⟨st, none, .ok (.direct .null)⟩
      | _, some o => ⟨st, none, .ok o⟩
      | .used off, none => fetchUsed file (fetch c file secs f) st n g off
      | .compressed sn _, none => fetchCompressed c file secs (fetch c file secs f) st n g sn

/-- A sequence of requests; an exception does not end the use of the file. Calls of `File::GetIndirectObject`, file.cpp:793-803. -/
def fetchAll (c : Codec) (file : Bytes) (secs : List ReadSection) (f : Nat) : Loaded → List (Nat × Nat) → Loaded
  | st, [] => st
  | st, (n, g) :: l => fetchAll c file secs f (fetch c file secs f st n g).st l

end VPdf
