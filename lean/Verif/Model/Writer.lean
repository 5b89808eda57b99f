import Verif.Model.Opening
import Verif.Model.XrefStream
import Verif.Model.Heap
/-
  Saving a file: src/vanillapdf/syntax/files/file_writer.cpp, with the optimisations switched off (they are separate
  functions, see Model/Optimize.lean), and reading objects of an opened file: syntax/files/file.cpp, xref_entry.cpp and
  syntax/objects/stream_object.cpp.

  Not modelled here: hybrid sections (Model/Hybrid), observers (Model/Observers), the watermark (Model/Watermark), encryption,
  virtual sections, the flags that switch off the recalculation of offsets, lengths, sizes and widths.
-/
namespace VPdf

/-- An indirect object in memory: a direct object, or a stream with its header and its encoded body
(`StreamObject::GetBodyEncoded`, stream_object.cpp:310-430). -/
inductive SObj where
  | direct (o : Obj)
  | stream (d : Dict) (body : Bytes)
  deriving Repr

/-- The entries of a section with the object an entry refers to; `none` when the entry is not in use
(xref_entry.cpp:117-123). -/
inductive WKind where
  | free (next : Nat)
  | used (offset : Int) (obj : Option SObj)
  | compressed (stream index : Nat) (obj : SObj)
  deriving Repr

/-- A cross-reference entry with its object, xref_entry.h:11-215. -/
structure WEntry where
  num : Nat
  gen : Nat
  kind : WKind
  deriving Repr

/-- A section of the file in memory.  `own` is `none` for a table; for a cross-reference stream it is the number and
generation of the stream object.  The entries are in the order of `XrefBase::Entries` (xref.cpp:316-330), sorted by
number.  The trailer of a cross-reference stream is the header of the stream object (xref.h:110-140). -/
structure WSection where
  own : Option (Nat × Nat)
  entries : List WEntry
  trailer : Dict
  deriving Repr

/-- An entry without its object. View of xref_entry.h:11-215. -/
def WEntry.plain (e : WEntry) : XEntry :=
  ⟨e.num, e.gen, match e.kind with | .free n => .free n | .used o _ => .used o | .compressed s i _ => .compressed s i⟩

/-- `InUse`, xref_entry.h:99-101 and xref_entry.cpp:117-123. -/
def WEntry.inUse (e : WEntry) : Bool :=
  match e.kind with
  | .free _ => false
  | .used _ o => o.isSome
  | .compressed _ _ _ => true

/-- The encoding of stream bodies by the filters of their header (`GetBodyEncoded` and `GetBody`,
stream_object.cpp:204-430).  The filters themselves are in Model/Filters.lean; compression is not modelled. -/
structure Codec where
  encode : Dict → Bytes → Res Bytes
  decode : Dict → Bytes → Res Bytes

/-- `Object::ToPdf` and `StreamObject::ToPdfStreamInternal`, stream_object.cpp:598-611. -/
def writeBody : SObj → Bytes
  | .direct o => writeObj o
  | .stream d body => writeObj (.dict d) ++ b! "\nstream\n" ++ body ++ b! "endstream"

/-- `FileWriter::WriteObject`, file_writer.cpp:1228-1257. -/
def writeObject (n g : Nat) (o : SObj) : Bytes :=
  natDec n ++ b! " " ++ natDec g ++ b! " obj\n" ++ writeBody o ++ b! "\nendobj\n"

/-- The steps "insert the integer unless there is one, find it, set its value" of file_writer.cpp:512-523 and
666-673.  Left out: a value that is a real number or a reference, for which another object is changed. -/
def setInteger (k : Bytes) (v : Int) (d : Dict) : Res Dict :=
  match mapFind k d with
  | none => .ok (mapInsert k (.int v) d)
  | some (.int _) => .ok (dictSet k (.int v) d)
  | some (.real _ _) => .error .notSupported
  | some (.ref _ _) => .error .notSupported
  | some _ => .error .conversion

/-- `FileWriter::RecalculateStreamLength`, file_writer.cpp:676-702, for a body of `size` bytes; `resolve` is the value of
a reference to an integer. -/
def recalcLength (resolve : Nat → Nat → Res Int) (size : Nat) (d : Dict) : Res Dict :=
  match mapFind (b! "Length") d with
  | none => .ok (mapInsert (b! "Length") (.int size) d)
  | some o => do
    let i ← asInt ⟨[], true, resolve⟩ o
    if i < 0 then throw .conversion
    if i = size then pure d
    else pure (mapInsert (b! "Length") (.int size) (mapErase (b! "Length") d))

/-- One round of `FileWriter::RecalculateStreamsLength`, file_writer.cpp:704-750.  The stream object of the section itself
is left out, its length is computed when it is written (1400). -/
def recalcEntry (resolve : Nat → Nat → Res Int) (own : Option (Nat × Nat)) (e : WEntry) : Res WEntry :=
  if own = some (e.num, e.gen) then .ok e
  else
    match e.kind with
    | .used off (some (.stream d body)) => do
      let d ← recalcLength resolve body.length d
      pure { e with kind := .used off (some (.stream d body)) }
    | .compressed _ _ (.stream _ _) => .error .throw
    | _ => .ok e

/-- `FileWriter::RecalculateStreamsLength`, file_writer.cpp:704-750. -/
def recalcEntries (resolve : Nat → Nat → Res Int) (own : Option (Nat × Nat)) : List WEntry → Res (List WEntry)
  | [] => .ok []
  | e :: es => do
    let e ← recalcEntry resolve own e
    let es ← recalcEntries resolve own es
    pure (e :: es)

/-- `FileWriter::WriteXrefObjects` and `WriteEntry`, file_writer.cpp:935-988 and 1209-1226: the output so far with the
objects, and the entries with their new offsets.  Compressed objects are written as well. -/
def writeObjects (own : Option (Nat × Nat)) : Bytes → List WEntry → Bytes × List WEntry
  | out, [] => (out, [])
  | out, e :: es =>
    if own = some (e.num, e.gen) then
      let (o, r) := writeObjects own out es
      (o, e :: r)
    else
      match e.kind with
      | .used _ (some obj) =>
        let (o, r) := writeObjects own (out ++ writeObject e.num e.gen obj) es
        (o, { e with kind := .used out.length (some obj) } :: r)
      | .compressed _ _ obj =>
        let (o, r) := writeObjects own (out ++ writeObject e.num e.gen obj) es
        (o, e :: r)
      | _ =>
        let (o, r) := writeObjects own out es
        (o, e :: r)

/-- `InUse` of the entry with the number of `x`. xref_entry.h:40, 72, 104, 124. -/
def usedIn (es : List WEntry) (x : XEntry) : Bool :=
  match es.find? (fun e => e.num == x.num) with
  | some e => e.inUse
  | none => false

/-- The header of a cross-reference stream after `RecalculateXrefStreamWidth` (file_writer.cpp:600-623) and
`RecalculateContent` (xref.cpp:113-121 and 184-199). -/
def streamHeader (data : XrefStreamData) (d : Dict) : Dict :=
  let w : Obj := .arr [.int data.widths.w1, .int data.widths.w2, .int data.widths.w3]
  let d := mapInsert (b! "W") w (mapErase (b! "W") d)
  let d := mapInsert (b! "Index") (.arr (data.index.map fun n : Nat => Obj.int n)) (mapErase (b! "Index") d)
  mapErase (b! "DecodeParms") d

/-- `FileWriter::WriteXref`, file_writer.cpp:1354-1417: the output and the offset of the section.  `entries` have the new
offsets. -/
def writeXref (c : Codec) (resolve : Nat → Nat → Res Int) (out : Bytes) (s : WSection) : Res (Bytes × Int) :=
  match s.own with
  | none =>
    let out := out ++ b! "\n"
    .ok (out ++ writeXrefTable (usedIn s.entries) (s.entries.map WEntry.plain) s.trailer ++ writeXrefOffset out.length,
      out.length)
  | some (n, g) => do
    let data ← recalculateContent (recalculateWidths (s.entries.map WEntry.plain)) (s.entries.map WEntry.plain)
    let d := streamHeader data s.trailer
    let body ← c.encode d data.body
    let d ← recalcLength resolve body.length d
    pure (out ++ writeObject n g (.stream d body) ++ writeXrefOffset out.length, out.length)

/-- One round of `FileWriter::WriteXrefChain`, file_writer.cpp:1323-1350: the section with its numbers recalculated. -/
def recalcSection (resolve : Nat → Nat → Res Int) (prev : Option Int) (s : WSection) : Res WSection := do
  let trailer ← (match prev with
    | none => .ok s.trailer
    | some p => setInteger (b! "Prev") p s.trailer : Res Dict)
  let entries ← recalcEntries resolve s.own s.entries
  let trailer ← setInteger (b! "Size") s.entries.length trailer
  pure { s with entries, trailer }

/-- One round of `FileWriter::WriteXrefChain`, file_writer.cpp:1323-1350: the output, the offset of the section, and the
section as written.  The content of object streams is left out here. -/
def writeSection (c : Codec) (resolve : Nat → Nat → Res Int) (out : Bytes) (prev : Option Int) (s : WSection) :
    Res (Bytes × Int × WSection) := do
  let s ← recalcSection resolve prev s
  let (out, entries) := writeObjects s.own out s.entries
  let s := { s with entries }
  let (out, off) ← writeXref c resolve out s
  pure (out, off, s)

/-- `FileWriter::WriteXrefChain`, file_writer.cpp:1318-1352: the sections, oldest first. -/
def writeChain (c : Codec) (resolve : Nat → Nat → Res Int) : Bytes → Option Int → List WSection → Res Bytes
  | out, _, [] => .ok out
  | out, prev, s :: ss => do
    let (out, off, _) ← writeSection c resolve out prev s
    writeChain c resolve out (some off) ss

/-- The keys `FileWriter::CloneTrailerDictionary` copies, file_writer.cpp:1001-1090. -/
def trailerKeys : List Bytes :=
  [b! "ID", b! "Info", b! "Root", b! "XRefStm", b! "Prev", b! "Type", b! "Index", b! "W", b! "Length", b! "Filter",
    b! "DecodeParms", b! "Encrypt"]

/-- `FileWriter::CloneTrailerDictionary`, file_writer.cpp:990-1098, for a section with `size` entries. -/
def cloneTrailer (size : Nat) (d : Dict) : Dict :=
  trailerKeys.foldl (fun r k => match mapFind k d with | none => r | some v => mapInsert k v r)
    [(b! "Size", .int size)]

/-- One entry in `FileWriter::CloneXref`, file_writer.cpp:842-911: an entry not in use gets the null object
(`GetReference`, xref_entry.cpp:107-115), the number of the next free object is not kept. -/
def cloneEntry (e : WEntry) : WEntry :=
  match e.kind with
  | .free _ => { e with kind := .free 0 }
  | .used off none => { e with kind := .used off (some (.direct .null)) }
  | _ => e

/-- `FileWriter::CloneXref`, file_writer.cpp:817-933.  The trailer of a cross-reference stream is cloned as an object. -/
def cloneSection (s : WSection) : WSection :=
  { s with
    entries := s.entries.map cloneEntry
    trailer := match s.own with | none => cloneTrailer s.entries.length s.trailer | some _ => s.trailer }

/-- The integer a reference leads to while the new file is written (`XrefChain::GetXrefEntry`, xref_chain.cpp:30-49, of the
destination): the sections are searched in the order in which they are written, oldest first. -/
def destResolve : List WSection → Nat → Nat → Res Int
  | [], _, _ => .error .conversion
  | s :: ss, n, g =>
    match s.entries.find? (fun e => e.num == n && e.gen == g) with
    | none => destResolve ss n g
    | some e =>
      match e.kind with
      | .used _ (some (.direct (.int i))) => .ok i
      | .used _ (some (.direct (.real m p))) => .ok (m.tdiv (10 ^ p : Nat))
      | .compressed _ _ (.direct (.int i)) => .ok i
      | .compressed _ _ (.direct (.real m p)) => .ok (m.tdiv (10 ^ p : Nat))
      | _ => .error .conversion

/-- `FileWriter::Write`, file_writer.cpp:34-86, without optimisations: the sections of the source file are given newest
first, as in its chain. -/
def saveFile (c : Codec) (v : PdfVersion) (sections : List WSection) : Res Bytes :=
  let chain := (sections.map cloneSection).reverse
  writeChain c (destResolve chain) (writeHeader v) none chain

/-! ### reading -/

/-- `StreamObject::GetBodyRaw`, stream_object.cpp:160-202: as many bytes as the entry Length says.  `InputStream::Read`
(input_stream.cpp:18-33) returns fewer bytes at the end of the input. -/
def rawBody (e : Env) (d : Dict) (off : Nat) : Res Bytes :=
  match mapFind (b! "Length") d with
  | none => .error .missing
  | some o => do
    let i ← asInt e o
    if i < 0 then throw .conversion
    pure ((e.whole.drop off).take i.toNat)

/-- An array of integers as numbers; negative ones are left out (`Res` error).
`ArrayObject<IntegerObjectPtr>`, array_object.h, as used in parser.cpp:547-590. -/
def natList : List Obj → Res (List Nat)
  | [] => .ok []
  | .int i :: l => if i < 0 then .error .notSupported else do
    let r ← natList l
    pure (i.toNat :: r)
  | _ :: _ => .error .notSupported

/-- `Parser::ReadXrefStream` and `ParseXrefStream`, parser.cpp:547-573 and 706-713: the entries and the header.  Left out:
arrays whose items are not direct integers, and the entry of the stream itself (646-699), which is in UnlistedStreams. -/
def readStreamSection (c : Codec) (e : Env) (s : Bytes) : Res ReadSection := do
  let (_, _, o, _) ← parseIndirect e s
  match o with
  | .direct _ => throw .conversion
  | .stream d off => do
    match mapFind (b! "W") d, mapFind (b! "Size") d with
    | some (.arr w), some size => do
      let w ← natList w
      let size ← asInt e size
      let index ← (match mapFind (b! "Index") d with
        | none => if size < 0 then .error .notSupported else .ok [0, size.toNat]
        | some (.arr l) => natList l
        | some _ => .error .conversion : Res (List Nat))
      let raw ← rawBody e d off
      let body ← c.decode d raw
      match w with
      | [w1, w2, w3] => do
        let l ← readXrefStream ⟨⟨w1, w2, w3⟩, index, body⟩
        pure (l, d)
      | _ => throw .throw
    | _, _ => throw .missing

/-- The parser while the file is being opened: references cannot be followed (file.cpp:793-803). -/
def openEnv (file : Bytes) : Env := ⟨file, false, fun _ _ => .error .missing⟩

/-- `File::Initialize`, file.cpp:123-173: the version and the sections, newest first.  Left out: the search for objects
when this fails (Model/Recovery), and hybrid streams.  The number of rounds is bounded; sections at different offsets need fewer. -/
def openFile (c : Codec) (file : Bytes) : Res (PdfVersion × List ReadSection) := do
  let (v, _) ← readHeader file
  let off ← lastXrefOffset file
  let xs ← readChain (openEnv file) (readSection (openEnv file) (readStreamSection c (openEnv file))) (file.length + 1) off
  pure (v, xs)

/-- `XrefChain::Contains` and `GetXrefEntry`, xref_chain.cpp:10-49, of sections read from a file. -/
def findRead : List ReadSection → Nat → Nat → Option XEntry
  | [], _, _ => none
  | s :: ss, n, g =>
    match EntrySet.find n s.1 with
    | none => findRead ss n g
    | some e => if e.gen = g then some e else findRead ss n g

/-- The parser of an opened file that follows references to integers with `resolve`.
parser.cpp with the file of file.cpp:793-803. -/
def fileEnv (file : Bytes) (resolve : Nat → Nat → Res Int) : Env := ⟨file, true, resolve⟩

/-- `XrefUsedEntry::Initialize`, xref_entry.cpp:146-265, with `GetBodyRaw`: the object at an offset.  An object with another
number or generation (file.cpp:834-880) is left out. -/
def loadAt (e : Env) (n g : Nat) (off : Int) : Res SObj := do
  let (n', g', o, _) ← parseIndirect e (e.seek off)
  if n' ≠ n ∨ g' ≠ g then throw .notSupported
  match o with
  | .direct o => pure (.direct o)
  | .stream d off => do
    let body ← rawBody e d off
    pure (.stream d body)

/-- `File::GetIndirectObject`, file.cpp:793-893: the object with a number and generation.  The first argument bounds the
number of references followed to find the length of a stream.  Objects in object streams are left out here. -/
def loadObject (file : Bytes) (secs : List ReadSection) : Nat → Nat → Nat → Res SObj
  | 0, _, _ => .error .timeout
  | f + 1, n, g =>
    let resolve : Nat → Nat → Res Int := fun n g => do
      match ← loadObject file secs f n g with
      | .direct (.int i) => pure i
      | .direct (.real m p) => pure (m.tdiv (10 ^ p : Nat))
      | _ => throw .conversion
    match findRead secs n g with
    | none => .ok (.direct .null)
    | some e =>
      match e.kind with
      | .free _ => .ok (.direct .null)
      | .used off => loadAt (fileEnv file resolve) n g off
      | .compressed _ _ => .error .notSupported

end VPdf
