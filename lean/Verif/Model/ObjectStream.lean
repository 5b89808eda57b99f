import Verif.Model.Ints
import Verif.Model.Writer
/-
  Object streams: writing (syntax/files/file_writer.cpp:178-332), reading (syntax/parsers/parser.cpp:371-410) and the state
  of an opened file while objects are loaded one after the other (syntax/files/file.cpp, xref_entry.cpp).
-/
namespace VPdf

/-! ### writing -/

/-- The text before `First`, file_writer.cpp:268-296: number and offset of every object, joined by spaces.  `off` is
`current_offset`; the list has the number and the text of each object. -/
def objStmHeader : Nat → List (Nat × Bytes) → Bytes
  | _, [] => []
  | off, [(n, _)] => natDec n ++ b! " " ++ natDec off
  | off, (n, t) :: x :: l => natDec n ++ b! " " ++ natDec off ++ b! " " ++ objStmHeader (off + t.length + 1) (x :: l)

/-- The texts of the objects, joined by spaces, file_writer.cpp:286-292. -/
def objStmData : List (Nat × Bytes) → Bytes
  | [] => []
  | [(_, t)] => t
  | (_, t) :: x :: l => t ++ b! " " ++ objStmData (x :: l)

/-- The new body, file_writer.cpp:301-308. -/
def objStmBody (l : List (Nat × Bytes)) : Bytes := objStmHeader 0 l ++ b! " " ++ objStmData l

/-- The object stream with the objects `l`, file_writer.cpp:262-328: its entries N and First, and its body in the encoding
of its filters. -/
def makeObjStm (c : Codec) (d : Dict) (l : List (Nat × SObj)) : Res SObj := do
  let texts := l.map fun x => (x.1, writeBody x.2)
  let d := mapInsert (b! "N") (.int l.length) (mapErase (b! "N") d)
  let d := mapInsert (b! "First") (.int ((objStmHeader 0 texts).length + 1)) (mapErase (b! "First") d)
  let body ← c.encode d (objStmBody texts)
  pure (.stream d body)

/-- Insertion into a list of objects sorted by their index. The `std::sort` of file_writer.cpp:248-253. -/
def insertIndex (i : Nat) (x : Nat × SObj) : List (Nat × Nat × SObj) → List (Nat × Nat × SObj)
  | [] => [(i, x)]
  | (j, y) :: l => if i < j then (i, x) :: (j, y) :: l else (j, y) :: insertIndex i x l

/-- The objects of a section in the object stream `sn`, sorted by index (file_writer.cpp:197-213 and 243-249), with the
index.  `std::sort` leaves the order of objects with the same index open; here they keep their order. -/
def objStmMembers (sn : Nat) : List WEntry → List (Nat × Nat × SObj)
  | [] => []
  | e :: es =>
    match e.kind with
    | .compressed s i o => if s = sn then insertIndex i (e.num, o) (objStmMembers sn es) else objStmMembers sn es
    | _ => objStmMembers sn es

/-! ### reading -/

/-- `Parser::ReadObjectStreamHeader`, parser.cpp:371-383. -/
def readObjStmHeader (s : Bytes) : Res ((Nat × Int) × Bytes) := do
  let (a, s) ← expectSkip parserKeywords .integer s
  let (b, s) ← expectSkip parserKeywords .integer s
  let n ← stoll a.value
  let off ← stoll b.value
  let n ← safeConvert .u64 .i64 n
  let off ← safeConvert .i64 .i64 off
  pure ((n.toNat, off), s)

/-- `Parser::ReadObjectStreamHeaders`, parser.cpp:385-393. -/
def readObjStmHeaders : Nat → Bytes → Res (List (Nat × Int))
  | 0, _ => .ok []
  | k + 1, s => do
    let (x, s) ← readObjStmHeader s
    let l ← readObjStmHeaders k s
    pure (x :: l)

/-- The loop of `Parser::ReadObjectStreamEntries`, parser.cpp:400-409.  The sum `first + entry.offset` is computed in 64
bits.  Left out: a stream inside of the object stream. -/
def readObjStmObjects (e : Env) (first : Nat) : List (Nat × Int) → Res (List (Nat × Obj))
  | [] => .ok []
  | (n, off) :: l => do
    let (o, _) ← parse e (e.seek (IntTy.i64.cast (first + off)))
    match o with
    | .stream _ _ => throw .notSupported
    | .direct o => do
      let r ← readObjStmObjects e first l
      pure ((n, o) :: r)

/-- `Parser::ReadObjectStreamEntries`, parser.cpp:398-410, of a body: numbers and objects. -/
def readObjStm (e : Env) (first size : Nat) : Res (List (Nat × Obj)) := do
  let h ← readObjStmHeaders size e.whole
  readObjStmObjects e first h

/-- An entry N or First of an object stream as a number (file.cpp:191-192 and 203: `FindAs`, `SafeConvert`,
`GetUnsignedIntegerValue`). -/
def natEntry (e : Env) (k : Bytes) (d : Dict) : Res Nat :=
  match mapFind k d with
  | none => .error .missing
  | some o => do
    let i ← asInt e o
    if i < 0 then throw .conversion
    pure i.toNat

/-- The objects of an object stream, file.cpp:189-203. -/
def objStmContent (c : Codec) (resolve : Nat → Nat → Res Int) (o : SObj) : Res (List (Nat × Obj)) :=
  match o with
  | .direct _ => .error .conversion
  | .stream d raw => do
    let size ← natEntry ⟨[], true, resolve⟩ (b! "N") d
    let first ← natEntry ⟨[], true, resolve⟩ (b! "First") d
    let body ← c.decode d raw
    if body = [] then throw .throw
    readObjStm ⟨body, true, resolve⟩ first size

/-! ### the state of an opened file -/

/-- What has been loaded: the objects of the entries that are initialised, by number and generation, and the object
streams with the attribute of file.cpp:182-188 and 225-229.  An entry hidden by a newer one with the same number and
generation is never used, so an entry is given by number and generation. -/
structure Loaded where
  objects : List ((Nat × Nat) × SObj) := []
  streams : List Nat := []

/-- The object of a loaded entry, xref_entry.cpp:59-82. -/
def Loaded.get (st : Loaded) (n g : Nat) : Option SObj := (st.objects.find? (fun x => x.1 == (n, g))).map (·.2)

/-- `SetReference` and `SetInitialized`, xref_entry.cpp:84-105: the former object, with its attributes, is released. -/
def Loaded.set (st : Loaded) (n g : Nat) (o : SObj) : Loaded :=
  ⟨((n, g), o) :: st.objects.filter (fun x => x.1 != (n, g)), if g = 0 then st.streams.filter (· != n) else st.streams⟩

/-- The loop over the objects of an object stream, file.cpp:207-223: the entry of the newest section with the number of the
object and generation 0 gets the object.  A number without entry is an exception (xref_chain.cpp:28). -/
def storeAll (secs : List ReadSection) : Loaded → List (Nat × Obj) → Loaded × Res Unit
  | st, [] => (st, .ok ())
  | st, (n, o) :: l =>
    match findRead secs n 0 with
    | none => (st, .error .missing)
    | some x =>
      match x.kind with
      | .free _ => storeAll secs st l
      | _ => storeAll secs (st.set n 0 (.direct o)) l

/-- `File::GetIndirectObject`, file.cpp:793-893, with `XrefUsedEntry::Initialize`, `XrefCompressedEntry::Initialize`
(xref_entry.cpp:146-287) and `File::InitializeObjectStream` (file.cpp:175-232): the new state and the object.  The first
argument bounds the depth of lookups.  Simplified: what is loaded while the length of a stream is looked up is not kept, and the position of the reader is not
moved; `fetch` (Model/Loading) has both. -/
def loadStep (c : Codec) (file : Bytes) (secs : List ReadSection) : Nat → Loaded → Nat → Nat → Loaded × Res SObj
  | 0, st, _, _ => (st, .error .timeout)
  | f + 1, st, n, g =>
    let resolve : Nat → Nat → Res Int := fun n g => do
      match ← (loadStep c file secs f st n g).2 with
      | .direct (.int i) => pure i
      | .direct (.real m p) => pure (m.tdiv (10 ^ p : Nat))
      | _ => throw .conversion
    match findRead secs n g with
    | none => (st, .ok (.direct .null))
    | some x =>
      match x.kind with
      | .free _ => (st, .ok (.direct .null))
      | .used off =>
        match st.get n g with
        | some o => (st, .ok o)
        | none =>
          match loadAt (fileEnv file resolve) n g off with
          | .error e => (st, .error e)
          | .ok o => (st.set n g o, .ok o)
      | .compressed sn _ =>
        match st.get n g with
        | some o => (st, .ok o)
        | none =>
          match loadStep c file secs f st sn 0 with
          | (st, .error e) => (st, .error e)
          | (st, .ok stm) =>
            if sn ∈ st.streams then (st, .ok ((st.get n g).getD (.direct .null)))
            else
              match objStmContent c resolve stm with
              | .error e => (st, .error e)
              | .ok l =>
                match storeAll secs st l with
                | (st, .error e) => (st, .error e)
                | (st, .ok ()) => (⟨st.objects, sn :: st.streams⟩, .ok ((st.get n g).getD (.direct .null)))

/-- Objects loaded one after the other; an exception does not end the use of the file.
A sequence of calls of `File::GetIndirectObject`, file.cpp:793-803. -/
def loadAll (c : Codec) (file : Bytes) (secs : List ReadSection) (f : Nat) : Loaded → List (Nat × Nat) → Loaded
  | st, [] => st
  | st, (n, g) :: l => loadAll c file secs f (loadStep c file secs f st n g).1 l

end VPdf
