import Verif.Model.Object
import Verif.Model.Xref
/-
  How the sections of a file become the chain: `File::ReadXref` (src/vanillapdf/syntax/files/file.cpp), the second half of
  `Parser::ParseXrefStream` (src/vanillapdf/syntax/parsers/parser.cpp), which gives every cross-reference stream its place
  among the objects, and the search of `File::GetIndirectObject`.  The texts of the sections are read in XrefTable and
  XrefStream.
-/
namespace VPdf

/-- A section as it stands in the file, parser.cpp:547-731: a table, or the stream object with the number `own`; its entries
in their order, the offsets Prev and XRefStm of the trailer (integers, if present) and the trailer. -/
structure ParsedSection where
  own : Option (Nat × Nat)
  rows : List XEntry
  prev : Option Int
  stm : Option Int
  trailer : Dict

/-- An entry of the chain, xref_entry.h:11-222.  `object` is the object of `SetReference`: always a cross-reference stream
here, given by the offset it was read at. -/
structure LiveEntry where
  entry : XEntry
  object : Option Int := none

/-- A section of the chain, xref.h:17-215.  `origin` is the offset it was read at, `none` for the virtual tables; `hybrid` are
the entries of the hybrid stream. -/
structure LiveSection where
  kind : SectionKind
  origin : Option Int
  trailer : Dict
  prev : Option Int
  stm : Option Int
  entries : List LiveEntry
  hybrid : List LiveEntry := []

/-- `_entries.find`, xref.cpp:297-314. -/
def liveFind (n : Nat) (l : List LiveEntry) : Option LiveEntry := l.find? fun e => e.entry.num == n

/-- `XrefBase::Add`, xref.cpp:245-271: replaces the entry with the same number. -/
def liveAdd (l : List LiveEntry) (e : LiveEntry) : List LiveEntry := l.filter (fun x => x.entry.num != e.entry.num) ++ [e]

/-- `Contains`, `Find` and the comparison of the generation, xref_chain.cpp:11-25, xref.cpp:297-314, 356-372. -/
def LiveSection.get (s : LiveSection) (n g : Nat) : Option LiveEntry :=
  match (liveFind n s.entries).or (liveFind n s.hybrid) with
  | some e => if e.entry.gen = g then some e else none
  | none => none

/-- `XrefChain::Contains` and `XrefChain::GetXrefEntry`, xref_chain.cpp:10-49. -/
def liveEntry (c : List LiveSection) (n g : Nat) : Option LiveEntry := c.findSome? fun s => s.get n g

/-- `SetReference` of one entry, xref_entry.cpp:84-108. -/
def liveBind (n : Nat) (at_ : Int) (l : List LiveEntry) : List LiveEntry :=
  l.map fun e => if e.entry.num == n then { e with object := some at_ } else e

/-- `SetReference` of the entry that the section has for the number, parser.cpp:687-697. -/
def LiveSection.setObject (s : LiveSection) (n : Nat) (at_ : Int) : LiveSection :=
  if (liveFind n s.entries).isSome then { s with entries := liveBind n at_ s.entries }
  else { s with hybrid := liveBind n at_ s.hybrid }

/-- The end of `ParseXrefStream`, parser.cpp:687-697: the entry found in the chain gets the stream, if it is an entry in
use. -/
def setReference (n g : Nat) (at_ : Int) : List LiveSection → Res (List LiveSection)
  | [] => .error .missing
  | s :: c =>
    match s.get n g with
    | none => (setReference n g at_ c).map (s :: ·)
    | some e =>
      match e.entry.kind with
      | .used _ => .ok (s.setObject n at_ :: c)
      | _ => .error .throw

/-- The comparison of parser.cpp:625: an entry in use with the number of the stream. -/
def isOwn (own : Nat × Nat) (e : XEntry) : Bool :=
  match e.kind with
  | .used _ => e.num == own.1 && e.gen == own.2
  | _ => false

/-- The entries of a stream, parser.cpp:609-640; the stream's own entry gets the stream. -/
def streamEntries (own : Nat × Nat) (at_ : Int) (rows : List XEntry) : List LiveEntry :=
  rows.foldl (fun l e => liveAdd l ⟨e, if isOwn own e then some at_ else none⟩) []

/-- The virtual table of parser.cpp:676-684. -/
def virtualSection (own : Nat × Nat) : LiveSection :=
  ⟨.virtual, none, [], none, none, [⟨⟨own.1, own.2, .used (-1)⟩, none⟩], []⟩

/-- `Parser::ParseXrefStream`, parser.cpp:573-705: the chain afterwards and the section. -/
def placeStream (c : List LiveSection) (at_ : Int) (own : Nat × Nat) (x : ParsedSection) : Res (List LiveSection × LiveSection) :=
  let s : LiveSection := ⟨.stream, some at_, x.trailer, x.prev, x.stm, streamEntries own at_ x.rows, []⟩
  if x.rows.any (isOwn own) then .ok (c, s)
  else
    let c := if (liveEntry c own.1 own.2).isSome then c else c ++ [virtualSection own]
    (setReference own.1 own.2 at_ c).map (·, s)

/-- `Parser::ReadXref`, parser.cpp:715-731, with any way to read the text of a section. -/
def placeSection (parse : Int → Res ParsedSection) (c : List LiveSection) (at_ : Int) : Res (List LiveSection × LiveSection) := do
  let x ← parse at_
  match x.own with
  | none => .ok (c, ⟨.table, some at_, x.trailer, x.prev, x.stm, x.rows.foldl (fun l e => liveAdd l ⟨e, none⟩) [], []⟩)
  | some own => placeStream c at_ own x

/-- The first loop of `File::ReadXref`, file.cpp:707-720.  The first argument bounds the number of sections. -/
def readSections (parse : Int → Res ParsedSection) : Nat → List LiveSection → Int → Res (List LiveSection)
  | 0, _, _ => .error .timeout
  | f + 1, c, at_ => do
    let (c, s) ← placeSection parse c at_
    match s.prev with
    | none => .ok (c ++ [s])
    | some p => readSections parse f (c ++ [s]) p

/-- One round of the second loop of `File::ReadXref`, file.cpp:726-746. -/
def hybridStep (parse : Int → Res ParsedSection) (c : List LiveSection) (i : Nat) : Res (List LiveSection) :=
  match c[i]? with
  | none => .ok c
  | some s =>
    if s.kind = .table then
      match s.stm with
      | none => .ok c
      | some off => do
        let (c, h) ← placeSection parse c off
        if h.kind = .stream then .ok (c.modify i fun s => { s with hybrid := h.entries }) else .error .throw
    else .ok c

/-- The second loop of `File::ReadXref`, file.cpp:726-746.  The sections that are appended meanwhile are virtual tables, for
which the loop does nothing, so that only the sections at its beginning are visited here. -/
def readHybrids (parse : Int → Res ParsedSection) (c : List LiveSection) : Res (List LiveSection) :=
  (List.range c.length).foldlM (hybridStep parse) c

/-- The end of `File::ReadXref`, file.cpp:748-757: a virtual table at the beginning is moved to the end. -/
def moveVirtual : List LiveSection → List LiveSection
  | [] => []
  | s :: c => if s.kind = .virtual then c ++ [s] else s :: c

/-- `File::ReadXref`, file.cpp:698-758. -/
def openSections (parse : Int → Res ParsedSection) (f : Nat) (at_ : Int) : Res (List LiveSection) := do
  let c ← readSections parse f [] at_
  let c ← readHybrids parse c
  return moveVirtual c

/-- What `File::GetIndirectObject` answers, file.cpp:805-900: nothing is known, a free number, the object read at an offset, or
an object of an object stream. -/
inductive FoundAs where
  | missing
  | free
  | object (at_ : Int)
  | packed (stream index : Nat)
  deriving DecidableEq, Repr

/-- `File::GetIndirectObjectInternal`, file.cpp:805-900, and `XrefUsedEntry::Initialize`, xref_entry.cpp:152-246.  Left out:
objects in the file whose numbers differ from those of their entries. -/
def requested (c : List LiveSection) (n g : Nat) : FoundAs :=
  match liveEntry c n g with
  | none => .missing
  | some e =>
    match e.entry.kind with
    | .free _ => .free
    | .used off => .object (e.object.getD off)
    | .compressed s i => .packed s i

end VPdf
