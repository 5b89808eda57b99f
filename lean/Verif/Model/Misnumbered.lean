import Verif.Model.Object
/-
  Objects that stand under another number than the cross-references say: `XrefUsedEntry::Initialize`
  (src/vanillapdf/syntax/files/xref_entry.cpp:246-262) and the recovery in `File::GetIndirectObjectInternal`
  (src/vanillapdf/syntax/files/file.cpp:805-893).  Left out: objects in object streams, hybrid sections, changes by the user, and
  the sharing of objects between entries with the same number and offset (xref_entry.cpp:184-226), which gives what reading
  again gives.
-/
namespace VPdf

/-- What stands at a position of the file: the numbers of the object and its value, or nothing that can be read.
`Parser::ReadIndirectObject`, parser.cpp:290-330, as a parameter. -/
abbrev ObjectsAt := Nat → Option (Nat × Nat × Obj)

/-- An entry of a section, xref_entry.h:11-170.  `off` is the position of an object in use and nothing for a free entry; `obj` is
the object, once it is loaded.  `key` is the number the entry had when it was put into the set: an `std::unordered_set` keeps
the hash codes (as that of GCC does, where the hash function may throw), so it is not found under a number it got later. -/
structure FileEntry where
  key : Nat
  num : Nat
  gen : Nat
  off : Option Nat
  obj : Option Obj := none
  deriving Repr

/-- The entries of a section. xref.h:22. -/
abbrev FileSection := List FileEntry

/-- `XrefUsedEntry::Initialize`, xref_entry.cpp:149-262: the object at the offset is read and the entry takes its numbers. `none`
is an exception.  Free entries have nothing to load (file.cpp:848-851). -/
def FileEntry.load (file : ObjectsAt) (e : FileEntry) : Option FileEntry :=
  match e.obj, e.off with
  | some _, _ => some e
  | none, none => some e
  | none, some off =>
    match file off with
    | none => none
    | some (n, g, o) => some { e with num := n, gen := g, obj := some o }

/-- `_entries.find` of an entry with a number, xref.cpp:297-314: both the hash code and the number agree. -/
def FileEntry.answersTo (n : Nat) (e : FileEntry) : Bool := e.key == n && e.num == n

/-- `XrefChain::Contains` and `GetXrefEntry`, xref_chain.cpp:10-47. -/
def locateEntry : List FileSection → Nat → Nat → Option FileEntry
  | [], _, _ => none
  | s :: rest, n, g =>
    match s.find? (FileEntry.answersTo n) with
    | some e => if e.gen = g then some e else locateEntry rest n g
    | none => locateEntry rest n g

/-- The entry that `locateEntry` finds is changed, xref_entry.cpp:249-262. -/
def putBack (e' : FileEntry) : List FileSection → Nat → Nat → List FileSection
  | [], _, _ => []
  | s :: rest, n, g =>
    match s.find? (FileEntry.answersTo n) with
    | some e =>
      if e.gen = g then s.map (fun x => if FileEntry.answersTo n x then e' else x) :: rest
      else s :: putBack e' rest n g
    | none => s :: putBack e' rest n g

/-- All entries of a section are loaded, until one cannot be, file.cpp:845-853. -/
def loadEach (file : ObjectsAt) : FileSection → FileSection × Bool
  | [] => ([], true)
  | e :: es =>
    match e.load file with
    | none => (e :: es, false)
    | some e' => (e' :: (loadEach file es).1, (loadEach file es).2)

/-- `XrefBase::Add`, xref.cpp:245-271: an entry with the number is replaced, and the entry is found under its number. -/
def addEntry (s : FileSection) (e : FileEntry) : FileSection :=
  s.filter (fun x => !FileEntry.answersTo e.num x) ++ [{ e with key := e.num }]

/-- `Clear` and `Add` of all entries, file.cpp:859-868.  The entries are sorted by their numbers before; that decides only which of
several entries with one number stays, and for those `std::sort` leaves the order open. -/
def rebuild (s : FileSection) : FileSection := s.foldl addEntry []

/-- The loop over the sections, file.cpp:844-869.  The flag tells whether all entries could be loaded. -/
def recover (file : ObjectsAt) : List FileSection → List FileSection × Bool
  | [] => ([], true)
  | s :: rest =>
    if (loadEach file s).2 then (rebuild (loadEach file s).1 :: (recover file rest).1, (recover file rest).2)
    else ((loadEach file s).1 :: rest, false)

/-- Behind the loop: the object is looked for again, file.cpp:871-880. -/
def askAgain (file : ObjectsAt) (ch : List FileSection) (n g : Nat) : Res (Option Obj) :=
  match locateEntry ch n g with
  | none => .error .missing
  | some x =>
    match x.off, x.load file with
    | none, _ => .error .conversion
    | some _, none => .error .throw
    | some _, some x' => .ok x'.obj

/-- `File::GetIndirectObject`, file.cpp:793-893: the sections afterwards, and the object (`none` for null) or an exception. -/
def askObject (file : ObjectsAt) (ch : List FileSection) (n g : Nat) : List FileSection × Res (Option Obj) :=
  match locateEntry ch n g with
  | none => (ch, .ok none)
  | some e =>
    match e.off, e.load file with
    | none, _ => (ch, .ok none)
    | some _, none => (ch, .error .throw)
    | some _, some e' =>
      let ch1 := putBack e' ch n g
      if e'.num = n ∧ e'.gen = g then (ch1, .ok e'.obj)
      else if (recover file ch1).2 then ((recover file ch1).1, askAgain file (recover file ch1).1 n g)
      else ((recover file ch1).1, .error .throw)

/-- Requests one after the other: the sections afterwards and the answers. file.cpp:793-893. -/
def askObjects (file : ObjectsAt) : List FileSection → List (Nat × Nat) → List FileSection × List (Res (Option Obj))
  | ch, [] => (ch, [])
  | ch, (n, g) :: rest =>
    let a := askObject file ch n g
    let b := askObjects file a.1 rest
    (b.1, a.2 :: b.2)

end VPdf
