import Verif.Model.Basic
/-
  Cross-reference sections and their chain: src/vanillapdf/syntax/files/xref.cpp, xref_entry.h, xref_chain.cpp and
  the allocation of object numbers in file.cpp.
-/
namespace VPdf

/-- The classes of entries, xref_entry.h:77-222, with the data of each.  `offset` is signed, BAD_OFFSET is -1.  The
referenced object, the file and the dirty flag are left out. -/
inductive EntryKind where
  | free (next : Nat)
  | used (offset : Int)
  | compressed (stream index : Nat)
  deriving DecidableEq, Repr

/-- `XrefEntryBase`, xref_entry.h:11-63.  Equality and hash use the object number only (xref_entry.cpp:72-82,
411-419). -/
structure XEntry where
  num : Nat
  gen : Nat
  kind : EntryKind
  deriving DecidableEq, Repr

/-- `InUse`, xref_entry.h:99-101 and xref_entry.cpp:117-123, of an entry whose object is set. -/
def XEntry.inUse (e : XEntry) : Bool :=
  match e.kind with
  | .free _ => false
  | _ => true

/-- The entries of a section, an `std::unordered_set` keyed by the object number (xref.h:22).  The order of the list
is the unspecified order of the set. -/
abbrev EntrySet := List XEntry

/-- `_entries.find(entry)`. xref.cpp:245-314. -/
def EntrySet.find (n : Nat) (l : EntrySet) : Option XEntry := l.find? (fun e => e.num == n)

/-- `_entries.insert(entry)`: the flag tells whether the entry was inserted. xref.cpp:231-271. -/
def EntrySet.insert (e : XEntry) (l : EntrySet) : EntrySet × Bool :=
  match EntrySet.find e.num l with
  | some _ => (l, false)
  | none => (l ++ [e], true)

/-- `XrefBase::Remove`, xref.cpp:273-291: erases the entry with the number of the argument. -/
def EntrySet.remove (n : Nat) (l : EntrySet) : EntrySet × Bool :=
  match EntrySet.find n l with
  | none => (l, false)
  | some _ => (l.eraseP (fun e => e.num == n), true)

/-- `XrefBase::Add`, xref.cpp:245-271. -/
def EntrySet.add (e : XEntry) (l : EntrySet) : Res EntrySet :=
  let (l1, inserted) := EntrySet.insert e l
  if inserted then .ok l1
  else
    let (l2, removed) := EntrySet.remove e.num l1
    if !removed then .error .throw
    else
      let (l3, again) := EntrySet.insert e l2
      if again then .ok l3 else .error .throw

/-- Insertion into a list sorted by object number. The sorting of `Entries`, xref.cpp:316-330. -/
def insertSorted (e : XEntry) : List XEntry → List XEntry
  | [] => [e]
  | x :: xs => if e.num < x.num then e :: x :: xs else x :: insertSorted e xs

/-- `XrefBase::Entries`, xref.cpp:316-330: `std::sort` by object number. -/
def EntrySet.sorted (l : EntrySet) : List XEntry := l.foldr insertSorted []

/-- `XrefBase::Type`, xref.h:53-58. -/
inductive SectionKind where
  | table | stream | virtual
  deriving DecidableEq, Repr

/-- A cross-reference section; `hybrid` are the entries of the hybrid stream of a table (xref.h:186-190). -/
structure Section where
  kind : SectionKind
  entries : EntrySet := []
  hybrid : Option EntrySet := none
  deriving Repr

/-- `XrefTable::Add` and `XrefBase::Add`, xref.cpp:231-271. -/
def Section.add (s : Section) (e : XEntry) : Res Section :=
  if s.kind == .table && (match e.kind with | .compressed _ _ => true | _ => false) then .error .throw
  else do
    let l ← EntrySet.add e s.entries
    pure { s with entries := l }

/-- `XrefBase::Remove`, xref.cpp:273-291. -/
def Section.remove (s : Section) (n : Nat) : Section × Bool :=
  let (l, b) := EntrySet.remove n s.entries
  ({ s with entries := l }, b)

/-- `XrefBase::Clear`, xref.cpp:332-334. -/
def Section.clear (s : Section) : Section := { s with entries := [] }

/-- `XrefTable::Find` and `XrefBase::Find`, xref.cpp:297-307 and 356-363. -/
def Section.find (s : Section) (n : Nat) : Res XEntry :=
  match EntrySet.find n s.entries with
  | some e => .ok e
  | none =>
    match s.hybrid with
    | some h => match EntrySet.find n h with | some e => .ok e | none => .error .missing
    | none => .error .missing

/-- `XrefTable::Contains` and `XrefBase::Contains`, xref.cpp:309-314 and 365-372. -/
def Section.contains (s : Section) (n : Nat) : Bool :=
  match EntrySet.find n s.entries with
  | some _ => true
  | none =>
    match s.hybrid with
    | some h => (EntrySet.find n h).isSome
    | none => false

/-- `XrefBase::GetSize`, xref.cpp:293-295. -/
def Section.size (s : Section) : Nat := s.entries.length

/-- `XrefBase::Entries`, xref.cpp:316-330. -/
def Section.enumerate (s : Section) : List XEntry := EntrySet.sorted s.entries

/-- `XrefChain`, xref_chain.h: the sections, newest first. -/
abbrev Chain := List Section

/-- `XrefChain::GetXrefEntry`, xref_chain.cpp:10-29. -/
def Chain.find (c : Chain) (n g : Nat) : Res XEntry :=
  match c with
  | [] => .error .missing
  | s :: rest =>
    if !s.contains n then Chain.find rest n g
    else do
      let e ← s.find n
      if e.gen != g then Chain.find rest n g else pure e

/-- `XrefChain::Contains`, xref_chain.cpp:31-49. -/
def Chain.contains (c : Chain) (n g : Nat) : Res Bool :=
  match c with
  | [] => .ok false
  | s :: rest =>
    if !s.contains n then Chain.contains rest n g
    else do
      let e ← s.find n
      if e.gen != g then Chain.contains rest n g else pure true

/-- `XrefChain::ReleaseEntry`, xref_chain.cpp:51-82, of an entry with number `n` and generation `g`. -/
def Chain.release (c : Chain) (n g : Nat) : Res (Chain × Bool) :=
  match c with
  | [] => .ok ([], false)
  | s :: rest =>
    let next : Res (Chain × Bool) := do
      let (rest, b) ← Chain.release rest n g
      pure (s :: rest, b)
    if !s.contains n then next
    else do
      let e ← s.find n
      if e.gen != g then next
      else
        let (s, removed) := s.remove n
        if removed then do
          let s ← s.add ⟨n, 0, .free 0⟩
          pure (s :: rest, true)
        else pure (s :: rest, false)

/-- The part of a `File` that hands out object numbers: the chain and `m_next_allocation` (file.h:150, initially 0). -/
structure Alloc where
  chain : Chain
  next : Nat := 0
  deriving Repr

/-- The search loop of `AllocateNewEntry` (file.cpp:938-966): the first number from `i` that no section contains.
The first argument counts down to the largest 64-bit number. -/
def firstAbsent (c : Chain) : Nat → Nat → Option Nat
  | 0, _ => none
  | f + 1, i => if c.all (fun s => !s.contains i) then some i else firstAbsent c f (i + 1)

/-- `File::AllocateNewEntry`, file.cpp:931-1002: the new entry goes to the first section.  `_xref.empty()` tells
whether the chain object exists, not whether it has sections; a chain without sections is dereferenced. -/
def Alloc.allocate (a : Alloc) : Res (XEntry × Alloc) :=
  match firstAbsent a.chain (2 ^ 64 - 1 - a.next) a.next with
  | none => .error .throw
  | some i =>
    match a.chain with
    | [] => .error .ub
    | s :: rest => do
      let e : XEntry := ⟨i, 0, .used (-1)⟩
      let s ← s.add e
      pure (e, ⟨s :: rest, i + 1⟩)

/-- A new `File` whose chain object does not exist yet (file.cpp:933-936): the first allocation creates a table. -/
def Alloc.newFile : Alloc := ⟨[⟨.table, [], none⟩], 0⟩

end VPdf
