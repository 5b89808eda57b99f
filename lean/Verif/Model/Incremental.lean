import Verif.Model.Writer
/-
  Saving the changes of a file: `FileWriter::WriteIncremental`, src/vanillapdf/syntax/files/file_writer.cpp:88-155.

  Not modelled: the licence check, observers, encryption; a destination that has content already.
-/
namespace VPdf

/-- An entry with the flag that says that its object was changed (`XrefEntryBase::IsDirty`, xref_entry.h:45). -/
structure IEntry where
  entry : WEntry
  dirty : Bool
  deriving Repr

/-- A section of the opened file, with its offset (`XrefBase::GetOffset`, xref.h:51). -/
structure ISection where
  own : Option (Nat × Nat)
  entries : List IEntry
  trailer : Dict
  offset : Int
  deriving Repr

/-- The section without the flags. No counterpart: view of xref.h:17-105 without the dirty flags (xref_entry.h:11-63). -/
def ISection.plain (s : ISection) : WSection := ⟨s.own, s.entries.map IEntry.entry, s.trailer⟩

/-- `FileWriter::CopyStreamContent`, file_writer.cpp:1515-1531: blocks of 4096 bytes until nothing is read
(`InputStream::Read`, input_stream.cpp:18-33, returns what is left). -/
def copyContent (rest out : Bytes) : Bytes :=
  let block := rest.take 4096
  if _h : block = [] then out
  else copyContent (rest.drop 4096) (out ++ block)
termination_by rest.length
decreasing_by
  have : rest ≠ [] := by intro hr; apply _h; simp [block, hr]
  have := List.length_pos_iff.mpr this
  simp only [List.length_drop]; omega

/-- `XrefBase::Add`, xref.cpp:247-272, on a set ordered by number: an entry with the same number is replaced. -/
def entryAdd (e : WEntry) : List WEntry → List WEntry
  | [] => [e]
  | x :: l => if e.num < x.num then e :: x :: l else if e.num = x.num then e :: l else x :: entryAdd e l

/-- One round of the inner loop of `FileWriter::CreateIncrementalXref`, file_writer.cpp:1115-1189.  A table does not take
compressed entries (`XrefTable::Add`, xref.cpp:231-245). -/
def incEntry (acc : List WEntry) (i : IEntry) : Res (List WEntry) :=
  if !i.dirty then .ok acc
  else
    match i.entry.kind with
    | .used _ none => .ok acc
    | .used off (some o) => .ok (entryAdd ⟨i.entry.num, i.entry.gen, .used off (some o)⟩ acc)
    | .compressed _ _ _ => .error .throw
    | .free _ => .ok (entryAdd ⟨i.entry.num, i.entry.gen, .free 0⟩ acc)

/-- `FileWriter::CreateIncrementalXref`, file_writer.cpp:1100-1207, for the sections of the source, newest first.  The
insertion of Prev does not replace a value (`DictionaryObject::Insert`, see C25). -/
def createIncremental (secs : List ISection) : Res WSection := do
  let entries ← (secs.flatMap ISection.entries).foldlM incEntry [⟨0, 65535, .free 0⟩]
  match secs with
  | [] => throw .ub
  | s :: _ =>
    let trailer := cloneTrailer s.entries.length s.trailer
    let trailer :=
      if (secs.flatMap ISection.entries).any IEntry.dirty then mapInsert (b! "Prev") (.int s.offset) trailer else trailer
    pure ⟨none, entries, trailer⟩

/-- `FileWriter::WriteIncremental`, file_writer.cpp:88-155, for a source with the bytes `src`.  References in the new objects
are looked up in the destination, which has the new section only (120-126). -/
def saveIncremental (c : Codec) (src : Bytes) (secs : List ISection) : Res Bytes := do
  let out := copyContent src [] ++ b! "\n"
  let s ← createIncremental secs
  let d := cloneSection s
  let (out, _, _) ← writeSection c (destResolve [d]) out none d
  pure out

end VPdf
