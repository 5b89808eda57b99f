import Verif.Model.Xref
/-
  Hybrid-reference files: cross-reference tables with an entry `XRefStm`, in src/vanillapdf/syntax/files/file_writer.cpp.
  How such a file is read is in Model/Xref (`Section.find`).
-/
namespace VPdf

/-- A section of the file that is saved.  For a table with a hybrid stream, `stm` is the number and the generation of the stream
object, and the entries of the stream. xref.h:150-192. -/
structure HybridSection where
  kind : SectionKind
  entries : EntrySet
  stm : Option (Nat × Nat × EntrySet)

/-- The section as it is asked for entries, xref.cpp:356-372. -/
def HybridSection.view (s : HybridSection) : Section := ⟨s.kind, s.entries, s.stm.map (·.2.2)⟩

/-- The section as `CloneXref` makes it: no hybrid stream yet, file_writer.cpp:817-932. -/
def HybridSection.plain (s : HybridSection) : Section := ⟨s.kind, s.entries, none⟩

/-- The stream object of the hybrid stream is looked up in the new file: `GetXrefEntry` and the checks,
file_writer.cpp:374-387. -/
def findHybridStream (isStream : Nat × Nat → Bool) (c : Chain) (n g : Nat) : Res Unit := do
  let e ← Chain.find c n g
  if !e.inUse then .error .throw
  else if !isStream (n, g) then .error .throw
  else .ok ()

/-- `FileWriter::CloneHybridStreams`, file_writer.cpp:334-393: the sections in front of the current one have their streams
already.  Both chains have the same sections. -/
def cloneHybrids (isStream : Nat × Nat → Bool) : Chain → List HybridSection → Res Chain
  | done, [] => .ok done
  | done, s :: rest =>
    match s.kind, s.stm with
    | .table, some (n, g, _) => do
      findHybridStream isStream (done ++ s.plain :: rest.map HybridSection.plain) n g
      cloneHybrids isStream (done ++ [s.view]) rest
    | _, _ => cloneHybrids isStream (done ++ [s.plain]) rest

/-- The kind of the merged section, file_writer.cpp:1852-1887: a stream, if there is one. -/
def mergedKind (chain : List HybridSection) : SectionKind :=
  if chain.any (fun s => s.kind == .stream || (s.kind == .table && s.stm.isSome)) then .stream else .table

/-- The entries of a section in the order they are merged: its own, then those of its hybrid stream,
file_writer.cpp:1911-1942. -/
def HybridSection.all (s : HybridSection) : List XEntry :=
  s.entries ++ (if s.kind == .table then match s.stm with | some (_, _, h) => h | none => [] else [])

/-- `FileWriter::MergeXrefs`, file_writer.cpp:1840-1942, of a chain with the oldest section first: the entries in use,
the later ones replacing the earlier ones.  The trailer is in Model/Optimize. -/
def mergeHybrids (chain : List HybridSection) : Res Section := do
  let s ← (Section.mk (mergedKind chain) [] none).add ⟨0, 65535, .free 0⟩
  ((chain.flatMap HybridSection.all).filter XEntry.inUse).foldlM (fun s e => s.add e) s

/-- `FileWriter::RecalculateXrefSize` with `FindPreviousXref`, file_writer.cpp:626-674, 746-772, for the section at an index of
the chain, oldest section first: the number that becomes the entry `Size` of its trailer. -/
def hybridSize (chain : List HybridSection) (i : Nat) : Res Nat :=
  match chain[i]? with
  | none => .error .throw
  | some s =>
    if s.kind == .table && s.stm.isSome then
      match i with
      | 0 => .error .throw
      | j + 1 =>
        match chain[j]? with
        | none => .error .throw
        | some p => .ok (s.entries.length + p.entries.length)
    else .ok s.entries.length

/-- The objects written for a section, file_writer.cpp:934-988, 1352-1378: those of its entries in use, except the hybrid stream,
and then that stream.  A cross-reference stream is not treated here. -/
def hybridWritten (s : HybridSection) : List (Nat × Nat) :=
  match s.stm with
  | some (n, g, _) =>
    ((EntrySet.sorted s.entries).filter (fun e => !(e.num == n && e.gen == g) && e.inUse)).map (fun e => (e.num, e.gen)) ++ [(n, g)]
  | none => ((EntrySet.sorted s.entries).filter XEntry.inUse).map (fun e => (e.num, e.gen))

/-- The objects written for a file of tables that are not merged, or the failure, `WriteXrefChain`, file_writer.cpp:1318-1352. -/
def hybridFile (chain : List HybridSection) : Res (List (Nat × Nat)) := do
  let _ ← (List.range chain.length).mapM (hybridSize chain)
  .ok (chain.flatMap hybridWritten)

end VPdf
