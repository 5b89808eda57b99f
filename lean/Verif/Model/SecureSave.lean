import Verif.Model.RemoveEncryption
import Verif.Model.Incremental

/-! # Saving a document that is encrypted, as a whole and incrementally -/
namespace VPdf

/-- What is saved for the entries of a section: `FileWriter::CloneXref`, `RecalculateStreamsLength` and `WriteXrefObjects`
(syntax/files/file_writer.cpp:817-933, 704-745, 935-988); the copy of the file has the encryption dictionary and the key of
the source (`SetEncryptionData`, file_writer.cpp:445-501).  Simplified: all objects get the same random bytes. -/
def secureEntries (m : Overflow) (c : Codecs) (k : Crypto) (doc : SecDoc) (resolve : Nat → Nat → Res Int)
    (rnd iv iv' : Bytes) : List SecEntry → Res (List WEntry)
  | [] => .ok []
  | e :: es => do
    let kind ← (match e.object with
      | none => .ok (.free 0)
      | some t => do
        let o ← savedTop m c k doc resolve e.num e.gen rnd iv iv' t
        pure (.used 0 (some o)) : Res WKind)
    let es ← secureEntries m c k doc resolve rnd iv iv' es
    pure (⟨e.num, e.gen, kind⟩ :: es)

/-- The same for all sections.  `owns` tells which sections are cross-reference streams, and their numbers.
file_writer.cpp:786-815. -/
def secureSections (m : Overflow) (c : Codecs) (k : Crypto) (doc : SecDoc) (resolve : Nat → Nat → Res Int)
    (rnd iv iv' : Bytes) : List (Option (Nat × Nat)) → List SecSection → Res (List WSection)
  | _, [] => .ok []
  | owns, s :: ss => do
    let es ← secureEntries m c k doc resolve rnd iv iv' s.entries
    let ss ← secureSections m c k doc resolve rnd iv iv' owns.tail ss
    pure (⟨owns.head?.join, es, s.trailer⟩ :: ss)

/-- `FileWriter::Write` (syntax/files/file_writer.cpp:34-86) for a document that may be encrypted, without optimisations.
`resolve` gives the values of lengths that are references. -/
def saveProtected (m : Overflow) (c : Codecs) (k : Crypto) (codec : Codec) (v : PdfVersion) (doc : SecDoc)
    (owns : List (Option (Nat × Nat))) (resolve : Nat → Nat → Res Int) (rnd iv iv' : Bytes) : Res Bytes := do
  let ss ← secureSections m c k doc resolve rnd iv iv' owns doc.sections
  saveFile codec v ss

/-- An entry of a document that was opened from a file: as it is in the file, or changed, with its object in memory; `none`
if it was released.  The dirty flag of xref_entry.h:45. -/
inductive MarkedEntry where
  | kept (e : WEntry)
  | changed (num gen : Nat) (object : Option SecTop)

/-- A section of such a document. xref.h:17-105. -/
structure MarkedSection where
  own : Option (Nat × Nat)
  entries : List MarkedEntry
  trailer : Dict
  offset : Int

/-- The copy of an object: copies of strings know their value, which is decrypted by the file of the original; copies of
streams know what the original knows (syntax/objects/string_object.cpp:110-134, stream_object.cpp:111-138). -/
def copiedTop (k : Crypto) (F : SecureFile) (number generation : Nat) (rnd : Bytes) : SecTop → Res SecTop
  | .direct o => do
    let o ← forceObj k F number generation rnd o
    pure (.direct o)
  | .stream entries s => do
    let entries ← forceEntries k F number generation rnd entries
    pure (.stream entries s)

/-- The file that an incremental save writes to, as its objects see it: `WriteIncremental` does not call
`SetEncryptionData`, so it has no encryption dictionary (syntax/files/file_writer.cpp:88-155, file.cpp:426-434). -/
def freshFile : SecureFile where
  dict := none
  documentId := []
  key := []
  entry := fun _ _ => none

/-- What an incremental save makes of an entry: a changed object is copied and written by the destination
(syntax/files/file_writer.cpp:1128-1153, 848-872, 134-143). -/
def incrementalEntry (m : Overflow) (c : Codecs) (k : Crypto) (F : SecureFile) (resolve : Nat → Nat → Res Int)
    (rnd iv iv' : Bytes) : MarkedEntry → Res IEntry
  | .kept e => .ok ⟨e, false⟩
  | .changed n g none => .ok ⟨⟨n, g, .used 0 none⟩, true⟩
  | .changed n g (some t) => do
    let t ← copiedTop k F n g rnd t
    let o ← savedTop m c k ⟨freshFile, false, []⟩ resolve n g rnd iv iv' t
    pure ⟨⟨n, g, .used 0 (some o)⟩, true⟩

/-- The same for the entries of a section. file_writer.cpp:1115-1189. -/
def incrementalEntries (m : Overflow) (c : Codecs) (k : Crypto) (F : SecureFile) (resolve : Nat → Nat → Res Int)
    (rnd iv iv' : Bytes) : List MarkedEntry → Res (List IEntry)
  | [] => .ok []
  | e :: es => do
    let i ← incrementalEntry m c k F resolve rnd iv iv' e
    let is ← incrementalEntries m c k F resolve rnd iv iv' es
    pure (i :: is)

/-- The same for all sections. file_writer.cpp:1107-1190. -/
def incrementalSections (m : Overflow) (c : Codecs) (k : Crypto) (F : SecureFile) (resolve : Nat → Nat → Res Int)
    (rnd iv iv' : Bytes) : List MarkedSection → Res (List ISection)
  | [] => .ok []
  | s :: ss => do
    let es ← incrementalEntries m c k F resolve rnd iv iv' s.entries
    let is ← incrementalSections m c k F resolve rnd iv iv' ss
    pure (⟨s.own, es, s.trailer, s.offset⟩ :: is)

/-- `FileWriter::WriteIncremental` (syntax/files/file_writer.cpp:88-155) for a document that may be encrypted, whose file has
the bytes `src`. -/
def saveChanges (m : Overflow) (c : Codecs) (k : Crypto) (codec : Codec) (F : SecureFile) (src : Bytes)
    (secs : List MarkedSection) (resolve : Nat → Nat → Res Int) (rnd iv iv' : Bytes) : Res Bytes := do
  let cur ← incrementalSections m c k F resolve rnd iv iv' secs
  saveIncremental codec src cur

end VPdf
