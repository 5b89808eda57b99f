import Verif.Model.StreamSave

/-! # Removing the encryption of a document -/
namespace VPdf

/-- A string object: the decoded text as stored, and the value once it is known (syntax/objects/string_object.h:60-90). -/
structure SecString where
  hex : Bool
  stored : Bytes
  value : Option Bytes
  exempt : Bool

/-- An object of a document that may be encrypted (syntax/objects/*.h): `other` is neither a string nor a container. -/
inductive SecObj where
  | other (o : Obj)
  | str (s : SecString)
  | arr (items : List SecObj)
  | dict (entries : List (Bytes × SecObj))

/-- An indirect object of a document that may be encrypted (syntax/objects/stream_object.h:45-58 for streams). -/
inductive SecTop where
  | direct (o : SecObj)
  | stream (entries : List (Bytes × SecObj)) (s : StreamState)

/-- `GetValue` of a string (syntax/objects/string_object.cpp:145-173, 376-431). -/
def SecString.getValue (k : Crypto) (F : SecureFile) (s : SecString) (number generation : Nat) (rnd : Bytes) : Res Bytes :=
  match s.value with
  | some v => .ok v
  | none => stringRead k F s.exempt number generation rnd s.stored

mutual

/-- `Document::ForceObjectInitialization(obj)` (semantics/objects/document.cpp:1013-1058) for objects that are no streams:
the values of all strings become known. -/
def forceObj (k : Crypto) (F : SecureFile) (number generation : Nat) (rnd : Bytes) : SecObj → Res SecObj
  | .other o => .ok (.other o)
  | .str s => do
    let v ← s.getValue k F number generation rnd
    pure (.str { s with value := some v })
  | .arr items => do
    let items ← forceItems k F number generation rnd items
    pure (.arr items)
  | .dict entries => do
    let entries ← forceEntries k F number generation rnd entries
    pure (.dict entries)

/-- The loop over the items of an array (semantics/objects/document.cpp:1040-1048). -/
def forceItems (k : Crypto) (F : SecureFile) (number generation : Nat) (rnd : Bytes) : List SecObj → Res (List SecObj)
  | [] => .ok []
  | o :: os => do
    let o ← forceObj k F number generation rnd o
    let os ← forceItems k F number generation rnd os
    pure (o :: os)

/-- The loop over the entries of a dictionary (semantics/objects/document.cpp:1028-1037). -/
def forceEntries (k : Crypto) (F : SecureFile) (number generation : Nat) (rnd : Bytes) :
    List (Bytes × SecObj) → Res (List (Bytes × SecObj))
  | [] => .ok []
  | (key, o) :: es => do
    let o ← forceObj k F number generation rnd o
    let es ← forceEntries k F number generation rnd es
    pure ((key, o) :: es)

end

/-- `StreamObject::GetBody` as a change of the stream: the bodies that are known afterwards
(syntax/objects/stream_object.cpp:204-308, 432-506).  With a null filter only the decrypted body is kept. -/
def forceStream (m : Overflow) (c : Codecs) (k : Crypto) (F : SecureFile) (s : StreamState) (number generation : Nat)
    (rnd : Bytes) : Res StreamState :=
  match s.decoded with
  | some _ => .ok s
  | none => do
    let b ← bodyDecrypted k F s number generation rnd
    let body ← streamBody m c k F s number generation rnd
    match s.filter with
    | .null => pure { s with decrypted := some b }
    | _ => pure { s with decrypted := some b, decoded := some body }

/-- `Document::ForceObjectInitialization(obj)` (semantics/objects/document.cpp:1013-1058). -/
def forceTop (m : Overflow) (c : Codecs) (k : Crypto) (F : SecureFile) (number generation : Nat) (rnd : Bytes) :
    SecTop → Res SecTop
  | .direct o => do
    let o ← forceObj k F number generation rnd o
    pure (.direct o)
  | .stream entries s => do
    let s ← forceStream m c k F s number generation rnd
    let entries ← forceEntries k F number generation rnd entries
    pure (.stream entries s)

/-- An entry of a cross-reference section: `none` for a free one.  The object is the one `GetReference` returns.
xref_entry.h, document.cpp:999-1005. -/
structure SecEntry where
  num : Nat
  gen : Nat
  object : Option SecTop

/-- A cross-reference section. xref.h. -/
structure SecSection where
  trailer : Dict
  entries : List SecEntry

/-- A document: its encryption, whether that was changed, and its sections, newest first (syntax/files/file.h:133-160). -/
structure SecDoc where
  file : SecureFile
  encryptionDirty : Bool
  sections : List SecSection

/-- The inner loop of `Document::ForceObjectInitialization` (semantics/objects/document.cpp:996-1009). -/
def forceSection (m : Overflow) (c : Codecs) (k : Crypto) (F : SecureFile) (rnd : Bytes) : List SecEntry → Res (List SecEntry)
  | [] => .ok []
  | e :: es => do
    let o ← (match e.object with
      | none => .ok none
      | some o => do
        let o ← forceTop m c k F e.num e.gen rnd o
        pure (some o) : Res (Option SecTop))
    let es ← forceSection m c k F rnd es
    pure ({ e with object := o } :: es)

/-- `Document::ForceObjectInitialization` (semantics/objects/document.cpp:990-1011): all sections. -/
def forceSections (m : Overflow) (c : Codecs) (k : Crypto) (F : SecureFile) (rnd : Bytes) : List SecSection → Res (List SecSection)
  | [] => .ok []
  | s :: ss => do
    let es ← forceSection m c k F rnd s.entries
    let ss ← forceSections m c k F rnd ss
    pure ({ s with entries := es } :: ss)

/-- `Document::RemoveEncryption` (semantics/objects/document.cpp:961-988) with a valid licence. -/
def removeEncryption (m : Overflow) (c : Codecs) (k : Crypto) (rnd : Bytes) (doc : SecDoc) : Res SecDoc :=
  if !doc.file.isEncrypted then .ok doc
  else do
    let sections ← forceSections m c k doc.file rnd doc.sections
    match sections with
    | [] => .error .ub
    | s :: ss =>
      pure { file := { doc.file with dict := none }, encryptionDirty := true,
             sections := { s with trailer := mapErase (b! "Encrypt") s.trailer } :: ss }

mutual

/-- What is written for an object that is no stream (syntax/objects/string_object.cpp:445-600 for strings).  All strings
get the same random bytes here; nothing depends on them once the encryption is removed. -/
def savedObj (k : Crypto) (F : SecureFile) (number generation : Nat) (rnd iv : Bytes) : SecObj → Res Obj
  | .other o => .ok o
  | .str s => do
    let v ← s.getValue k F number generation rnd
    let w ← stringWrite k F s.exempt number generation rnd iv v
    pure (if s.hex then .hex w else .lit w)
  | .arr items => do
    let items ← savedItems k F number generation rnd iv items
    pure (.arr items)
  | .dict entries => do
    let entries ← savedEntries k F number generation rnd iv entries
    pure (.dict entries)

/-- The items of an array (syntax/objects/array_object.cpp, `ToPdfStreamInternal`). -/
def savedItems (k : Crypto) (F : SecureFile) (number generation : Nat) (rnd iv : Bytes) : List SecObj → Res (List Obj)
  | [] => .ok []
  | o :: os => do
    let o ← savedObj k F number generation rnd iv o
    let os ← savedItems k F number generation rnd iv os
    pure (o :: os)

/-- The entries of a dictionary (syntax/objects/dictionary_object.cpp:69-84). -/
def savedEntries (k : Crypto) (F : SecureFile) (number generation : Nat) (rnd iv : Bytes) :
    List (Bytes × SecObj) → Res Dict
  | [] => .ok []
  | (key, o) :: es => do
    let o ← savedObj k F number generation rnd iv o
    let es ← savedEntries k F number generation rnd iv es
    pure ((key, o) :: es)

end

/-- What is written for an indirect object of a document: `FileWriter::CloneXref`, `RecalculateStreamsLength` and
`WriteXrefObjects` (syntax/files/file_writer.cpp:818-988, 704-750).  Copies of objects keep what is known about them
(string_object.cpp:110-134, stream_object.cpp:105-138), and the copy of the file knows whether the encryption was changed
(file_writer.cpp:445-456). -/
def savedTop (m : Overflow) (c : Codecs) (k : Crypto) (doc : SecDoc) (resolve : Nat → Nat → Res Int) (number generation : Nat)
    (rnd iv iv' : Bytes) : SecTop → Res SObj
  | .direct o => do
    let o ← savedObj k doc.file number generation rnd iv o
    pure (.direct o)
  | .stream entries s => do
    let d ← savedEntries k doc.file number generation rnd iv entries
    saveStream m c k doc.file doc.encryptionDirty resolve d s number generation rnd iv iv'

end VPdf
