import Verif.Model.SecureSave
import Verif.Model.CopyObjects

/-! # Copying objects to a document when one or both documents are encrypted -/
namespace VPdf

mutual

/-- The references of a copy changed: `File::FixObjectReferences` (syntax/files/file.cpp:1004-1063) for objects that may have
encrypted strings. -/
def relinkObj (f : ObjRef → ObjRef) : SecObj → SecObj
  | .other o => .other (mapRefs f o)
  | .str s => .str s
  | .arr items => .arr (relinkItems f items)
  | .dict entries => .dict (relinkEntries f entries)

/-- The loop over the items of an array (syntax/files/file.cpp:1042-1047). -/
def relinkItems (f : ObjRef → ObjRef) : List SecObj → List SecObj
  | [] => []
  | o :: os => relinkObj f o :: relinkItems f os

/-- The loop over the entries of a dictionary (syntax/files/file.cpp:1049-1062). -/
def relinkEntries (f : ObjRef → ObjRef) : List (Bytes × SecObj) → List (Bytes × SecObj)
  | [] => []
  | (key, o) :: es => (key, relinkObj f o) :: relinkEntries f es

end

/-- `File::ShallowCopyObject` of an indirect object (syntax/files/file.cpp:1081-1103) and `FixObjectReferences`: copies of
strings know the value that the source file decrypted (string_object.cpp:110-134); copies of streams have the stored bytes and
what is known of the body (stream_object.cpp:111-139) and are marked as changed (file.cpp:1100).  The copies keep the flag that
exempts objects of object streams from encryption (object.cpp:262). -/
def copyInto (k : Crypto) (F : SecureFile) (number generation : Nat) (rnd : Bytes) (f : ObjRef → ObjRef) : SecTop → Res SecTop
  | .direct o => do
    let o ← forceObj k F number generation rnd o
    pure (.direct (relinkObj f o))
  | .stream entries s => do
    let entries ← forceEntries k F number generation rnd entries
    pure (.stream (relinkEntries f entries) { s with dirty := true })

/-- The copies of all objects that `DeepCopyObject` reaches, with their new numbers; the second argument lists the original and
the new numbers (syntax/files/file.cpp:1151-1174). -/
def adoptObjects (k : Crypto) (F : SecureFile) (rnd : Bytes) (f : ObjRef → ObjRef) (src : ObjRef → SecTop) :
    List (ObjRef × ObjRef) → Res (List SecEntry)
  | [] => .ok []
  | (q, c) :: m => do
    let t ← copyInto k F q.1 q.2 rnd f (src q)
    let es ← adoptObjects k F rnd f src m
    pure (⟨c.1, c.2, some t⟩ :: es)

/-- `XrefBase::Add` of an entry with a number that is new: the entries are ordered by number (syntax/files/xref.h:25-29). -/
def addSecEntry (e : SecEntry) : List SecEntry → List SecEntry
  | [] => [e]
  | x :: es => if e.num < x.num then e :: x :: es else x :: addSecEntry e es

/-- The file with the numbers of copies: they are entries in use, not in object streams (syntax/files/file.cpp:972-1002). -/
def SecureFile.adopt (F : SecureFile) (m : List (ObjRef × ObjRef)) : SecureFile :=
  { F with entry := fun n g => if (n, g) ∈ m.map (·.2) then some false else F.entry n g }

/-- The document after `File::DeepCopyObjects` (syntax/files/file.cpp:1151-1174) has copied to it the objects listed in `m`,
with their new numbers from `allocateAll`.  The new entries go to the first section (file.cpp:972-996). -/
def adoptInto (k : Crypto) (F : SecureFile) (rnd : Bytes) (m : List (ObjRef × ObjRef)) (src : ObjRef → SecTop) (dst : SecDoc) :
    Res SecDoc := do
  let es ← adoptObjects k F rnd (newReference m) src m
  match dst.sections with
  | [] => .error .ub
  | s :: ss =>
    pure { file := dst.file.adopt m, encryptionDirty := dst.encryptionDirty,
           sections := { s with entries := es.foldl (fun l e => addSecEntry e l) s.entries } :: ss }

end VPdf
