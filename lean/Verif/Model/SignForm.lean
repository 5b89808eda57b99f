import Verif.Model.NewDocument
import Verif.Model.FormFields
import Verif.Model.NumberObjects
import Verif.Model.Signing
/-
  What `Document::Sign` changes in the document before it is written: semantics/objects/document.cpp:661-813, with `CreateAcroForm`
  (300-315) and interactive_forms.cpp:34-58.

  The document is in memory; a call that fails leaves what it has done so far.  As in Model/PageTree.lean, streams are left out and
  one reference is followed where the code follows any number of them; Root and Pages are references.
-/
namespace VPdf

/-- The place of an object: an indirect object, and the keys that lead from it to a direct part.  In the code, the pointer to the
object (dictionary_object.h:101-104). -/
abbrev Loc := ObjRef × List Bytes

/-- The direct part of an object. dictionary_object.cpp:153-173. -/
def partAt : Obj → List Bytes → Option Obj
  | o, [] => some o
  | .dict d, k :: ks =>
    match mapFind k d with
    | some o => partAt o ks
    | none => none
  | _, _ :: _ => none

/-- The object after a change of a direct part. dictionary_object.cpp:153-206. -/
def withPart : Obj → List Bytes → Obj → Obj
  | _, [], v => v
  | .dict d, k :: ks, v =>
    match mapFind k d with
    | some o => .dict (replaceEntry k (withPart o ks v) d)
    | none => .dict d
  | o, _ :: _, _ => o

/-- The object at a place. object_utils.h:182-203. -/
def objAt (s : PStore) (l : Loc) : Option Obj := partAt (s l.1) l.2

/-- The document after a change of the object at a place.  The modifying functions of syntax/objects/*.cpp. -/
def putAt (s : PStore) (l : Loc) (v : Obj) : PStore := s.set l.1 (withPart (s l.1) l.2 v)

/-- The place that `FindAs` leads to: behind a reference, or in the dictionary itself. object_utils.h:182-203. -/
def entryLoc (l : Loc) (d : Dict) (k : Bytes) : Loc :=
  match mapFind k d with
  | some (.ref n g) => ((n, g), [])
  | _ => (l.1, l.2 ++ [k])

/-- The dictionary at a place. object_utils.h:132-159. -/
def dictIn (s : PStore) (l : Loc) : Res Dict :=
  match objAt s l with
  | some (.dict d) => .ok d
  | _ => .error .conversion

/-- `Insert` of a value unless the dictionary `Contains` the key: document.cpp:753-756, interactive_forms.cpp:35-41, 48-54. -/
def ensureEntry (s : PStore) (l : Loc) (k : Bytes) (v : Obj) : Res PStore := do
  let d ← dictIn s l
  match mapFind k d with
  | some _ => pure s
  | none => pure (putAt s l (.dict (mapInsert k v d)))

/-- `Append` to the array that is an entry of the dictionary: document.cpp:758, 779-780, 801-806. -/
def appendIn (s : PStore) (l : Loc) (k : Bytes) (item : Obj) : Res PStore := do
  let d ← dictIn s l
  match ← treeEntry s d k with
  | .arr items => pure (putAt s (entryLoc l d k) (.arr (items ++ [item])))
  | _ => .error .conversion

/-- `SetSignaturesExist(true)` and `SetAppendOnly(true)` for the flags of a form, interactive_forms.cpp:56, signature_flags.h:18-24,
document.cpp:796-798.  A real number is refused by `ToggleBit`. -/
def markSigned (s : PStore) (l : Loc) : Res PStore := do
  let d ← dictIn s l
  match ← treeEntry s d (b! "SigFlags") with
  | .int v => do
    let a ← (NumVal.int v).toggle 0 true
    let b ← a.toggle 1 true
    match b with
    | .int w => pure (putAt s (entryLoc l d (b! "SigFlags")) (.int w))
    | _ => .error .throw
  | _ => .error .throw

/-- The widget before it becomes a field, document.cpp:760-773. -/
def newWidget (page : ObjRef) : Dict :=
  let d := mapInsert (b! "Type") (.name (b! "Annot")) []
  let d := mapInsert (b! "Subtype") (.name (b! "Widget")) d
  let d := mapInsert (b! "Rect") (.arr [.int 0, .int 0, .int 0, .int 0]) d
  mapInsert (b! "P") (.ref page.1 page.2) d

/-- The widget as a field, document.cpp:782-787. -/
def signatureField (page signature : ObjRef) : Dict :=
  let d := mapInsert (b! "FT") (.name (b! "Sig")) (newWidget page)
  let d := mapInsert (b! "T") (.lit (b! "Signature1")) d
  mapInsert (b! "V") (.ref signature.1 signature.2) d

/-- The signature dictionary in memory, document.cpp:683-726. -/
def signatureObject (o : SignSettings) : Dict := (signatureDict o).map fun e => (e.1, e.2.value)

/-- `GetDocumentCatalog` or `CreateCatalog`, document.cpp:149-171, 207-228, 734-739. -/
def signCatalog (d : NewDoc) : Res (ObjRef × NewDoc) :=
  match mapFind (b! "Root") d.trailer with
  | none => d.createCatalog
  | some (.ref n g) => do
    let c ← dictAt d.store (n, g)
    match mapFind (b! "Type") c with
    | none => pure ((n, g), d)
    | some _ => do
      match ← treeEntry d.store c (b! "Type") with
      | .name t => if t = b! "Catalog" then pure ((n, g), d) else .error .throw
      | _ => .error .conversion
  | some _ => .error .conversion

/-- The first page, document.cpp:741-751 and catalog.cpp:51-65.  The number bounds the depth of the page tree. -/
def signPage (f : Nat) (s : PStore) (catalog : ObjRef) : Res ObjRef := do
  let c ← dictAt s catalog
  match mapFind (b! "Pages") c with
  | none => .error .throw
  | some (.ref n g) => do
    let count ← pageCount s (n, g)
    if count = 0 then .error .throw else pageAt s f (n, g) 1
  | some _ => .error .conversion

/-- `AcroForm` or `CreateAcroForm`: the place of the form. document.cpp:300-315, 789-794, catalog.cpp:180-189. -/
def signTarget (d : NewDoc) (catalog : ObjRef) : Res (Loc × NewDoc) := do
  let c ← dictAt d.store catalog
  match mapFind (b! "AcroForm") c with
  | none => do
    let (r, d) ← d.allocate (.dict [])
    let c ← dictAt d.store catalog
    let c ← insertOnce (b! "AcroForm") (.ref r.1 r.2) c
    pure ((r, []), { d with store := d.store.set catalog (.dict c) })
  | some _ => do
    match ← treeEntry d.store c (b! "AcroForm") with
    | .dict _ => pure (entryLoc (catalog, []) c (b! "AcroForm"), d)
    | _ => .error .conversion

/-- One step after another: a step that fails ends the call and leaves the document as it was before the step.  Exceptions in
document.cpp:661-826. -/
def NewDoc.step {α : Type} (d : NewDoc) (r : Res (α × NewDoc)) (next : α → NewDoc → NewDoc × Option Fault) : NewDoc × Option Fault :=
  match r with
  | .ok (a, d') => next a d'
  | .error e => (d, some e)

/-- A step that changes objects only. document.cpp:753-813. -/
def NewDoc.alter (d : NewDoc) (r : Res PStore) (next : NewDoc → NewDoc × Option Fault) : NewDoc × Option Fault :=
  match r with
  | .ok s => next { d with store := s }
  | .error e => (d, some e)

/-- `Document::Sign` before the document is written, document.cpp:679-806, after the signature dictionary has been made: the document
it leaves and the exception, if there is one. -/
def signForm (f : Nat) (hasKey : Bool) (o : SignSettings) (d : NewDoc) : NewDoc × Option Fault :=
  if ¬ hasKey then (d, some .throw)
  else
    d.step (d.allocate (.dict (signatureObject o))) fun sig d =>
    d.step (signCatalog d) fun catalog d =>
    d.step (do let p ← signPage f d.store catalog; pure (p, d)) fun page d =>
    d.alter (ensureEntry d.store (page, []) (b! "Annots") (.arr [])) fun d =>
    d.step (do
      let p ← dictAt d.store page
      let _ ← treeArray d.store p (b! "Annots")
      d.allocate (.dict (newWidget page))) fun widget d =>
    d.alter (appendIn d.store (page, []) (b! "Annots") (.ref widget.1 widget.2)) fun d =>
    d.alter (pure (d.store.set widget (.dict (signatureField page sig)))) fun d =>
    d.step (signTarget d catalog) fun form d =>
    d.alter (ensureEntry d.store form (b! "SigFlags") (.int 0)) fun d =>
    d.alter (markSigned d.store form) fun d =>
    d.alter (ensureEntry d.store form (b! "Fields") (.arr [])) fun d =>
    d.alter (appendIn d.store form (b! "Fields") (.ref widget.1 widget.2)) fun d =>
    (d, none)

end VPdf
