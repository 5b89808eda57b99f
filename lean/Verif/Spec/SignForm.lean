import Verif.Model.SignForm
import Verif.Spec.FormFields
import Verif.Spec.Copy
/-
  What signing means for a document (ISO 32000-1, 12.7.2, 12.7.4.5, 12.8.1 and tables 164, 188, 218, 219).
-/
namespace VPdf.Spec

/-- The entry is this array, or there is no entry and the list is empty. -/
def ListEntry (s : PStore) (d : Dict) (k : Bytes) (l : List Obj) : Prop := (Absent d k ∧ l = []) ∨ HasEntry s d k (.arr l)

/-- The object that the value of the entry is, if it is a reference. -/
def entryRef (d : Dict) (k : Bytes) : List ObjRef :=
  match mapFind k d with
  | some (.ref n g) => [(n, g)]
  | _ => []

/-- The objects that hold what signing changes: page, catalog, and the annotations, the form, its flags and its fields where they are
objects of their own. -/
def signedObjects (page catalog : ObjRef) (pd cd form : Dict) : List ObjRef :=
  page :: catalog :: (entryRef pd (b! "Annots") ++ entryRef cd (b! "AcroForm") ++ entryRef form (b! "SigFlags") ++
    entryRef form (b! "Fields"))

/-- A document with a first page, the annotations of this page, and the form with its flags and fields.  Without a form, `form` and
`fields` are empty and `flags` is 0. -/
structure Signable (d : NewDoc) (catalog root page : ObjRef) (kids : List PageTree) (cd pd form : Dict) (annots fields : List Obj)
    (flags : Int) : Prop where
  rootEntry : mapFind (b! "Root") d.trailer = some (.ref catalog.1 catalog.2)
  catalogAt : d.store catalog = .dict cd
  catalogType : Absent cd (b! "Type") ∨ HasEntry d.store cd (b! "Type") (.name (b! "Catalog"))
  pagesEntry : mapFind (b! "Pages") cd = some (.ref root.1 root.2)
  tree : StoredTree d.store (.node root kids)
  first : ∃ rest, pagesOf kids = page :: rest
  pageDict : d.store page = .dict pd
  annotsList : ListEntry d.store pd (b! "Annots") annots
  formEntry : (Absent cd (b! "AcroForm") ∧ form = []) ∨ HasEntry d.store cd (b! "AcroForm") (.dict form)
  flagsEntry : (Absent form (b! "SigFlags") ∧ flags = 0) ∨ HasEntry d.store form (b! "SigFlags") (.int flags)
  fieldsList : ListEntry d.store form (b! "Fields") fields
  apart : (signedObjects page catalog pd cd form).Nodup
  listed : ∀ r, d.store r ≠ .null → Occurs d.alloc.chain r.1

/-- `b` is `a` with the two lowest bits set. -/
def BothFlags (a b : Int) : Prop := b % 4 = 3 ∧ b / 4 = a / 4

/-- The document after signing.  `signature` is the number of the signature dictionary `sd`, `widget` that of the field. -/
structure SignedBy (d d' : NewDoc) (catalog page signature widget : ObjRef) (cd pd form sd : Dict) (annots fields : List Obj)
    (flags : Int) : Prop where
  freshSignature : ¬ Occurs d.alloc.chain signature.1
  freshWidget : ¬ Occurs d.alloc.chain widget.1
  different : signature ≠ widget
  signatureAt : d'.store signature = .dict sd
  widgetAt : ∃ wd, d'.store widget = .dict wd ∧ mapFind (b! "Type") wd = some (.name (b! "Annot")) ∧
    mapFind (b! "Subtype") wd = some (.name (b! "Widget")) ∧ mapFind (b! "P") wd = some (.ref page.1 page.2) ∧
    mapFind (b! "Rect") wd = some (.arr [.int 0, .int 0, .int 0, .int 0]) ∧
    mapFind (b! "FT") wd = some (.name (b! "Sig")) ∧ mapFind (b! "T") wd = some (.lit (b! "Signature1")) ∧
    mapFind (b! "V") wd = some (.ref signature.1 signature.2)
  pageNow : ∃ pd', d'.store page = .dict pd' ∧ HasEntry d'.store pd' (b! "Annots") (.arr (annots ++ [.ref widget.1 widget.2])) ∧
    entryRef pd' (b! "Annots") = entryRef pd (b! "Annots") ∧ ∀ k, k ≠ b! "Annots" → mapFind k pd' = mapFind k pd
  formNow : ∃ cd' form' flags', d'.store catalog = .dict cd' ∧ (∀ k, k ≠ b! "AcroForm" → mapFind k cd' = mapFind k cd) ∧
    HasEntry d'.store cd' (b! "AcroForm") (.dict form') ∧
    (¬ Absent cd (b! "AcroForm") → entryRef cd' (b! "AcroForm") = entryRef cd (b! "AcroForm")) ∧
    HasEntry d'.store form' (b! "Fields") (.arr (fields ++ [.ref widget.1 widget.2])) ∧
    HasEntry d'.store form' (b! "SigFlags") (.int flags') ∧ BothFlags flags flags' ∧
    ∀ k, k ≠ b! "Fields" → k ≠ b! "SigFlags" → mapFind k form' = mapFind k form
  others : ∀ r, d.store r ≠ .null → r ∉ signedObjects page catalog pd cd form → d'.store r = d.store r
  trailerKept : d'.trailer = d.trailer
  numbersKept : ∀ n, Occurs d.alloc.chain n → Occurs d'.alloc.chain n

/-- Two different fields of the form have the same name. -/
def SharedName (s : PStore) (fields : List Obj) : Prop :=
  ∃ i j : Nat, i < j ∧ ∃ a b da db t, fields[i]? = some a ∧ fields[j]? = some b ∧ a ≠ b ∧ Refers s a (.dict da) ∧ Refers s b (.dict db) ∧
    HasEntry s da (b! "T") (.lit t) ∧ HasEntry s db (b! "T") (.lit t)

end VPdf.Spec
