import Verif.Model.FormFields
import Verif.Spec.PageBox
import Verif.Spec.Date
/-
  Fields of forms and signatures (ISO 32000-1, 12.7.2, 12.7.3 and table 252).
-/
namespace VPdf.Spec

/-- The names of the kinds of fields, table 220. -/
inductive KindName : Bytes → FieldKind → Prop where
  | button : KindName (b! "Btn") .button
  | text : KindName (b! "Tx") .text
  | choice : KindName (b! "Ch") .choice
  | signature : KindName (b! "Sig") .signature

/-- The kind of a field: its own one, or that of the field above it (table 220: the entry is inheritable). -/
inductive FieldHasKind (s : PStore) : Dict → FieldKind → Prop where
  | own (d : Dict) (n : Bytes) (k : FieldKind) : HasEntry s d (b! "FT") (.name n) → KindName n k → FieldHasKind s d k
  | inherited (d parent : Dict) (k : FieldKind) : Absent d (b! "FT") → HasEntry s d (b! "Parent") (.dict parent) →
      FieldHasKind s parent k → FieldHasKind s d k

/-- The fields of a form: those of its array, and those below them. -/
inductive FormField (s : PStore) (form : Dict) : Dict → Prop where
  | root (l : List Obj) (o : Obj) (d : Dict) : HasEntry s form (b! "Fields") (.arr l) → o ∈ l → Refers s o (.dict d) → FormField s form d
  | kid (d : Dict) (l : List Obj) (o : Obj) (d' : Dict) : FormField s form d → HasEntry s d (b! "Kids") (.arr l) → o ∈ l →
      Refers s o (.dict d') → FormField s form d'

/-- The entries of a signature that are texts, table 252. -/
def textEntry : SignatureText → Bytes
  | .reason => b! "Reason"
  | .location => b! "Location"
  | .contactInfo => b! "ContactInfo"
  | .name => b! "Name"
  | .certificate => b! "Cert"

/-- The entry is a string with these bytes. -/
def TextEntry (s : PStore) (d : Dict) (k t : Bytes) : Prop := HasEntry s d k (.lit t) ∨ HasEntry s d k (.hex t)

/-- The array that says these ranges of bytes: offset and length of each, in this order. -/
def SaysRanges (s : PStore) (l : List Obj) (rs : List (Nat × Nat)) : Prop :=
  l.length = 2 * rs.length ∧ ∀ i r, rs[i]? = some r →
    ∃ a b, l[2 * i]? = some a ∧ l[2 * i + 1]? = some b ∧ Refers s a (.int r.1) ∧ Refers s b (.int r.2)

/-- The byte at this place is in the range. -/
def Covers (r : Nat × Nat) (p : Nat) : Prop := r.1 ≤ p ∧ p < r.1 + r.2

end VPdf.Spec
