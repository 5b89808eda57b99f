import Verif.Model.FileStart
import Verif.Spec.NameTree
import Verif.Spec.Grammar
/-
  What is not encrypted in an encrypted file (ISO 32000-1, 7.6.1 and 12.8.1; ISO 32000-2, 7.6.2), and the form of a document
  (ISO 32000-1, 12.7).  Only data types are taken from the model.
-/
namespace VPdf.Spec

/-- The file has an encryption dictionary: an `Encrypt` entry of the newest trailer that is not null. -/
def Protected (F : ProtectedFile) : Prop :=
  ∃ p ps, F.parts = p :: ps ∧ ∃ o, valueAt (b! "Encrypt") p.trailer = some o ∧
    (((∀ n g, o ≠ .ref n g) ∧ o ≠ .null) ∨ ∃ n g v, o = .ref n g ∧ F.objs (n, g) = .ok v ∧ v ≠ .null)

/-- The trailer names the encryption dictionary as the standard wants it: not at all, directly, or as an object that can be read
and is not in an object stream. -/
def ProperEncrypt (F : ProtectedFile) (trailer : Dict) : Prop :=
  ∀ n g, valueAt (b! "Encrypt") trailer = some (.ref n g) → F.packed (n, g) = false ∧ ∃ v, F.objs (n, g) = .ok v

/-- The object can be read without a password. -/
def ReadableAtOnce (F : ProtectedFile) (r : ObjRef) : Prop :=
  F.packed r = false ∨ ¬ Protected F ∨ F.unlock [] = .ok true

/-- What is at the place `p` is the object `v` at the place `q`, or a reference to it, and can be read without a password. -/
inductive Rests (F : ProtectedFile) : Spot → Obj → Spot → Obj → Prop where
  | here (p : Spot) (v : Obj) : (∀ n g, v ≠ .ref n g) → Rests F p v p v
  | refers (p : Spot) (n g : Nat) (v : Obj) : ReadableAtOnce F (n, g) → F.objs (n, g) = .ok v → (∀ n g, v ≠ .ref n g) →
      Rests F p (.ref n g) ⟨.object (n, g), []⟩ v

/-- The dictionary at the place `p` has the entry `v`, which stands at `q`. -/
def EntryAt (F : ProtectedFile) (p : Spot) (d : Dict) (k : Bytes) (q : Spot) (v : Obj) : Prop :=
  ∃ o, valueAt k d = some o ∧ Rests F (p.child (.key k)) o q v

/-- The item of an array at the place `p`. -/
def ItemAt (F : ProtectedFile) (p : Spot) (l : List Obj) (i : Nat) (q : Spot) (v : Obj) : Prop :=
  ∃ o, l[i]? = some o ∧ Rests F (p.child (.index i)) o q v

/-- The document has a form, and its fields are listed in the array at the place. -/
def FormAt (F : ProtectedFile) (r : Spot) (l : List Obj) : Prop :=
  ∃ part ps p root q form, F.parts = part :: ps ∧
    EntryAt F ⟨.trailer 0, []⟩ part.trailer (b! "Root") p (.dict root) ∧
    EntryAt F p root (b! "AcroForm") q (.dict form) ∧ EntryAt F q form (b! "Fields") r (.arr l)

/-- The fields of the form with the type they have, their own or that of the field they belong to; `depth` is 0 for the fields in
the list of the form. -/
inductive FieldAt (F : ProtectedFile) : Nat → Spot → Dict → Option Bytes → Prop where
  | own (r p : Spot) (l : List Obj) (i : Nat) (d : Dict) (q : Spot) (t : Bytes) : FormAt F r l → ItemAt F r l i p (.dict d) →
      EntryAt F p d (b! "FT") q (.name t) → FieldAt F 0 p d (some t)
  | none (r p : Spot) (l : List Obj) (i : Nat) (d : Dict) : FormAt F r l → ItemAt F r l i p (.dict d) →
      Absent d (b! "FT") → FieldAt F 0 p d none
  | kidOwn (n : Nat) (p p' r q : Spot) (d d' : Dict) (l : List Obj) (i : Nat) (t : Bytes) (t' : Option Bytes) :
      FieldAt F n p d t' → EntryAt F p d (b! "Kids") r (.arr l) → ItemAt F r l i p' (.dict d') →
      EntryAt F p' d' (b! "FT") q (.name t) → FieldAt F (n + 1) p' d' (some t)
  | kid (n : Nat) (p p' r : Spot) (d d' : Dict) (l : List Obj) (i : Nat) (t : Option Bytes) :
      FieldAt F n p d t → EntryAt F p d (b! "Kids") r (.arr l) → ItemAt F r l i p' (.dict d') →
      Absent d' (b! "FT") → FieldAt F (n + 1) p' d' t

/-- The place is that of the contents of a signature: those of the value of a signature field. -/
def SignatureAt (F : ProtectedFile) (depth : Nat) (c : Spot) (stored : Bytes) : Prop :=
  ∃ p d q v, FieldAt F depth p d (some (b! "Sig")) ∧ EntryAt F p d (b! "V") q (.dict v) ∧
    EntryAt F q v (b! "Contents") c (.hex stored)

/-- The place is the other one or inside of it. -/
def Within (p q : Spot) : Prop := p.home = q.home ∧ ∃ more, p.steps = q.steps ++ more

/-- The places that the standard exempts from encryption; of the signatures, those of fields at that depth of the form. -/
inductive NotEncrypted (F : ProtectedFile) (depth : Nat) (p : Spot) : Prop where
  /-- in the encryption dictionary, if it is in the trailer -/
  | dictionary (part : TrailerPart) (ps : List TrailerPart) (o : Obj) : F.parts = part :: ps →
      valueAt (b! "Encrypt") part.trailer = some o → (∀ n g, o ≠ .ref n g) →
      Within p ⟨.trailer 0, [.key (b! "Encrypt")]⟩ → NotEncrypted F depth p
  /-- in the encryption dictionary, if it is an object -/
  | dictionaryObject (part : TrailerPart) (ps : List TrailerPart) (n g : Nat) : F.parts = part :: ps →
      valueAt (b! "Encrypt") part.trailer = some (.ref n g) → Within p ⟨.object (n, g), []⟩ → NotEncrypted F depth p
  /-- in the identifiers of any trailer -/
  | identifier (i : Nat) (part : TrailerPart) (o : Obj) : F.parts[i]? = some part → valueAt (b! "ID") part.trailer = some o →
      Within p ⟨.trailer i, [.key (b! "ID")]⟩ → NotEncrypted F depth p
  /-- in the dictionary of a cross-reference stream -/
  | stream (i : Nat) (part : TrailerPart) : F.parts[i]? = some part → part.stream = true → p.home = .trailer i →
      NotEncrypted F depth p
  /-- in an object of an object stream, which is encrypted as a whole -/
  | packed (r : ObjRef) : p.home = .object r → F.packed r = true → NotEncrypted F depth p
  /-- the contents of a signature -/
  | signature (stored : Bytes) (c : Spot) : SignatureAt F depth c stored → Within p c → NotEncrypted F depth p

/-- The field can be understood: it is not a dictionary, or its type is missing or a name, and the value of a signature field is
missing or a dictionary whose contents are missing or written in hexadecimal. -/
def ProperField (F : ProtectedFile) (p : Spot) (o : Obj) : Prop :=
  ∃ q v, Rests F p o q v ∧ ∀ d, v = .dict d →
    Absent d (b! "FT") ∨ ∃ r t, EntryAt F q d (b! "FT") r (.name t) ∧
      (t = b! "Sig" → Absent d (b! "V") ∨ ∃ r' x, EntryAt F q d (b! "V") r' (.dict x) ∧
        (Absent x (b! "Contents") ∨ ∃ c bytes, EntryAt F r' x (b! "Contents") c (.hex bytes)))

/-- The way to the fields of the form can be read without a password, and everything on it is what the standard says: a
dictionary, an array. -/
def ProperForm (F : ProtectedFile) (trailer : Dict) : Prop :=
  Absent trailer (b! "Root") ∨ ∃ p root, EntryAt F ⟨.trailer 0, []⟩ trailer (b! "Root") p (.dict root) ∧
    (Absent root (b! "AcroForm") ∨ ∃ q form, EntryAt F p root (b! "AcroForm") q (.dict form) ∧
      (Absent form (b! "Fields") ∨ ∃ r l, EntryAt F q form (b! "Fields") r (.arr l) ∧
        ∀ i o, l[i]? = some o → ProperField F (r.child (.index i)) o))

/-- A file that follows the standard as far as it is read when it is opened. -/
def ProperStart (F : ProtectedFile) : Prop :=
  ∃ part ps, F.parts = part :: ps ∧ ProperEncrypt F part.trailer ∧ ProperForm F part.trailer

end VPdf.Spec
