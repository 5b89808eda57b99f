import Verif.Model.PageBox
import Verif.Model.ViewSettings
import Verif.Model.Date
/-
  Fields of forms and their signatures: src/vanillapdf/semantics/objects/fields.cpp, interactive_forms.cpp:14-33, digital_signature.cpp,
  catalog.cpp:180-189 and src/vanillapdf/implementation/semantics/c_fields.cpp, c_interactive_forms.cpp, c_digital_signature.cpp.

  As in Model/PageTree.lean, one reference is followed where the code follows any number of them.
-/
namespace VPdf

/-- `Field::Type`, fields.h:20-27; `FieldType`, c_fields.cpp:15-28. -/
inductive FieldKind where
  | nonTerminal
  | button
  | text
  | choice
  | signature
  deriving DecidableEq, Repr

/-- `Field::Create`, fields.cpp:18-47, with `GetFieldType` of the result, fields.h:36-64. -/
def fieldKind (s : PStore) (d : Dict) : Res FieldKind :=
  match mapFind (b! "FT") d with
  | none => .ok .nonTerminal
  | some _ => do
    match ← treeEntry s d (b! "FT") with
    | .name n =>
      if n = b! "Btn" then pure .button
      else if n = b! "Tx" then pure .text
      else if n = b! "Ch" then pure .choice
      else if n = b! "Sig" then pure .signature
      else .error .throw
    | _ => .error .throw

/-- `Catalog::AcroForm`, catalog.cpp:180-189. -/
def catalogForm (s : PStore) (catalog : Dict) : Res (Option Dict) := dictEntry s catalog (b! "AcroForm")

/-- `InteractiveForm::GetFields`, interactive_forms.cpp:14-22: the array of the fields. -/
def fieldList (s : PStore) (form : Dict) : Res (Option (List Obj)) :=
  match mapFind (b! "Fields") form with
  | none => .ok none
  | some _ => do
    let l ← treeArray s form (b! "Fields")
    pure (some l)

/-- `FieldCollection::GetSize`, fields.cpp:60-62. -/
def fieldCount (l : List Obj) : Nat := l.length

/-- `FieldCollection::At`, fields.cpp:64-69. -/
def fieldAtIndex (s : PStore) (l : List Obj) (i : Nat) : Res (FieldKind × Dict) :=
  match l[i]? with
  | none => .error .throw
  | some o =>
    match derefOne s o with
    | .dict d => do
      let kind ← fieldKind s d
      pure (kind, d)
    | _ => .error .conversion

/-- `SafeObjectConvert` to a signature field (c_fields.cpp:84-86) and `SignatureField::Value`, fields.cpp:49-58. -/
def signatureValue (s : PStore) (field : FieldKind × Dict) : Res (Option Dict) :=
  if field.1 = .signature then dictEntry s field.2 (b! "V") else .error .conversion

/-- The entries of a signature that are strings, digital_signature.cpp:58-83, 96-103, 123-130. -/
inductive SignatureText where
  | reason
  | location
  | contactInfo
  | name
  | certificate
  deriving DecidableEq, Repr

/-- `constant::Name::Reason` and so on, digital_signature.cpp:58-83, 96-103, 123-130. -/
def SignatureText.key : SignatureText → Bytes
  | .reason => b! "Reason"
  | .location => b! "Location"
  | .contactInfo => b! "ContactInfo"
  | .name => b! "Name"
  | .certificate => b! "Cert"

/-- `FindAs<StringObjectPtr>` behind `Contains`, digital_signature.cpp:58-65. -/
def stringEntry (s : PStore) (d : Dict) (k : Bytes) : Res (Option Bytes) :=
  match mapFind k d with
  | none => .ok none
  | some _ => do
    match ← treeEntry s d k with
    | .lit t => pure (some t)
    | .hex t => pure (some t)
    | _ => .error .conversion

/-- `DigitalSignature::Reason`, `Location`, `ContactInfo`, `Name`, `Certificate`, digital_signature.cpp:58-83, 96-103, 123-130. -/
def signatureText (s : PStore) (sig : Dict) (e : SignatureText) : Res (Option Bytes) := stringEntry s sig e.key

/-- `DigitalSignature::SigningTime`, digital_signature.cpp:85-94. -/
def signingTime (s : PStore) (sig : Dict) : Res (Option DateFields) := do
  match ← stringEntry s sig (b! "M") with
  | none => pure none
  | some t => do let v ← parseDate t; pure (some v)

/-- `DigitalSignature::Revision`, digital_signature.cpp:105-112, and the value of the object (c_integer_object.cpp). -/
def signatureRevision (s : PStore) (sig : Dict) : Res (Option Int) :=
  match mapFind (b! "R") sig with
  | none => .ok none
  | some o => do
    let v ← boxPart s o
    pure (some v)

/-- `DigitalSignature::Contents`, digital_signature.cpp:39-41. -/
def signatureContents (s : PStore) (sig : Dict) : Res Bytes := do
  match ← treeEntry s sig (b! "Contents") with
  | .hex t => pure t
  | _ => .error .conversion

/-- `DigitalSignature::ByteRange`, digital_signature.cpp:47-56, with the constructor of the collection, 12-17.  A build with assertions
ends the program for an odd number of items. -/
def byteRanges (s : PStore) (sig : Dict) : Res (Option (List Obj)) :=
  match mapFind (b! "ByteRange") sig with
  | none => .ok none
  | some _ => do
    let l ← treeArray s sig (b! "ByteRange")
    if l.length % 2 ≠ 0 then .error .throw else pure (some l)

/-- `ByteRangeCollection::GetSize`, digital_signature.cpp:31-33. -/
def byteRangeCount (l : List Obj) : Nat := l.length / 2

/-- An item of the array as an integer, array_object.h:272-275. -/
def byteRangeItem (s : PStore) (l : List Obj) (i : Nat) : Res Int :=
  match l[i]? with
  | none => .error .throw
  | some o => boxPart s o

/-- `ByteRangeCollection::GetValue`, digital_signature.cpp:35-37, with `ByteRange_GetOffset` and `ByteRange_GetLength`,
c_digital_signature.cpp:144-168. -/
def byteRangeAt (s : PStore) (l : List Obj) (i : Nat) : Res (Int × Int) := do
  let offset ← byteRangeItem s l i
  let length ← byteRangeItem s l (i + 1)
  pure (offset, length)

end VPdf
