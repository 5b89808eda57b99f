import Verif.Model.Compare
import Verif.Model.Date
/-
  The document information dictionary: semantics/objects/document_info.cpp, and dates as objects of the interface
  (semantics/objects/date.h, implementation/semantics/c_date.cpp).

  Simplification: values, not objects.  A string that a client changes after it was set changes in the dictionary as well.
-/
namespace VPdf

/-- The entries that are texts, document_info.cpp:17-69. -/
inductive InfoText
  | title | author | subject | keywords | creator | producer
  deriving DecidableEq

/-- `constant::Name::Title` and so on, syntax/utils/name_constants.cpp; document_info.cpp:17-69. -/
def InfoText.key : InfoText → Bytes
  | .title => b! "Title"
  | .author => b! "Author"
  | .subject => b! "Subject"
  | .keywords => b! "Keywords"
  | .creator => b! "Creator"
  | .producer => b! "Producer"

/-- `DictionaryObject::Insert` without `overwrite`, dictionary_object.cpp:180-206. -/
def insertOnce (k : Bytes) (v : Obj) (d : Dict) : Res Dict :=
  if (mapFind k d).isSome then .error .duplicateKey else .ok (mapInsert k v d)

/-- `FindAs<StringObjectPtr>` behind a test with `Contains`, document_info.cpp:17-24, dictionary_object.h:94-104: `none` when there
is no entry; the object behind the entry must be a string. -/
def infoString (objs : Objects) (d : Dict) (k : Bytes) : Res (Option Bytes) :=
  match mapFind k d with
  | none => .ok none
  | some o => do
    match ← target objs o with
    | .direct (.lit s) => .ok (some s)
    | .direct (.hex s) => .ok (some s)
    | _ => .error .conversion

/-- `DocumentInfo::Title` to `DocumentInfo::Producer`, document_info.cpp:17-69. -/
def infoText (objs : Objects) (d : Dict) (f : InfoText) : Res (Option Bytes) := infoString objs d f.key

/-- `DocumentInfo::ModificationDate`, document_info.cpp:91-99. -/
def infoModDate (objs : Objects) (d : Dict) : Res (Option DateFields) := do
  match ← infoString objs d (b! "ModDate") with
  | none => .ok none
  | some s => do let v ← parseDate s; .ok (some v)

/-- `DocumentInfo::CreationDate`, document_info.cpp:71-89: a `GeneralException` counts as a missing entry.  Simplification: the
file that is asked for its name then still exists. -/
def infoCreationDate (objs : Objects) (d : Dict) : Res (Option DateFields) :=
  match (do
    match ← infoString objs d (b! "CreationDate") with
    | none => .ok none
    | some s => do let v ← parseDate s; .ok (some v) : Res (Option DateFields)) with
  | .error .throw => .ok none
  | r => r

/-- `DocumentTrapped`, document_info.h. -/
inductive Trapped
  | unknown | yes | no
  deriving DecidableEq

/-- `std::toupper` in the C locale, misc_utils.cpp:344. -/
def toUpper (c : Byte) : Byte := if 0x61 ≤ c ∧ c ≤ 0x7A then c - 0x20 else c

/-- `MiscUtils::CaseInsensitiveCompare`, misc_utils.cpp:338-348. -/
def sameLetters (a b : Bytes) : Bool := if a.length != b.length then false else a.map toUpper == b.map toUpper

/-- The names of `SetTrapped`, document_info.cpp:180-192. -/
def Trapped.name : Trapped → Bytes
  | .unknown => b! "Unknown"
  | .yes => b! "True"
  | .no => b! "False"

/-- `DocumentInfo::Trapped`, document_info.cpp:101-143.  A value of another kind counts as an empty text.  At the end there is an
assertion: without it (a release build) the entry counts as missing. -/
def infoTrapped (objs : Objects) (d : Dict) : Res (Option Trapped) :=
  match mapFind (b! "Trapped") d with
  | none => .ok none
  | some o => do
    let value := match ← target objs o with
      | .direct (.name s) => s
      | .direct (.lit s) => s
      | .direct (.hex s) => s
      | _ => []
    if sameLetters value (Trapped.name .yes) then .ok (some .yes)
    else if sameLetters value (Trapped.name .no) then .ok (some .no)
    else if sameLetters value (Trapped.name .unknown) then .ok (some .unknown)
    else .ok none

/-- A date as an object of the interface: its fields and its string, date.h:11, 44-53. -/
structure DateObject where
  fields : DateFields
  text : Obj

/-- `Date_CreateEmpty`, c_date.cpp:10-19: default fields and an empty string (string_object.cpp:94). -/
def emptyDate : DateObject := ⟨{}, .lit []⟩

/-- `Date::Date(StringObjectPtr)`, date.cpp:14-82. -/
def dateFrom (s : Bytes) : Res DateObject := do
  let f ← parseDate s
  .ok ⟨f, .lit s⟩

/-- `SetYear` to `SetMinuteOffset`, date.h:16-41: the fields change, nothing else does. -/
def DateObject.change (d : DateObject) (f : DateFields → DateFields) : DateObject := { d with fields := f d.fields }

/-- What a client sets: the setters of `DocumentInfo`, document_info.cpp. -/
inductive InfoSet
  | text (f : InfoText) (value : Obj)
  | creation (d : DateObject)
  | modification (d : DateObject)
  | trapped (t : Trapped)

/-- The entry that is set, document_info.cpp:145-195. -/
def InfoSet.key : InfoSet → Bytes
  | .text f _ => f.key
  | .creation _ => b! "CreationDate"
  | .modification _ => b! "ModDate"
  | .trapped _ => b! "Trapped"

/-- The value that is stored, document_info.cpp:145-195. -/
def InfoSet.stored : InfoSet → Obj
  | .text _ v => v
  | .creation d => d.text
  | .modification d => d.text
  | .trapped t => .name t.name

/-- `SetTitle` to `SetTrapped`, document_info.cpp:145-195. -/
def infoSet (d : Dict) (x : InfoSet) : Res Dict := insertOnce x.key x.stored d

/-- Calls one after the other; one that fails leaves the dictionary as it is. document_info.cpp:145-195. -/
def infoSetAll (d : Dict) : List InfoSet → Dict
  | [] => d
  | x :: l => infoSetAll (match infoSet d x with | .ok d' => d' | .error _ => d) l

/-- `Document::CreateFile`, document.cpp:93-108: the information of a new document. -/
def newInfo (producer : Bytes) (now : DateFields) : Dict :=
  infoSetAll [] [.text .producer (.lit producer), .creation ⟨now, .lit (dateText now)⟩]

end VPdf
