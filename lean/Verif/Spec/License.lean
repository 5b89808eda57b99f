import Verif.Model.License
import Verif.Spec.DocumentInfo
/-
  Licences.
-/
namespace VPdf.Spec

/-- A decimal digit. -/
def dayDigit (n : Nat) : Byte := UInt8.ofNat (48 + n % 10)

/-- A day as it is written: four digits, two, and two, with hyphens between. -/
def dayText (y m d : Nat) : Bytes :=
  [dayDigit (y / 1000), dayDigit (y / 100), dayDigit (y / 10), dayDigit y, 45, dayDigit (m / 10), dayDigit m, 45, dayDigit (d / 10), dayDigit d]

/-- The text begins with this day. -/
def BeginsWithDay (text : Bytes) (y m d : Nat) : Prop := y < 10000 ∧ m < 100 ∧ d < 100 ∧ ∃ rest, text = dayText y m d ++ rest

/-- The time a text stands for. -/
def TimeOf (e : LicenseChecks) (text : Bytes) (t : Int) : Prop :=
  (∃ y m d, BeginsWithDay text y m d ∧ t = e.time y m d) ∨ ((∀ y m d, ¬ BeginsWithDay text y m d) ∧ t = e.unread text)

/-- A version of the first format: one, a dot, and another number. -/
def FirstFormat (v : Bytes) : Prop :=
  ∃ major minor n, v = major ++ 46 :: minor ∧ 46 ∉ major ∧ stoi 10 major = .ok 1 ∧ stoi 10 minor = .ok n

/-- A licence that is to be accepted: everything is there, the serial number is not refused, updates have not ended before the library was
built, and there is a valid signature of the content by a certificate with a valid chain. -/
def Acceptable (e : LicenseChecks) (l : LicenseText) : Prop :=
  ∃ v owner note serial updates sig certs t,
    l.version = some v ∧ FirstFormat v ∧
    l.owner = some owner ∧ l.note = some note ∧ l.serial = some serial ∧ l.updates = some updates ∧
    (∀ r ∈ e.refused, ¬ SameText serial r) ∧
    TimeOf e updates t ∧ t ≠ -1 ∧ e.built ≠ -1 ∧ e.built ≤ t ∧
    l.signature = some sig ∧ l.certificates = some (certs.map some) ∧
    (∃ first, certs.head? = some first ∧
      e.signed (owner ++ note ++ serial ++ updates ++ l.temporary.getD []) sig first = .ok true) ∧
    e.chain certs = .ok true

/-- The last licence of a history that was to be accepted. -/
inductive LastAccepted (e : LicenseChecks) : List LicenseText → Option LicenseText → Prop where
  | start : LastAccepted e [] none
  | accepted (h : List LicenseText) (l : LicenseText) : Acceptable e l → LastAccepted e (h ++ [l]) (some l)
  | refused (h : List LicenseText) (l : LicenseText) (x : Option LicenseText) : ¬ Acceptable e l → LastAccepted e h x →
      LastAccepted e (h ++ [l]) x

/-- The data of a licence. -/
def SameData (a b : LicenseText) : Prop :=
  a.owner = b.owner ∧ a.note = b.note ∧ a.serial = b.serial ∧ a.updates = b.updates ∧ a.temporary = b.temporary

/-- The parts have the same lengths, and both have a limit or neither has. -/
def SameLengths (a b : LicenseText) : Prop :=
  a.owner.map List.length = b.owner.map List.length ∧ a.note.map List.length = b.note.map List.length ∧
  a.serial.map List.length = b.serial.map List.length ∧ a.updates.map List.length = b.updates.map List.length ∧
  a.temporary.isSome = b.temporary.isSome

/-- The content of a licence, as it is signed. -/
def HasContent (l : LicenseText) (c : Bytes) : Prop :=
  ∃ owner note serial updates, l.owner = some owner ∧ l.note = some note ∧ l.serial = some serial ∧ l.updates = some updates ∧
    c = owner ++ note ++ serial ++ updates ++ l.temporary.getD []

end VPdf.Spec
