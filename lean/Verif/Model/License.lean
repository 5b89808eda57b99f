import Verif.Model.DocumentInfo
import Verif.Model.Numbers
/-
  Licences: src/vanillapdf/utils/license_info.cpp and src/vanillapdf/implementation/utils/c_license_info.cpp.

  Simplifications: the text of a licence is read by a library for JSON; the model starts with the values that are found in it, where
  `none` stands for a value that is missing or of another kind.  The check of a signature under a certificate, the check of a chain of
  certificates and the conversion of a date to a time are functions of the surroundings, of which nothing is assumed.
-/
namespace VPdf

/-- The values of a licence, license_info.cpp:23-31, 73-115. -/
structure LicenseText where
  version : Option Bytes
  owner : Option Bytes
  note : Option Bytes
  serial : Option Bytes
  updates : Option Bytes
  temporary : Option Bytes
  signature : Option Bytes
  certificates : Option (List (Option Bytes))
  deriving DecidableEq

/-- What the checks depend on: OpenSSL (license_info.cpp:249-296, 352-434; an answer `error` is an exception), the list of refused serial
numbers in the library (229-247), `std::mktime` (305, 325, 341), and the date the library was built (332-341).  `unread` is the time that
results from a text in which no date was recognised. -/
structure LicenseChecks where
  signed : Bytes → Bytes → Bytes → Res Bool
  chain : List Bytes → Res Bool
  refused : List Bytes
  time : Nat → Nat → Nat → Int
  unread : Bytes → Int
  built : Int

/-- A digit of a date: part of `std::get_time` with the format `%Y-%m-%d`, license_info.cpp:303, 323. -/
def dateDigit (c : Byte) : Option Nat := if 0x30 ≤ c ∧ c ≤ 0x39 then some (c.toNat - 0x30) else none

/-- `std::get_time` with the format `%Y-%m-%d`, license_info.cpp:303, 323: four digits, two and two; what follows is not read.
Simplification: texts with fewer digits and dates out of range count as not recognised. -/
def readDay : Bytes → Option (Nat × Nat × Nat)
  | y1 :: y2 :: y3 :: y4 :: h1 :: m1 :: m2 :: h2 :: d1 :: d2 :: _ => do
    let a ← dateDigit y1
    let b ← dateDigit y2
    let c ← dateDigit y3
    let d ← dateDigit y4
    let e ← dateDigit m1
    let f ← dateDigit m2
    let g ← dateDigit d1
    let h ← dateDigit d2
    if h1 = 0x2D ∧ h2 = 0x2D then some (1000 * a + 100 * b + 10 * c + d, 10 * e + f, 10 * g + h) else none
  | _ => none

/-- The time of a text, license_info.cpp:299-308 and 319-328; `-1` is the failure of `std::mktime`. -/
def licenseTime (e : LicenseChecks) (text : Bytes) : Res Int :=
  let t := match readDay text with
    | some (y, m, d) => e.time y m d
    | none => e.unread text
  if t = -1 then .error .throw else .ok t

/-- `CheckBlacklist`, license_info.cpp:229-247. -/
def serialRefused (e : LicenseChecks) (serial : Bytes) : Bool := e.refused.any fun r => sameLetters serial r

/-- `CheckUpdateExpiration`, license_info.cpp:317-350. -/
def updatesExpired (e : LicenseChecks) (text : Bytes) : Res Bool := do
  let t ← licenseTime e text
  if e.built = -1 then throw .throw
  pure (decide (t < e.built))

/-- The static members, license_info.cpp:34-35. -/
structure LicenseState where
  valid : Bool
  temporary : Bytes
  deriving DecidableEq

/-- Before any licence has been set, license_info.cpp:34-35. -/
def noLicense : LicenseState := ⟨false, []⟩

/-- The number before the first dot, license_info.cpp:81-93; the number behind it must be one too. -/
def licenseMajor (version : Bytes) : Res Int := do
  if !version.contains 0x2E then throw .throw
  let major ← stoi 10 (version.takeWhile (· != 0x2E))
  let _ ← stoi 10 ((version.dropWhile (· != 0x2E)).drop 1)
  pure major

/-- The content that is signed, license_info.cpp:142-150. -/
def signedContent (owner note serial updates : Bytes) (temporary : Option Bytes) : Bytes :=
  owner ++ note ++ serial ++ updates ++ temporary.getD []

/-- A list of texts, license_info.cpp:162: `get<std::vector<std::string>>`. -/
def allTexts : List (Option Bytes) → Res (List Bytes)
  | [] => .ok []
  | none :: _ => .error .throw
  | some c :: r => (allTexts r).map (c :: ·)

/-- The check of the signature and of the certificates, license_info.cpp:132-168. -/
def checkSigned (e : LicenseChecks) (content : Bytes) (signature : Option Bytes) (certificates : Option (List (Option Bytes))) : Res Unit := do
  match signature, certificates with
  | some sig, some (some first :: rest) => do
    let ok ← e.signed content sig first
    if ok then do
      let certs ← allTexts (some first :: rest)
      let chain ← e.chain certs
      if chain then .ok () else .error .throw
    else .error .throw
  | _, _ => .error .throw

/-- `LicenseInfo::SetLicense`, license_info.cpp:70-182, as `LicenseInfo_SetLicenseBuffer` (c_license_info.cpp:18-26) calls it: the state
after it, and whether it failed. -/
def setLicense (e : LicenseChecks) (l : LicenseText) (st : LicenseState) : Res LicenseState :=
  match l.version with
  | none => .error .throw
  | some v => do
    let major ← licenseMajor v
    if major = 1 then
      match l.owner, l.note, l.serial, l.updates with
      | some owner, some note, some serial, some updates => do
        if serialRefused e serial then .error .throw
        else do
          let expired ← updatesExpired e updates
          if expired then .error .throw
          else do
            checkSigned e (signedContent owner note serial updates l.temporary) l.signature l.certificates
            .ok { st with valid := true, temporary := l.temporary.getD [] }
      | _, _, _, _ => .error .throw
    else .error .throw

/-- A call: if it fails, the static members are what they were.  license_info.cpp:70-182: they are assigned at the end only. -/
def callSetLicense (e : LicenseChecks) (st : LicenseState) (l : LicenseText) : LicenseState :=
  match setLicense e l st with
  | .ok st' => st'
  | .error _ => st

/-- `LicenseInfo::IsTemporary`, license_info.cpp:225-227. -/
def isTemporary (st : LicenseState) : Bool := !st.temporary.isEmpty

/-- `LicenseInfo::IsValid`, license_info.cpp:202-223, with `CheckTemporaryExpiration`, 298-315.  `enforce` is the option of the build
`ENFORCE_LICENSE_CHECKS`; without it the answer is always yes. -/
def licenseValid (enforce : Bool) (e : LicenseChecks) (now : Int) (st : LicenseState) : Res Bool :=
  if !enforce then .ok true
  else if !st.valid then .ok false
  else if st.temporary.isEmpty then .ok true
  else do
    let t ← licenseTime e st.temporary
    pure (!decide (t < now))

end VPdf
