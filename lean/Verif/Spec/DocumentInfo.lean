import Verif.Model.DocumentInfo
/-
  What the information of a document should be.
-/
namespace VPdf.Spec

/-- The information of a document. -/
structure Info where
  text : InfoText → Option Bytes := fun _ => none
  creation : Option DateFields := none
  modification : Option DateFields := none
  trapped : Option Trapped := none

/-- Setting an entry changes this entry, to the value that was given, and no other. -/
def Info.set (i : Info) : InfoSet → Info
  | .text f (.lit s) => { i with text := fun g => if g = f then some s else i.text g }
  | .text f (.hex s) => { i with text := fun g => if g = f then some s else i.text g }
  | .text _ _ => i
  | .creation d => { i with creation := some d.fields }
  | .modification d => { i with modification := some d.fields }
  | .trapped t => { i with trapped := some t }

/-- The library reports the information `i`. -/
def Reports (objs : Objects) (d : Dict) (i : Info) : Prop :=
  (∀ f, infoText objs d f = .ok (i.text f)) ∧ infoCreationDate objs d = .ok i.creation ∧
  infoModDate objs d = .ok i.modification ∧ infoTrapped objs d = .ok i.trapped

/-- The value that is set is a string; a date is the one its string says (it was not changed by hand). -/
def ProperSet : InfoSet → Prop
  | .text _ v => ∃ s, v = .lit s ∨ v = .hex s
  | .creation d => ∃ s, d.text = .lit s ∧ parseDate s = .ok d.fields
  | .modification d => ∃ s, d.text = .lit s ∧ parseDate s = .ok d.fields
  | .trapped _ => True

/-- No two of the calls set the same entry, and none sets an entry that is there. -/
def SetOnce (d : Dict) (l : List InfoSet) : Prop :=
  (l.map InfoSet.key).Pairwise (· ≠ ·) ∧ ∀ x ∈ l, mapFind x.key d = none

/-- The entries of the document information dictionary, ISO 32000-1, table 317: the key and the value of each entry. -/
def standardEntry : InfoSet → Bytes × Obj
  | .text .title v => (b! "Title", v)
  | .text .author v => (b! "Author", v)
  | .text .subject v => (b! "Subject", v)
  | .text .keywords v => (b! "Keywords", v)
  | .text .creator v => (b! "Creator", v)
  | .text .producer v => (b! "Producer", v)
  | .creation c => (b! "CreationDate", c.text)
  | .modification c => (b! "ModDate", c.text)
  | .trapped .yes => (b! "Trapped", .name (b! "True"))
  | .trapped .no => (b! "Trapped", .name (b! "False"))
  | .trapped .unknown => (b! "Trapped", .name (b! "Unknown"))

/-- The same letter, small or capital. -/
def SameLetter (a b : Byte) : Prop :=
  a = b ∨ (0x41 ≤ a.toNat ∧ a.toNat ≤ 0x5A ∧ b.toNat = a.toNat + 0x20) ∨ (0x41 ≤ b.toNat ∧ b.toNat ≤ 0x5A ∧ a.toNat = b.toNat + 0x20)

/-- The same text, small letters and capital ones counting as the same. -/
def SameText (a b : Bytes) : Prop := a.length = b.length ∧ ∀ (i : Nat) (x y : Byte), a[i]? = some x → b[i]? = some y → SameLetter x y

/-- The value of the entry `Trapped` that has this text. -/
def SaysTrapped (t : Bytes) (r : Option Trapped) : Prop :=
  (r = some .yes ∧ SameText t (b! "True")) ∨ (r = some .no ∧ SameText t (b! "False")) ∨ (r = some .unknown ∧ SameText t (b! "Unknown")) ∨
  (r = none ∧ ¬ SameText t (b! "True") ∧ ¬ SameText t (b! "False") ∧ ¬ SameText t (b! "Unknown"))

end VPdf.Spec
