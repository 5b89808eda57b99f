import Verif.Model.RemoveEncryption

/-! # What a user reads from a document that may be encrypted -/
namespace VPdf.Spec

/-- The value of a string: the one it was given, or what is in the file, decrypted as `stringRead` (of which C55 speaks) does
for the object that contains it. -/
def StringReads (k : Crypto) (F : SecureFile) (number generation : Nat) (rnd : Bytes) (s : SecString) (v : Bytes) : Prop :=
  s.value = some v ∨ s.value = none ∧ stringRead k F s.exempt number generation rnd s.stored = .ok v

mutual

/-- The object, with the values of its strings as the API returns them, is `w`. -/
inductive ReadAs (k : Crypto) (F : SecureFile) (number generation : Nat) (rnd : Bytes) : SecObj → Obj → Prop
  | other (o : Obj) : ReadAs k F number generation rnd (.other o) o
  | lit {s : SecString} {v : Bytes} : s.hex = false → StringReads k F number generation rnd s v →
      ReadAs k F number generation rnd (.str s) (.lit v)
  | hex {s : SecString} {v : Bytes} : s.hex = true → StringReads k F number generation rnd s v →
      ReadAs k F number generation rnd (.str s) (.hex v)
  | arr {items : List SecObj} {ws : List Obj} : ItemsReadAs k F number generation rnd items ws →
      ReadAs k F number generation rnd (.arr items) (.arr ws)
  | dict {entries : List (Bytes × SecObj)} {d : Dict} : EntriesReadAs k F number generation rnd entries d →
      ReadAs k F number generation rnd (.dict entries) (.dict d)

/-- The same for the items of an array, in order. -/
inductive ItemsReadAs (k : Crypto) (F : SecureFile) (number generation : Nat) (rnd : Bytes) : List SecObj → List Obj → Prop
  | nil : ItemsReadAs k F number generation rnd [] []
  | cons {o : SecObj} {w : Obj} {os : List SecObj} {ws : List Obj} : ReadAs k F number generation rnd o w →
      ItemsReadAs k F number generation rnd os ws → ItemsReadAs k F number generation rnd (o :: os) (w :: ws)

/-- The same for the entries of a dictionary, with the same keys. -/
inductive EntriesReadAs (k : Crypto) (F : SecureFile) (number generation : Nat) (rnd : Bytes) :
    List (Bytes × SecObj) → Dict → Prop
  | nil : EntriesReadAs k F number generation rnd [] []
  | cons {key : Bytes} {o : SecObj} {w : Obj} {es : List (Bytes × SecObj)} {d : Dict} :
      ReadAs k F number generation rnd o w → EntriesReadAs k F number generation rnd es d →
      EntriesReadAs k F number generation rnd ((key, o) :: es) ((key, w) :: d)

end

end VPdf.Spec

namespace VPdf

/-- The entry with index `j` of the section with index `i`. -/
def SecDoc.at (doc : SecDoc) (i j : Nat) : Option SecEntry := doc.sections[i]?.bind (·.entries[j]?)

end VPdf
