import Verif.Spec.ReadAs
import Verif.Spec.Encryption
import Verif.Spec.Writer
import Verif.Model.SecureSave

/-! What a user expects of saving an encrypted document. -/
namespace VPdf.Spec

/-- The object is neither a string nor a container. -/
def Scalar : Obj → Prop
  | .lit _ | .hex _ | .arr _ | .dict _ => False
  | _ => True

mutual

/-- The objects `w` and `v` are the same, except that their strings are related by `R`. -/
inductive SameBut (R : Bytes → Bytes → Prop) : Obj → Obj → Prop
  | scalar {o : Obj} : Scalar o → SameBut R o o
  | lit {w v : Bytes} : R w v → SameBut R (.lit w) (.lit v)
  | hex {w v : Bytes} : R w v → SameBut R (.hex w) (.hex v)
  | arr {ws vs : List Obj} : SameButItems R ws vs → SameBut R (.arr ws) (.arr vs)
  | dict {ws vs : Dict} : SameButEntries R ws vs → SameBut R (.dict ws) (.dict vs)

/-- The same for the items of arrays, in order. -/
inductive SameButItems (R : Bytes → Bytes → Prop) : List Obj → List Obj → Prop
  | nil : SameButItems R [] []
  | cons {w v : Obj} {ws vs : List Obj} : SameBut R w v → SameButItems R ws vs → SameButItems R (w :: ws) (v :: vs)

/-- The same for the entries of dictionaries, with the same keys. -/
inductive SameButEntries (R : Bytes → Bytes → Prop) : Dict → Dict → Prop
  | nil : SameButEntries R [] []
  | cons {key : Bytes} {w v : Obj} {ws vs : Dict} : SameBut R w v → SameButEntries R ws vs →
      SameButEntries R ((key, w) :: ws) ((key, v) :: vs)

end

mutual

/-- All strings of the object are exempt from encryption, or none of them is; scalars are scalars. -/
inductive Uniform (exempt : Bool) : SecObj → Prop
  | other {o : Obj} : Scalar o → Uniform exempt (.other o)
  | str {s : SecString} : s.exempt = exempt → Uniform exempt (.str s)
  | arr {items : List SecObj} : UniformItems exempt items → Uniform exempt (.arr items)
  | dict {entries : List (Bytes × SecObj)} : UniformEntries exempt entries → Uniform exempt (.dict entries)

/-- The same for the items of an array. -/
inductive UniformItems (exempt : Bool) : List SecObj → Prop
  | nil : UniformItems exempt []
  | cons {o : SecObj} {os : List SecObj} : Uniform exempt o → UniformItems exempt os → UniformItems exempt (o :: os)

/-- The same for the entries of a dictionary. -/
inductive UniformEntries (exempt : Bool) : List (Bytes × SecObj) → Prop
  | nil : UniformEntries exempt []
  | cons {key : Bytes} {o : SecObj} {es : List (Bytes × SecObj)} : Uniform exempt o → UniformEntries exempt es →
      UniformEntries exempt ((key, o) :: es)

end

/-- In the document with the sections `secs`, newest first, the object with number `n` and generation `g` is `t`, from the
newest section that has an entry for it. -/
inductive SecHolds : List SecSection → Nat → Nat → SecTop → Prop where
  | here {s : SecSection} {ss : List SecSection} {n g : Nat} {t : SecTop} : ⟨n, g, some t⟩ ∈ s.entries →
      SecHolds (s :: ss) n g t
  | older {s : SecSection} {ss : List SecSection} {n g : Nat} {t : SecTop} :
      (∀ e ∈ s.entries, ¬ (e.num = n ∧ e.gen = g)) → SecHolds ss n g t → SecHolds (s :: ss) n g t

/-- The same for changed objects of a document that was opened from a file. -/
inductive ChangedIn : List MarkedSection → Nat → Nat → SecTop → Prop where
  | here {s : MarkedSection} {ss : List MarkedSection} {n g : Nat} {t : SecTop} : s.own ≠ some (n, g) →
      .changed n g (some t) ∈ s.entries → ChangedIn (s :: ss) n g t
  | older {s : MarkedSection} {ss : List MarkedSection} {n g : Nat} {t : SecTop} :
      (∀ e ∈ s.entries, match e with
        | .kept e => ¬ (e.num = n ∧ e.gen = g)
        | .changed n' g' _ => ¬ (n' = n ∧ g' = g)) → ChangedIn ss n g t → ChangedIn (s :: ss) n g t

/-- RC4 with the key of the object `n g`, by Algorithm 1 of ISO 32000-1. -/
def enciphered (k : Crypto) (key : Bytes) (n g : Nat) (data : Bytes) : Bytes :=
  rc4 k ((k.md5 (objectKeyInput key n g false)).take (min (key.length + 5) 16)) data

end VPdf.Spec
