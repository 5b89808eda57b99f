import Verif.Model.Misnumbered
/-
  What a file with misplaced numbers should give: the objects under the numbers they carry themselves.
-/
namespace VPdf.Spec

/-- A line of a cross-reference section as it stands in the file: the numbers, and the position of an object in use. -/
structure ListedLine where
  num : Nat
  gen : Nat
  off : Option Nat

/-- The numbers and the object a line really leads to: those that stand at the position.  A free line has no object. -/
def ListedLine.leadsTo (file : ObjectsAt) (l : ListedLine) : Option (Nat × Nat × Option Obj) :=
  match l.off with
  | none => some (l.num, l.gen, none)
  | some off => (file off).map fun x => (x.1, x.2.1, some x.2.2)

/-- An opened file: the sections have been read, no object yet. -/
def justOpened (revs : List (List ListedLine)) : List FileSection :=
  revs.map fun r => r.map fun l => ⟨l.num, l.num, l.gen, l.off, none⟩

/-- The object with numbers `n g` of a revision; the outer `none` if there is no line for it. -/
def inRevision (file : ObjectsAt) (r : List ListedLine) (n g : Nat) : Option (Option Obj) :=
  r.findSome? fun l =>
    match l.leadsTo file with
    | some (n', g', o) => if n' = n ∧ g' = g then some o else none
    | none => none

/-- The object with numbers `n g` of a file: that of its newest revision which has it, and null if there is none. -/
def trueObject (file : ObjectsAt) (revs : List (List ListedLine)) (n g : Nat) : Option Obj :=
  (revs.findSome? fun r => inRevision file r n g).getD none

/-- A revision whose lines are only in disorder: everything it lists can be read, no number is listed twice, no two lines lead to
objects with one number, and the numbers that are listed are those of the objects. -/
structure OnlyMixedUp (file : ObjectsAt) (r : List ListedLine) : Prop where
  readable : ∀ l ∈ r, (l.leadsTo file).isSome
  once : (r.map (·.num)).Nodup
  apart : (r.map fun l => (l.leadsTo file).map (·.1)).Nodup
  same : ∀ n g, (∃ l ∈ r, l.num = n ∧ l.gen = g) ↔ ∃ l ∈ r, ∃ o, l.leadsTo file = some (n, g, o)

end VPdf.Spec
