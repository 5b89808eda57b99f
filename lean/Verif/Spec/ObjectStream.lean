import Verif.Spec.Grammar
import Verif.Spec.Writer
/-
  Object streams, ISO 32000-1 7.5.7.
-/
namespace VPdf.Spec

/-- `PairsText l s`: the text `s` begins with the pairs of integers `l`, with separators between the integers; anything
that does not continue the last integer may follow. -/
inductive PairsText : List (Nat × Nat) → List UInt8 → Prop where
  | nil (s : List UInt8) : PairsText [] s
  | cons (n off : Nat) (l : List (Nat × Nat)) (sep1 sn sep2 so s : List UInt8) : Sep sep1 → IntText n sn → Sep sep2 →
      sep2 ≠ [] → IntText off so → EndsToken s → PairsText l s → PairsText ((n, off) :: l) (sep1 ++ sn ++ sep2 ++ so ++ s)

/-- At position `p` of the body is the text of the object `o`; what follows are texts of other objects. -/
def ObjectAt (body : List UInt8) (p : Nat) (o : Obj) : Prop := ∃ os, Items (o :: os) (body.drop p)

/-- `ObjStmText first l body`: the body of an object stream whose entry First is `first` and whose objects are `l`, in this
order: number, offset and object. -/
def ObjStmText (first : Nat) (l : List (Nat × Nat × Obj)) (body : List UInt8) : Prop :=
  PairsText (l.map fun x => (x.1, x.2.1)) body ∧ ∀ x ∈ l, ObjectAt body (first + x.2.1) x.2.2

end VPdf.Spec
