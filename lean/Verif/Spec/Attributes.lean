import Verif.Model.Attributes
/-
  Attributes: what a history of calls leaves in a list.
-/
namespace VPdf.Spec

/-- The attribute with handle `i` has type `t`. -/
def AttrHasType (w : AttrWorld) (i : Nat) (t : AttrType) : Prop := ∃ a, w.cells[i]? = some a ∧ a.type = t

/-- The call takes the attribute of type `t` out of list `l` or puts another one in. -/
def Disturbs (w : AttrWorld) (l : Nat) (t : AttrType) (s : AttrCall × AttrAnswer) : Prop :=
  s.1 = .remove l t ∨ s.1 = .clear l ∨ ∃ j ow, s = (.add l j ow, .done) ∧ AttrHasType w j t

/-- Attribute `i` was added to list `l` with success, and nothing touched its type there since. -/
def LatestAdded (w : AttrWorld) (l : Nat) (t : AttrType) (i : Nat) (h : List (AttrCall × AttrAnswer)) : Prop :=
  AttrHasType w i t ∧ ∃ before ow after, h = before ++ (.add l i ow, .done) :: after ∧ ∀ s ∈ after, ¬ Disturbs w l t s

/-- No call of the history replaces: where one asks to overwrite, the list answers that it has no such type. -/
def NeverReplaces (w : AttrWorld) (l : Nat) (cs : List AttrCall) : Prop :=
  ∀ before i t after, cs = before ++ .add l i true :: after →
    AttrHasType (attrRun w before).1 i t → (attrCall (attrRun w before).1 (.contains l t)).2 = .yes false

/-- The filters, one after the other, turn the data into `r`. -/
inductive FilteredTo : List BodyFilter → Bytes → Bytes → Prop where
  | nil (b : Bytes) : FilteredTo [] b b
  | cons (f : BodyFilter) (fs : List BodyFilter) (b b' r : Bytes) (facts : Option ImageFacts) :
      f b = .ok (b', facts) → FilteredTo fs b' r → FilteredTo (f :: fs) b r

/-- The filter says nothing about an image. -/
def SaysNothing (f : BodyFilter) : Prop := ∀ b b' facts, f b = .ok (b', facts) → facts = none

end VPdf.Spec
