import Verif.Model.Outline
import Verif.Spec.NameTree
/-
  Outlines as trees of items.  Only data types are taken from the model.
-/
namespace VPdf.Spec

/-- An outline: the object of the outline, the items below each object, in their order, and the title of each item. -/
structure OutlineTree where
  root : ObjRef
  kids : ObjRef → List ObjRef
  title : ObjRef → Bytes

/-- A place in the outline: the numbers of the items on the way from the outline to it, the last one first. -/
abbrev OutlinePlace := List Nat

/-- The object at a place. -/
def OutlineTree.at (t : OutlineTree) : OutlinePlace → Option ObjRef
  | [] => some t.root
  | i :: p => (t.at p).bind fun r => (t.kids r)[i]?

/-- The step from a place: the first and the last item below it, the items beside it and the one above it. -/
def OutlineTree.step (t : OutlineTree) : OutlinePlace → OutlineStep → Option OutlinePlace
  | p, .first => (t.at (0 :: p)).map fun _ => 0 :: p
  | p, .last => (t.at p).bind fun r => if (t.kids r).length = 0 then none else some (((t.kids r).length - 1) :: p)
  | [], _ => none
  | i :: p, .next => (t.at ((i + 1) :: p)).map fun _ => (i + 1) :: p
  | 0 :: _, .prev => none
  | (i + 1) :: p, .prev => some (i :: p)
  | _ :: p, .parent => some p

/-- Steps one after the other; where there is nothing the place stays the same. -/
def OutlineTree.walk (t : OutlineTree) : OutlinePlace → List OutlineStep → OutlinePlace × List Bool
  | p, [] => (p, [])
  | p, x :: xs =>
    match t.step p x with
    | some p' => ((t.walk p' xs).1, true :: (t.walk p' xs).2)
    | none => ((t.walk p xs).1, false :: (t.walk p xs).2)

/-- The entry refers to the object, or is missing if there is none. -/
def LinksTo (d : Dict) (k : Bytes) : Option ObjRef → Prop
  | none => Absent d k
  | some r => mapFind k d = some (.ref r.1 r.2)

/-- The file has the outline (ISO 32000-1, tables 152 and 153): each object at a place is a dictionary; First and Last lead to the
first and the last item below, Next, Prev and Parent to the items beside it and the object above it. -/
def StoresOutline (s : PStore) (t : OutlineTree) : Prop :=
  (∀ p r, t.at p = some r → ∃ d, s r = .dict d ∧ LinksTo d (b! "First") (t.kids r).head? ∧ LinksTo d (b! "Last") (t.kids r).getLast?) ∧
  ∀ p r i c, t.at p = some r → (t.kids r)[i]? = some c → ∃ d, s c = .dict d ∧
    (HasEntry s d (b! "Title") (.lit (t.title c)) ∨ HasEntry s d (b! "Title") (.hex (t.title c))) ∧
    LinksTo d (b! "Parent") (some r) ∧ LinksTo d (b! "Next") (t.kids r)[i + 1]? ∧
    LinksTo d (b! "Prev") (if i = 0 then none else (t.kids r)[i - 1]?)

/-- The steps a client may take: from the outline itself there are only First and Last. -/
def Applies (p : OutlinePlace) (x : OutlineStep) : Prop := p ≠ [] ∨ x = .first ∨ x = .last

/-- All steps of a walk apply, and `ok` holds of them. -/
def OutlineTree.Walks (t : OutlineTree) (ok : OutlinePlace → OutlineStep → Prop) : OutlinePlace → List OutlineStep → Prop
  | _, [] => True
  | p, x :: xs => Applies p x ∧ ok p x ∧ t.Walks ok ((t.step p x).getD p) xs

/-- Parent is asked for only at items at the top. -/
def TopParents (p : OutlinePlace) (x : OutlineStep) : Prop := x = .parent → p.length ≤ 1

/-- The handle is that of the object at the place. -/
def HandleAt (s : PStore) (t : OutlineTree) (p : OutlinePlace) (h : OutlineHandle) : Prop :=
  (∃ r, t.at p = some r ∧ s r = .dict h.dict) ∧ (h.item = true ↔ p ≠ [])

end VPdf.Spec
