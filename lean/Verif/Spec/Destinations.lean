import Verif.Spec.Copy
import Verif.Spec.Grammar
import Verif.Model.Destinations
/-
  What a destination is (ISO 32000-1, 12.3.2).  Only data types are taken from the model.
-/
namespace VPdf.Spec

/-- The kinds of views of ISO 32000-1, table 151. -/
def viewKinds : List Bytes :=
  [b! "XYZ", b! "Fit", b! "FitH", b! "FitV", b! "FitR", b! "FitB", b! "FitBH", b! "FitBV"]

/-- The object itself is a destination: an array with the page, the kind of the view and its parameters, or a dictionary that has such
an array as D. -/
inductive Target : Obj → ObjRef → List Obj → Prop where
  | array (n g : Nat) (k : Bytes) (params : List Obj) : k ∈ viewKinds →
      Target (.arr (.ref n g :: .name k :: params)) (n, g) (.name k :: params)
  | dict (d : Dict) (n g : Nat) (k : Bytes) (params : List Obj) : k ∈ viewKinds →
      valueAt (b! "D") d = some (.arr (.ref n g :: .name k :: params)) → Target (.dict d) (n, g) (.name k :: params)

/-- The object behind a reference, or the object itself. -/
def valueBehind (s : DocObjects) : Obj → SObj
  | .ref n g => s (n, g)
  | o => .direct o

/-- The object, or the object it refers to, is a destination that shows the page; `view` is the kind of the view and its parameters. -/
def DestShows (s : DocObjects) (o : Obj) (page : ObjRef) (view : List Obj) : Prop :=
  ∃ v, valueBehind s o = .direct v ∧ Target v page view

/-- The value of another entry of a destination that is a dictionary. -/
def attributeOf (s : DocObjects) (o : Obj) (k : Bytes) : Option Obj :=
  match valueBehind s o with
  | .direct (.dict d) => valueAt k d
  | _ => none

/-- What the document has under a name. -/
def named (t : MergeTarget) (k : Bytes) : Option Obj := t.dests.bind (valueAt k)

/-- The destination shows an object that exists and is a dictionary, as every page is one. -/
def ProperDest (s : DocObjects) (o : Obj) : Prop := ∃ p view d, DestShows s o p view ∧ s p = .direct (.dict d)

/-- `RootAbove s k page root`: going up from `page` by the entry Parent leads, over `k` nodes of type Pages, to `root`, which
has no such entry. -/
inductive RootAbove (s : PStore) : Nat → ObjRef → ObjRef → Prop where
  | top (r : ObjRef) (d : Dict) : s r = .dict d → valueAt (b! "Parent") d = none → RootAbove s 0 r r
  | up (k : Nat) (r root : ObjRef) (d d' : Dict) (n g : Nat) : s r = .dict d → valueAt (b! "Parent") d = some (.ref n g) →
      s (n, g) = .dict d' → valueAt (b! "Type") d' = some (.name (b! "Pages")) → RootAbove s k (n, g) root →
      RootAbove s (k + 1) r root

end VPdf.Spec
