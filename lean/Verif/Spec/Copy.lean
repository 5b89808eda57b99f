import Verif.Spec.Graph
import Verif.Spec.PageTree
import Verif.Spec.Xref
/-
  What it means that objects of one document were copied to another one.  Only data types are taken from the model.
-/
namespace VPdf.Spec

/-- The objects of a document; an object that does not exist is the null object (ISO 32000-1 7.3.10). -/
abbrev DocObjects := ObjRef → SObj

/-- The document has the object. -/
def DocObjects.Has (s : DocObjects) (r : ObjRef) : Prop := s r ≠ .direct .null

/-- The objects that are met when references are followed from `q` on. -/
inductive Leads (s : DocObjects) (q : ObjRef) : ObjRef → Prop where
  | here : Leads s q q
  | next (r r' : ObjRef) : Leads s q r → MentionsS r' (s r) → Leads s q r'

/-- What a reader sees behind a reference, when at most `k` references are followed. -/
def look (s : DocObjects) : Nat → ObjRef → Tree Obj
  | 0, _ => .cut
  | k + 1, r => treeOfS id (look s k) (s r)

/-- The documents show the same behind the two references, however many references are followed. -/
def LooksLike (s : DocObjects) (r : ObjRef) (s' : DocObjects) (r' : ObjRef) : Prop := ∀ k, look s k r = look s' k r'

/-- Every reference of the document leads to an object. -/
def Complete (s : DocObjects) : Prop := ∀ r q, MentionsS q (s r) → s.Has q

/-- The dictionary is that of a page. -/
def isPage (d : Dict) : Bool :=
  match mapFind (b! "Type") d with
  | some (.name n) => n == b! "Page"
  | _ => false

/-- The objects, with the Parent entries of the pages left out: a page is at another place of the page tree after it was copied. -/
def withoutParents (s : DocObjects) : DocObjects := fun r =>
  match s r with
  | .direct (.dict d) => .direct (.dict (if isPage d then d.filter fun e => e.1 != b! "Parent" else d))
  | o => o

/-- A file can hand out `k` more object numbers: it has a section, its sections have no number twice, and `N` is above all numbers
of the file. -/
def Roomy (a : Alloc) (k : Nat) : Prop :=
  a.chain ≠ [] ∧ (∀ s ∈ a.chain, WellFormed s) ∧
  ∃ N, a.next ≤ N ∧ (∀ n, Occurs a.chain n → n < N) ∧ N + k < 2 ^ 64

/-- All objects of the document are in its cross-reference sections. -/
def Listed (s : DocObjects) (c : Chain) : Prop := ∀ r, s.Has r → Occurs c r.1

/-- A page inherits an attribute: it has the entry, or the node above it has or inherits it (ISO 32000-1 7.7.3.4). -/
inductive Inherits (s : PStore) (k : Bytes) (v : Obj) : ObjRef → Prop where
  | own (r : ObjRef) (d : Dict) : s r = .dict d → mapFind k d = some v → Inherits s k v r
  | up (r : ObjRef) (d : Dict) (n g : Nat) : s r = .dict d → mapFind k d = none → mapFind (b! "Parent") d = some (.ref n g) →
      Inherits s k v (n, g) → Inherits s k v r

end VPdf.Spec
