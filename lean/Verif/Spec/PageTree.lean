import Verif.Model.PageTree
/-
  What a page tree is (ISO 32000-1, 7.7.3.2), independently of the way the library walks through it.
-/
namespace VPdf.Spec

/-- A page tree: pages and nodes with their objects. -/
inductive PageTree where
  | page (r : ObjRef)
  | node (r : ObjRef) (kids : List PageTree)

/-- The indirect object of the top of the tree. -/
def PageTree.ref : PageTree → ObjRef
  | .page r => r
  | .node r _ => r

mutual
/-- The pages in the order of the document. -/
def PageTree.pages : PageTree → List ObjRef
  | .page r => [r]
  | .node _ kids => pagesOf kids
/-- The pages of several trees, one tree after the other. -/
def pagesOf : List PageTree → List ObjRef
  | [] => []
  | t :: ts => t.pages ++ pagesOf ts
end

/-- The dictionary has the entry, either directly or by reference. -/
def HasEntry (s : PStore) (d : Dict) (k : Bytes) (v : Obj) : Prop :=
  (∀ n g, v ≠ .ref n g) ∧ (mapFind k d = some v ∨ ∃ n g, mapFind k d = some (.ref n g) ∧ s (n, g) = v)

/-- The references to the trees. -/
def kidRefs (kids : List PageTree) : List Obj := kids.map fun t => .ref t.ref.1 t.ref.2

mutual
/-- The document contains the tree, and every Count is the number of pages below the node. -/
def StoredTree (s : PStore) : PageTree → Prop
  | .page r => ∃ d, s r = .dict d ∧ HasEntry s d (b! "Type") (.name (b! "Page"))
  | .node r kids =>
    (∃ d, s r = .dict d ∧ HasEntry s d (b! "Type") (.name (b! "Pages")) ∧ HasEntry s d (b! "Kids") (.arr (kidRefs kids)) ∧
      HasEntry s d (b! "Count") (.int (pagesOf kids).length) ∧ (pagesOf kids).length < 2 ^ 63) ∧
    StoredTrees s kids
/-- The document contains the trees. -/
def StoredTrees (s : PStore) : List PageTree → Prop
  | [] => True
  | t :: ts => StoredTree s t ∧ StoredTrees s ts
end

mutual
/-- The document contains the tree; Type, Kids and Count are held in the dictionary itself, and nothing is said about the value of
Count. -/
def Shaped (s : PStore) : PageTree → Prop
  | .page r => ∃ d, s r = .dict d ∧ mapFind (b! "Type") d = some (.name (b! "Page"))
  | .node r kids =>
    (∃ d c, s r = .dict d ∧ mapFind (b! "Type") d = some (.name (b! "Pages")) ∧
      mapFind (b! "Kids") d = some (.arr (kidRefs kids)) ∧ mapFind (b! "Count") d = some (.int c)) ∧
    ShapedAll s kids
/-- The document contains the trees. -/
def ShapedAll (s : PStore) : List PageTree → Prop
  | [] => True
  | t :: ts => Shaped s t ∧ ShapedAll s ts
end

mutual
/-- The objects of the inner nodes. -/
def PageTree.nodes : PageTree → List ObjRef
  | .page _ => []
  | .node r kids => r :: nodesOf kids
/-- The objects of the inner nodes of several trees. -/
def nodesOf : List PageTree → List ObjRef
  | [] => []
  | t :: ts => t.nodes ++ nodesOf ts
end

/-- What a change does to a list of pages. -/
def changePages (l : List ObjRef) : PageOp → List ObjRef
  | .insert p i => l.insertIdx (i - 1) p
  | .append p => l ++ [p]
  | .remove i => l.eraseIdx (i - 1)

/-- The change addresses a page of the list (for an insertion: or the place behind the last one). -/
def inRange (l : List ObjRef) : PageOp → Prop
  | .insert _ i => 1 ≤ i ∧ i ≤ l.length + 1
  | .append _ => True
  | .remove i => 1 ≤ i ∧ i ≤ l.length

end VPdf.Spec
