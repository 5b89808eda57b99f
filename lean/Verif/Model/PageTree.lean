import Verif.Model.Heap
import Verif.Model.Ints
/-
  The page tree: src/vanillapdf/semantics/objects/{page_tree,page_tree_node,page_node_base,page_object}.cpp.

  Not modelled: logging, the `USE_PAGE_TREE_CACHE` variant (compiled out), the assertions (compiled out), and what a
  modification leaves behind when it ends with an exception.
-/
namespace VPdf

/-- Number and generation of an indirect object. indirect_reference_object.h. -/
abbrev ObjRef := Nat × Nat

/-- The indirect objects of a document; an object that does not exist is the null object (file.cpp:805-850).
Streams are left out: no node of a page tree is one. -/
abbrev PStore := ObjRef → Obj

/-- Assigns one object. The modifying functions of syntax/objects/*.cpp. -/
def PStore.set (s : PStore) (r : ObjRef) (o : Obj) : PStore := fun q => if q = r then o else s q

/-- `ObjectUtils::ConvertTo<DictionaryObjectPtr>` of a reference. object_utils.h:132-159. -/
def dictAt (s : PStore) (r : ObjRef) : Res Dict :=
  match s r with
  | .dict d => .ok d
  | _ => .error .conversion

/-- `FindAs` (dictionary_object.h:101-104) before the conversion: the entry, or the object it refers to.  Simplification: only
one reference is followed; a reference to a reference fails to convert. -/
def treeEntry (s : PStore) (d : Dict) (k : Bytes) : Res Obj :=
  match mapFind k d with
  | none => .error .missing
  | some (.ref n g) => .ok (s (n, g))
  | some o => .ok o

/-- `PageNodeBase::NodeType`, page_node_base.h:11-15 -/
inductive NodeKind where
  | tree
  | page
  deriving DecidableEq, Repr

/-- `PageNodeBase::CreatePageNode`, page_node_base.cpp:44-61, and `GetNodeType` of the result. -/
def createPageNode (s : PStore) (r : ObjRef) : Res NodeKind := do
  let d ← dictAt s r
  if (mapFind (b! "Type") d).isNone then throw .throw
  match ← treeEntry s d (b! "Type") with
  | .name n =>
    if n = b! "Pages" then pure .tree
    else if n = b! "Page" then pure .page
    else .error .throw
  | _ => .error .conversion

/-- The constructor of `PageTreeNode`, page_tree_node.cpp:20-24: the Type must be Pages. -/
def pageTreeNode (s : PStore) (r : ObjRef) : Res Dict := do
  let d ← dictAt s r
  if (mapFind (b! "Type") d).isNone then throw .throw
  match ← treeEntry s d (b! "Type") with
  | .name n => if n = b! "Pages" then pure d else .error .throw
  | _ => .error .conversion

/-- `KidCount()->SafeConvert<size_type>()` (page_tree_node.cpp:26-28, integer_object.h:74).  Simplification: a Count held as a
real number is not converted. -/
def kidCount (s : PStore) (d : Dict) : Res Nat := do
  match ← treeEntry s d (b! "Count") with
  | .int i =>
    if (2 ^ 63 : Nat) ≤ i then .error .conversion
    else do
      let c ← safeConvert .u64 .i64 i
      pure c.toNat
  | _ => .error .conversion

/-- `PageTreeNode::Kids`, page_tree_node.cpp:30-33: the items are converted when they are read. -/
def kidsOf (s : PStore) (d : Dict) : Res (List Obj) := do
  match ← treeEntry s d (b! "Kids") with
  | .arr l => pure l
  | _ => .error .conversion

/-- An item of Kids as a node (array_object.h:259-261, page_tree_node.cpp:35-37).  Simplification: the items are references; a
dictionary written directly in Kids is reported as an error. -/
def kidNode (s : PStore) : Obj → Res (ObjRef × NodeKind)
  | .ref n g => do
    let k ← createPageNode s (n, g)
    pure ((n, g), k)
  | _ => .error .conversion

/-- `PageTree::PageCount`, page_tree.cpp:18-21 -/
def pageCount (s : PStore) (root : ObjRef) : Res Nat := do
  let d ← pageTreeNode s root
  kidCount s d

/-- `PageTree::HasTreeChilds`, page_tree.cpp:103-114 -/
def hasTreeChilds (s : PStore) : List Obj → Res Bool
  | [] => .ok false
  | k :: ks => do
    let (_, kind) ← kidNode s k
    if kind = .tree then pure true else hasTreeChilds s ks

/-- The loop of `PageTree::PageInternal`, page_tree.cpp:67-97, with the call of itself as an argument.  The arithmetic is that of
`size_type` (64 bits). -/
def pageLoop (s : PStore) (n : Nat) (self : Nat → ObjRef → Res ObjRef) : Nat → List Obj → Res ObjRef
  | _, [] => .error .throw
  | processed, k :: ks => do
    let (r, kind) ← kidNode s k
    match kind with
    | .tree => do
      let d ← dictAt s r
      let c ← kidCount s d
      if (processed + c) % 2 ^ 64 ≤ n then pageLoop s n self ((processed + c) % 2 ^ 64) ks
      else do
        let sub ← kidsOf s d
        if ← hasTreeChilds s sub then self processed r
        else
          match sub[(2 ^ 64 + n - processed) % 2 ^ 64]? with
          | none => .error .throw
          | some k => do
            let (r, _) ← kidNode s k
            pure r
    | .page =>
      if processed ≠ n then pageLoop s n self ((processed + 1) % 2 ^ 64) ks
      else pure r

/-- `PageTree::PageInternal`, page_tree.cpp:64-101.  The first argument bounds the depth of the recursion. -/
def pageInternal (s : PStore) (n : Nat) : Nat → Nat → ObjRef → Res ObjRef
  | 0, _, _ => .error .timeout
  | f + 1, processed, r => do
    let d ← dictAt s r
    let kids ← kidsOf s d
    pageLoop s n (pageInternal s n f) processed kids

/-- `PageTree::Page` / `GetCachedPage`, page_tree.h:20 and page_tree.cpp:47-62.  The result is the page as an indirect object. -/
def pageAt (s : PStore) (f : Nat) (root : ObjRef) (n : Nat) : Res ObjRef :=
  if n < 1 then .error .throw
  else do
    let _ ← pageTreeNode s root
    pageInternal s n f 1 root

/-- Where the value of an entry lies: in the dictionary or in an object of its own.
The object reached by `ObjectUtils::ConvertTo`, object_utils.h:132-159. -/
inductive Place where
  | entry (r : ObjRef) (k : Bytes)
  | object (r : ObjRef)
  deriving DecidableEq, Repr

/-- The place of an entry of a dictionary. object_utils.h:132-159. -/
def placeOf (r : ObjRef) (d : Dict) (k : Bytes) : Place :=
  match mapFind k d with
  | some (.ref n g) => .object (n, g)
  | _ => .entry r k

/-- Changes the value of an existing key. An assignment through the pointer found by dictionary_object.h `FindAs`. -/
def replaceEntry (k : Bytes) (v : Obj) (d : Dict) : Dict := d.map fun e => if e.1 == k then (e.1, v) else e

/-- Changes the integer or array object at a place.
`SetValue` of integer_object.cpp, `Insert`/`Remove` of mixed_array_object.cpp. -/
def assign (s : PStore) (p : Place) (v : Obj) : PStore :=
  match p with
  | .object r => s.set r v
  | .entry r k =>
    match s r with
    | .dict d => s.set r (.dict (replaceEntry k v d))
    | _ => s

/-- The loop of `PageTree::UpdateKidsCount`, page_tree.cpp:163-166, with the call of the function as an argument. -/
def updateKidsLoop (self : PStore → ObjRef → Res (Nat × PStore)) : PStore → List Obj → Nat → Res (Nat × PStore)
  | s, [], acc => .ok (acc, s)
  | s, k :: ks, acc => do
    let (r, _) ← kidNode s k
    let (c, s) ← self s r
    updateKidsLoop self s ks ((acc + c) % 2 ^ 64)

/-- `PageTree::UpdateKidsCount(PageNodeBasePtr)`, page_tree.cpp:150-174.  The first argument bounds the depth of the recursion. -/
def updateKidsCount : Nat → PStore → ObjRef → Res (Nat × PStore)
  | 0, _, _ => .error .timeout
  | f + 1, s, r => do
    match ← createPageNode s r with
    | .page => pure (1, s)
    | .tree => do
      let d ← dictAt s r
      match ← treeEntry s d (b! "Count") with
      | .int _ => do
        let kids ← kidsOf s d
        let (c, s) ← updateKidsLoop (updateKidsCount f) s kids 0
        pure (c, assign s (placeOf r d (b! "Count")) (.int c))
      | _ => .error .conversion

/-- `PageTree::GetKidsInternal`, page_tree.cpp:176-184: an absent Kids is created.  The result is the place of the array and its
content. -/
def getKidsInternal (s : PStore) (root : ObjRef) : Res (PStore × Place × List Obj) := do
  let d ← dictAt s root
  let d' := if (mapFind (b! "Kids") d).isNone then mapInsert (b! "Kids") (.arr []) d else d
  let s := s.set root (.dict d')
  let kids ← kidsOf s d'
  pure (s, placeOf root d' (b! "Kids"), kids)

/-- `PageNodeBase::SetParent`, page_node_base.cpp:34-42 -/
def setParent (s : PStore) (r parent : ObjRef) : Res PStore := do
  let d ← dictAt s r
  pure (s.set r (.dict (mapInsert (b! "Parent") (.ref parent.1 parent.2) (mapErase (b! "Parent") d))))

/-- `PageTree::Insert`, page_tree.cpp:116-125, with `MixedArrayObject::Insert`, mixed_array_object.cpp:82-91.  `page` has been
constructed as a `PageObject` (page_object.cpp:23-27). -/
def insertPage (s : PStore) (f : Nat) (root page : ObjRef) (index : Nat) : Res PStore := do
  let at_ := (2 ^ 64 + index - 1) % 2 ^ 64
  let (s, place, kids) ← getKidsInternal s root
  if at_ > kids.length then throw .throw
  let s := assign s place (.arr (kids.insertIdx at_ (.ref page.1 page.2)))
  let s ← setParent s page root
  let _ ← pageTreeNode s root
  let (_, s) ← updateKidsCount f s root
  pure s

/-- `PageTree::Append`, page_tree.cpp:127-133 -/
def appendPage (s : PStore) (f : Nat) (root page : ObjRef) : Res PStore := do
  let (s, _, kids) ← getKidsInternal s root
  insertPage s f root page ((kids.length + 1) % 2 ^ 64)

/-- `PageTree::Remove`, page_tree.cpp:135-143, with `MixedArrayObject::Remove`, mixed_array_object.cpp:93-106: an index out of
range changes nothing. -/
def removePage (s : PStore) (f : Nat) (root : ObjRef) (index : Nat) : Res PStore := do
  let at_ := (2 ^ 64 + index - 1) % 2 ^ 64
  let (s, place, kids) ← getKidsInternal s root
  let s := if at_ < kids.length then assign s place (.arr (kids.eraseIdx at_)) else s
  let _ ← pageTreeNode s root
  let (_, s) ← updateKidsCount f s root
  pure s

/-- A change of the page list by the user. page_tree.cpp:116-145. -/
inductive PageOp where
  | insert (page : ObjRef) (index : Nat)
  | append (page : ObjRef)
  | remove (index : Nat)
  deriving DecidableEq, Repr

/-- One change. page_tree.cpp:116-145. -/
def PageOp.run (f : Nat) (root : ObjRef) (s : PStore) : PageOp → Res PStore
  | .insert p i => insertPage s f root p i
  | .append p => appendPage s f root p
  | .remove i => removePage s f root i

end VPdf
