import Verif.Model.CopyObjects
import Verif.Model.NameTree
/-
  Named destinations (src/vanillapdf/semantics/objects/destinations.cpp) and what `Document::AppendPage` does with those of the
  source document (src/vanillapdf/semantics/objects/document.cpp:338-398, 427-486, 549-589, 635-649).

  As in Model/PageTree.lean, one reference is followed where the code follows any number of them.
  Not modelled: dirty flags, encryption; string destinations (`MergeStringDestinations`) are those of Model/NameTree.lean.
-/
namespace VPdf

/-- The names of the kinds of destinations, destinations.cpp:77-107. -/
def destinationKinds : List Bytes :=
  [b! "XYZ", b! "Fit", b! "FitH", b! "FitV", b! "FitR", b! "FitB", b! "FitBH", b! "FitBV"]

/-- The array of a destination that is an array, or a dictionary with the array as D: destinations.cpp:42-59 and 112-121,
`GetPage`, 192-205. -/
def destinationArray (s : PStore) : Obj → Res (List Obj)
  | .arr l => .ok l
  | .dict d => if (mapFind (b! "D") d).isNone then .error .throw else treeArray s d (b! "D")
  | _ => .error .throw

/-- The tests of the page item of a destination, destinations.cpp:66-69, 128-131. -/
def isPageItem : Obj → Bool
  | .int _ => true
  | .real _ _ => true
  | .ref _ _ => true
  | _ => false

/-- `DestinationBase::Create`, destinations.cpp:42-172: the page item (`GetPage`, 192-205) and the kind (`GetType`, 31-38). -/
def createDestination (s : PStore) (v : Obj) : Res (Obj × Bytes) := do
  match ← destinationArray s v with
  | p :: k :: _ =>
    if isPageItem p then
      match derefOne s k with
      | .name n => if n ∈ destinationKinds then pure (p, n) else throw .throw
      | _ => throw .throw
    else throw .throw
  | _ => throw .throw

/-- `PageNodeBase::GetPageRoot`, page_node_base.cpp:17-32.  The loop does not end when the parents form a circle; the first argument
bounds the number of rounds.  Simplification: a Parent that is no reference fails. -/
def pageRoot (s : PStore) : Nat → ObjRef → Res ObjRef
  | 0, _ => .error .timeout
  | f + 1, r => do
    let d ← dictAt s r
    match mapFind (b! "Parent") d with
    | none => pure r
    | some (.ref n g) => do
      let _ ← pageTreeNode s (n, g)
      pageRoot s f (n, g)
    | some _ => .error .conversion

/-- `Document::IsDestinationReferencingPage`, document.cpp:427-473, for the page item of a destination.  Simplification: a page number that
is a real number fails. -/
def isReferencing (s : PStore) (f : Nat) (page : ObjRef) : Obj → Res Bool
  | .ref n g => do
    let _ ← dictAt s (n, g)
    pure ((n, g) = page)
  | .int i => do
    let root ← pageRoot s f page
    let n ← safeConvert .u64 .i64 i
    let r ← pageAt s f root n.toNat
    pure (r = page)
  | _ => .error .throw

/-- `Document::FixDestinationPage`, document.cpp:338-398, for the clone `v` of a destination: `SetReferencedObject` changes the page item
of the array, which belongs to the clone, or, when D is a reference, to the object `objs` has under that number.
For a page number the code compares the page tree itself, not its pages, with the merged page (384-394): it changes nothing. -/
def fixDestination (objs : SStore) (merged : ObjRef) (v : Obj) : Obj × SStore :=
  let fixed : List Obj → List Obj
    | .ref _ _ :: l => .ref merged.1 merged.2 :: l
    | l => l
  match v with
  | .arr l => (.arr (fixed l), objs)
  | .dict d =>
    match mapFind (b! "D") d with
    | some (.arr l) => (.dict (replaceEntry (b! "D") (.arr (fixed l)) d), objs)
    | some (.ref n g) =>
      match objs (n, g) with
      | .direct (.arr l) => (v, fun r => if r = (n, g) then .direct (.arr (fixed l)) else objs r)
      | _ => (v, objs)
    | _ => (v, objs)
  | _ => (v, objs)

/-- The destination document of a merge: its objects, and the dictionary of its named destinations (Dests of the catalog), if it has
one. document.cpp:549-565.  Simplification: the dictionary is kept apart from the other objects. -/
structure MergeTarget where
  doc : CopyTarget
  dests : Option Dict

/-- `CreateNameDestinations` if there is no dictionary, document.cpp:266-281, 557-565: it takes a number. -/
def withDests (t : MergeTarget) : Res (Dict × CopyTarget) :=
  match t.dests with
  | some d => .ok (d, t.doc)
  | none => do
    let (_, a) ← t.doc.alloc.allocate
    pure ([], { t.doc with alloc := a })

/-- `Document::AppendNameDestination`, document.cpp:549-589, with `File::ShallowCopyObject` (file.cpp:1082-1103) and
`NamedDestinations::Insert` (destinations.cpp:231-245).  `value` is the destination; `own` tells whether it is an indirect object. -/
def appendDestination (merged : ObjRef) (t : MergeTarget) (key : Bytes) (value : Obj) (own : Bool) : Res MergeTarget := do
  let (dests, doc) ← withDests t
  if (mapFind key dests).isSome then throw .notSupported
  if own then do
    let (e, a) ← doc.alloc.allocate
    let objs : SStore := fun r => if r = (e.num, e.gen) then .direct value else doc.objs r
    let _ ← createDestination (pageView objs) value
    let (v, objs) := fixDestination objs merged value
    pure ⟨⟨fun r => if r = (e.num, e.gen) then .direct v else objs r, a⟩, some (mapInsert key (.ref e.num e.gen) dests)⟩
  else do
    let _ ← createDestination (pageView doc.objs) value
    let (v, objs) := fixDestination doc.objs merged value
    pure ⟨{ doc with objs := objs }, some (mapInsert key v dests)⟩

/-- The value of an entry is an indirect object. object.cpp:78-91. -/
def isReference : Obj → Bool
  | .ref _ _ => true
  | _ => false

/-- `Document::MergeNameDestinations`, document.cpp:475-486, for the entries of the dictionary of the source (destinations.h:118-122):
those that lead to `page` are appended with `merged` in its place. -/
def mergeDestinations (f : Nat) (src : SStore) (page merged : ObjRef) : Dict → MergeTarget → Res MergeTarget
  | [], t => .ok t
  | (k, o) :: rest, t => do
    let value := derefOne (pageView src) o
    let (p, _) ← createDestination (pageView src) value
    if ← isReferencing (pageView src) f page p then do
      let t ← appendDestination merged t k value (isReference o)
      mergeDestinations f src page merged rest t
    else mergeDestinations f src page merged rest t

/-- `Document::AppendPage`, document.cpp:591-633, with `MergePageDestinations` (635-649) for a source with the dictionary `names` of
named destinations; the copied page, and what is left of both documents. -/
def appendPageNamed (f : Nat) (src : SStore) (names : Dict) (t : MergeTarget) (root page : ObjRef) :
    Res (ObjRef × SStore × MergeTarget) := do
  let (c, src, doc) ← appendForeignPage f src t.doc root page
  let t ← mergeDestinations f src page c names { t with doc := doc }
  pure (c, src, t)

/-- The loop of `Document::AppendDocument`, document.cpp:418-425, with named destinations; the copied pages in their order. -/
def appendPagesNamed (f : Nat) (sroot root : ObjRef) (names : Dict) :
    Nat → Nat → SStore → MergeTarget → Res (List ObjRef × SStore × MergeTarget)
  | 0, _, src, t => .ok ([], src, t)
  | n + 1, i, src, t => do
    let p ← pageAt (pageView src) f sroot i
    let (c, src, t) ← appendPageNamed f src names t root p
    let (cs, src, t) ← appendPagesNamed f sroot root names n (i + 1) src t
    pure (c :: cs, src, t)

/-- `NamedDestinations::Find`, destinations.cpp:212-229: the page item and the kind of the destination with a name. -/
def findDestination (s : PStore) (dests : Dict) (key : Bytes) : Res (Obj × Bytes) :=
  match mapFind key dests with
  | none => .error .missing
  | some o => createDestination s (derefOne s o)

end VPdf
