import Verif.Model.Optimize
import Verif.Model.PageTree
import Verif.Model.Xref
/-
  Copying objects and pages between documents: `File::DeepCopyObject` and its helpers, src/vanillapdf/syntax/files/file.cpp:
  1004-1174, and `Document::AppendDocument`, `AppendPage`, src/vanillapdf/semantics/objects/document.cpp:400-425, 591-633.

  Not modelled: named destinations (`MergePageDestinations`, document.cpp:635-659: the source document has neither Dests nor
  Names), documents without catalog or page tree, encryption (see SecureCopy), dirty flags, indirect objects that
  are the null object or that are references to themselves.
-/
namespace VPdf

/-- The indirect objects of a document with its streams; an object that does not exist is the null object
(file.cpp:805-813). -/
abbrev SStore := ObjRef → SObj

/-- The object does not exist. file.cpp:811-813. -/
def absentAt (s : SStore) (r : ObjRef) : Bool :=
  match s r with
  | .direct .null => true
  | _ => false

/-- The objects of a list visited one after the other, unless they have been visited; `self` visits what an object goes on to.
The loops of file.cpp:1045-1062, 1120-1139. -/
def walkEach (next : ObjRef → List ObjRef) (self : List ObjRef → List ObjRef → Res (List ObjRef)) :
    List ObjRef → List ObjRef → Res (List ObjRef)
  | [], seen => .ok seen
  | q :: qs, seen =>
    if q ∈ seen then walkEach next self qs seen
    else do
      let seen ← self (next q) (seen ++ [q])
      walkEach next self qs seen

/-- A walk through objects that follows `next` in order and visits no object twice: the scheme of `DeepCopyObject` and of
`FixObjectReferences`, file.cpp:1004-1011, 1105-1113.  The result is the list of the visited objects in the order of the visits.
The direct parts of an object belong to it alone and are not listed.  The second argument bounds the depth of the recursion. -/
def walk (next : ObjRef → List ObjRef) : Nat → List ObjRef → List ObjRef → Res (List ObjRef)
  | 0, [], seen => .ok seen
  | 0, _ :: _, _ => .error .timeout
  | f + 1, qs, seen => walkEach next (walk next f) qs seen

/-- `File::AllocateNewEntry` (file.cpp:931-1002) for each object that `ShallowCopyObject` copies (file.cpp:1065-1103).
Simplification: in the code the numbers are handed out during the walk, in the same order. -/
def allocateAll : List ObjRef → Alloc → Res (List (ObjRef × ObjRef) × Alloc)
  | [], a => .ok ([], a)
  | q :: qs, a => do
    let (e, a) ← a.allocate
    let (m, a) ← allocateAll qs a
    pure ((q, (e.num, e.gen)) :: m, a)

/-- The copy of an object: the search in the map of file.cpp:1019-1038. -/
def copyOf (m : List (ObjRef × ObjRef)) (r : ObjRef) : Option ObjRef := (m.find? (·.1 == r)).map (·.2)

/-- Where a copied reference leads after `FixObjectReferences`, file.cpp:1016-1041: a reference whose object was not copied keeps
its number (the assertion is compiled out). -/
def newReference (m : List (ObjRef × ObjRef)) (r : ObjRef) : ObjRef := (copyOf m r).getD r

/-- The objects of the destination with the clones, file.cpp:1082-1103, before the references are changed. -/
def withClones (src : SStore) (m : List (ObjRef × ObjRef)) (dst : SStore) : SStore := fun r =>
  match m.find? (·.2 == r) with
  | some (o, _) => src o
  | none => dst r

/-- The objects that `FixObjectReferences` goes on to from an object of the destination, file.cpp:1013-1063: from a reference to a
copied object to the copy; from any other reference to the object that has the same number in the destination, because `IsType` and
`ConvertTo` follow references (object_utils.h:165-176). -/
def fixNext (m : List (ObjRef × ObjRef)) (objs : SStore) (r : ObjRef) : List ObjRef :=
  (refsS (objs r)).map (newReference m)

/-- A document that objects are copied to: its objects and the state of the allocation of numbers. file.h:150. -/
structure CopyTarget where
  objs : SStore
  alloc : Alloc

/-- `File::DeepCopyObject`, file.cpp:1141-1174, of the indirect object `q`: the copy and the document it leaves.  In the result of
the code the object is searched in the map without a test (1166-1171). -/
def deepCopy (src : SStore) (f : Nat) (dst : CopyTarget) (q : ObjRef) : Res (ObjRef × CopyTarget) := do
  let seen ← walk (fun r => refsS (src r)) f [q] []
  let (m, alloc) ← allocateAll (seen.filter fun r => !absentAt src r) dst.alloc
  let objs := withClones src m dst.objs
  let touched ← walk (fixNext m objs) f (m.map (·.2)) []
  match copyOf m q with
  | some c => pure (c, ⟨fun r => if r ∈ touched then mapRefsS (newReference m) (objs r) else objs r, alloc⟩)
  | none => throw .ub

/-- The objects as the page tree sees them (streams are no nodes, object_utils.h:132-159). -/
def pageView (s : SStore) : PStore := fun r =>
  match s r with
  | .direct o => o
  | .stream _ _ => .null

/-- The objects after the page tree has changed some of them; it never changes a stream. page_tree.cpp:116-184. -/
def putView (s : SStore) (p : PStore) : SStore := fun r =>
  match s r with
  | .direct _ => .direct (p r)
  | .stream d b => .stream d b

/-- The constructor of `PageObject`, page_object.cpp:23-27: the Type must be Page. -/
def pageObject (s : PStore) (r : ObjRef) : Res Dict := do
  let d ← dictAt s r
  match ← treeEntry s d (b! "Type") with
  | .name n => if n = b! "Page" then pure d else .error .throw
  | _ => .error .conversion

/-- `page_object->Remove(Parent)`, document.cpp:613-616: the page of the source document loses its Parent for good. -/
def dropParent (s : SStore) (r : ObjRef) (d : Dict) : SStore := fun q =>
  if q = r then .direct (.dict (mapErase (b! "Parent") d)) else s q

/-- `Document::AppendPage`, document.cpp:591-633: the copied page, and what is left of the source and of the destination. -/
def appendForeignPage (f : Nat) (src : SStore) (dst : CopyTarget) (root page : ObjRef) : Res (ObjRef × SStore × CopyTarget) := do
  let d ← dictAt (pageView src) page
  let src := dropParent src page d
  let (c, dst) ← deepCopy src f dst page
  let _ ← pageObject (pageView dst.objs) c
  let s ← appendPage (pageView dst.objs) f root c
  pure (c, src, { dst with objs := putView dst.objs s })

/-- The loop of `Document::AppendDocument`, document.cpp:418-425; `i` is the number of the next page, the first argument the number
of the pages that are left. -/
def appendPages (f : Nat) (sroot root : ObjRef) : Nat → Nat → SStore → CopyTarget → Res (SStore × CopyTarget)
  | 0, _, src, dst => .ok (src, dst)
  | n + 1, i, src, dst => do
    let p ← pageAt (pageView src) f sroot i
    let (_, src, dst) ← appendForeignPage f src dst root p
    appendPages f sroot root n (i + 1) src dst

/-- `Document::AppendDocument`, document.cpp:400-425, for the page trees `sroot` of the source and `root` of the destination. -/
def appendDocument (f : Nat) (sroot : ObjRef) (src : SStore) (root : ObjRef) (dst : CopyTarget) : Res (SStore × CopyTarget) := do
  let n ← pageCount (pageView src) sroot
  appendPages f sroot root n 1 src dst

end VPdf
