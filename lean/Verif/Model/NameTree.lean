import Verif.Model.PageTree
/-
  Name and number trees: src/vanillapdf/semantics/objects/tree.h and tree.cpp, and page_labels.cpp.

  Not modelled: encryption of the keys; a root node that occurs among its own descendants is read but not written.
-/
namespace VPdf

/-- An object, or the object it refers to (object_utils.h:132-159; one reference is followed, as in `treeEntry`). -/
def derefOne (s : PStore) : Obj → Obj
  | .ref n g => s (n, g)
  | o => o

/-- `TreeNodeBase::TreeNodeType`, tree.h:27-32. -/
inductive TreeNode where
  | root
  | intermediate
  | leaf
  deriving DecidableEq, Repr

/-- `TreeNodeBase::Create`, tree.cpp:18-38: the kind of a node that is a kid.  The entry with the values is taken to be
Names, also in number trees. -/
def treeNodeKind (d : Dict) : Res TreeNode :=
  let kids := (mapFind (b! "Kids") d).isSome
  let limits := (mapFind (b! "Limits") d).isSome
  let names := (mapFind (b! "Names") d).isSome
  if kids && !limits && !names then .ok .root
  else if kids && limits && !names then .ok .intermediate
  else if !kids && limits && names then .ok .leaf
  else .error .throw

/-- `FindAs` of an array, dictionary_object.h:101-104: `Kids` and `Values` of the nodes, tree.cpp:62-72, 88-94,
118-120. -/
def treeArray (s : PStore) (d : Dict) (k : Bytes) : Res (List Obj) := do
  match ← treeEntry s d k with
  | .arr l => pure l
  | _ => .error .conversion

/-- A kid as a dictionary with its kind, tree.cpp:62-68, 88-94. -/
def treeKid (s : PStore) (o : Obj) : Res (Dict × TreeNode) :=
  match derefOne s o with
  | .dict d => do
    let kind ← treeNodeKind d
    pure (d, kind)
  | _ => .error .conversion

/-- The map of a name tree: the keys in the order of `StringObjectBase::operator<` (string_object.h:30,
`Buffer::LessThan`), with the string object and the value. `map_type`, tree.h:74. -/
abbrev NameMap := List (Bytes × Obj × Obj)

/-- The value of a key of a name tree: `ConvertTo<StringObjectPtr>`, tree.h:401. -/
def nameKey : Obj → Res Bytes
  | .lit v => .ok v
  | .hex v => .ok v
  | _ => .error .conversion

/-- `TreeBase::InsertPairsToMap`, tree.h:393-408: an item without a partner at the end is ignored. -/
def insertPairs (s : PStore) : List Obj → NameMap → Res NameMap
  | k :: v :: rest, m => do
    let key ← nameKey (derefOne s k)
    insertPairs s rest (mapInsert key (derefOne s k, v) m)
  | _, m => .ok m

/-- `std::map::insert` of all the entries of another map, tree.h:421, 438. -/
def mergeMaps (m : NameMap) : NameMap → NameMap
  | [] => m
  | (k, v) :: rest => mergeMaps (mapInsert k v m) rest

/-- The loops over the kids in `TreeBase::GetAllKeys`, tree.h:418-422, 435-439. -/
def kidsMap (s : PStore) (self : TreeNode → Dict → Res NameMap) : List Obj → NameMap → Res NameMap
  | [], m => .ok m
  | o :: os, m => do
    let (d, kind) ← treeKid s o
    let sub ← self kind d
    kidsMap s self os (mergeMaps m sub)

/-- `TreeBase::GetAllKeys`, tree.h:410-453, of a name tree.  The recursion follows the kids without end if they form a
cycle; the first argument bounds its depth. -/
def allKeys (s : PStore) : Nat → TreeNode → Dict → Res NameMap
  | 0, _, _ => .error .timeout
  | f + 1, .root, d => do
    let m ← if (mapFind (b! "Kids") d).isSome then do
        let l ← treeArray s d (b! "Kids")
        kidsMap s (allKeys s f) l []
      else pure []
    if (mapFind (b! "Names") d).isSome then do
      let l ← treeArray s d (b! "Names")
      insertPairs s l m
    else pure m
  | f + 1, .intermediate, d => do
    let l ← treeArray s d (b! "Kids")
    kidsMap s (allKeys s f) l []
  | _ + 1, .leaf, d => do
    let l ← treeArray s d (b! "Names")
    insertPairs s l []

/-- A name tree: the objects of the document, the dictionary of the root and the map, which is `none` before it is
read. `TreeBase`, tree.h:71-116. -/
structure NameTree where
  store : PStore
  root : Dict
  map : Option NameMap

/-- A new object for the tree at the same dictionary, as `NameDictionary::Dests` makes one at each call,
name_dictionary.cpp:12-22. -/
def NameTree.fresh (t : NameTree) : NameTree := { t with map := none }

/-- `TreeBase::Initialize`, tree.h:254-262. -/
def NameTree.load (f : Nat) (t : NameTree) : Res (NameMap × NameTree) :=
  match t.map with
  | some m => .ok (m, t)
  | none => do
    let m ← allKeys t.store f .root t.root
    pure (m, { t with map := some m })

/-- `TreeBase::Contains`, tree.h:354-358. -/
def NameTree.contains (f : Nat) (t : NameTree) (k : Bytes) : Res Bool := do
  let (m, _) ← t.load f
  pure (mapFind k m).isSome

/-- `TreeBase::Find`, tree.h:360-370. -/
def NameTree.find (f : Nat) (t : NameTree) (k : Bytes) : Res Obj := do
  let (m, _) ← t.load f
  match mapFind k m with
  | some (_, v) => pure v
  | none => throw .throw

/-- `ReleaseReference` of the entry of an indirect kid, xref_entry.cpp:125-151: the object becomes null. -/
def releaseKid (s : PStore) : Obj → PStore
  | .ref n g => s.set (n, g) .null
  | _ => s

/-- The loops over the kids in `TreeBase::RemoveAllChilds` and `ReleaseNode`, tree.h:283-295, 302-304: what happens and
the objects it leaves.  Kids of the kind of a root are left alone. -/
def releaseNodes (self : PStore → TreeNode → Dict → Res Unit × PStore) : PStore → List Obj → Res Unit × PStore
  | s, [] => (.ok (), s)
  | s, o :: os =>
    match treeKid s o with
    | .error e => (.error e, s)
    | .ok (d, kind) =>
      match self s kind d with
      | (.error e, s) => (.error e, s)
      | (.ok _, s) => releaseNodes self (if kind = .root then s else releaseKid s o) os

/-- `TreeBase::ReleaseNode`, tree.h:264-296, up to the release of the node itself. -/
def releaseNode : Nat → PStore → TreeNode → Dict → Res Unit × PStore
  | 0, s, _, _ => (.error .timeout, s)
  | f + 1, s, .intermediate, d =>
    match treeArray s d (b! "Kids") with
    | .error e => (.error e, s)
    | .ok l => releaseNodes (releaseNode f) s l
  | _ + 1, s, _, _ => (.ok (), s)

/-- `TreeBase::RemoveAllChilds`, tree.h:298-305, up to the removal of the values. -/
def releaseKids (f : Nat) (s : PStore) (root : Dict) : Res Unit × PStore :=
  if (mapFind (b! "Kids") root).isSome then
    match treeArray s root (b! "Kids") with
    | .error e => (.error e, s)
    | .ok l => releaseNodes (releaseNode f) s l
  else (.ok (), s)

/-- The keys and values of the map one after the other, tree.h:324-327. -/
def leafValues : NameMap → List Obj
  | [] => []
  | (_, k, v) :: rest => k :: v :: leafValues rest

/-- The first and the last key, tree.h:331-343. -/
def leafLimits (m : NameMap) : List Obj :=
  match m.head?, m.getLast? with
  | some (_, lo, _), some (_, hi, _) => [lo, hi]
  | _, _ => []

/-- `TreeBase::Rebuild`, tree.h:313-352, for the map `m`: what happens and the tree it leaves.  Kids is not removed from
the root, and `Insert` does not overwrite an existing Limits (dictionary_object.cpp:180-191). -/
def NameTree.rebuild (f : Nat) (t : NameTree) (m : NameMap) : Res Unit × NameTree :=
  match releaseKids f t.store t.root with
  | (.error e, s) => (.error e, { t with store := s, map := some m })
  | (.ok _, s) =>
    let root := mapErase (b! "Names") t.root
    if !m.isEmpty && (mapFind (b! "Limits") root).isSome then (.error .duplicateKey, ⟨s, root, some m⟩)
    else
      let root := if m.isEmpty then root else mapInsert (b! "Limits") (.arr (leafLimits m)) root
      let root := mapInsert (b! "Names") (.arr (leafValues m)) root
      match allKeys s f .root root with
      | .error e => (.error e, ⟨s, root, none⟩)
      | .ok m => (.ok (), ⟨s, root, some m⟩)

/-- `TreeBase::Insert`, tree.h:372-380, for a key given by its string object: an existing key keeps its value. -/
def NameTree.insert (f : Nat) (t : NameTree) (key : Bytes) (kobj v : Obj) : Res Unit × NameTree :=
  match t.load f with
  | .error e => (.error e, t)
  | .ok (m, t) => t.rebuild f (mapInsert key (kobj, v) m)

/-- A sequence of insertions through new objects for the tree, as `Document::MergeStringDestinations` and
`AppendStringDestination` make them, document.cpp:488-550. -/
def NameTree.insertAll (f : Nat) : NameTree → List (Bytes × Obj × Obj) → Res Unit × NameTree
  | t, [] => (.ok (), t)
  | t, (k, ko, v) :: rest =>
    match t.fresh.contains f k with
    | .error e => (.error e, t)
    | .ok true => (.error .notSupported, t)
    | .ok false =>
      match t.fresh.insert f k ko v with
      | (.error e, t) => (.error e, t)
      | (.ok _, t) => t.insertAll f rest

/-- The map of a number tree: the keys are pointers to integer objects and are compared as pointers
(`operator<(const ObjectPtr&, const ObjectPtr&)`, object.cpp:304-306).  Each entry has the address of the integer object,
its value, and the value of the entry. tree.h:74, 194-212. -/
abbrev NumberMap := List (Nat × Int × Obj)

/-- `std::map::find` in a number tree (tree.h:354-370): by the address of the key object. -/
def numberFind (m : NumberMap) (a : Nat) : Option Obj := (m.find? (·.1 == a)).map (·.2.2)

/-- `std::map::insert` in a number tree, tree.h:406. -/
def numberInsert (a : Nat) (i : Int) (v : Obj) (m : NumberMap) : NumberMap :=
  if (numberFind m a).isSome then m else m ++ [(a, i, v)]

/-- `TreeBase::InsertPairsToMap`, tree.h:393-408, of a number tree; `addr i` is the address of the object that is item
`i` of the array, or that it refers to. -/
def numberPairs (s : PStore) (addr : Nat → Nat) : Nat → List Obj → NumberMap → Res NumberMap
  | i, k :: v :: rest, m =>
    match derefOne s k with
    | .int n => numberPairs s addr (i + 2) rest (numberInsert (addr i) n v m)
    | _ => .error .conversion
  | _, _, m => .ok m

/-- The loops over the kids in `TreeBase::GetAllKeys`, tree.h:418-422, 435-439. -/
def numberKids (s : PStore) (self : TreeNode → Dict → Res NumberMap) : List Obj → NumberMap → Res NumberMap
  | [], m => .ok m
  | o :: os, m => do
    let (d, kind) ← treeKid s o
    let sub ← self kind d
    numberKids s self os (sub.foldl (fun m e => numberInsert e.1 e.2.1 e.2.2 m) m)

/-- `TreeBase::GetAllKeys`, tree.h:410-453, of a number tree, whose values are in Nums (tree.h:621-624). -/
def numberKeys (s : PStore) (addr : Dict → Nat → Nat) : Nat → TreeNode → Dict → Res NumberMap
  | 0, _, _ => .error .timeout
  | f + 1, .root, d => do
    let m ← if (mapFind (b! "Kids") d).isSome then do
        let l ← treeArray s d (b! "Kids")
        numberKids s (numberKeys s addr f) l []
      else pure []
    if (mapFind (b! "Nums") d).isSome then do
      let l ← treeArray s d (b! "Nums")
      numberPairs s (addr d) 0 l m
    else pure m
  | f + 1, .intermediate, d => do
    let l ← treeArray s d (b! "Kids")
    numberKids s (numberKeys s addr f) l []
  | _ + 1, .leaf, d => do
    let l ← treeArray s d (b! "Nums")
    numberPairs s (addr d) 0 l []

/-- The integer object that `PageLabels::Contains` and `Find` make for a page number, page_labels.cpp:69, 74: its
address and its value. -/
abbrev NewInteger := Nat × Int

/-- `PageLabels::Contains`, page_labels.cpp:68-71. -/
def pageLabelsContains (s : PStore) (addr : Dict → Nat → Nat) (f : Nat) (d : Dict) (key : NewInteger) : Res Bool := do
  let m ← numberKeys s addr f .root d
  pure (numberFind m key.1).isSome

/-- `PageLabels::Find`, page_labels.cpp:73-76, before the conversion of the value. -/
def pageLabelsFind (s : PStore) (addr : Dict → Nat → Nat) (f : Nat) (d : Dict) (key : NewInteger) : Res Obj := do
  let m ← numberKeys s addr f .root d
  match numberFind m key.1 with
  | some v => pure v
  | none => throw .throw

end VPdf
