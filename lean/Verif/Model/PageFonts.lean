import Verif.Model.FormFields
import Verif.Model.CopyObjects
/-
  Resources and fonts of pages, the node above a page, and extensions: src/vanillapdf/semantics/objects/page_object.cpp:29-47, 173-189,
  page_node_base.cpp:29-32, resource_dictionary.cpp, font.cpp, developer_extensions.cpp, and
  src/vanillapdf/implementation/semantics/c_page_object.cpp:60-93, c_font.cpp, c_font_map.cpp, c_developer_extensions.cpp.

  As in Model/PageTree.lean, one reference is followed where the code follows any number of them.
-/
namespace VPdf

/-- `PageObject::GetResources`, page_object.cpp:29-38. -/
def pageResources (s : PStore) (page : Dict) : Res (Option Dict) := dictEntry s page (b! "Resources")

/-- `PageObject::SetResources`, page_object.cpp:40-47.  Simplification: the resources are a value. -/
def setPageResources (page : Dict) (r : Dict) : Dict :=
  mapInsert (b! "Resources") (.dict r) (if (mapFind (b! "Resources") page).isSome then mapErase (b! "Resources") page else page)

/-- `PageObjectExtensions::GetInheritableResources`, page_object.cpp:173-189: the parent is taken for a page (`PageObject::Create`, 169-171,
with the constructor, 23-27).  The first argument bounds the depth of the recursion. -/
def inheritableResources : Nat → PStore → Dict → Res (Option Dict)
  | 0, _, _ => .error .timeout
  | f + 1, s, page =>
    if (mapFind (b! "Resources") page).isSome then dictEntry s page (b! "Resources")
    else
      match mapFind (b! "Parent") page with
      | none => .ok none
      | some _ => do
        match ← treeEntry s page (b! "Parent") with
        | .dict parent =>
          match ← treeEntry s parent (b! "Type") with
          | .name n => if n = b! "Page" then inheritableResources f s parent else .error .throw
          | _ => .error .conversion
        | _ => .error .conversion

/-- `ResourceDictionary::Font`, resource_dictionary.cpp:12-20. -/
def fontMap (s : PStore) (resources : Dict) : Res (Option Dict) := dictEntry s resources (b! "Font")

/-- `FontBase::Type`, font.h; c_font.cpp:66-92. -/
inductive FontKind where
  | type0
  | type1
  | mmType1
  | type3
  | trueType
  | cidType0
  | cidType2
  deriving DecidableEq, Repr

/-- The tests of the subtype, font.cpp:63-96. -/
def fontKinds : List (Bytes × FontKind) :=
  [(b! "Type0", .type0), (b! "Type1", .type1), (b! "MMType1", .mmType1), (b! "Type3", .type3), (b! "TrueType", .trueType),
   (b! "CIDFontType0", .cidType0), (b! "CIDFontType2", .cidType2)]

/-- The test of the type in `FontBase::Create`, font.cpp:36-49: an entry that is missing is accepted. -/
def fontTypeOk (s : PStore) (d : Dict) : Res Unit :=
  match mapFind (b! "Type") d with
  | none => .ok ()
  | some _ => do
    match ← treeEntry s d (b! "Type") with
    | .name n => if n = b! "Font" then .ok () else .error .throw
    | _ => .error .throw

/-- The rest of `FontBase::Create`, font.cpp:51-99. -/
def fontSubtype (s : PStore) (d : Dict) : Res FontKind :=
  match mapFind (b! "Subtype") d with
  | none => .error .throw
  | some _ => do
    match ← treeEntry s d (b! "Subtype") with
    | .name n =>
      match firstNamed n fontKinds with
      | some k => .ok k
      | none => .error .throw
    | _ => .error .throw

/-- `FontBase::Create`, font.cpp:36-99, with the kinds of `GetFontType`, 19-25. -/
def fontKind (s : PStore) (d : Dict) : Res FontKind := do
  fontTypeOk s d
  fontSubtype s d

/-- `FontMap::Contains`, font.cpp:27-29. -/
def fontMapContains (fonts : Dict) (name : Bytes) : Bool := (mapFind name fonts).isSome

/-- `FontMap::Find`, font.cpp:31-34. -/
def fontMapFind (s : PStore) (fonts : Dict) (name : Bytes) : Res (FontKind × Dict) := do
  match ← treeEntry s fonts name with
  | .dict d => do
    let k ← fontKind s d
    pure (k, d)
  | _ => throw .conversion

/-- `FontBase::ToUnicode`, font.cpp:101-115, of a font that has not been asked: the stream of the map. -/
def fontUnicode (s : SStore) (d : Dict) : Res (Option (Dict × Bytes)) :=
  match mapFind (b! "ToUnicode") d with
  | none => .ok none
  | some (.ref n g) =>
    match s (n, g) with
    | .stream h b => .ok (some (h, b))
    | _ => .error .conversion
  | some _ => .error .conversion

/-- The two classes of objects that stand for nodes of the page tree: page_tree.h, page_tree_node.h. -/
inductive TreeClass where
  | pageTree
  | pageTreeNode
  deriving DecidableEq, Repr

/-- `PageObject_GetParent` (c_page_object.cpp:60-73) with `PageNodeBase::GetParent` (page_node_base.cpp:29-32) and the constructor of
`PageTreeNode` (page_tree_node.cpp:19-23): the handle is that of a page tree, the object is a node. -/
def pageParent (s : PStore) (page : Dict) : Res (TreeClass × Dict) := do
  match ← treeEntry s page (b! "Parent") with
  | .dict d =>
    match mapFind (b! "Type") d with
    | none => throw .throw
    | some _ =>
      match ← treeEntry s d (b! "Type") with
      | .name n => if n = b! "Pages" then pure (.pageTreeNode, d) else throw .throw
      | _ => throw .conversion
  | _ => throw .conversion

/-- `PageTree_GetPageCount` (c_page_tree.cpp:11-22) with `PageTree::PageCount` (page_tree.cpp:18-21).  An object of another class is used as
if it were a `PageTree`: not defined. -/
def treeHandleCount (s : PStore) (h : TreeClass × Dict) : Res Int :=
  match h.1 with
  | .pageTreeNode => .error .ub
  | .pageTree => do
    match ← treeEntry s h.2 (b! "Count") with
    | .int n => if n < 0 then throw .conversion else pure n
    | _ => throw .conversion

/-- The constructor of `DeveloperExtension`, developer_extensions.cpp:59-62. -/
def extensionObject (s : PStore) (d : Dict) : Res Dict := do
  match ← nameEntry s d (b! "Type") with
  | none => pure d
  | some n => if n = b! "DeveloperExtensions" then pure d else throw .throw

/-- `DeveloperExtensions::Iterator::Second`, developer_extensions.cpp:12-20. -/
def extensionOf (s : PStore) (o : Obj) : Res Dict :=
  match derefOne s o with
  | .dict d => extensionObject s d
  | _ => throw .throw

/-- `Catalog::Extensions`, catalog.cpp:41-49, and all the entries an iteration shows (c_developer_extensions.cpp): the name and the
answer for the value. -/
def extensionList (s : PStore) (catalog : Dict) : Res (Option (List (Bytes × Res Dict))) := do
  match ← dictEntry s catalog (b! "Extensions") with
  | none => pure none
  | some d => pure (some (d.map fun e => (e.1, extensionOf s e.2)))

/-- `DeveloperExtension::BaseVersion`, developer_extensions.cpp:64-67. -/
def extensionVersion (s : PStore) (d : Dict) : Res (Nat × Nat) := do
  match ← treeEntry s d (b! "BaseVersion") with
  | .name n => versionFromName n
  | _ => throw .conversion

/-- `DeveloperExtension::ExtensionLevel`, developer_extensions.cpp:69-71, and the value of the object. -/
def extensionLevel (s : PStore) (d : Dict) : Res Int :=
  match mapFind (b! "ExtensionLevel") d with
  | none => .error .missing
  | some o => boxPart s o

end VPdf
