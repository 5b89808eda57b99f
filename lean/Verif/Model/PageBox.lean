import Verif.Model.Annotations
import Verif.Model.NumberObjects
/-
  The media box of a page: src/vanillapdf/semantics/objects/page_object.cpp:49-67, rectangle.h, rectangle.cpp:14-24, and
  src/vanillapdf/implementation/semantics/c_page_object.cpp:115-147, c_rectangle.cpp.

  As in Model/PageTree.lean, one reference is followed where the code follows any number of them.
-/
namespace VPdf

/-- An item of an array as an integer, array_object.h:97-100 with object_utils.h:78-101, read by rectangle.h:15-18. -/
def boxPart (s : PStore) (o : Obj) : Res Int :=
  match derefOne s o with
  | .int v => (NumVal.int v).getInt
  | .real m k => (NumVal.real m k).getInt
  | _ => .error .conversion

/-- The coordinates of a rectangle, rectangle.h:15-18. -/
structure Box where
  llx : Int
  lly : Int
  urx : Int
  ury : Int
  deriving DecidableEq, Repr

/-- `PageObject::GetMediaBox` (page_object.cpp:49-58) with `Rectangle::Rectangle` (rectangle.cpp:14-24) and the four functions that
read coordinates (rectangle.h:15-18): `none` if the page has no entry.  Simplification: the coordinates are read at once. -/
def pageBox (s : PStore) (page : Dict) : Res (Option Box) :=
  match mapFind (b! "MediaBox") page with
  | none => .ok none
  | some _ => do
    let l ← treeArray s page (b! "MediaBox")
    match l with
    | [a, b, c, d] => do
      let a ← boxPart s a
      let b ← boxPart s b
      let c ← boxPart s c
      let d ← boxPart s d
      pure (some ⟨a, b, c, d⟩)
    | _ => .error .throw

/-- The array of a rectangle, rectangle.cpp:7-12. -/
def Box.array (b : Box) : Obj := .arr [.int b.llx, .int b.lly, .int b.urx, .int b.ury]

/-- `PageObject::SetMediaBox`, page_object.cpp:60-67: the entry is removed, if there is one, and inserted. -/
def setPageBox (page : Dict) (b : Box) : Dict :=
  mapInsert (b! "MediaBox") b.array (if (mapFind (b! "MediaBox") page).isSome then mapErase (b! "MediaBox") page else page)

end VPdf
