import Verif.Model.ViewSettings
/-
  Outlines: src/vanillapdf/semantics/objects/outline.cpp, outline.h, implementation/semantics/c_outline.cpp,
  src/vanillapdf/semantics/objects/catalog.cpp:169-178.

  As in Model/PageTree.lean, one reference is followed where the code follows any number of them.
-/
namespace VPdf

/-- What a client has: the dictionary, and whether the object is an `OutlineItem` or an `Outline` (`GetOutlineType`,
outline.h:92-98, `OutlineBase_GetOutlineType`, c_outline.cpp:11-28). -/
structure OutlineHandle where
  dict : Dict
  item : Bool

/-- The ways from one object to another: `First`, `Last`, `Next`, `Prev`, `Parent`, outline.cpp:28-120. -/
inductive OutlineStep where
  | first | last | next | prev | parent
  deriving DecidableEq, Repr

/-- `FindAs` of a dictionary after `Contains`, and the new `OutlineItem`, for example outline.cpp:33-41. -/
def outlineItem (s : PStore) (d : Dict) (k : Bytes) : Res (Option OutlineHandle) := do
  match ← dictEntry s d k with
  | none => pure none
  | some x => pure (some ⟨x, true⟩)

/-- One step, outline.cpp:28-120.  `Next`, `Prev` and `Parent` need an item: the conversion of another object
(`OutlineItem_FromOutlineBase`, c_outline.cpp) fails. -/
def outlineMove (s : PStore) (h : OutlineHandle) : OutlineStep → Res (Option OutlineHandle)
  | .first => outlineItem s h.dict (b! "First")
  | .last => outlineItem s h.dict (b! "Last")
  | .next => if h.item then outlineItem s h.dict (b! "Next") else .error .conversion
  | .prev => if h.item then outlineItem s h.dict (b! "Prev") else .error .conversion
  | .parent =>
    if h.item then do
      match ← treeEntry s h.dict (b! "Parent") with
      | .dict x => pure (some ⟨x, false⟩)
      | _ => .error .conversion
    else .error .conversion

/-- A client that goes on from what it found, and stays where it is when there is nothing: calls of outline.cpp:28-120 one after the
other, with their answers. -/
def outlineWalk (s : PStore) (h : OutlineHandle) : List OutlineStep → Res (OutlineHandle × List Bool)
  | [] => pure (h, [])
  | x :: xs => do
    match ← outlineMove s h x with
    | some h' => do
      let (e, bs) ← outlineWalk s h' xs
      pure (e, true :: bs)
    | none => do
      let (e, bs) ← outlineWalk s h xs
      pure (e, false :: bs)

/-- `Catalog::Outlines`, catalog.cpp:169-178. -/
def catalogOutlines (s : PStore) (catalog : Dict) : Res (Option OutlineHandle) := do
  match ← dictEntry s catalog (b! "Outlines") with
  | none => pure none
  | some x => pure (some ⟨x, false⟩)

/-- `OutlineItem::Title`, outline.cpp:24-26. -/
def outlineTitle (s : PStore) (h : OutlineHandle) : Res Bytes := do
  match ← treeEntry s h.dict (b! "Title") with
  | .lit t => pure t
  | .hex t => pure t
  | _ => .error .conversion

/-- `OutlineItem::Flags` with `Italic` and `Bold`, outline.cpp:93-101, 132-133.  The integer is that of 64 bits; the two lowest bits
are those of the number.  Simplification: real numbers fail. -/
def outlineFlags (s : PStore) (h : OutlineHandle) : Res (Option (Bool × Bool)) :=
  match mapFind (b! "F") h.dict with
  | none => .ok none
  | some _ => do
    match ← treeEntry s h.dict (b! "F") with
    | .int n => pure (some (decide (n % 2 ≠ 0), decide (n / 2 % 2 ≠ 0)))
    | _ => .error .conversion

/-- An item of the array as a real number, array_object.h, object_utils.h:100-123: an integer or a real number. -/
def colorPart (s : PStore) (o : Obj) : Res Obj :=
  match derefOne s o with
  | .int n => .ok (.int n)
  | .real m p => .ok (.real m p)
  | _ => .error .conversion

/-- `OutlineItem::Color` with `Red`, `Green` and `Blue`, outline.cpp:17-22, 83-91, 128-130. -/
def outlineColor (s : PStore) (h : OutlineHandle) : Res (Option (Obj × Obj × Obj)) :=
  match mapFind (b! "C") h.dict with
  | none => .ok none
  | some _ => do
    match ← treeArray s h.dict (b! "C") with
    | [r, g, b] => do
      let r ← colorPart s r
      let g ← colorPart s g
      let b ← colorPart s b
      pure (some (r, g, b))
    | _ => .error .throw

end VPdf
