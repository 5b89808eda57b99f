import Verif.Model.Destinations
/-
  The annotations of a page and the destinations of links: src/vanillapdf/semantics/objects/annotations.cpp:38-280, and
  PageObject::GetAnnotations (src/vanillapdf/semantics/objects/page_object.cpp:69-78).

  As in Model/PageTree.lean, one reference is followed where the code follows any number of them.
  The document of a link is found in the table of Model/Registry.lean; here it is given by its catalog, or there is none.
-/
namespace VPdf

/-- `AnnotationBase::Type`, annotations.h; c_annotations.cpp:18-69 passes it on. -/
inductive AnnotKind where
  | text | link | freeText | line | square | circle | polygon | polyLine | highlight | underline | squiggly | strikeOut
  | rubberStamp | caret | ink | popup | fileAttachment | sound | movie | widget | screen | printerMark | trapNetwork
  | watermark | tripleD | redaction
  deriving DecidableEq, Repr

/-- The comparisons of the subtype, annotations.cpp:82-183, in their order.  The text of a name constant is its identifier
(name_constants.cpp:30-33). -/
def annotationNames : List (Bytes × AnnotKind) :=
  [(b! "Text", .text), (b! "Link", .link), (b! "FreeText", .freeText), (b! "Line", .line), (b! "Square", .square),
   (b! "Circle", .circle), (b! "Polygon", .polygon), (b! "PolyLine", .polyLine), (b! "Highlight", .highlight),
   (b! "Underline", .underline), (b! "Squiggly", .squiggly), (b! "StrikeOut", .strikeOut), (b! "RubberStamp", .rubberStamp),
   (b! "Caret", .caret), (b! "Ink", .ink), (b! "Popup", .popup), (b! "FileAttachment", .fileAttachment), (b! "Sound", .sound),
   (b! "Movie", .movie), (b! "Widget", .widget), (b! "Screen", .screen), (b! "PrinterMark", .printerMark),
   (b! "TrapNetwork", .trapNetwork), (b! "Watermark", .watermark), (b! "TripleD", .tripleD), (b! "Redact", .redaction)]

/-- The first entry with the name: the sequence of tests in annotations.cpp:82-183. -/
def firstNamed {α : Type} (n : Bytes) : List (Bytes × α) → Option α
  | [] => none
  | (m, k) :: rest => if n = m then some k else firstNamed n rest

/-- The test of the type, annotations.cpp:51-64. -/
def annotationTyped (s : PStore) (d : Dict) : Bool :=
  match mapFind (b! "Type") d with
  | none => true
  | some o =>
    match derefOne s o with
    | .name n => n = b! "Annot"
    | _ => false

/-- `AnnotationBase::Create`, annotations.cpp:50-186. -/
def annotationKind (s : PStore) (d : Dict) : Res AnnotKind :=
  if annotationTyped s d then
    match mapFind (b! "Subtype") d with
    | none => .error .throw
    | some o =>
      match derefOne s o with
      | .name n =>
        match firstNamed n annotationNames with
        | some k => .ok k
        | none => .error .throw
      | _ => .error .throw
  else .error .throw

/-- `PageObject::GetAnnotations`, page_object.cpp:69-78: `none` if the page has no entry. -/
def pageAnnotations (s : PStore) (page : Dict) : Res (Option (List Obj)) :=
  match mapFind (b! "Annots") page with
  | none => .ok none
  | some _ => do
    let l ← treeArray s page (b! "Annots")
    pure (some l)

/-- `PageAnnotations::At`, annotations.cpp:43-48: the dictionary of the annotation and its kind. -/
def annotationAt (s : PStore) (l : List Obj) (i : Nat) : Res (Dict × AnnotKind) :=
  match l[i]? with
  | none => .error .throw
  | some o =>
    match derefOne s o with
    | .dict d => do
      let k ← annotationKind s d
      pure (d, k)
    | _ => .error .conversion

/-- `FindAs` of a dictionary after `Contains`, catalog.cpp:111-131, name_dictionary.cpp:12-22. -/
def dictEntry (s : PStore) (d : Dict) (k : Bytes) : Res (Option Dict) :=
  match mapFind k d with
  | none => .ok none
  | some _ => do
    match ← treeEntry s d k with
    | .dict x => pure (some x)
    | _ => .error .conversion

/-- The destination a string names, annotations.cpp:215-239, with `NameDictionary::DestinationConversionFunction`
(name_dictionary.cpp:24-28). -/
def stringDestination (f : Nat) (s : PStore) (catalog : Dict) (k : Bytes) : Res (Option (Obj × Bytes)) := do
  match ← dictEntry s catalog (b! "Names") with
  | none => pure none
  | some names =>
    match ← dictEntry s names (b! "Dests") with
    | none => pure none
    | some root =>
      if ← NameTree.contains f ⟨s, root, none⟩ k then do
        let v ← NameTree.find f ⟨s, root, none⟩ k
        let r ← createDestination s (derefOne s v)
        pure (some r)
      else pure none

/-- The destination a name names, annotations.cpp:254-275. -/
def nameDestination (s : PStore) (catalog : Dict) (k : Bytes) : Res (Option (Obj × Bytes)) := do
  match ← dictEntry s catalog (b! "Dests") with
  | none => pure none
  | some dests =>
    if (mapFind k dests).isSome then do
      let r ← findDestination s dests k
      pure (some r)
    else pure none

/-- `LinkAnnotation::Destination`, annotations.cpp:188-280: the page item and the kind of the view, or that there is none. -/
def linkDestination (f : Nat) (s : PStore) (catalog : Option Dict) (d : Dict) : Res (Option (Obj × Bytes)) :=
  match mapFind (b! "Dest") d with
  | none => .ok none
  | some o =>
    match derefOne s o with
    | .arr l => do
      let r ← createDestination s (.arr l)
      pure (some r)
    | .dict x => do
      let r ← createDestination s (.dict x)
      pure (some r)
    | .lit k =>
      match catalog with
      | none => .ok none
      | some c => stringDestination f s c k
    | .hex k =>
      match catalog with
      | none => .ok none
      | some c => stringDestination f s c k
    | .name k =>
      match catalog with
      | none => .ok none
      | some c => nameDestination s c k
    | _ => .error .throw

end VPdf
