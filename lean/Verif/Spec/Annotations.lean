import Verif.Model.Annotations
import Verif.Spec.Destinations
import Verif.Spec.NameTree
/-
  The kinds of annotations (ISO 32000-1, table 169, and ISO 32000-2, table 171, for Redact) and where a link leads
  (ISO 32000-1, 12.3.2.3, 12.5.6.5, 7.7.4).  Only data types are taken from the model.
-/
namespace VPdf.Spec

/-- The names of the standard and the kinds they stand for. -/
def isoAnnotations : List (Bytes × AnnotKind) :=
  [(b! "Text", .text), (b! "Link", .link), (b! "FreeText", .freeText), (b! "Line", .line), (b! "Square", .square),
   (b! "Circle", .circle), (b! "Polygon", .polygon), (b! "PolyLine", .polyLine), (b! "Highlight", .highlight),
   (b! "Underline", .underline), (b! "Squiggly", .squiggly), (b! "StrikeOut", .strikeOut), (b! "Stamp", .rubberStamp),
   (b! "Caret", .caret), (b! "Ink", .ink), (b! "Popup", .popup), (b! "FileAttachment", .fileAttachment), (b! "Sound", .sound),
   (b! "Movie", .movie), (b! "Widget", .widget), (b! "Screen", .screen), (b! "PrinterMark", .printerMark),
   (b! "TrapNet", .trapNetwork), (b! "Watermark", .watermark), (b! "3D", .tripleD), (b! "Redact", .redaction)]

/-- The dictionary is an annotation whose subtype has the name. -/
def IsAnnotation (s : PStore) (d : Dict) (name : Bytes) : Prop :=
  (Absent d (b! "Type") ∨ HasEntry s d (b! "Type") (.name (b! "Annot"))) ∧ HasEntry s d (b! "Subtype") (.name name)

/-- The string leads to the value in the tree of destinations of a catalog. -/
def StringNames (s : PStore) (catalog : Dict) (k : Bytes) (v : Obj) : Prop :=
  ∃ names root, HasEntry s catalog (b! "Names") (.dict names) ∧ HasEntry s names (b! "Dests") (.dict root) ∧ NameRoot s root ∧
    UniqueKeys s root ∧ TreeEntry s root k v

/-- The name leads to the value in the dictionary of destinations of a catalog. -/
def NameNames (s : PStore) (catalog : Dict) (k : Bytes) (v : Obj) : Prop :=
  ∃ dests, HasEntry s catalog (b! "Dests") (.dict dests) ∧ valueAt k dests = some v

/-- Where a link leads in a document with the objects `s`: its destination stands in it, or a string or a name does that leads to
the destination. -/
inductive LinkLeads (s : DocObjects) (catalog : Dict) (d : Dict) (page : ObjRef) (view : List Obj) : Prop where
  | here (o : Obj) : valueAt (b! "Dest") d = some o → DestShows s o page view → LinkLeads s catalog d page view
  | string (o v : Obj) (k : Bytes) : valueAt (b! "Dest") d = some o → IsString (pageView s) o k →
      StringNames (pageView s) catalog k v → DestShows s v page view → LinkLeads s catalog d page view
  | name (k : Bytes) (v : Obj) : HasEntry (pageView s) d (b! "Dest") (.name k) → NameNames (pageView s) catalog k v →
      DestShows s v page view → LinkLeads s catalog d page view

end VPdf.Spec
