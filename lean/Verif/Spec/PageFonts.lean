import Verif.Model.PageFonts
import Verif.Spec.FormFields
/-
  Resources, fonts and extensions (ISO 32000-1, 7.7.3.4, 7.8.3, 9.5, 9.10.3 and 7.12).
-/
namespace VPdf.Spec

/-- The resources of a page: its own, or those of the node above it (table 30: the entry is inheritable). -/
inductive HasResources (s : PStore) : Dict → Dict → Prop where
  | own (page r : Dict) : HasEntry s page (b! "Resources") (.dict r) → HasResources s page r
  | inherited (page parent r : Dict) : Absent page (b! "Resources") → HasEntry s page (b! "Parent") (.dict parent) →
      HasResources s parent r → HasResources s page r

/-- The names of the kinds of fonts, table 110. -/
inductive FontName : Bytes → FontKind → Prop where
  | type0 : FontName (b! "Type0") .type0
  | type1 : FontName (b! "Type1") .type1
  | mmType1 : FontName (b! "MMType1") .mmType1
  | type3 : FontName (b! "Type3") .type3
  | trueType : FontName (b! "TrueType") .trueType
  | cidType0 : FontName (b! "CIDFontType0") .cidType0
  | cidType2 : FontName (b! "CIDFontType2") .cidType2

/-- The dictionary is a font of this kind; the type may be left out. -/
def IsFont (s : PStore) (d : Dict) (k : FontKind) : Prop :=
  (Absent d (b! "Type") ∨ HasEntry s d (b! "Type") (.name (b! "Font"))) ∧
  ∃ n, HasEntry s d (b! "Subtype") (.name n) ∧ FontName n k

/-- The value is the dictionary of an extension; the type may be left out. -/
def IsExtension (s : PStore) (o : Obj) (d : Dict) : Prop :=
  Refers s o (.dict d) ∧ (Absent d (b! "Type") ∨ HasEntry s d (b! "Type") (.name (b! "DeveloperExtensions")))

end VPdf.Spec
