import Verif.Model.ViewSettings
import Verif.Spec.NameTree
/-
  The values of the standard (ISO 32000-1, tables 28 and 150) and the ranges of pages to print.  Only data types are taken from the
  model.
-/
namespace VPdf.Spec

/-- The entry has the value, written with the name. -/
inductive Chosen : ViewEntry → Bytes → ViewValue → Prop where
  | singlePage : Chosen .pageLayout (b! "SinglePage") .singlePage
  | oneColumn : Chosen .pageLayout (b! "OneColumn") .oneColumn
  | twoColumnLeft : Chosen .pageLayout (b! "TwoColumnLeft") .twoColumnLeft
  | twoColumnRight : Chosen .pageLayout (b! "TwoColumnRight") .twoColumnRight
  | twoPageLeft : Chosen .pageLayout (b! "TwoPageLeft") .twoPageLeft
  | twoPageRight : Chosen .pageLayout (b! "TwoPageRight") .twoPageRight
  | useNone : Chosen .pageMode (b! "UseNone") .useNone
  | useOutlines : Chosen .pageMode (b! "UseOutlines") .useOutlines
  | useThumbs : Chosen .pageMode (b! "UseThumbs") .useThumbs
  | fullScreen : Chosen .pageMode (b! "FullScreen") .fullScreen
  | useOC : Chosen .pageMode (b! "UseOC") .useOC
  | useAttachments : Chosen .pageMode (b! "UseAttachments") .useAttachments
  | laterNone : Chosen .nonFullScreenPageMode (b! "UseNone") .useNone
  | laterOutlines : Chosen .nonFullScreenPageMode (b! "UseOutlines") .useOutlines
  | laterThumbs : Chosen .nonFullScreenPageMode (b! "UseThumbs") .useThumbs
  | laterOC : Chosen .nonFullScreenPageMode (b! "UseOC") .useOC
  | leftToRight : Chosen .direction (b! "L2R") .leftToRight
  | rightToLeft : Chosen .direction (b! "R2L") .rightToLeft
  | appDefault : Chosen .printScaling (b! "AppDefault") .appDefault
  | noScaling : Chosen .printScaling (b! "None") .noScaling
  | simplex : Chosen .duplex (b! "Simplex") .simplex
  | shortEdge : Chosen .duplex (b! "DuplexFlipShortEdge") .flipShortEdge
  | longEdge : Chosen .duplex (b! "DuplexFlipLongEdge") .flipLongEdge

/-- The name of an entry in a file. -/
def entryName : ViewEntry → Bytes
  | .pageLayout => b! "PageLayout"
  | .pageMode => b! "PageMode"
  | .nonFullScreenPageMode => b! "NonFullScreenPageMode"
  | .direction => b! "Direction"
  | .printScaling => b! "PrintScaling"
  | .duplex => b! "Duplex"

/-- The versions of the format, with their names. -/
def versionNames : List (Bytes × (Nat × Nat)) :=
  [(b! "1.0", (1, 0)), (b! "1.1", (1, 1)), (b! "1.2", (1, 2)), (b! "1.3", (1, 3)), (b! "1.4", (1, 4)), (b! "1.5", (1, 5)),
   (b! "1.6", (1, 6)), (b! "1.7", (1, 7)), (b! "2.0", (2, 0))]

/-- The array with the first and the last page of each range, one range after the other. -/
def rangesArray : List (Int × Int) → List Obj
  | [] => []
  | (a, b) :: rest => .int a :: .int b :: rangesArray rest

/-- Ranges that do not overlap, in ascending order. -/
def RangesAscend : Int → List (Int × Int) → Prop
  | _, [] => True
  | n, (a, b) :: rest => n < a ∧ a ≤ b ∧ RangesAscend b rest

end VPdf.Spec
