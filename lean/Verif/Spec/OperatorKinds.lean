import Verif.Model.OperatorKinds
/-!
# The operators of ISO 32000-1

  The table of Annex A (Table A.1), in its alphabetical order.
-/
namespace VPdf.Spec
open VPdf

/-- ISO 32000-1, Table A.1: the operators and what they are for.  The names are those of the
interface; for `v` (initial point replicated) and `y` (final point replicated) they name the point that is free. -/
def isoOperators : List (Bytes × OperatorKind) :=
  [(b! "\"", .textNextLineShowSpacing), (b! "'", .textNextLineShow), (b! "b", .closeFillStrokeNonzero),
   (b! "B", .fillStrokeNonzero), (b! "b*", .closeFillStrokeEvenOdd), (b! "B*", .fillStrokeEvenOdd),
   (b! "BDC", .beginMarkedContentSequenceWithPropertyList), (b! "BI", .beginInlineImageObject),
   (b! "BMC", .beginMarkedContentSequence), (b! "BT", .beginText), (b! "BX", .beginCompatibilitySection),
   (b! "c", .fullCurve), (b! "cm", .transformationMatrix), (b! "cs", .setNonstrokingColorSpaceName),
   (b! "CS", .setStrokingColorSpaceName), (b! "d", .dashPattern), (b! "d0", .setCharWidth),
   (b! "d1", .setCacheDevice), (b! "Do", .invokeXObject), (b! "DP", .defineMarkedContentPointWithPropertyList),
   (b! "EI", .endInlineImageObject), (b! "EMC", .endMarkedContentSequence), (b! "ET", .endText),
   (b! "EX", .endCompatibilitySection), (b! "f", .fillPathNonzero), (b! "F", .fillPathCompatibility),
   (b! "f*", .fillPathEvenOdd), (b! "g", .setNonstrokingColorSpaceGray), (b! "G", .setStrokingColorSpaceGray),
   (b! "gs", .graphicsState), (b! "h", .closeSubpath), (b! "i", .flatness), (b! "ID", .beginInlineImageData),
   (b! "j", .lineJoin), (b! "J", .lineCap), (b! "k", .setNonstrokingColorSpaceCMYK),
   (b! "K", .setStrokingColorSpaceCMYK), (b! "l", .line), (b! "m", .beginSubpath), (b! "M", .miterLimit),
   (b! "MP", .defineMarkedContentPoint), (b! "n", .endPath), (b! "q", .saveGraphicsState),
   (b! "Q", .restoreGraphicsState), (b! "re", .rectangle), (b! "rg", .setNonstrokingColorSpaceRGB),
   (b! "RG", .setStrokingColorSpaceRGB), (b! "ri", .colorRenderingIntent), (b! "s", .closeAndStroke),
   (b! "S", .stroke), (b! "sc", .setNonstrokingColorSpaceDevice), (b! "SC", .setStrokingColorSpaceDevice),
   (b! "scn", .setNonstrokingColorSpaceDeviceExtended), (b! "SCN", .setStrokingColorSpaceDeviceExtended),
   (b! "sh", .shadingPaint), (b! "T*", .textNextLine), (b! "Tc", .characterSpacing), (b! "Td", .textTranslate),
   (b! "TD", .textTranslateLeading), (b! "Tf", .textFont), (b! "Tj", .textShow), (b! "TJ", .textShowArray),
   (b! "TL", .leading), (b! "Tm", .textMatrix), (b! "Tr", .textRenderingMode), (b! "Ts", .textRise),
   (b! "Tw", .wordSpacing), (b! "Tz", .horizontalScaling), (b! "v", .finalCurve), (b! "w", .lineWidth),
   (b! "W", .clipPathNonzero), (b! "W*", .clipPathEvenOdd), (b! "y", .initialCurve)]

/-- The kind of the operator with this text: that of the table, or unknown. -/
def isoKind (w : Bytes) : OperatorKind :=
  match isoOperators.find? (fun x => x.1 == w) with
  | some x => x.2
  | none => .unknown

/-- The operators of a list of instructions in the order in which they stand in the stream, without `BT` and `ET`. -/
def operatorsIn : List Instr → List Bytes
  | [] => []
  | .op o :: is => o.op :: operatorsIn is
  | .text ops :: is => ops.map (·.op) ++ operatorsIn is
  | .image _ _ :: is => operatorsIn is

/-- The operators for which the library has operations of their own. -/
def ownOperations : List Bytes := [b! "BT", b! "ET", b! "Tf", b! "Tj", b! "TJ", b! "BI", b! "ID", b! "EI"]

end VPdf.Spec
