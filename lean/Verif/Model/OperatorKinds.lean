import Verif.Model.Content
/-!
# Kinds of operators

  What the interface says about the operation of a content stream: its type, and the kind and the text of its operator.
  The three tables of the code (texts to tokens, tokens to operators, operators to texts) are modelled one by one.
-/
namespace VPdf

/-- `OperatorBase::Type`, content_stream_operator_base.h:14-92, without `Undefined`, which no operator has. -/
inductive OperatorKind where
  | unknown
  | lineWidth | lineCap | lineJoin | miterLimit | dashPattern | colorRenderingIntent | flatness | graphicsState
  | saveGraphicsState | restoreGraphicsState | transformationMatrix | beginSubpath | line | fullCurve
  | finalCurve | initialCurve | closeSubpath | rectangle | stroke | closeAndStroke | fillPathNonzero
  | fillPathCompatibility | fillPathEvenOdd | fillStrokeNonzero | fillStrokeEvenOdd | closeFillStrokeNonzero
  | closeFillStrokeEvenOdd | endPath | clipPathNonzero | clipPathEvenOdd | beginText | endText
  | characterSpacing | wordSpacing | horizontalScaling | leading | textFont | textRenderingMode | textRise
  | textTranslate | textTranslateLeading | textMatrix | textNextLine | textShow | textShowArray
  | textNextLineShow | textNextLineShowSpacing | setCharWidth | setCacheDevice | setStrokingColorSpaceName
  | setNonstrokingColorSpaceName | setStrokingColorSpaceDevice | setStrokingColorSpaceDeviceExtended
  | setNonstrokingColorSpaceDevice | setNonstrokingColorSpaceDeviceExtended | setStrokingColorSpaceGray
  | setNonstrokingColorSpaceGray | setStrokingColorSpaceRGB | setNonstrokingColorSpaceRGB
  | setStrokingColorSpaceCMYK | setNonstrokingColorSpaceCMYK | shadingPaint | beginInlineImageObject
  | beginInlineImageData | endInlineImageObject | invokeXObject | defineMarkedContentPoint
  | defineMarkedContentPointWithPropertyList | beginMarkedContentSequence
  | beginMarkedContentSequenceWithPropertyList | endMarkedContentSequence | beginCompatibilitySection
  | endCompatibilitySection
  deriving DecidableEq, Repr

/-- The tokens of content streams in `Token::Type`, token.h; every other token is `other`. -/
inductive ContentToken where
  | other
  | lineWidth | lineCap | lineJoin | miterLimit | dashPattern | colorRenderingIntent | flatness | graphicsState
  | saveGraphicsState | restoreGraphicState | transformationMatrix | beginSubpath | line | fullCurve
  | finalCurve | initialCurve | closeSubpath | rectangle | stroke | closeAndStroke | fillPathNonzero
  | fillPathCompatibility | fillPathEvenOdd | fillStrokeNonzero | fillStrokeEvenOdd | closeFillStrokeNonzero
  | closeFillStrokeEvenOdd | endPath | clipPathNonzero | clipPathEvenOdd | beginText | endText
  | characterSpacing | wordSpacing | horizontalScaling | leading | textFont | textRenderingMode | textRise
  | textTranslate | textTranslateLeading | textMatrix | textNextLine | textShow | textShowArray
  | textNextLineShow | textNextLineShowSpacing | setCharWidth | setCacheDevice | setStrokingColorSpaceName
  | setNonstrokingColorSpaceName | setStrokingColorSpaceDevice | setStrokingColorSpaceDeviceExtended
  | setNonstrokingColorSpaceDevice | setNonstrokingColorSpaceDeviceExtended | setStrokingColorSpaceGray
  | setNonstrokingColorSpaceGray | setStrokingColorSpaceRgb | setNonstrokingColorSpaceRgb
  | setStrokingColorSpaceCmyk | setNonstrokingColorSpaceCmyk | shadingPaint | beginInlineImageObject
  | beginInlineImageData | endInlineImageObject | invokeXObject | defineMarkedContentPoint
  | defineMarkedContentPointWithPropertyList | beginMarkedContentSequence
  | beginMarkedContentSequenceWithPropertyList | endMarkedContentSequence | beginCompatibilitySection
  | endCompatibilitySection
  deriving DecidableEq, Repr

/-- The texts of the tokens, token_dictionary.cpp:60-134, as entered by `ContentStreamTokenDictionary::Initialize`,
token_dictionary.cpp:224-305. -/
def contentTokenTable : List (Bytes × ContentToken) :=
  [(b! "w", .lineWidth), (b! "J", .lineCap), (b! "j", .lineJoin), (b! "M", .miterLimit), (b! "d", .dashPattern),
   (b! "ri", .colorRenderingIntent), (b! "i", .flatness), (b! "gs", .graphicsState),
   (b! "q", .saveGraphicsState), (b! "Q", .restoreGraphicState), (b! "cm", .transformationMatrix),
   (b! "m", .beginSubpath), (b! "l", .line), (b! "c", .fullCurve), (b! "v", .finalCurve),
   (b! "y", .initialCurve), (b! "h", .closeSubpath), (b! "re", .rectangle), (b! "S", .stroke),
   (b! "s", .closeAndStroke), (b! "f", .fillPathNonzero), (b! "F", .fillPathCompatibility),
   (b! "f*", .fillPathEvenOdd), (b! "B", .fillStrokeNonzero), (b! "B*", .fillStrokeEvenOdd),
   (b! "b", .closeFillStrokeNonzero), (b! "b*", .closeFillStrokeEvenOdd), (b! "n", .endPath),
   (b! "W", .clipPathNonzero), (b! "W*", .clipPathEvenOdd), (b! "BT", .beginText), (b! "ET", .endText),
   (b! "Tc", .characterSpacing), (b! "Tw", .wordSpacing), (b! "Tz", .horizontalScaling), (b! "TL", .leading),
   (b! "Tf", .textFont), (b! "Tr", .textRenderingMode), (b! "Ts", .textRise), (b! "Td", .textTranslate),
   (b! "TD", .textTranslateLeading), (b! "Tm", .textMatrix), (b! "T*", .textNextLine), (b! "Tj", .textShow),
   (b! "TJ", .textShowArray), (b! "'", .textNextLineShow), (b! "\"", .textNextLineShowSpacing),
   (b! "d0", .setCharWidth), (b! "d1", .setCacheDevice), (b! "CS", .setStrokingColorSpaceName),
   (b! "cs", .setNonstrokingColorSpaceName), (b! "SC", .setStrokingColorSpaceDevice),
   (b! "SCN", .setStrokingColorSpaceDeviceExtended), (b! "sc", .setNonstrokingColorSpaceDevice),
   (b! "scn", .setNonstrokingColorSpaceDeviceExtended), (b! "G", .setStrokingColorSpaceGray),
   (b! "g", .setNonstrokingColorSpaceGray), (b! "RG", .setStrokingColorSpaceRgb),
   (b! "rg", .setNonstrokingColorSpaceRgb), (b! "K", .setStrokingColorSpaceCmyk),
   (b! "k", .setNonstrokingColorSpaceCmyk), (b! "sh", .shadingPaint), (b! "BI", .beginInlineImageObject),
   (b! "ID", .beginInlineImageData), (b! "EI", .endInlineImageObject), (b! "Do", .invokeXObject),
   (b! "MP", .defineMarkedContentPoint), (b! "DP", .defineMarkedContentPointWithPropertyList),
   (b! "BMC", .beginMarkedContentSequence), (b! "BDC", .beginMarkedContentSequenceWithPropertyList),
   (b! "EMC", .endMarkedContentSequence), (b! "BX", .beginCompatibilitySection),
   (b! "EX", .endCompatibilitySection)]

/-- `TokenDictionaryBase::Find`, token_dictionary.cpp:150-156. -/
def contentToken (w : Bytes) : ContentToken := (contentTokenTable.lookup w).getD .other

/-- The texts of the operators, content_stream_operators.h:32-134 (`Value`). -/
def operatorText : OperatorKind → Bytes
  | .unknown => []
  | .lineWidth => b! "w"
  | .lineCap => b! "J"
  | .lineJoin => b! "j"
  | .miterLimit => b! "M"
  | .dashPattern => b! "d"
  | .colorRenderingIntent => b! "ri"
  | .flatness => b! "i"
  | .graphicsState => b! "gs"
  | .saveGraphicsState => b! "q"
  | .restoreGraphicsState => b! "Q"
  | .transformationMatrix => b! "cm"
  | .beginSubpath => b! "m"
  | .line => b! "l"
  | .fullCurve => b! "c"
  | .finalCurve => b! "v"
  | .initialCurve => b! "y"
  | .closeSubpath => b! "h"
  | .rectangle => b! "re"
  | .stroke => b! "S"
  | .closeAndStroke => b! "s"
  | .fillPathNonzero => b! "f"
  | .fillPathCompatibility => b! "F"
  | .fillPathEvenOdd => b! "f*"
  | .fillStrokeNonzero => b! "B"
  | .fillStrokeEvenOdd => b! "B*"
  | .closeFillStrokeNonzero => b! "b"
  | .closeFillStrokeEvenOdd => b! "b*"
  | .endPath => b! "n"
  | .clipPathNonzero => b! "W"
  | .clipPathEvenOdd => b! "W*"
  | .beginText => b! "BT"
  | .endText => b! "ET"
  | .characterSpacing => b! "Tc"
  | .wordSpacing => b! "Tw"
  | .horizontalScaling => b! "Tz"
  | .leading => b! "TL"
  | .textFont => b! "Tf"
  | .textRenderingMode => b! "Tr"
  | .textRise => b! "Ts"
  | .textTranslate => b! "Td"
  | .textTranslateLeading => b! "TD"
  | .textMatrix => b! "Tm"
  | .textNextLine => b! "T*"
  | .textShow => b! "Tj"
  | .textShowArray => b! "TJ"
  | .textNextLineShow => b! "'"
  | .textNextLineShowSpacing => b! "\""
  | .setCharWidth => b! "d0"
  | .setCacheDevice => b! "d1"
  | .setStrokingColorSpaceName => b! "CS"
  | .setNonstrokingColorSpaceName => b! "cs"
  | .setStrokingColorSpaceDevice => b! "SC"
  | .setStrokingColorSpaceDeviceExtended => b! "SCN"
  | .setNonstrokingColorSpaceDevice => b! "sc"
  | .setNonstrokingColorSpaceDeviceExtended => b! "scn"
  | .setStrokingColorSpaceGray => b! "G"
  | .setNonstrokingColorSpaceGray => b! "g"
  | .setStrokingColorSpaceRGB => b! "RG"
  | .setNonstrokingColorSpaceRGB => b! "rg"
  | .setStrokingColorSpaceCMYK => b! "K"
  | .setNonstrokingColorSpaceCMYK => b! "k"
  | .shadingPaint => b! "sh"
  | .beginInlineImageObject => b! "BI"
  | .beginInlineImageData => b! "ID"
  | .endInlineImageObject => b! "EI"
  | .invokeXObject => b! "Do"
  | .defineMarkedContentPoint => b! "MP"
  | .defineMarkedContentPointWithPropertyList => b! "DP"
  | .beginMarkedContentSequence => b! "BMC"
  | .beginMarkedContentSequenceWithPropertyList => b! "BDC"
  | .endMarkedContentSequence => b! "EMC"
  | .beginCompatibilitySection => b! "BX"
  | .endCompatibilitySection => b! "EX"

/-- An operator, content_stream_operators.h:11-30: its kind and what `Value` returns. -/
structure Operator where
  kind : OperatorKind
  value : Bytes
  deriving DecidableEq, Repr

/-- An object of a class made by `GENERIC_OPERATOR_DEFINITION`, content_stream_operators.h:24-30. -/
def knownOperator (k : OperatorKind) : Operator := ⟨k, operatorText k⟩

/-- The classes of operations the parser makes, content_stream_operations.h and content_stream_operation_generic.h.
The operands are not repeated here: see `COp`. -/
inductive MadeOperation where
  | generic (o : Operator)
  | beginText | endText | textFont | textShow | textShowArray
  | beginInlineImageObject | beginInlineImageData | endInlineImageObject
  deriving DecidableEq, Repr

/-- The switch of `ContentStreamParser::ReadOperatorReturnOperation`, content_stream_parser.cpp:222-377, by the token
and its text. -/
def operationOf (t : ContentToken) (w : Bytes) : MadeOperation :=
  match t with
  | .lineWidth => .generic (knownOperator .lineWidth)
  | .lineCap => .generic (knownOperator .lineCap)
  | .lineJoin => .generic (knownOperator .lineJoin)
  | .miterLimit => .generic (knownOperator .miterLimit)
  | .dashPattern => .generic (knownOperator .dashPattern)
  | .colorRenderingIntent => .generic (knownOperator .colorRenderingIntent)
  | .flatness => .generic (knownOperator .flatness)
  | .graphicsState => .generic (knownOperator .graphicsState)
  | .saveGraphicsState => .generic (knownOperator .saveGraphicsState)
  | .restoreGraphicState => .generic (knownOperator .restoreGraphicsState)
  | .transformationMatrix => .generic (knownOperator .transformationMatrix)
  | .beginSubpath => .generic (knownOperator .beginSubpath)
  | .line => .generic (knownOperator .line)
  | .fullCurve => .generic (knownOperator .fullCurve)
  | .finalCurve => .generic (knownOperator .finalCurve)
  | .initialCurve => .generic (knownOperator .initialCurve)
  | .closeSubpath => .generic (knownOperator .closeSubpath)
  | .rectangle => .generic (knownOperator .rectangle)
  | .stroke => .generic (knownOperator .stroke)
  | .closeAndStroke => .generic (knownOperator .closeAndStroke)
  | .fillPathNonzero => .generic (knownOperator .fillPathNonzero)
  | .fillPathCompatibility => .generic (knownOperator .fillPathCompatibility)
  | .fillPathEvenOdd => .generic (knownOperator .fillPathEvenOdd)
  | .fillStrokeNonzero => .generic (knownOperator .fillStrokeNonzero)
  | .fillStrokeEvenOdd => .generic (knownOperator .fillStrokeEvenOdd)
  | .closeFillStrokeNonzero => .generic (knownOperator .closeFillStrokeNonzero)
  | .closeFillStrokeEvenOdd => .generic (knownOperator .closeFillStrokeEvenOdd)
  | .endPath => .generic (knownOperator .endPath)
  | .clipPathNonzero => .generic (knownOperator .clipPathNonzero)
  | .clipPathEvenOdd => .generic (knownOperator .clipPathEvenOdd)
  | .beginText => .beginText
  | .endText => .endText
  | .characterSpacing => .generic (knownOperator .characterSpacing)
  | .wordSpacing => .generic (knownOperator .wordSpacing)
  | .horizontalScaling => .generic (knownOperator .horizontalScaling)
  | .leading => .generic (knownOperator .leading)
  | .textFont => .textFont
  | .textRenderingMode => .generic (knownOperator .textRenderingMode)
  | .textRise => .generic (knownOperator .textRise)
  | .textTranslate => .generic (knownOperator .textTranslate)
  | .textTranslateLeading => .generic (knownOperator .textTranslateLeading)
  | .textMatrix => .generic (knownOperator .textMatrix)
  | .textNextLine => .generic (knownOperator .textNextLine)
  | .textShow => .textShow
  | .textShowArray => .textShowArray
  | .textNextLineShow => .generic (knownOperator .textNextLineShow)
  | .textNextLineShowSpacing => .generic (knownOperator .textNextLineShowSpacing)
  | .setCharWidth => .generic (knownOperator .setCharWidth)
  | .setCacheDevice => .generic (knownOperator .setCacheDevice)
  | .setStrokingColorSpaceName => .generic (knownOperator .setStrokingColorSpaceName)
  | .setNonstrokingColorSpaceName => .generic (knownOperator .setNonstrokingColorSpaceName)
  | .setStrokingColorSpaceDevice => .generic (knownOperator .setStrokingColorSpaceDevice)
  | .setStrokingColorSpaceDeviceExtended => .generic (knownOperator .setStrokingColorSpaceDeviceExtended)
  | .setNonstrokingColorSpaceDevice => .generic (knownOperator .setNonstrokingColorSpaceDevice)
  | .setNonstrokingColorSpaceDeviceExtended => .generic (knownOperator .setNonstrokingColorSpaceDeviceExtended)
  | .setStrokingColorSpaceGray => .generic (knownOperator .setStrokingColorSpaceGray)
  | .setNonstrokingColorSpaceGray => .generic (knownOperator .setNonstrokingColorSpaceGray)
  | .setStrokingColorSpaceRgb => .generic (knownOperator .setStrokingColorSpaceRGB)
  | .setNonstrokingColorSpaceRgb => .generic (knownOperator .setNonstrokingColorSpaceRGB)
  | .setStrokingColorSpaceCmyk => .generic (knownOperator .setStrokingColorSpaceCMYK)
  | .setNonstrokingColorSpaceCmyk => .generic (knownOperator .setNonstrokingColorSpaceCMYK)
  | .shadingPaint => .generic (knownOperator .shadingPaint)
  | .beginInlineImageObject => .beginInlineImageObject
  | .beginInlineImageData => .beginInlineImageData
  | .endInlineImageObject => .endInlineImageObject
  | .invokeXObject => .generic (knownOperator .invokeXObject)
  | .defineMarkedContentPoint => .generic (knownOperator .defineMarkedContentPoint)
  | .defineMarkedContentPointWithPropertyList => .generic (knownOperator .defineMarkedContentPointWithPropertyList)
  | .beginMarkedContentSequence => .generic (knownOperator .beginMarkedContentSequence)
  | .beginMarkedContentSequenceWithPropertyList => .generic (knownOperator .beginMarkedContentSequenceWithPropertyList)
  | .endMarkedContentSequence => .generic (knownOperator .endMarkedContentSequence)
  | .beginCompatibilitySection => .generic (knownOperator .beginCompatibilitySection)
  | .endCompatibilitySection => .generic (knownOperator .endCompatibilitySection)
  | .other => .generic ⟨.unknown, w⟩

/-- The operation made for the text of an operator, content_stream_parser.cpp:222-377. -/
def operationMade (w : Bytes) : MadeOperation := operationOf (contentToken w) w

/-- The types of operations `ContentOperation_GetOperationType` (c_content_operation.cpp:13-173) can report for
what the parser makes; `named` stands for the types it has besides, one for each other kind of operator. -/
inductive OperationType where
  | generic
  | named (k : OperatorKind)
  deriving DecidableEq, Repr

/-- `GetOperationType` of the classes, content_stream_operations.h and content_stream_operation_generic.h. -/
def MadeOperation.type : MadeOperation → OperationType
  | .generic _ => .generic
  | .beginText => .named .beginText
  | .endText => .named .endText
  | .textFont => .named .textFont
  | .textShow => .named .textShow
  | .textShowArray => .named .textShowArray
  | .beginInlineImageObject => .named .beginInlineImageObject
  | .beginInlineImageData => .named .beginInlineImageData
  | .endInlineImageObject => .named .endInlineImageObject

/-- `ContentOperationGeneric_GetOperator`, c_content_operation.cpp: only a generic operation has an operator. -/
def MadeOperation.operator : MadeOperation → Option Operator
  | .generic o => some o
  | _ => none

/-- What a program sees of an operation through c_content_operation.cpp and c_content_operator.cpp: the type if it is
not generic, else the type of the operator (`ContentOperator_GetOperatorType`, c_content_operator.cpp:11-170). -/
def shownKind (o : COp) : OperatorKind :=
  match (operationMade o.op).type, (operationMade o.op).operator with
  | .named k, _ => k
  | .generic, some p => p.kind
  | .generic, none => .unknown

/-- `ContentOperator_GetValue`, c_content_operator.cpp:173-184, for operations that have an operator. -/
def shownValue (o : COp) : Option Bytes := (operationMade o.op).operator.map (·.value)

/-- The operations of an instruction, c_content_object.cpp (`ContentObjectText_GetOperationAt`): those of a text object
in their order.  An inline image shows none. -/
def instrOps : Instr → List COp
  | .op o => [o]
  | .text ops => ops
  | .image _ _ => []

/-- The kinds a program meets that goes through all instructions, c_content_parser.cpp and c_content_object.cpp. -/
def shownKinds (is : List Instr) : List OperatorKind := (is.flatMap instrOps).map shownKind

end VPdf
