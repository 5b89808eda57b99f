import Verif.Model.Interface
/-
  The functions of the C interface, made from src/vanillapdf/implementation by a script that is not part of the model.  For
  every function: its parameters, the null checks, the conversions of handles, and the blocks of its body with the parameters
  they use and the classes these are cast to, and the class of the object that is handed out (the declared type; for
  `File_AllocateNewEntry` and `DictionaryObject_Create` the class that is made).  The numbers before an entry are the lines of the function in the file.
-/
namespace VPdf

/-- src/vanillapdf/implementation/contents/c_base_font_range.cpp. -/
def baseFontRangeFunctions : List ApiFunction := [
  -- 11-20
  ⟨"BaseFontRange_Create", [.result .BaseFontRange],
    [.check 0, .work true [(0, none)], .hand 0 .BaseFontRange]⟩,
  -- 22-33
  ⟨"BaseFontRange_GetRangeLow", [.handle .BaseFontRange, .result .HexadecimalStringObject],
    [.check 0, .check 1, .work true [(1, none), (0, some .BaseFontRange)], .hand 1 .HexadecimalStringObject]⟩,
  -- 35-46
  ⟨"BaseFontRange_SetRangeLow", [.handle .BaseFontRange, .handle .HexadecimalStringObject],
    [.check 0, .check 1, .work true [(0, some .BaseFontRange), (1, some .HexadecimalStringObject)]]⟩,
  -- 48-59
  ⟨"BaseFontRange_GetRangeHigh", [.handle .BaseFontRange, .result .HexadecimalStringObject],
    [.check 0, .check 1, .work true [(1, none), (0, some .BaseFontRange)], .hand 1 .HexadecimalStringObject]⟩,
  -- 61-72
  ⟨"BaseFontRange_SetRangeHigh", [.handle .BaseFontRange, .handle .HexadecimalStringObject],
    [.check 0, .check 1, .work true [(0, some .BaseFontRange), (1, some .HexadecimalStringObject)]]⟩,
  -- 74-85
  ⟨"BaseFontRange_GetDestination", [.handle .BaseFontRange, .result .Object],
    [.check 0, .check 1, .work true [(1, none), (0, some .BaseFontRange)], .hand 1 .Object]⟩,
  -- 87-98
  ⟨"BaseFontRange_SetDestination", [.handle .BaseFontRange, .handle .Object],
    [.check 0, .check 1, .work true [(0, some .BaseFontRange), (1, some .Object)]]⟩,
  -- 100-112
  ⟨"BaseFontRange_Contains", [.handle .BaseFontRange, .handle .Buffer, .memory],
    [.check 0, .check 1, .check 2, .work true [(2, none), (0, some .BaseFontRange), (1, some .Buffer)]]⟩,
  -- 114-128
  ⟨"BaseFontRange_GetMappedValue", [.handle .BaseFontRange, .handle .Buffer, .result .Buffer],
    [.check 0, .check 1, .check 2, .work true [(2, none), (0, some .BaseFontRange), (1, some .Buffer)], .hand 2 .Buffer]⟩,
  -- 130-132
  ⟨"BaseFontRange_ToUnknown", [.handle .BaseFontRange, .result .IUnknown],
    [.convert 0 1 .BaseFontRange .IUnknown]⟩,
  -- 134-136
  ⟨"BaseFontRange_FromUnknown", [.handle .IUnknown, .result .BaseFontRange],
    [.convert 0 1 .IUnknown .BaseFontRange]⟩,
  -- 138-140
  ⟨"BaseFontRange_Release", [.handle .BaseFontRange],
    [.release 0 .BaseFontRange]⟩]

/-- src/vanillapdf/implementation/contents/c_content_instruction.cpp. -/
def contentInstructionFunctions : List ApiFunction := [
  -- 13-28
  ⟨"ContentInstruction_GetInstructionType", [.handle .ContentInstruction, .memory],
    [.check 0, .check 1, .work false [(1, none), (0, some .InstructionBase)]]⟩,
  -- 30-32
  ⟨"ContentInstruction_ToOperation", [.handle .ContentInstruction, .result .ContentOperation],
    [.convert 0 1 .InstructionBase .OperationBase]⟩,
  -- 34-36
  ⟨"ContentInstruction_ToUnknown", [.handle .ContentInstruction, .result .IUnknown],
    [.convert 0 1 .InstructionBase .IUnknown]⟩,
  -- 38-40
  ⟨"ContentInstruction_FromUnknown", [.handle .IUnknown, .result .ContentInstruction],
    [.convert 0 1 .IUnknown .InstructionBase]⟩,
  -- 42-44
  ⟨"ContentInstruction_Release", [.handle .ContentInstruction],
    [.release 0 .InstructionBase]⟩,
  -- 48-58
  ⟨"ContentInstructionCollection_GetSize", [.handle .ContentInstructionCollection, .memory],
    [.check 0, .check 1, .work true [(1, none), (0, some .BaseInstructionCollection)]]⟩,
  -- 60-72
  ⟨"ContentInstructionCollection_At", [.handle .ContentInstructionCollection, .value, .result .ContentInstruction],
    [.check 0, .check 2, .work true [(2, none), (0, some .BaseInstructionCollection)], .hand 2 .InstructionBase]⟩,
  -- 74-86
  ⟨"ContentInstructionCollection_Append", [.handle .ContentInstructionCollection, .handle .ContentInstruction],
    [.check 0, .check 1, .work true [(0, some .BaseInstructionCollection), (1, some .InstructionBase)]]⟩,
  -- 88-101
  ⟨"ContentInstructionCollection_Insert", [.handle .ContentInstructionCollection, .value, .handle .ContentInstruction],
    [.check 0, .check 2, .work true [(0, some .BaseInstructionCollection), (2, some .InstructionBase)]]⟩,
  -- 103-109
  ⟨"ContentInstructionCollection_Remove", [.handle .ContentInstructionCollection, .value],
    [.check 0, .work false [(0, some .BaseInstructionCollection)]]⟩,
  -- 111-117
  ⟨"ContentInstructionCollection_Clear", [.handle .ContentInstructionCollection],
    [.check 0, .work false [(0, some .BaseInstructionCollection)]]⟩,
  -- 119-131
  ⟨"ContentInstructionCollection_GetIterator", [.handle .ContentInstructionCollection, .result .ContentInstructionCollectionIterator],
    [.check 0, .check 1, .work true [(1, none), (0, some .BaseInstructionCollection)], .hand 1 .BaseInstructionCollection_Iterator]⟩,
  -- 133-135
  ⟨"ContentInstructionCollection_ToUnknown", [.handle .ContentInstructionCollection, .result .IUnknown],
    [.convert 0 1 .BaseInstructionCollection .IUnknown]⟩,
  -- 137-139
  ⟨"ContentInstructionCollection_FromUnknown", [.handle .IUnknown, .result .ContentInstructionCollection],
    [.convert 0 1 .IUnknown .BaseInstructionCollection]⟩,
  -- 141-143
  ⟨"ContentInstructionCollection_Release", [.handle .ContentInstructionCollection],
    [.release 0 .BaseInstructionCollection]⟩,
  -- 147-159
  ⟨"ContentInstructionCollectionIterator_GetValue", [.handle .ContentInstructionCollectionIterator, .result .ContentInstruction],
    [.check 0, .check 1, .work true [(1, none), (0, some .BaseInstructionCollection_Iterator)], .hand 1 .InstructionBase]⟩,
  -- 161-177
  ⟨"ContentInstructionCollectionIterator_IsValid", [.handle .ContentInstructionCollectionIterator, .memory],
    [.check 0, .check 1, .work true [(1, none), (0, some .BaseInstructionCollection_Iterator)]]⟩,
  -- 179-188
  ⟨"ContentInstructionCollectionIterator_Next", [.handle .ContentInstructionCollectionIterator],
    [.check 0, .work true [(0, some .BaseInstructionCollection_Iterator)]]⟩,
  -- 190-192
  ⟨"ContentInstructionCollectionIterator_ToUnknown", [.handle .ContentInstructionCollectionIterator, .result .IUnknown],
    [.convert 0 1 .BaseInstructionCollection_Iterator .IUnknown]⟩,
  -- 194-196
  ⟨"ContentInstructionCollectionIterator_FromUnknown", [.handle .IUnknown, .result .ContentInstructionCollectionIterator],
    [.convert 0 1 .IUnknown .BaseInstructionCollection_Iterator]⟩,
  -- 198-200
  ⟨"ContentInstructionCollectionIterator_Release", [.handle .ContentInstructionCollectionIterator],
    [.release 0 .BaseInstructionCollection_Iterator]⟩]

/-- src/vanillapdf/implementation/contents/c_content_object.cpp. -/
def contentObjectFunctions : List ApiFunction := [
  -- 11-27
  ⟨"ContentObject_GetObjectType", [.handle .ContentObject, .memory],
    [.check 0, .check 1, .work false [(1, none), (0, some .ContentObjectBase)]]⟩,
  -- 29-31
  ⟨"ContentObject_ToInlineImage", [.handle .ContentObject, .result .ContentObjectInlineImage],
    [.convert 0 1 .ContentObjectBase .InlineImageObject]⟩,
  -- 33-35
  ⟨"ContentObject_ToInstruction", [.handle .ContentObject, .result .ContentInstruction],
    [.convert 0 1 .ContentObjectBase .InstructionBase]⟩,
  -- 37-39
  ⟨"ContentObject_FromInstruction", [.handle .ContentInstruction, .result .ContentObject],
    [.convert 0 1 .InstructionBase .ContentObjectBase]⟩,
  -- 41-43
  ⟨"ContentObject_Release", [.handle .ContentObject],
    [.release 0 .ContentObjectBase]⟩,
  -- 45-57
  ⟨"ContentObjectInlineImage_GetDictionary", [.handle .ContentObjectInlineImage, .result .DictionaryObject],
    [.check 0, .check 1, .work true [(1, none), (0, some .InlineImageObject)], .hand 1 .DictionaryObject]⟩,
  -- 59-71
  ⟨"ContentObjectInlineImage_GetData", [.handle .ContentObjectInlineImage, .result .Buffer],
    [.check 0, .check 1, .work true [(1, none), (0, some .InlineImageObject)], .hand 1 .Buffer]⟩,
  -- 73-75
  ⟨"ContentObjectInlineImage_Release", [.handle .ContentObjectInlineImage],
    [.release 0 .InlineImageObject]⟩,
  -- 77-87
  ⟨"ContentObjectText_GetOperationsSize", [.handle .ContentObjectText, .memory],
    [.check 0, .check 1, .work true [(1, none), (0, some .TextObject)]]⟩,
  -- 89-101
  ⟨"ContentObjectText_GetOperationAt", [.handle .ContentObjectText, .value, .result .ContentOperation],
    [.check 0, .check 2, .work true [(2, none), (0, some .TextObject)], .hand 2 .OperationBase]⟩,
  -- 103-105
  ⟨"ContentObjectText_ToContentObject", [.handle .ContentObjectText, .result .ContentObject],
    [.convert 0 1 .TextObject .ContentObjectBase]⟩,
  -- 107-109
  ⟨"ContentObjectText_FromContentObject", [.handle .ContentObject, .result .ContentObjectText],
    [.convert 0 1 .ContentObjectBase .TextObject]⟩,
  -- 111-113
  ⟨"ContentObjectText_Release", [.handle .ContentObjectText],
    [.release 0 .TextObject]⟩]

/-- src/vanillapdf/implementation/contents/c_content_operation.cpp. -/
def contentOperationFunctions : List ApiFunction := [
  -- 13-173
  ⟨"ContentOperation_GetOperationType", [.handle .ContentOperation, .memory],
    [.check 0, .check 1, .work false [(1, none), (0, some .OperationBase)]]⟩,
  -- 175-177
  ⟨"ContentOperation_ToBeginText", [.handle .ContentOperation, .result .ContentOperationBeginText],
    [.convert 0 1 .OperationBase .OperationBeginText]⟩,
  -- 179-181
  ⟨"ContentOperation_ToEndText", [.handle .ContentOperation, .result .ContentOperationEndText],
    [.convert 0 1 .OperationBase .OperationEndText]⟩,
  -- 183-185
  ⟨"ContentOperation_ToInstruction", [.handle .ContentOperation, .result .ContentInstruction],
    [.convert 0 1 .OperationBase .InstructionBase]⟩,
  -- 187-189
  ⟨"ContentOperation_FromInstruction", [.handle .ContentInstruction, .result .ContentOperation],
    [.convert 0 1 .InstructionBase .OperationBase]⟩,
  -- 191-193
  ⟨"ContentOperation_Release", [.handle .ContentOperation],
    [.release 0 .OperationBase]⟩,
  -- 195-207
  ⟨"ContentOperationGeneric_GetOperator", [.handle .ContentOperationGeneric, .result .ContentOperator],
    [.check 0, .check 1, .work true [(1, none), (0, some .OperationGeneric)], .hand 1 .OperatorBase]⟩,
  -- 209-219
  ⟨"ContentOperationGeneric_GetOperandsSize", [.handle .ContentOperationGeneric, .memory],
    [.check 0, .check 1, .work true [(1, none), (0, some .OperationGeneric)]]⟩,
  -- 221-233
  ⟨"ContentOperationGeneric_GetOperandAt", [.handle .ContentOperationGeneric, .value, .result .Object],
    [.check 0, .check 2, .work true [(2, none), (0, some .OperationGeneric)], .hand 2 .Object]⟩,
  -- 235-237
  ⟨"ContentOperationGeneric_ToContentOperation", [.handle .ContentOperationGeneric, .result .ContentOperation],
    [.convert 0 1 .OperationGeneric .OperationBase]⟩,
  -- 239-241
  ⟨"ContentOperationGeneric_FromContentOperation", [.handle .ContentOperation, .result .ContentOperationGeneric],
    [.convert 0 1 .OperationBase .OperationGeneric]⟩,
  -- 243-245
  ⟨"ContentOperationGeneric_Release", [.handle .ContentOperationGeneric],
    [.release 0 .OperationGeneric]⟩,
  -- 247-259
  ⟨"ContentOperationTextFont_GetScale", [.handle .ContentOperationTextFont, .result .RealObject],
    [.check 0, .check 1, .work true [(1, none), (0, some .OperationTextFont)], .hand 1 .RealObject]⟩,
  -- 261-272
  ⟨"ContentOperationTextFont_SetScale", [.handle .ContentOperationTextFont, .handle .RealObject],
    [.check 0, .check 1, .work true [(0, some .OperationTextFont), (1, some .RealObject)]]⟩,
  -- 274-286
  ⟨"ContentOperationTextFont_GetName", [.handle .ContentOperationTextFont, .result .NameObject],
    [.check 0, .check 1, .work true [(1, none), (0, some .OperationTextFont)], .hand 1 .NameObject]⟩,
  -- 288-299
  ⟨"ContentOperationTextFont_SetName", [.handle .ContentOperationTextFont, .handle .NameObject],
    [.check 0, .check 1, .work true [(0, some .OperationTextFont), (1, some .NameObject)]]⟩,
  -- 301-303
  ⟨"ContentOperationTextFont_ToContentOperation", [.handle .ContentOperationTextFont, .result .ContentOperation],
    [.convert 0 1 .OperationTextFont .OperationBase]⟩,
  -- 305-307
  ⟨"ContentOperationTextFont_FromContentOperation", [.handle .ContentOperation, .result .ContentOperationTextFont],
    [.convert 0 1 .OperationBase .OperationTextFont]⟩,
  -- 309-311
  ⟨"ContentOperationTextFont_Release", [.handle .ContentOperationTextFont],
    [.release 0 .OperationTextFont]⟩,
  -- 313-324
  ⟨"ContentOperationTextShow_SetValue", [.handle .ContentOperationTextShow, .handle .StringObject],
    [.check 0, .check 1, .work true [(0, some .OperationTextShow), (1, some .StringObjectBase)]]⟩,
  -- 326-338
  ⟨"ContentOperationTextShow_GetValue", [.handle .ContentOperationTextShow, .result .StringObject],
    [.check 0, .check 1, .work true [(1, none), (0, some .OperationTextShow)], .hand 1 .StringObjectBase]⟩,
  -- 340-342
  ⟨"ContentOperationTextShow_ToContentOperation", [.handle .ContentOperationTextShow, .result .ContentOperation],
    [.convert 0 1 .OperationTextShow .OperationBase]⟩,
  -- 344-346
  ⟨"ContentOperationTextShow_FromContentOperation", [.handle .ContentOperation, .result .ContentOperationTextShow],
    [.convert 0 1 .OperationBase .OperationTextShow]⟩,
  -- 348-350
  ⟨"ContentOperationTextShow_Release", [.handle .ContentOperationTextShow],
    [.release 0 .OperationTextShow]⟩,
  -- 352-364
  ⟨"ContentOperationTextShowArray_GetValue", [.handle .ContentOperationTextShowArray, .result .ArrayObject],
    [.check 0, .check 1, .work true [(1, none), (0, some .OperationTextShowArray)], .hand 1 .MixedArrayObject]⟩,
  -- 366-377
  ⟨"ContentOperationTextShowArray_SetValue", [.handle .ContentOperationTextShowArray, .handle .ArrayObject],
    [.check 0, .check 1, .work true [(0, some .OperationTextShowArray), (1, some .MixedArrayObject)]]⟩,
  -- 379-381
  ⟨"ContentOperationTextShowArray_ToContentOperation", [.handle .ContentOperationTextShowArray, .result .ContentOperation],
    [.convert 0 1 .OperationTextShowArray .OperationBase]⟩,
  -- 383-385
  ⟨"ContentOperationTextShowArray_FromContentOperation", [.handle .ContentOperation, .result .ContentOperationTextShowArray],
    [.convert 0 1 .OperationBase .OperationTextShowArray]⟩,
  -- 387-389
  ⟨"ContentOperationTextShowArray_Release", [.handle .ContentOperationTextShowArray],
    [.release 0 .OperationTextShowArray]⟩,
  -- 391-393
  ⟨"ContentOperationEndText_Release", [.handle .ContentOperationEndText],
    [.release 0 .OperationEndText]⟩]

/-- src/vanillapdf/implementation/contents/c_content_operator.cpp. -/
def contentOperatorFunctions : List ApiFunction := [
  -- 11-171
  ⟨"ContentOperator_GetOperatorType", [.handle .ContentOperator, .memory],
    [.check 0, .check 1, .work false [(1, none), (0, some .OperatorBase)]]⟩,
  -- 173-185
  ⟨"ContentOperator_GetValue", [.handle .ContentOperator, .result .Buffer],
    [.check 0, .check 1, .work true [(1, none), (0, some .OperatorBase)], .hand 1 .Buffer]⟩,
  -- 187-189
  ⟨"ContentOperator_ToUnknown", [.handle .ContentOperator, .result .IUnknown],
    [.convert 0 1 .OperatorBase .IUnknown]⟩,
  -- 191-193
  ⟨"ContentOperator_FromUnknown", [.handle .IUnknown, .result .ContentOperator],
    [.convert 0 1 .IUnknown .OperatorBase]⟩,
  -- 195-197
  ⟨"ContentOperator_Release", [.handle .ContentOperator],
    [.release 0 .OperatorBase]⟩]

/-- src/vanillapdf/implementation/contents/c_content_parser.cpp. -/
def contentParserFunctions : List ApiFunction := [
  -- 13-27
  ⟨"ContentParser_Create", [.handle .File, .handle .InputStream, .result .ContentParser],
    [.check 0, .check 1, .check 2, .work true [(2, none), (0, some .File), (1, some .IInputStream)], .hand 2 .ContentStreamParser]⟩,
  -- 29-41
  ⟨"ContentParser_ReadInstructionCollection", [.handle .ContentParser, .result .ContentInstructionCollection],
    [.check 0, .check 1, .work true [(1, none), (0, some .ContentStreamParser)], .hand 1 .BaseInstructionCollection]⟩,
  -- 43-45
  ⟨"ContentParser_ToUnknown", [.handle .ContentParser, .result .IUnknown],
    [.convert 0 1 .ContentStreamParser .IUnknown]⟩,
  -- 47-49
  ⟨"ContentParser_FromUnknown", [.handle .IUnknown, .result .ContentParser],
    [.convert 0 1 .IUnknown .ContentStreamParser]⟩,
  -- 51-53
  ⟨"ContentParser_Release", [.handle .ContentParser],
    [.release 0 .ContentStreamParser]⟩]

/-- src/vanillapdf/implementation/semantics/c_annotations.cpp. -/
def annotationsFunctions : List ApiFunction := [
  -- 11-75
  ⟨"Annotation_GetAnnotationType", [.handle .Annotation, .memory],
    [.check 0, .check 1, .work false [(1, none), (0, some .AnnotationBase)]]⟩,
  -- 77-79
  ⟨"Annotation_ToUnknown", [.handle .Annotation, .result .IUnknown],
    [.convert 0 1 .AnnotationBase .IUnknown]⟩,
  -- 81-83
  ⟨"Annotation_FromUnknown", [.handle .IUnknown, .result .Annotation],
    [.convert 0 1 .IUnknown .AnnotationBase]⟩,
  -- 85-87
  ⟨"Annotation_Release", [.handle .Annotation],
    [.release 0 .AnnotationBase]⟩,
  -- 89-107
  ⟨"LinkAnnotation_GetDestination", [.handle .LinkAnnotation, .result .Destination],
    [.check 0, .check 1, .work true [(1, none), (0, some .LinkAnnotation)], .hand 1 .DestinationBase]⟩,
  -- 109-111
  ⟨"LinkAnnotation_ToBaseAnnotation", [.handle .LinkAnnotation, .result .Annotation],
    [.convert 0 1 .LinkAnnotation .AnnotationBase]⟩,
  -- 113-115
  ⟨"LinkAnnotation_FromBaseAnnotation", [.handle .Annotation, .result .LinkAnnotation],
    [.convert 0 1 .AnnotationBase .LinkAnnotation]⟩,
  -- 117-119
  ⟨"LinkAnnotation_Release", [.handle .LinkAnnotation],
    [.release 0 .LinkAnnotation]⟩,
  -- 121-132
  ⟨"PageAnnotations_GetSize", [.handle .PageAnnotations, .memory],
    [.check 0, .check 1, .work true [(1, none), (0, some .PageAnnotations)]]⟩,
  -- 134-147
  ⟨"PageAnnotations_At", [.handle .PageAnnotations, .value, .result .Annotation],
    [.check 0, .check 2, .work true [(2, none), (0, some .PageAnnotations)], .hand 2 .AnnotationBase]⟩,
  -- 149-151
  ⟨"PageAnnotations_ToUnknown", [.handle .PageAnnotations, .result .IUnknown],
    [.convert 0 1 .PageAnnotations .IUnknown]⟩,
  -- 153-155
  ⟨"PageAnnotations_FromUnknown", [.handle .IUnknown, .result .PageAnnotations],
    [.convert 0 1 .IUnknown .PageAnnotations]⟩,
  -- 157-159
  ⟨"PageAnnotations_Release", [.handle .PageAnnotations],
    [.release 0 .PageAnnotations]⟩]

/-- src/vanillapdf/implementation/semantics/c_catalog.cpp. -/
def catalogFunctions : List ApiFunction := [
  -- 11-29
  ⟨"Catalog_GetPages", [.handle .Catalog, .result .PageTree],
    [.check 0, .check 1, .work true [(1, none), (0, some .Catalog)], .hand 1 .PageTree]⟩,
  -- 31-70
  ⟨"Catalog_GetVersion", [.handle .Catalog, .memory],
    [.check 0, .check 1, .work true [(1, none), (0, some .Catalog)]]⟩,
  -- 72-90
  ⟨"Catalog_GetExtensions", [.handle .Catalog, .result .DeveloperExtensions],
    [.check 0, .check 1, .work true [(1, none), (0, some .Catalog)], .hand 1 .DeveloperExtensions]⟩,
  -- 92-110
  ⟨"Catalog_GetPageLabels", [.handle .Catalog, .result .PageLabels],
    [.check 0, .check 1, .work true [(1, none), (0, some .Catalog)], .hand 1 .PageLabels]⟩,
  -- 112-145
  ⟨"Catalog_GetPageLayout", [.handle .Catalog, .memory],
    [.check 0, .check 1, .work true [(1, none), (0, some .Catalog)]]⟩,
  -- 147-165
  ⟨"Catalog_GetViewerPreferences", [.handle .Catalog, .result .ViewerPreferences],
    [.check 0, .check 1, .work true [(1, none), (0, some .Catalog)], .hand 1 .ViewerPreferences]⟩,
  -- 167-185
  ⟨"Catalog_GetOutlines", [.handle .Catalog, .result .Outline],
    [.check 0, .check 1, .work true [(1, none), (0, some .Catalog)], .hand 1 .Outline]⟩,
  -- 187-205
  ⟨"Catalog_GetDestinations", [.handle .Catalog, .result .NamedDestinations],
    [.check 0, .check 1, .work true [(1, none), (0, some .Catalog)], .hand 1 .NamedDestinations]⟩,
  -- 207-223
  ⟨"Catalog_GetAcroForm", [.handle .Catalog, .result .InteractiveForm],
    [.check 0, .check 1, .work true [(1, none), (0, some .Catalog)], .hand 1 .InteractiveForm]⟩,
  -- 225-227
  ⟨"Catalog_ToUnknown", [.handle .Catalog, .result .IUnknown],
    [.convert 0 1 .Catalog .IUnknown]⟩,
  -- 229-231
  ⟨"Catalog_FromUnknown", [.handle .IUnknown, .result .Catalog],
    [.convert 0 1 .IUnknown .Catalog]⟩,
  -- 233-235
  ⟨"Catalog_Release", [.handle .Catalog],
    [.release 0 .Catalog]⟩]

/-- src/vanillapdf/implementation/semantics/c_character_map.cpp. -/
def characterMapFunctions : List ApiFunction := [
  -- 11-27
  ⟨"CharacterMap_GetCharacterMapType", [.handle .CharacterMap, .memory],
    [.check 0, .check 1, .work false [(1, none), (0, some .CharacterMapBase)]]⟩,
  -- 29-31
  ⟨"CharacterMap_ToUnknown", [.handle .CharacterMap, .result .IUnknown],
    [.convert 0 1 .CharacterMapBase .IUnknown]⟩,
  -- 33-35
  ⟨"CharacterMap_FromUnknown", [.handle .IUnknown, .result .CharacterMap],
    [.convert 0 1 .IUnknown .CharacterMapBase]⟩,
  -- 37-39
  ⟨"CharacterMap_Release", [.handle .CharacterMap],
    [.release 0 .CharacterMapBase]⟩,
  -- 41-59
  ⟨"UnicodeCharacterMap_GetMappedValue", [.handle .UnicodeCharacterMap, .handle .Buffer, .result .Buffer],
    [.check 0, .check 1, .check 2, .work true [(2, none), (0, some .UnicodeCharacterMap), (1, some .Buffer)], .hand 2 .Buffer]⟩,
  -- 61-63
  ⟨"UnicodeCharacterMap_ToCharacterMap", [.handle .UnicodeCharacterMap, .result .CharacterMap],
    [.convert 0 1 .UnicodeCharacterMap .CharacterMapBase]⟩,
  -- 65-67
  ⟨"UnicodeCharacterMap_FromCharacterMap", [.handle .CharacterMap, .result .UnicodeCharacterMap],
    [.convert 0 1 .CharacterMapBase .UnicodeCharacterMap]⟩,
  -- 69-71
  ⟨"UnicodeCharacterMap_Release", [.handle .UnicodeCharacterMap],
    [.release 0 .UnicodeCharacterMap]⟩,
  -- 73-75
  ⟨"EmbeddedCharacterMap_ToCharacterMap", [.handle .EmbeddedCharacterMap, .result .CharacterMap],
    [.convert 0 1 .EmbeddedCharacterMap .CharacterMapBase]⟩,
  -- 77-79
  ⟨"EmbeddedCharacterMap_FromCharacterMap", [.handle .CharacterMap, .result .EmbeddedCharacterMap],
    [.convert 0 1 .CharacterMapBase .EmbeddedCharacterMap]⟩,
  -- 81-83
  ⟨"EmbeddedCharacterMap_Release", [.handle .EmbeddedCharacterMap],
    [.release 0 .EmbeddedCharacterMap]⟩]

/-- src/vanillapdf/implementation/semantics/c_date.cpp. -/
def dateFunctions : List ApiFunction := [
  -- 10-19
  ⟨"Date_CreateEmpty", [.result .Date],
    [.check 0, .work true [(0, none)], .hand 0 .Date]⟩,
  -- 21-30
  ⟨"Date_CreateCurrent", [.result .Date],
    [.check 0, .work true [(0, none)], .hand 0 .Date]⟩,
  -- 32-40
  ⟨"Date_GetYear", [.handle .Date, .memory],
    [.check 0, .check 1, .work false [(1, none), (0, some .Date)]]⟩,
  -- 42-48
  ⟨"Date_SetYear", [.handle .Date, .value],
    [.check 0, .work false [(0, some .Date)]]⟩,
  -- 50-58
  ⟨"Date_GetMonth", [.handle .Date, .memory],
    [.check 0, .check 1, .work false [(1, none), (0, some .Date)]]⟩,
  -- 60-66
  ⟨"Date_SetMonth", [.handle .Date, .value],
    [.check 0, .work false [(0, some .Date)]]⟩,
  -- 68-76
  ⟨"Date_GetDay", [.handle .Date, .memory],
    [.check 0, .check 1, .work false [(1, none), (0, some .Date)]]⟩,
  -- 78-84
  ⟨"Date_SetDay", [.handle .Date, .value],
    [.check 0, .work false [(0, some .Date)]]⟩,
  -- 86-94
  ⟨"Date_GetHour", [.handle .Date, .memory],
    [.check 0, .check 1, .work false [(1, none), (0, some .Date)]]⟩,
  -- 96-102
  ⟨"Date_SetHour", [.handle .Date, .value],
    [.check 0, .work false [(0, some .Date)]]⟩,
  -- 104-112
  ⟨"Date_GetMinute", [.handle .Date, .memory],
    [.check 0, .check 1, .work false [(1, none), (0, some .Date)]]⟩,
  -- 114-120
  ⟨"Date_SetMinute", [.handle .Date, .value],
    [.check 0, .work false [(0, some .Date)]]⟩,
  -- 122-130
  ⟨"Date_GetSecond", [.handle .Date, .memory],
    [.check 0, .check 1, .work false [(1, none), (0, some .Date)]]⟩,
  -- 132-138
  ⟨"Date_SetSecond", [.handle .Date, .value],
    [.check 0, .work false [(0, some .Date)]]⟩,
  -- 140-158
  ⟨"Date_GetTimezone", [.handle .Date, .memory],
    [.check 0, .check 1, .work false [(1, none), (0, some .Date)]]⟩,
  -- 160-176
  ⟨"Date_SetTimezone", [.handle .Date, .value],
    [.check 0, .work false [(0, some .Date)]]⟩,
  -- 178-186
  ⟨"Date_GetHourOffset", [.handle .Date, .memory],
    [.check 0, .check 1, .work false [(1, none), (0, some .Date)]]⟩,
  -- 188-194
  ⟨"Date_SetHourOffset", [.handle .Date, .value],
    [.check 0, .work false [(0, some .Date)]]⟩,
  -- 196-204
  ⟨"Date_GetMinuteOffset", [.handle .Date, .memory],
    [.check 0, .check 1, .work false [(1, none), (0, some .Date)]]⟩,
  -- 206-212
  ⟨"Date_SetMinuteOffset", [.handle .Date, .value],
    [.check 0, .work false [(0, some .Date)]]⟩,
  -- 214-216
  ⟨"Date_ToUnknown", [.handle .Date, .result .IUnknown],
    [.convert 0 1 .Date .IUnknown]⟩,
  -- 218-220
  ⟨"Date_FromUnknown", [.handle .IUnknown, .result .Date],
    [.convert 0 1 .IUnknown .Date]⟩,
  -- 222-224
  ⟨"Date_Release", [.handle .Date],
    [.release 0 .Date]⟩]

/-- src/vanillapdf/implementation/semantics/c_destinations.cpp. -/
def destinationsFunctions : List ApiFunction := [
  -- 11-24
  ⟨"Destination_GetPageNumber", [.handle .Destination, .result .Object],
    [.check 0, .check 1, .work true [(1, none), (0, some .DestinationBase)], .hand 1 .Object]⟩,
  -- 26-29
  ⟨"Destination_Release", [.handle .Destination],
    [.release 0 .DestinationBase]⟩,
  -- 31-44
  ⟨"NamedDestinations_Contains", [.handle .NamedDestinations, .handle .NameObject, .memory],
    [.check 0, .check 1, .check 2, .work true [(2, none), (0, some .NamedDestinations), (1, some .NameObject)]]⟩,
  -- 46-61
  ⟨"NamedDestinations_Find", [.handle .NamedDestinations, .handle .NameObject, .result .Destination],
    [.check 0, .check 1, .check 2, .work true [(2, none), (0, some .NamedDestinations), (1, some .NameObject)], .hand 2 .DestinationBase]⟩,
  -- 62-65
  ⟨"NamedDestinations_Release", [.handle .NamedDestinations],
    [.release 0 .NamedDestinations]⟩]

/-- src/vanillapdf/implementation/semantics/c_developer_extensions.cpp. -/
def developerExtensionsFunctions : List ApiFunction := [
  -- 11-44
  ⟨"DeveloperExtension_GetBaseVersion", [.handle .DeveloperExtension, .memory],
    [.check 0, .check 1, .work true [(1, none), (0, some .DeveloperExtension)]]⟩,
  -- 46-59
  ⟨"DeveloperExtension_GetExtensionLevel", [.handle .DeveloperExtension, .result .IntegerObject],
    [.check 0, .check 1, .work true [(1, none), (0, some .DeveloperExtension)], .hand 1 .IntegerObject]⟩,
  -- 61-64
  ⟨"DeveloperExtension_Release", [.handle .DeveloperExtension],
    [.release 0 .DeveloperExtension]⟩,
  -- 66-79
  ⟨"DeveloperExtensions_GetIterator", [.handle .DeveloperExtensions, .result .DeveloperExtensionsIterator],
    [.check 0, .check 1, .work true [(1, none), (0, some .DeveloperExtensions)], .hand 1 .DeveloperExtensions_Iterator]⟩,
  -- 81-84
  ⟨"DeveloperExtensions_Release", [.handle .DeveloperExtensions],
    [.release 0 .DeveloperExtensions]⟩,
  -- 86-99
  ⟨"DeveloperExtensionsIterator_GetKey", [.handle .DeveloperExtensionsIterator, .result .NameObject],
    [.check 0, .check 1, .work true [(1, none), (0, some .DeveloperExtensions_Iterator)], .hand 1 .NameObject]⟩,
  -- 101-114
  ⟨"DeveloperExtensionsIterator_GetValue", [.handle .DeveloperExtensionsIterator, .result .DeveloperExtension],
    [.check 0, .check 1, .work true [(1, none), (0, some .DeveloperExtensions_Iterator)], .hand 1 .DeveloperExtension]⟩,
  -- 116-133
  ⟨"DeveloperExtensionsIterator_IsValid", [.handle .DeveloperExtensionsIterator, .memory],
    [.check 0, .check 1, .work true [(1, none), (0, some .DeveloperExtensions_Iterator)]]⟩,
  -- 135-145
  ⟨"DeveloperExtensionsIterator_Next", [.handle .DeveloperExtensionsIterator],
    [.check 0, .work true [(0, some .DeveloperExtensions_Iterator)]]⟩,
  -- 147-150
  ⟨"DeveloperExtensionsIterator_Release", [.handle .DeveloperExtensionsIterator],
    [.release 0 .DeveloperExtensions_Iterator]⟩]

/-- src/vanillapdf/implementation/semantics/c_digital_signature.cpp. -/
def digitalSignatureFunctions : List ApiFunction := [
  -- 11-24
  ⟨"DigitalSignature_GetContactInfo", [.handle .DigitalSignature, .result .StringObject],
    [.check 0, .check 1, .work true [(1, none), (0, some .DigitalSignature)], .hand 1 .StringObjectBase]⟩,
  -- 26-39
  ⟨"DigitalSignature_GetReason", [.handle .DigitalSignature, .result .StringObject],
    [.check 0, .check 1, .work true [(1, none), (0, some .DigitalSignature)], .hand 1 .StringObjectBase]⟩,
  -- 41-54
  ⟨"DigitalSignature_GetLocation", [.handle .DigitalSignature, .result .StringObject],
    [.check 0, .check 1, .work true [(1, none), (0, some .DigitalSignature)], .hand 1 .StringObjectBase]⟩,
  -- 56-69
  ⟨"DigitalSignature_GetSigningTime", [.handle .DigitalSignature, .result .Date],
    [.check 0, .check 1, .work true [(1, none), (0, some .DigitalSignature)], .hand 1 .Date]⟩,
  -- 71-84
  ⟨"DigitalSignature_GetName", [.handle .DigitalSignature, .result .StringObject],
    [.check 0, .check 1, .work true [(1, none), (0, some .DigitalSignature)], .hand 1 .StringObjectBase]⟩,
  -- 86-99
  ⟨"DigitalSignature_GetRevision", [.handle .DigitalSignature, .result .IntegerObject],
    [.check 0, .check 1, .work true [(1, none), (0, some .DigitalSignature)], .hand 1 .IntegerObject]⟩,
  -- 101-114
  ⟨"DigitalSignature_GetCertificate", [.handle .DigitalSignature, .result .StringObject],
    [.check 0, .check 1, .work true [(1, none), (0, some .DigitalSignature)], .hand 1 .StringObjectBase]⟩,
  -- 116-127
  ⟨"DigitalSignature_GetContents", [.handle .DigitalSignature, .result .HexadecimalStringObject],
    [.check 0, .check 1, .work true [(1, none), (0, some .DigitalSignature)], .hand 1 .HexadecimalStringObject]⟩,
  -- 129-142
  ⟨"DigitalSignature_GetByteRange", [.handle .DigitalSignature, .result .ByteRangeCollection],
    [.check 0, .check 1, .work true [(1, none), (0, some .DigitalSignature)], .hand 1 .ByteRangeCollection]⟩,
  -- 144-155
  ⟨"ByteRange_GetOffset", [.handle .ByteRange, .result .IntegerObject],
    [.check 0, .check 1, .work true [(1, none), (0, some .ByteRange)], .hand 1 .IntegerObject]⟩,
  -- 157-168
  ⟨"ByteRange_GetLength", [.handle .ByteRange, .result .IntegerObject],
    [.check 0, .check 1, .work true [(1, none), (0, some .ByteRange)], .hand 1 .IntegerObject]⟩,
  -- 170-179
  ⟨"ByteRangeCollection_GetSize", [.handle .ByteRangeCollection, .memory],
    [.check 0, .check 1, .work true [(1, none), (0, some .ByteRangeCollection)]]⟩,
  -- 181-192
  ⟨"ByteRangeCollection_GetValue", [.handle .ByteRangeCollection, .value, .result .ByteRange],
    [.check 0, .check 2, .work true [(2, none), (0, some .ByteRangeCollection)], .hand 2 .ByteRange]⟩,
  -- 194-196
  ⟨"ByteRange_Release", [.handle .ByteRange],
    [.release 0 .ByteRange]⟩,
  -- 198-200
  ⟨"ByteRangeCollection_Release", [.handle .ByteRangeCollection],
    [.release 0 .ByteRangeCollection]⟩,
  -- 202-204
  ⟨"DigitalSignature_Release", [.handle .DigitalSignature],
    [.release 0 .DigitalSignature]⟩]

/-- src/vanillapdf/implementation/semantics/c_document.cpp. -/
def documentFunctions : List ApiFunction := [
  -- 11-24
  ⟨"Document_Open", [.memory, .result .Document],
    [.check 0, .check 1, .work true [(0, none), (1, none)], .hand 1 .Document]⟩,
  -- 26-37
  ⟨"Document_OpenFile", [.handle .File, .result .Document],
    [.check 0, .check 1, .work true [(1, none), (0, some .File)], .hand 1 .Document]⟩,
  -- 39-50
  ⟨"Document_Create", [.memory, .result .Document],
    [.check 0, .check 1, .work true [(0, none), (1, none)], .hand 1 .Document]⟩,
  -- 52-64
  ⟨"Document_CreateFile", [.handle .File, .result .Document],
    [.check 0, .check 1, .work true [(1, none), (0, some .File)], .hand 1 .Document]⟩,
  -- 66-77
  ⟨"Document_Save", [.handle .Document, .memory],
    [.check 0, .check 1, .work true [(1, none), (0, some .Document)]]⟩,
  -- 79-89
  ⟨"Document_SaveFile", [.handle .Document, .handle .File],
    [.check 0, .check 1, .work true [(0, some .Document), (1, some .File)]]⟩,
  -- 91-102
  ⟨"Document_SaveIncremental", [.handle .Document, .memory],
    [.check 0, .check 1, .work true [(1, none), (0, some .Document)]]⟩,
  -- 104-114
  ⟨"Document_SaveIncrementalFile", [.handle .Document, .handle .File],
    [.check 0, .check 1, .work true [(0, some .Document), (1, some .File)]]⟩,
  -- 116-134
  ⟨"Document_GetCatalog", [.handle .Document, .result .Catalog],
    [.check 0, .check 1, .work true [(1, none), (0, some .Document)], .hand 1 .Catalog]⟩,
  -- 136-154
  ⟨"Document_GetDocumentInfo", [.handle .Document, .result .DocumentInfo],
    [.check 0, .check 1, .work true [(1, none), (0, some .Document)], .hand 1 .DocumentInfo]⟩,
  -- 156-168
  ⟨"Document_AppendDocument", [.handle .Document, .handle .Document],
    [.check 0, .check 1, .work true [(0, some .Document), (1, some .Document)]]⟩,
  -- 170-183
  ⟨"Document_Sign", [.handle .Document, .handle .File, .handle .DocumentSignatureSettings],
    [.check 0, .check 1, .check 2, .work true [(0, some .Document), (1, some .File), (2, some .DocumentSignatureSettings)]]⟩,
  -- 185-197
  ⟨"Document_AddEncryption", [.handle .Document, .handle .DocumentEncryptionSettings],
    [.check 0, .check 1, .work true [(0, some .Document), (1, some .DocumentEncryptionSettings)]]⟩,
  -- 199-208
  ⟨"Document_RemoveEncryption", [.handle .Document],
    [.check 0, .work true [(0, some .Document)]]⟩,
  -- 210-212
  ⟨"Document_ToUnknown", [.handle .Document, .result .IUnknown],
    [.convert 0 1 .Document .IUnknown]⟩,
  -- 214-216
  ⟨"Document_FromUnknown", [.handle .IUnknown, .result .Document],
    [.convert 0 1 .IUnknown .Document]⟩,
  -- 218-220
  ⟨"Document_Release", [.handle .Document],
    [.release 0 .Document]⟩]

/-- src/vanillapdf/implementation/semantics/c_document_encryption_settings.cpp. -/
def documentEncryptionSettingsFunctions : List ApiFunction := [
  -- 25-34
  ⟨"DocumentEncryptionSettings_Create", [.result .DocumentEncryptionSettings],
    [.check 0, .work true [(0, none)], .hand 0 .DocumentEncryptionSettings]⟩,
  -- 36-55
  ⟨"DocumentEncryptionSettings_GetAlgorithm", [.handle .DocumentEncryptionSettings, .memory],
    [.check 0, .check 1, .work false [(1, none), (0, some .DocumentEncryptionSettings)]]⟩,
  -- 57-75
  ⟨"DocumentEncryptionSettings_SetAlgorithm", [.handle .DocumentEncryptionSettings, .value],
    [.check 0, .work false [(0, some .DocumentEncryptionSettings)]]⟩,
  -- 77-84
  ⟨"DocumentEncryptionSettings_GetKeyLength", [.handle .DocumentEncryptionSettings, .memory],
    [.check 0, .check 1, .work false [(1, none), (0, some .DocumentEncryptionSettings)]]⟩,
  -- 86-92
  ⟨"DocumentEncryptionSettings_SetKeyLength", [.handle .DocumentEncryptionSettings, .value],
    [.check 0, .work false [(0, some .DocumentEncryptionSettings)]]⟩,
  -- 94-102
  ⟨"DocumentEncryptionSettings_GetUserAccessPermissions", [.handle .DocumentEncryptionSettings, .memory],
    [.check 0, .check 1, .work false [(1, none), (0, some .DocumentEncryptionSettings)]]⟩,
  -- 104-113
  ⟨"DocumentEncryptionSettings_SetUserAccessPermissions", [.handle .DocumentEncryptionSettings, .value],
    [.check 0, .work false [(0, some .DocumentEncryptionSettings)]]⟩,
  -- 115-127
  ⟨"DocumentEncryptionSettings_GetUserPassword", [.handle .DocumentEncryptionSettings, .result .Buffer],
    [.check 0, .check 1, .work true [(1, none), (0, some .DocumentEncryptionSettings)], .hand 1 .Buffer]⟩,
  -- 129-140
  ⟨"DocumentEncryptionSettings_SetUserPassword", [.handle .DocumentEncryptionSettings, .handle .Buffer],
    [.check 0, .check 1, .work true [(0, some .DocumentEncryptionSettings), (1, some .Buffer)]]⟩,
  -- 142-154
  ⟨"DocumentEncryptionSettings_GetOwnerPassword", [.handle .DocumentEncryptionSettings, .result .Buffer],
    [.check 0, .check 1, .work true [(1, none), (0, some .DocumentEncryptionSettings)], .hand 1 .Buffer]⟩,
  -- 156-167
  ⟨"DocumentEncryptionSettings_SetOwnerPassword", [.handle .DocumentEncryptionSettings, .handle .Buffer],
    [.check 0, .check 1, .work true [(0, some .DocumentEncryptionSettings), (1, some .Buffer)]]⟩,
  -- 169-171
  ⟨"DocumentEncryptionSettings_ToUnknown", [.handle .DocumentEncryptionSettings, .result .IUnknown],
    [.convert 0 1 .DocumentEncryptionSettings .IUnknown]⟩,
  -- 173-175
  ⟨"DocumentEncryptionSettings_FromUnknown", [.handle .IUnknown, .result .DocumentEncryptionSettings],
    [.convert 0 1 .IUnknown .DocumentEncryptionSettings]⟩,
  -- 177-179
  ⟨"DocumentEncryptionSettings_Release", [.handle .DocumentEncryptionSettings],
    [.release 0 .DocumentEncryptionSettings]⟩]

/-- src/vanillapdf/implementation/semantics/c_document_info.cpp. -/
def documentInfoFunctions : List ApiFunction := [
  -- 12-27
  ⟨"DocumentInfo_GetTitle", [.handle .DocumentInfo, .result .StringObject],
    [.check 0, .check 1, .work true [(1, none), (0, some .DocumentInfo)], .hand 1 .StringObjectBase]⟩,
  -- 29-44
  ⟨"DocumentInfo_GetAuthor", [.handle .DocumentInfo, .result .StringObject],
    [.check 0, .check 1, .work true [(1, none), (0, some .DocumentInfo)], .hand 1 .StringObjectBase]⟩,
  -- 46-61
  ⟨"DocumentInfo_GetSubject", [.handle .DocumentInfo, .result .StringObject],
    [.check 0, .check 1, .work true [(1, none), (0, some .DocumentInfo)], .hand 1 .StringObjectBase]⟩,
  -- 63-78
  ⟨"DocumentInfo_GetKeywords", [.handle .DocumentInfo, .result .StringObject],
    [.check 0, .check 1, .work true [(1, none), (0, some .DocumentInfo)], .hand 1 .StringObjectBase]⟩,
  -- 80-95
  ⟨"DocumentInfo_GetCreator", [.handle .DocumentInfo, .result .StringObject],
    [.check 0, .check 1, .work true [(1, none), (0, some .DocumentInfo)], .hand 1 .StringObjectBase]⟩,
  -- 97-112
  ⟨"DocumentInfo_GetProducer", [.handle .DocumentInfo, .result .StringObject],
    [.check 0, .check 1, .work true [(1, none), (0, some .DocumentInfo)], .hand 1 .StringObjectBase]⟩,
  -- 114-129
  ⟨"DocumentInfo_GetCreationDate", [.handle .DocumentInfo, .result .Date],
    [.check 0, .check 1, .work true [(1, none), (0, some .DocumentInfo)], .hand 1 .Date]⟩,
  -- 131-146
  ⟨"DocumentInfo_GetModificationDate", [.handle .DocumentInfo, .result .Date],
    [.check 0, .check 1, .work true [(1, none), (0, some .DocumentInfo)], .hand 1 .Date]⟩,
  -- 148-174
  ⟨"DocumentInfo_GetTrapped", [.handle .DocumentInfo, .memory],
    [.check 0, .check 1, .work true [(1, none), (0, some .DocumentInfo)]]⟩,
  -- 176-178
  ⟨"DocumentInfo_ToUnknown", [.handle .DocumentInfo, .result .IUnknown],
    [.convert 0 1 .DocumentInfo .IUnknown]⟩,
  -- 180-182
  ⟨"DocumentInfo_FromUnknown", [.handle .IUnknown, .result .DocumentInfo],
    [.convert 0 1 .IUnknown .DocumentInfo]⟩,
  -- 184-186
  ⟨"DocumentInfo_Release", [.handle .DocumentInfo],
    [.release 0 .DocumentInfo]⟩]

/-- src/vanillapdf/implementation/semantics/c_document_signature_settings.cpp. -/
def documentSignatureSettingsFunctions : List ApiFunction := [
  -- 12-21
  ⟨"DocumentSignatureSettings_Create", [.result .DocumentSignatureSettings],
    [.check 0, .work true [(0, none)], .hand 0 .DocumentSignatureSettings]⟩,
  -- 23-62
  ⟨"DocumentSignatureSettings_GetDigest", [.handle .DocumentSignatureSettings, .memory],
    [.check 0, .check 1, .work true [(1, none), (0, some .DocumentSignatureSettings)]]⟩,
  -- 64-105
  ⟨"DocumentSignatureSettings_SetDigest", [.handle .DocumentSignatureSettings, .value],
    [.check 0, .work true [(0, some .DocumentSignatureSettings)]]⟩,
  -- 107-123
  ⟨"DocumentSignatureSettings_GetSigningKey", [.handle .DocumentSignatureSettings, .result .SigningKey],
    [.check 0, .check 1, .work true [(1, none), (0, some .DocumentSignatureSettings)], .hand 1 .ISigningKey]⟩,
  -- 125-135
  ⟨"DocumentSignatureSettings_SetSigningKey", [.handle .DocumentSignatureSettings, .handle .SigningKey],
    [.check 0, .check 1, .work true [(0, some .DocumentSignatureSettings), (1, some .ISigningKey)]]⟩,
  -- 137-153
  ⟨"DocumentSignatureSettings_GetName", [.handle .DocumentSignatureSettings, .result .LiteralStringObject],
    [.check 0, .check 1, .work true [(1, none), (0, some .DocumentSignatureSettings)], .hand 1 .LiteralStringObject]⟩,
  -- 155-165
  ⟨"DocumentSignatureSettings_SetName", [.handle .DocumentSignatureSettings, .handle .LiteralStringObject],
    [.check 0, .check 1, .work true [(0, some .DocumentSignatureSettings), (1, some .LiteralStringObject)]]⟩,
  -- 167-183
  ⟨"DocumentSignatureSettings_GetLocation", [.handle .DocumentSignatureSettings, .result .LiteralStringObject],
    [.check 0, .check 1, .work true [(1, none), (0, some .DocumentSignatureSettings)], .hand 1 .LiteralStringObject]⟩,
  -- 185-195
  ⟨"DocumentSignatureSettings_SetLocation", [.handle .DocumentSignatureSettings, .handle .LiteralStringObject],
    [.check 0, .check 1, .work true [(0, some .DocumentSignatureSettings), (1, some .LiteralStringObject)]]⟩,
  -- 197-213
  ⟨"DocumentSignatureSettings_GetReason", [.handle .DocumentSignatureSettings, .result .LiteralStringObject],
    [.check 0, .check 1, .work true [(1, none), (0, some .DocumentSignatureSettings)], .hand 1 .LiteralStringObject]⟩,
  -- 215-225
  ⟨"DocumentSignatureSettings_SetReason", [.handle .DocumentSignatureSettings, .handle .LiteralStringObject],
    [.check 0, .check 1, .work true [(0, some .DocumentSignatureSettings), (1, some .LiteralStringObject)]]⟩,
  -- 227-243
  ⟨"DocumentSignatureSettings_GetSigningTime", [.handle .DocumentSignatureSettings, .result .Date],
    [.check 0, .check 1, .work true [(1, none), (0, some .DocumentSignatureSettings)], .hand 1 .Date]⟩,
  -- 245-255
  ⟨"DocumentSignatureSettings_SetSigningTime", [.handle .DocumentSignatureSettings, .handle .Date],
    [.check 0, .check 1, .work true [(0, some .DocumentSignatureSettings), (1, some .Date)]]⟩,
  -- 257-273
  ⟨"DocumentSignatureSettings_GetCertificate", [.handle .DocumentSignatureSettings, .result .HexadecimalStringObject],
    [.check 0, .check 1, .work true [(1, none), (0, some .DocumentSignatureSettings)], .hand 1 .HexadecimalStringObject]⟩,
  -- 275-285
  ⟨"DocumentSignatureSettings_SetCertificate", [.handle .DocumentSignatureSettings, .handle .HexadecimalStringObject],
    [.check 0, .check 1, .work true [(0, some .DocumentSignatureSettings), (1, some .HexadecimalStringObject)]]⟩,
  -- 287-289
  ⟨"DocumentSignatureSettings_ToUnknown", [.handle .DocumentSignatureSettings, .result .IUnknown],
    [.convert 0 1 .DocumentSignatureSettings .IUnknown]⟩,
  -- 291-293
  ⟨"DocumentSignatureSettings_FromUnknown", [.handle .IUnknown, .result .DocumentSignatureSettings],
    [.convert 0 1 .IUnknown .DocumentSignatureSettings]⟩,
  -- 295-297
  ⟨"DocumentSignatureSettings_Release", [.handle .DocumentSignatureSettings],
    [.release 0 .DocumentSignatureSettings]⟩]

/-- src/vanillapdf/implementation/semantics/c_fields.cpp. -/
def fieldsFunctions : List ApiFunction := [
  -- 10-31
  ⟨"Field_GetType", [.handle .Field, .memory],
    [.check 0, .check 1, .work false [(1, none), (0, some .Field)]]⟩,
  -- 33-42
  ⟨"FieldCollection_GetSize", [.handle .FieldCollection, .memory],
    [.check 0, .check 1, .work true [(1, none), (0, some .FieldCollection)]]⟩,
  -- 44-55
  ⟨"FieldCollection_At", [.handle .FieldCollection, .value, .result .Field],
    [.check 0, .check 2, .work true [(2, none), (0, some .FieldCollection)], .hand 2 .Field]⟩,
  -- 57-70
  ⟨"SignatureField_GetValue", [.handle .SignatureField, .result .DigitalSignature],
    [.check 0, .check 1, .work true [(1, none), (0, some .SignatureField)], .hand 1 .DigitalSignature]⟩,
  -- 72-74
  ⟨"Field_ToButton", [.handle .Field, .result .ButtonField],
    [.convert 0 1 .Field .ButtonField]⟩,
  -- 76-78
  ⟨"Field_ToText", [.handle .Field, .result .TextField],
    [.convert 0 1 .Field .TextField]⟩,
  -- 80-82
  ⟨"Field_ToChoice", [.handle .Field, .result .ChoiceField],
    [.convert 0 1 .Field .ChoiceField]⟩,
  -- 84-86
  ⟨"Field_ToSignature", [.handle .Field, .result .SignatureField],
    [.convert 0 1 .Field .SignatureField]⟩,
  -- 88-90
  ⟨"FieldCollection_Release", [.handle .FieldCollection],
    [.release 0 .FieldCollection]⟩,
  -- 92-94
  ⟨"Field_Release", [.handle .Field],
    [.release 0 .Field]⟩,
  -- 96-98
  ⟨"ButtonField_Release", [.handle .ButtonField],
    [.release 0 .ButtonField]⟩,
  -- 100-102
  ⟨"TextField_Release", [.handle .TextField],
    [.release 0 .TextField]⟩,
  -- 104-106
  ⟨"ChoiceField_Release", [.handle .ChoiceField],
    [.release 0 .ChoiceField]⟩,
  -- 108-110
  ⟨"SignatureField_Release", [.handle .SignatureField],
    [.release 0 .SignatureField]⟩]

/-- src/vanillapdf/implementation/semantics/c_font.cpp. -/
def fontFunctions : List ApiFunction := [
  -- 11-27
  ⟨"Font_CreateFromObject", [.handle .DictionaryObject, .result .Font],
    [.check 0, .check 1, .work true [(1, none), (0, some .DictionaryObject)], .hand 1 .FontBase]⟩,
  -- 29-55
  ⟨"Font_GetFontType", [.handle .Font, .memory],
    [.check 0, .check 1, .work false [(1, none), (0, some .FontBase)]]⟩,
  -- 57-72
  ⟨"Font_GetUnicodeMap", [.handle .Font, .result .UnicodeCharacterMap],
    [.check 0, .check 1, .work true [(1, none), (0, some .FontBase)], .hand 1 .UnicodeCharacterMap]⟩,
  -- 74-76
  ⟨"Font_ToUnknown", [.handle .Font, .result .IUnknown],
    [.convert 0 1 .FontBase .IUnknown]⟩,
  -- 78-80
  ⟨"Font_FromUnknown", [.handle .IUnknown, .result .Font],
    [.convert 0 1 .IUnknown .FontBase]⟩,
  -- 82-84
  ⟨"Font_Release", [.handle .Font],
    [.release 0 .FontBase]⟩,
  -- 86-88
  ⟨"Type0Font_ToFont", [.handle .Type0Font, .result .Font],
    [.convert 0 1 .Type0Font .FontBase]⟩,
  -- 90-92
  ⟨"Type0Font_FromFont", [.handle .Font, .result .Type0Font],
    [.convert 0 1 .FontBase .Type0Font]⟩,
  -- 94-96
  ⟨"Type0Font_Release", [.handle .Type0Font],
    [.release 0 .Type0Font]⟩]

/-- src/vanillapdf/implementation/semantics/c_font_map.cpp. -/
def fontMapFunctions : List ApiFunction := [
  -- 11-24
  ⟨"FontMap_Contains", [.handle .FontMap, .handle .NameObject, .memory],
    [.check 0, .check 1, .check 2, .work true [(2, none), (0, some .FontMap), (1, some .NameObject)]]⟩,
  -- 26-41
  ⟨"FontMap_Find", [.handle .FontMap, .handle .NameObject, .result .Font],
    [.check 0, .check 1, .check 2, .work true [(2, none), (0, some .FontMap), (1, some .NameObject)], .hand 2 .FontBase]⟩,
  -- 43-45
  ⟨"FontMap_ToUnknown", [.handle .FontMap, .result .IUnknown],
    [.convert 0 1 .FontMap .IUnknown]⟩,
  -- 47-49
  ⟨"FontMap_FromUnknown", [.handle .IUnknown, .result .FontMap],
    [.convert 0 1 .IUnknown .FontMap]⟩,
  -- 51-53
  ⟨"FontMap_Release", [.handle .FontMap],
    [.release 0 .FontMap]⟩]

/-- src/vanillapdf/implementation/semantics/c_interactive_forms.cpp. -/
def interactiveFormsFunctions : List ApiFunction := [
  -- 10-26
  ⟨"InteractiveForm_GetFields", [.handle .InteractiveForm, .result .FieldCollection],
    [.check 0, .check 1, .work true [(1, none), (0, some .InteractiveForm)], .hand 1 .FieldCollection]⟩,
  -- 28-30
  ⟨"InteractiveForm_Release", [.handle .InteractiveForm],
    [.release 0 .InteractiveForm]⟩]

/-- src/vanillapdf/implementation/semantics/c_outline.cpp. -/
def outlineFunctions : List ApiFunction := [
  -- 11-27
  ⟨"OutlineBase_GetOutlineType", [.handle .OutlineBase, .memory],
    [.check 0, .check 1, .work false [(1, none), (0, some .OutlineBase)]]⟩,
  -- 29-31
  ⟨"OutlineBase_ToUnknown", [.handle .OutlineBase, .result .IUnknown],
    [.convert 0 1 .OutlineBase .IUnknown]⟩,
  -- 33-35
  ⟨"OutlineBase_FromUnknown", [.handle .IUnknown, .result .OutlineBase],
    [.convert 0 1 .IUnknown .OutlineBase]⟩,
  -- 37-39
  ⟨"OutlineBase_Release", [.handle .OutlineBase],
    [.release 0 .OutlineBase]⟩,
  -- 41-56
  ⟨"Outline_GetFirst", [.handle .Outline, .result .OutlineItem],
    [.check 0, .check 1, .work true [(1, none), (0, some .Outline)], .hand 1 .OutlineItem]⟩,
  -- 58-73
  ⟨"Outline_GetLast", [.handle .Outline, .result .OutlineItem],
    [.check 0, .check 1, .work true [(1, none), (0, some .Outline)], .hand 1 .OutlineItem]⟩,
  -- 75-90
  ⟨"Outline_GetCount", [.handle .Outline, .result .IntegerObject],
    [.check 0, .check 1, .work true [(1, none), (0, some .Outline)], .hand 1 .IntegerObject]⟩,
  -- 92-94
  ⟨"Outline_ToOutlineBase", [.handle .Outline, .result .OutlineBase],
    [.convert 0 1 .Outline .OutlineBase]⟩,
  -- 96-98
  ⟨"Outline_FromOutlineBase", [.handle .OutlineBase, .result .Outline],
    [.convert 0 1 .OutlineBase .Outline]⟩,
  -- 100-102
  ⟨"Outline_Release", [.handle .Outline],
    [.release 0 .Outline]⟩,
  -- 104-117
  ⟨"OutlineItem_GetTitle", [.handle .OutlineItem, .result .StringObject],
    [.check 0, .check 1, .work true [(1, none), (0, some .OutlineItem)], .hand 1 .StringObjectBase]⟩,
  -- 119-132
  ⟨"OutlineItem_GetParent", [.handle .OutlineItem, .result .OutlineBase],
    [.check 0, .check 1, .work true [(1, none), (0, some .OutlineItem)], .hand 1 .OutlineBase]⟩,
  -- 134-149
  ⟨"OutlineItem_GetPrev", [.handle .OutlineItem, .result .OutlineItem],
    [.check 0, .check 1, .work true [(1, none), (0, some .OutlineItem)], .hand 1 .OutlineItem]⟩,
  -- 151-166
  ⟨"OutlineItem_GetNext", [.handle .OutlineItem, .result .OutlineItem],
    [.check 0, .check 1, .work true [(1, none), (0, some .OutlineItem)], .hand 1 .OutlineItem]⟩,
  -- 168-183
  ⟨"OutlineItem_GetFirst", [.handle .OutlineItem, .result .OutlineItem],
    [.check 0, .check 1, .work true [(1, none), (0, some .OutlineItem)], .hand 1 .OutlineItem]⟩,
  -- 185-200
  ⟨"OutlineItem_GetLast", [.handle .OutlineItem, .result .OutlineItem],
    [.check 0, .check 1, .work true [(1, none), (0, some .OutlineItem)], .hand 1 .OutlineItem]⟩,
  -- 202-217
  ⟨"OutlineItem_GetCount", [.handle .OutlineItem, .result .IntegerObject],
    [.check 0, .check 1, .work true [(1, none), (0, some .OutlineItem)], .hand 1 .IntegerObject]⟩,
  -- 219-234
  ⟨"OutlineItem_GetColor", [.handle .OutlineItem, .result .OutlineItemColor],
    [.check 0, .check 1, .work true [(1, none), (0, some .OutlineItem)], .hand 1 .OutlineItemColor]⟩,
  -- 236-251
  ⟨"OutlineItem_GetFlags", [.handle .OutlineItem, .result .OutlineItemFlags],
    [.check 0, .check 1, .work true [(1, none), (0, some .OutlineItem)], .hand 1 .OutlineItemFlags]⟩,
  -- 253-255
  ⟨"OutlineItem_ToOutlineBase", [.handle .OutlineItem, .result .OutlineBase],
    [.convert 0 1 .OutlineItem .OutlineBase]⟩,
  -- 257-259
  ⟨"OutlineItem_FromOutlineBase", [.handle .OutlineBase, .result .OutlineItem],
    [.convert 0 1 .OutlineBase .OutlineItem]⟩,
  -- 261-263
  ⟨"OutlineItem_Release", [.handle .OutlineItem],
    [.release 0 .OutlineItem]⟩,
  -- 265-278
  ⟨"OutlineItemColor_GetRed", [.handle .OutlineItemColor, .result .IntegerObject],
    [.check 0, .check 1, .work true [(1, none), (0, some .OutlineItemColor)], .hand 1 .RealObject]⟩,
  -- 280-293
  ⟨"OutlineItemColor_GetGreen", [.handle .OutlineItemColor, .result .IntegerObject],
    [.check 0, .check 1, .work true [(1, none), (0, some .OutlineItemColor)], .hand 1 .RealObject]⟩,
  -- 295-308
  ⟨"OutlineItemColor_GetBlue", [.handle .OutlineItemColor, .result .IntegerObject],
    [.check 0, .check 1, .work true [(1, none), (0, some .OutlineItemColor)], .hand 1 .RealObject]⟩,
  -- 310-313
  ⟨"OutlineItemColor_Release", [.handle .OutlineItemColor],
    [.release 0 .OutlineItemColor]⟩,
  -- 315-323
  ⟨"OutlineItemFlags_IsItalic", [.handle .OutlineItemFlags, .memory],
    [.check 0, .check 1, .work false [(1, none), (0, some .OutlineItemFlags)]]⟩,
  -- 325-333
  ⟨"OutlineItemFlags_IsBold", [.handle .OutlineItemFlags, .memory],
    [.check 0, .check 1, .work false [(1, none), (0, some .OutlineItemFlags)]]⟩,
  -- 335-337
  ⟨"OutlineItemFlags_Release", [.handle .OutlineItemFlags],
    [.release 0 .OutlineItemFlags]⟩]

/-- src/vanillapdf/implementation/semantics/c_page_contents.cpp. -/
def pageContentsFunctions : List ApiFunction := [
  -- 12-25
  ⟨"PageContents_GetInstructionCollection", [.handle .PageContents, .result .ContentInstructionCollection],
    [.check 0, .check 1, .work true [(1, none), (0, some .PageContents)], .hand 1 .BaseInstructionCollection]⟩,
  -- 27-41
  ⟨"PageContents_RecalculateStreamData", [.handle .PageContents, .memory],
    [.check 0, .work true [(1, none), (0, some .PageContents)]]⟩,
  -- 43-55
  ⟨"PageContents_GetBaseObject", [.handle .PageContents, .result .Object],
    [.check 0, .check 1, .work true [(1, none), (0, some .PageContents)], .hand 1 .Object]⟩,
  -- 57-59
  ⟨"PageContents_ToUnknown", [.handle .PageContents, .result .IUnknown],
    [.convert 0 1 .PageContents .IUnknown]⟩,
  -- 61-63
  ⟨"PageContents_FromUnknown", [.handle .IUnknown, .result .PageContents],
    [.convert 0 1 .IUnknown .PageContents]⟩,
  -- 65-67
  ⟨"PageContents_Release", [.handle .PageContents],
    [.release 0 .PageContents]⟩]

/-- src/vanillapdf/implementation/semantics/c_page_labels.cpp. -/
def pageLabelsFunctions : List ApiFunction := [
  -- 11-22
  ⟨"PageLabels_Contains", [.handle .PageLabels, .value, .memory],
    [.check 0, .check 2, .work true [(2, none), (0, some .PageLabels)]]⟩,
  -- 24-37
  ⟨"PageLabels_At", [.handle .PageLabels, .value, .result .PageLabel],
    [.check 0, .check 2, .work true [(2, none), (0, some .PageLabels)], .hand 2 .PageLabel]⟩,
  -- 39-46
  ⟨"PageLabels_Release", [.handle .PageLabels],
    [.check 0, .work false [(0, some .PageLabels)]]⟩,
  -- 48-62
  ⟨"PageLabel_Prefix", [.handle .PageLabel, .result .StringObject],
    [.check 0, .work true [(1, none), (0, some .PageLabel)], .hand 1 .StringObjectBase]⟩,
  -- 64-78
  ⟨"PageLabel_Start", [.handle .PageLabel, .result .IntegerObject],
    [.check 0, .work true [(1, none), (0, some .PageLabel)], .hand 1 .IntegerObject]⟩,
  -- 80-107
  ⟨"PageLabel_Style", [.handle .PageLabel, .memory],
    [.check 0, .work true [(1, none), (0, some .PageLabel)]]⟩,
  -- 109-112
  ⟨"PageLabel_Release", [.handle .PageLabel],
    [.release 0 .PageLabel]⟩]

/-- src/vanillapdf/implementation/semantics/c_page_object.cpp. -/
def pageObjectFunctions : List ApiFunction := [
  -- 13-28
  ⟨"PageObject_GetContents", [.handle .PageObject, .result .PageContents],
    [.check 0, .check 1, .work true [(1, none), (0, some .PageObject)], .hand 1 .PageContents]⟩,
  -- 30-43
  ⟨"PageObject_CreateFromDocument", [.handle .Document, .result .PageObject],
    [.check 0, .check 1, .work true [(1, none), (0, some .Document)], .hand 1 .PageObject]⟩,
  -- 45-58
  ⟨"PageObject_CreateFromObject", [.handle .DictionaryObject, .result .PageObject],
    [.check 0, .check 1, .work true [(1, none), (0, some .DictionaryObject)], .hand 1 .PageObject]⟩,
  -- 60-73
  ⟨"PageObject_GetParent", [.handle .PageObject, .result .PageTree],
    [.check 0, .check 1, .work true [(1, none), (0, some .PageObject)], .hand 1 .PageNodeBase]⟩,
  -- 75-93
  ⟨"PageObject_GetResources", [.handle .PageObject, .result .ResourceDictionary],
    [.check 0, .check 1, .work true [(1, none), (0, some .PageObject)], .hand 1 .ResourceDictionary]⟩,
  -- 95-113
  ⟨"PageObject_GetAnnotations", [.handle .PageObject, .result .PageAnnotations],
    [.check 0, .check 1, .work true [(1, none), (0, some .PageObject)], .hand 1 .PageAnnotations]⟩,
  -- 115-133
  ⟨"PageObject_GetMediaBox", [.handle .PageObject, .result .Rectangle],
    [.check 0, .check 1, .work true [(1, none), (0, some .PageObject)], .hand 1 .Rectangle]⟩,
  -- 135-147
  ⟨"PageObject_SetMediaBox", [.handle .PageObject, .handle .Rectangle],
    [.check 0, .check 1, .work true [(0, some .PageObject), (1, some .Rectangle)]]⟩,
  -- 149-161
  ⟨"PageObject_GetBaseObject", [.handle .PageObject, .result .DictionaryObject],
    [.check 0, .check 1, .work true [(1, none), (0, some .PageObject)], .hand 1 .DictionaryObject]⟩,
  -- 163-165
  ⟨"PageObject_ToUnknown", [.handle .PageObject, .result .IUnknown],
    [.convert 0 1 .PageObject .IUnknown]⟩,
  -- 167-169
  ⟨"PageObject_FromUnknown", [.handle .IUnknown, .result .PageObject],
    [.convert 0 1 .IUnknown .PageObject]⟩,
  -- 171-173
  ⟨"PageObject_Release", [.handle .PageObject],
    [.release 0 .PageObject]⟩]

/-- src/vanillapdf/implementation/semantics/c_page_tree.cpp. -/
def pageTreeFunctions : List ApiFunction := [
  -- 11-22
  ⟨"PageTree_GetPageCount", [.handle .PageTree, .memory],
    [.check 0, .check 1, .work true [(1, none), (0, some .PageTree)]]⟩,
  -- 24-37
  ⟨"PageTree_GetPage", [.handle .PageTree, .value, .result .PageObject],
    [.check 0, .check 2, .work true [(2, none), (0, some .PageTree)], .hand 2 .PageObject]⟩,
  -- 39-51
  ⟨"PageTree_InsertPage", [.handle .PageTree, .value, .handle .PageObject],
    [.check 0, .check 2, .work true [(0, some .PageTree), (2, some .PageObject)]]⟩,
  -- 53-65
  ⟨"PageTree_AppendPage", [.handle .PageTree, .handle .PageObject],
    [.check 0, .check 1, .work true [(0, some .PageTree), (1, some .PageObject)]]⟩,
  -- 67-77
  ⟨"PageTree_RemovePage", [.handle .PageTree, .value],
    [.check 0, .work true [(0, some .PageTree)]]⟩,
  -- 79-81
  ⟨"PageTree_ToUnknown", [.handle .PageTree, .result .IUnknown],
    [.convert 0 1 .PageTree .IUnknown]⟩,
  -- 83-85
  ⟨"PageTree_FromUnknown", [.handle .IUnknown, .result .PageTree],
    [.convert 0 1 .IUnknown .PageTree]⟩,
  -- 87-90
  ⟨"PageTree_Release", [.handle .PageTree],
    [.release 0 .PageTree]⟩]

/-- src/vanillapdf/implementation/semantics/c_rectangle.cpp. -/
def rectangleFunctions : List ApiFunction := [
  -- 11-20
  ⟨"Rectangle_Create", [.result .Rectangle],
    [.check 0, .work true [(0, none)], .hand 0 .Rectangle]⟩,
  -- 22-33
  ⟨"Rectangle_GetLowerLeftX", [.handle .Rectangle, .memory],
    [.check 0, .check 1, .work true [(1, none), (0, some .Rectangle)]]⟩,
  -- 35-44
  ⟨"Rectangle_SetLowerLeftX", [.handle .Rectangle, .value],
    [.check 0, .work true [(0, some .Rectangle)]]⟩,
  -- 46-57
  ⟨"Rectangle_GetLowerLeftY", [.handle .Rectangle, .memory],
    [.check 0, .check 1, .work true [(1, none), (0, some .Rectangle)]]⟩,
  -- 59-68
  ⟨"Rectangle_SetLowerLeftY", [.handle .Rectangle, .value],
    [.check 0, .work true [(0, some .Rectangle)]]⟩,
  -- 70-81
  ⟨"Rectangle_GetUpperRightX", [.handle .Rectangle, .memory],
    [.check 0, .check 1, .work true [(1, none), (0, some .Rectangle)]]⟩,
  -- 83-92
  ⟨"Rectangle_SetUpperRightX", [.handle .Rectangle, .value],
    [.check 0, .work true [(0, some .Rectangle)]]⟩,
  -- 94-105
  ⟨"Rectangle_GetUpperRightY", [.handle .Rectangle, .memory],
    [.check 0, .check 1, .work true [(1, none), (0, some .Rectangle)]]⟩,
  -- 107-116
  ⟨"Rectangle_SetUpperRightY", [.handle .Rectangle, .value],
    [.check 0, .work true [(0, some .Rectangle)]]⟩,
  -- 118-120
  ⟨"Rectangle_ToUnknown", [.handle .Rectangle, .result .IUnknown],
    [.convert 0 1 .Rectangle .IUnknown]⟩,
  -- 122-124
  ⟨"Rectangle_FromUnknown", [.handle .IUnknown, .result .Rectangle],
    [.convert 0 1 .IUnknown .Rectangle]⟩,
  -- 126-128
  ⟨"Rectangle_Release", [.handle .Rectangle],
    [.release 0 .Rectangle]⟩]

/-- src/vanillapdf/implementation/semantics/c_resource_dictionary.cpp. -/
def resourceDictionaryFunctions : List ApiFunction := [
  -- 10-25
  ⟨"ResourceDictionary_GetFontMap", [.handle .ResourceDictionary, .result .FontMap],
    [.check 0, .check 1, .work true [(1, none), (0, some .ResourceDictionary)], .hand 1 .FontMap]⟩,
  -- 27-29
  ⟨"ResourceDictionary_ToUnknown", [.handle .ResourceDictionary, .result .IUnknown],
    [.convert 0 1 .ResourceDictionary .IUnknown]⟩,
  -- 31-33
  ⟨"ResourceDictionary_FromUnknown", [.handle .IUnknown, .result .ResourceDictionary],
    [.convert 0 1 .IUnknown .ResourceDictionary]⟩,
  -- 35-37
  ⟨"ResourceDictionary_Release", [.handle .ResourceDictionary],
    [.release 0 .ResourceDictionary]⟩]

/-- src/vanillapdf/implementation/semantics/c_viewer_preferences.cpp. -/
def viewerPreferencesFunctions : List ApiFunction := [
  -- 11-26
  ⟨"ViewerPreferences_GetHideToolbar", [.handle .ViewerPreferences, .result .BooleanObject],
    [.check 0, .check 1, .work true [(1, none), (0, some .ViewerPreferences)], .hand 1 .BooleanObject]⟩,
  -- 28-43
  ⟨"ViewerPreferences_GetHideMenubar", [.handle .ViewerPreferences, .result .BooleanObject],
    [.check 0, .check 1, .work true [(1, none), (0, some .ViewerPreferences)], .hand 1 .BooleanObject]⟩,
  -- 45-60
  ⟨"ViewerPreferences_GetHideWindowUI", [.handle .ViewerPreferences, .result .BooleanObject],
    [.check 0, .check 1, .work true [(1, none), (0, some .ViewerPreferences)], .hand 1 .BooleanObject]⟩,
  -- 62-77
  ⟨"ViewerPreferences_GetFitWindow", [.handle .ViewerPreferences, .result .BooleanObject],
    [.check 0, .check 1, .work true [(1, none), (0, some .ViewerPreferences)], .hand 1 .BooleanObject]⟩,
  -- 79-94
  ⟨"ViewerPreferences_GetCenterWindow", [.handle .ViewerPreferences, .result .BooleanObject],
    [.check 0, .check 1, .work true [(1, none), (0, some .ViewerPreferences)], .hand 1 .BooleanObject]⟩,
  -- 96-111
  ⟨"ViewerPreferences_GetDisplayDocTitle", [.handle .ViewerPreferences, .result .BooleanObject],
    [.check 0, .check 1, .work true [(1, none), (0, some .ViewerPreferences)], .hand 1 .BooleanObject]⟩,
  -- 113-141
  ⟨"ViewerPreferences_GetNonFullScreenPageMode", [.handle .ViewerPreferences, .memory],
    [.check 0, .check 1, .work true [(1, none), (0, some .ViewerPreferences)]]⟩,
  -- 143-167
  ⟨"ViewerPreferences_GetDirection", [.handle .ViewerPreferences, .memory],
    [.check 0, .check 1, .work true [(1, none), (0, some .ViewerPreferences)]]⟩,
  -- 169-184
  ⟨"ViewerPreferences_GetViewArea", [.handle .ViewerPreferences, .result .NameObject],
    [.check 0, .check 1, .work true [(1, none), (0, some .ViewerPreferences)], .hand 1 .NameObject]⟩,
  -- 186-201
  ⟨"ViewerPreferences_GetViewClip", [.handle .ViewerPreferences, .result .NameObject],
    [.check 0, .check 1, .work true [(1, none), (0, some .ViewerPreferences)], .hand 1 .NameObject]⟩,
  -- 203-218
  ⟨"ViewerPreferences_GetPrintArea", [.handle .ViewerPreferences, .result .NameObject],
    [.check 0, .check 1, .work true [(1, none), (0, some .ViewerPreferences)], .hand 1 .NameObject]⟩,
  -- 220-235
  ⟨"ViewerPreferences_GetPrintClip", [.handle .ViewerPreferences, .result .NameObject],
    [.check 0, .check 1, .work true [(1, none), (0, some .ViewerPreferences)], .hand 1 .NameObject]⟩,
  -- 237-261
  ⟨"ViewerPreferences_GetPrintScaling", [.handle .ViewerPreferences, .memory],
    [.check 0, .check 1, .work true [(1, none), (0, some .ViewerPreferences)]]⟩,
  -- 263-289
  ⟨"ViewerPreferences_GetDuplex", [.handle .ViewerPreferences, .memory],
    [.check 0, .check 1, .work true [(1, none), (0, some .ViewerPreferences)]]⟩,
  -- 291-306
  ⟨"ViewerPreferences_GetPickTrayByPDFSize", [.handle .ViewerPreferences, .result .BooleanObject],
    [.check 0, .check 1, .work true [(1, none), (0, some .ViewerPreferences)], .hand 1 .BooleanObject]⟩,
  -- 308-323
  ⟨"ViewerPreferences_GetPrintPageRange", [.handle .ViewerPreferences, .result .PageRange],
    [.check 0, .check 1, .work true [(1, none), (0, some .ViewerPreferences)], .hand 1 .PageRange]⟩,
  -- 325-340
  ⟨"ViewerPreferences_GetNumCopies", [.handle .ViewerPreferences, .result .IntegerObject],
    [.check 0, .check 1, .work true [(1, none), (0, some .ViewerPreferences)], .hand 1 .IntegerObject]⟩,
  -- 342-345
  ⟨"ViewerPreferences_Release", [.handle .ViewerPreferences],
    [.release 0 .ViewerPreferences]⟩,
  -- 347-358
  ⟨"PageRange_GetSize", [.handle .PageRange, .memory],
    [.check 0, .check 1, .work true [(1, none), (0, some .PageRange)]]⟩,
  -- 360-373
  ⟨"PageRange_GetSubrange", [.handle .PageRange, .value, .result .PageSubRange],
    [.check 0, .check 2, .work true [(2, none), (0, some .PageRange)], .hand 2 .PageRange_SubRange]⟩,
  -- 375-388
  ⟨"PageSubRange_GetFirstPage", [.handle .PageSubRange, .result .IntegerObject],
    [.check 0, .check 1, .work true [(1, none), (0, some .PageRange_SubRange)], .hand 1 .IntegerObject]⟩,
  -- 390-403
  ⟨"PageSubRange_GetLastPage", [.handle .PageSubRange, .result .IntegerObject],
    [.check 0, .check 1, .work true [(1, none), (0, some .PageRange_SubRange)], .hand 1 .IntegerObject]⟩,
  -- 405-408
  ⟨"PageSubRange_Release", [.handle .PageSubRange],
    [.release 0 .PageRange_SubRange]⟩,
  -- 410-413
  ⟨"PageRange_Release", [.handle .PageRange],
    [.release 0 .PageRange]⟩]

/-- src/vanillapdf/implementation/syntax/c_array_object.cpp. -/
def arrayObjectFunctions : List ApiFunction := [
  -- 11-20
  ⟨"ArrayObject_Create", [.result .ArrayObject],
    [.check 0, .work true [(0, none)], .hand 0 .MixedArrayObject]⟩,
  -- 22-36
  ⟨"ArrayObject_GetValue", [.handle .ArrayObject, .value, .result .Object],
    [.check 0, .check 2, .work true [(2, none), (0, some .MixedArrayObject)], .hand 2 .Object]⟩,
  -- 38-53
  ⟨"ArrayObject_SetValue", [.handle .ArrayObject, .value, .handle .Object],
    [.check 0, .check 2, .work true [(0, some .MixedArrayObject), (2, some .Object)]]⟩,
  -- 55-63
  ⟨"ArrayObject_GetSize", [.handle .ArrayObject, .memory],
    [.check 0, .check 1, .work false [(1, none), (0, some .MixedArrayObject)]]⟩,
  -- 65-82
  ⟨"ArrayObject_Append", [.handle .ArrayObject, .handle .Object],
    [.check 0, .check 1, .work true [(0, some .MixedArrayObject), (1, some .Object)]]⟩,
  -- 84-101
  ⟨"ArrayObject_Insert", [.handle .ArrayObject, .value, .handle .Object],
    [.check 0, .check 2, .work true [(0, some .MixedArrayObject), (2, some .Object)]]⟩,
  -- 103-117
  ⟨"ArrayObject_Remove", [.handle .ArrayObject, .value],
    [.check 0, .work true [(0, some .MixedArrayObject)]]⟩,
  -- 119-127
  ⟨"ArrayObject_Clear", [.handle .ArrayObject],
    [.check 0, .work true [(0, some .MixedArrayObject)]]⟩,
  -- 129-131
  ⟨"ArrayObject_ToObject", [.handle .ArrayObject, .result .Object],
    [.convert 0 1 .MixedArrayObject .Object]⟩,
  -- 133-135
  ⟨"ArrayObject_FromObject", [.handle .Object, .result .ArrayObject],
    [.convert 0 1 .Object .MixedArrayObject]⟩,
  -- 137-140
  ⟨"ArrayObject_Release", [.handle .ArrayObject],
    [.release 0 .MixedArrayObject]⟩]

/-- src/vanillapdf/implementation/syntax/c_boolean_object.cpp. -/
def booleanObjectFunctions : List ApiFunction := [
  -- 11-20
  ⟨"BooleanObject_Create", [.result .BooleanObject],
    [.check 0, .work true [(0, none)], .hand 0 .BooleanObject]⟩,
  -- 22-30
  ⟨"BooleanObject_GetValue", [.handle .BooleanObject, .memory],
    [.check 0, .check 1, .work false [(1, none), (0, some .BooleanObject)]]⟩,
  -- 32-45
  ⟨"BooleanObject_SetValue", [.handle .BooleanObject, .value],
    [.check 0, .work false [(0, some .BooleanObject)]]⟩,
  -- 47-49
  ⟨"BooleanObject_ToObject", [.handle .BooleanObject, .result .Object],
    [.convert 0 1 .BooleanObject .Object]⟩,
  -- 51-53
  ⟨"BooleanObject_FromObject", [.handle .Object, .result .BooleanObject],
    [.convert 0 1 .Object .BooleanObject]⟩,
  -- 55-58
  ⟨"BooleanObject_Release", [.handle .BooleanObject],
    [.release 0 .BooleanObject]⟩]

/-- src/vanillapdf/implementation/syntax/c_dictionary_object.cpp. -/
def dictionaryObjectFunctions : List ApiFunction := [
  -- 11-21
  ⟨"DictionaryObject_Create", [.result .DictionaryObject],
    [.check 0, .work true [(0, none)], .hand 0 .DictionaryObject]⟩,
  -- 23-30
  ⟨"DictionaryObject_GetSize", [.handle .DictionaryObject, .memory],
    [.check 0, .check 1, .work false [(1, none), (0, some .DictionaryObject)]]⟩,
  -- 32-48
  ⟨"DictionaryObject_Find", [.handle .DictionaryObject, .handle .NameObject, .result .Object],
    [.check 0, .check 1, .check 2, .work true [(2, none), (0, some .DictionaryObject), (1, some .NameObject)], .hand 2 .Object]⟩,
  -- 50-79
  ⟨"DictionaryObject_TryFind", [.handle .DictionaryObject, .handle .NameObject, .memory, .result .Object],
    [.check 0, .check 1, .check 2, .check 3, .work true [(2, none), (3, none), (0, some .DictionaryObject), (1, some .NameObject)], .hand 3 .Object]⟩,
  -- 81-94
  ⟨"DictionaryObject_GetIterator", [.handle .DictionaryObject, .result .DictionaryObjectIterator],
    [.check 0, .check 1, .work true [(1, none), (0, some .DictionaryObject)], .hand 1 .DictionaryObject_Iterator]⟩,
  -- 96-107
  ⟨"DictionaryObjectIterator_Next", [.handle .DictionaryObjectIterator],
    [.check 0, .work true [(0, some .DictionaryObject_Iterator)]]⟩,
  -- 109-111
  ⟨"DictionaryObjectIterator_ToUnknown", [.handle .DictionaryObjectIterator, .result .IUnknown],
    [.convert 0 1 .DictionaryObject_Iterator .IUnknown]⟩,
  -- 113-115
  ⟨"DictionaryObjectIterator_FromUnknown", [.handle .IUnknown, .result .DictionaryObjectIterator],
    [.convert 0 1 .IUnknown .DictionaryObject_Iterator]⟩,
  -- 117-121
  ⟨"DictionaryObjectIterator_Release", [.handle .DictionaryObjectIterator],
    [.release 0 .DictionaryObject_Iterator]⟩,
  -- 123-138
  ⟨"DictionaryObjectIterator_GetKey", [.handle .DictionaryObjectIterator, .result .NameObject],
    [.check 0, .check 1, .work true [(1, none), (0, some .DictionaryObject_Iterator)], .hand 1 .NameObject]⟩,
  -- 140-156
  ⟨"DictionaryObjectIterator_GetValue", [.handle .DictionaryObjectIterator, .result .Object],
    [.check 0, .check 1, .work true [(1, none), (0, some .DictionaryObject_Iterator)], .hand 1 .Object]⟩,
  -- 158-175
  ⟨"DictionaryObjectIterator_IsValid", [.handle .DictionaryObjectIterator, .memory],
    [.check 0, .check 1, .work true [(1, none), (0, some .DictionaryObject_Iterator)]]⟩,
  -- 177-189
  ⟨"DictionaryObject_Remove", [.handle .DictionaryObject, .handle .NameObject, .memory],
    [.check 0, .check 1, .work true [(2, none), (0, some .DictionaryObject), (1, some .NameObject)]]⟩,
  -- 191-199
  ⟨"DictionaryObject_Clear", [.handle .DictionaryObject],
    [.check 0, .work true [(0, some .DictionaryObject)]]⟩,
  -- 201-220
  ⟨"DictionaryObject_Insert", [.handle .DictionaryObject, .handle .NameObject, .handle .Object, .value],
    [.check 0, .check 1, .check 2, .work true [(0, some .DictionaryObject), (1, some .NameObject), (2, some .Object)]]⟩,
  -- 222-239
  ⟨"DictionaryObject_InsertConst", [.handle .DictionaryObject, .handle .NameObject, .handle .Object, .value],
    [.check 0, .check 1, .check 2, .work true [(0, some .DictionaryObject), (1, some .NameObject), (2, some .Object)]]⟩,
  -- 241-254
  ⟨"DictionaryObject_Contains", [.handle .DictionaryObject, .handle .NameObject, .memory],
    [.check 0, .check 1, .check 2, .work true [(2, none), (0, some .DictionaryObject), (1, some .NameObject)]]⟩,
  -- 256-258
  ⟨"DictionaryObject_ToObject", [.handle .DictionaryObject, .result .Object],
    [.convert 0 1 .DictionaryObject .Object]⟩,
  -- 260-262
  ⟨"DictionaryObject_FromObject", [.handle .Object, .result .DictionaryObject],
    [.convert 0 1 .Object .DictionaryObject]⟩,
  -- 264-267
  ⟨"DictionaryObject_Release", [.handle .DictionaryObject],
    [.release 0 .DictionaryObject]⟩]

/-- src/vanillapdf/implementation/syntax/c_file.cpp. -/
def fileFunctions : List ApiFunction := [
  -- 12-24
  ⟨"File_Open", [.memory, .result .File],
    [.check 0, .check 1, .work true [(0, none), (1, none)], .hand 1 .File]⟩,
  -- 26-39
  ⟨"File_OpenStream", [.handle .InputOutputStream, .memory, .result .File],
    [.check 0, .check 1, .check 2, .work true [(1, none), (2, none), (0, some .IInputOutputStream)], .hand 2 .File]⟩,
  -- 41-53
  ⟨"File_Create", [.memory, .result .File],
    [.check 0, .check 1, .work true [(0, none), (1, none)], .hand 1 .File]⟩,
  -- 55-68
  ⟨"File_CreateStream", [.handle .InputOutputStream, .memory, .result .File],
    [.check 0, .check 1, .check 2, .work true [(1, none), (2, none), (0, some .IInputOutputStream)], .hand 2 .File]⟩,
  -- 70-80
  ⟨"File_Initialize", [.handle .File],
    [.check 0, .work true [(0, some .File)]]⟩,
  -- 82-118
  ⟨"File_GetVersion", [.handle .File, .memory],
    [.check 0, .check 1, .work true [(1, none), (0, some .File)]]⟩,
  -- 120-133
  ⟨"File_GetFilename", [.handle .File, .result .Buffer],
    [.check 0, .check 1, .work true [(1, none), (0, some .File)], .hand 1 .Buffer]⟩,
  -- 135-148
  ⟨"File_XrefChain", [.handle .File, .result .XrefChain],
    [.check 0, .check 1, .work true [(1, none), (0, some .File)], .hand 1 .XrefChain]⟩,
  -- 150-165
  ⟨"File_GetIndirectObject", [.handle .File, .value, .value, .result .Object],
    [.check 0, .check 3, .work true [(3, none), (0, some .File)], .hand 3 .Object]⟩,
  -- 167-180
  ⟨"File_AllocateNewEntry", [.handle .File, .result .XrefUsedEntry],
    [.check 0, .check 1, .work true [(1, none), (0, some .File)], .hand 1 .XrefUsedEntry]⟩,
  -- 182-189
  ⟨"File_Release", [.handle .File],
    [.check 0, .work false [(0, some .File)]]⟩,
  -- 191-203
  ⟨"File_IsEncrypted", [.handle .File, .memory],
    [.check 0, .check 1, .work true [(1, none), (0, some .File)]]⟩,
  -- 205-226
  ⟨"File_SetEncryptionPassword", [.handle .File, .optional],
    [.check 0, .work true [(0, some .File)]]⟩,
  -- 228-246
  ⟨"File_SetEncryptionKey", [.handle .File, .handle .EncryptionKey],
    [.check 0, .check 1, .work true [(0, some .File), (1, some .IEncryptionKey)]]⟩,
  -- 248-250
  ⟨"File_ToUnknown", [.handle .File, .result .IUnknown],
    [.convert 0 1 .File .IUnknown]⟩,
  -- 252-254
  ⟨"File_FromUnknown", [.handle .IUnknown, .result .File],
    [.convert 0 1 .IUnknown .File]⟩]

/-- src/vanillapdf/implementation/syntax/c_file_writer.cpp. -/
def fileWriterFunctions : List ApiFunction := [
  -- 11-20
  ⟨"FileWriter_Create", [.result .FileWriter],
    [.check 0, .work true [(0, none)], .hand 0 .FileWriter]⟩,
  -- 22-35
  ⟨"FileWriter_Write", [.handle .FileWriter, .handle .File, .handle .File],
    [.check 0, .check 1, .check 2, .work true [(0, some .FileWriter), (1, some .File), (2, some .File)]]⟩,
  -- 37-49
  ⟨"FileWriter_WriteIncremental", [.handle .FileWriter, .handle .File, .handle .File],
    [.check 0, .check 1, .check 2, .work true [(0, some .FileWriter), (1, some .File), (2, some .File)]]⟩,
  -- 51-61
  ⟨"FileWriter_Subscribe", [.handle .FileWriter, .handle .FileWriterObserver],
    [.check 0, .check 1, .work true [(0, some .FileWriter), (1, some .IFileWriterObserver)]]⟩,
  -- 63-73
  ⟨"FileWriter_Unsubscribe", [.handle .FileWriter, .handle .FileWriterObserver],
    [.check 0, .check 1, .work true [(0, some .FileWriter), (1, some .IFileWriterObserver)]]⟩,
  -- 75-77
  ⟨"FileWriter_ToUnknown", [.handle .FileWriter, .result .IUnknown],
    [.convert 0 1 .FileWriter .IUnknown]⟩,
  -- 79-81
  ⟨"FileWriter_FromUnknown", [.handle .IUnknown, .result .FileWriter],
    [.convert 0 1 .IUnknown .FileWriter]⟩,
  -- 83-85
  ⟨"FileWriter_Release", [.handle .FileWriter],
    [.release 0 .FileWriter]⟩]

/-- src/vanillapdf/implementation/syntax/c_file_writer_observer.cpp. -/
def fileWriterObserverFunctions : List ApiFunction := [
  -- 210-237
  ⟨"FileWriterObserver_CreateCustom", [.optional, .optional, .optional, .optional, .optional, .optional, .optional, .optional, .optional, .optional, .optional, .result .FileWriterObserver],
    [.check 11, .work true [(11, none)], .hand 11 .IFileWriterObserver]⟩,
  -- 239-241
  ⟨"FileWriterObserver_ToUnknown", [.handle .FileWriterObserver, .result .IUnknown],
    [.convert 0 1 .IFileWriterObserver .IUnknown]⟩,
  -- 243-245
  ⟨"FileWriterObserver_FromUnknown", [.handle .IUnknown, .result .FileWriterObserver],
    [.convert 0 1 .IUnknown .IFileWriterObserver]⟩,
  -- 247-249
  ⟨"FileWriterObserver_Release", [.handle .FileWriterObserver],
    [.release 0 .IFileWriterObserver]⟩]

/-- src/vanillapdf/implementation/syntax/c_filter.cpp. -/
def filterFunctions : List ApiFunction := [
  -- 19-33
  ⟨"FilterBase_Encode", [.handle .FilterBase, .handle .Buffer, .result .Buffer],
    [.check 0, .check 1, .check 2, .work true [(2, none), (0, some .FilterBase), (1, some .Buffer)], .hand 2 .Buffer]⟩,
  -- 35-51
  ⟨"FilterBase_EncodeParams", [.handle .FilterBase, .handle .Buffer, .handle .DictionaryObject, .result .Buffer],
    [.check 0, .check 2, .check 1, .check 3, .work true [(3, none), (0, some .FilterBase), (2, some .DictionaryObject), (1, some .Buffer)], .hand 3 .Buffer]⟩,
  -- 53-67
  ⟨"FilterBase_Decode", [.handle .FilterBase, .handle .Buffer, .result .Buffer],
    [.check 0, .check 1, .check 2, .work true [(2, none), (0, some .FlateDecodeFilter), (1, some .Buffer)], .hand 2 .Buffer]⟩,
  -- 69-71
  ⟨"FilterBase_Release", [.handle .FilterBase],
    [.release 0 .FilterBase]⟩,
  -- 75-85
  ⟨"FlateDecodeFilter_Create", [.result .FlateDecodeFilter],
    [.check 0, .work true [(0, none)], .hand 0 .FlateDecodeFilter]⟩,
  -- 87-93
  ⟨"FlateDecodeFilter_Encode", [.handle .FlateDecodeFilter, .handle .Buffer, .result .Buffer],
    [.check 0, .check 1, .check 2, .work true [(2, none), (0, some .FilterBase), (1, some .Buffer)], .hand 2 .Buffer]⟩,
  -- 95-101
  ⟨"FlateDecodeFilter_EncodeParams", [.handle .FlateDecodeFilter, .handle .Buffer, .handle .DictionaryObject, .result .Buffer],
    [.check 0, .check 2, .check 1, .check 3, .work true [(3, none), (0, some .FilterBase), (2, some .DictionaryObject), (1, some .Buffer)], .hand 3 .Buffer]⟩,
  -- 103-109
  ⟨"FlateDecodeFilter_Decode", [.handle .FlateDecodeFilter, .handle .Buffer, .result .Buffer],
    [.check 0, .check 1, .check 2, .work true [(2, none), (0, some .FlateDecodeFilter), (1, some .Buffer)], .hand 2 .Buffer]⟩,
  -- 111-113
  ⟨"FlateDecodeFilter_Release", [.handle .FlateDecodeFilter],
    [.release 0 .FlateDecodeFilter]⟩,
  -- 117-127
  ⟨"DCTDecodeFilter_Create", [.result .DCTDecodeFilter],
    [.check 0, .work true [(0, none)], .hand 0 .DCTDecodeFilter]⟩,
  -- 129-135
  ⟨"DCTDecodeFilter_Encode", [.handle .DCTDecodeFilter, .handle .Buffer, .result .Buffer],
    [.check 0, .check 1, .check 2, .work true [(2, none), (0, some .FilterBase), (1, some .Buffer)], .hand 2 .Buffer]⟩,
  -- 137-143
  ⟨"DCTDecodeFilter_EncodeParams", [.handle .DCTDecodeFilter, .handle .Buffer, .handle .DictionaryObject, .result .Buffer],
    [.check 0, .check 2, .check 1, .check 3, .work true [(3, none), (0, some .FilterBase), (2, some .DictionaryObject), (1, some .Buffer)], .hand 3 .Buffer]⟩,
  -- 145-151
  ⟨"DCTDecodeFilter_Decode", [.handle .DCTDecodeFilter, .handle .Buffer, .result .Buffer],
    [.check 0, .check 1, .check 2, .work true [(2, none), (0, some .FlateDecodeFilter), (1, some .Buffer)], .hand 2 .Buffer]⟩,
  -- 153-155
  ⟨"DCTDecodeFilter_Release", [.handle .DCTDecodeFilter],
    [.release 0 .DCTDecodeFilter]⟩,
  -- 159-169
  ⟨"ASCII85DecodeFilter_Create", [.result .ASCII85DecodeFilter],
    [.check 0, .work true [(0, none)], .hand 0 .ASCII85DecodeFilter]⟩,
  -- 171-177
  ⟨"ASCII85DecodeFilter_Encode", [.handle .ASCII85DecodeFilter, .handle .Buffer, .result .Buffer],
    [.check 0, .check 1, .check 2, .work true [(2, none), (0, some .FilterBase), (1, some .Buffer)], .hand 2 .Buffer]⟩,
  -- 179-185
  ⟨"ASCII85DecodeFilter_EncodeParams", [.handle .ASCII85DecodeFilter, .handle .Buffer, .handle .DictionaryObject, .result .Buffer],
    [.check 0, .check 2, .check 1, .check 3, .work true [(3, none), (0, some .FilterBase), (2, some .DictionaryObject), (1, some .Buffer)], .hand 3 .Buffer]⟩,
  -- 187-193
  ⟨"ASCII85DecodeFilter_Decode", [.handle .ASCII85DecodeFilter, .handle .Buffer, .result .Buffer],
    [.check 0, .check 1, .check 2, .work true [(2, none), (0, some .FlateDecodeFilter), (1, some .Buffer)], .hand 2 .Buffer]⟩,
  -- 195-197
  ⟨"ASCII85DecodeFilter_Release", [.handle .ASCII85DecodeFilter],
    [.release 0 .ASCII85DecodeFilter]⟩,
  -- 201-211
  ⟨"ASCIIHexDecodeFilter_Create", [.result .ASCIIHexDecodeFilter],
    [.check 0, .work true [(0, none)], .hand 0 .ASCIIHexDecodeFilter]⟩,
  -- 213-219
  ⟨"ASCIIHexDecodeFilter_Encode", [.handle .ASCIIHexDecodeFilter, .handle .Buffer, .result .Buffer],
    [.check 0, .check 1, .check 2, .work true [(2, none), (0, some .FilterBase), (1, some .Buffer)], .hand 2 .Buffer]⟩,
  -- 221-227
  ⟨"ASCIIHexDecodeFilter_EncodeParams", [.handle .ASCIIHexDecodeFilter, .handle .Buffer, .handle .DictionaryObject, .result .Buffer],
    [.check 0, .check 2, .check 1, .check 3, .work true [(3, none), (0, some .FilterBase), (2, some .DictionaryObject), (1, some .Buffer)], .hand 3 .Buffer]⟩,
  -- 229-235
  ⟨"ASCIIHexDecodeFilter_Decode", [.handle .ASCIIHexDecodeFilter, .handle .Buffer, .result .Buffer],
    [.check 0, .check 1, .check 2, .work true [(2, none), (0, some .FlateDecodeFilter), (1, some .Buffer)], .hand 2 .Buffer]⟩,
  -- 237-239
  ⟨"ASCIIHexDecodeFilter_Release", [.handle .ASCIIHexDecodeFilter],
    [.release 0 .ASCIIHexDecodeFilter]⟩,
  -- 243-253
  ⟨"LZWDecodeFilter_Create", [.result .LZWDecodeFilter],
    [.check 0, .work true [(0, none)], .hand 0 .LZWDecodeFilter]⟩,
  -- 255-261
  ⟨"LZWDecodeFilter_Encode", [.handle .LZWDecodeFilter, .handle .Buffer, .result .Buffer],
    [.check 0, .check 1, .check 2, .work true [(2, none), (0, some .FilterBase), (1, some .Buffer)], .hand 2 .Buffer]⟩,
  -- 263-269
  ⟨"LZWDecodeFilter_EncodeParams", [.handle .LZWDecodeFilter, .handle .Buffer, .handle .DictionaryObject, .result .Buffer],
    [.check 0, .check 2, .check 1, .check 3, .work true [(3, none), (0, some .FilterBase), (2, some .DictionaryObject), (1, some .Buffer)], .hand 3 .Buffer]⟩,
  -- 271-277
  ⟨"LZWDecodeFilter_Decode", [.handle .LZWDecodeFilter, .handle .Buffer, .result .Buffer],
    [.check 0, .check 1, .check 2, .work true [(2, none), (0, some .FlateDecodeFilter), (1, some .Buffer)], .hand 2 .Buffer]⟩,
  -- 279-281
  ⟨"LZWDecodeFilter_Release", [.handle .LZWDecodeFilter],
    [.release 0 .LZWDecodeFilter]⟩,
  -- 285-295
  ⟨"JPXDecodeFilter_Create", [.result .JPXDecodeFilter],
    [.check 0, .work true [(0, none)], .hand 0 .JPXDecodeFilter]⟩,
  -- 297-303
  ⟨"JPXDecodeFilter_Encode", [.handle .JPXDecodeFilter, .handle .Buffer, .result .Buffer],
    [.check 0, .check 1, .check 2, .work true [(2, none), (0, some .FilterBase), (1, some .Buffer)], .hand 2 .Buffer]⟩,
  -- 305-311
  ⟨"JPXDecodeFilter_EncodeParams", [.handle .JPXDecodeFilter, .handle .Buffer, .handle .DictionaryObject, .result .Buffer],
    [.check 0, .check 2, .check 1, .check 3, .work true [(3, none), (0, some .FilterBase), (2, some .DictionaryObject), (1, some .Buffer)], .hand 3 .Buffer]⟩,
  -- 313-319
  ⟨"JPXDecodeFilter_Decode", [.handle .JPXDecodeFilter, .handle .Buffer, .result .Buffer],
    [.check 0, .check 1, .check 2, .work true [(2, none), (0, some .FlateDecodeFilter), (1, some .Buffer)], .hand 2 .Buffer]⟩,
  -- 321-323
  ⟨"JPXDecodeFilter_Release", [.handle .JPXDecodeFilter],
    [.release 0 .JPXDecodeFilter]⟩]

/-- src/vanillapdf/implementation/syntax/c_indirect_reference_object.cpp. -/
def indirectReferenceObjectFunctions : List ApiFunction := [
  -- 11-20
  ⟨"IndirectReferenceObject_Create", [.result .IndirectReferenceObject],
    [.check 0, .work true [(0, none)], .hand 0 .IndirectReferenceObject]⟩,
  -- 22-35
  ⟨"IndirectReferenceObject_GetReferencedObject", [.handle .IndirectReferenceObject, .result .Object],
    [.check 0, .check 1, .work true [(1, none), (0, some .IndirectReferenceObject)], .hand 1 .Object]⟩,
  -- 37-47
  ⟨"IndirectReferenceObject_SetReferencedObject", [.handle .IndirectReferenceObject, .handle .Object],
    [.check 0, .check 1, .work true [(0, some .IndirectReferenceObject), (1, some .Object)]]⟩,
  -- 49-57
  ⟨"IndirectReferenceObject_GetReferencedObjectNumber", [.handle .IndirectReferenceObject, .memory],
    [.check 0, .check 1, .work false [(1, none), (0, some .IndirectReferenceObject)]]⟩,
  -- 59-67
  ⟨"IndirectReferenceObject_GetReferencedGenerationNumber", [.handle .IndirectReferenceObject, .memory],
    [.check 0, .check 1, .work false [(1, none), (0, some .IndirectReferenceObject)]]⟩,
  -- 69-71
  ⟨"IndirectReferenceObject_ToObject", [.handle .IndirectReferenceObject, .result .Object],
    [.convert 0 1 .IndirectReferenceObject .Object]⟩,
  -- 73-75
  ⟨"IndirectReferenceObject_FromObject", [.handle .Object, .result .IndirectReferenceObject],
    [.convert 0 1 .Object .IndirectReferenceObject]⟩,
  -- 77-79
  ⟨"IndirectReferenceObject_Release", [.handle .IndirectReferenceObject],
    [.release 0 .IndirectReferenceObject]⟩]

/-- src/vanillapdf/implementation/syntax/c_integer_object.cpp. -/
def integerObjectFunctions : List ApiFunction := [
  -- 11-20
  ⟨"IntegerObject_Create", [.result .IntegerObject],
    [.check 0, .work true [(0, none)], .hand 0 .IntegerObject]⟩,
  -- 22-33
  ⟨"IntegerObject_GetIntegerValue", [.handle .IntegerObject, .memory],
    [.check 0, .check 1, .work true [(1, none), (0, some .IntegerObject)]]⟩,
  -- 35-46
  ⟨"IntegerObject_GetUnsignedIntegerValue", [.handle .IntegerObject, .memory],
    [.check 0, .check 1, .work true [(1, none), (0, some .IntegerObject)]]⟩,
  -- 48-58
  ⟨"IntegerObject_SetIntegerValue", [.handle .IntegerObject, .value],
    [.check 0, .work true [(0, some .IntegerObject)]]⟩,
  -- 60-70
  ⟨"IntegerObject_SetUnsignedIntegerValue", [.handle .IntegerObject, .value],
    [.check 0, .work true [(0, some .IntegerObject)]]⟩,
  -- 72-74
  ⟨"IntegerObject_ToObject", [.handle .IntegerObject, .result .Object],
    [.convert 0 1 .IntegerObject .Object]⟩,
  -- 76-94
  ⟨"IntegerObject_FromObject", [.handle .Object, .result .IntegerObject],
    [.check 0, .check 1, .work true [(1, none), (0, some .Object)], .hand 1 .IntegerObject]⟩,
  -- 96-99
  ⟨"IntegerObject_Release", [.handle .IntegerObject],
    [.release 0 .IntegerObject]⟩]

/-- src/vanillapdf/implementation/syntax/c_name_object.cpp. -/
def nameObjectFunctions : List ApiFunction := [
  -- 11-20
  ⟨"NameObject_Create", [.result .NameObject],
    [.check 0, .work true [(0, none)], .hand 0 .NameObject]⟩,
  -- 22-32
  ⟨"NameObject_CreateFromEncodedString", [.memory, .result .NameObject],
    [.check 0, .check 1, .work true [(0, none), (1, none)], .hand 1 .NameObject]⟩,
  -- 34-44
  ⟨"NameObject_CreateFromDecodedString", [.memory, .result .NameObject],
    [.check 0, .check 1, .work true [(0, none), (1, none)], .hand 1 .NameObject]⟩,
  -- 46-59
  ⟨"NameObject_GetValue", [.handle .NameObject, .result .Buffer],
    [.check 0, .check 1, .work true [(1, none), (0, some .NameObject)], .hand 1 .Buffer]⟩,
  -- 61-73
  ⟨"NameObject_SetValue", [.handle .NameObject, .handle .Buffer],
    [.check 0, .check 1, .work true [(0, some .NameObject), (1, some .Buffer)]]⟩,
  -- 75-87
  ⟨"NameObject_Equals", [.handle .NameObject, .handle .NameObject, .memory],
    [.check 0, .check 1, .check 2, .work true [(2, none), (0, some .NameObject), (1, some .NameObject)]]⟩,
  -- 89-99
  ⟨"NameObject_Hash", [.handle .NameObject, .memory],
    [.check 0, .check 1, .work true [(1, none), (0, some .NameObject)]]⟩,
  -- 101-103
  ⟨"NameObject_ToObject", [.handle .NameObject, .result .Object],
    [.convert 0 1 .NameObject .Object]⟩,
  -- 105-107
  ⟨"NameObject_FromObject", [.handle .Object, .result .NameObject],
    [.convert 0 1 .Object .NameObject]⟩,
  -- 109-112
  ⟨"NameObject_Release", [.handle .NameObject],
    [.release 0 .NameObject]⟩]

/-- src/vanillapdf/implementation/syntax/c_null_object.cpp. -/
def nullObjectFunctions : List ApiFunction := [
  -- 11-20
  ⟨"NullObject_Create", [.result .NullObject],
    [.check 0, .work true [(0, none)], .hand 0 .NullObject]⟩,
  -- 22-24
  ⟨"NullObject_ToObject", [.handle .NullObject, .result .Object],
    [.convert 0 1 .NullObject .Object]⟩,
  -- 26-28
  ⟨"NullObject_FromObject", [.handle .Object, .result .NullObject],
    [.convert 0 1 .Object .NullObject]⟩,
  -- 30-33
  ⟨"NullObject_Release", [.handle .NullObject],
    [.release 0 .NullObject]⟩]

/-- src/vanillapdf/implementation/syntax/c_object.cpp. -/
def objectFunctions : List ApiFunction := [
  -- 11-21
  ⟨"Object_TypeName", [.value, .memory],
    [.check 1, .work true [(1, none)]]⟩,
  -- 23-55
  ⟨"Object_GetObjectType", [.handle .Object, .memory],
    [.check 0, .check 1, .work false [(1, none), (0, some .Object)]]⟩,
  -- 57-65
  ⟨"Object_GetOffset", [.handle .Object, .memory],
    [.check 0, .check 1, .work false [(1, none), (0, some .Object)]]⟩,
  -- 67-80
  ⟨"Object_GetAttributeList", [.handle .Object, .result .ObjectAttributeList],
    [.check 0, .check 1, .work true [(1, none), (0, some .Object)], .hand 1 .AttributeList]⟩,
  -- 82-94
  ⟨"Object_ToString", [.handle .Object, .result .Buffer],
    [.check 0, .check 1, .work true [(1, none), (0, some .Object)], .hand 1 .Buffer]⟩,
  -- 96-108
  ⟨"Object_ToPdf", [.handle .Object, .result .Buffer],
    [.check 0, .check 1, .work true [(1, none), (0, some .Object)], .hand 1 .Buffer]⟩,
  -- 110-112
  ⟨"Object_ToUnknown", [.handle .Object, .result .IUnknown],
    [.convert 0 1 .Object .IUnknown]⟩,
  -- 114-116
  ⟨"Object_FromUnknown", [.handle .IUnknown, .result .Object],
    [.convert 0 1 .IUnknown .Object]⟩,
  -- 118-121
  ⟨"Object_Release", [.handle .Object],
    [.release 0 .Object]⟩]

/-- src/vanillapdf/implementation/syntax/c_object_attribute_list.cpp. -/
def objectAttributeListFunctions : List ApiFunction := [
  -- 11-20
  ⟨"ObjectAttributeList_Create", [.result .ObjectAttributeList],
    [.check 0, .work true [(0, none)], .hand 0 .AttributeList]⟩,
  -- 22-35
  ⟨"ObjectAttributeList_Add", [.handle .ObjectAttributeList, .handle .BaseObjectAttribute, .value],
    [.check 0, .check 1, .work true [(0, some .AttributeList), (1, some .BaseAttribute)]]⟩,
  -- 37-51
  ⟨"ObjectAttributeList_Remove", [.handle .ObjectAttributeList, .value, .memory],
    [.check 0, .check 2, .work true [(2, none), (0, some .AttributeList)]]⟩,
  -- 53-67
  ⟨"ObjectAttributeList_Contains", [.handle .ObjectAttributeList, .value, .memory],
    [.check 0, .check 2, .work true [(2, none), (0, some .AttributeList)]]⟩,
  -- 69-85
  ⟨"ObjectAttributeList_Get", [.handle .ObjectAttributeList, .value, .result .BaseObjectAttribute],
    [.check 0, .check 2, .work true [(2, none), (0, some .AttributeList)], .hand 2 .BaseAttribute]⟩,
  -- 87-96
  ⟨"ObjectAttributeList_Clear", [.handle .ObjectAttributeList],
    [.check 0, .work true [(0, some .AttributeList)]]⟩,
  -- 98-100
  ⟨"ObjectAttributeList_ToUnknown", [.handle .ObjectAttributeList, .result .IUnknown],
    [.convert 0 1 .AttributeList .IUnknown]⟩,
  -- 102-104
  ⟨"ObjectAttributeList_FromUnknown", [.handle .IUnknown, .result .ObjectAttributeList],
    [.convert 0 1 .IUnknown .AttributeList]⟩,
  -- 106-108
  ⟨"ObjectAttributeList_Release", [.handle .ObjectAttributeList],
    [.release 0 .AttributeList]⟩]

/-- src/vanillapdf/implementation/syntax/c_object_attributes.cpp. -/
def objectAttributesFunctions : List ApiFunction := [
  -- 32-54
  ⟨"BaseObjectAttribute_GetAttributeType", [.handle .BaseObjectAttribute, .memory],
    [.check 0, .check 1, .work false [(1, none), (0, some .BaseAttribute)]]⟩,
  -- 56-58
  ⟨"BaseObjectAttribute_ToUnknown", [.handle .BaseObjectAttribute, .result .IUnknown],
    [.convert 0 1 .BaseAttribute .IUnknown]⟩,
  -- 60-62
  ⟨"BaseObjectAttribute_FromUnknown", [.handle .IUnknown, .result .BaseObjectAttribute],
    [.convert 0 1 .IUnknown .BaseAttribute]⟩,
  -- 64-66
  ⟨"BaseObjectAttribute_Release", [.handle .BaseObjectAttribute],
    [.release 0 .BaseAttribute]⟩,
  -- 70-79
  ⟨"ImageMetadataObjectAttribute_Create", [.result .ImageMetadataObjectAttribute],
    [.check 0, .work true [(0, none)], .hand 0 .ImageMetadataObjectAttribute]⟩,
  -- 81-89
  ⟨"ImageMetadataObjectAttribute_GetColorComponents", [.handle .ImageMetadataObjectAttribute, .memory],
    [.check 0, .check 1, .work false [(1, none), (0, some .ImageMetadataObjectAttribute)]]⟩,
  -- 91-97
  ⟨"ImageMetadataObjectAttribute_SetColorComponents", [.handle .ImageMetadataObjectAttribute, .value],
    [.check 0, .work false [(0, some .ImageMetadataObjectAttribute)]]⟩,
  -- 99-108
  ⟨"ImageMetadataObjectAttribute_GetColorSpace", [.handle .ImageMetadataObjectAttribute, .memory],
    [.check 0, .check 1, .work false [(1, none), (0, some .ImageMetadataObjectAttribute)]]⟩,
  -- 110-118
  ⟨"ImageMetadataObjectAttribute_SetColorSpace", [.handle .ImageMetadataObjectAttribute, .value],
    [.check 0, .work false [(0, some .ImageMetadataObjectAttribute)]]⟩,
  -- 120-127
  ⟨"ImageMetadataObjectAttribute_GetWidth", [.handle .ImageMetadataObjectAttribute, .memory],
    [.check 0, .check 1, .work false [(1, none), (0, some .ImageMetadataObjectAttribute)]]⟩,
  -- 129-135
  ⟨"ImageMetadataObjectAttribute_SetWidth", [.handle .ImageMetadataObjectAttribute, .value],
    [.check 0, .work false [(0, some .ImageMetadataObjectAttribute)]]⟩,
  -- 137-144
  ⟨"ImageMetadataObjectAttribute_GetHeight", [.handle .ImageMetadataObjectAttribute, .memory],
    [.check 0, .check 1, .work false [(1, none), (0, some .ImageMetadataObjectAttribute)]]⟩,
  -- 146-152
  ⟨"ImageMetadataObjectAttribute_SetHeight", [.handle .ImageMetadataObjectAttribute, .value],
    [.check 0, .work false [(0, some .ImageMetadataObjectAttribute)]]⟩,
  -- 154-156
  ⟨"ImageMetadataObjectAttribute_ToBaseAttribute", [.handle .ImageMetadataObjectAttribute, .result .BaseObjectAttribute],
    [.convert 0 1 .ImageMetadataObjectAttribute .BaseAttribute]⟩,
  -- 158-160
  ⟨"ImageMetadataObjectAttribute_FromBaseAttribute", [.handle .BaseObjectAttribute, .result .ImageMetadataObjectAttribute],
    [.convert 0 1 .BaseAttribute .ImageMetadataObjectAttribute]⟩,
  -- 162-164
  ⟨"ImageMetadataObjectAttribute_Release", [.handle .ImageMetadataObjectAttribute],
    [.release 0 .ImageMetadataObjectAttribute]⟩,
  -- 168-177
  ⟨"SerializationOverrideObjectAttribute_Create", [.result .SerializationOverrideObjectAttribute],
    [.check 0, .work true [(0, none)], .hand 0 .SerializationOverrideAttribute]⟩,
  -- 179-190
  ⟨"SerializationOverrideObjectAttribute_CreateFromData", [.memory, .value, .result .SerializationOverrideObjectAttribute],
    [.check 0, .check 2, .work true [(0, none), (2, none)], .hand 2 .SerializationOverrideAttribute]⟩,
  -- 192-194
  ⟨"SerializationOverrideObjectAttribute_ToBaseAttribute", [.handle .SerializationOverrideObjectAttribute, .result .BaseObjectAttribute],
    [.convert 0 1 .SerializationOverrideAttribute .BaseAttribute]⟩,
  -- 196-198
  ⟨"SerializationOverrideObjectAttribute_FromBaseAttribute", [.handle .BaseObjectAttribute, .result .SerializationOverrideObjectAttribute],
    [.convert 0 1 .BaseAttribute .SerializationOverrideAttribute]⟩,
  -- 200-202
  ⟨"SerializationOverrideObjectAttribute_Release", [.handle .SerializationOverrideObjectAttribute],
    [.release 0 .SerializationOverrideAttribute]⟩]

/-- src/vanillapdf/implementation/syntax/c_real_object.cpp. -/
def realObjectFunctions : List ApiFunction := [
  -- 11-20
  ⟨"RealObject_Create", [.result .RealObject],
    [.check 0, .work true [(0, none)], .hand 0 .RealObject]⟩,
  -- 22-31
  ⟨"RealObject_CreateFromData", [.value, .value, .result .RealObject],
    [.check 2, .work true [(2, none)], .hand 2 .RealObject]⟩,
  -- 33-44
  ⟨"RealObject_GetValue", [.handle .RealObject, .memory],
    [.check 0, .check 1, .work true [(1, none), (0, some .RealObject)]]⟩,
  -- 46-56
  ⟨"RealObject_SetValue", [.handle .RealObject, .value],
    [.check 0, .work true [(0, some .RealObject)]]⟩,
  -- 58-60
  ⟨"RealObject_ToObject", [.handle .RealObject, .result .Object],
    [.convert 0 1 .RealObject .Object]⟩,
  -- 62-80
  ⟨"RealObject_FromObject", [.handle .Object, .result .RealObject],
    [.check 0, .check 1, .work true [(1, none), (0, some .Object)], .hand 1 .RealObject]⟩,
  -- 82-84
  ⟨"RealObject_Release", [.handle .RealObject],
    [.release 0 .RealObject]⟩]

/-- src/vanillapdf/implementation/syntax/c_stream_object.cpp. -/
def streamObjectFunctions : List ApiFunction := [
  -- 11-20
  ⟨"StreamObject_Create", [.result .StreamObject],
    [.check 0, .work true [(0, none)], .hand 0 .StreamObject]⟩,
  -- 22-35
  ⟨"StreamObject_GetHeader", [.handle .StreamObject, .result .DictionaryObject],
    [.check 0, .check 1, .work true [(1, none), (0, some .StreamObject)], .hand 1 .DictionaryObject]⟩,
  -- 37-49
  ⟨"StreamObject_SetHeader", [.handle .StreamObject, .handle .DictionaryObject],
    [.check 0, .check 1, .work true [(0, some .StreamObject), (1, some .DictionaryObject)]]⟩,
  -- 51-64
  ⟨"StreamObject_GetBody", [.handle .StreamObject, .result .Buffer],
    [.check 0, .check 1, .work true [(1, none), (0, some .StreamObject)], .hand 1 .Buffer]⟩,
  -- 66-79
  ⟨"StreamObject_GetBodyRaw", [.handle .StreamObject, .result .Buffer],
    [.check 0, .check 1, .work true [(1, none), (0, some .StreamObject)], .hand 1 .Buffer]⟩,
  -- 81-93
  ⟨"StreamObject_SetBody", [.handle .StreamObject, .handle .Buffer],
    [.check 0, .check 1, .work true [(0, some .StreamObject), (1, some .Buffer)]]⟩,
  -- 95-97
  ⟨"StreamObject_ToObject", [.handle .StreamObject, .result .Object],
    [.convert 0 1 .StreamObject .Object]⟩,
  -- 99-101
  ⟨"StreamObject_FromObject", [.handle .Object, .result .StreamObject],
    [.convert 0 1 .Object .StreamObject]⟩,
  -- 103-106
  ⟨"StreamObject_Release", [.handle .StreamObject],
    [.release 0 .StreamObject]⟩]

/-- src/vanillapdf/implementation/syntax/c_string_object.cpp. -/
def stringObjectFunctions : List ApiFunction := [
  -- 11-29
  ⟨"StringObject_GetStringType", [.handle .StringObject, .memory],
    [.check 0, .check 1, .work false [(1, none), (0, some .StringObjectBase)]]⟩,
  -- 31-44
  ⟨"StringObject_GetValue", [.handle .StringObject, .result .Buffer],
    [.check 0, .check 1, .work true [(1, none), (0, some .StringObjectBase)], .hand 1 .Buffer]⟩,
  -- 46-58
  ⟨"StringObject_SetValue", [.handle .StringObject, .handle .Buffer],
    [.check 0, .check 1, .work true [(0, some .StringObjectBase), (1, some .Buffer)]]⟩,
  -- 60-62
  ⟨"StringObject_ToObject", [.handle .StringObject, .result .Object],
    [.convert 0 1 .StringObjectBase .Object]⟩,
  -- 64-66
  ⟨"StringObject_FromObject", [.handle .Object, .result .StringObject],
    [.convert 0 1 .Object .StringObjectBase]⟩,
  -- 68-70
  ⟨"StringObject_Release", [.handle .StringObject],
    [.release 0 .StringObjectBase]⟩,
  -- 74-83
  ⟨"LiteralStringObject_Create", [.result .LiteralStringObject],
    [.check 0, .work true [(0, none)], .hand 0 .LiteralStringObject]⟩,
  -- 85-97
  ⟨"LiteralStringObject_CreateFromEncodedBuffer", [.handle .Buffer, .result .LiteralStringObject],
    [.check 1, .check 0, .work true [(1, none), (0, some .Buffer)], .hand 1 .LiteralStringObject]⟩,
  -- 99-109
  ⟨"LiteralStringObject_CreateFromEncodedString", [.memory, .result .LiteralStringObject],
    [.check 1, .check 0, .work true [(0, none), (1, none)], .hand 1 .LiteralStringObject]⟩,
  -- 111-123
  ⟨"LiteralStringObject_CreateFromDecodedBuffer", [.handle .Buffer, .result .LiteralStringObject],
    [.check 1, .check 0, .work true [(1, none), (0, some .Buffer)], .hand 1 .LiteralStringObject]⟩,
  -- 125-135
  ⟨"LiteralStringObject_CreateFromDecodedString", [.memory, .result .LiteralStringObject],
    [.check 1, .check 0, .work true [(0, none), (1, none)], .hand 1 .LiteralStringObject]⟩,
  -- 137-150
  ⟨"LiteralStringObject_GetValue", [.handle .LiteralStringObject, .result .Buffer],
    [.check 0, .check 1, .work true [(1, none), (0, some .LiteralStringObject)], .hand 1 .Buffer]⟩,
  -- 152-164
  ⟨"LiteralStringObject_SetValue", [.handle .LiteralStringObject, .handle .Buffer],
    [.check 0, .check 1, .work true [(0, some .LiteralStringObject), (1, some .Buffer)]]⟩,
  -- 166-168
  ⟨"LiteralStringObject_ToStringObject", [.handle .LiteralStringObject, .result .StringObject],
    [.convert 0 1 .LiteralStringObject .StringObjectBase]⟩,
  -- 170-172
  ⟨"LiteralStringObject_FromStringObject", [.handle .StringObject, .result .LiteralStringObject],
    [.convert 0 1 .StringObjectBase .LiteralStringObject]⟩,
  -- 174-177
  ⟨"LiteralStringObject_Release", [.handle .LiteralStringObject],
    [.release 0 .LiteralStringObject]⟩,
  -- 181-190
  ⟨"HexadecimalStringObject_Create", [.result .HexadecimalStringObject],
    [.check 0, .work true [(0, none)], .hand 0 .HexadecimalStringObject]⟩,
  -- 192-204
  ⟨"HexadecimalStringObject_CreateFromEncodedBuffer", [.handle .Buffer, .result .HexadecimalStringObject],
    [.check 1, .check 0, .work true [(1, none), (0, some .Buffer)], .hand 1 .HexadecimalStringObject]⟩,
  -- 206-216
  ⟨"HexadecimalStringObject_CreateFromEncodedString", [.memory, .result .HexadecimalStringObject],
    [.check 1, .check 0, .work true [(0, none), (1, none)], .hand 1 .HexadecimalStringObject]⟩,
  -- 218-230
  ⟨"HexadecimalStringObject_CreateFromDecodedBuffer", [.handle .Buffer, .result .HexadecimalStringObject],
    [.check 1, .check 0, .work true [(1, none), (0, some .Buffer)], .hand 1 .HexadecimalStringObject]⟩,
  -- 232-242
  ⟨"HexadecimalStringObject_CreateFromDecodedString", [.memory, .result .HexadecimalStringObject],
    [.check 1, .check 0, .work true [(0, none), (1, none)], .hand 1 .HexadecimalStringObject]⟩,
  -- 244-257
  ⟨"HexadecimalStringObject_GetValue", [.handle .HexadecimalStringObject, .result .Buffer],
    [.check 0, .check 1, .work true [(1, none), (0, some .HexadecimalStringObject)], .hand 1 .Buffer]⟩,
  -- 259-271
  ⟨"HexadecimalStringObject_SetValue", [.handle .HexadecimalStringObject, .handle .Buffer],
    [.check 0, .check 1, .work true [(0, some .HexadecimalStringObject), (1, some .Buffer)]]⟩,
  -- 274-276
  ⟨"HexadecimalStringObject_ToStringObject", [.handle .HexadecimalStringObject, .result .StringObject],
    [.convert 0 1 .HexadecimalStringObject .StringObjectBase]⟩,
  -- 278-280
  ⟨"HexadecimalStringObject_FromStringObject", [.handle .StringObject, .result .HexadecimalStringObject],
    [.convert 0 1 .StringObjectBase .HexadecimalStringObject]⟩,
  -- 282-284
  ⟨"HexadecimalStringObject_Release", [.handle .HexadecimalStringObject],
    [.release 0 .HexadecimalStringObject]⟩]

/-- src/vanillapdf/implementation/syntax/c_xref.cpp. -/
def xrefFunctions : List ApiFunction := [
  -- 12-22
  ⟨"Xref_Create", [.result .Xref],
    [.check 0, .work true [(0, none)], .hand 0 .XrefTable]⟩,
  -- 24-35
  ⟨"Xref_Insert", [.handle .Xref, .handle .XrefEntry],
    [.check 0, .check 1, .work true [(0, some .XrefBase), (1, some .XrefEntryBase)]]⟩,
  -- 37-47
  ⟨"Xref_Contains", [.handle .Xref, .value, .memory],
    [.check 0, .check 2, .work true [(2, none), (0, some .XrefBase)]]⟩,
  -- 49-61
  ⟨"Xref_Find", [.handle .Xref, .value, .result .XrefEntry],
    [.check 0, .check 2, .work true [(2, none), (0, some .XrefBase)], .hand 2 .XrefEntryBase]⟩,
  -- 63-76
  ⟨"Xref_Remove", [.handle .Xref, .value, .memory],
    [.check 0, .check 2, .work true [(2, none), (0, some .XrefBase)]]⟩,
  -- 78-84
  ⟨"Xref_Clear", [.handle .Xref],
    [.check 0, .work false [(0, some .XrefBase)]]⟩,
  -- 86-99
  ⟨"Xref_GetTrailerDictionary", [.handle .Xref, .result .DictionaryObject],
    [.check 0, .check 1, .work true [(1, none), (0, some .XrefBase)], .hand 1 .DictionaryObject]⟩,
  -- 101-109
  ⟨"Xref_GetLastXrefOffset", [.handle .Xref, .memory],
    [.check 0, .check 1, .work false [(1, none), (0, some .XrefBase)]]⟩,
  -- 111-124
  ⟨"Xref_GetIterator", [.handle .Xref, .result .XrefIterator],
    [.check 0, .check 1, .work true [(1, none), (0, some .XrefBase)], .hand 1 .XrefBase_Iterator]⟩,
  -- 126-138
  ⟨"XrefIterator_GetValue", [.handle .XrefIterator, .result .XrefEntry],
    [.check 0, .check 1, .work true [(1, none), (0, some .XrefBase_Iterator)], .hand 1 .XrefEntryBase]⟩,
  -- 140-149
  ⟨"XrefIterator_Next", [.handle .XrefIterator],
    [.check 0, .work true [(0, some .XrefBase_Iterator)]]⟩,
  -- 151-165
  ⟨"XrefIterator_IsValid", [.handle .XrefIterator, .memory],
    [.check 0, .check 1, .work true [(1, none), (0, some .XrefBase_Iterator)]]⟩,
  -- 167-169
  ⟨"XrefIterator_ToUnknown", [.handle .XrefIterator, .result .IUnknown],
    [.convert 0 1 .XrefBase_Iterator .IUnknown]⟩,
  -- 171-173
  ⟨"XrefIterator_FromUnknown", [.handle .IUnknown, .result .XrefIterator],
    [.convert 0 1 .IUnknown .XrefBase_Iterator]⟩,
  -- 175-178
  ⟨"XrefIterator_Release", [.handle .XrefIterator],
    [.release 0 .XrefBase_Iterator]⟩,
  -- 180-182
  ⟨"Xref_ToUnknown", [.handle .Xref, .result .IUnknown],
    [.convert 0 1 .XrefBase .IUnknown]⟩,
  -- 184-186
  ⟨"Xref_FromUnknown", [.handle .IUnknown, .result .Xref],
    [.convert 0 1 .IUnknown .XrefBase]⟩,
  -- 188-191
  ⟨"Xref_Release", [.handle .Xref],
    [.release 0 .XrefBase]⟩,
  -- 193-195
  ⟨"XrefEntry_ToUnknown", [.handle .XrefEntry, .result .IUnknown],
    [.convert 0 1 .XrefEntryBase .IUnknown]⟩,
  -- 197-199
  ⟨"XrefEntry_FromUnknown", [.handle .IUnknown, .result .XrefEntry],
    [.convert 0 1 .IUnknown .XrefEntryBase]⟩,
  -- 201-204
  ⟨"XrefEntry_Release", [.handle .XrefEntry],
    [.release 0 .XrefEntryBase]⟩,
  -- 206-218
  ⟨"XrefEntry_InUse", [.handle .XrefEntry, .memory],
    [.check 0, .check 1, .work false [(1, none), (0, some .XrefEntryBase)]]⟩,
  -- 220-244
  ⟨"XrefEntry_GetType", [.handle .XrefEntry, .memory],
    [.check 0, .check 1, .work false [(0, some .XrefEntryBase), (1, none)]]⟩,
  -- 246-254
  ⟨"XrefEntry_GetObjectNumber", [.handle .XrefEntry, .memory],
    [.check 0, .check 1, .work false [(1, none), (0, some .XrefEntryBase)]]⟩,
  -- 256-264
  ⟨"XrefEntry_GetGenerationNumber", [.handle .XrefEntry, .memory],
    [.check 0, .check 1, .work false [(1, none), (0, some .XrefEntryBase)]]⟩,
  -- 268-278
  ⟨"XrefFreeEntry_Create", [.value, .value, .value, .result .XrefFreeEntry],
    [.check 3, .work true [(3, none)], .hand 3 .XrefFreeEntry]⟩,
  -- 280-288
  ⟨"XrefFreeEntry_GetObjectNumber", [.handle .XrefFreeEntry, .memory],
    [.check 0, .check 1, .work false [(1, none), (0, some .XrefFreeEntry)]]⟩,
  -- 290-298
  ⟨"XrefFreeEntry_GetGenerationNumber", [.handle .XrefFreeEntry, .memory],
    [.check 0, .check 1, .work false [(1, none), (0, some .XrefFreeEntry)]]⟩,
  -- 300-308
  ⟨"XrefFreeEntry_InUse", [.handle .XrefFreeEntry, .memory],
    [.check 0, .check 1, .work false [(1, none), (0, some .XrefFreeEntry)]]⟩,
  -- 310-318
  ⟨"XrefFreeEntry_GetNextFreeObjectNumber", [.handle .XrefFreeEntry, .memory],
    [.check 0, .check 1, .work false [(1, none), (0, some .XrefFreeEntry)]]⟩,
  -- 320-322
  ⟨"XrefFreeEntry_ToEntry", [.handle .XrefFreeEntry, .result .XrefEntry],
    [.convert 0 1 .XrefFreeEntry .XrefEntryBase]⟩,
  -- 324-326
  ⟨"XrefFreeEntry_FromEntry", [.handle .XrefEntry, .result .XrefFreeEntry],
    [.convert 0 1 .XrefEntryBase .XrefFreeEntry]⟩,
  -- 328-331
  ⟨"XrefFreeEntry_Release", [.handle .XrefFreeEntry],
    [.release 0 .XrefFreeEntry]⟩,
  -- 335-345
  ⟨"XrefUsedEntry_Create", [.value, .value, .value, .result .XrefUsedEntry],
    [.check 3, .work true [(3, none)], .hand 3 .XrefUsedEntry]⟩,
  -- 347-355
  ⟨"XrefUsedEntry_GetObjectNumber", [.handle .XrefUsedEntry, .memory],
    [.check 0, .check 1, .work false [(1, none), (0, some .XrefUsedEntry)]]⟩,
  -- 357-365
  ⟨"XrefUsedEntry_GetGenerationNumber", [.handle .XrefUsedEntry, .memory],
    [.check 0, .check 1, .work false [(1, none), (0, some .XrefUsedEntry)]]⟩,
  -- 367-375
  ⟨"XrefUsedEntry_GetOffset", [.handle .XrefUsedEntry, .memory],
    [.check 0, .check 1, .work false [(1, none), (0, some .XrefUsedEntry)]]⟩,
  -- 377-385
  ⟨"XrefUsedEntry_InUse", [.handle .XrefUsedEntry, .memory],
    [.check 0, .check 1, .work false [(1, none), (0, some .XrefUsedEntry)]]⟩,
  -- 387-389
  ⟨"XrefUsedEntry_ToEntry", [.handle .XrefUsedEntry, .result .XrefEntry],
    [.convert 0 1 .XrefUsedEntry .XrefEntryBase]⟩,
  -- 391-393
  ⟨"XrefUsedEntry_FromEntry", [.handle .XrefEntry, .result .XrefUsedEntry],
    [.convert 0 1 .XrefEntryBase .XrefUsedEntry]⟩,
  -- 395-398
  ⟨"XrefUsedEntry_Release", [.handle .XrefUsedEntry],
    [.release 0 .XrefUsedEntry]⟩,
  -- 402-412
  ⟨"XrefCompressedEntry_Create", [.value, .value, .value, .value, .result .XrefCompressedEntry],
    [.check 4, .work true [(4, none)], .hand 4 .XrefCompressedEntry]⟩,
  -- 414-422
  ⟨"XrefCompressedEntry_GetObjectNumber", [.handle .XrefCompressedEntry, .memory],
    [.check 0, .check 1, .work false [(1, none), (0, some .XrefCompressedEntry)]]⟩,
  -- 424-432
  ⟨"XrefCompressedEntry_GetGenerationNumber", [.handle .XrefCompressedEntry, .memory],
    [.check 0, .check 1, .work false [(1, none), (0, some .XrefCompressedEntry)]]⟩,
  -- 434-442
  ⟨"XrefCompressedEntry_InUse", [.handle .XrefCompressedEntry, .memory],
    [.check 0, .check 1, .work false [(1, none), (0, some .XrefCompressedEntry)]]⟩,
  -- 444-452
  ⟨"XrefCompressedEntry_GetIndex", [.handle .XrefCompressedEntry, .memory],
    [.check 0, .check 1, .work false [(1, none), (0, some .XrefCompressedEntry)]]⟩,
  -- 454-462
  ⟨"XrefCompressedEntry_GetObjectStreamNumber", [.handle .XrefCompressedEntry, .memory],
    [.check 0, .check 1, .work false [(1, none), (0, some .XrefCompressedEntry)]]⟩,
  -- 464-466
  ⟨"XrefCompressedEntry_ToEntry", [.handle .XrefCompressedEntry, .result .XrefEntry],
    [.convert 0 1 .XrefCompressedEntry .XrefEntryBase]⟩,
  -- 468-470
  ⟨"XrefCompressedEntry_FromEntry", [.handle .XrefEntry, .result .XrefCompressedEntry],
    [.convert 0 1 .XrefEntryBase .XrefCompressedEntry]⟩,
  -- 472-475
  ⟨"XrefCompressedEntry_Release", [.handle .XrefCompressedEntry],
    [.release 0 .XrefCompressedEntry]⟩,
  -- 477-489
  ⟨"XrefUsedEntry_GetReference", [.handle .XrefUsedEntry, .result .Object],
    [.check 0, .check 1, .work true [(1, none), (0, some .XrefUsedEntry)], .hand 1 .Object]⟩,
  -- 491-502
  ⟨"XrefUsedEntry_SetReference", [.handle .XrefUsedEntry, .handle .Object],
    [.check 0, .check 1, .work true [(0, some .XrefUsedEntry), (1, some .Object)]]⟩,
  -- 504-518
  ⟨"XrefCompressedEntry_GetReference", [.handle .XrefCompressedEntry, .result .Object],
    [.check 0, .check 1, .work true [(1, none), (0, some .XrefCompressedEntry)], .hand 1 .Object]⟩,
  -- 520-530
  ⟨"XrefCompressedEntry_SetReference", [.handle .XrefCompressedEntry, .handle .Object],
    [.check 0, .check 1, .work true [(0, some .XrefCompressedEntry), (1, some .Object)]]⟩,
  -- 532-544
  ⟨"XrefChainIterator_GetValue", [.handle .XrefChainIterator, .result .Xref],
    [.check 0, .check 1, .work true [(1, none), (0, some .XrefChain_Iterator)], .hand 1 .XrefBase]⟩,
  -- 546-555
  ⟨"XrefChainIterator_Next", [.handle .XrefChainIterator],
    [.check 0, .work true [(0, some .XrefChain_Iterator)]]⟩,
  -- 557-571
  ⟨"XrefChainIterator_IsValid", [.handle .XrefChainIterator, .memory],
    [.check 0, .check 1, .work true [(1, none), (0, some .XrefChain_Iterator)]]⟩,
  -- 573-575
  ⟨"XrefChainIterator_ToUnknown", [.handle .XrefChainIterator, .result .IUnknown],
    [.convert 0 1 .XrefChain_Iterator .IUnknown]⟩,
  -- 577-579
  ⟨"XrefChainIterator_FromUnknown", [.handle .IUnknown, .result .XrefChainIterator],
    [.convert 0 1 .IUnknown .XrefChain_Iterator]⟩,
  -- 581-584
  ⟨"XrefChainIterator_Release", [.handle .XrefChainIterator],
    [.release 0 .XrefChain_Iterator]⟩,
  -- 586-599
  ⟨"XrefChain_GetIterator", [.handle .XrefChain, .result .XrefChainIterator],
    [.check 0, .check 1, .work true [(1, none), (0, some .XrefChain)], .hand 1 .XrefChain_Iterator]⟩,
  -- 601-603
  ⟨"XrefChain_ToUnknown", [.handle .XrefChain, .result .IUnknown],
    [.convert 0 1 .XrefChain .IUnknown]⟩,
  -- 605-607
  ⟨"XrefChain_FromUnknown", [.handle .IUnknown, .result .XrefChain],
    [.convert 0 1 .IUnknown .XrefChain]⟩,
  -- 609-612
  ⟨"XrefChain_Release", [.handle .XrefChain],
    [.release 0 .XrefChain]⟩]

/-- src/vanillapdf/implementation/utils/c_buffer.cpp. -/
def bufferFunctions : List ApiFunction := [
  -- 8-17
  ⟨"Buffer_Create", [.result .Buffer],
    [.check 0, .work true [(0, none)], .hand 0 .Buffer]⟩,
  -- 19-31
  ⟨"Buffer_CreateFromData", [.memory, .value, .result .Buffer],
    [.check 0, .check 2, .work true [(0, none), (2, none)], .hand 2 .Buffer]⟩,
  -- 33-43
  ⟨"Buffer_GetData", [.handle .Buffer, .memory, .memory],
    [.check 0, .check 1, .check 2, .work false [(1, none), (0, some .Buffer), (2, none)]]⟩,
  -- 45-56
  ⟨"Buffer_SetData", [.handle .Buffer, .memory, .value],
    [.check 0, .check 1, .work true [(1, none), (0, some .Buffer)]]⟩,
  -- 58-73
  ⟨"Buffer_CopyTo", [.handle .Buffer, .memory, .value],
    [.check 0, .check 1, .work true [(1, none), (0, some .Buffer)]]⟩,
  -- 75-86
  ⟨"Buffer_ToInputStream", [.handle .Buffer, .result .InputStream],
    [.check 0, .check 1, .work true [(1, none), (0, some .Buffer)], .hand 1 .IInputStream]⟩,
  -- 88-100
  ⟨"Buffer_Equals", [.handle .Buffer, .handle .Buffer, .memory],
    [.check 0, .check 1, .check 2, .work true [(2, none), (0, some .Buffer), (1, some .Buffer)]]⟩,
  -- 102-112
  ⟨"Buffer_Hash", [.handle .Buffer, .memory],
    [.check 0, .check 1, .work true [(1, none), (0, some .Buffer)]]⟩,
  -- 114-116
  ⟨"Buffer_ToUnknown", [.handle .Buffer, .result .IUnknown],
    [.convert 0 1 .Buffer .IUnknown]⟩,
  -- 118-120
  ⟨"Buffer_FromUnknown", [.handle .IUnknown, .result .Buffer],
    [.convert 0 1 .IUnknown .Buffer]⟩,
  -- 122-125
  ⟨"Buffer_Release", [.handle .Buffer],
    [.release 0 .Buffer]⟩]

/-- src/vanillapdf/implementation/utils/c_buffer_array.cpp. -/
def bufferArrayFunctions : List ApiFunction := [
  -- 10-19
  ⟨"BufferArray_Create", [.result .BufferArray],
    [.check 0, .work true [(0, none)], .hand 0 .BufferArray]⟩,
  -- 21-28
  ⟨"BufferArray_GetSize", [.handle .BufferArray, .memory],
    [.check 0, .check 1, .work false [(1, none), (0, some .BufferArray)]]⟩,
  -- 30-41
  ⟨"BufferArray_At", [.handle .BufferArray, .value, .result .Buffer],
    [.check 0, .check 2, .work true [(2, none), (0, some .BufferArray)], .hand 2 .Buffer]⟩,
  -- 43-54
  ⟨"BufferArray_Append", [.handle .BufferArray, .handle .Buffer],
    [.check 0, .check 1, .work true [(0, some .BufferArray), (1, some .Buffer)]]⟩,
  -- 56-67
  ⟨"BufferArray_Insert", [.handle .BufferArray, .value, .handle .Buffer],
    [.check 0, .check 2, .work true [(0, some .BufferArray), (2, some .Buffer)]]⟩,
  -- 69-81
  ⟨"BufferArray_Remove", [.handle .BufferArray, .value],
    [.check 0, .work true [(0, some .BufferArray)]]⟩,
  -- 83-85
  ⟨"BufferArray_ToUnknown", [.handle .BufferArray, .result .IUnknown],
    [.convert 0 1 .BufferArray .IUnknown]⟩,
  -- 87-89
  ⟨"BufferArray_FromUnknown", [.handle .IUnknown, .result .BufferArray],
    [.convert 0 1 .IUnknown .BufferArray]⟩,
  -- 91-93
  ⟨"BufferArray_Release", [.handle .BufferArray],
    [.release 0 .BufferArray]⟩]

/-- src/vanillapdf/implementation/utils/c_encryption.cpp. -/
def encryptionFunctions : List ApiFunction := [
  -- 95-116
  ⟨"EncryptionKey_CreateCustom", [.memory, .memory, .memory, .memory, .result .EncryptionKey],
    [.check 0, .check 1, .check 2, .check 3, .check 4, .work true [(0, none), (1, none), (2, none), (3, none), (4, none)], .hand 4 .IEncryptionKey]⟩,
  -- 118-120
  ⟨"EncryptionKey_Release", [.handle .EncryptionKey],
    [.release 0 .IEncryptionKey]⟩]

/-- src/vanillapdf/implementation/utils/c_errors.cpp. -/
def errorsFunctions : List ApiFunction := [
  -- 58-63
  ⟨"Errors_GetLastError", [.memory],
    [.check 0, .work false [(0, none)]]⟩,
  -- 65-79
  ⟨"Errors_GetPrintableErrorTextLength", [.value, .memory],
    [.check 1, .work false [(1, none)]]⟩,
  -- 81-102
  ⟨"Errors_GetPrintableErrorText", [.value, .memory, .value],
    [.check 1, .work false [(1, none)]]⟩,
  -- 104-109
  ⟨"Errors_GetLastErrorMessageLength", [.memory],
    [.check 0, .work false [(0, none)]]⟩,
  -- 111-124
  ⟨"Errors_GetLastErrorMessage", [.memory, .value],
    [.check 0, .work false [(0, none)]]⟩]

/-- src/vanillapdf/implementation/utils/c_input_output_stream.cpp. -/
def inputOutputStreamFunctions : List ApiFunction := [
  -- 11-21
  ⟨"InputOutputStream_CreateFromFile", [.memory, .result .InputOutputStream],
    [.check 0, .check 1, .work true [(0, none), (1, none)], .hand 1 .IInputOutputStream]⟩,
  -- 23-32
  ⟨"InputOutputStream_CreateFromMemory", [.result .InputOutputStream],
    [.check 0, .work true [(0, none)], .hand 0 .IInputOutputStream]⟩,
  -- 34-45
  ⟨"InputOutputStream_Read", [.handle .InputOutputStream, .value, .memory, .memory],
    [.check 0, .check 2, .check 3, .work true [(2, none), (3, none), (0, some .IInputOutputStream)]]⟩,
  -- 47-59
  ⟨"InputOutputStream_ReadBuffer", [.handle .InputOutputStream, .value, .result .Buffer],
    [.check 0, .check 2, .work true [(2, none), (0, some .IInputOutputStream)], .hand 2 .Buffer]⟩,
  -- 61-71
  ⟨"InputOutputStream_GetInputPosition", [.handle .InputOutputStream, .memory],
    [.check 0, .check 1, .work true [(1, none), (0, some .IInputOutputStream)]]⟩,
  -- 73-82
  ⟨"InputOutputStream_SetInputPosition", [.handle .InputOutputStream, .value],
    [.check 0, .work true [(0, some .IInputOutputStream)]]⟩,
  -- 84-94
  ⟨"InputOutputStream_GetOutputPosition", [.handle .InputOutputStream, .memory],
    [.check 0, .check 1, .work true [(1, none), (0, some .IInputOutputStream)]]⟩,
  -- 96-105
  ⟨"InputOutputStream_SetOutputPosition", [.handle .InputOutputStream, .value],
    [.check 0, .work true [(0, some .IInputOutputStream)]]⟩,
  -- 107-117
  ⟨"InputOutputStream_WriteString", [.handle .InputOutputStream, .memory],
    [.check 0, .check 1, .work true [(1, none), (0, some .IInputOutputStream)]]⟩,
  -- 119-130
  ⟨"InputOutputStream_WriteBuffer", [.handle .InputOutputStream, .handle .Buffer],
    [.check 0, .check 1, .work true [(0, some .IInputOutputStream), (1, some .Buffer)]]⟩,
  -- 132-140
  ⟨"InputOutputStream_Flush", [.handle .InputOutputStream],
    [.check 0, .work true [(0, some .IInputOutputStream)]]⟩,
  -- 142-144
  ⟨"InputOutputStream_ToInputStream", [.handle .InputOutputStream, .result .InputStream],
    [.convert 0 1 .IInputOutputStream .IInputStream]⟩,
  -- 146-148
  ⟨"InputOutputStream_FromInputStream", [.handle .InputStream, .result .InputOutputStream],
    [.convert 0 1 .IInputStream .IInputOutputStream]⟩,
  -- 150-152
  ⟨"InputOutputStream_ToOutputStream", [.handle .InputOutputStream, .result .OutputStream],
    [.convert 0 1 .IInputOutputStream .IOutputStream]⟩,
  -- 154-156
  ⟨"InputOutputStream_FromOutputStream", [.handle .OutputStream, .result .InputOutputStream],
    [.convert 0 1 .IOutputStream .IInputOutputStream]⟩,
  -- 158-160
  ⟨"InputOutputStream_ToUnknown", [.handle .InputOutputStream, .result .IUnknown],
    [.convert 0 1 .IInputOutputStream .IUnknown]⟩,
  -- 162-164
  ⟨"InputOutputStream_FromUnknown", [.handle .IUnknown, .result .InputOutputStream],
    [.convert 0 1 .IUnknown .IInputOutputStream]⟩,
  -- 166-168
  ⟨"InputOutputStream_Release", [.handle .InputOutputStream],
    [.release 0 .IInputOutputStream]⟩]

/-- src/vanillapdf/implementation/utils/c_input_stream.cpp. -/
def inputStreamFunctions : List ApiFunction := [
  -- 11-21
  ⟨"InputStream_CreateFromFile", [.memory, .result .InputStream],
    [.check 0, .check 1, .work true [(0, none), (1, none)], .hand 1 .IInputStream]⟩,
  -- 23-35
  ⟨"InputStream_CreateFromBuffer", [.handle .Buffer, .result .InputStream],
    [.check 0, .check 1, .work true [(1, none), (0, some .Buffer)], .hand 1 .IInputStream]⟩,
  -- 37-48
  ⟨"InputStream_Read", [.handle .InputStream, .value, .memory, .memory],
    [.check 0, .check 2, .check 3, .work true [(2, none), (3, none), (0, some .IInputStream)]]⟩,
  -- 50-62
  ⟨"InputStream_ReadBuffer", [.handle .InputStream, .value, .result .Buffer],
    [.check 0, .check 2, .work true [(2, none), (0, some .IInputStream)], .hand 2 .Buffer]⟩,
  -- 64-76
  ⟨"InputStream_ToBuffer", [.handle .InputStream, .result .Buffer],
    [.check 0, .check 1, .work true [(1, none), (0, some .IInputStream)], .hand 1 .Buffer]⟩,
  -- 78-88
  ⟨"InputStream_GetInputPosition", [.handle .InputStream, .memory],
    [.check 0, .check 1, .work true [(1, none), (0, some .IInputStream)]]⟩,
  -- 90-99
  ⟨"InputStream_SetInputPosition", [.handle .InputStream, .value],
    [.check 0, .work true [(0, some .IInputStream)]]⟩,
  -- 101-103
  ⟨"InputStream_ToUnknown", [.handle .InputStream, .result .IUnknown],
    [.convert 0 1 .IInputStream .IUnknown]⟩,
  -- 105-107
  ⟨"InputStream_FromUnknown", [.handle .IUnknown, .result .InputStream],
    [.convert 0 1 .IUnknown .IInputStream]⟩,
  -- 109-111
  ⟨"InputStream_Release", [.handle .InputStream],
    [.release 0 .IInputStream]⟩]

/-- src/vanillapdf/implementation/utils/c_library_info.cpp. -/
def libraryInfoFunctions : List ApiFunction := [
  -- 9-14
  ⟨"LibraryInfo_GetVersionMajor", [.memory],
    [.check 0, .work false [(0, none)]]⟩,
  -- 16-21
  ⟨"LibraryInfo_GetVersionMinor", [.memory],
    [.check 0, .work false [(0, none)]]⟩,
  -- 23-28
  ⟨"LibraryInfo_GetVersionPatch", [.memory],
    [.check 0, .work false [(0, none)]]⟩,
  -- 30-35
  ⟨"LibraryInfo_GetVersionBuild", [.memory],
    [.check 0, .work false [(0, none)]]⟩,
  -- 37-42
  ⟨"LibraryInfo_GetAuthor", [.memory],
    [.check 0, .work false [(0, none)]]⟩,
  -- 44-49
  ⟨"LibraryInfo_GetBuildDay", [.memory],
    [.check 0, .work false [(0, none)]]⟩,
  -- 51-56
  ⟨"LibraryInfo_GetBuildMonth", [.memory],
    [.check 0, .work false [(0, none)]]⟩,
  -- 58-63
  ⟨"LibraryInfo_GetBuildYear", [.memory],
    [.check 0, .work false [(0, none)]]⟩]

/-- src/vanillapdf/implementation/utils/c_license_info.cpp. -/
def licenseInfoFunctions : List ApiFunction := [
  -- 9-16
  ⟨"LicenseInfo_SetLicenseFile", [.memory],
    [.check 0, .work true [(0, none)]]⟩,
  -- 18-26
  ⟨"LicenseInfo_SetLicenseBuffer", [.handle .Buffer],
    [.check 0, .work true [(0, some .Buffer)]]⟩,
  -- 28-35
  ⟨"LicenseInfo_IsValid", [.memory],
    [.check 0, .work true [(0, none)]]⟩,
  -- 37-44
  ⟨"LicenseInfo_IsTemporary", [.memory],
    [.check 0, .work true [(0, none)]]⟩]

/-- src/vanillapdf/implementation/utils/c_logging.cpp. -/
def loggingFunctions : List ApiFunction := [
  -- 68-83
  ⟨"Logging_SetCallbackLogger", [.memory, .memory, .optional],
    [.check 0, .check 1, .work true [(0, none), (1, none)]]⟩,
  -- 85-96
  ⟨"Logging_SetRotatingFileLogger", [.memory, .value, .value],
    [.check 0, .work true [(0, none)]]⟩,
  -- 98-108
  ⟨"Logging_SetPattern", [.memory],
    [.check 0, .work true [(0, none)]]⟩,
  -- 110-139
  ⟨"Logging_GetSeverity", [.memory],
    [.check 0, .work true [(0, none)]]⟩,
  -- 141-167
  ⟨"Logging_SetSeverity", [.value],
    [.work true []]⟩,
  -- 169-176
  ⟨"Logging_Shutdown", [],
    [.work true []]⟩]

/-- src/vanillapdf/implementation/utils/c_output_stream.cpp. -/
def outputStreamFunctions : List ApiFunction := [
  -- 11-21
  ⟨"OutputStream_CreateFromFile", [.memory, .result .OutputStream],
    [.check 0, .check 1, .work true [(0, none), (1, none)], .hand 1 .IOutputStream]⟩,
  -- 23-33
  ⟨"OutputStream_GetOutputPosition", [.handle .OutputStream, .memory],
    [.check 0, .check 1, .work true [(1, none), (0, some .IOutputStream)]]⟩,
  -- 35-44
  ⟨"OutputStream_SetOutputPosition", [.handle .OutputStream, .value],
    [.check 0, .work true [(0, some .IOutputStream)]]⟩,
  -- 46-56
  ⟨"OutputStream_WriteString", [.handle .OutputStream, .memory],
    [.check 0, .check 1, .work true [(1, none), (0, some .IOutputStream)]]⟩,
  -- 58-69
  ⟨"OutputStream_WriteBuffer", [.handle .OutputStream, .handle .Buffer],
    [.check 0, .check 1, .work true [(0, some .IOutputStream), (1, some .Buffer)]]⟩,
  -- 71-79
  ⟨"OutputStream_Flush", [.handle .OutputStream],
    [.check 0, .work true [(0, some .IOutputStream)]]⟩,
  -- 81-83
  ⟨"OutputStream_ToUnknown", [.handle .OutputStream, .result .IUnknown],
    [.convert 0 1 .IOutputStream .IUnknown]⟩,
  -- 85-87
  ⟨"OutputStream_FromUnknown", [.handle .IUnknown, .result .OutputStream],
    [.convert 0 1 .IUnknown .IOutputStream]⟩,
  -- 89-91
  ⟨"OutputStream_Release", [.handle .OutputStream],
    [.release 0 .IOutputStream]⟩]

/-- src/vanillapdf/implementation/utils/c_pkcs12_key.cpp. -/
def pkcs12KeyFunctions : List ApiFunction := [
  -- 12-28
  ⟨"PKCS12Key_CreateFromFile", [.memory, .optional, .result .PKCS12Key],
    [.check 0, .check 2, .work true [(0, none), (2, none)], .hand 2 .PKCS12Key]⟩,
  -- 30-47
  ⟨"PKCS12Key_CreateFromBuffer", [.handle .Buffer, .optional, .result .PKCS12Key],
    [.check 0, .check 2, .work true [(2, none), (0, some .Buffer)], .hand 2 .PKCS12Key]⟩,
  -- 75-77
  ⟨"PKCS12Key_ToEncryptionKey", [.handle .PKCS12Key, .result .EncryptionKey],
    [.convert 0 1 .PKCS12Key .IEncryptionKey]⟩,
  -- 79-81
  ⟨"PKCS12Key_FromEncryptionKey", [.handle .EncryptionKey, .result .PKCS12Key],
    [.convert 0 1 .IEncryptionKey .PKCS12Key]⟩,
  -- 83-85
  ⟨"PKCS12Key_ToSigningKey", [.handle .PKCS12Key, .result .SigningKey],
    [.convert 0 1 .PKCS12Key .ISigningKey]⟩,
  -- 87-89
  ⟨"PKCS12Key_FromSigningKey", [.handle .SigningKey, .result .PKCS12Key],
    [.convert 0 1 .ISigningKey .PKCS12Key]⟩,
  -- 91-93
  ⟨"PKCS12Key_Release", [.handle .PKCS12Key],
    [.release 0 .PKCS12Key]⟩]

/-- src/vanillapdf/implementation/utils/c_signing_key.cpp. -/
def signingKeyFunctions : List ApiFunction := [
  -- 142-162
  ⟨"SigningKey_CreateCustom", [.memory, .memory, .memory, .memory, .optional, .result .SigningKey],
    [.check 0, .check 1, .check 2, .check 3, .check 5, .work true [(0, none), (1, none), (2, none), (3, none), (5, none)], .hand 5 .ISigningKey]⟩,
  -- 164-166
  ⟨"SigningKey_ToUnknown", [.handle .SigningKey, .result .IUnknown],
    [.convert 0 1 .ISigningKey .IUnknown]⟩,
  -- 168-170
  ⟨"SigningKey_FromUnknown", [.handle .IUnknown, .result .SigningKey],
    [.convert 0 1 .IUnknown .ISigningKey]⟩,
  -- 172-174
  ⟨"SigningKey_Release", [.handle .SigningKey],
    [.release 0 .ISigningKey]⟩]

/-- src/vanillapdf/implementation/utils/c_unknown_interface.cpp. -/
def unknownInterfaceFunctions : List ApiFunction := [
  -- 9-16
  ⟨"IUnknown_AddRef", [.handle .IUnknown],
    [.check 0, .work false [(0, some .IUnknown)]]⟩,
  -- 18-21
  ⟨"IUnknown_Release", [.handle .IUnknown],
    [.release 0 .IUnknown]⟩]

/-- All functions of the interface, src/vanillapdf/implementation/*/c_*.cpp. -/
def interface : List ApiFunction :=
  baseFontRangeFunctions ++ contentInstructionFunctions ++ contentObjectFunctions ++ contentOperationFunctions ++
  contentOperatorFunctions ++ contentParserFunctions ++ annotationsFunctions ++ catalogFunctions ++
  characterMapFunctions ++ dateFunctions ++ destinationsFunctions ++ developerExtensionsFunctions ++
  digitalSignatureFunctions ++ documentFunctions ++ documentEncryptionSettingsFunctions ++ documentInfoFunctions ++
  documentSignatureSettingsFunctions ++ fieldsFunctions ++ fontFunctions ++ fontMapFunctions ++
  interactiveFormsFunctions ++ outlineFunctions ++ pageContentsFunctions ++ pageLabelsFunctions ++
  pageObjectFunctions ++ pageTreeFunctions ++ rectangleFunctions ++ resourceDictionaryFunctions ++
  viewerPreferencesFunctions ++ arrayObjectFunctions ++ booleanObjectFunctions ++ dictionaryObjectFunctions ++
  fileFunctions ++ fileWriterFunctions ++ fileWriterObserverFunctions ++ filterFunctions ++
  indirectReferenceObjectFunctions ++ integerObjectFunctions ++ nameObjectFunctions ++ nullObjectFunctions ++
  objectFunctions ++ objectAttributeListFunctions ++ objectAttributesFunctions ++ realObjectFunctions ++
  streamObjectFunctions ++ stringObjectFunctions ++ xrefFunctions ++ bufferFunctions ++
  bufferArrayFunctions ++ encryptionFunctions ++ errorsFunctions ++ inputOutputStreamFunctions ++
  inputStreamFunctions ++ libraryInfoFunctions ++ licenseInfoFunctions ++ loggingFunctions ++
  outputStreamFunctions ++ pkcs12KeyFunctions ++ signingKeyFunctions ++ unknownInterfaceFunctions

end VPdf
