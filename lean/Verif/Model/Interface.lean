/-
  The functions of the C interface as far as null arguments, handles and exceptions are concerned
  (src/vanillapdf/implementation).  What the functions do is the subject of the other models.
-/
namespace VPdf

/-- The types of handles, include/vanillapdf/*/c_*.h, without the ending Handle. -/
inductive HandleType where
  | ASCII85DecodeFilter | ASCIIHexDecodeFilter | Annotation | ArrayObject | BaseFontRange | BaseObjectAttribute
  | BooleanObject | Buffer | BufferArray | ButtonField | ByteRange | ByteRangeCollection | Catalog | CharacterMap
  | ChoiceField | ContentInstruction | ContentInstructionCollection | ContentInstructionCollectionIterator
  | ContentObject | ContentObjectInlineImage | ContentObjectText | ContentOperation | ContentOperationBeginText
  | ContentOperationEndText | ContentOperationGeneric | ContentOperationTextFont | ContentOperationTextShow
  | ContentOperationTextShowArray | ContentOperator | ContentParser | DCTDecodeFilter | Date | Destination
  | DeveloperExtension | DeveloperExtensions | DeveloperExtensionsIterator | DictionaryObject
  | DictionaryObjectIterator | DigitalSignature | Document | DocumentEncryptionSettings | DocumentInfo
  | DocumentSignatureSettings | EmbeddedCharacterMap | EncryptionKey | Field | FieldCollection | File | FileWriter
  | FileWriterObserver | FilterBase | FlateDecodeFilter | Font | FontMap | HexadecimalStringObject | IUnknown
  | ImageMetadataObjectAttribute | IndirectReferenceObject | InputOutputStream | InputStream | IntegerObject
  | InteractiveForm | JPXDecodeFilter | LZWDecodeFilter | LinkAnnotation | LiteralStringObject | NameObject
  | NamedDestinations | NullObject | Object | ObjectAttributeList | Outline | OutlineBase | OutlineItem
  | OutlineItemColor | OutlineItemFlags | OutputStream | PKCS12Key | PageAnnotations | PageContents | PageLabel
  | PageLabels | PageObject | PageRange | PageSubRange | PageTree | RealObject | Rectangle | ResourceDictionary
  | SerializationOverrideObjectAttribute | SignatureField | SigningKey | StreamObject | StringObject | TextField
  | Type0Font | UnicodeCharacterMap | ViewerPreferences | Xref | XrefChain | XrefChainIterator | XrefCompressedEntry
  | XrefEntry | XrefFreeEntry | XrefIterator | XrefUsedEntry
  deriving DecidableEq

/-- The classes that handles are cast to, src/vanillapdf/implementation/*/c_*.cpp.  `A_B` stands for `A::B`. -/
inductive CppClass where
  | ASCII85DecodeFilter | ASCIIHexDecodeFilter | AnnotationBase | AttributeList | BaseAttribute | BaseFontRange
  | BaseInstructionCollection | BaseInstructionCollection_Iterator | BooleanObject | Buffer | BufferArray
  | ButtonField | ByteRange | ByteRangeCollection | Catalog | CharacterMapBase | ChoiceField | ContentObjectBase
  | ContentStreamParser | DCTDecodeFilter | Date | DestinationBase | DeveloperExtension | DeveloperExtensions
  | DeveloperExtensions_Iterator | DictionaryObject | DictionaryObject_Iterator | DigitalSignature | Document
  | DocumentEncryptionSettings | DocumentInfo | DocumentSignatureSettings | EmbeddedCharacterMap | Field
  | FieldCollection | File | FileWriter | FilterBase | FlateDecodeFilter | FontBase | FontMap
  | HexadecimalStringObject | IEncryptionKey | IFileWriterObserver | IInputOutputStream | IInputStream
  | IOutputStream | ISigningKey | IUnknown | ImageMetadataObjectAttribute | IndirectReferenceObject
  | InlineImageObject | InstructionBase | IntegerObject | InteractiveForm | JPXDecodeFilter | LZWDecodeFilter
  | LinkAnnotation | LiteralStringObject | MixedArrayObject | NameObject | NamedDestinations | NullObject | Object
  | OperationBase | OperationBeginText | OperationEndText | OperationGeneric | OperationTextFont | OperationTextShow
  | OperationTextShowArray | OperatorBase | Outline | OutlineBase | OutlineItem | OutlineItemColor | OutlineItemFlags
  | PKCS12Key | PageAnnotations | PageContents | PageLabel | PageLabels | PageNodeBase | PageObject | PageRange
  | PageRange_SubRange | PageTree | RealObject | Rectangle | ResourceDictionary | SerializationOverrideAttribute
  | SignatureField | StreamObject | StringObjectBase | TextField | TextObject | Type0Font | UnicodeCharacterMap
  | ViewerPreferences | XrefBase | XrefBase_Iterator | XrefChain | XrefChain_Iterator | XrefCompressedEntry
  | XrefEntryBase | XrefFreeEntry | XrefTable | XrefUsedEntry
  deriving DecidableEq

open HandleType in
/-- The class of the objects behind the handles of a type, src/vanillapdf/implementation/*/c_*.cpp: the class that the functions
named after the type cast them to. -/
def classOf : HandleType → CppClass
  | .ASCII85DecodeFilter => .ASCII85DecodeFilter
  | .ASCIIHexDecodeFilter => .ASCIIHexDecodeFilter
  | .Annotation => .AnnotationBase
  | .ArrayObject => .MixedArrayObject
  | .BaseFontRange => .BaseFontRange
  | .BaseObjectAttribute => .BaseAttribute
  | .BooleanObject => .BooleanObject
  | .Buffer => .Buffer
  | .BufferArray => .BufferArray
  | .ButtonField => .ButtonField
  | .ByteRange => .ByteRange
  | .ByteRangeCollection => .ByteRangeCollection
  | .Catalog => .Catalog
  | .CharacterMap => .CharacterMapBase
  | .ChoiceField => .ChoiceField
  | .ContentInstruction => .InstructionBase
  | .ContentInstructionCollection => .BaseInstructionCollection
  | .ContentInstructionCollectionIterator => .BaseInstructionCollection_Iterator
  | .ContentObject => .ContentObjectBase
  | .ContentObjectInlineImage => .InlineImageObject
  | .ContentObjectText => .TextObject
  | .ContentOperation => .OperationBase
  | .ContentOperationBeginText => .OperationBeginText
  | .ContentOperationEndText => .OperationEndText
  | .ContentOperationGeneric => .OperationGeneric
  | .ContentOperationTextFont => .OperationTextFont
  | .ContentOperationTextShow => .OperationTextShow
  | .ContentOperationTextShowArray => .OperationTextShowArray
  | .ContentOperator => .OperatorBase
  | .ContentParser => .ContentStreamParser
  | .DCTDecodeFilter => .DCTDecodeFilter
  | .Date => .Date
  | .Destination => .DestinationBase
  | .DeveloperExtension => .DeveloperExtension
  | .DeveloperExtensions => .DeveloperExtensions
  | .DeveloperExtensionsIterator => .DeveloperExtensions_Iterator
  | .DictionaryObject => .DictionaryObject
  | .DictionaryObjectIterator => .DictionaryObject_Iterator
  | .DigitalSignature => .DigitalSignature
  | .Document => .Document
  | .DocumentEncryptionSettings => .DocumentEncryptionSettings
  | .DocumentInfo => .DocumentInfo
  | .DocumentSignatureSettings => .DocumentSignatureSettings
  | .EmbeddedCharacterMap => .EmbeddedCharacterMap
  | .EncryptionKey => .IEncryptionKey
  | .Field => .Field
  | .FieldCollection => .FieldCollection
  | .File => .File
  | .FileWriter => .FileWriter
  | .FileWriterObserver => .IFileWriterObserver
  | .FilterBase => .FilterBase
  | .FlateDecodeFilter => .FlateDecodeFilter
  | .Font => .FontBase
  | .FontMap => .FontMap
  | .HexadecimalStringObject => .HexadecimalStringObject
  | .IUnknown => .IUnknown
  | .ImageMetadataObjectAttribute => .ImageMetadataObjectAttribute
  | .IndirectReferenceObject => .IndirectReferenceObject
  | .InputOutputStream => .IInputOutputStream
  | .InputStream => .IInputStream
  | .IntegerObject => .IntegerObject
  | .InteractiveForm => .InteractiveForm
  | .JPXDecodeFilter => .JPXDecodeFilter
  | .LZWDecodeFilter => .LZWDecodeFilter
  | .LinkAnnotation => .LinkAnnotation
  | .LiteralStringObject => .LiteralStringObject
  | .NameObject => .NameObject
  | .NamedDestinations => .NamedDestinations
  | .NullObject => .NullObject
  | .Object => .Object
  | .ObjectAttributeList => .AttributeList
  | .Outline => .Outline
  | .OutlineBase => .OutlineBase
  | .OutlineItem => .OutlineItem
  | .OutlineItemColor => .OutlineItemColor
  | .OutlineItemFlags => .OutlineItemFlags
  | .OutputStream => .IOutputStream
  | .PKCS12Key => .PKCS12Key
  | .PageAnnotations => .PageAnnotations
  | .PageContents => .PageContents
  | .PageLabel => .PageLabel
  | .PageLabels => .PageLabels
  | .PageObject => .PageObject
  | .PageRange => .PageRange
  | .PageSubRange => .PageRange_SubRange
  | .PageTree => .PageTree
  | .RealObject => .RealObject
  | .Rectangle => .Rectangle
  | .ResourceDictionary => .ResourceDictionary
  | .SerializationOverrideObjectAttribute => .SerializationOverrideAttribute
  | .SignatureField => .SignatureField
  | .SigningKey => .ISigningKey
  | .StreamObject => .StreamObject
  | .StringObject => .StringObjectBase
  | .TextField => .TextField
  | .Type0Font => .Type0Font
  | .UnicodeCharacterMap => .UnicodeCharacterMap
  | .ViewerPreferences => .ViewerPreferences
  | .Xref => .XrefBase
  | .XrefChain => .XrefChain
  | .XrefChainIterator => .XrefChain_Iterator
  | .XrefCompressedEntry => .XrefCompressedEntry
  | .XrefEntry => .XrefEntryBase
  | .XrefFreeEntry => .XrefFreeEntry
  | .XrefIterator => .XrefBase_Iterator
  | .XrefUsedEntry => .XrefUsedEntry

/-- A parameter of a function, include/vanillapdf/*/c_*.h: a number, a handle, the place for a resulting handle, another
address that is needed, or one that may be null (user data, passwords, callbacks of observers). -/
inductive ApiParam where
  | value
  | handle (h : HandleType)
  | result (h : HandleType)
  | memory
  | optional
  deriving DecidableEq

/-- The parts of a function, src/vanillapdf/implementation/c_helper.h:
* `check`: `RETURN_ERROR_PARAM_VALUE_IF_NULL`, 11-12;
* `work`: statements that use parameters, cast to the given classes, inside `try` and `CATCH_VANILLAPDF_EXCEPTIONS` (14-36) or
  outside;
* `convert`: `SafeObjectConvert`, 38-76;
* `release`: `ObjectRelease`, 78-89;
* `hand`: an object of the class is handed out at the place `j`. -/
inductive ApiStep where
  | check (i : Nat)
  | work (guarded : Bool) (uses : List (Nat × Option CppClass))
  | convert (i j : Nat) (source dest : CppClass)
  | release (i : Nat) (c : CppClass)
  | hand (j : Nat) (c : CppClass)

/-- A function of the interface, src/vanillapdf/implementation/*/c_*.cpp. -/
structure ApiFunction where
  name : String
  params : List ApiParam
  steps : List ApiStep

/-- An object with the class it was made as (`IUnknown`, src/vanillapdf/utils/unknown_interface.h). -/
structure ApiObject where
  id : Nat
  cls : CppClass
  deriving DecidableEq

/-- An argument of a call, include/vanillapdf/*/c_*.h: null, a handle of an object, another address, or a number. -/
inductive ApiArg where
  | null
  | object (o : ApiObject)
  | memory
  | number
  deriving DecidableEq

/-- How a call ends, src/vanillapdf/implementation/c_helper.h:11-36: with the error for parameters, with the error of an
exception, without error (and with the object that is handed out); with an access to address 0, with the use of an object as one of
another class, or with an exception that leaves the interface. -/
inductive ApiOutcome where
  | refused
  | failed
  | done (handed : Option ApiObject)
  | crash
  | misuse
  | escaped
  deriving DecidableEq

/-- Is the argument an object of another class?  Casts with `reinterpret_cast`, src/vanillapdf/implementation/*/c_*.cpp.
`sub` is the relation of classes to their bases. -/
def wrongClass (sub : CppClass → CppClass → Bool) (a : ApiArg) (c : CppClass) : Bool :=
  match a with
  | .object o => !sub o.cls c
  | _ => false

/-- What a call depends on besides its arguments (src/vanillapdf/implementation/*/c_*.cpp): the bases of the classes, whether
the work of the function ends with an exception, and the object it makes or finds when it hands out one of a class. -/
structure ApiWorld where
  sub : CppClass → CppClass → Bool
  throws : Bool
  made : CppClass → ApiObject

/-- A call of a function, src/vanillapdf/implementation/c_helper.h:11-89.  Simplified: a block is taken to use all parameters
that occur in it, before an exception is thrown; errors that are returned without an exception count as exceptions. -/
def runApi (w : ApiWorld) (args : Nat → ApiArg) : List ApiStep → ApiOutcome
  | [] => .done none
  | .check i :: l => if args i = .null then .refused else runApi w args l
  | .work g us :: l =>
    if us.any (fun u => args u.1 = .null) then .crash
    else if us.any (fun u => u.2.any (wrongClass w.sub (args u.1))) then .misuse
    else if w.throws then (if g then .failed else .escaped)
    else runApi w args l
  | .convert i j source dest :: _ =>
    if args i = .null ∨ args j = .null then .refused
    else
      match args i with
      | .object o => if !w.sub o.cls source then .misuse else if w.sub o.cls dest then .done (some o) else .refused
      | _ => .misuse
  | .release i c :: l =>
    if args i = .null then .refused else if wrongClass w.sub (args i) c then .misuse else runApi w args l
  | .hand _ c :: _ => .done (some (w.made c))

/-- The type of the handle that a function hands out, include/vanillapdf/*/c_*.h. -/
def ApiFunction.resultType (f : ApiFunction) : Option HandleType :=
  f.params.findSome? fun p => match p with | .result h => some h | _ => none

/-- The handles of a program with their objects after a call, src/vanillapdf/implementation/*/c_*.cpp.  Handles that were
released are kept: the program may have them again. -/
def afterCall (w : ApiWorld) (f : ApiFunction) (args : Nat → ApiArg) (held : List (HandleType × ApiObject)) :
    List (HandleType × ApiObject) :=
  match runApi w args f.steps, f.resultType with
  | .done (some o), some h => (h, o) :: held
  | _, _ => held

end VPdf
