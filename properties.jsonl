{"id": "C01", "title": "Name objects survive write and read", "statement": "A name created from any byte string, written to PDF text and read back by the parser (whatever delimiter, white-space or end of input follows it), yields a name with exactly the same bytes.", "quantifier": "every byte string (all 256 byte values, any length) and every continuation of the file that does not start with a regular character", "why_tests_cant": "The escape rule (#xx) depends on each byte; only finitely many strings can be tried and the interesting ones (#, NUL, 0xFF, bytes above 0x7E) interact with neighbours.", "anchors": ["src/vanillapdf/syntax/objects/name_object.cpp: NameObject::ToString, NameObject::CreateFromEncoded", "src/vanillapdf/syntax/parsers/tokenizer.cpp: Tokenizer::ReadName", "src/vanillapdf/utils/character.h: IsRegular"]}
{"id": "C02", "title": "Literal strings survive write and read", "statement": "A literal string object created from any decoded byte string, written as PDF text and read back by the tokenizer and the string decoder, has the same decoded value and the reader stops right after the closing parenthesis.", "quantifier": "every byte string and every following input", "why_tests_cant": "Escapes, octal codes and nested parentheses form an unbounded grammar; a sample cannot show that no byte combination breaks the encoding.", "anchors": ["src/vanillapdf/syntax/objects/string_object.cpp: LiteralStringObject::ToPdfStreamInternal, GetRawValueDecoded", "src/vanillapdf/syntax/parsers/tokenizer.cpp: ReadLiteralString"]}
{"id": "C03", "title": "Hexadecimal strings survive write and read", "statement": "A hexadecimal string object with any decoded value, written as PDF text and read back, has the same decoded value; a digit string of odd length decodes as if a final 0 digit followed.", "quantifier": "every byte string; every sequence of hexadecimal digits", "why_tests_cant": "Unbounded input length and all byte values.", "anchors": ["src/vanillapdf/syntax/objects/string_object.cpp: HexadecimalStringObject::ToPdfStreamInternal, GetValue", "src/vanillapdf/syntax/parsers/tokenizer.cpp: ReadHexadecimalString"]}
{"id": "C04", "title": "Any direct object survives write and read", "statement": "Writing any direct object (null, boolean, signed 64-bit integer, decimal number with a fixed number of digits behind the point, name, literal or hexadecimal string, indirect reference, array, dictionary, nested to any depth) and parsing the text returns an equal object - dictionary entries with the value null count as absent - and leaves the reader exactly behind it.", "quantifier": "every object tree of any depth and width, every following input", "why_tests_cant": "The object grammar is recursive, token boundaries depend on neighbours, so no finite set of documents covers it.", "anchors": ["src/vanillapdf/syntax/parsers/parser.cpp: ReadDirectObject, ReadArray, ReadDictionary, ReadIndirectReference", "src/vanillapdf/syntax/objects/*.cpp: ToPdfStreamInternal"]}
{"id": "C05", "title": "Tokenizing any byte sequence makes progress and terminates", "statement": "Reading tokens from any input either fails with a reported error, reports end of input, or consumes at least one byte; hence tokenizing any finite input stops.", "quantifier": "every finite byte sequence", "why_tests_cant": "Non-termination on one malformed input cannot be excluded by trying others.", "anchors": ["src/vanillapdf/syntax/parsers/tokenizer.cpp: ReadToken, ReadUnknown, ReadComment, ReadHexadecimalString, ReadName, ReadLiteralString"]}
{"id": "C06", "title": "Peeking never changes what is read", "statement": "Any number of token peeks, in any interleaving with reads and seeks, never changes the sequence of tokens returned by reads nor the reader position; a peek returns exactly the token the next read returns, whatever the state of the peek cache.", "quantifier": "every sequence of peek, read and seek operations on every input", "why_tests_cant": "The cache has eviction state depending on the whole operation history.", "anchors": ["src/vanillapdf/syntax/parsers/tokenizer.cpp: PeekToken, ReadToken"]}
{"id": "C07", "title": "White-space and comments between tokens are insignificant", "statement": "Inserting any amount of white-space, line ends or comments between the tokens of an object does not change the parsed object.", "quantifier": "every object, every choice of separators at every token boundary", "why_tests_cant": "Unbounded combinations of separators and positions.", "anchors": ["src/vanillapdf/syntax/parsers/parser.cpp: ReadTokenSkip, PeekTokenSkip, ReadDirectObject", "src/vanillapdf/syntax/parsers/tokenizer.cpp: ReadToken, ReadComment"]}
{"id": "C08", "title": "Duplicate and null dictionary entries", "statement": "Parsing a dictionary keeps, for each key, the value of its first non-null occurrence; entries with a null value are absent from the parsed dictionary and no other key appears.", "quantifier": "every sequence of key/value pairs", "why_tests_cant": "Ranges over every order and multiplicity of keys.", "anchors": ["src/vanillapdf/syntax/parsers/parser.cpp: ReadDictionary"]}
{"id": "C09", "title": "ASCIIHex decoding inverts hexadecimal encoding", "statement": "Decoding the hexadecimal text of any data, with any white-space mixed in and '>' at the end, returns that data; an odd number of digits behaves as if followed by 0 (ISO 32000 7.4.2).", "quantifier": "every byte string, every placement of white-space", "why_tests_cant": "Unbounded data and white-space placement.", "anchors": ["src/vanillapdf/syntax/filters/ascii_hex_decode_filter.cpp: ASCIIHexDecodeFilter::Decode, Encode"]}
{"id": "C10", "title": "ASCII85 decoding inverts base-85 encoding", "statement": "Decoding the base-85 text (with z abbreviation and partial final group) of any data returns that data and performs no arithmetic overflow.", "quantifier": "every byte string", "why_tests_cant": "Overflow occurs only for groups with the top bit set; unbounded length and the partial group need a proof.", "anchors": ["src/vanillapdf/syntax/filters/ascii_85_decode_filter.cpp: ASCII85DecodeFilter::Decode"]}
{"id": "C11", "title": "PNG predictor decoding inverts PNG filtering", "statement": "For every image data, number of colours, bit depth and columns, decoding rows filtered with any of the five PNG filter types returns the original rows.", "quantifier": "every sequence of rows, every filter type per row, every pixel width", "why_tests_cant": "Each byte depends on all the previous row and pixel values.", "anchors": ["src/vanillapdf/syntax/filters/flate_decode_filter.cpp: FlateDecodeFilter::ApplyPredictor"]}
{"id": "C12", "title": "Filter chains: encoding then decoding is the identity", "statement": "For a stream whose dictionary names any list of filters, changing the body and saving it stores data that decodes back to the same body.", "quantifier": "every list of filters, every body", "why_tests_cant": "The order of composition matters only with two or more filters, for any list length.", "anchors": ["src/vanillapdf/syntax/objects/stream_object.cpp: GetBody, GetBodyEncoded"]}
{"id": "C13", "title": "Checked integer conversion never changes a value", "statement": "A checked conversion between any two built-in integer types either returns the same mathematical value or reports an error, and it reports an error only when the value does not fit the destination.", "quantifier": "every pair of integer types and every value", "why_tests_cant": "2^64 values per type pair.", "anchors": ["src/vanillapdf/utils/conversion_utils.h: ValueConvertUtils::SafeConvert, IsInRange"]}
{"id": "C14", "title": "Checked addition and multiplication never wrap", "statement": "Checked addition and multiplication return the exact mathematical result or report an error; they never return a wrapped result.", "quantifier": "every pair of operands of every unsigned type", "why_tests_cant": "2^128 operand pairs.", "anchors": ["src/vanillapdf/utils/math_utils.h: SafeAddition, SafeMultiply"]}
{"id": "C15", "title": "Big-endian cross-reference fields round trip", "statement": "Writing a number in w bytes and reading w bytes big-endian returns the number; writing fails exactly when the number does not fit, and the width the writer chooses always fits.", "quantifier": "every 64-bit value and every width", "why_tests_cant": "2^64 values times widths.", "anchors": ["src/vanillapdf/syntax/files/xref.cpp: XrefStream::WriteValue", "src/vanillapdf/syntax/parsers/parser.cpp: ParseXrefStream", "src/vanillapdf/syntax/files/file_writer.cpp: RecalculateXrefStreamWidth", "src/vanillapdf/utils/math_utils.h: MostSignificantBit"]}
{"id": "C16", "title": "A cross-reference section is a map by object number", "statement": "After any sequence of add and remove operations, looking up an object number returns the entry added last and not removed since, adding again replaces, the size is the number of distinct numbers, and enumeration lists entries in increasing object number.", "quantifier": "every sequence of operations", "why_tests_cant": "Histories are unbounded.", "anchors": ["src/vanillapdf/syntax/files/xref.cpp: XrefBase::Add, Remove, Find, Contains, Entries, GetSize"]}
{"id": "C17", "title": "Chain lookup returns the newest matching entry", "statement": "Looking up (number, generation) in the chain of cross-reference sections returns the entry of the first (newest) section holding that number with that generation, and fails exactly when there is none.", "quantifier": "every chain, every object number and generation", "why_tests_cant": "Depends on all sections of an arbitrarily long chain.", "anchors": ["src/vanillapdf/syntax/files/xref_chain.cpp: GetXrefEntry, Contains"]}
{"id": "C18", "title": "New object numbers are always fresh", "statement": "Any sequence of object allocations and releases never hands out an object number that is present in the document, and never hands out the same number twice.", "quantifier": "every document and every sequence of allocations", "why_tests_cant": "Histories are unbounded.", "anchors": ["src/vanillapdf/syntax/files/file.cpp: File::AllocateNewEntry", "src/vanillapdf/syntax/files/xref_chain.cpp: ReleaseEntry"]}
{"id": "C19", "title": "Releasing an object makes it unreachable", "statement": "After an entry is released, looking it up with its number and generation finds no in-use entry in any section where it was, and all other objects keep their entries.", "quantifier": "every chain and every entry", "why_tests_cant": "Depends on all sections and on duplicates between them.", "anchors": ["src/vanillapdf/syntax/files/xref_chain.cpp: ReleaseEntry"]}
{"id": "C20", "title": "Cross-reference tables survive write and read", "statement": "Writing any cross-reference table and parsing the text yields the same set of entries (number, generation, offset, free/used).", "quantifier": "every set of entries with any gaps in object numbers", "why_tests_cant": "The subsection structure depends on all gaps; fixed-width columns depend on magnitudes.", "anchors": ["src/vanillapdf/syntax/files/file_writer.cpp: WriteXrefTable", "src/vanillapdf/syntax/parsers/parser.cpp: ReadXrefTable, ReadTableEntry"]}
{"id": "C21", "title": "Cross-reference streams survive write and read", "statement": "Writing any set of cross-reference entries as a cross-reference stream and parsing it back yields the same entries.", "quantifier": "every set of entries (free, used, compressed) with any gaps", "why_tests_cant": "The Index array depends on all gaps, the widths on all magnitudes.", "anchors": ["src/vanillapdf/syntax/files/xref.cpp: XrefStream::RecalculateContent, WriteValue", "src/vanillapdf/syntax/parsers/parser.cpp: ParseXrefStream"]}
{"id": "C22", "title": "The last startxref offset is found", "statement": "In any file that ends with the trailer the library writes, the reverse scan returns exactly the offset written after startxref.", "quantifier": "every offset and every preceding file content", "why_tests_cant": "Unbounded file contents and offsets.", "anchors": ["src/vanillapdf/syntax/files/file_writer.cpp: WriteXrefOffset", "src/vanillapdf/syntax/parsers/reverse_parser.cpp: ReadLastXrefOffset", "src/vanillapdf/syntax/parsers/reverse_tokenizer.cpp"]}
{"id": "C23", "title": "File header version round trip", "statement": "The header written for a PDF version is parsed back as the same version, whatever follows in the file; unsupported versions are rejected.", "quantifier": "every version and every following content", "why_tests_cant": "Ranges over all following contents and all header texts.", "anchors": ["src/vanillapdf/syntax/files/file_writer.cpp: WriteHeader", "src/vanillapdf/syntax/parsers/parser.cpp: ReadHeader"]}
{"id": "C24", "title": "Opening a document terminates", "statement": "Following the Prev links of the cross-reference sections of any file terminates and visits the sections newest first.", "quantifier": "every graph of Prev links", "why_tests_cant": "Cyclic chains of any length.", "anchors": ["src/vanillapdf/syntax/files/file.cpp: File::ReadXref"]}
{"id": "C25", "title": "A dictionary object is a map", "statement": "After any sequence of insert (with and without overwrite), remove, clear and merge operations, find and contains agree with the mathematical map obtained by the same operations.", "quantifier": "every sequence of operations on every dictionary", "why_tests_cant": "Histories are unbounded.", "anchors": ["src/vanillapdf/syntax/objects/dictionary_object.cpp: Insert, Remove, Find, TryFind, Contains, Merge, Clear"]}
{"id": "C26", "title": "An array object is a sequence", "statement": "After any sequence of append, insert, set, remove and clear operations, size and element access agree with the mathematical sequence; out-of-range accesses report an error and change nothing.", "quantifier": "every sequence of operations on every array", "why_tests_cant": "Histories are unbounded.", "anchors": ["src/vanillapdf/syntax/objects/mixed_array_object.cpp: Append, Insert, SetValue, Remove, Clear, GetValue"]}
{"id": "C27", "title": "Modifications mark every enclosing object as changed", "statement": "Any change of the value of an object nested at any depth in an initialised object marks the enclosing object as changed and notifies its observers, so the next save writes it.", "quantifier": "every object tree, every position, every modifying operation", "why_tests_cant": "Unbounded depth and operation sequences.", "anchors": ["src/vanillapdf/syntax/objects/object.cpp: Object::OnChanged, ObserveeChanged", "src/vanillapdf/utils/modify_observer_interface.cpp: IModifyObservable::OnChanged", "src/vanillapdf/syntax/objects/mixed_array_object.cpp", "src/vanillapdf/syntax/objects/dictionary_object.cpp"]}
{"id": "C28", "title": "Equal objects have equal hashes", "statement": "Whenever two objects compare equal their hash codes are equal, also after any sequence of modifications following an earlier hash computation.", "quantifier": "every pair of objects, every modification history", "why_tests_cant": "Hash values are cached, so correctness depends on the history.", "anchors": ["src/vanillapdf/syntax/objects/dictionary_object.cpp: Hash, OnChanged", "src/vanillapdf/syntax/objects/mixed_array_object.cpp: Hash, Clear"]}
{"id": "C29", "title": "Object equality is an equivalence relation", "statement": "Comparison of objects is reflexive, symmetric and transitive, and holds exactly when the two objects have the same type and content.", "quantifier": "every pair and triple of objects", "why_tests_cant": "Unbounded trees.", "anchors": ["src/vanillapdf/syntax/objects/*.cpp: Equals"]}
{"id": "C30", "title": "Cloning yields an independent equal object", "statement": "A clone compares equal to the original, and later changes to the clone do not change the original.", "quantifier": "every object and every later modification", "why_tests_cant": "Unbounded trees and histories.", "anchors": ["src/vanillapdf/syntax/objects/*.cpp: Clone", "src/vanillapdf/syntax/objects/object.cpp: CloneBaseProperties"]}
{"id": "C31", "title": "Recorded offsets point at the objects", "statement": "After a save, the offset recorded in the cross-reference for every in-use object is the position in the output at which the text 'N G obj' of that object starts.", "quantifier": "every document (any number, size and order of objects)", "why_tests_cant": "Each offset depends on the size of everything written before it.", "anchors": ["src/vanillapdf/syntax/files/file_writer.cpp: WriteEntry, WriteObject, WriteXrefObjects"]}
{"id": "C32", "title": "Saved documents read back", "statement": "Reading back the output of a full save: from startxref the sections are found, and through them every object of the document, whether written on its own or into an object stream, is found and equal, in whatever order the objects are loaded; objects the document does not have are null.", "quantifier": "every document: any number of sections, tables or cross-reference streams, any objects and stream bodies, any order of loading", "why_tests_cant": "Composition of all layers over unbounded documents.", "anchors": ["src/vanillapdf/syntax/files/file_writer.cpp: FileWriter::Write, WriteXref, WriteXrefOffset", "src/vanillapdf/syntax/files/file.cpp: File::Initialize"]}
{"id": "C33", "title": "Incremental save never alters the original bytes", "statement": "The output of an incremental save starts with the bytes of the source file, unmodified, whatever was changed in the document.", "quantifier": "every source file, every set of modifications", "why_tests_cant": "Signatures depend on this for every byte of every document.", "anchors": ["src/vanillapdf/syntax/files/file_writer.cpp: WriteIncremental, CopyStreamContent"]}
{"id": "C34", "title": "Incremental save chains to the previous section", "statement": "The cross-reference section appended by an incremental save refers through Prev to the newest section of the source, so every untouched object remains reachable.", "quantifier": "every source file including files that already have a Prev entry", "why_tests_cant": "Depends on the history of earlier incremental saves.", "anchors": ["src/vanillapdf/syntax/files/file_writer.cpp: CreateIncrementalXref, RecalculateXrefPrevOffset"]}
{"id": "C35", "title": "Object streams: every object is found at its offset", "statement": "For the content written for an object stream, the N offset pairs of the header locate exactly the text of each contained object after First.", "quantifier": "every list of objects with texts of any length", "why_tests_cant": "Offsets depend on the sizes of all previous objects.", "anchors": ["src/vanillapdf/syntax/files/file_writer.cpp: RecalculateObjectStreamContent", "src/vanillapdf/syntax/parsers/parser.cpp: ReadObjectStreamHeaders, ReadObjectStreamEntries"]}
{"id": "C36", "title": "Merging revisions keeps the newest state", "statement": "Merging the cross-reference sections on save keeps, for each object number, the entry of the newest section that mentions it.", "quantifier": "every chain of sections", "why_tests_cant": "Depends on all revisions.", "anchors": ["src/vanillapdf/syntax/files/file_writer.cpp: MergeXrefs"]}
{"id": "C37", "title": "Removing unreferenced objects keeps exactly the reachable ones", "statement": "The objects that survive the optimisation are exactly those reachable from the trailer through any path of references; no surviving object refers to a removed one.", "quantifier": "every object graph, cyclic ones included", "why_tests_cant": "Reachability ranges over all paths.", "anchors": ["src/vanillapdf/syntax/files/file_writer.cpp: RemoveUnreferencedObjects, FindIndirectReferences"]}
{"id": "C38", "title": "Renumbering preserves the object graph", "statement": "After renumbering, every reference leads to the same object it led to before, and the numbers are 0,1,2,... without gaps.", "quantifier": "every document", "why_tests_cant": "A bijection on an arbitrary set of objects.", "anchors": ["src/vanillapdf/syntax/files/file_writer.cpp: SquashTableSpace, InitializeReferences"]}
{"id": "C39", "title": "Removing duplicate objects preserves content", "statement": "After removing duplicates, each reference leads to an object equal to the one it led to before, and no two remaining objects are equal.", "quantifier": "every document", "why_tests_cant": "A fixpoint over an arbitrary graph.", "anchors": ["src/vanillapdf/syntax/files/file_writer.cpp: RemoveDuplicitIndirectObjects, RedirectReferences"]}
{"id": "C40", "title": "Stream length and keyword layout", "statement": "The Length written with a stream equals the number of body bytes between the stream and endstream keywords, so a reader that trusts Length gets exactly the body.", "quantifier": "every body, including bodies that contain the text endstream", "why_tests_cant": "Every content is possible in a body.", "anchors": ["src/vanillapdf/syntax/files/file_writer.cpp: RecalculateStreamLength", "src/vanillapdf/syntax/objects/stream_object.cpp: ToPdfStreamInternal", "src/vanillapdf/syntax/parsers/parser.cpp: ReadDictionaryStream"]}
{"id": "C41", "title": "Trailer Size covers all object numbers", "statement": "The Size written into the trailer is greater than every object number of the section.", "quantifier": "every set of entries", "why_tests_cant": "Depends on gaps in numbering.", "anchors": ["src/vanillapdf/syntax/files/file_writer.cpp: RecalculateXrefSize"]}
{"id": "C42", "title": "Password padding", "statement": "Any password is padded or truncated to exactly 32 bytes: the first 32 bytes of the password followed by the standard padding; no memory outside the buffers is touched.", "quantifier": "every password of any length", "why_tests_cant": "Lengths over 32 are an unbounded class.", "anchors": ["src/vanillapdf/syntax/utils/encryption.cpp: PadTruncatePassword"]}
{"id": "C43", "title": "AES encryption round trip", "statement": "Data encrypted on save and decrypted on load is unchanged.", "quantifier": "every data, key and initialisation vector", "why_tests_cant": "Depends on data length modulo 16 and the padding bytes.", "anchors": ["src/vanillapdf/syntax/utils/encryption.cpp: AESEncrypt, AESDecrypt, AddPkcs7Padding, RemovePkcs7Padding"]}
{"id": "C44", "title": "RC4 encryption round trip", "statement": "Data encrypted with RC4 on save and decrypted on load is unchanged, for strings and streams, independent of the order of objects.", "quantifier": "every data, key, object number and generation", "why_tests_cant": "2^n data and keys.", "anchors": ["src/vanillapdf/syntax/utils/encryption.cpp: ComputeRC4, ComputeObjectKey", "src/vanillapdf/syntax/files/file.cpp: EncryptData, DecryptData"]}
{"id": "C45", "title": "Objects are encrypted under different keys", "statement": "Two different (number, generation) pairs within the limits of the format feed different inputs to the key derivation.", "quantifier": "every pair of object identifiers", "why_tests_cant": "All pairs.", "anchors": ["src/vanillapdf/syntax/utils/encryption.cpp: ComputeObjectKey"]}
{"id": "C46", "title": "Correct passwords are accepted", "statement": "The user password with which a document was encrypted is accepted when opening it, and the derived key is the one used for encryption.", "quantifier": "every password, document id, permissions, key length", "why_tests_cant": "All inputs of the derivation.", "anchors": ["src/vanillapdf/syntax/utils/encryption.cpp: CheckKey, GenerateUserEncryptionKey, GenerateOwnerEncryptionKey, CalculateDecryptionKeyDigest", "src/vanillapdf/syntax/files/file.cpp: SetEncryptionPassword"]}
{"id": "C47", "title": "Page number n is the n-th leaf of the page tree", "statement": "For a page tree whose counts are consistent, the page returned for number n is the n-th page in document order, and requests outside 1..count report an error.", "quantifier": "every page tree of any shape and depth", "why_tests_cant": "Unbounded trees.", "anchors": ["src/vanillapdf/semantics/objects/page_tree.cpp: GetCachedPage, PageInternal, PageCount"]}
{"id": "C48", "title": "Page insertion and removal", "statement": "Inserting, appending or removing a page changes the page sequence exactly as the list operation at that index, and afterwards the count equals the number of pages.", "quantifier": "every page tree and every sequence of operations", "why_tests_cant": "Histories and shapes are unbounded.", "anchors": ["src/vanillapdf/semantics/objects/page_tree.cpp: Insert, Append, Remove, UpdateKidsCount"]}
{"id": "C49", "title": "Character map ranges map by offset", "statement": "A key within a range maps to the destination plus the distance of the key from the low end, as big-endian numbers.", "quantifier": "every range, key and destination", "why_tests_cant": "All byte strings up to any length; carries and borrows.", "anchors": ["src/vanillapdf/contents/character_map_data.cpp: BaseFontRange::GetMappedValueInternal, Difference, Increment, Contains"]}
{"id": "C50", "title": "Buffer ordering", "statement": "The ordering used for keys is a strict total order consistent with equality; the numeric comparison used by character maps is total and agrees with big-endian value for equal sizes.", "quantifier": "every pair and triple of buffers", "why_tests_cant": "All byte strings.", "anchors": ["src/vanillapdf/utils/buffer.cpp: LessThan, Equals, ValueEqualLessThan"]}
{"id": "C51", "title": "Reference counting", "statement": "Under any interleaving of threads acquiring and releasing references they hold, an object is destroyed exactly once, exactly when the last reference is released, and never while a reference is held.", "quantifier": "every number of threads and every schedule", "why_tests_cant": "Schedules cannot be enumerated by tests.", "anchors": ["src/vanillapdf/utils/unknown_interface.cpp: IUnknown::AddRef, Release"]}
{"id": "C52", "title": "Dates", "statement": "A date string in the format the library writes is accepted and yields the written fields; accepted dates always have fields in range.", "quantifier": "every date string", "why_tests_cant": "All strings.", "anchors": ["src/vanillapdf/semantics/objects/date.cpp: Date::Date, GetCurrentDate"]}
{"id": "C53", "title": "Content streams survive write and read", "statement": "Writing the instructions of a content stream and parsing them yields the same operators with the same operands.", "quantifier": "every sequence of operations", "why_tests_cant": "Unbounded sequences and operands.", "anchors": ["src/vanillapdf/contents/content_stream_parser.cpp", "src/vanillapdf/contents/content_stream_operations.cpp"]}
{"id": "C54", "title": "Line reading", "statement": "Reading a line returns the bytes up to the first CR, LF or CRLF and positions the reader behind it; concatenated lines and terminators give back the input.", "quantifier": "every input", "why_tests_cant": "All byte strings.", "anchors": ["src/vanillapdf/utils/streams/input_stream.cpp: InputStream::Readline"]}
{"id": "C55", "title": "Encrypted documents: every dispatch is symmetric", "statement": "For each algorithm setting of the document, a string or stream written encrypted is decrypted on load by the same algorithm and key, and objects exempted from encryption are neither encrypted nor decrypted.", "quantifier": "every configuration of crypt filters, every object", "why_tests_cant": "Combinations of configuration and exemptions.", "anchors": ["src/vanillapdf/syntax/files/file.cpp: EncryptString, DecryptString, EncryptStream, DecryptStream, GetEncryptionAlgorithmForFilter"]}
{"id": "C56", "title": "Literal string texts are decoded as ISO 32000 says", "statement": "For every text of a literal string that ISO 32000-1 7.3.4.2 allows, the value the library reports for the parsed string is the value the standard assigns to that text: end-of-line markers become LF, escapes and octal codes stand for one byte with high-order overflow ignored, a reverse solidus before any other character is ignored.", "quantifier": "all texts between balanced parentheses with any mix of escapes, octal codes, line ends and nested parentheses", "why_tests_cant": "The texts are unboundedly long and the rules interact (octal codes before digits, escapes before line ends); examples cover a handful of combinations.", "anchors": ["src/vanillapdf/syntax/objects/string_object.cpp: LiteralStringObject::GetRawValueDecoded", "src/vanillapdf/syntax/parsers/tokenizer.cpp: Tokenizer::ReadLiteralString"]}
{"id": "C57", "title": "Parsing any byte sequence as an object terminates", "statement": "For every byte sequence, reading an object from it returns an object or reports an error after finitely many steps; no input makes the reader loop or recurse forever.", "quantifier": "all byte sequences, at any start position, with any stream lengths and nesting", "why_tests_cant": "Non-termination can only be excluded by an argument over all inputs; a test that hangs on one input is found only if that input is guessed.", "anchors": ["src/vanillapdf/syntax/parsers/parser.cpp: ParserBase::ReadDirectObject, ReadDictionary, ReadDictionaryStream, ReadArray"]}
{"id": "C58", "title": "Object number 0 is never handed out", "statement": "Allocating a new indirect object never hands out object number 0, which is reserved for the head of the list of free objects.", "quantifier": "every file, created or opened, every history of allocations", "why_tests_cant": "The number depends on the history and on how the file was created; tests create files one way.", "anchors": ["src/vanillapdf/syntax/files/file.cpp: File::AllocateNewEntry", "src/vanillapdf/semantics/objects/document.cpp: Document::CreateFile"]}
{"id": "C59", "title": "Every integer the interface can hold survives write and read", "statement": "An integer object can be given any signed or unsigned 64-bit value; writing it and reading the text returns the same value.", "quantifier": "all signed and unsigned 64-bit values", "why_tests_cant": "2^65 values; the boundary where the reader fails is not where a test would look unless known.", "anchors": ["src/vanillapdf/syntax/objects/numeric_object.cpp", "src/vanillapdf/syntax/parsers/parser.cpp: ReadInteger"]}
{"id": "C60", "title": "Any cross-reference table is read as the entries it lists", "statement": "Opening a file whose cross-reference table follows ISO 32000-1 7.5.4 - any number of subsections in any order, any separators, comments and line ends, any padding of the numbers - yields exactly the entries listed, a later entry for a number overriding an earlier one, together with the trailer dictionary, and reading stops behind the trailer.", "quantifier": "all texts of cross-reference tables, all entries, all trailers", "why_tests_cant": "The texts of a table are unbounded in number of subsections, entries and forms of separators; tests use the files of a few producers.", "anchors": ["src/vanillapdf/syntax/parsers/parser.cpp: Parser::ReadXrefTable, Parser::ReadTableEntry"]}
{"id": "C61", "title": "Any cross-reference stream is read as the entries it lists", "statement": "Opening a file whose cross-reference stream follows ISO 32000-1 7.5.8 yields exactly the entries its decoded body lists under the arrays W and Index, a missing type field meaning type 1 and entries of unknown type being ignored.", "quantifier": "all widths, all arrays Index, all bodies", "why_tests_cant": "Widths, subsections and field values are unbounded and combine freely; tests use the streams of a few producers.", "anchors": ["src/vanillapdf/syntax/parsers/parser.cpp: Parser::ParseXrefStream"]}
{"id": "C62", "title": "Incremental saves contain every change", "statement": "After an incremental save, reading the output gives for every object the value the document had in memory at the time of the save, changed or not.", "quantifier": "every document, every set of changes, every history of earlier saves", "why_tests_cant": "Depends on which objects were changed, in which section they are, and on all earlier revisions.", "anchors": ["src/vanillapdf/syntax/files/file_writer.cpp: WriteIncremental, CreateIncrementalXref", "src/vanillapdf/syntax/files/xref.cpp: XrefTable::Add, XrefBase::Add"]}
{"id": "C63", "title": "The value of an object does not depend on the order of loading", "statement": "Getting an indirect object from an opened file yields the value it has in the newest section of the file, no matter which other objects, in object streams or not, were loaded before, and loading others later does not change it.", "quantifier": "all files, all sequences of objects loaded before, all objects", "why_tests_cant": "The number of load orders is unbounded, and the objects of an object stream are stored all at once as a side effect of loading any of them.", "anchors": ["src/vanillapdf/syntax/files/file.cpp: File::GetIndirectObject, File::InitializeObjectStream", "src/vanillapdf/syntax/files/xref_entry.cpp: XrefUsedEntry::Initialize, XrefCompressedEntry::Initialize", "src/vanillapdf/syntax/files/xref_chain.cpp: XrefChain::GetXrefEntry"]}
{"id": "C64", "title": "The index of an object in its object stream is its position", "statement": "In a saved file, the index recorded in the cross-reference stream for an object in an object stream is the position of this object in the object stream.", "quantifier": "all documents with object streams, all objects in them, after any removal of objects", "why_tests_cant": "Which indices are left depends on the history of the document; the library itself ignores the index when it reads the file back, so its round trips do not notice.", "anchors": ["src/vanillapdf/syntax/files/file_writer.cpp: FileWriter::RecalculateObjectStreamContent", "src/vanillapdf/syntax/files/xref.cpp: XrefStream::RecalculateContent"]}
{"id": "C65", "title": "Optimised saves keep the document", "statement": "Saving with all optimisations (merging revisions, removing unreferenced and duplicate objects, removing freed entries, renumbering) produces a document in which every path of references from the trailer leads to the same content as before.", "quantifier": "every document and every order in which the hash tables deliver the entries", "why_tests_cant": "Ranges over all object graphs, cyclic ones included, and over all iteration orders of unordered containers.", "anchors": ["src/vanillapdf/syntax/files/file_writer.cpp: CompressAndOptimize"]}
{"id": "C66", "title": "Requested permissions are granted", "statement": "When a document is encrypted with a set of user permissions, the document grants exactly these permissions.", "quantifier": "every combination of permission flags", "why_tests_cant": "All 2^32 values of the flags; a test of one value does not show which bits are granted.", "anchors": ["src/vanillapdf/semantics/utils/document_encryption_settings.cpp: GetPermissionInteger", "include/vanillapdf/semantics/c_document_encryption_settings.h: UserAccessPermissionFlags"]}
{"id": "C67", "title": "The requested encryption algorithm is used", "statement": "When a document is encrypted with the algorithm AES, its strings and streams are encrypted with AES.", "quantifier": "every password, key length, permission and document identifier", "why_tests_cant": "All settings.", "anchors": ["src/vanillapdf/semantics/objects/document.cpp: Document::AddEncryption", "src/vanillapdf/syntax/files/file.cpp: EncryptStream, EncryptString"]}
{"id": "C68", "title": "Renumbering keeps the contents of encrypted streams", "statement": "When an encrypted document is saved and an object gets another number, the contents of its stream are the same when the saved document is opened.", "quantifier": "every stream, key, old and new object number", "why_tests_cant": "Depends on the keys of both numbers and on whether the stream was accessed before.", "anchors": ["src/vanillapdf/syntax/files/file_writer.cpp: SquashTableSpace", "src/vanillapdf/syntax/objects/stream_object.cpp: GetBodyEncoded, GetBodyDecrypted"]}
{"id": "C69", "title": "Requests for pages end", "statement": "Requesting a page by number, or changing the page list, ends (with a page, an error or a changed document) for every document.", "quantifier": "every document, including ones whose page tree refers to itself", "why_tests_cant": "Termination over all object graphs.", "anchors": ["src/vanillapdf/semantics/objects/page_tree.cpp: PageInternal, UpdateKidsCount"]}
{"id": "C70", "title": "Comparing a buffer with a text", "statement": "Comparing a buffer with a C string is true exactly when they have the same bytes.", "quantifier": "every text and every buffer", "why_tests_cant": "All byte strings.", "anchors": ["src/vanillapdf/utils/buffer.cpp: operator==(const char*, const Buffer&)"]}
{"id": "C71", "title": "Character map lookup", "statement": "A key inside the code space that is covered by exactly one entry of a character map gets this entry's value regardless of the order of the entries; a key outside the code space or without an entry is an error.", "quantifier": "every character map and key", "why_tests_cant": "All maps and keys.", "anchors": ["src/vanillapdf/semantics/objects/character_map.cpp: UnicodeCharacterMap::GetMappedValue"]}
{"id": "C72", "title": "Weak references", "statement": "Turning a weak reference into a reference either fails because the object is gone or yields a reference to an object that stays alive while the reference is held, under every schedule.", "quantifier": "every number of threads and every schedule", "why_tests_cant": "Schedules cannot be enumerated by tests; the window is a few instructions wide.", "anchors": ["src/vanillapdf/utils/unknown_interface.h: WeakReference::GetReference, IWeakReferenceable"]}
{"id": "C73", "title": "Positioning a stream", "statement": "After positioning a stream to a place of its data, relative to the start, to the current position or to the end, a read returns the data from this place, whatever was done with the stream before, including reads that met the end.", "quantifier": "every content, every history of operations, every offset, direction and length", "why_tests_cant": "Histories of operations are unbounded, and the flags they leave behind interact with positioning.", "anchors": ["src/vanillapdf/utils/streams/input_stream.cpp: InputStream::SetPosition, InputStream::Read", "src/vanillapdf/utils/streams/input_output_stream.cpp"]}
{"id": "C74", "title": "Whole streams", "statement": "Reading a stream into a buffer returns everything from the current position, and what was written to a stream can be read back from it.", "quantifier": "every content, every sequence of writes and reads", "why_tests_cant": "Contents of every length and every split into pieces.", "anchors": ["src/vanillapdf/utils/streams/input_stream.cpp: InputStream::ToBuffer", "src/vanillapdf/utils/streams/input_output_stream.cpp: Write"]}
{"id": "C75", "title": "Edits of a page's instructions reach the file", "statement": "After any sequence of appending, inserting, removing and clearing instructions in the collection a page's contents return, PageContents_RecalculateStreamData writes the edited list, so that reading the contents again returns it; contents that were not edited are not altered, and contents set on a page are those the page returns afterwards.", "quantifier": "all pages with one content stream or an array of them, all sequences of edits, all instruction lists", "why_tests_cant": "Each edit, in each state of the cached collection, needs its own check that the change is noticed; a test fixes one history.", "anchors": ["src/vanillapdf/semantics/objects/page_contents.cpp:PageContents::RecalculateStreamData", "src/vanillapdf/semantics/objects/page_contents.cpp:PageContents::Instructions", "src/vanillapdf/contents/content_stream_instruction_base.h:BaseInstructionCollection", "src/vanillapdf/semantics/objects/page_object.cpp:PageObject::SetContents"]}
{"id": "C76", "title": "Reading any content stream ends", "statement": "Reading the instructions of any byte sequence whatever, well formed or not, returns instructions or an error; it never runs forever.", "quantifier": "all byte sequences", "why_tests_cant": "Non-termination can hide behind any malformed input; tests try finitely many.", "anchors": ["src/vanillapdf/contents/content_stream_parser.cpp:ContentStreamParser::ReadInstructions", "src/vanillapdf/contents/content_stream_parser.cpp:ContentStreamParser::ReadInlineImageObject"]}
{"id": "C77", "title": "The streams of a page form one sequence of instructions", "statement": "When the contents of a page are several streams divided at boundaries between tokens, the instructions of the page are those of the streams one after the other, including instructions spread over two streams.", "quantifier": "all divisions of all instruction texts into streams", "why_tests_cant": "Every pair of tokens can meet at a division.", "anchors": ["src/vanillapdf/semantics/objects/page_contents.cpp:PageContents::Instructions"]}
{"id": "C78", "title": "A name tree is a map from strings to values", "statement": "A name tree contains exactly the keys that its leaves list, finding a key returns its value whatever the depth of the tree, and inserting a key adds or replaces exactly that entry, keeps all others, and leaves the keys in lexical order.", "quantifier": "all well-formed name trees, keys and values, and all sequences of insertions", "why_tests_cant": "Trees of every depth and width with keys of every content can occur; a rebuild that loses entries shows only for certain shapes.", "anchors": ["src/vanillapdf/semantics/objects/tree.h:TreeBase", "src/vanillapdf/semantics/objects/tree.cpp", "src/vanillapdf/semantics/objects/destinations.cpp:NamedDestinations::Insert"]}
{"id": "C79", "title": "Page labels are found by page number", "statement": "The page label dictionary contains a page index exactly if the number tree of the document has an entry for that number, and finding it returns the label of that entry.", "quantifier": "all number trees and all page numbers", "why_tests_cant": "The lookup must compare numbers by value for every tree and every number, whatever the identity of the objects.", "anchors": ["src/vanillapdf/semantics/objects/page_labels.cpp:PageLabels::Contains", "src/vanillapdf/semantics/objects/tree.h:TreeBase"]}
{"id": "C80", "title": "Appending a document keeps its pages", "statement": "Appending a document adds all its pages, in order, behind the pages of the destination; each new page shows what the page of the source shows, however far references are followed, including circles; copies get new numbers; nothing else in either document changes.", "quantifier": "all finite source documents (any object graph, any page tree), all destination documents with a well-formed page tree, all page counts within 63 bits", "why_tests_cant": "The object graph reachable from a page is arbitrary: cycles, sharing, streams, dangling references. A merged file that opens in a viewer may still have a reference that leads to the wrong object.", "anchors": ["src/vanillapdf/semantics/objects/document.cpp: Document::AppendDocument, AppendPage", "src/vanillapdf/syntax/files/file.cpp: File::DeepCopyObject, ShallowCopyObject, FixObjectReferences", "src/vanillapdf/syntax/files/file.cpp: File::AllocateNewEntry", "src/vanillapdf/syntax/utils/object_utils.h: ObjectUtils::IsType, ConvertTo"]}
{"id": "C81", "title": "A signed file verifies", "statement": "When Document::Sign succeeds, the saved file contains the signature dictionary, readable by any reader, and that dictionary is a signature of that very file: ByteRange is [0 a b c] with b + c the size of the file, the bytes from a to b are exactly the hexadecimal string of Contents, and Contents is the signature that the key makes of all other bytes of the file, followed by zeros. The other entries are those the user has set, and all bytes outside the dictionary are the ones the writer has written. If the key fails, signing fails; a signature longer than the reserved room is an exception and is never cut off. This holds for every signature in the file.", "quantifier": "every signing key (any function from bytes to a signature or a failure), all settings, all other objects of the document before and behind the dictionary, all object numbers and everything the writer puts before and behind the objects", "why_tests_cant": "The offsets depend on the sizes of everything written before the dictionary, the signature covers the bytes that are patched afterwards, and the key is arbitrary; a test signs one document with one key.", "anchors": ["src/vanillapdf/semantics/utils/document_signer.cpp: DocumentSigner::OnBeforeOutputFlush, OnAfterObjectWrite", "src/vanillapdf/semantics/objects/document.cpp: Document::Sign", "src/vanillapdf/syntax/objects/object.cpp: Object::ToPdfStreamUpdateOffset", "src/vanillapdf/syntax/objects/dictionary_object.cpp: DictionaryObject::ToPdfStreamUpdateOffset", "src/vanillapdf/utils/pkcs12_key.cpp: PKCS12Key::SignUpdate"]}
{"id": "C82", "title": "Reading of character maps", "statement": "The character map (ToUnicode stream) that the library reads has exactly the code space ranges, the ranges, the single characters and the definitions (CMapName, CMapType, CIDSystemInfo) of the text, in the order of the text, whatever stands between them, however tokens are separated, and wherever the sections stand. GetMappedValue of a key then gives the value the text has for this key. A section with a number of entries other than the stated one is an error, never a silently shorter or longer map.", "quantifier": "all texts of the CMap syntax: any number and order of sections and entries, all separators and comments, all other tokens in between, all keys", "why_tests_cant": "The syntax allows any sequence of sections, other PostScript operators in between, any separators and any number of entries; a test has a handful of maps.", "anchors": ["src/vanillapdf/contents/character_map_parser.cpp: CharacterMapParser::ReadCharacterMapData", "src/vanillapdf/semantics/objects/character_map.cpp: UnicodeCharacterMap::GetMappedValue"]}
{"id": "C83", "title": "Named destinations follow their pages into a merged document", "statement": "When a document is appended, every named destination of the source that shows one of its pages leads, in the merged document, to the copy of that page with the same view and the same other entries; names of the destination document keep their value, a name used by both is refused, and no other names appear.", "quantifier": "all source documents and dictionaries of named destinations (arrays or dictionaries, held directly or as objects), all destination documents with a well-formed page tree, with or without named destinations", "why_tests_cant": "Destinations, pages and numbering of the destination interact: a name can refer to any page, by array, dictionary or reference, and an error only shows for the combination of shapes that a test did not contain.", "anchors": ["src/vanillapdf/semantics/objects/document.cpp: Document::AppendPage, MergePageDestinations, MergeNameDestinations, AppendNameDestination, FixDestinationPage, IsDestinationReferencingPage", "src/vanillapdf/semantics/objects/destinations.cpp: DestinationBase::Create, NamedDestinations::Find, NamedDestinations::Insert", "src/vanillapdf/syntax/files/file.cpp: File::ShallowCopyObject"]}
{"id": "C84", "title": "A file with damaged cross-references is opened with the objects it contains", "statement": "When the cross-references of a file cannot be read, opening it still succeeds: for every object number the last complete object with that number in the file is available, with the value and stream data its text denotes, and the document starts from the last trailer; the search ends for every file.", "quantifier": "all files, with any objects, stream data, trailers, comments and other text in any order, and any damage of their cross-references", "why_tests_cant": "The search meets the file as arbitrary text: what lies between objects, inside stream data and at the end of a truncated file can have any form, and a loss or an endless loop only shows for the text nobody thought of.", "anchors": ["src/vanillapdf/syntax/parsers/parser.cpp: Parser::FindAllObjects", "src/vanillapdf/syntax/files/file.cpp: File::Initialize"]}
{"id": "C85", "title": "A saved stream has the right length and its data", "statement": "For every stream of a document, encrypted or not, saving writes an entry Length that is the number of bytes between stream and endstream; a stream the user did not change keeps its contents and is encrypted in an encrypted document.", "quantifier": "all documents with and without encryption, all stream dictionaries, filters, bodies and random bytes", "why_tests_cant": "Whether the length is right depends on the size of the body modulo the cipher block, on the filter and on who produced the data; a test covers a few of these combinations.", "anchors": ["src/vanillapdf/syntax/files/file_writer.cpp: FileWriter::RecalculateStreamLength", "src/vanillapdf/syntax/objects/stream_object.cpp: StreamObject::GetBodyEncoded", "src/vanillapdf/syntax/objects/stream_object.h: StreamObject::SetHeader"]}
{"id": "C86", "title": "Removing the encryption keeps the contents", "statement": "After the encryption of an opened document is removed and the document is saved, the saved file is not encrypted, and every string and every stream is read from it as it was read from the encrypted document.", "quantifier": "all encrypted documents, with any revisions, objects, nesting, filters and ciphers", "why_tests_cant": "Every object of every revision has to be decrypted before the key is forgotten; one kind of object, filter or size that is treated differently stays unreadable or makes the save fail.", "anchors": ["src/vanillapdf/semantics/objects/document.cpp: Document::RemoveEncryption, Document::ForceObjectInitialization", "src/vanillapdf/syntax/objects/stream_object.cpp: StreamObject::GetBodyEncoded", "src/vanillapdf/syntax/objects/string_object.cpp: GetValue"]}
{"id": "C87", "title": "Compressed data of any size decompress to all of their contents", "statement": "Compressing data of any size with the Flate filter gives a complete compressed stream; decompressing a complete compressed stream of any size, with any bytes behind it, gives all of its contents. What is returned for damaged data is a beginning of the contents before the damage, never anything else.", "quantifier": "All data, all sizes of input and output relative to the internal block of 4096 bytes, all positions of damage, every compressor and decompressor that keeps the contract of zlib.h", "why_tests_cant": "The loops around zlib depend on how input and output blocks of 4096 bytes interleave; a test sees a few sizes, while an error at one boundary loses or repeats a block", "anchors": ["src/vanillapdf/utils/zlib_wrapper.cpp:ZlibWrapper::Inflate", "src/vanillapdf/utils/zlib_wrapper.cpp:ZlibWrapper::Deflate"]}
{"id": "C88", "title": "Iterating shows every entry once, whatever is changed meanwhile", "statement": "A loop over a dictionary with its iterator, in which the client inserts, removes and looks up entries as it likes, shows keys in ascending order, shows every entry that is present throughout exactly once with its value, and ends; no use of the iterator is undefined. The same for a collection of content instructions.", "quantifier": "All dictionaries and collections, all sequences of edits in every round of the loop, all sizes", "why_tests_cant": "Whether an iterator survives depends on which node each edit in each round touches; a test tries a few interleavings and undefined behaviour need not show", "anchors": ["src/vanillapdf/utils/base_iterator.h:BaseIterator", "src/vanillapdf/implementation/syntax/c_dictionary_object.cpp:DictionaryObject_GetIterator", "src/vanillapdf/implementation/syntax/c_dictionary_object.cpp:DictionaryObjectIterator_Next", "src/vanillapdf/implementation/contents/c_content_instruction.cpp:ContentInstructionCollection_GetIterator"]}
{"id": "C89", "title": "Names are values", "statement": "Changing the text of one name object changes that object only: no entry of a dictionary, no other name and no constant of the library changes; looking up, inserting and removing entries with a name leaves the name and its later behaviour alone; a name whose text is changed is recognised as changed when the file is saved.", "quantifier": "All sequences of creating names, changing them directly or through their buffer, inserting, finding and removing entries, in any number of dictionaries", "why_tests_cant": "Sharing shows only when a later call changes something that an earlier call shared, so that it depends on the whole history of calls", "anchors": ["src/vanillapdf/syntax/objects/name_object.h:NameObject", "src/vanillapdf/utils/unknown_interface.h:IWeakReferenceable", "src/vanillapdf/syntax/objects/dictionary_object.cpp:DictionaryObject::Find", "src/vanillapdf/syntax/objects/dictionary_object.cpp:DictionaryObject::Insert", "src/vanillapdf/syntax/utils/name_constants.cpp"]}
{"id": "C90", "title": "Calls of several threads on one file all return", "statement": "Threads that load objects of one file, read the data of its streams, follow references and compare references never wait for each other for ever: however the threads are scheduled, all calls return, no lock is left taken, and no thread unlocks a lock it does not have.", "quantifier": "All layouts of files (objects at offsets and in object streams, lengths that are references), any number of threads, all lists of calls, all schedules", "why_tests_cant": "A deadlock needs one particular interleaving of two threads on one particular layout of a file", "anchors": ["src/vanillapdf/syntax/files/xref_entry.cpp:XrefUsedEntry::Initialize", "src/vanillapdf/syntax/files/xref_entry.cpp:XrefCompressedEntry::Initialize", "src/vanillapdf/syntax/files/file.cpp:File::InitializeObjectStream", "src/vanillapdf/syntax/objects/stream_object.cpp:StreamObject::GetBodyRaw", "src/vanillapdf/syntax/objects/indirect_reference_object.cpp:IndirectReferenceObject::GetReferencedObject"]}
{"id": "C91", "title": "Threads that ask for the same object share it", "statement": "When a call for an object returns, the object is stored in the file; it is stored once, so that all threads that ask for it, at the same time or later, get the same object and changes of one are seen by the others.", "quantifier": "All layouts of files, any number of threads, all lists of calls, all schedules", "why_tests_cant": "A second copy appears only if two threads pass the same test before either stores the object, which a test cannot force", "anchors": ["src/vanillapdf/syntax/files/xref_entry.cpp:XrefUsedEntry::Initialize", "src/vanillapdf/syntax/files/xref_entry.cpp:XrefUsedEntryBase::SetReference", "src/vanillapdf/syntax/files/file.cpp:File::InitializeObjectStream"]}
{"id": "C92", "title": "Loading objects from several threads is free of data races", "statement": "Of two threads that access the entry of one object at the same time, none changes it.", "quantifier": "All layouts of files, any number of threads, all lists of calls, all schedules", "why_tests_cant": "A data race is undefined whether or not its effect shows in a run", "anchors": ["src/vanillapdf/syntax/files/xref_entry.cpp:XrefUsedEntry::Initialize", "src/vanillapdf/utils/modify_observer_interface.h:IModifyObservable::IsInitialized"]}
{"id": "C93", "title": "Every request for an object returns", "statement": "Asking an opened file for any object, whatever the file contains and whatever was asked before, comes to an end: with the object or with an error.", "quantifier": "All files, all cross-reference sections, all filters that return, all histories of requests, all object numbers", "why_tests_cant": "The depth of nested lookups has no bound over all files; a test tries a few files", "anchors": ["src/vanillapdf/syntax/files/file.cpp:File::GetIndirectObject", "src/vanillapdf/syntax/files/file.cpp:File::InitializeObjectStream", "src/vanillapdf/syntax/files/xref_entry.cpp:XrefUsedEntry::Initialize", "src/vanillapdf/syntax/parsers/parser.cpp:ParserBase::ReadDictionaryStream"]}
{"id": "C94", "title": "The last error of a thread describes its newest failure", "statement": "After a call of the C interface fails, the thread that made it can ask for the code and the message of that failure; calls of other threads do not change them. The announced length suffices for the message, nothing beyond it is written, and a buffer that is too short is refused.", "quantifier": "All interleavings of calls of any number of threads, all codes, all messages, all buffers and sizes", "why_tests_cant": "Histories of calls, interleavings of threads and lengths of messages are unbounded", "anchors": ["src/vanillapdf/utils/errors.cpp:Errors::SetLastErrorMessage", "src/vanillapdf/implementation/utils/c_errors.cpp:Errors_GetLastErrorMessage", "src/vanillapdf/implementation/c_helper.h:CATCH_VANILLAPDF_EXCEPTIONS"]}
{"id": "C95", "title": "Following references ends with the object they lead to, or with an error", "statement": "Asking for the value behind a reference, when the object it names is itself nothing but a reference and so on, returns the object at the end of the chain, whatever was asked before. When the chain leads back to itself, an error is reported.", "quantifier": "All files, all chains of references of any length, all histories of requests, all references held anywhere", "why_tests_cant": "Lengths of chains, cycles and histories of requests are unbounded; a test of a single request does not show what the second one does", "anchors": ["src/vanillapdf/syntax/utils/object_utils.h:DereferenceHelper::Get", "src/vanillapdf/syntax/objects/indirect_reference_object.cpp:IndirectReferenceObject::IsReferenceInitialized", "src/vanillapdf/syntax/objects/indirect_reference_object.cpp:IndirectReferenceObject::GetReferencedObject"]}
{"id": "C96", "title": "What is set in the document information is what is reported", "statement": "After setting title, author, subject, keywords, creator, producer, dates or the trapped state of a document, in any order and any number of times, the library reports for each what was set last, and for the others what it reported before.", "quantifier": "All document information dictionaries, all histories of setting entries, all texts and dates", "why_tests_cant": "Histories and dictionaries are unbounded; tests set each entry once", "anchors": ["src/vanillapdf/semantics/objects/document_info.cpp:DocumentInfo::SetTitle", "src/vanillapdf/semantics/objects/document_info.cpp:DocumentInfo::CreationDate", "src/vanillapdf/semantics/objects/document_info.cpp:DocumentInfo::Trapped", "src/vanillapdf/semantics/objects/date.h:Date::SetYear"]}
{"id": "C97", "title": "A file has one document, and a readable file can be opened", "statement": "While a document of a file is open, every further request for the document of this file gives the same one, links of the file are looked up in it, and no other document is open for the file. A request for the document of a readable file succeeds, whatever was opened, closed, found damaged or looked up before.", "quantifier": "All histories of opening and closing files and documents, readable or not, of creating documents and of following links; all addresses the allocator chooses", "why_tests_cant": "Failures depend on the history and on the addresses the allocator chooses, which tests do not control", "anchors": ["src/vanillapdf/semantics/utils/semantic_utils.cpp:SemanticUtils::GetMappedDocument", "src/vanillapdf/semantics/objects/document.cpp:Document::OpenFile", "src/vanillapdf/semantics/objects/document.cpp:Document::Document", "src/vanillapdf/semantics/objects/annotations.cpp:LinkAnnotation::Destination"]}
{"id": "C98", "title": "Annotations have the kind of their subtype, and links lead where the document says", "statement": "The annotations reported for a page are those of its array in its order, each with the kind that the standard has for its subtype. The destination of a link is the one that stands in it or the one that its string or name has in the document, with the page and the kind of view of that destination; a link without one, or with a name the document does not have, is reported to have none.", "quantifier": "All pages, annotations, documents, name trees of any depth, destinations stored directly or by reference", "why_tests_cant": "Dictionaries and name trees are unbounded; tests use a few kinds and one tree", "anchors": ["src/vanillapdf/semantics/objects/annotations.cpp:AnnotationBase::Create", "src/vanillapdf/semantics/objects/annotations.cpp:PageAnnotations::At", "src/vanillapdf/semantics/objects/annotations.cpp:LinkAnnotation::Destination", "src/vanillapdf/semantics/objects/page_object.cpp:PageObject::GetAnnotations", "src/vanillapdf/semantics/objects/name_dictionary.cpp:NameDictionary::Dests"]}
{"id": "C99", "title": "Settings for viewing and printing are reported as the document has them", "statement": "The page layout, the page mode, the mode after full screen, the direction, the scaling and the sides of printing that are reported are those whose names the standard gives for the entries of the document, and are reported only then; the version of the catalog is the one its name says; the ranges of pages to print are those of the document, in their order.", "quantifier": "All catalogs and viewer preferences, values stored directly or by reference, any number of ranges", "why_tests_cant": "Dictionaries, names and arrays are unbounded; tests read a few documents", "anchors": ["src/vanillapdf/semantics/objects/catalog.cpp:Catalog::PageLayout", "src/vanillapdf/semantics/objects/catalog.cpp:Catalog::PageMode", "src/vanillapdf/semantics/objects/catalog.cpp:Catalog::Version", "src/vanillapdf/semantics/objects/viewer_preferences.cpp:PageRange::At", "src/vanillapdf/semantics/objects/viewer_preferences.cpp:ViewerPreferences::Duplex", "src/vanillapdf/semantics/utils/semantic_utils.cpp:SemanticUtils::GetVersionFromName"]}
{"id": "C100", "title": "Outlines can be walked as the document has them", "statement": "A client that begins with the outline of a document and asks for first, last, next, previous and parent items, in any order and any number of times, is at each time at the item where these steps lead in the outline of the file, is told that there is nothing exactly where the outline has nothing, and sees the titles, colors and flags of the file.", "quantifier": "All outlines of any depth and breadth, all sequences of steps", "why_tests_cant": "Trees and walks are unbounded; tests walk one small outline forward", "anchors": ["src/vanillapdf/semantics/objects/outline.cpp:OutlineItem::Parent", "src/vanillapdf/semantics/objects/outline.cpp:OutlineItem::Next", "src/vanillapdf/semantics/objects/outline.cpp:Outline::First", "src/vanillapdf/semantics/objects/outline.cpp:OutlineItemColor", "src/vanillapdf/implementation/semantics/c_outline.cpp:OutlineBase_GetOutlineType", "src/vanillapdf/semantics/objects/catalog.cpp:Catalog::Outlines"]}
{"id": "C101", "title": "Numbers keep the value last set and are written as that value", "statement": "A number set through any object that stands for it is the number all of these objects show, until it is set again; clones and other numbers are not affected. It is read back as it was set and written as a PDF number with that value.", "quantifier": "All histories of creating, setting, converting and cloning number objects, all values", "why_tests_cant": "Histories of sharing and all 64-bit and decimal values cannot be enumerated", "anchors": ["src/vanillapdf/syntax/objects/numeric_object.cpp:NumericObjectBackend::ToString", "src/vanillapdf/syntax/objects/numeric_object.cpp:NumericObjectBackend::GetIntegerValue", "src/vanillapdf/syntax/utils/object_utils.h:ConversionHelper<IntegerObjectPtr>", "src/vanillapdf/implementation/syntax/c_integer_object.cpp", "src/vanillapdf/implementation/syntax/c_real_object.cpp", "src/vanillapdf/utils/conversion_utils.h"]}
{"id": "C102", "title": "The media box of a page is the box the file gives it", "statement": "The rectangle obtained for the media box of a page has the coordinates the file gives the page, directly or by inheritance; no box is reported only if there is none. A box that is set is the one read, and setting it changes nothing else on the page.", "quantifier": "All pages and all boxes, with direct or indirect, integral or real coordinates", "why_tests_cant": "All dictionaries and numbers; tests use one page with integers", "anchors": ["src/vanillapdf/semantics/objects/page_object.cpp:PageObject::GetMediaBox", "src/vanillapdf/semantics/objects/page_object.cpp:PageObject::SetMediaBox", "src/vanillapdf/semantics/objects/rectangle.cpp:Rectangle::Rectangle", "src/vanillapdf/implementation/semantics/c_rectangle.cpp"]}
{"id": "C103", "title": "What is not encrypted is read as it stands, and a protected file can be opened and unlocked", "statement": "Opening a file succeeds if the way from the trailer to the fields of its form is what the standard says. After that the strings that ISO 32000 exempts from encryption (those of the encryption dictionary, of the document identifiers, of cross-reference stream dictionaries, of objects in object streams and the contents of signatures) are returned as they are in the file, and all other strings of an encrypted file are decrypted, whatever passwords are given in whatever order. A password is taken exactly if it is right, and once a right one has been given every object can be read.", "quantifier": "every file (sections, trailers, objects, form), every place of a string, every sequence of calls that open the file and give passwords", "why_tests_cant": "Which strings are exempted depends on the shape of the whole document and on the order of opening, unlocking and reading; test files cover a few shapes.", "anchors": ["src/vanillapdf/syntax/files/file.cpp: File::Initialize, ExemptEncryptionDictionary, ExemptDocumentId, ExemptFileSignatures, ExemptCrossReferenceStreams, SetEncryptionPassword, DecryptData, GetIndirectObject", "src/vanillapdf/syntax/objects/object.cpp: Object::IsEncryptionExempted", "src/vanillapdf/syntax/objects/string_object.cpp: GetValue"]}
{"id": "C104", "title": "Fields of forms and their signatures are shown as the document has them", "statement": "The fields of a document's form can be enumerated, each with its kind; the signature of a signature field is the value of the field, and its texts, time, contents and revision are those of the file, reported missing only if they are not there. The ranges of bytes that are reported for a signature are those it covers, so that what a client takes for signed is signed.", "quantifier": "every document, every form and field, every signature dictionary, every number and position of ranges", "why_tests_cant": "Fields form trees of any shape with inherited entries, and the ranges of a signature are arbitrary numbers; tests that look at the first field or the first range see nothing wrong.", "anchors": ["src/vanillapdf/semantics/objects/fields.cpp: Field::Create, SignatureField::Value, FieldCollection::GetSize, FieldCollection::At", "src/vanillapdf/semantics/objects/interactive_forms.cpp: InteractiveForm::GetFields", "src/vanillapdf/semantics/objects/digital_signature.cpp: ByteRangeCollection::GetValue, DigitalSignature", "src/vanillapdf/implementation/semantics/c_digital_signature.cpp: ByteRangeCollection_GetValue"]}
{"id": "C105", "title": "Resources, fonts, parents and extensions are shown as the document has them", "statement": "A page reports the resources it has, its own or inherited ones, and after they have been set those that were set; the fonts among them are found under their names with the kind and the character map they have, and nothing that is no font is taken for one. The node above a page can be asked for and used. The extensions a document declares are enumerated with their base versions and levels.", "quantifier": "every document, every page and every chain of nodes above it, every resource dictionary and font, every dictionary of extensions", "why_tests_cant": "Resources may stand at any height above a page, entries may be direct or referred to, and optional entries may be there or not; tests show a few files, mostly ones where everything stands at the page itself.", "anchors": ["src/vanillapdf/semantics/objects/page_object.cpp: PageObject::GetResources, SetResources, GetInheritableResources", "src/vanillapdf/semantics/objects/font.cpp: FontBase::Create, FontMap::Find, FontMap::Contains, FontBase::ToUnicode", "src/vanillapdf/implementation/semantics/c_page_object.cpp: PageObject_GetParent", "src/vanillapdf/semantics/objects/developer_extensions.cpp: DeveloperExtensions::Iterator, DeveloperExtension"]}
{"id": "C106", "title": "A licence is accepted only with the data it was issued with", "statement": "A licence is accepted exactly if all its parts are there, its serial number is not refused, its updates have not ended before the library was built and its data carry a valid signature by a certificate of a valid chain; a licence that is not accepted changes nothing; after any history of attempts the last accepted licence counts. Data other than those that were signed are not accepted: from an issued licence nobody can make one with another limit, number or date.", "quantifier": "every licence, every history of licences, every outcome of the checks of signatures, certificates and times", "why_tests_cant": "The claim is about all ways to change a licence while its signature stays valid; tests try a few changes that break it.", "anchors": ["src/vanillapdf/utils/license_info.cpp: LicenseInfo::SetLicense, IsValid, IsTemporary, CheckBlacklist, CheckUpdateExpiration, CheckTemporaryExpiration", "src/vanillapdf/implementation/utils/c_license_info.cpp: LicenseInfo_SetLicenseBuffer, LicenseInfo_IsTemporary, LicenseInfo_IsValid"]}
{"id": "C107", "title": "Images are decoded and encoded sample by sample without leaving their data", "statement": "Whatever the data of a JPEG or JPEG 2000 image are, decoding reads only bytes of the data and of the samples the decoder returned and writes only into the result; the body that results is the samples of all components, point by point and row by row, for every image the decoder understands; and encoding hands on every byte the encoder produces.", "quantifier": "all data and all requests of the decoder, all outputs of the encoder of any length, all sizes, areas, grids, depths and numbers of components of images", "why_tests_cant": "The claim is about every image, also truncated and hostile ones, and about memory behind buffers, which a test does not notice; tests decode a few good pictures.", "anchors": ["src/vanillapdf/syntax/filters/dct_decode_filter.cpp: fill_input_buffer, skip_input_data, init_destination, empty_output_buffer, term_destination, DCTDecodeFilter::Decode", "src/vanillapdf/syntax/filters/jpx_decode_filter.cpp: memory_stream_skip, JPXDecodeFilter::Decode"]}
{"id": "C108", "title": "Attributes of objects behave as a map and follow copies", "statement": "Whatever calls a program makes on attributes and attribute lists, a list answers for each type with the attribute last added under it and not removed since, an addition with overwriting replaces, one without fails exactly where the type is there; the text of an object is its override, byte for byte, or its own text; a copy of an object has copies of its own of the attributes; reading the body of an image gives what its filters make of the data every time it is asked for, and encoding it hands on all of the data by rows.", "quantifier": "all histories of calls on all attributes and lists, all types, all filters, data and image sizes", "why_tests_cant": "What a list holds depends on the whole history of additions, removals, copies and decodings; a test tries a few of them.", "anchors": ["src/vanillapdf/syntax/utils/object_attribute_list.cpp: AttributeList::Add, Remove, Contains, Get, Clear", "src/vanillapdf/implementation/syntax/c_object_attribute_list.cpp", "src/vanillapdf/syntax/objects/object.cpp: Object::ToPdf, Object::CloneBaseProperties", "src/vanillapdf/syntax/objects/stream_object.cpp: StreamObject::GetBody, StreamObject::Clone", "src/vanillapdf/syntax/filters/dct_decode_filter.cpp: DCTDecodeFilter::Encode, DCTDecodeFilter::Decode", "src/vanillapdf/syntax/filters/jpx_decode_filter.cpp: JPXDecodeFilter::Decode"]}
{"id": "C109", "title": "A file encrypted for recipients opens with the key of a recipient and with no other", "statement": "For every file encrypted for recipients (adbe.pkcs7.s3, s4 or s5) and every key: if the first envelope that is for the key opens with it, setting the key answers yes and the file decrypts with the key the standard derives from the seed, all recipient strings and the length; if no envelope is for the key the answer is no and the file keeps the key it had; a key from PKCS#12 fits exactly the envelopes made for its certificate.", "quantifier": "all encryption dictionaries, all lists of envelopes and of recipients in them, all keys, digests and ciphers", "why_tests_cant": "The place of the right envelope among the others, the ways a dictionary may write the length and the crypt filter and the results of a custom key are unbounded; a test has one file and one certificate.", "anchors": ["src/vanillapdf/syntax/files/file.cpp: File::SetEncryptionKey", "src/vanillapdf/syntax/utils/encryption.cpp: EncryptionUtils::GetRecipientKey, EncryptionUtils::DecryptEnvelopedData", "src/vanillapdf/utils/pkcs12_key.cpp: PKCS12KeyImpl::Decrypt, ContainsPrivateKey", "src/vanillapdf/implementation/utils/c_encryption.cpp: EncryptionKey_CreateCustom"]}
{"id": "C110", "title": "A key signs as often as it is asked to, and its callbacks are called in order", "statement": "For every key and every history of its uses: signing hands it the digest, then every range of the file in order, then asks for the signature, and cleans up exactly once at the end if the first call has succeeded, whatever fails in between; the signature in the file is the one the key delivered; a key from PKCS#12 signs and unlocks files as if it had just been loaded, however often it was used before, and it loads with the right password.", "quantifier": "all keys and callbacks, all answers of callbacks, all lists of ranges, all histories of uses, all passwords", "why_tests_cant": "Which call fails, and what a key has been used for before, are unbounded; tests sign once with a key that succeeds.", "anchors": ["src/vanillapdf/semantics/utils/document_signer.cpp: DocumentSigner::OnBeforeOutputFlush", "src/vanillapdf/utils/pkcs12_key.cpp: PKCS12KeyImpl::Load, SignInitialize, SignUpdate, SignFinal, SignCleanup", "src/vanillapdf/implementation/utils/c_signing_key.cpp: CustomSigningKey, SigningKey_CreateCustom", "src/vanillapdf/implementation/utils/c_pkcs12_key.cpp: PKCS12Key_CreateFromFile"]}
{"id": "C111", "title": "The watermark of a file saved without a licence covers every page and changes nothing else", "statement": "For every document: saved with a licence it has no watermark. Saved without one, saving succeeds as it would with a licence, and every page shows what it showed before, followed by the watermark: its content is put between q and Q, the instructions of the watermark are read behind them, the font they need is in the resources of the page, and no other content stream, font, resource, box or child of a node is changed.", "quantifier": "all documents: all page trees of any shape and depth, all contents, resources and boxes, all images and years", "why_tests_cant": "Tests mark one document; streams shared by pages, inherited resources, boxes of any numbers and trees with cycles are combinations no test enumerates.", "anchors": ["src/vanillapdf/syntax/files/file_writer.cpp: FileWriter::ApplyWatermark, ApplyWatermarkPageNode, ApplyWatermarkPrependSave, ApplyWatermarkContentStream"]}
{"id": "C112", "title": "Objects of hybrid-reference files are found, and survive saving", "statement": "For every file whose cross-reference tables have hybrid streams (XRefStm): asking for an object gives the entry of the newest section that shows it, where a section shows the objects of its table and the hidden objects of its stream, whether or not the table has them as free. The file can be saved; the copy has the same hybrid streams; if the sections are merged, the one section has the newest entry of every object, hidden or not; if they are not, every object is written, and Size is greater than every object number.", "quantifier": "all chains of sections: any number of tables and streams, any hybrid streams, all entries in them, all object numbers and generations", "why_tests_cant": "The result depends on how entries of tables and streams of all sections overlap; tests have a few files, and most producers write none of this kind.", "anchors": ["src/vanillapdf/syntax/files/file_writer.cpp: FileWriter::CloneHybridStreams, MergeXrefs, RecalculateXrefSize, FindPreviousXref, WriteXrefObjects, WriteXref", "src/vanillapdf/syntax/files/xref.cpp: XrefTable::Find, XrefTable::Contains", "src/vanillapdf/syntax/files/file.cpp: File::ReadXref"]}
{"id": "C113", "title": "Observers of a save are told all of it, and cannot damage the file", "statement": "For every document and every set of subscribed observers: a save tells each of them, in order, that it begins, for each object written that its entry and the object are recalculated (with the offset at which the object then stands in the file) and that it is written, that the output is flushed, and that the save ends. No object of the document is left out and nobody else is told. A save that succeeds has written and flushed the file it writes without observers, whatever the callbacks do; a callback that fails ends the save at once: the save fails, nothing is written or told after it, and what was written is the beginning of that file. Observers may be subscribed, unsubscribed and released at any time.", "quantifier": "all documents and sections, all sets of observers, all callbacks (functions of the observer, the event and the calls so far), full and incremental saves", "why_tests_cant": "Callbacks are arbitrary programs and may fail at any of the notifications; tests use a few observers that always succeed.", "anchors": ["src/vanillapdf/syntax/files/file_writer.h: IFileWriterObserver, IFileWriterObservable::Invoke", "src/vanillapdf/utils/observable_interface.h: IObservable::Subscribe, Unsubscribe", "src/vanillapdf/utils/unknown_interface.h: WeakReference", "src/vanillapdf/implementation/syntax/c_file_writer_observer.cpp: FileWriterObserver_CreateCustom", "src/vanillapdf/syntax/files/file_writer.cpp: FileWriter::Write, WriteIncremental, WriteEntry, WriteObject, WriteXref"]}
{"id": "C114", "title": "A document made from nothing is saved and read as it was made", "statement": "Document_Create makes a document with one page. Whatever calls follow, in any order and however often - making pages, inserting, appending and removing pages, and inserting entries other than Parent into pages - the document shows the pages that the calls describe, in that order, each with the entries that were inserted; calls with an index outside of the document or with a key that is there already change nothing. The document is saved, and the file, when it is opened again, shows the same pages in the same order with the same entries (a null value is no entry), every page in the tree names the tree as its parent, and the producer, the creation date and the identifier are those of the document.", "quantifier": "all sequences of calls of fewer than 2^31 - 20 calls, all pages, indexes of 64 bits, keys and values that have a text; all identifiers, producer texts and dates", "why_tests_cant": "A test makes one document with a few pages; the order and number of calls, and the values, are unbounded.", "anchors": ["src/vanillapdf/semantics/objects/document.cpp: Document::CreateFile, CreateCatalog, CreateDocumentInfo, GetDocumentCatalog, Save", "src/vanillapdf/semantics/objects/catalog.cpp: Catalog::CreatePages, Catalog::Pages", "src/vanillapdf/semantics/objects/page_object.cpp: PageObject::Create", "src/vanillapdf/semantics/objects/page_tree.cpp: PageTree::Insert, Append, Remove", "src/vanillapdf/syntax/files/file.cpp: File::AllocateNewEntry", "src/vanillapdf/syntax/files/file_writer.cpp: FileWriter::Write"]}
{"id": "C115", "title": "A protected document stays protected and readable when it is saved", "statement": "When a document that is encrypted is saved as a whole, the file can be opened and its trailer still refers to the encryption dictionary. Every string of an object that is not exempt is in the file encrypted with the key of the document for the number of that object, and with the same key the API reads the value it had. Streams that were not changed have the same data, and streams that were changed have the new data, when they are read with the same key; the entries of their dictionaries are read as they were.", "quantifier": "all encrypted documents of any number of sections, objects and nested values; all keys, strings, streams and random bytes; all ciphers with the stated laws", "why_tests_cant": "A test saves a few documents with known passwords; the nesting of objects, the data, the keys and the number of sections are unbounded.", "anchors": ["src/vanillapdf/syntax/files/file_writer.cpp: FileWriter::Write, CloneXref, SetEncryptionData, RecalculateStreamsLength, WriteXrefObjects", "src/vanillapdf/syntax/objects/string_object.cpp: LiteralStringObject::ToPdfStreamInternal, HexadecimalStringObject::ToPdfStreamInternal, GetValue", "src/vanillapdf/syntax/objects/stream_object.cpp: StreamObject::GetBodyEncoded, GetBody", "src/vanillapdf/syntax/files/file.cpp: EncryptString, DecryptString, EncryptStream, DecryptStream"]}
{"id": "C116", "title": "Changes that are saved incrementally to an encrypted document are encrypted and can be read again", "statement": "When changes of an encrypted document are saved incrementally, the strings and the data of changed objects are encrypted in the output with the key of the document, so that they cannot be read without it and are read with it as they were before saving.", "quantifier": "all encrypted documents, all sets of changed objects, all values, keys and ciphers", "why_tests_cant": "A test saves a few changes of one document; which objects are changed and their contents are unbounded, and a reader without encryption support would not notice.", "anchors": ["src/vanillapdf/syntax/files/file_writer.cpp: FileWriter::WriteIncremental, CreateIncrementalXref, CloneXref, SetEncryptionData", "src/vanillapdf/syntax/files/file.cpp: File::IsEncrypted", "src/vanillapdf/syntax/objects/string_object.cpp: ToPdfStreamInternal", "src/vanillapdf/syntax/objects/stream_object.cpp: GetBodyEncoded"]}
{"id": "C117", "title": "Pages copied between documents keep their contents when either document is encrypted", "statement": "When objects are copied to another document, as AppendDocument and AppendPage do, the API reads from the copies the same strings, values and stream data as from the originals, with references leading to the copies, whichever of the two documents is encrypted. When the destination is saved, the copies are in the file in clear if it is not encrypted, and enciphered with its own key if it is, and they are read from the file as they were.", "quantifier": "all pairs of documents, encrypted or not, with any keys; all objects of any nesting; all streams, looked at or not; all sets of copied objects", "why_tests_cant": "A test copies a few pages of one kind of document; which objects are reached, what was looked at before and the two keys vary without bound.", "anchors": ["src/vanillapdf/semantics/objects/document.cpp: Document::AppendDocument, AppendPage", "src/vanillapdf/syntax/files/file.cpp: File::DeepCopyObjects, ShallowCopyObject, FixObjectReferences, AllocateNewEntry", "src/vanillapdf/syntax/objects/stream_object.cpp: StreamObject::Clone, GetBody, GetBodyEncoded", "src/vanillapdf/syntax/objects/string_object.cpp: LiteralStringObject::Clone, HexadecimalStringObject::Clone", "src/vanillapdf/syntax/objects/object.cpp: Object::CloneBaseProperties"]}
{"id": "C118", "title": "Signing adds one signature field to the document and changes nothing else", "statement": "After a document has been signed, its interactive form has one field more than before and its first page one annotation more; both are the same new object, a signature field with its own name, whose value is a new signature dictionary with the settings that were given. The flags of the form say that the document has signatures, a form is made if there was none, and all other fields, annotations, pages, objects and entries are as they were. Signing that fails leaves the document unchanged.", "quantifier": "all documents with or without forms and annotations, direct or in objects of their own; all page trees; all settings; all failures", "why_tests_cant": "A test signs a few documents; where the form, its fields, flags and annotations are kept, which numbers are in use and at which step signing fails varies without bound.", "anchors": ["src/vanillapdf/semantics/objects/document.cpp: Document::Sign, CreateAcroForm, CreateCatalog, GetDocumentCatalog", "src/vanillapdf/semantics/objects/interactive_forms.cpp: InteractiveForm::CreateFields, CreateSignatureFlags", "src/vanillapdf/semantics/objects/signature_flags.h: SignatureFlags", "src/vanillapdf/semantics/objects/page_object.cpp: PageObject::CreateAnnotations", "src/vanillapdf/syntax/files/file.cpp: File::AllocateNewEntry"]}
{"id": "C119", "title": "A document that is saved in the ordinary way is read back as it was", "statement": "Saving a document with the default writer (merging of revisions, removal of unreferenced, duplicate and freed objects, renumbering, all at once) and opening the file again gives a document in which everything that is found by following references from the catalogue, the document information, the identifiers or the encryption dictionary, to any depth, is what was there before: the same objects, dictionaries, arrays, streams and bodies. Only object numbers, dictionary entries with the value null and the recorded length of streams may differ.", "quantifier": "all documents of cross-reference tables with any number of revisions, objects and references, cyclic or not; all orders in which objects are met; all hash functions; all reversible stream encodings; all depths", "why_tests_cant": "A test compares a few files; which objects are merged, removed, taken as equal and renumbered depends on all objects and references of the document together and on the iteration order of unordered containers.", "anchors": ["src/vanillapdf/syntax/files/file_writer.cpp: FileWriter::Write, CloneXrefChain, CompressAndOptimize, MergeXrefs, RemoveUnreferencedObjects, RemoveAllDuplicitIndirectObjects, RemoveFreedObjects, SquashTableSpace, WriteXrefChain", "src/vanillapdf/syntax/files/file.cpp: File::Initialize, ReadXref, GetIndirectObject", "src/vanillapdf/syntax/parsers/parser.cpp: Parser::ReadIndirectObject"]}
{"id": "C120", "title": "A stream keeps the body that was set or shown, and this body is what is written", "statement": "Once a program has set the body of a stream, changed the buffer the library handed out as the body, or read the body, the stream shows this body until the program gives it another one, whatever it does in between with this stream (changing filters, reading, copying, writing) and with others; and the data written for it decode to this body with the filters it then has. A stream that is not changed is written with the bytes it has in the file. A copy has the same body and is written the same, and neither changes with the other.", "quantifier": "all histories of calls on any number of streams and buffers, all data, filters and codecs", "why_tests_cant": "A stream has up to three buffers and a flag that decide together what is shown and what is written; which of them are known depends on the whole history.", "anchors": ["src/vanillapdf/syntax/objects/stream_object.cpp: StreamObject::GetBody, SetBody, GetBodyRaw, GetBodyEncoded, Clone, SetHeader", "src/vanillapdf/implementation/syntax/c_stream_object.cpp", "src/vanillapdf/implementation/utils/c_buffer.cpp: Buffer_SetData"]}
{"id": "C121", "title": "The cross-reference sections of a file become its objects, newest revision first, also for streams that do not list themselves", "statement": "A file with any number of revisions - tables, tables with a hybrid stream, cross-reference streams that list themselves or not - can be opened; the trailer is the one of the newest section; and a request for an object gives what the newest revision that lists the object says: the object at the listed offset, a member of an object stream, or a free number. A cross-reference stream that no revision lists is found at its own offset, and all other objects that are not listed are missing.", "quantifier": "all chains of sections of any length, all entries, all requests", "why_tests_cant": "Which entry answers a request depends on all sections together, on the order in which they are read and on the entries the library makes up for streams that do not list themselves.", "anchors": ["src/vanillapdf/syntax/files/file.cpp: File::ReadXref, File::GetIndirectObject", "src/vanillapdf/syntax/parsers/parser.cpp: Parser::ParseXrefStream, Parser::ReadXref", "src/vanillapdf/syntax/files/xref_chain.cpp: XrefChain::Contains, XrefChain::GetXrefEntry"]}
{"id": "C122", "title": "Null arguments are refused, handles are used as what they are, and exceptions are reported as errors", "statement": "Every function of the C interface that needs an address refuses the call with a parameter error when the argument is null, before it does anything. A program that calls functions of the interface in any order, with handles it was given for the types it was given them as, never makes the library access the address 0 or use an object as one of another class; what it is handed out has the class of its handle type. A conversion between handle types succeeds exactly when the object is of the wanted class. No exception leaves the interface.", "quantifier": "all 738 functions of the interface, all arguments, all sequences of calls, all outcomes of the work behind the interface", "why_tests_cant": "A test calls some functions with some null arguments and some handles; the claim is about every function, every position and every sequence of conversions, and casts between handle types are not checked by the compiler.", "anchors": ["src/vanillapdf/implementation/c_helper.h: RETURN_ERROR_PARAM_VALUE_IF_NULL, CATCH_VANILLAPDF_EXCEPTIONS, SafeObjectConvert, ObjectRelease", "src/vanillapdf/implementation/*/c_*.cpp: all functions", "include/vanillapdf/*/c_*.h"]}
{"id": "C123", "title": "A string keeps the value that was set or shown, and this value is what is written", "statement": "Once a program has given a string a value (made it from a buffer, set it, edited the buffer of its value, or made it as a copy) or has seen its value, it sees this value until it gives the string another one, whatever happens to other strings, to the buffer the value was taken from, to the original of a copy or to copies; and what is written for the string is one token that is read as a string with this value. A string made from encoded text has the value this text denotes; text that cannot be decoded gives the same failure each time and is never shown or written in part. Reading, writing and copying change nothing that can be seen.", "quantifier": "all sequences of calls on any number of strings and buffers, all values, all texts", "why_tests_cant": "Values are decoded lazily and kept beside the encoded text, and buffers are handed out by reference; whether the two ever disagree depends on the order of all calls.", "anchors": ["src/vanillapdf/syntax/objects/string_object.cpp: CreateFromEncoded, CreateFromDecoded, GetValue, SetValue, Clone, ToPdfStreamInternal", "src/vanillapdf/implementation/syntax/c_string_object.cpp: StringObject_GetValue, StringObject_SetValue, LiteralStringObject_CreateFromEncodedBuffer, HexadecimalStringObject_CreateFromDecodedBuffer", "src/vanillapdf/implementation/utils/c_buffer.cpp: Buffer_GetData, Buffer_SetData"]}
{"id": "C124", "title": "A program gets the messages of the severities it asked for", "statement": "Each message of the library that is at least as severe as the severity last set is given to the callback (with its user data) or file last set, once, in order, with its severity and text; no other message is. A setting that is reported as failed changes nothing. The severity reported is the one last set. Logging can be shut down, set up again, and the callback can be replaced at any time. With several threads a callback is run by one thread at a time, and shutting down or replacing the logging is safe while messages are written.", "quantifier": "all sequences of logging calls and messages of the library, all interleavings of any number of threads, all severities and texts", "why_tests_cant": "Loggers live in a process-wide registry; what a call does depends on all earlier ones, and whether a message is written at all depends on what the library meets in its input.", "anchors": ["src/vanillapdf/implementation/utils/c_logging.cpp: Logging_SetCallbackLogger, Logging_SetRotatingFileLogger, Logging_GetSeverity, Logging_SetSeverity, Logging_Shutdown, custom_callback_sink", "include/vanillapdf/utils/c_logging.h", "src/vanillapdf/utils/log.h"]}
{"id": "C125", "title": "Files that are read and written", "statement": "A file opened for reading and writing has a place for reading and a place for writing, as its functions say: reading continues where reading was left and writing where writing was left, whatever is done in between; what was written can be read; and a program sees no difference between a file and a stream in memory.", "quantifier": "every content, every history of reads, writes and positionings", "why_tests_cant": "The two kinds of streams differ only in histories that mix reading and writing, and there are unboundedly many of them.", "anchors": ["src/vanillapdf/utils/streams/stream_utils.cpp: InputOutputStreamFromFile, InputOutputStreamFromMemory", "src/vanillapdf/utils/streams/input_stream.cpp: Read, SetInputPosition", "src/vanillapdf/utils/streams/output_stream.cpp: Write, SetOutputPosition, GetOutputPosition"]}
{"id": "C126", "title": "Buffers and lists of buffers", "statement": "A list of buffers is a sequence of shared buffers: appending, inserting, removing and reading follow the sequence, and positions outside of it are refused. A change of a buffer is seen through every handle of it, and a buffer lives exactly as long as the program or a list refers to it; a program that releases all its handles leaves nothing behind. Contents are never copied into too little room, a buffer can be set to any data, and a stream made from a buffer shows the contents at that time, whatever happens to the buffer later.", "quantifier": "every history of calls on any number of buffers, lists and streams, all contents and positions", "why_tests_cant": "Sharing and lifetimes depend on the whole history of handles, lists and releases; there are unboundedly many of them, and a wrong counter shows only as undefined behaviour.", "anchors": ["src/vanillapdf/utils/buffer.cpp: Buffer::ToInputStream", "src/vanillapdf/utils/buffer.h: Buffer::assign", "src/vanillapdf/utils/buffer_array.cpp: BufferArray::Append, Insert, Remove", "src/vanillapdf/implementation/utils/c_buffer.cpp: Buffer_SetData, Buffer_CopyTo, Buffer_ToInputStream", "src/vanillapdf/implementation/utils/c_buffer_array.cpp: BufferArray_At, BufferArray_Insert, BufferArray_Remove"]}
{"id": "C127", "title": "Objects are found by the numbers they carry", "statement": "When the cross-references of a file exchange objects, so that the line of one number leads to an object that carries another, a request for an object returns the object that carries the requested number and generation itself, of the newest revision that has it, and null if there is none. This does not depend on what was asked for before, and an object with other numbers is never returned.", "quantifier": "every file, every number of revisions and lines, every sequence of requests", "why_tests_cant": "Loading one object renumbers entries of all revisions; what a later request finds depends on the whole history of requests and on all lines of the file.", "anchors": ["src/vanillapdf/syntax/files/file.cpp: File::GetIndirectObjectInternal", "src/vanillapdf/syntax/files/xref_entry.cpp: XrefUsedEntry::Initialize", "src/vanillapdf/syntax/files/xref.cpp: XrefBase::Add, Clear, Find", "src/vanillapdf/syntax/files/xref_chain.cpp: XrefChain::GetXrefEntry, Contains"]}
{"id": "C128", "title": "Operators of content streams are reported as what they are", "statement": "A program that goes through a content stream is told, for each operation, the kind that ISO 32000 gives to its operator, by the type of the operation and by the kind of its operator; an operator that ISO 32000 does not know is reported as unknown. The text of the operator is given back as it stands in the stream, and two operators with different texts are never reported as the same known kind.", "quantifier": "every content stream, every operator text (known or not), all operands", "why_tests_cant": "A test meets some operators; the texts are unbounded, many differ only in case or in one more character, and three tables of the code have to agree.", "anchors": ["src/vanillapdf/syntax/parsers/token_dictionary.cpp: ContentStreamTokenDictionary::Initialize", "src/vanillapdf/contents/content_stream_parser.cpp: ContentStreamParser::ReadOperatorReturnOperation", "src/vanillapdf/contents/content_stream_operators.h: GENERIC_OPERATOR_DEFINITION, UnknownOperator", "src/vanillapdf/implementation/contents/c_content_operator.cpp: ContentOperator_GetOperatorType, ContentOperator_GetValue", "src/vanillapdf/implementation/contents/c_content_operation.cpp: ContentOperation_GetOperationType"]}
{"id": "C129", "title": "A stream whose length is missing or wrong is read whole", "statement": "When the dictionary of a stream has no entry Length, or one that does not lead to the word endstream, the stream is read with exactly the bytes between the line end behind stream and the line end in front of endstream: its entry Length becomes their number, the other entries stay as they are, and reading goes on behind endstream.", "quantifier": "every file, every dictionary, all data, every wrong length", "why_tests_cant": "The data are arbitrary bytes of any length with any mixture of line ends, and the search goes line by line over them; a wrong length can lead anywhere.", "anchors": ["src/vanillapdf/syntax/parsers/parser.cpp: ParserBase::ReadDictionaryStream", "src/vanillapdf/utils/streams/input_stream.cpp: InputStream::Readline"]}
