{
 "C01": {
  "note": "Any byte string; anything that ends the token may follow; both readers (tokenizer and decoder of encoded names)."
 },
 "C02": {
  "note": "Unencrypted strings; any value and any continuation."
 },
 "C03": {
  "note": "Round trip for any value, and decoding of any text of hexadecimal digits with white-space, odd counts included."
 },
 "C05": {
  "note": "Progress for every successful read and termination of reading until end of input or error."
 },
 "C04": {
  "note": "Every holdable object (Spec.Holdable) up to null entries of dictionaries, which are equivalent to absent ones, with any continuation, alone and as an indirect object. Reals are exact decimals in the model, not doubles."
 },
 "C07": {
  "note": "Any text that the grammar (Spec.Denotes) assigns to the object."
 },
 "C08": {
  "note": "Any list of entries with any separators."
 },
 "C56": {
  "status": "partial",
  "note": "False of the code in four cases, each with a counterexample theorem; proved for all other texts (Spec.LitBody)."
 },
 "C06": {
  "status": "partial",
  "note": "Cache transparency (any operation history, any cache size) and transparency of peeks hold whenever no peek fails; a peek that fails moves the reader (C06_failing_peek_counterexample)."
 },
 "C57": {
  "status": "partial",
  "note": "Proved for inputs in which no /Length is followed by a minus sign; false in general: a negative stream Length makes the reader re-read the same dictionary forever (C57_counterexample). Stack exhaustion on deep nesting is not modelled."
 },
 "C09": {
  "status": "partial",
  "note": "Any text with an even number of digits; an odd number of digits decodes wrongly (C09_odd_counterexample)."
 },
 "C10": {
  "status": "partial",
  "note": "All data if signed overflow wraps; by the C++ standard only data whose groups stay below 2^31, otherwise undefined behaviour (C10_overflow_counterexample)."
 },
 "C11": {
  "status": "partial",
  "note": "None, Up, byte-aligned Sub rows and one-pixel Average and Paeth rows, any number of rows; counterexamples for Average, Paeth and Sub with unaligned pixels."
 },
 "C12": {
  "status": "partial",
  "note": "zlib and libjpeg are parameters. No filter and chains of Flate without predictor round trip; unsupported encoders report; counterexamples for mixed chains and predictors."
 },
 "C13": {
  "status": "partial",
  "note": "All pairs of integer types of any width: value preserved or error; error only when unfit except the largest value of a signed destination (C13_maximum_counterexample)."
 },
 "C14": {
  "note": "Unsigned types of 8, 16, 32, 64 bits; error exactly when the result does not fit. Outside the property: signed operands and addends wider than the destination, shown by counterexamples."
 },
 "C15": {
  "status": "partial",
  "note": "Widths up to eight bytes; wider fields are undefined behaviour (C15_wide_field_counterexample)."
 },
 "C16": {
  "note": "Any operation sequence on a new section of any kind (table, stream, virtual): look-ups, Contains, enumeration in increasing order, size and reported results. Entries are values: an entry whose number changes after insertion is not modelled."
 },
 "C17": {
  "note": "Any chain of well-formed sections with hybrid streams; exact characterisation of success, failure and Contains."
 },
 "C18": {
  "note": "Any history of allocations with arbitrary edits of the sections in between; fresh, strictly increasing, and the effect on look-ups."
 },
 "C19": {
  "status": "partial",
  "note": "Other numbers unchanged always; the released number unreachable unless an older section has the same number and a generation other than 0 (C19_older_revision_counterexample) or the entry lives in a hybrid stream (C19_hybrid_counterexample)."
 },
 "C58": {
  "status": "partial",
  "note": "True when some section has an entry 0, as in files made by the document interface; false for a new file made by the file interface (C58_number_zero_counterexample)."
 },
 "C59": {
  "status": "partial",
  "note": "Signed 64-bit values; unsigned values from 2^63 are written but refused by the reader (C59_unsigned_counterexample)."
 },
 "C20": {
  "status": "partial",
  "note": "Proved for tables of free entries and entries in use, any gaps. Used entries that are not in use are counted but not written (C20_unused_counterexample); the number of the next free object is not kept by the reader."
 },
 "C60": {
  "note": "Any text generated by the grammar of Spec/XrefTable.lean, wider than the standard."
 },
 "C21": {
  "status": "partial",
  "note": "Round trip proved for sections with object 0 and fields below 2^63; C21_exact gives the outcome in all cases; C21_lowest_number_counterexample: a section whose lowest number is not 0 is written with an Index starting at 0."
 },
 "C61": {
  "status": "partial",
  "note": "All streams with a type field; counterexamples for a missing type field and for unknown types. Data that end before the announced entries are read past their end (C61_short_counterexample). The entry of the stream itself is in C121."
 },
 "C22": {
  "note": "C22_any_ending covers all endings with white-space within the last 16384 bytes; C22_far_counterexample shows the limit."
 },
 "C23": {
  "status": "partial",
  "note": "Round trip and rejection of 1.8, 1.9 and 2.1-2.9 proved; headers with other major versions are passed over and a later line may count (C23_major_counterexample). Stack use of std::regex on very long lines is not modelled."
 },
 "C24": {
  "status": "partial",
  "note": "Proved for chains without cycle; every cycle makes opening run forever (C24_cycle_counterexample, C24_file_counterexample). Cross-reference streams are a parameter of the loop."
 },
 "C54": {
  "note": "Line, whole sequence of lines, refinement to the parser's readLine, and the error behind the end."
 },
 "C25": {
  "status": "partial",
  "note": "Refinement to a mathematical map proved for histories that never replace a value; overwriting insertions keep the old value (C25_overwrite_counterexample), and so does Merge (C25_merge_counterexample)."
 },
 "C26": {
  "note": "Out-of-range operations are covered (C26_out_of_range)."
 },
 "C27": {
  "status": "partial",
  "note": "Proved for all noticed modifications of initialised paths in all histories without Merge and without removal of one of several occurrences; counterexamples show that integers, reals, Clear of arrays, the first SetValue of a string, newly created containers, Merge and duplicates are not noticed, and that cycles do not end."
 },
 "C28": {
  "status": "partial",
  "note": "Values: proved where no reference meets a direct object and no integer a real. Cache: proved for safe histories. Counterexamples for the rest."
 },
 "C29": {
  "status": "partial",
  "note": "Proved where no reference meets a direct object and no integer a real; counterexamples otherwise (C29_reference_counterexample, C29_number_counterexample, C29_alias_counterexample)."
 },
 "C30": {
  "status": "partial",
  "note": "Proved for all objects, after all histories without Merge; for streams the bodies are in C120 (C120_copy, C120_independent) and the dictionary is one of the objects here. An object that contains itself cannot be cloned (C30_cycle_counterexample)."
 },
 "C31": {
  "status": "partial",
  "note": "Every document of tables and cross-reference streams without object streams; every entry except the one of a cross-reference stream for itself, for which it is false in general (counterexample for every document with such an entry)."
 },
 "C32": {
  "status": "partial",
  "note": "Any number of sections, kinds mixed, any objects and stream bodies; all objects, null for missing ones, and the trailer entries Root, Info, ID, Encrypt. Filters through an abstract codec that is assumed to be reversible. With objects in object streams (C32_object_streams_partial): object streams filled by the writer, objects loaded in any order. Missing: the object streams and cross-reference streams themselves; false for cross-reference streams without object 0, for changed Length references, for object streams that a newer section replaces, for streams whose Length is in an object stream (counterexamples)."
 },
 "C40": {
  "note": "Any header, any body, any position; a Length that is a reference must lead to the same number for the reader as for the writer (see C32_length_counterexample)."
 },
 "C41": {
  "status": "partial",
  "note": "False with gaps in the numbers (counterexample); exact condition proved."
 },
 "C33": {
  "note": "Every source and every state in memory."
 },
 "C34": {
  "status": "partial",
  "note": "False when the source has a Prev already or nothing was changed (general counterexamples); proved for sources written by a full save of tables and cross-reference streams with one change at least."
 },
 "C62": {
  "status": "partial",
  "note": "Sources written by a full save (any number of sections, but the newest trailer without Prev), any changed and added objects that newer sections do not replace. False otherwise: three counterexamples."
 },
 "C63": {
  "status": "partial",
  "note": "Proved, over the loader that shares one reader position (fetch), for consistent files in which lengths given by reference are outside object streams and right; false for a file in which an object of an object stream was replaced in a newer section, and for a stream whose length is in an object stream not yet unpacked: its data are then cut short and the length object is overwritten (counterexample theorems)."
 },
 "C64": {
  "status": "partial",
  "note": "Exact condition proved; false when an index is left out (counterexample theorem)."
 },
 "C35": {
  "note": "Reading of any standard text, form of the text written, and the round trip."
 },
 "C36": {
  "status": "partial",
  "note": "False for freed numbers and for trailers of cross-reference streams: C36_freed_counterexample, C36_trailer_counterexample."
 },
 "C37": {
  "status": "proved",
  "note": "For one section, as after the merge. Needed includes the cross-reference stream and the object streams; C37_exactly_reachable for tables."
 },
 "C38": {
  "status": "partial",
  "note": "Missing: references to missing objects, C38_null_reference_counterexample."
 },
 "C39": {
  "status": "partial",
  "note": "Uniqueness in full. Content kept only when nothing below a duplicate has a duplicate and objects are comparable; C39_lost_counterexample, C39_number_counterexample."
 },
 "C65": {
  "status": "partial",
  "note": "Hypotheses as in C36, C38, C39, whose counterexamples apply; the same cases through the whole save are counterexamples of C119."
 },
 "C42": {
  "note": "Proved for passwords of at most 32 bytes; longer ones are undefined behaviour in the code.",
  "status": "partial"
 },
 "C43": {
  "note": "The property is false of the code: surplus padding bytes stay behind the data. Data of other producers are decrypted correctly.",
  "status": "partial"
 },
 "C44": {
  "note": "Under the laws of Spec.Lawful for the OpenSSL primitives."
 },
 "C45": {
  "note": "Within the limits of the format; beyond them numbers collide modulo 2^24.",
  "status": "proved"
 },
 "C46": {
  "note": "Passwords of at most 32 bytes and, for the owner password, keys of at most 40 or exactly 128 bits; other lengths fail in the code.",
  "status": "partial"
 },
 "C55": {
  "note": "Proved for strings and for streams with at most one filter; arrays of filters and unchanged crypt-filter streams fail in the code.",
  "status": "partial"
 },
 "C66": {
  "note": "The property is false of the code: the flags are inverted.",
  "status": "partial"
 },
 "C67": {
  "note": "The property is false of the code: AES is never used by AddEncryption.",
  "status": "partial"
 },
 "C68": {
  "note": "The property is false of the code for streams that were not accessed before saving.",
  "status": "partial"
 },
 "C47": {
  "note": "Every tree of any shape and depth; Type, Kids and Count may be direct or behind one reference. Kids written as direct dictionaries are not modelled."
 },
 "C48": {
  "status": "partial",
  "note": "Append proved for all trees; insertion and removal proved to act on the top-level entries, with counts right afterwards; whole claim proved for histories on flat trees; false for nested trees (counterexamples). Requires Type/Kids/Count direct and no node used twice."
 },
 "C69": {
  "status": "partial",
  "note": "False for cyclic page trees (counterexample for every depth); holds when the document contains a proper tree."
 },
 "C49": {
  "status": "partial",
  "note": "Whole claim for ranges with ends of the same length up to 4 bytes, arrays, and string destinations up to 4 bytes when the sum fits; false otherwise (three counterexamples)."
 },
 "C50": {
  "note": "Both orders, all buffers."
 },
 "C70": {
  "status": "partial",
  "note": "False (prefixes compare equal); characterised exactly for data without zero bytes."
 },
 "C71": {
  "note": "Lookup only; the parser of character maps is not part of this claim."
 },
 "C51": {
  "status": "partial",
  "note": "All thread counts and schedules with fewer than 2^32 references; false beyond."
 },
 "C72": {
  "status": "partial",
  "note": "False under concurrency (two counterexample schedules); proved for uninterrupted calls."
 },
 "C73": {
  "status": "partial",
  "note": "False for offset -1 with the current position or the end as origin (C73_counterexample); proved for every other offset and every history."
 },
 "C74": {
  "status": "partial",
  "note": "C74_whole is complete. Writing is false once the end was met (C74_counterexample, C74_lost_counterexample). C74_history_partial covers every history in which the stream is positioned for reading between meeting the end and the next write, at places of the content and without the offset -1."
 },
 "C52": {
  "status": "proved",
  "note": "Texts shorter than a full date take the defaults the code gives. Date setters, which change fields and not the text, are the subject of C75."
 },
 "C53": {
  "status": "partial",
  "note": "Reading of every rendition is proved; write-then-read is proved without inline images and, with them, up to the added line end; false for all inline images as such (C53_image_counterexample)."
 },
 "C75": {
  "status": "partial",
  "note": "Proved when the object counts as changed and was read; false otherwise, for all states (counterexamples)."
 },
 "C76": {
  "status": "partial",
  "note": "Proved for every input without the characters BI; false with inline images."
 },
 "C77": {
  "status": "partial",
  "note": "Proved for streams whose tokens do not touch at the divisions; false for q|Q."
 },
 "C78": {
  "status": "partial",
  "note": "Lookup proved for all well-formed trees; insertion proved for flat roots without Limits and a new key, false otherwise (counterexamples: existing keys, Limits, second insertion, kids, order of non-ASCII keys, cycles)."
 },
 "C79": {
  "status": "partial",
  "note": "False of the code: the map is keyed by object identity, so no page label is ever found, for trees with and without kids."
 },
 "C80": {
  "status": "partial",
  "note": "C80_copy_partial: a deep copy is the same seen to any depth, one new object per reachable object, destination unchanged, ends on cycles. C80_append_partial: all pages appended in order with equal content. False: a dangling reference leads into the destination and changes objects there; inherited attributes are lost; links between pages lead to copies that are no pages; the source pages lose Parent. Named destinations are C83 and C78."
 },
 "C81": {
  "status": "partial",
  "note": "Proved for the signature that is being made. C81_again_counterexample: when a document is signed twice while it is in memory, the first signature dictionary is saved with blanks and has no Contents."
 },
 "C82": {
  "status": "partial",
  "note": "Proved for all texts of the grammar; C82_integer_counterexample and C82_dict_counterexample show two standard forms that make the whole map unreadable. C82_range_partial has the limits of C49."
 },
 "C83": {
  "status": "partial",
  "note": "C83_append_partial: after appending all pages, each name that shows page j leads to the new page j with the same view and entries; old names kept; no others. C83_find: such a name is found. C83_conflict (any documents): success means no name was used twice. False: entries that are no destination or have a page number make all pages fail; D by reference is not copied and changes an unrelated object."
 },
 "C84": {
  "status": "partial",
  "note": "C84_recover_partial: for files of complete objects, trailers, other lines, the last object of each number is found with its value, data and offset, others are null, last trailer. C84_open_partial: opening falls back to it. C84_ends_partial: ends unless some /Length is followed by a minus sign. False otherwise: see the seven counterexamples (truncated, foreign text, split head, missing endobj, linearized trailer, stale cross-reference stream, endless search)."
 },
 "C85": {
  "status": "partial",
  "note": "Proved for changed streams, documents without encryption, ciphers other than AES, and streams without filters. False for unchanged streams with filters in AES documents: C85_unsupported_counterexample (save fails), C85_length_counterexample (Length of other data), C85_clear_counterexample (filter arrays written unencrypted)."
 },
 "C86": {
  "status": "partial",
  "note": "Trailer, entries and strings in full; streams without filters or with unchanged size (all ciphers but AES). False for other streams: C86_save_counterexample, C86_flate_counterexample (predictor and Length), C86_undecodable_counterexample."
 },
 "C87": {
  "status": "partial",
  "note": "Proved for every compressor and decompressor that keeps the contract of zlib.h; false for truncated data, which decompress without an error, and for data damaged in the first block, whose contents before the damage are lost."
 },
 "C88": {
  "status": "partial",
  "note": "Proved for dictionaries and every client that does not remove the entry being shown, clear the dictionary or give up its reference during the loop, and for collections that are not changed; the other cases are undefined in the code."
 },
 "C89": {
  "status": "partial",
  "note": "Proved for clients that change no name once a dictionary has it, or a copy of it, as a key; false otherwise, because copies of names share their text and their counter of weak references."
 },
 "C90": {
  "status": "partial",
  "note": "Proved for files in which no stream has a reference as its Length and the object streams are at offsets, and for references compared in one order; in the other cases two threads can wait for each other for ever (three counterexamples). One thread alone never waits, in any file."
 },
 "C91": {
  "status": "partial",
  "note": "That the objects are stored is proved for all files; that they are stored once is proved for objects in one place in files without lengths that are references, and false for updated objects that an old object stream lists."
 },
 "C92": {
  "status": "partial",
  "note": "Proved for two threads that store an object. The flag is tested without the lock, so that a test races with a store in every file."
 },
 "C93": {
  "status": "partial",
  "note": "Proved for files in which no object is read with the help of itself and no length is negative (a rank decreases). Proved false of files with cycles of lengths, and of an object stream that contains its own N. A test (checkGrounded) decides the hypothesis for a concrete file."
 },
 "C94": {
  "status": "partial",
  "note": "Proved for failures that are exceptions with messages of at most 254 bytes, over all interleavings. Proved false of longer messages, of failures that are no exceptions and of exceptions that are no std::exception."
 },
 "C95": {
  "status": "partial",
  "note": "Proved for all chains that end. For all chains that do not end: the first request fails with an error, and it is proved that the second one exhausts the stack."
 },
 "C96": {
  "status": "partial",
  "note": "Refinement proved over histories in which each entry is set once and was not there, with dates whose string says what their fields say. Proved false of entries that are there and of dates changed by hand, for all values. The entries in the file and their reading are proved against the table of the standard."
 },
 "C97": {
  "status": "partial",
  "note": "Proved over all histories: one document for each file, links are looked up in it. Opening is proved for addresses where nothing failed before; proved false after a failure at the address or a link without a document, for all histories before and after. A file without handles and documents is proved to be closed."
 },
 "C98": {
  "status": "partial",
  "note": "Links and the order of annotations proved in full over the model (one reference is followed). Kinds proved for all names of the standard but Stamp, TrapNet and 3D, for which the claim is proved false: every such annotation is refused."
 },
 "C99": {
  "status": "partial",
  "note": "Settings and version proved in full over the model. Of the ranges of pages only the number and the first range; for every other range in ascending order the claim is proved false."
 },
 "C100": {
  "status": "partial",
  "note": "Refinement proved for all outlines and all walks in which Parent is asked for at items at the top only. For every item below another item the claim is proved false: its parent is reported as an outline and cannot be used as an item."
 },
 "C101": {
  "status": "partial",
  "note": "Sharing, clones and bits proved over all histories; texts proved for numbers whose precision covers their digits or, without precision, of common size. The remaining cases are proved false: rounding to an old precision, exponents, unsigned 2^63-1, real 2^63. Doubles are decimal numbers in the model."
 },
 "C102": {
  "status": "partial",
  "note": "Own boxes and boxes that are set are proved for all pages, up to fractions. Loss of fractions and of inherited boxes is proved."
 },
 "C103": {
  "status": "partial",
  "note": "Signatures of fields that belong to other fields are decrypted (C103_kid_counterexample); files whose catalog is in an object stream cannot be opened unless the user password is empty, and a second attempt succeeds without exempting signatures (C103_locked_counterexample); forms that refer to missing objects or signatures with literal contents make opening fail (C103_form_counterexample, C103_literal_counterexample). Everything else is proved in both directions; after any failure, further attempts to open report success (C103_again_counterexample)."
 },
 "C104": {
  "status": "partial",
  "note": "Fields that inherit their kind are shown as groups (C104_inherited_counterexample), fields below others are not shown (C104_kids_counterexample), and the second byte range is wrong for every signature: ByteRangeCollection::GetValue(i) takes the items i and i+1 instead of 2i and 2i+1 (C104_ranges_counterexample, C104_hole_counterexample). The rest is proved in general."
 },
 "C105": {
  "status": "partial",
  "note": "Inherited resources are reported missing (C105_inherited_counterexample); PageObject_GetParent hands out a PageTreeNode as a PageTree, so that every use is undefined (C105_parent_counterexample); a Type entry breaks the iteration over extensions (C105_type_counterexample). The rest is proved in general."
 },
 "C106": {
  "status": "partial",
  "note": "The signed content is owner, note, serial, date and limit written one after another without separators: limits can be removed (C106_limit_counterexample), refused numbers hidden (C106_serial_counterexample) and dates replaced (C106_updates_counterexample) with the signature still valid. C106_data_partial: not if the lengths stay the same. The rest is proved in general."
 },
 "C107": {
  "status": "partial",
  "note": "Reads behind the data for every JPEG that ends early (C107_source_counterexample), behind the samples for JPEG 2000 images with an offset or a coarser grid (C107_grid_counterexample, C107_samples_counterexample), zeros for two components (C107_rows_counterexample), no images beyond eight bits (C107_depth_counterexample), wrong answers to skipping (C107_skip_counterexample). The rest is proved in general. The decoders themselves are not modelled."
 },
 "C108": {
  "status": "partial",
  "note": "Lists, text, copies and encoding proved for all histories; false for overwriting, for images whose list has facts already, and for bodies longer than the image."
 },
 "C109": {
  "status": "partial",
  "note": "Proved for encrypted metadata, the length in the encryption dictionary (or in the crypt filter for AESV3), the crypt filter DefaultCryptFilter and contents of at least twenty bytes. Outside these the property is false: unencrypted metadata, lengths in the crypt filter for V2 and AESV2, other crypt filters, password files, short contents, short custom keys, an envelope for the key that does not open before one that does, and wrapped keys of another length."
 },
 "C110": {
  "status": "partial",
  "note": "The protocol is proved for all keys and all answers of callbacks. For keys from PKCS#12 the property is proved for all histories without a signature; after one signature it is false, and so it is for every password that is not empty and for a cleanup that fails. OpenSSL is a parameter."
 },
 "C111": {
  "status": "partial",
  "note": "Proved for all finite page trees whose pages share no streams and whose entries have the right types. False for inherited resources, shared streams, cycles, streams that cannot be decoded and pages without contents. Not modelled: Kids that are no array, Type that is no name."
 },
 "C112": {
  "status": "partial",
  "note": "Proved for tables without entries for the hidden objects and for hybrid streams listed in a table. False for hidden objects free in the table, objects in both, streams that list themselves only, and unmerged files. The bytes of the sections are in Writer (tables) and XrefStream (streams)."
 },
 "C113": {
  "status": "partial",
  "note": "The file: proved for all callbacks. What is told, and cancelling: proved for callbacks that do not change the set of observers. False for observers that are released or reuse an address, for those that unsubscribe themselves, and for the end of a save that is cancelled. Callbacks that change objects are not modelled here (the one that signs is in Signing)."
 },
 "C114": {
  "status": "proved",
  "note": "For the calls named in the statement. Streams (contents of pages), entries that are replaced or removed, the entry Parent set by the client, and pages of other documents are not among them. The file must be shorter than 2^63 bytes to be opened, which is a hypothesis on that part only. Codecs must be faithful, as in C32; the document has no streams."
 },
 "C115": {
  "status": "partial",
  "note": "For RC4; objects of which all strings or none are exempt; sections without object streams; streams without crypt filters; changed streams with at most one filter. False for AES (C115_aes_counterexample)."
 },
 "C116": {
  "status": "partial",
  "note": "False of the code: WriteIncremental never calls SetEncryptionData, so changed strings and streams are written in clear (C116_clear_counterexample, C116_changed_streams_counterexample) and read as garbage afterwards (C116_unreadable_counterexample). The partial theorem is for streams whose data were not decoded."
 },
 "C117": {
  "status": "partial",
  "note": "Full for what is read from objects and dictionaries of streams (C117_objects, C117_stream_entries), for the other objects of the destination (C117_destination), and for streams when neither document is encrypted. Streams that were not decoded before copying keep the bytes of the source: they read as cipher in a destination that is not encrypted (C117_encrypted_source_counterexample, C117_saved_source_counterexample) and are deciphered with the wrong key in an encrypted one, where they are saved in clear if the source is not encrypted (C117_encrypted_target_counterexample, C117_saved_target_counterexample). Objects out of object streams are written in clear to encrypted destinations (C117_compressed_counterexample). RC4 for saved files."
 },
 "C118": {
  "status": "partial",
  "note": "Full for documents whose page, catalog, annotations, form, flags and fields are different objects (or direct), and whose references lead to objects. False for names: the field is always called Signature1 (C118_names_counterexample, general). False for failures: every signing that fails with a key leaves a new object (C118_failure_counterexample, general). False for lists shared by page and form, and for forms that are dangling references (two concrete counterexamples). The bytes of the signature are in C81."
 },
 "C119": {
  "status": "partial",
  "note": "For documents of tables (any number of revisions) whose sections agree on which numbers are free, without references to missing objects, whose objects can be compared, and without duplicates below duplicates; C119_distinct_partial states it for documents without equal objects in terms of the document alone. C119_is_saved: such documents are saved if stream lengths are direct. False otherwise: C119_freed_counterexample, C119_dangling_counterexample, C119_twins_counterexample, C119_number_counterexample (each through the written file). Cross-reference streams (see C36_trailer_counterexample) and object streams are missing."
 },
 "C120": {
  "status": "partial",
  "note": "Shown bodies, unchanged streams, copies and independence in full; written data for no filter and Flate without predictor (C12). False: C120_unread_counterexample (general), C120_null_counterexample (general), C120_self_counterexample (general, undefined behaviour), C120_reading_counterexample (reading the body makes writing fail). One thread, no encryption, attributes left out."
 },
 "C121": {
  "status": "partial",
  "note": "The newest trailer for all files (C121_newest); requests for all histories in which the number of an unlisted stream belongs to nothing else. False without this: C121_replaced_counterexample (general: the old stream hides the newer object), C121_freed_counterexample (general: the file cannot be opened by its sections). A circular chain is never opened (C121_circular_counterexample, general; the code reads sections until memory ends)."
 },
 "C122": {
  "status": "partial",
  "note": "Null arguments for all functions but five (C122_null_counterexample: PageContents_RecalculateStreamData, PageLabel_Prefix/Start/Style, DictionaryObject_Remove); use of handles and sequences of calls for all but these and the Decode functions of six filter types, which take every filter for the Flate filter (C122_filter_counterexample); results for all but four (C122_result_counterexample: the components of outline colours are real numbers handed out as integers, the parent of a page a node handed out as a tree). Exceptions are reported by all functions that have no statements outside of try (646 of 738); of the 92 others the model does not say whether these statements can throw. Use after release is C51. What the functions do in their work is in the other models."
 },
 "C123": {
  "status": "partial",
  "note": "All sequences of calls, literal and hexadecimal strings. Setting a string to its own buffer is undefined behaviour (C123_self_counterexample). Encoded literal text without carriage returns and unknown escapes (LitBody, as in C56). Without encryption (C55), in one thread."
 },
 "C124": {
  "status": "partial",
  "note": "All histories without undefined calls; with threads, all interleavings: a callback is run by one thread at a time (C124_one_thread), nothing is undefined without shutting down and replacing (C124_threads_partial). False: replacing a callback always fails (C124_replace_counterexample), each message after a shutdown is undefined behaviour (C124_shutdown_counterexample), so is one being written during it (C124_race_counterexample, C124_replace_race_counterexample), and a message caused by a callback (C124_nested_counterexample). spdlog is modelled from its documented behaviour; patterns and rotation of files are not modelled."
 },
 "C125": {
  "status": "partial",
  "note": "Files have one position for reading and writing: C125_read_counterexample and C125_write_counterexample, for every content; and after its end was met a file drops what is written (C125_lost_counterexample, for every history). Proved for all histories in which the program positions whenever it changes between reading and writing (C125_history_partial, C125_same). What the C++ standard leaves open (a read directly after a write and vice versa) is modelled as libstdc++ does it."
 },
 "C126": {
  "status": "partial",
  "note": "Answers, lifetimes and absence of leaks for all histories of programs that use what they hold, insert and remove at positions up to the end and set no buffer from its own memory. False otherwise: C126_position_counterexample (insertion and removal behind the end of any list are undefined), C126_self_counterexample. Counters of fewer than 2^32 references (C51), one thread."
 },
 "C127": {
  "status": "partial",
  "note": "Never another object, and the same object when asked again: all files and histories. The right object, whatever was asked before: files whose revisions list, in any disorder, the numbers their objects carry and can be read. False otherwise: C127_order_counterexample (an object that is not listed is null until another request has started the recovery), C127_changed_counterexample (two lines that lead to one number: the answer changes after a failed request for another number), C127_lost_counterexample (one line that cannot be read makes the request fail and the exchanged objects null from then on). Objects in object streams and hybrid sections are left out; the hash set is the one of GCC, which keeps hash codes."
 },
 "C128": {
  "status": "partial",
  "note": "The kind and the text of the operator: all operations, all texts, all content streams that denote instructions. False for the type of the operation: C128_type_counterexample (every operator but BT, ET, Tf, Tj, TJ, BI, ID, EI gives the generic type, although a type for it exists)."
 },
 "C129": {
  "status": "partial",
  "note": "All files, dictionaries and data without the word endstream, for endstream at the beginning of a line and endobj on another line; a wrong length must lead to something that can be read as a token. False for data that end with a carriage return in front of a single line feed: C129_return_counterexample. The data are those of the file."
 }
}