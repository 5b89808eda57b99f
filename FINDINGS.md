# Properties the code does not have

Each theorem refutes a property of `properties.jsonl`, or its unrestricted form, for the model of the code as it is.

* `C06_failing_peek_counterexample` (Peek.lean): **C06** fails when a peek throws: the exception leaves the reader inside the bad token, and the next read succeeds with what follows, whereas without the peek it throws.
* `C09_odd_counterexample` (Filters.lean): **C09** is false for every text with an odd number of digits whose last digit is not 0: the last digit is taken as the low digit of the last byte, not the high one.
* `C100_parent_counterexample` (Outline.lean): **C100 is false of items below other items.** In every outline, Parent of such an item gives an object that counts as an outline: it cannot be used as the item it is, so that none of Next, Prev and Parent is possible from there.
* `C101_exponent_counterexample` (NumberObjects.lean): Without a precision, great and small numbers are written with an exponent, which is no number of PDF.
* `C101_limit_counterexample` (NumberObjects.lean): 2^63 is let through to a conversion that is not defined.
* `C101_precision_counterexample` (NumberObjects.lean): A number set through an object made with fewer digits is written as another number.
* `C101_unsigned_counterexample` (NumberObjects.lean): 2^63 − 1 is an integer, and set as an unsigned number it cannot be read as an integer or as a real number.
* `C102_fraction_counterexample` (PageBox.lean): A coordinate with a fraction is shown as another number.
* `C102_inherited_counterexample` (PageBox.lean): A page that inherits its box is reported to have none.
* `C103_again_counterexample` (FileStart.lean): C103 is false of files that could not be opened: after any failure of the first call, each further call to open the file reports success, although nothing more is done; a file whose encryption dictionary cannot be read then counts as one that is not encrypted, so its strings are handed out as they are stored and no password is accepted.
* `C103_form_counterexample` (FileStart.lean): C103 fails for every file, encrypted or not, whose form is a reference to an object that does not exist, which stands for null, like an entry that is missing: it cannot be opened.
* `C103_kid_counterexample` (FileStart.lean): C103 fails for signatures of fields that belong to other fields: their contents are decrypted although they are not encrypted.
* `C103_literal_counterexample` (FileStart.lean): C103 fails for every file, encrypted or not, whose first field is a signature with contents that are written as a literal string: it cannot be opened.
* `C103_locked_counterexample` (FileStart.lean): C103 fails for every encrypted file with a user password that is not empty and with its catalog in an object stream: opening it fails, and a password cannot be given before that. Opening it a second time is reported to succeed; then the right password is taken, but the contents of signatures, like all strings of the objects that are not in object streams (the encryption dictionary apart), are decrypted.
* `C104_hole_counterexample` (FormFields.lean): **C104 is false of what is signed.** Take any signature in the usual form: the file from its start to `a`, and from `b` on, but not the bytes between, where the signature itself stands. The ranges that are reported contain every one of these bytes.
* `C104_inherited_counterexample` (FormFields.lean): **C104 is false of fields that inherit their kind.** Every one of them is shown as a mere group of fields, and its signature cannot be asked for.
* `C104_kids_counterexample` (FormFields.lean): **C104 is false of fields below others.** A field of the form that is not in the array itself is never shown.
* `C104_ranges_counterexample` (FormFields.lean): **C104 is false of the second range.** For every signature, the second range is reported to begin where the length of the first one says and to be as long as the offset of the second one.
* `C105_inherited_counterexample` (PageFonts.lean): **C105 is false of pages that inherit their resources.** Every such page is reported to have none; and the function that is meant to look above the page fails, as it takes the node above it for a page.
* `C105_parent_counterexample` (PageFonts.lean): **C105 is false of the node above a page.** For every page with a proper node above it, asking for that node succeeds, and what is returned cannot be used: it is of another class than the functions for it expect.
* `C105_type_counterexample` (PageFonts.lean): **C105 is false of extensions with a type.** The standard allows a Type entry with the value Extensions; the iteration shows it as an extension and fails there.
* `C106_limit_counterexample` (License.lean): **C106 is false of licences with a time limit.** From every accepted licence with a time limit everyone can make one without: the limit is appended to the date before it, where it is not read. The signature stays valid.
* `C106_serial_counterexample` (License.lean): **C106 is false of refused serial numbers.** From every licence that is not accepted only because its serial number is refused everyone can make one that is accepted: the number is appended to the note before it.
* `C106_updates_counterexample` (License.lean): **C106 is false of licences whose updates have ended.** If such a licence has a time limit after the library was built, everyone can make one of it that is accepted: the limit takes the place of the date of the updates.
* `C107_depth_counterexample` (Images.lean): **C107 is false of deeper images.** Every image with a sample beyond eight bits is refused.
* `C107_grid_counterexample` (Images.lean): **C107 is false of images that do not begin at the origin and of those with a coarser grid for some component** (as pictures often have for their colours): every such image is decoded by reading memory behind its samples.
* `C107_rows_counterexample` (Images.lean): **C107 is false of images with another number of components.** All such images are decoded to zeros (without assertions).
* `C107_samples_counterexample` (Images.lean): **C107 is false of images of which a component has fewer samples than the rectangle from the origin, and of very large images.** For all of them memory behind the samples is read, or memory behind the result is written.
* `C107_skip_counterexample` (Images.lean): **C107 is false of skipping.** OpenJPEG is to be told how many bytes were skipped; it is told the position. The answer is wrong at every position but the first.
* `C107_source_counterexample` (Images.lean): **C107 is false of data that end too early.** Whenever libjpeg asks for a byte behind the data, by taking bytes up to there or because the data say that more bytes are to be skipped than there are, memory behind the data is read.
* `C108_body_counterexample` (Attributes.lean): **C108 fails where facts are there.** Every image whose list has facts about it already – set by the program, or by an earlier attempt – cannot be read: the filter decodes it, and the reading ends with an error.
* `C108_encode_counterexample` (Attributes.lean): **C108 fails for data that are too long.** Data after the last row are dropped without an error: different bodies are encoded alike.
* `C108_overwrite_counterexample` (Attributes.lean): **C108 fails for overwriting.** Whatever list has an attribute of a type: adding another one of that type with overwriting succeeds, and `Get` still gives the old one.
* `C108_retry_counterexample` (Attributes.lean): **C108 fails after a failure.** An image is decoded and the next filter fails. When the filters are then put right, so that they do decode the data, the stream still cannot be read.
* `C109_custom_counterexample` (Recipients.lean): **C109 fails for keys that are too short.** A key of the program (`EncryptionKey_CreateCustom`) that unwraps to fewer bytes than the cipher has: bytes behind the buffer are used.
* `C109_later_counterexample` (Recipients.lean): **C109 fails after an envelope that does not open.** When the key cannot unwrap the first envelope that is for it, the file is not unlocked, although a later envelope opens.
* `C109_length_counterexample` (Recipients.lean): **C109 fails for the length of the crypt filter.** Where the length of the key stands in the crypt filter, as the standard allows, and the method is V2 or AESV2, the file is unlocked with a key of five bytes, whatever that length.
* `C109_metadata_counterexample` (Recipients.lean): **C109 fails for unencrypted metadata.** The entry EncryptMetadata is not looked at: the file is unlocked with the key for encrypted metadata, which is not the key of the file unless the two digests begin alike.
* `C109_named_counterexample` (Recipients.lean): **C109 fails for other crypt filters.** A file whose crypt filter has another name than DefaultCryptFilter cannot be unlocked with any key.
* `C109_padding_counterexample` (Recipients.lean): **C109 fails for wrapped keys of another length.** A key from PKCS#12 whose wrapped key is shorter than the keys of the cipher is used with zeros behind it, where the envelope has to be refused.
* `C109_password_counterexample` (Recipients.lean): **C109 fails for files with a password.** Their dictionary has no SubFilter: asking for a key ends with an error and not with the answer no.
* `C109_short_counterexample` (Recipients.lean): **C109 fails for short contents.** An envelope for the key whose content has fewer than twenty bytes: bytes behind the buffer are read.
* `C10_overflow_counterexample` (Filters.lean): **C10** is false by the C++ standard for all data in which the first byte of some group of four is 0x80 or more: decoding its base-85 text overflows an `int`.
* `C110_again_counterexample` (SigningKeys.lean): **C110 fails for the second signature.** Once a key from PKCS#12 has been used for a signature, successful or not, every further signature with it reads a null pointer.
* `C110_cleanup_counterexample` (SigningKeys.lean): **C110 fails for a cleanup that fails.** A callback that reports an error from the cleanup ends the whole program.
* `C110_password_counterexample` (SigningKeys.lean): **C110 fails for passwords.** Every other password is read beyond its end.
* `C110_unlock_counterexample` (SigningKeys.lean): **C110 fails for unlocking after a signature.** A key that has signed reads a null pointer for the first envelope with a recipient.
* `C111_body_counterexample` (Watermark.lean): A page with a stream that cannot be decoded, although the library does not need its content for saving, makes saving fail.
* `C111_cycle_counterexample` (Watermark.lean): A page tree with a node among its own descendants is walked for ever.
* `C111_empty_counterexample` (Watermark.lean): A page without contents is not marked: a file of empty pages has no watermark, whatever else is on them.
* `C111_inherited_counterexample` (Watermark.lean): The resources of a page are those of its parent, if it has none. Marking gives the page resources of its own, with no font but that of the watermark, so that the fonts of the parent are no longer found for its text.
* `C111_shared_counterexample` (Watermark.lean): A stream that belongs to two pages is marked twice, on both.
* `C112_hidden_counterexample` (Hybrid.lean): A hidden object that the table has as free, as the standard asks for, is not found: the free entry is returned, or whatever older sections have. Saving brings it to light: the merged section has it.
* `C112_lost_counterexample` (Hybrid.lean): A hidden object is not written: whatever the streams of the file list, only objects of the tables and the streams themselves are in the file.
* `C112_oldest_counterexample` (Hybrid.lean): A file whose oldest section has a hybrid stream cannot be saved without merging.
* `C112_overlap_counterexample` (Hybrid.lean): If both the table and its stream have an object for a number, that of the table is found, and the other one is saved.
* `C112_self_counterexample` (Hybrid.lean): A hybrid stream that is listed by itself only, as cross-reference streams usually are, makes saving fail.
* `C112_size_counterexample` (Hybrid.lean): The entry Size of the trailer is to be greater than all object numbers. It is the number of entries of the section and of the one before it, whatever the numbers of the hidden objects.
* `C113_finalizing_counterexample` (Observers.lean): A save that ends early does not tell its end: unless it is `OnFinalizing` itself that fails, no observer is told it, although those that were told of the beginning expect it.
* `C113_released_counterexample` (Observers.lean): The writer does not keep its observers: one that is subscribed and released is never called.
* `C113_reuse_counterexample` (Observers.lean): A released observer stays in the set, and references are compared by address. An observer created at the address of a released one is therefore not added when it is subscribed, and is never called.
* `C113_self_counterexample` (Observers.lean): A callback that unsubscribes its own observer removes the element the loop is at: undefined behaviour, in the first notification already.
* `C115_aes_counterexample` (SecureSave.lean): **C115** fails for strings encrypted with AES, whatever the document: each string gets surplus bytes by being saved (see C43), and so reads differently if it is not empty.
* `C116_changed_streams_counterexample` (SecureSave.lean): **C116** fails for streams whose data were changed: the data, encoded by the filter, are written in clear.
* `C116_clear_counterexample` (SecureSave.lean): **C116** fails for each changed object, whatever the encryption: an incremental save writes the strings of the object in clear, as the API read them.
* `C116_unreadable_counterexample` (SecureSave.lean): **C116** fails also for the reader: when the output is opened with the key of the document, which uses RC4, the API reads for each string of a changed object the cipher of what it should be.
* `C117_compressed_counterexample` (SecureCopy.lean): **C117** fails for objects that come out of object streams of the source: their copies keep the exemption from encryption, and so their strings are written in clear to the encrypted destination, and the reader of the file deciphers them nevertheless.
* `C117_encrypted_source_counterexample` (SecureCopy.lean): **C117** fails for streams of encrypted documents (RC4) that were not looked at, when they are copied to a document that is not encrypted: the original reads `body`, the copy reads its cipher.
* `C117_encrypted_target_counterexample` (SecureCopy.lean): **C117** fails for streams that were not looked at, when they are copied to an encrypted document (RC4): the copy reads the stored bytes enciphered with the key of the destination, whether the source is encrypted or not.
* `C117_saved_source_counterexample` (SecureCopy.lean): **C117** fails for streams that were not looked at, also in the file: when the destination is not encrypted, the file has the bytes as they were stored in the source, enciphered if the source is encrypted.
* `C117_saved_target_counterexample` (SecureCopy.lean): **C117** fails for streams that were not looked at, also in the file: when the destination is encrypted with RC4, the file has the bytes as they were stored in the source, which are in clear if the source is not encrypted, and the reader of the file deciphers them.
* `C118_dangling_counterexample` (SignForm.lean): **C118 is false for references that lead nowhere**: a form that does not exist is treated as absent by readers, but signing takes its number for the signature dictionary, which thereby becomes the form.
* `C118_failure_counterexample` (SignForm.lean): **C118 is false for signing that fails**: whatever the reason, the document has an object more afterwards, with a number that was free.
* `C118_names_counterexample` (SignForm.lean): **C118 is false for names**: if the form has a field with the name that signing gives to its field, two fields have the same name afterwards.
* `C118_shared_counterexample` (SignForm.lean): **C118 is false for shared lists**: when the annotations of the page and the fields of the form are one array, the field is listed twice in both.
* `C119_dangling_counterexample` (OptimizedSave.lean): **C119** fails for a reference to a missing object: the root is an array with null, and in the saved file an array with itself.
* `C119_freed_counterexample` (OptimizedSave.lean): **C119** fails for an object that the newest section frees: object 2 is null, and the number 7 in the saved file.
* `C119_number_counterexample` (OptimizedSave.lean): **C119** fails for objects that cannot be compared: the second item of the root is the array [0 0], and [0.5 0.5] in the saved file.
* `C119_twins_counterexample` (OptimizedSave.lean): **C119** fails for duplicates below duplicates: the second item of the root is the array [6 0 R], and null in the saved file.
* `C11_average_counterexample` (Filters.lean): **C11** is false for Average rows: two grey pixels 10, 20 filtered by PNG's rule do not decode to 10, 20.
* `C11_average_rows_counterexample` (FilterCases.lean): **C11** is false of Average rows of any width from two pixels and any number of colours: no row whose last pixel has a left neighbour of 2 or more is decoded to itself.
* `C11_odd_pixel_counterexample` (Filters.lean): **C11** is false for Sub rows of pixels that are not a whole number of bytes (three colours of four bits).
* `C11_paeth_counterexample` (Filters.lean): **C11** is false for Paeth rows.
* `C11_paeth_rows_counterexample` (FilterCases.lean): **C11** is false of Paeth rows of any width from two pixels and any number of colours: no row whose last pixel has a left neighbour other than 0 is decoded to itself.
* `C11_small_pixel_counterexample` (Filters.lean): **C11** is false for Sub rows of pixels smaller than a byte: PNG takes the byte to the left, the library doubles the byte itself. Here eight-pixel rows of one bit.
* `C120_null_counterexample` (StreamObject.lean): **C120** is false of streams whose filter is the null object: the buffer that is handed out as the body is another one than the body that is written, so that every change of it is lost.
* `C120_reading_counterexample` (StreamObject.lean): Reading alone can make a document unwritable: a stream with an ASCII85 filter whose dictionary was changed is written with its old data; but once its body was asked for, writing fails, because the body would have to be encoded.
* `C120_self_counterexample` (StreamObject.lean): **C120** is false of programs that change the body they were handed and set it again: a buffer is assigned to itself, which is undefined.
* `C120_unread_counterexample` (StreamObject.lean): **C120** is false of bodies that were not asked for: when the filters of a stream from a file are changed, the old data are written with the new filters, so that, whatever the data are, the body is what the new filters make of them. Had the program asked for the body before, the body would have stayed.
* `C121_circular_counterexample` (UnlistedStreams.lean): **C121** is false of circular chains: when every table of a set of offsets names another one of the set as the one before, the file is never opened, whatever bound is given to the number of sections: the chain of sections grows without end.
* `C121_freed_counterexample` (UnlistedStreams.lean): **C121** is false of numbers that were freed: a file whose newest table says that the number of an older cross-reference stream is free, or that the object is in an object stream, cannot be opened with its sections, because that stream did not list itself.
* `C121_replaced_counterexample` (UnlistedStreams.lean): **C121** is false of numbers that are used again: a newer table says that the object is at `off`, but the request gives the old cross-reference stream with the same number, because that stream did not list itself.
* `C122_filter_counterexample` (Interface.lean): **C122** is false of decoding: every filter that is no Flate filter is used as one.
* `C122_null_counterexample` (Interface.lean): **C122** is false of null arguments for each of the five functions: with all other arguments present, the null address is accessed.
* `C122_result_counterexample` (Interface.lean): **C122** is false of the components of colours and the parents of pages: whenever these are asked for, what is handed out as a handle for integers is a real number, and what is handed out as a page tree is a node of one.
* `C123_self_counterexample` (StringObject.lean): **C123 (its own buffer).** Setting a string to the buffer that it handed out itself is undefined behaviour, whatever the string: after any calls after which the value of a string was read.
* `C124_late_counterexample` (LoggingThreads.lean): **C124 (a message after the end).** A thread that is doing nothing when another thread shuts the logging down, and then has a message, uses a logger that does not exist. After any interleaving.
* `C124_nested_counterexample` (Logging.lean): **C124 (messages of a callback).** A callback that calls the library in such a way that it writes a message which is severe enough locks a mutex its thread holds: undefined behaviour, for every callback that gets a message.
* `C124_race_counterexample` (LoggingThreads.lean): **C124 (shutting down while a message is written).** If a thread is writing a message, at whatever point, when another thread shuts the logging down, its next step is undefined behaviour: the logger, its sink or the mutex it holds do not exist any more. After any interleaving.
* `C124_replace_counterexample` (Logging.lean): **C124 (another callback).** Once a callback was set, with success or without, it cannot be replaced: each further attempt fails and leaves the first callback and its user data in place, until the logging is shut down (or, with some versions of spdlog, a log file is set). After any calls, and any others in between.
* `C124_replace_race_counterexample` (LoggingThreads.lean): **C124 (replacing while a message is written).** With a registry that drops the replaced logger the same happens to a thread that is writing a message to the default logger when another thread sets a callback or a file.
* `C124_shutdown_counterexample` (Logging.lean): **C124 (after a shutdown).** Once the logging is shut down, and until a callback or a file is set, every message of the library, whatever its severity and the severity that is set, and asking for the severity are undefined behaviour. After any calls.
* `C125_lost_counterexample` (FileStreams.lean): The claim **C125** is false: from the moment a file that is read and written has met its end, all that is written to it is dropped, whatever is written, read and asked and wherever it is positioned for writing, until it is positioned for reading.
* `C125_read_counterexample` (FileStreams.lean): The claim **C125** is false: on every file, reading moves the place for writing, and what is written afterwards does not replace the bytes at the place where the program has left its writing but those behind what was read.
* `C125_write_counterexample` (FileStreams.lean): The claim **C125** is false: on every file, a program that writes and then reads from where it left its reading does not get the bytes there but those behind what it has written.
* `C126_position_counterexample` (Buffers.lean): The claim **C126** is false: for every list, inserting and removing at a position behind its end is undefined instead of being refused, although reading there is refused.
* `C126_self_counterexample` (Buffers.lean): The claim **C126** is false: setting any buffer to the data and size it reports itself is undefined.
* `C127_changed_counterexample` (Misnumbered.lean): C127 fails when two lines lead to objects with the same numbers: in a file whose newer section lists an object under a wrong number, the object of the older section is returned, until somebody asks for the wrong number; that request is an error, and from then on the other object is returned.
* `C127_lost_counterexample` (Misnumbered.lean): C127 fails when one of the lines cannot be read: the first request is an error although the object is in the file, and leaves entries behind that are not found any more: from then on the object is null.
* `C127_order_counterexample` (Misnumbered.lean): C127 fails when the lines list other numbers than the objects have (for instance all shifted by one: `j = i + 1`, `m = j + 1`): an object that is not listed is null, until another object has been asked for; from then on it is returned.
* `C128_type_counterexample` (OperatorKinds.lean): C128 fails for the types of operations: every operation other than the eight with classes of their own is reported as generic, although there is a type for each of them.
* `C129_return_counterexample` (LostLength.lean): C129 fails for data that end with a carriage return, when a line feed alone follows: the last byte of the data is lost, in every such stream.
* `C12_order_counterexample` (Filters.lean): **C12** is false for two different filters: they are applied in array order when decoding and also when encoding.
* `C12_predictor_counterexample` (Filters.lean): **C12** is false for a Flate filter with a PNG predictor, whatever zlib does: the data is stored without applying the predictor and the decoder undoes one.
* `C13_maximum_counterexample` (Ints.lean): **C13** is false at the top of every signed destination: its largest value is refused when it comes from an unsigned type that can hold it (conversion_utils.h:92 uses `>` for `>=`).
* `C14_narrow_destination_counterexample` (Ints.lean): **C14** is false when the addend is wider than the destination: the truncated sum may pass the check.
* `C14_signed_counterexample` (Ints.lean): For signed operands the check comes after the addition, so an overflow is undefined behaviour and no check at all (the call at semantics/utils/document_signer.cpp:63 adds to a signed offset).
* `C15_wide_field_counterexample` (Ints.lean): **C15** is false for fields wider than eight bytes: every value is written by shifting a 64-bit number by 64 or more, which is undefined; the re-encoder itself chooses nine bytes for numbers from 2^63.
* `C19_hybrid_counterexample` (Xref.lean): **C19** fails for an object found through the hybrid stream of a table: nothing is released.
* `C19_older_revision_counterexample` (Xref.lean): **C19** fails when an older section has the same number and a generation other than 0: the released object comes back with its old content.
* `C20_unused_counterexample` (XrefTable.lean): **C20** fails for a used entry that is not in use: it is counted in the header of its subsection but its line is left out, and the table cannot be read.
* `C21_lowest_number_counterexample` (XrefStream.lean): **C21** fails for every section whose lowest number is not 0, as an incremental update has: its first object is read back under the number 0.
* `C22_far_counterexample` (Opening.lean): **C22** is limited to the last 16384 bytes: with that much white-space behind `%%EOF` the offset is not found.
* `C23_major_counterexample` (Opening.lean): **C23** fails for other major versions: the line is passed over, and the document is opened with the version of a later line that looks like a header.
* `C24_cycle_counterexample` (Opening.lean): **C24** fails for every chain with a cycle, of any length and reached in any number of steps: the loop never ends, no number of steps suffices.
* `C24_file_counterexample` (Opening.lean): Opening this file does not end.
* `C25_merge_counterexample` (Containers.lean): **C25** fails for merging: the comment in the code says that conflicting entries are overridden; they are kept.
* `C25_overwrite_counterexample` (Containers.lean): **C25** fails for overwriting: whatever the dictionary, an overwriting insertion of a key that is present succeeds and leaves the old value in place.
* `C27_clear_counterexample` (Notify.lean): **C27** fails for clearing an array.
* `C27_created_counterexample` (Notify.lean): **C27** fails for objects that were created by the program and put into an initialised container: they are not initialised, so their changes are not passed on.
* `C27_cycle_counterexample` (Notify.lean): Notification never ends for an initialised array that has been put into itself.
* `C27_duplicate_counterexample` (Notify.lean): **C27** fails after removing one of two occurrences of an object: a change of the other occurrence does not mark the array.
* `C27_integer_counterexample` (Notify.lean): **C27** fails for numbers: whatever holds it, a change of an integer marks nothing.
* `C27_merge_counterexample` (Notify.lean): **C27** fails after a merge: the dictionary 0 takes the value 1 over from the dictionary 2; a change of 1 does not mark 0.
* `C27_real_counterexample` (Notify.lean): **C27** fails for reals in the same way.
* `C27_string_counterexample` (Notify.lean): **C27** fails for a string whose value has not been read before.
* `C28_clear_counterexample` (Hash.lean): **C28** fails after clearing an array.
* `C28_created_counterexample` (Hash.lean): **C28** fails when a part is not initialised, as every newly created object: its changes do not reset the cache of the array around it.
* `C28_integer_counterexample` (Hash.lean): **C28** fails after an unnoticed change: two equal arrays of one integer each; the hash of the first was taken before its integer was changed to 6.
* `C28_number_counterexample` (Hash.lean): **C28** fails for numbers, whatever the hash function of reals, if only it tells 1.5 from 1.2.
* `C28_reference_counterexample` (Hash.lean): **C28** fails for references: an integer compares equal to a reference to it, but the hash values differ.
* `C29_alias_counterexample` (Equality.lean): **C29** fails: two references to the same object through different numbers are different, yet both equal it.
* `C29_number_counterexample` (Equality.lean): **C29** fails: an integer equals every real that is cut off to it, and 1 = 1.5, 1 = 1.2 although 1.5 ≠ 1.2 and 1.5 ≠ 1.
* `C29_reference_counterexample` (Equality.lean): **C29** fails: whenever a number refers to an integer, the integer equals the reference but the reference does not equal the integer, so comparison is not symmetric, and objects of different types compare equal.
* `C30_cycle_counterexample` (Clone.lean): An array that contains itself cannot be cloned: the recursion does not end.
* `C31_own_entry_counterexample` (Writer.lean): **C31** fails for the entry that a cross-reference stream has for itself: whatever offset it had before is recorded again, although the stream is written at `off`.
* `C32_length_counterexample` (Writer.lean): **C32** fails for a stream whose Length refers to a number that changed between revisions: the body of object 2 is `abcdefghi`, and the first revision of object 3 is its size, 9; in the last revision object 3 is 4. The Length is not updated, and the saved stream is read as `abcd`.
* `C32_no_zero_counterexample` (Writer.lean): **C32** fails for a cross-reference stream without an entry for object 0: in the document object 3 is 8, in the saved file it is 9, as it was before the last revision (the first entry of the section gets the number 0, see C21).
* `C32_packed_length_counterexample` (SaveStreams.lean): **C32** fails for a stream whose Length is in an object stream: when it is the first object that is loaded from the saved file, the last byte of its body is missing.
* `C32_shared_stream_counterexample` (SaveStreams.lean): **C32** fails for an object stream that a newer section replaces: in memory object 1 is 11; its object stream, number 5, is in both sections, and the newer one still has the text of the source file in which object 1 was 10. The writer fills the object stream of the older section, which is already written, and object 1 of the saved file is 10.
* `C34_no_change_counterexample` (Incremental.lean): **C34** fails when nothing was changed and the newest section has no Prev: the appended section has the head of the free list as its only entry and no Prev, so that opening the output finds no object at all.
* `C34_prev_counterexample` (Incremental.lean): **C34** fails when the newest section of the source has a Prev, that is, when it was saved incrementally before: the appended section gets the same Prev, for every source and every change.
* `C36_freed_counterexample` (Optimize.lean): **C36** fails for every document in which a newer section frees an object: the merge brings the object back.
* `C36_trailer_counterexample` (Optimize.lean): **C36** fails with cross-reference streams: the document's root after the merge is that of the oldest one.
* `C38_null_reference_counterexample` (Optimize.lean): **C38** fails for references to missing objects, which keep their number: object 2 refers to the missing object 1 and becomes object 1, which refers to itself.
* `C39_lost_counterexample` (Dedupe.lean): **C39** fails if an object below a duplicate has a duplicate: 5 and 6 are the same, and so are 7 and 8. While references are redirected 8 changes, so that the reference from 9 to 8 is not recognised; then 8 is removed, and 9 refers to a missing object.
* `C39_number_counterexample` (Dedupe.lean): **C39** fails for numbers: the array [0 0] is replaced by [0.5 0.5], as an integer equals a real that has it as its integer part and the hash values are the same.
* `C41_gap_counterexample` (Writer.lean): **C41** fails for the entries 0 and 7: the Size is 2.
* `C42_long_counterexample` (Passwords.lean): C42 fails for every longer password: the library does not truncate it, but copies more bytes than there are.
* `C43_counterexample` (Encryption.lean): C43 fails for all non-empty data, keys and initialisation vectors: what is decrypted is never what was encrypted.
* `C45_large_counterexample` (Passwords.lean): Beyond these limits the number is cut: object `n + 2^24` has the key of object `n`.
* `C46_foreign_counterexample` (PasswordCases.lean): Documents of other producers with such keys are not opened: the right user password is refused here.
* `C46_long_key_counterexample` (Passwords.lean): Longer keys are not refused but read beyond the digest.
* `C46_owner_counterexample` (PasswordCases.lean): C46 fails for keys of revision 3 shorter than 128 bits: the owner password of this document of 64 bits, encrypted by the library, is refused.
* `C48_insert_counterexample` (PageTree.lean): **C48 fails for trees with inner nodes (insertion).** In a document with the pages 4, 5, 6, a page inserted as page 2 becomes page 3.
* `C48_remove_counterexample` (PageTree.lean): **C48 fails for trees with inner nodes (removal).** In a document with the pages 4, 5, 6, the removal of page 1 removes the pages 1 and 2, and the removal of page 3 removes nothing.
* `C49_lengths_counterexample` (CharMap.lean): **C49 fails when the ends have different lengths.** The range FF-0001 contains the key 0000, which is smaller than the low end; the distance is taken modulo 2^16.
* `C49_long_counterexample` (CharMap.lean): **C49 fails for long destinations.** Whatever the range (of up to four bytes) and the key in it, a destination string of more than four bytes – a ligature of three UTF-16 characters has six – makes the library shift a 32-bit number by 32 or more, which is undefined.
* `C49_overflow_counterexample` (CharMap.lean): **C49 fails when the sum needs another byte.** The range 0000-0FFF with the destination 00 maps the key 0C00 to 00, not to 0C00; the range 00-01 with the destination FF reports an error for the key 01.
* `C51_counterexample` (RefCount.lean): The claim **C51** is false for more than 2^32 references: the 32-bit counter wraps around, and after 2^32 copies the first release destroys the object although 2^32 references are still held.
* `C53_end_counterexample` (Content.lean): An inline image whose data end in a separate `E` has no end for the reader.
* `C53_image_counterexample` (Content.lean): **C53 is false for inline images**: an image with any dictionary that can be written and any data, followed by anything, is never read back with the same data. The line end written behind `ID` becomes part of the data.
* `C53_last_counterexample` (Content.lean): An inline image that ends the content is refused: white space is expected behind `EI`.
* `C53_operator_counterexample` (Content.lean): Another end of C53: an operand followed by a stray `]` is read as an operation without operator; written back, the operand joins the next operation.
* `C55_crypt_counterexample` (Encryption.lean): C55 fails for unchanged streams with a crypt filter: they are decrypted with the algorithm it names but encrypted again with the one for all streams, so they cannot be read again.
* `C55_filter_array_counterexample` (Encryption.lean): C55 fails for changed streams with an array of filters: they are written without encryption, whatever the settings and keys of the document.
* `C56_digit_counterexample` (Objects.lean): **C56** fails for a short octal code before the digit 8 or 9: the digit is lost.
* `C56_eol_counterexample` (Objects.lean): **C56** fails for an unescaped end of line other than LF: CR and CR LF stay in the value.
* `C56_nine_counterexample` (Objects.lean): **C56** fails for a reverse solidus before the digit 8 or 9: the string is refused.
* `C56_overflow_counterexample` (Objects.lean): **C56** fails for octal codes above 255: the string is refused.
* `C57_counterexample` (Termination.lean): **C57** fails: on this input of 26 bytes the reader never finishes, whatever the number of nested calls allowed. The negative length sends the reader back to the start of the input, where it finds `endstream`, takes the stream for a dictionary key, and meets the same dictionary again as its value.
* `C58_number_zero_counterexample` (Xref.lean): **C58** fails for a file created through the file interface: the first object gets number 0, which ISO 32000-1 7.5.4 reserves for the head of the list of free objects.
* `C59_unsigned_counterexample` (Objects.lean): **C59** fails for unsigned integers from 2^63, which the library can hold and write: the text is refused.
* `C61_default_type_counterexample` (XrefStream.lean): **C61** fails without a type field: the standard says that all entries are in use (type 1), each is read as free.
* `C61_short_counterexample` (XrefShort.lean): **C61** is false of streams whose data end too early: when the array Index announces more entries than there are complete rows, the bytes behind the data are read, whatever the complete rows and the bytes left over are.
* `C61_unknown_type_counterexample` (XrefStream.lean): **C61** fails for entries of other types, which ISO 32000-1 7.5.8.3 wants treated as references to the null object: reading the stream fails.
* `C62_compressed_counterexample` (Incremental.lean): **C62** fails for objects in object streams: if one of them was changed, the save fails, for every document.
* `C62_history_counterexample` (Incremental.lean): **C62** fails for a file of two revisions: object 1 is changed, and the new section skips the second revision, so that object 3, which is 4 and was not touched, is 9 again.
* `C62_older_counterexample` (Incremental.lean): **C62** fails for a change of an entry that a newer section replaces: the change of the old revision of object 3 wins over the newest one.
* `C63_length_counterexample` (LoadOrder.lean): **C63** fails of a stream whose length is in an object stream: unpacking the object stream leaves the reader elsewhere, the length is then taken for wrong, and the search for `endstream` loses the end of the last line. The data are complete when some object of the object stream was loaded before.
* `C63_stale_object_counterexample` (LoadOrder.lean): **C63** fails of a document in which an object of an object stream was replaced in a newer section: object 1 is 11, but once object 2 has been loaded it is 10, the value of the older section; it changes even when it had been loaded before.
* `C64_gap_counterexample` (ObjectStream.lean): **C64** fails of a document in which the object with index 1 has been removed (its entry is free): the object with index 2 is written as the second object of the object stream, while its entry says that it is the third.
* `C66_counterexample` (EncryptionSettings.lean): C66 fails for every permission and every request: it is granted exactly if it was not requested. (The bits of the permissions in the `P` entry are 3 to 6 and 9 to 12, counted from 1; a bit that is set grants the permission.)
* `C67_counterexample` (EncryptionSettings.lean): C67 fails for all settings: a request for AES gives the same dictionary and key as a request for RC4, and strings and streams are encrypted with RC4.
* `C68_counterexample` (EncryptionSettings.lean): C68 fails: the contents of object 5, which becomes object 4, are lost.
* `C69_counterexample` (PageTree.lean): **C69 fails.** There is a document for which the request for page 1 recurses without end, and so do the changes of the page list.
* `C70_counterexample` (CharMap.lean): **C70 fails.** A text is "equal" to every buffer that is the beginning of it, in particular to the empty buffer.
* `C72_counterexample` (RefCount.lean): The claim **C72** is false for threads that run at the same time: between the test of a weak reference and the increment another thread can destroy the object, which is then used after its destruction.
* `C72_resurrect_counterexample` (RefCount.lean): The claim **C72** is false even if a weak reference is used in one step: after the last reference has been released and before the destructor has run, the test still succeeds, and the object is destroyed although the new reference is held.
* `C73_counterexample` (Stream.lean): The claim **C73** is false for the offset -1 relative to the current position or the end: it is taken for the "bad offset" and only sets the end flag, so that nothing can be read, from any data and after any history.
* `C74_counterexample` (Stream.lean): The claim **C74** is false once a reader has met the end: for every content and every data written afterwards, the write is silently dropped.
* `C74_lost_counterexample` (StreamHistory.lean): The claim **C74** is false, in full generality: from the moment a stream in memory has met its end, all that is written to it is dropped, whatever is written, read and asked and wherever it is positioned for writing, until it is positioned for reading.
* `C75_edits_lost_counterexample` (Content.lean): **C75 is false**: after any edits of the instructions of a page whose underlying object has not been changed otherwise, recalculation reports that there is nothing to do, and the streams keep their old text.
* `C75_positions_counterexample` (Content.lean): Positions outside the collection are not checked.
* `C75_set_counterexample` (Content.lean): **C75, replaced contents.** Once the contents of a page have been asked for, contents set later are not seen.
* `C75_unread_counterexample` (Content.lean): **C75 is false** in the other direction too: when the underlying object was changed and the instructions have not been read, recalculation empties the contents.
* `C76_counterexample` (Content.lean): **C76 is false**: behind `BI` every token that is neither a name nor `ID` is looked at again and again.
* `C77_counterexample` (Content.lean): **C77 is false** where the division is a boundary of tokens: `q` in one stream and `Q` in the next are read as the one operator `qQ`.
* `C78_cycle_counterexample` (NameTree.lean): **C78: reading does not end for kids that form a cycle.** However many steps are allowed, the search for any key goes on.
* `C78_existing_counterexample` (NameTree.lean): **C78: false for keys that exist already.** Insert reports success, but the tree keeps the old value.
* `C78_kids_counterexample` (NameTree.lean): **C78: false for trees with kids.** If the first kid is a leaf, Insert fails for every key, and afterwards the tree cannot be read any more.
* `C78_limits_counterexample` (NameTree.lean): **C78: false for roots with Limits, which the library writes itself.** Insert fails, and all entries of the tree are lost.
* `C78_merge_counterexample` (NameTree.lean): **C78: the entries of a page with two or more named destinations cannot be merged.** The second insertion fails, and neither the merged entries nor those that the tree had are left.
* `C78_order_counterexample` (NameTree.lean): **C78: false for other keys.** A key that starts with a byte of 128 or more is written before all ASCII keys.
* `C79_kids_counterexample` (NameTree.lean): **C79: false.** Page labels in a number tree with kids cannot be read at all.
* `C79_labels_counterexample` (NameTree.lean): **C79: false.** Whatever the page labels of a document are, Contains never says that there is a label for a page, and Find never finds one: the integer that the library makes for the page number has an address that no key of the tree has.
* `C80_dangling_counterexample` (CopyObjects.lean): **C80: false for references that lead nowhere.** A reference of the source to an object that does not exist leads, in the copy, to the object of the destination that has this number, and copying changes that object of the destination.
* `C80_inherited_counterexample` (CopyObjects.lean): **C80: false for inherited attributes.** The first page of the sample has a MediaBox, which it inherits from its page tree; the page of the merged document has none.
* `C80_link_counterexample` (CopyObjects.lean): **C80: false for links between the pages.** The first page of the sample has a link to the second one; in the merged document the link leads to an object that is no page of the document.
* `C80_source_counterexample` (CopyObjects.lean): **C80: the source document is changed.** Its pages lose the entry Parent, and with it what they inherit.
* `C81_again_counterexample` (Signing.lean): **C81** is false for an earlier signature: a document that has been signed and is signed again while it is in memory is saved with blanks for the byte ranges and the contents of the first signature; its dictionary is read without contents, so that it is a signature of nothing, whatever the key.
* `C82_dict_counterexample` (CharMapParser.lean): **C82 fails for `/CIDSystemInfo 3 dict dup begin`.** This form, the one of the examples of Adobe Technical Note #5014, makes the whole map unreadable.
* `C82_integer_counterexample` (CharMapParser.lean): **C82 fails for `cidchar` and `notdefchar`.** Their destinations are integers in the standard; the library insists on strings. One such section, wherever it stands, makes the whole map unreadable: every lookup is an error.
* `C83_bad_counterexample` (Destinations.lean): **C83: false for a source with an entry that is no destination.** One entry that is null, whose page does not exist, or that has a page number: then no page of the document can be appended, also those without destinations.
* `C83_shared_counterexample` (Destinations.lean): **C83: false for a destination that is a dictionary with its array by reference.** The reference is kept as it is: the name leads to the object of the destination document with this number, here with another view, and that object is changed; in a document that has no such object the page is refused.
* `C84_garbage_counterexample` (Recovery.lean): **C84** fails for a file behind text that is not PDF: a line such as `<!doctype html>` stops the search.
* `C84_hang_counterexample` (Recovery.lean): **C84** fails: the search in this file of 55 bytes never ends, whatever the number of rounds. The negative length sends the reader back in front of the object, which is found again.
* `C84_split_counterexample` (Recovery.lean): **C84** fails for an object whose number and generation are on two lines, which the standard allows: it is not found.
* `C84_stale_counterexample` (Recovery.lean): **C84** fails for files with cross-reference streams: the offsets of the damaged section still come before those found by the search. The object is found, and cannot be read.
* `C84_trailer_counterexample` (Recovery.lean): **C84** fails for linearized files, whose last trailer need not name the catalog: the trailer of the first page, which does, is given up.
* `C84_truncated_counterexample` (Recovery.lean): **C84** fails for a file that was cut off within an object: the complete object in front is not found either.
* `C84_unended_counterexample` (Recovery.lean): **C84** fails for an object behind one without `endobj`: it is not found.
* `C85_clear_counterexample` (StreamSave.lean): **C85** and confidentiality fail for documents encrypted with AES: an unchanged stream whose filters are given as an array is written without encryption, as in a document that is not encrypted.
* `C85_length_counterexample` (StreamSave.lean): **C85** fails for documents encrypted with AES: the Length of an unchanged Flate stream is computed from the data of the original producer, but the bytes saved come from compressing the contents again.
* `C85_unsupported_counterexample` (StreamSave.lean): **C85** fails for documents encrypted with AES: a document with a stream that has a filter which the library can decode but not encode cannot be saved, although nobody changed the stream.
* `C86_flate_counterexample` (RemoveEncryption.lean): **C86** fails for documents encrypted with AES: a Flate stream is compressed again, but without its predictor and with the Length of the former data. Reading it undoes a predictor that was not applied.
* `C86_save_counterexample` (RemoveEncryption.lean): **C86** fails for documents encrypted with AES, where encrypted data are longer than decrypted data: a stream with an ASCII or JPEG 2000 filter makes saving fail.
* `C86_undecodable_counterexample` (RemoveEncryption.lean): **C86** fails for a document with any stream whose filter the library cannot decode, such as LZW, CCITT fax or JBIG2: `RemoveEncryption` fails, although nothing but decryption would be needed.
* `C87_lost_counterexample` (Zlib.lean): **C87** is false for data that are damaged behind less than 4096 bytes of contents, within the first 4096 bytes: nothing is returned, although zlib decompressed all that comes before the damage.
* `C87_truncated_counterexample` (Zlib.lean): **C87** is false for truncated data: the beginning of a stream is decompressed without any error.
* `C88_collection_counterexample` (Iterators.lean): **C88** is false for collections of instructions that are changed during a walk, by whatever edit: `IsValid` compares with an end that does not exist any more.
* `C88_position_counterexample` (Iterators.lean): **C88** is false for positions behind the end: they are not refused.
* `C88_release_counterexample` (Iterators.lean): **C88** is false after the last reference to the dictionary is released: the iterator does not keep it.
* `C88_remove_counterexample` (Iterators.lean): **C88** is false for the removal of the entry that is being shown: for every dictionary that is not empty, a loop that removes what it shows uses freed memory.
* `C89_constant_counterexample` (Names.lean): Two dictionaries that got an entry with the same constant share the text of their keys: a client that changes the key it obtained from one of them (name 2, the second copy) renames the entry of the other, and changes the constant.
* `C89_insert_const_counterexample` (Names.lean): The same with the call that is documented to leave the key alone: the copy it makes has the buffer of the original, so that a change of the original renames the entry.
* `C89_insert_counterexample` (Names.lean): C89 fails, whatever the texts: a client inserts a value with a name as key and then uses the name for something else. The entry moves to the new text; with the old text the dictionary no longer has it.
* `C89_lookup_counterexample` (Names.lean): Looking something up changes the name that was used: before, a change of its text through its buffer marks it as changed (so that it is written when the file is saved); afterwards it does not, because the copy made for the lookup has taken the name's counter of weak references with it.
* `C90_compare_counterexample` (Locks.lean): **C90** (counterexample): two threads compare the same two references, in different order.
* `C90_length_counterexample` (Locks.lean): **C90** (counterexample): one thread loads a stream, another one the object its Length refers to. The first has the input and waits for the entry of the length, the second has this entry and waits for the input.
* `C90_packed_length_counterexample` (Locks.lean): **C90** (counterexample): the same with a length in an object stream, and a thread that asks for any object of it: the first thread has the input and waits for the object streams, the second one has these and waits for the input.
* `C91_updated_counterexample` (Locks.lean): **C91** (counterexample): the object 4 is stored, and the old one is stored in its place when another object of the object stream is asked for; here by one thread.
* `C92_flag_counterexample` (Locks.lean): **C92** (counterexample): two threads ask for the same object. One is about to store it, with its locks taken; the other one looks at the flag without a lock. The flag is a plain `bool`: a data race, in any file, with two calls.
* `C93_length_cycle_counterexample` (LoadEnds.lean): **C93** fails of streams whose lengths lead to each other: `P` holds of streams, each of which has a reference to an object of `P` as its Length. A request for one of them does not end, whatever depth of lookups is allowed.
* `C93_stream_cycle_counterexample` (LoadEnds.lean): **C93** fails of an object stream that has the number of its objects (N) inside: once the stream itself is loaded, a request for that object does not end, whatever depth of lookups is allowed.
* `C94_long_counterexample` (LastError.lean): **C94** fails of every message of more than 254 bytes: in a buffer of the announced length there is no end of the text, so that reading it goes beyond the buffer.
* `C94_returned_counterexample` (LastError.lean): **C94** fails of failures that are no exceptions (a missing argument, a missing object, a wrong type): the code that is returned is not the last error.
* `C94_unknown_counterexample` (LastError.lean): **C94** fails of exceptions that are no `std::exception`: the message is the one of an earlier failure.
* `C95_cycle_counterexample` (References.lean): **C95** fails of every chain that does not end, in every file: in a file just opened the first request behind a reference that somebody holds fails with an error, as it should; the same request made again never returns, whatever depth of calls the stack allows.
* `C96_again_counterexample` (DocumentInfo.lean): **C96** fails of entries that are there: whatever the dictionary and the value, the call fails and the entry keeps its value. What is reported in the end is what was there first, or was set first.
* `C96_date_counterexample` (DocumentInfo.lean): **C96** fails of dates that were changed by hand: whatever fields are changed, and in whatever way, what is stored is the text from before.
* `C96_empty_date_counterexample` (DocumentInfo.lean): A date made from nothing cannot be read back at all, whatever its fields were set to.
* `C96_producer_counterexample` (DocumentInfo.lean): In particular the producer and the creation date of a new document cannot be set, by any call at any time.
* `C97_failure_counterexample` (Registry.lean): **C97 is false after a failure.** When a request for a document fails, as it does for a file that cannot be read, then no later request with the same address ever gives a document, whatever the file is that is there then, how often it is closed and opened again, and whether it is opened or created.
* `C97_link_counterexample` (Registry.lean): **C97 is false after links of files without a document.** A link that names its destination, followed while the client has only the file, is reported to have none; after that the file has no document any more, and neither has any later file at the address.
* `C98_kind_counterexample` (Annotations.lean): **C98 is false of three kinds.** Every stamp, every trap network and every three-dimensional annotation of the standard is refused.
* `C99_ranges_counterexample` (ViewSettings.lean): **C99 is false of all ranges but the first.** For ranges in ascending order, every range but the first is reported with a wrong first page.
