# A formal model of vanillapdf in Lean 4

`/verif/lean` holds a Lean 4 model of parts of vanillapdf (C++, source in `/repo/src/vanillapdf`)
and theorems about it.  `properties.jsonl` lists the properties in English, `MANIFEST.json` maps
each to theorem names, `seeded/LOG.jsonl` records the tests of the theorems against wrong models.

## Layout

* `Verif/Model/*.lean`  - definitions that transcribe functions of the library.  Each definition cites
  the file and the lines it models and says where it simplifies.
* `Verif/Spec/*.lean`   - small specifications that do not mention the model.
* `Verif/Lemmas/*.lean` - helper lemmas.
* `Verif/Props/*.lean`  - the property theorems, each with a concrete `example` that meets its hypotheses.

## Conventions

* A byte is `UInt8`; a buffer or a stream is `List UInt8`; reading is consuming a prefix of the remaining input.
* The outcome of an operation is `Except Fault a`; `Fault.ub` marks undefined behaviour of the C++ program
  (signed overflow, out-of-bounds access, excessive shift), the other faults are thrown exceptions.
* Loops become structural recursion or recursion on a decreasing measure; where the C++ loop may not terminate
  the model takes fuel and the theorem speaks about every amount of fuel.
* Release build: `assert` is compiled out (`NDEBUG`); 64-bit platform: `types::size_type` is `uint64_t`,
  `char` is signed, `int` has 32 bits, two's complement.
* If the property is false of the code, the negation is proved with a concrete witness
  (theorem name ends in `_fails` or `_counterexample`) and the part that does hold is proved under the suffix `_partial`.

## Plan per property
* **C01** Name objects survive write and read. Model `ToString`, `ReadName`, `CreateFromEncoded` on byte lists; prove read(write n ++ rest) = (n, rest) by induction on n with a 256-case kernel check per byte.
* **C02** Literal strings survive write and read. Model the literal writer, the tokenizer loop and the decoder; induction on the bytes with the parenthesis counter generalised.
* **C03** Hexadecimal strings survive write and read. As C02 for hexadecimal digits; digit arithmetic by exhaustive kernel check of one byte lifted by induction.
* **C04** Any direct object survives write and read. Inductive type of objects, writer and fuel-free parser on token level plus tokenizer; mutual induction on the object with a token-boundary lemma.
* **C05** Tokenizing any byte sequence makes progress and terminates. `readToken` returns a shorter remaining input unless end of input; proved by cases on the branches.
* **C06** Peeking never changes what is read. State machine with the peek cache; invariant: each cached pair is what reading at that offset gives. The reads between any peeks return the tokens of the text one after the other.
* **C07** White-space and comments between tokens are insignificant. Spec of separators as a list of white-space, EOL and comments; generalise the parser lemmas of C04 over separators.
* **C08** Duplicate and null dictionary entries. Fold over parsed pairs compared with first-match lookup in the list of pairs.
* **C09** ASCIIHex decoding inverts hexadecimal encoding. Model Decode; prove on hex text with interspersed white-space. Odd digit count: negation (a NUL byte is used instead of the digit 0).
* **C10** ASCII85 decoding inverts base-85 encoding. Model Decode with `int` overflow as `ub`; prove decode(encode d) = d when no group reaches 2^31; negation for large groups.
* **C11** PNG predictor decoding inverts PNG filtering. Model ApplyPredictor byte loop; Spec: PNG filter definitions; prove None/Sub/Up rows invert; Average and Paeth rows: negation.
* **C12** Filter chains: encoding then decoding is the identity. Abstract filters as partial inverse pairs; model of the encode and decode loops; single filter proved, two or more: negation.
* **C13** Checked integer conversion never changes a value. Integer types as (signed, bits); model IsInRange per overload; soundness for all, completeness partial with negation at the maximum of a signed destination.
* **C14** Checked addition and multiplication never wrap. Nat arithmetic with modulus; prove result exact or error.
* **C15** Big-endian cross-reference fields round trip. Model WriteValue, the reader loop and MostSignificantBit; arithmetic proofs.
* **C16** A cross-reference section is a map by object number. Refinement of ordered list of entries to a function from numbers.
* **C17** Chain lookup returns the newest matching entry. List.find? characterisation of the nested loops.
* **C18** New object numbers are always fresh. Invariant over operation sequences: allocated numbers are fresh.
* **C19** Releasing an object makes it unreachable. Effect of ReleaseEntry on every lookup.
* **C20** Cross-reference tables survive write and read. Text writer and parser for the table, induction over subsections.
* **C21** Cross-reference streams survive write and read. `Model/XrefStream.lean`: RecalculateContent and ParseXrefStream over the decoded data; round trip proved where the lowest number is 0, negation otherwise.
* **C22** The last startxref offset is found. `Model/Opening.lean`: the backwards search as a function of the whole file; exact for every ending within the searched window, counterexample beyond it.
* **C23** File header version round trip. `Model/Opening.lean`: the regular expression as a total matcher on lines.
* **C24** Opening a document terminates. `Model/Opening.lean`: the Prev chain as a loop with fuel; termination without cycle, divergence (no fuel suffices) with one.
* **C25** A dictionary object is a map. `Model/Heap.lean`, refinement over whole histories to functions from keys to values (`Spec.mapStep`); overwriting and merging with a common key: negation.
* **C26** An array object is a sequence. `Model/Heap.lean`, refinement over whole histories to lists (`Spec.seqStep`).
* **C27** Modifications mark every enclosing object as changed. `Model/Heap.lean`: observers are wired in every reachable state (invariant), marks go up every initialised path, notification ends if and only if nothing contains itself; numbers, Clear, first SetValue of a string, fresh containers, Merge, duplicates and cycles: negations.
* **C28** Equal objects have equal hashes. `Model/Compare.lean` and the hash cache in `Model/Heap.lean`: the hash is a function of the value, the cache is right after safe histories; negations for the rest.
* **C29** Object equality is an equivalence relation. `Model/Compare.lean`: comparison is decided to be sameness of type and content (`Spec.Same`) where no reference meets a direct object and no integer a real; negations there.
* **C30** Cloning yields an independent equal object. `Model/Heap.lean`: a clone allocates fresh identities only, has the same value, and no later operation on one touches the other; cloning succeeds for every object that does not contain itself.
* **C31** Recorded offsets point at the objects. Model/Writer.lean models the writer (objects, sections, chain) with the output as a list of bytes; theorem about every entry a reader of the saved file finds. Fails for the entry a cross-reference stream has for itself (`C31_own_entry_counterexample`).
* **C32** Saved documents read back. The whole path: sections in memory -> `saveFile` -> bytes -> `openFile` -> `loadObject`, by composition of C04, C20, C21, C22, C23, C24 and C40 with an invariant over the chain of sections. Documents with object streams: `saveDocument` (Model/SaveStreams.lean: the loop over the sections with `RecalculateObjectStreamContent`) is shown to write what `saveFile` writes of the document with filled object streams; then the objects are loaded with `fetch` in any order (by C35 and C63). Counterexamples: a cross-reference stream without object 0; a Length reference that changed between revisions; an object stream that a newer section replaces; a stream whose Length is in an object stream.
* **C33** Incremental save never alters the original bytes. `saveIncremental` with the copy loop in blocks; prefix for every source.
* **C34** Incremental save chains to the previous section. Opening the output finds the new section with Prev = offset of the old one, then all old sections (from the chain invariant of C32). Counterexamples, general: a source that has a Prev keeps it; nothing changed.
* **C35** Object streams. Model: `Model/ObjectStream.lean` (body, N, First; reading header pairs and objects). Spec: `Spec/ObjectStream.lean`, the text of ISO 32000-1 7.5.7 with any separators and offsets. Proved: every such text is read as the objects it lists; the body written follows the standard; objects written are read back through any reversible codec. Left out: streams inside object streams.
* **C36** Merging revisions keeps the newest state. `mergeSections` (Model/Optimize) as a fold over the sections; theorem: a number whose newest mention is in use keeps exactly that entry; nothing else comes in; trailer of the newest section for tables. False: a number freed by a newer section is resurrected (`C36_freed_counterexample`, for every such document); with cross-reference streams the oldest section's trailer wins (`C36_trailer_counterexample`).
* **C37** Removing unreferenced objects keeps exactly the reachable ones. Worklist marking `markLoop`; kept iff `Needed` (inductive reachability, Spec/Graph); no dangling references; reader sees the same for every depth. Proved in full; roots of a cross-reference stream section include the stream itself and the object streams.
* **C38** Renumbering preserves the object graph. Numbers are 0..n-1; renumbering is injective; what a reader sees (`seen`, Spec/Graph: unfold references to any depth) is unchanged if no reachable reference leads to a missing object. False for references to missing objects, which keep their number and may hit another object (`C38_null_reference_counterexample`).
* **C39** Removing duplicate objects preserves content. Hash tables modelled with stored (stale) hash values and current values; order of iteration arbitrary. `C39_unique` in full; `C39_same_document_partial` if objects are comparable and nothing below a duplicate has a duplicate. False otherwise: objects get lost (`C39_lost_counterexample`), numbers change (`C39_number_counterexample`).
* **C40** Stream length and keyword layout. The entry after `RecalculateStreamLength`, and the bytes written are read back with the same body by the parser.
* **C41** Trailer Size covers all object numbers. Size is the number of entries; it covers all numbers if and only if there are no gaps; counterexample with a gap.
* **C42** Padding: `padTruncate` is modelled with its unsigned difference. `C42_padded_partial`: passwords of at most 32 bytes give the standard's padded password. False for longer ones: `C42_long_counterexample` (every longer password is undefined behaviour).
* **C43** AES: CBC and both paddings are modelled over an abstract block cipher. False: `C43_counterexample` (no non-empty data survive), `C43_own_partial` gives the surplus bytes, `C43_written_partial` what is stored; `C43_foreign` proves that properly padded data of other producers are read back.
* **C44** RC4: `C44_round_trip` for strings and streams through the file's dispatch, for a document that is written and opened again.
* **C45** Object keys: `C45_derivation` (the standard's derivation), `C45_distinct` (injective input within the limits), `C45_large_counterexample` (numbers are cut to 24 bits).
* **C46** Passwords: `C46_user_accepted_partial`, `C46_owner_accepted_partial`, `C46_entries_partial` about documents encrypted by the library, `C46_standard_partial` about files of any producer against Algorithms 2 to 7. False for revision 3 keys below 128 bits (`C46_owner_counterexample`, `C46_foreign_counterexample`, with real MD5 and RC4) and above 128 bits (`C46_long_key_counterexample`).
* **C47** Model/PageTree.lean: objects as a map from references to dictionaries; `pageAt` follows GetCachedPage/PageInternal with 64-bit counters and a bound on the depth. Spec/PageTree.lean: trees of pages, their leaves, and what it means that a document contains one with right counts. Theorem: the document shows exactly the list of leaves (count, page n, error elsewhere). For any document, damaged ones included: only objects of Type Page below the root are returned as pages, and the number of pages is the Count of a root of Type Pages.
* **C48** False for trees with inner nodes: the library addresses entries of the top level, not pages. Proved: what one insertion, append or removal does for every tree (append is right for all), that all counts are right afterwards, the whole claim for histories on trees without inner nodes, and counterexamples for the rest (removing page 1 may remove several pages; removing an index out of range reports success).
* **C49** Model/CharMap.lean follows Contains, Difference (bit by bit with borrow) and IncrementInternal (32-bit count, undefined shifts). The byte difference is proved by induction over the bits, the buffer operations by induction over the bytes, against big-endian numbers. False for destinations of more than four bytes (undefined shift, proved for all), for sums that need another byte (error or silently truncated) and for ranges with ends of different lengths.
* **C50** Order of keys: strict total order, incomparable means equal. Numeric order: total order, big-endian for equal lengths, shorter first.
* **C51** Model/RefCount.lean: threads sharing one object; a step is one atomic operation of one thread (increment, decrement, destructor, deallocation, hand over, test of the weak flag); use after destruction is a flag. Invariant over all schedules: the counter is the number of references, and exactly one thread is on its way to destroy the object, or has done so, when there are none. False beyond 2^32 references (the counter wraps), proved by induction over the copies.
* **C52** Model/Date.lean: the date regular expression as a syntax tree with the ordered list of matches of a backtracking matcher, then the conversion of its groups and the range checks. Spec/Date.lean: the date grammar of the specification written as a relation between text and fields. A text is accepted with some fields exactly when the relation holds; every accepted field lies in its calendar range; the text written for fields in range reads back as the same fields.
* **C53** Content streams: Model/Content (tokens with the operator keywords, operands, operations with the checks of their constructors, text objects, inline images, writing), Spec/Content (which texts denote which instructions). Proved: every rendition is read as what it denotes; instructions without images are read back as written; with images the only change is a line end in front of the data; whatever was read from any input (operators being words, reals with a fraction, no images) survives writing. False for every inline image (the line end behind ID becomes data), for a data end in a lone E, for EI at the end, for operations without operator.
* **C54** Model/Stream.lean: the library's stream classes over std::iostream (data, get position, eof and fail flags). Line reading against 'up to the first CR, LF or CR LF'; lines and line ends partition the data; refinement to the `readLine` the parser models use.
* **C55** Dispatch: `C55_strings_partial`, `C55_unchanged_streams_partial`, `C55_changed_streams_partial`, `C55_changed_crypt_partial`; false for changed streams with an array of filters (`C55_filter_array_counterexample`: written in the clear) and for unchanged streams with a crypt filter (`C55_crypt_counterexample`).

* **C56** Literal string texts follow the standard. Inductive relation between texts and values as in ISO 32000; decoder agrees on the texts outside four deviations, each deviation shown by a counterexample.
* **C57** Parsing any byte sequence terminates. Fuelled parser; a concrete input on which no fuel suffices (negative stream length); termination proved for inputs in which no `/Length` is followed by a minus sign.
* **C58** Object number 0 is never handed out. Case analysis of AllocateNewEntry; false for a file created without a document (counterexample), proved when number 0 is present.
* **C59** Every integer the interface can hold survives write and read. Proved for signed values, counterexample from 2^63.
* **C60** Any cross-reference table is read as the entries it lists. Grammar of table texts as an inductive relation (Spec/XrefTable.lean); induction over subsections and lines.
* **C61** Any cross-reference stream is read as the entries it lists. Relation between W, Index, body and entries (Spec/XrefStream.lean); proved with a type field; counterexamples: no type field (entries read as free), unknown types (reading fails).
* **C62** Incremental saves contain every change. The document in memory (with marks) refines to the new section in front of the old ones (`inc_holds`), which is read back as in C32. Counterexamples: objects in object streams (the save fails), changes of replaced entries, files of two revisions.
* **C63** Load order. Model: `fetch` (Model/Loading.lean), the state of the file (initialised entries, object streams already unpacked, the position of the shared reader) over any history of loads; what is loaded while a length is looked up is kept. `loadStep` (Model/ObjectStream.lean), without the position, is the reference. Proved for files whose object streams list only objects that the newest entries place there, and whose lengths by reference are outside object streams and right (conditions with a proved test), by an invariant of the state and monotonicity in the resolver. Fails otherwise: an old object stream overwrites a newer revision of an object (`C63_stale_object_counterexample`); unpacking an object stream while the length of a stream is looked up moves the reader, the data are searched for `endstream` and the found length overwrites the length object (`C63_length_counterexample`).
* **C64** Index in the object stream. Proved: the objects are written in the order of their indices, and positions equal indices exactly when there are no gaps. Fails after an object in the middle is removed (`C64_gap_counterexample`).
* **C65** All optimisations together: composition of C36-C39 over `optimize`; the absence of references to missing objects is carried over by showing that it is visible in `seen`.
* **C66** Permissions: bit-level model of `GetPermissionInteger`. False: `C66_counterexample` (every permission is granted exactly if it was not requested), `C66_inverted_partial` gives the whole value.
* **C67** Algorithm: false for all settings, `C67_counterexample`.
* **C68** Renumbering: `C68_renumbered_partial` (read correctly exactly if the key streams agree), `C68_counterexample` (real MD5 and RC4).
* **C69** False: a Kids array that contains its own node makes PageInternal and UpdateKidsCount recurse without end; proved for all bounds of the depth. Proved: requests end for every document that contains a tree with right counts.
* **C70** False: strncmp with the length of the buffer accepts every prefix. Proved: the comparison is 'is a prefix of' for texts and buffers without zeros, equality when the lengths agree.
* **C71** The lookup of character_map.cpp against 'the only entry covering the key'.
* **C72** Same transition system with weak references. False for concurrent threads (two schedules: use after destruction, and a new reference to an object whose destruction has begun). Proved for schedules in which every call runs to its end before the next (one thread, or a lock).
* **C73** Same model. False for the offset -1 (taken for BAD_OFFSET: the end flag is set and nothing is read). Proved for every other offset after every history of operations.
* **C74** Models Stream and StreamHistory. Reading in blocks of 4096 returns the rest of the data for every length. Histories of writes, reads and positionings of a stream in memory, in any order, are proved to refine a content with a place for reading and a place for writing (Spec/StreamHistory.lean), by an invariant over the calls. Reading back what was written is false once a reader has met the end: everything written is dropped until the place for reading is set again (C74_lost_counterexample).
* **C75** Page contents as a state machine (Model/PageContents): edits, changes of the underlying object, recalculation, and the cache of the page object. False: edits never mark the object as changed, so they are never written; changed but unread contents are emptied; contents set after a request are not returned. Proved: if the object counts as changed and the instructions were read, exactly the edited list is written and read back.
* **C76** Progress and termination of the operand, operation, text and instruction loops by induction on fuel, with the fuel shown sufficient. False because of inline images (a token other than a name or ID behind BI); proved for every input that does not contain BI.
* **C77** The bodies are concatenated without separator. False at q|Q; proved when the tokens at the divisions do not touch, and for any division of a text that denotes instructions as a whole.
* **C78** Model/NameTree: node kinds, reading all keys into a map, lookup, and the rebuild on insertion. Contains and find proved for every well-formed tree (Spec/NameTree: entries as paths through Kids); insertion proved once for a root without Kids and Limits. False: existing keys keep their value, a second insertion fails with all entries lost (so two or more named destinations cannot be merged), trees with kids become unreadable, non-ASCII keys are sorted as signed characters, cyclic kids are read forever.
* **C79** Same tree with integer keys, where the map is keyed by the identity of the key object. False: no label is ever found, because the searched number is a new object.
* **C80** model of `DeepCopyObject` (walk, numbers, clones, fixing of references), of `AppendPage` and of the loop of `AppendDocument` (Model/CopyObjects) on top of the page tree of C47/C48 and the allocation of C18. Proved by: the walk visits exactly what can be reached and ends within the number of objects; numbers are new and different; the result is a renaming of the reachable objects (unfolding to any depth is the same); induction over the pages. False for dangling references, inherited attributes, links between pages, and the Parent entries of the source (counterexamples).
* **C81** Model/Signing.lean models the dictionary with replaced values, the offsets the writer stores, the search for the dictionary by its identifier, the patching of the output stream and the block loop that feeds the key. Proof: the written file splits into five parts around the two blanks; the patched text denotes the signed dictionary in the grammar of C07 (the blanks behind the array are separators), so every reader reads it. False for an earlier signature of the same document in memory: it is saved as blanks. Model/SigningFile.lean has the same for an output that is a file with one position; the outcome is proved to be the same.
* **C82** Model/CharMapParser.lean follows the loop over tokens, the seven section readers and the definitions; Spec/CharMap.lean is an independent grammar of such texts together with the map each denotes. Proof: induction over the grammar, using the object grammar of C07 for destinations and dictionaries; a lemma on the token ahead shows that a section number is never taken for another token. False for integer destinations in cidchar and notdefchar sections and for a CIDSystemInfo given by `dict dup begin`: both make every lookup an error, wherever they stand.
* **C83** Model/Destinations: creation of a destination from an object, `IsDestinationReferencingPage`, `FixDestinationPage`, the shallow copy, insertion into the dictionary, and the loop over pages with named destinations, on top of Model/CopyObjects. Proved by induction over the names and then over the pages: existing objects are unchanged by merging names, so the tree and the copies of C80 persist. False: one entry that is null, has a dead page or a page number makes every page fail; a dictionary whose D is a reference leads to an unrelated object of the destination, which is changed.
* **C84** Model/Recovery: the loop of `FindAllObjects` over tokens and lines, entries that replace each other, sections of cross-reference streams, and the decision of `File::Initialize` to search. Spec/Recovery describes the text of a file as a sequence of objects, trailers and lines of other text. Proved by induction over that sequence, with the parser's round trip for each object; ends for files without negative lengths, by the measure of C57. False: a truncated or foreign line stops the whole search, split object heads and objects without endobj are lost, the last trailer wins even without Root, stale cross-reference streams come first, and a negative length makes the search endless.
* **C85** Model/StreamSave: the length is measured on the copy of the stream, changing the entry marks the copy as changed, and the data are asked for again when they are written. Proved for changed streams (`C85_changed`), for documents without encryption (`C85_plain`), for RC4 and the null cipher (`C85_rc4_partial`) and for streams without filters (`C85_unfiltered_partial`). False for AES, whose surplus bytes (C43) change the length of most streams: data in ASCII or JPEG 2000 filters make saving fail, Flate data get the length of the former data, and data with an array of filters are written unencrypted. It refines C55, which is about one request for the data.
* **C86** Model/RemoveEncryption: documents as sections of entries with objects whose strings and bodies know their decrypted values or not, `ForceObjectInitialization` over all of them, and saving through Model/StreamSave. Spec/ReadAs: what the interface returns for an object. Strings by induction over objects (`C86_strings`), trailer and entries (`C86_document`), streams (`C86_streams_partial`) if they have no filter or keep their size. False: with AES every stream changes its size, so data in ASCII or JPEG 2000 filters make saving fail and Flate data are compressed again without their predictor and with a wrong length; a filter the library cannot decode makes the removal itself fail. Not modelled: an incremental save after the removal, which leaves the encrypted bytes of the source in front of a trailer without Encrypt.
* **C87** Modelled: both loops of Inflate and Deflate and the second attempt on damaged data (Model/Zlib), over an abstract zlib: any state machine that keeps the contract of zlib.h (Spec/Zlib: uses all it can, writes all it can, stops when the space is full, the input is used up, the stream ends or the error shows). Proved by induction on the rounds: C87_inflate, C87_deflate, C87_round_trip, C87_damaged. A small format with machines that keep the contracts shows that the hypotheses are met. Counterexamples: truncated data decompress without an error (C87_truncated_counterexample), and contents before damage are lost when it lies in the first block (C87_lost_counterexample). zlib itself is not modelled.
* **C88** Modelled: a dictionary as a sorted list of nodes with identities and a count of owners; an iterator as the identity of a node; operations on a node that was freed, or on a dictionary without owner, are undefined (Model/Iterators). A collection of instructions as an array with a number that changes with every edit. Specification: a relation that shows the first key behind the last one shown, in the map as it is then (Spec/Iterators). Proved by induction on the rounds of the loop: C88_walk_partial, C88_kept_partial, C88_unchanged, C88_collection_partial. False for the removal of the entry shown (C88_remove_counterexample), after the last reference is released (C88_release_counterexample), for every edit of a collection (C88_collection_counterexample) and for positions behind the end (C88_position_counterexample).
* **C89** Modelled: names as cells that point to a buffer and to a counter of weak references, the copies that functions of dictionaries make of them, dictionaries as lists of key objects and values (Model/Names). Specification: names are texts, dictionaries are maps from texts (Spec/Names). Proved by refinement over sequences of calls: C89_values_partial for clients that do not change a name once a dictionary has it or a copy of it, C89_noticed_partial for the mark of changed names. False otherwise: a change renames the entry (C89_insert_counterexample), also when the key was passed by reference (C89_insert_const_counterexample), constants are shared by all dictionaries (C89_constant_counterexample), and a lookup cuts the name off from changes of its buffer (C89_lookup_counterexample).
* **C90** Modelled: threads as lists of actions, one access to memory or one lock each; recursive locks of reference objects, of the object streams of the file, of entries, of streams and of the input (Model/Locks). Specification: a deadlock is a state in which some call has not returned and no thread can go on (Spec/Locks). Proved with an order of the locks as invariant: C90_no_deadlock_partial, C90_all_return_partial (a measure that every step decreases), for layouts without lengths that are references, and references compared in one order. For all layouts and calls: C90_one_thread, C90_locks_free, C90_unlock_own. False otherwise: C90_length_counterexample, C90_packed_length_counterexample, C90_compare_counterexample.
* **C91** Same model. C91_stored for all layouts whose object streams list their objects; C91_once_partial by an invariant of the thread that is between the test of the flag and its change. False for files with updated objects whose old object stream still lists them (C91_updated_counterexample, one thread).
* **C92** Same model. C92_one_writer_partial: two threads are never about to store the same object. False for the test of the flag, which is done before the lock is taken: C92_flag_counterexample.
* **C93** Modelled: requests with the shared position of the reader (Model/Loading). Specification: an object is read with the help of others (its Length, its object stream, N and First of that), and a rank decreases along this relation (Spec/LoadEnds). Proved by induction on the depth of lookups, from any state requests leave behind: C93_ends_partial, C93_sequence_partial. False otherwise, for any cycle: C93_length_cycle_counterexample (streams whose lengths lead to each other), C93_stream_cycle_counterexample (an object stream with its own N inside): the library recurses until the stack is exhausted.
* **C94** Modelled: the last error of every thread, the catch clauses of the C interface, the functions that report code, message and text of a code (Model/LastError). Specification: a buffer contains a text when its bytes stand there with a zero byte behind them (Spec/LastError). Proved over all histories of calls: C94_message_partial, C94_printable. False otherwise: C94_long_counterexample (messages of more than 254 bytes are returned without an end), C94_returned_counterexample (failures that are returned and not thrown leave the last error as it was), C94_unknown_counterexample (the message of an earlier failure).
* **C95** Modelled: reference objects that remember what they refer to, with all nested calls of `IsReferenceInitialized`, and the visited set with its copies (Model/References). Specification: chains of objects that are references (Spec/References). Proved by induction on the length of the chain at the root of the nested calls, then on the rest of the chain, for all memories: C95_end_partial, C95_sequence_partial, and agreement with the memoryless `deref` of Model/Compare, C95_memory_partial. Every chain ends or cycles: C95_ends_or_cycles. False for every cycle in every file: the first request throws, the second recurses without end, because testing whether a remembered object is null starts with an empty visited set (C95_cycle_counterexample).
* **C96** Modelled: all accessors of the document information, with the objects behind references, dates as objects with fields and a string, the information of a new document (Model/DocumentInfo). Specification: a record that each call changes in one place (Spec/DocumentInfo). Refinement over all histories that set different entries which are not there: C96_history_partial. False otherwise: an entry that is there can never be set (C96_again_counterexample), so that producer and creation date of a new document cannot be changed (C96_producer_counterexample); a date that was changed by hand is stored with the text from before (C96_date_counterexample), one made from nothing as an empty text that cannot be read back (C96_empty_date_counterexample). What stands in the file is proved against the table of the standard (C96_file), and so is what is read from it (C96_texts, C96_trapped, with small and capital letters).
* **C97** Modelled: the table from files to documents with its weak references, handles of files and documents, constructor and destructor of documents, the calls that use them (Model/Registry). Specification: handles counted from calls and outcomes alone (Spec/Registry). Proved over all histories: C97_one, C97_closed (a file that nobody has any more does not exist any more), and C97_open_partial for addresses where no request failed and no link was followed without a document. False otherwise: after a failed request, for example for a damaged file, no file at the same address ever gives a document again (C97_failure_counterexample); the same after following a link of a file without a document (C97_link_counterexample).
* **C98** Modelled: annotations of a page, their kinds, destinations of links with the name tree of C78 and the named destinations of C83 (Model/Annotations). Specification: the table of the standard, and where a link leads (Spec/Annotations). Proved: C98_page, C98_none, C98_link, C98_nowhere, C98_kind_only; C98_kind_partial for all kinds but three. False of Stamp, TrapNet and 3D (C98_kind_counterexample).
* **C99** Modelled: the entries of the catalog and the viewer preferences with names as values, the version of the catalog and the ranges of pages to print (Model/ViewSettings). Specification: the tables of the standard (Spec/ViewSettings). Proved: C99_setting, C99_only, C99_missing, C99_version; C99_ranges_partial for the number of ranges and the first one. False of every other range (C99_ranges_counterexample): it is read at half its place.
* **C100** Modelled: outlines, items and the steps between them, titles, colors and flags (Model/Outline). Specification: an outline as a tree with places, steps between places, and what it means that a file has the outline (Spec/Outline). Proved over all outlines and walks: C100_walk_partial, for walks in which Parent is asked for at items at the top only; C100_begin, C100_title, C100_color, C100_flags. False of Parent of items below other items (C100_parent_counterexample): the object it gives counts as an outline, not as an item.
* **C101** Modelled: number objects with shared backends, conversions between integer and real objects, clones, bits, the text of numbers (Model/NumberObjects). Specification: which objects stand for one number, given by the history of requests; texts of PDF numbers (Spec/NumberObjects). Proved over all histories: C101_last, C101_others, C101_clone; over all values: C101_integer, C101_unsigned_partial, C101_fraction, C101_integral, C101_text_partial, C101_rounded, C101_bit. False: an unsigned 2^63-1 cannot be read as an integer (C101_unsigned_counterexample), reading 2^63 as an integer is undefined (C101_limit_counterexample), a real number is rounded to the precision the object was made with (C101_precision_counterexample), numbers without precision from 10^16 on or below 10^-4 are written with an exponent (C101_exponent_counterexample).
* **C102** Modelled: GetMediaBox, the rectangle and its coordinates, SetMediaBox (Model/PageBox). Specification: the box of a page, its own or inherited, as four numbers (Spec/PageBox). Proved over all pages: C102_own_partial, C102_integers, C102_missing, C102_set. False: fractions are lost (C102_fraction_counterexample), inherited boxes are reported missing (C102_inherited_counterexample).
* **C103** `Model/FileStart`: the last steps of `File::Initialize` on a file given by its trailers, its objects, which of them are in object streams, which passwords are right and what decryption does (these two are the subject of C42-C46, C55). Places (home and steps) stand for C++ objects; the list of exempted places is the state. `Spec/FileStart` says what the standard exempts, what a form and its fields are (with Kids and inherited types), and what a proper file is. Proved: for proper files opening succeeds and exactly the exempted places (signatures: of fields in the list of the form) are read raw, also after any passwords; objects can be read iff a right password was given or none is needed; answers to passwords. Counterexamples, each for all files of that kind: signatures of fields that belong to other fields are decrypted; a file with a user password and the catalog in an object stream cannot be opened (the second attempt is reported to succeed, but then no signature is exempted); a form that refers to a missing object, or a signature with literal contents, makes opening fail, also without encryption; after any failure each further attempt to open reports success, and a file whose encryption dictionary cannot be read then counts as one that is not encrypted.
* **C104** `Model/FormFields`: the form of the catalog, the array of fields, kinds of fields, values of signature fields, the entries of signatures and the collection of byte ranges. `Spec/FormFields` says which fields a form has (also below others), which kind a field has (own or inherited), and which ranges an array of numbers means. Proved: fields of the array with their own kind; nothing else is shown as a button, text, choice or signature; values, texts, time (by C52), contents and revision exactly as they stand; number of ranges and first range. Counterexamples, each for all such documents: fields that inherit their kind are shown as groups and their signatures cannot be asked for; fields below others are never shown; the second range of every signature is reported as (length of the first, offset of the second), and so the bytes of the gap, where the signature itself stands, are reported as signed.
* **C105** `Model/PageFonts`: resources of pages and setting them, the font map and the making of fonts, character maps of fonts, the handle of the node above a page, and the iteration over extensions. `Spec/PageFonts` says which resources a page has (own or inherited), which names stand for which kinds of fonts and what a font and an extension are. Proved: own resources exactly as they stand, missing only if there are none, and set-then-get with all other entries unchanged; fonts exactly; character maps exactly; extensions under their names in order, with versions and levels. Counterexamples, each for all such documents: inherited resources are reported missing, and the function that is meant to look above the page fails for every proper node; the node above a page is handed out as an object of another class than all the functions for it use; the optional Type entry of the extensions is shown as an extension and fails.
* **C106** `Model/License`: setting a licence from its parts, the content that is signed, refused serial numbers, dates, and the two questions a client can ask. The checks of signatures and certificates and the conversion of dates to times are arbitrary functions. `Spec/License` says when a licence is in order and which one of a history counts. Proved: accepted exactly if in order, no change otherwise, histories, and that the data are those signed if the parts keep their lengths. Counterexamples, each for all such licences: the parts are signed as one text without separators, and so everyone can turn a licence with a time limit into one without (the limit is appended to the date before it, where it is not read), free a refused licence (the number is moved into the note) and replace the date of the updates by the limit. Builds by default do not enforce licences; the questions are answered all the same.
* **C107** `Model/Images`: the source and the destination that are given to libjpeg, the loops over rows of libjpeg and over samples of OpenJPEG with their 32-bit numbers, and the callback for skipping. The decoders are not modelled: requests, outputs, rows and samples are arbitrary. `Spec/Images` says which positions are asked for, which samples a component has on its grid, and what interleaved samples are. Proved: requests within the data get its bytes; encoded bytes arrive whatever their number (invariant of the buffer); rows of one, three and four components; samples of full-size eight-bit images. Counterexamples, each for all such images: data that end early (also by a marker that says more bytes follow than there are) are read behind their end; images with two or more than four components become zeros; JPEG 2000 images that do not begin at the origin, have a coarser grid for some component, or have more than 2^32 samples read or write behind a buffer; deeper images are refused; OpenJPEG is told a position for the number of skipped bytes.
* **C108** Attributes and lists are a store of cells and of maps from types to cells; all calls of the C interface, and the copying of attributes, are steps on it (Model/Attributes.lean). `C108_history_partial` says by induction over the history which attribute a list gives (the one last added and not touched since), for histories that never replace; `C108_answers` relates the answers of the calls. Replacing does not work: `C108_overwrite_counterexample` shows for every list that adding with overwriting succeeds and leaves the old attribute. `C108_clone`, `C108_separate` and `C108_text` are about all reachable states. Bodies: the filters are functions that may say facts about an image; `C108_body_partial` shows that a stream without such facts is read to the composition of its filters, now and later; `C108_body_counterexample` and `C108_retry_counterexample` show that facts that are already there, from the program or from an attempt that failed in a later filter, make every reading fail. `C108_encode` says which rows libjpeg gets; `C108_encode_counterexample` that bytes after the last row are dropped without an error.
* **C109** PKCS#7 parsing, ciphers, digests and RSA are parameters; what `SetEncryptionKey` reads from the dictionary, the loops over strings and recipients and the derivation of the key are followed step by step. The specification is the formula of ISO 32000-1, 7.6.4.3, and the three places where recipients stand. Proved by induction over the envelopes before the one that opens. Negations are proved for unencrypted metadata (the entry is ignored), for the length in the crypt filter (key of 40 bits), for other names of the crypt filter, for files with a password (error instead of no), for short contents and short custom keys (reads behind the buffer), for a first envelope that does not open and for wrapped keys of another length (zeros behind it).
* **C110** A key is a record of state transformers that may fail; the scope guard of the signer is a function on the result of its body, with `terminated` as an outcome of its own because a destructor must not throw. Keys of the program keep the list of calls as their state, and their callbacks may answer anything that depends on that list; keys from PKCS#12 keep whether the certificate is still there, the digest and the data. Proved by induction over ranges and over histories. The negations: after one signature the key has neither certificate nor private key, so that a second signature or unlocking a file reads a null pointer; a cleanup that reports an error terminates the program; a password is read beyond its end, because the buffer has no zero behind it.
* **C111** Dictionaries and streams are on a heap with addresses, so that sharing is visible; only the entries that matter are kept. The recursion over the tree is proved equal to marking the nodes of a finite tree one by one, children first; each step changes only its own node, streams and fonts, and the claim about all pages follows by induction over the list of nodes. That the marked text is read back as q, the old instructions and the watermark uses the theorems about content streams (C53, C76). The negations: a page that inherits its resources gets resources of its own with no font but that of the watermark, a stream shared by pages is marked twice on both, a tree with a cycle is walked for ever, a stream that cannot be decoded makes saving fail, and a file of pages without contents has no watermark.
* **C112** Sections are lists of entries with an optional hybrid stream (number, generation, entries). What a section shows is specified after the standard, without the order in which the code asks the table and the stream. Looking up is reduced to C17; copying and merging are folds over the chain, proved by induction with the invariant that entries have different numbers and that the last entry added for a number is the one found. The negations: a hidden object that the table has as free (which the standard asks for) is not found, although merging brings it back; an object both in the table and in the stream is read from one and saved from the other; a hybrid stream that only lists itself makes saving fail; an unmerged file loses hidden objects, fails if its oldest section has a hybrid stream, and has a Size that counts entries.
* **C113** A save is a list of steps (write bytes, notify, flush, fail), made by the same functions as the bytes of Writer and Incremental; a run of the steps has the output, the flushed part, the calls and the set of observers as its state, and callbacks are arbitrary functions of the calls so far to operations on the observers and success. That the bytes of the steps are those of saveFile and saveIncremental is proved by induction over the sections. The specification lists what is told of a save from the objects that stand in the file. The negations: a save that ends early never tells its end; an observer that is only referenced by the writer is never called; an observer at the address of a released one is not subscribed, as references are compared by address; an observer that unsubscribes itself in a callback is undefined behaviour.
* **C114** NewDocument composes the models of allocation (Xref), the page tree (PageTree), the information dictionary (DocumentInfo), saving (Writer) and opening (Opening): createDocument is CreateFile call by call, DocOp.call is one call of a client. The specification keeps a plan: the entries of each page that was made and the order of those in the document. An invariant (which object has which number, what each holds) is proved for the new document and for every call; from it the section that is saved is good in the sense of C32, so the theorems of C32 and C47 give the file and the pages that are read from it. Pages that were removed stay in the file as objects.
* **C115** SecureSave composes the models of saving a document (Writer), of strings and streams of encrypted documents (Encryption, StreamSave, RemoveEncryption): secureSections gives what is written for each object, saveProtected the file. The specification relates what is loaded to what the API read before: the same object except for its strings (SameBut), and strings are enciphered by Algorithm 1. By induction over objects and sections, then C32 for the file, C85 and C55 for streams. False for AES, where each string grows (C43), which is proved for every document.
* **C116** incrementalSections models that the destination of WriteIncremental has no encryption dictionary. False of the code: it is proved, under the hypotheses of C62, that each changed object is loaded from the output with its strings in clear, that a reader with the key reads their cipher instead, and that changed streams are in clear; what holds is that streams whose data were not decoded keep their bytes.
* **C117** SecureCopy models the copies: strings take the value decrypted by the source, streams take the stored bytes and what is known of the body, the exemption from encryption is kept. The specification says what the API reads (ReadAs) and how references change (CopiedAs). True for everything but streams and, in saved files, objects out of object streams: by induction over objects, then C115 and C32 for saved files. False for streams whose data nobody has asked for (four counterexamples, general in the document and the data) and for objects out of object streams copied to an encrypted document.
* **C118** SignForm models the changes that Document::Sign makes before the file is written, step by step, with the document that is left when a step throws; places inside objects are an object number and a path of keys. The specification says where page, form, flags and lists are (Signable) and what holds afterwards (SignedBy). Proof: each step changes one place and keeps the others (FormStep), new numbers are fresh (C113), then composition. Corollaries for the API of forms and annotations (C87 and others) and for the page tree. False for the name of the field (always Signature1), for failures after the first step (in general), for a list that is both Annots and Fields, and for a form that is a dangling reference.
* **C119** OptimizedSave composes the clone, the optimisations (Optimize) and the writer (Writer); reading is the model of C32. The specification (Spec/Shown) says what a reader sees of a document in memory and of a file, following references to any depth, blind to numbers, null entries and Length. Proof: the merged section has the objects of the document (from C36), the optimisations keep what is seen (C65, for a view that also marks null) and give a table the writer can write (invariant WriteReady over all stages), writing and loading gives the same objects (C32), then induction on the depth. C119_is_saved: the save succeeds. False for freed objects, dangling references, duplicates below duplicates and numbers that compare equal.
* **C120** StreamObject models streams with their three buffers, the dirty flag and the buffers a program holds, and all calls of the interface on them, in documents without encryption. The specification (Spec/StreamObject) says which calls set or show a body. Proofs: the body stays known (induction over histories); a stream that is not dirty has buffers that come from its data (invariant); encoding by C12. False for bodies not asked for when filters change, null filters, setting a body to itself; reading can make writing fail.
* **C121** UnlistedStreams models how the texts of the sections (read in XrefTable and XrefStream) become the chain: the first loop over Prev, the second loop over XRefStm, the virtual tables for streams that do not list themselves, SetReference of their entries, the move of a leading virtual table, and the search of a request. The specification (Spec/UnlistedStreams) says what the newest revision that lists an object says. Proof: a relation between the chain and the revisions (virtual sections stand for unlisted streams, the others for one revision each, in order) kept by every step. False when the number of an unlisted stream is used again.
* **C122** Interface models a function of the C interface as its list of steps: null checks, blocks of work with the parameters they use and the classes they cast them to (inside or outside of try), conversions, releases and the class of the object that is handed out. InterfaceTable lists all 738 functions of src/vanillapdf/implementation/*/c_*.cpp in this form (made from the sources by a script, then checked by reading samples). Proof: checks on the steps that are proved sound for all arguments and all outcomes of the work, evaluated by the kernel over the complete table; programs by induction over calls. False for five functions (null), six (filters), four (results); 92 functions have work outside of try.
* **C123** StringObject models strings with their encoded text and lazily decoded value, the buffers a program holds (its own, or the value of a string) and the calls that make, read, set, edit, copy and write them. Invariant over all sequences of calls: the kind of a string and the answer it would give when asked for its value change only by calls that set the value or edit its buffer; with C02 and C03 for the text. False in one case: setting a string to the buffer it handed out itself assigns a vector from its own iterators.
* **C124** Logging models the registry of spdlog as its headers describe it (names, levels, default logger; a parameter for the difference between versions) and the five calls of c_logging.cpp over it, and messages of the library. Invariant over all histories: the default logger has the sink last set with success and the severity last set; hence the sinks get what a small specification over calls and answers says. False: a callback cannot be replaced; after a shutdown each message uses a null pointer; a callback that makes the library write a message locks its own mutex again. LoggingThreads interleaves the steps of messages of any number of threads with replacing and shutting down; invariants over all interleavings.
* **C125** Model FileStreams: the calls of Model/StreamHistory on a `std::fstream`, whose position is one for reading and writing. The claim is false without positioning between reading and writing (general counterexamples in both directions). Proved by a simulation for all programs that position whenever they change between the two: same answers and content as a content with two places, and as a stream in memory.
* **C126** Model Buffers: the objects with their reference counters, use of an object whose counter is zero is undefined. Specification: contents that never go away, sequences of them and the handles the program holds, without counters. Proved by a simulation whose invariant is that the counter of a buffer is the number of handles plus the number of places in lists. Positions behind a list are undefined for insertion and removal, and so is setting a buffer from its own memory (general counterexamples).
* **C127** Model Misnumbered: sections as hash sets whose entries remember the number they were stored under, loading that gives an entry the numbers of its object, the recovery that loads and stores all entries again. Specification: what each line really leads to, and the first revision with the numbers. Proved by an invariant over all histories (every entry is stored under its number, and a section lists the numbers its objects carry). Soundness holds for every file; completeness fails when numbers are listed that no object has or a line cannot be read (general counterexamples).
* **C128** Model OperatorKinds: the three tables (texts to tokens, tokens to operators, operators to texts) one by one, and what the interface shows of an operation. Specification: Table A.1 of ISO 32000-1. For texts in the table by evaluation of the whole finite table in the kernel, for all other texts by a lemma on lookups; joined with C53_reads for whole streams. The type of the operation is generic for all but eight operators (proved as an equivalence).
* **C129** Model Parser (readStreamPart, streamFallback, endstreamLine, correctLength). Specification: the pieces of the text of a stream, and a dictionary that differs in its length only. Proved with the lemma of C84 that the search passes over every line of the data; the line end in front of endstream is removed by cases. Data that end with a carriage return before a single line feed lose it (general counterexample).

## Trusted base

* Lean 4.33.0 kernel and its axioms `propext`, `Classical.choice`, `Quot.sound`; no others.  `AXIOMS.md` lists the axioms each
  property theorem depends on (made by `tools/axioms.py` from `#print axioms`).  No `sorry`, no `native_decide`, no `bv_decide`.
* The hand transcription of C++ to Lean.  Every definition cites the file and lines it models and says where it simplifies.
* The statements in `Verif/Props` and the specifications in `Verif/Spec` (and in the `Spec` sections at the head of some files of `Props`).
* Library behaviour assumed, transcribed where the model needs it: C++ standard containers (`std::map`, `std::unordered_map`,
  `std::sort`), `fmt` formatting, `std::stoi/stoll/stoull`, `std::regex` on the patterns used, `std::iostream` (Model/Stream.lean),
  sequential consistency of `std::atomic` (Model/RefCount.lean), libstdc++ keeping hash values in nodes, the registry of spdlog
  (Model/Logging.lean; its versions differ in one point, which is a parameter).
* Parameters of the model, with the assumptions stated as hypotheses of the theorems: the digest, RC4 and AES functions of OpenSSL
  (`Crypto`), zlib, libjpeg and openjpeg (`Codecs`), hash functions of the standard library (`StdHash`).

## What is modelled

Paths are below `/repo/src/vanillapdf`.

| model | code |
|---|---|
| Chars, Numbers, Strings, Tokenizer, Peek | utils/character.h; syntax/parsers/tokenizer.cpp, token_dictionary.cpp (PDF keywords); text of names and strings in syntax/objects |
| Object, Parser | `ToPdf` of all direct objects; parser.cpp: direct and indirect objects, streams, recovery of wrong lengths |
| Ints | utils/conversion_utils.h, utils/math_utils.h |
| Filters | syntax/filters (ASCIIHex, ASCII85, predictors of Flate), the filter loops of stream_object.cpp |
| Xref, XrefTable, XrefStream, Opening | syntax/files/xref.cpp, xref_entry.*, xref_chain.cpp, number allocation in file.cpp, writer and reader of both kinds of section, header, `startxref`, chain of sections |
| Heap, Compare | containers, observers, dirty flags, hash caches, clones, `Equals`, `Hash` of syntax/objects |
| Writer, Incremental, ObjectStream, Loading, SaveStreams, Optimize | file_writer.cpp: `Write`, `WriteIncremental`, object streams, the optimisation stages; loading of objects (file.cpp, xref_entry.cpp, stream_object.cpp) |
| Encryption | syntax/utils/encryption.cpp (object keys, RC4, AES, padding, password algorithms), `SetEncryptionPassword`, `DecryptData`, `EncryptData` of file.cpp, crypt filters, `AddEncryption` of semantics/objects/document.cpp |
| Locks | the locks taken while objects are loaded, the data of streams read and references compared: xref_entry.cpp, file.cpp, stream_object.cpp, indirect_reference_object.cpp |
| PageTree | semantics/objects/page_tree.cpp, page_tree_node.cpp, page_node_base.cpp, page_object.cpp (tree operations) |
| CharMapParser | contents/character_map_parser.cpp, character map keywords of syntax/parsers/token_dictionary.cpp, reading in semantics/objects/character_map.cpp |
| CharMap | contents/character_map_data.cpp, lookup of semantics/objects/character_map.cpp, comparisons of utils/buffer.cpp |
| RefCount | utils/unknown_interface.*, the counting of utils/deferred.h |
| Stream | utils/streams/input_stream.cpp, output_stream.cpp, stream_utils.cpp |
| StreamHistory | histories of the calls of utils/streams/input_stream.cpp and output_stream.cpp on one stream in memory |
| FileStreams | the same calls on a file opened with `StreamUtils::InputOutputStreamFromFile` (one position) |
| SigningFile | `DocumentSigner::OnBeforeOutputFlush` (document_signer.cpp) and `PKCS12Key::SignUpdate` with a file as output |
| OperatorKinds | what the interface reports of the operators of content streams (C128) |
| Misnumbered | file.cpp (recovery of misplaced numbers), xref_entry.cpp, xref.cpp, xref_chain.cpp |
| Buffers | buffers, lists of buffers and streams made from buffers with their reference counters (C126): buffer.h, buffer.cpp, buffer_array.cpp, c_buffer.cpp, c_buffer_array.cpp; without null pointers, threads, observers |
| Date | semantics/objects/date.cpp |
| Content, PageContents | contents/content_stream_parser.cpp, content_stream_objects.cpp, content_stream_operation*.cpp, content_stream_instruction_base.h; semantics/objects/page_contents.cpp, `SetContents`/`GetContents` of page_object.cpp |
| NameTree | semantics/objects/tree.h, tree.cpp (node kinds, `GetAllKeys`, `Rebuild`, `Insert`), page_labels.cpp, `NamedDestinations::Insert` as repeated insertion |
| CopyObjects | syntax/files/file.cpp 1004-1174, semantics/objects/document.cpp 400-425, 591-633 |
| Destinations | semantics/objects/destinations.cpp, semantics/objects/document.cpp 338-398, 427-486, 549-589, 635-649, syntax/files/file.cpp 1082-1103 |
| Recovery | syntax/parsers/parser.cpp 790-887 (search for objects), syntax/files/file.cpp 123-173 |
| StreamSave | syntax/files/file_writer.cpp 676-702, syntax/objects/stream_object.cpp 48-53, 598-611 |
| Zlib | utils/zlib_wrapper.cpp (the loops of `Inflate` and `Deflate`; zlib is a parameter that keeps the contract of Spec/Zlib) |
| Iterators | utils/base_iterator.h, implementation/syntax/c_dictionary_object.cpp 81-226, implementation/contents/c_content_instruction.cpp 60-191 |
| Names | syntax/objects/name_object.h, name_object.cpp, utils/unknown_interface.h 160-215, syntax/objects/dictionary_object.cpp 109-206 |
| RemoveEncryption | semantics/objects/document.cpp 961-1058, syntax/objects/string_object.cpp 145-173, 376-431 |
| Signing | semantics/utils/document_signer.cpp, semantics/objects/document.cpp 683-726 and 815-825, syntax/objects/object.cpp 24-76, syntax/objects/dictionary_object.cpp 84-105, utils/pkcs12_key.cpp 356-379 (the loop) |
| LastError | utils/errors.cpp, implementation/c_helper.h, implementation/utils/c_errors.cpp |
| References | syntax/objects/indirect_reference_object.cpp 20-74, 171-229, syntax/utils/object_utils.h 128-197 |
| DocumentInfo | semantics/objects/document_info.cpp, semantics/objects/date.h and date.cpp, semantics/objects/document.cpp 93-108, utils/misc_utils.cpp 338-348 |
| Registry | semantics/utils/semantic_utils.cpp 49-118, semantics/objects/document.cpp 27-147 (the table), utils/unknown_interface.h 14-120, semantics/objects/annotations.cpp 208-220, 247-259 |
| Annotations | semantics/objects/annotations.cpp 38-280, semantics/objects/page_object.cpp 69-78, semantics/objects/name_dictionary.cpp, semantics/objects/catalog.cpp 111-131 |
| ViewSettings | semantics/objects/viewer_preferences.cpp, semantics/objects/catalog.cpp 31-40, 77-102, 145-169, semantics/utils/semantic_utils.cpp 14-47 |
| Outline | semantics/objects/outline.cpp, outline.h, implementation/semantics/c_outline.cpp 11-28, semantics/objects/catalog.cpp 169-178 |
| NumberObjects, PageBox | number objects and their backends (numeric_object.cpp, integer_object.*, real_object.*, object_utils.h:78-126), the media box of pages (page_object.cpp:49-67, rectangle.*) |
| FileStart | `File::Initialize` after the cross-references, the four `Exempt…` functions, `SetEncryptionPassword` (as an oracle), `GetIndirectObject` of objects in object streams, `IsEncryptionExempted` |
| FormFields | `semantics/objects/fields.cpp`, `interactive_forms.cpp` (GetFields), `digital_signature.cpp`, `catalog.cpp` (AcroForm), `c_fields.cpp`, `c_digital_signature.cpp` |
| PageFonts | `semantics/objects/page_object.cpp` (GetResources, SetResources, GetInheritableResources), `resource_dictionary.cpp`, `font.cpp`, `page_tree_node.cpp` (constructor), `developer_extensions.cpp`, `catalog.cpp` (Extensions), `c_page_object.cpp` (GetParent), `c_font.cpp`, `c_font_map.cpp`, `c_developer_extensions.cpp` |
| License | `utils/license_info.cpp` (without reading JSON, OpenSSL and the C library's times), `c_license_info.cpp` |
| Images | `syntax/filters/dct_decode_filter.cpp` and `jpx_decode_filter.cpp` around the decoders (libjpeg and OpenJPEG are not modelled), `image_metadata_object_attribute.h` |
| Attributes | `object_attribute_list.cpp`, the attributes beside it, `c_object_attribute_list.cpp`; attributes in `object.cpp`, `stream_object.cpp` (GetBody, Clone) and `dct_decode_filter.cpp` (Encode) |
| Recipients | `file.cpp` (SetEncryptionKey), `encryption.cpp` (GetRecipientKey, DecryptEnvelopedData), `pkcs12_key.cpp` (Decrypt, ContainsPrivateKey), `c_encryption.cpp` |
| Watermark | `file_writer.cpp` (ApplyWatermark, ApplyWatermarkPageNode, ApplyWatermarkPrependSave, ApplyWatermarkContentStream) |
| Hybrid | `file_writer.cpp` (CloneHybridStreams, MergeXrefs with hybrid streams, RecalculateXrefSize, FindPreviousXref, WriteXrefObjects and WriteXref as far as they choose objects) |
| Observers | `file_writer.h`, `observable_interface.h`, `c_file_writer_observer.cpp`, `file_writer.cpp` (the notifications of Write, WriteIncremental, WriteEntry, WriteObject and WriteXref); callbacks do not change objects or the output, and an insertion into the set of observers during a notification always counts as invalidating the loop |
| NewDocument | documents made from nothing: document.cpp CreateFile and the calls it makes, pages made and put into the tree, saving and opening the result |
| SecureSave | file_writer.cpp Write and WriteIncremental for encrypted documents (34-155, 445-501, 786-988, 1107-1190); all objects of a save get the same random bytes, object streams and optimisations are left out |
| SecureCopy | copies of objects between documents that may be encrypted: references, strings, streams, the new entries |
| SignForm | what `Document::Sign` changes in the document: signature dictionary, field, annotations, form, flags (document.cpp 661-813, interactive_forms.cpp 34-58) |
| OptimizedSave | FileWriter::Write with all optimisations (C119): file_writer.cpp:34-86, from Optimize and Writer; with a licence, without observers, hybrid sections and encryption |
| StreamObject | stream objects and buffers in memory (C120): stream_object.cpp, c_stream_object.cpp, c_buffer.cpp; without encryption, attributes, other entries of the dictionary, threads |
| UnlistedStreams | how the sections of a file become the chain (C121), with hybrid streams and cross-reference streams that do not list themselves: file.cpp 698-758, parser.cpp 573-731, xref_chain.cpp; without the texts of the sections (XrefTable, XrefStream) and objects whose numbers differ from their entries |
| Interface | functions of the C interface as steps - null checks, casts, blocks inside or outside of try, conversions, releases, results - and what a call of them does (C122): c_helper.h, handle types and their classes; without what the work does |
| InterfaceTable | the 738 functions of src/vanillapdf/implementation/*/c_*.cpp in this form, made from the sources by a script |
| StringObject | `string_object.cpp` (CreateFromEncoded, CreateFromDecoded, GetValue, SetValue, Clone, ToPdfStreamInternal, without encryption), `c_string_object.cpp`, `c_buffer.cpp` (Create, GetData, SetData) |
| Logging | `c_logging.cpp` (without `Logging_SetPattern` and the contents and rotation of files) over the registry of spdlog |
| LoggingThreads | the steps of a message in spdlog (default logger, level, mutex of the sink of `c_logging.cpp`) under any interleaving of threads |
| SigningKeys | `pkcs12_key.cpp` (Load, SignInitialize, SignUpdate, SignFinal, SignCleanup), `c_signing_key.cpp`, `c_pkcs12_key.cpp`, the calls in `document_signer.cpp` |

## What is not modelled

* The C interface (`implementation/`): null checks, casts and exceptions of all functions are in Interface; what a function passes on to the library is modelled only for the functions the rows above name. Log files and patterns, resources of the library, Windows specifics.
* Cryptographic primitives, zlib, libjpeg, openjpeg, the making of a signature from the signed bytes (parameters of the model), signature verification, reading JSON in licences.
* I/O errors, memory exhaustion, stack exhaustion by deep recursion (except where a row names it), data races on anything but reference counters and the loading of objects.
* Attributes of objects and metadata of images other than those of Attributes and Images.
* Semantic objects that no row above names, in particular the entries of annotations, form fields, fonts and viewer preferences that have no getter in the rows.
* The reverse stream (`input_reverse_stream.cpp`, its use is disabled in file.cpp 761-768) is modelled as reversed text only; the ranged stream buffer, which nothing includes, is not modelled. Dead code: `lexical_tree`, `stack_allocator`, `time_utils`, `log.cpp`.

`FINDINGS.md` lists the theorems that refute a property for the code as it is.
