# Formal model of libMVRgdtf in Lean 4

## Method

The model is a set of total, computable Lean functions that follow the C++ functions of `/repo/src`
one by one.  Every definition cites the file and lines it models and says where it simplifies.
Properties are theorems about these functions.  For every area there are up to three kinds of modules:

* `Verif/<Area>/Model.lean`  – the code, transliterated;
* `Verif/<Area>/Spec.lean`   – the independent specification (only when the property needs one);
* `Verif/<Area>/Lemmas.lean` – helper lemmas;
* `Verif/<Area>/Props.lean`  – the property theorems, each followed by an `example` showing that a
  concrete non-trivial case meets its hypotheses.

Conventions

* C++ undefined behaviour (out of bounds read/write, null dereference) is a distinct outcome of the model, not a default.
* Fixed width integers are `BitVec n`/`UInt n` or naturals with the wrap-around written out.
* Where the code violates a property, the *negation* is proved with a concrete witness
  (theorem name ends in `_violated`), the part that does hold is proved with the suffix `_partial`,
  and the property is listed in "Findings" below.
* Loops that may not terminate are modelled with a step relation or with fuel and a theorem about all fuels.

## Trusted base

* Lean 4.33.0 kernel.  Axioms: at most `propext`, `Classical.choice`, `Quot.sound` (standard Lean axioms).
  No `sorry`, no own axioms, no `native_decide`/`bv_decide`.
* The correspondence model ↔ C++ is by reading; line references are in the comments.
* Mathlib is used for ordered fields, matrices, floor/log and the real functions of `Color/`, `Mtx/`, `Real/`.

### Modelled

| area (`lean/Verif/…`) | code in `/repo/src` |
|---|---|
| `Sha` | `sha256.cpp` |
| `Uuid`, `Text`, `Dmx`, `Enum`, `Real` | `Wrapper/UUID.cpp`, the converters of `XmlFileHelper.cpp` (UUID, hex, DMX value and address, lists, dates, doubles, matrices, enum tables) |
| `Unicode`, `Str` | `Unicode` helpers and `TXString` of `GSString.cpp`, `TXStringSTLSup` |
| `Mtx`, `Color` | `TransformMatrix`/`VWPoint3D` code, `CRGBColor`, CIE conversion |
| `Xchg` | `MVRxchange`: packet header and buffers, message structs, JSON message layout and the text of JSON (nlohmann `dump` and `parse`), station list, service state machine, mDNS TXT record text |
| `Zip` | `ZipUtil`/`ZIPFileImpl`: add, replace, list, read of archive entries (the codec is an arbitrary lossless function) |
| `Name`, `Lookup`, `Chan`, `Geo`, `Check`, `Node` | `GDTFManager.cpp`: names and references, look-up maps, channel sets/functions, footprints, duplicate checks, mode masters, the attributes of all 66 kinds of nodes |
| `Path` | `FileIdentifier.cpp`, `FolderIdentifier.cpp`, extraction of archive entries |
| `Scene` | `SceneDataExchange.cpp`: tree of objects, references, multipatch, UUID duplicates, symbol definitions, sibling pointers |
| `Xml` | `rapidxmlsupport`: tinyxml2 parser and printer, `XMLFileImpl`, `XMLFileNodeImpl` |
| `Api` | `Implementation/*.cpp`: the 69 pairs of count and getter, the 263 pairs of setter and getter with the functions of `GDTFManager.cpp` and `SceneDataExchange.cpp` behind them, the names passed to setters and creators; as tables of checks, assignments and reads |
| `Gdtf` | `GDTFManager.cpp`: `GdtfObject::WriteToNode`, `ReadFromNode` and the child objects in `OnPrintToFile`, `OnReadFromNode`, `GetNodeName` of all classes; `XmlFileHelper.cpp`: `TraverseNodes`, `TraverseMultiNodes`. Not: `CheckAbort`, progress feedback, the errors recorded for unknown geometries, effects between siblings (`Chan`). `Gdtf.ValueModel`: the same with the converters of the code and the members that `OnReadFromNode` sets by itself. `Gdtf.FileModel`: the bytes of `description.xml` (`ExportToFile`, the end of `ImportFromZip`, `GetGDTFVersion`), with the string conversions of the Linux build (`GSString.cpp`: `PrepareCharBuffer`, `SetStdUStrFromCharBuffer` by `std::codecvt_utf8_utf16`) |
| `Mvr` | `SceneDataExchange.cpp`: `OnPrintToFile`, `OnReadFromNode` of all classes, i.e. every attribute, text and child node of a scene. Not: `CheckAbort`, the search for referenced objects (`Scene`), the attributes of the root node, the files in the archive (`Zip`, `Path`) |
| `Mdns` | `mdns_cpp/src/mdns.h`: `mdns_string_*`, `mdns_records_parse`, `mdns_query_send`, `mdns_query_recv`, `mdns_query_answer`, `mdns_socket_listen`, `mdns_record_parse_*`; `mdns.cpp`: `query_callback`, `service_callback`, `executeQuery2`; `CMVRxchangeService.cpp`: `mDNS_Client_Task`. Not: sockets, `mdns_discovery_*`, `executeDiscovery`, `mdns_record_parse_txt` |
| `Link` | `GDTFManager.cpp`: `ResolveAllReferences` with all functions it calls (`ResolveGeometryRefs`, `ResolveAttribRefs`, `ResolveDmxModeRefs`, `ResolveMacroRefs`, `ResolveDmxRelationRefs`, `ResolveDmxChannelRefs`, `ResolveDmxLogicalChanRefs`, `ResolveDmxChanelFunctionRefs`, `ResolveDMXModeMasters`, `ResolveDMXPersonalityRefs`, `CreateNoFeatureAttribute`, `AutoGenerateNames`) and the link attributes of all `OnPrintToFile`. Not: pointers to other modes, `CheckAbort`, the cast of pin patches |
| `Master` | `GDTFManager.cpp`: `CheckForMissingModeMasters`. Not: `CheckAbort` |
| `Attr` | `GDTFManager.cpp`: `SetFeature`, `SetActivationGroup`, `AddLinkedAttribute`, `ResolveAttribRefs` as far as these are concerned |
| `Loan` | `mvrxchange_message.cpp`, `mvrxchange_session.cpp`, `CMVRxchangeService.cpp` (`Send_message`) as far as `BufferToFile` and `PathToFile` are concerned: blocks of memory with allocation and release, files with read errors; the rest of the messages as in `Xchg`. Not: reuse of addresses, failing `new`, other memory of the application |
| `Abort` | `SceneDataExchange.cpp` (`ReadFromGeneralSceneDescription`, `ReadChildObjs`, `ProcessLayer`, `CheckAbort`, `SetAbortCallback`) as far as the order of nodes and the questions to the abort callback are concerned. Not: the content of nodes (`Mvr`), the lookup of links (one truth value), the abort callback of GDTF files |
| `Sched` | `CMVRxchangeService.cpp`, `mvrxchange_server.cpp`: three threads (application, server, search), their mutexes, the condition variable, the handler queue, the joins, the timer; the data of the messages as in `Xchg`. Not: several application threads, memory order below the level of actions, the TCP sessions of `mvrxchange_session.cpp` |
| `Disk` | `ZIPFileBuffer.cpp`, `RawOSFileimpl.cpp`, the opening and closing functions of `ZIPFileImpl.cpp` over a model of files: events (create, byte, sync) in the order the operating system sees them; the content of archives as in `Zip`. Not: directories, partial sectors, reordering of written data other than what `PowerLoss` allows (any prefix not older than the last sync) |
| `Pack` | `CMediaRessourceVectorImpl.cpp` and `SceneDataExchange.cpp` as far as the files of a package are concerned: `AddFileToMvrFile`, `AddBufferToMvrFile`, `AddGdtfFolderLocation`, `OpenForWrite`, `Close`, `OpenForRead`, `GetAttachedFileCount(At)`, constructor and destructor, `WriteToFile`, `ReadFromFile`, `AddNeededGdtfFile`; the working folder. The text of the description is an argument. Not: permissions, links, disk errors (see `Disk`) |
| `Pack` (`Gdtf*`) | `CGdtfFixture.cpp` and `GDTFManager.cpp` as far as the files of a GDTF package are concerned: `OpenForWrite`, `AddFileToGdtfFile`, `AddBufferToGdtfFile`, `Close`, `RefreshBuffer`, `ReadFromFile`, `FromBuffer`, `ImportFromZip`, `PrepareWorkingFolder`, `ExportToFile` (the archive), destructor, the map of contents and the lookup of meshes. The text of the description is an argument; what is parsed from it is left out |

### Not modelled

* memory allocation failures, threads, sockets (asio and those of `mdns_cpp`), the file system below
  single named files;
* the Xerces back-end (`XMLLib`); zlib, CRC and DOS time stamps (arbitrary functions); the numbers with a fraction of the
  nlohmann JSON library;
* `std::unordered_map` is an association list; where its order of iteration matters, the comment says so;
* VCOM reference counting; Windows and macOS branches of `#if`;
* floating point rounding, except in `Real/`, `Dmx/` and `Text/`, where an arbitrary rounding with a bounded relative error
  stands for it;
* the nodes of `PhysicalDescriptions` in `Node/`; symbol definitions, mapping definitions and user data inside the
  scene of `Scene/` are modelled only as far as C56 needs them.

## Plan per property

| id | model | proof |
|----|-------|-------|
| C01 | `SHA256` object as state (hash words, byte count, partial buffer); `processBlock` unrolled as in the code | refinement to a FIPS 180-4 specification (padding of the whole message, 64 rounds in a loop) |
| C02 | same state machine | invariant: state = fold of the block function over the full blocks + remainder |
| C03–C05 | archive as byte list; `AddFile` produces the rewritten bytes, readers walk the bytes with positions as the code does | refinement to a list of (name, data) entries, induction over `AddFile` sequences |
| C06–C08 | same; uninitialised struct as distinct outcome | positive part by proof, violated part by witness |
| C09, C10 | 16 bytes ↔ text functions, `FromString` with its position checks | round trip by nibble lemma; violation witnesses |
| C11, C12 | text functions; scaling over ℚ with an arbitrary rounding function of relative error 2⁻⁵³ | round trip via decimal printing lemma; error analysis |
| C13–C17, C46 | text functions on character lists | round trips by induction on digits / lists |
| C18 | every enum table | whole-table `decide` lifted by a lemma |
| C19, C47 | six-decimal printing, `atof` with rounding, text layout of lists and matrices | error analysis, list manipulation |
| C20 | header bytes | BitVec byte lemma |
| C21 | allocation size/used size/write extent as state | invariant; violation witnesses |
| C22, C23, C45 | service state machine | invariant by induction over histories; violation witnesses |
| C24 | deletion loop with index | = `filter` |
| C25, C26, C27 | lists of (start, end) sets | invariants by induction over the list |
| C28, C29 | geometry tree with channels | refinement of the stack traversal to the set of addresses |
| C30, C31, C34 | map with first-wins insertion vs scan | equality of lookup functions |
| C32, C33 | error lists | exactness |
| C35 | matrices over an arbitrary ordered field | refinement to Mathlib's homogeneous 4x4 matrices |
| C36–C39 | code unit lists | induction, termination by measure or non-termination for all fuels |
| C40, C48 | colour struct; CIE conversion over the reals | direct; violation witnesses |
| C41 | reference text and lookup | string splitting lemma |
| C42–C44, C54–C56 | scene tree, XML tree, sibling pointers, symbol map (`Scene/`) | structural induction over nested trees; invariants over call histories; violation witnesses |
| C57–C59 | tinyxml2 parser and printer, `XMLFileImpl` (`Xml/`) | grammar of the accepted texts; parser by fuel with totality; print/parse induction over nested trees; prefix argument for cut-off files; composition with `Scene/` |
| C60 | the checks of every pair of count and getter (`Api/Model`) | generic lemma over the rows; histories of additions by induction |
| C61, C62 | every setter as a list of assignments, every getter as checks and reads (`Api/Fields`) | last-assignment lemma; independence of the members of two rows, table checked by the kernel; C24 for the names |
| C63, C64 | the child nodes of the 76 classes as data (`Gdtf/Table`), writing and reading of trees of objects over it (`Gdtf/Model`) | induction over trees with allowed contents; disjoint names of the members checked by the kernel; C53 for the values; relation of added nodes by induction |
| C65 | the fields and child nodes of the 55 classes of an MVR scene as data (`Mvr/Table`), writing and reading over it (`Mvr/Model`); the members and their types from the header as the specification (`Mvr/Spec`) | induction over trees; each converter has a round trip (C46, C47, C09 and the enum tables); `Xml.read_tree` for the bytes; the table covers every kind of object of the specification (`Mvr/Kinds`) |
| C66 | the functions of `mdns.h` on packets and the callbacks of `mdns.cpp` (`Mdns/Model`); names, records, questions of RFC 1035 as a separate specification (`Mdns/Spec`) | induction over names (following references) and records; counterexample packets as closed byte sequences with any bytes behind them |
| C67 | the question, the answer, collecting records (`Mdns/Collect`), the search (`Mdns/Search`) with `Xchg` | the answer is a well-formed packet (`Mdns/Answer`), so C66 reads it; collecting by source address (`Mdns/Found`); C45 and C50 for the rest |
| C68 | all links of a fixture, writing and resolving (`Link/Model`); spec: unique names and links into the fixture (`Link/Spec`) | lookups by C30, C31 and C41; a loop with state gives back the pointers level by level (`Link/Back`) |
| C69 | the parsing errors of the same functions | the errors of a loop are those of its steps (`thread_errs`), per level; the texts by `scan` |
| C70 | undefined behaviour is the result `none` of `write` and `resolve` | names of channels exist if the attributes do, so every lookup succeeds (`Link/Total`) |
| C71 | a step machine: each thread has a list of actions (lock, unlock, wait, notify, join, …), a schedule is a list of labels (`Sched/Model`); spec: polite schedules, rest, missed notification (`Sched/Spec`) | invariant over all schedules: who may do what, lock discipline (`Sched/Lemmas`); a rank falls with every quiet step (`Sched/Progress`) |
| C72 | the timer as a machine over histories (`Sched/Timer`) | number of handlers is the number of joins; invariant for one chain; violation for two |
| C73 | what each action reads and changes (`Sched/Spec`) | two holders of one mutex contradict the invariant of C71 |
| C74 | the events of saving (`Disk/Model.save`), cut at any point (`killed`, `PowerLoss` in `Disk/Spec`) | events of a save up to any point give a prefix; cut archives with the search for the end record of `Zip` |
| C75 | one archive object with arbitrary calls and other programs (`Disk/Model.step`, `run`) | invariants over histories: which files the object knows of; read-only objects |
| C76 | the threads of C71, schedules around a call that connects or leaves | invariant from the call on (what is left to do, what runs); the effect of the remaining actions folded over the state |
| C77 | the MVR object as a package (lists of files, buffers, folders; `Close`, `OpenForRead`) over the archive of `Zip`, the paths of `Path` and a disk with files and folders | the calls folded to lists, the entries of the archive by C03/C04, induction over the reading loop; names as UTF-8 with a proved decoder |
| C78 | `Pack`: the object of a GDTF file with its archive, fixture and working folder; writing, then reading by any object on any later disk; a specification of the list of resources with their places | induction over the calls and the entries, on top of C03, C04, C51 |
| C79 | `Pack`: reading, then `RefreshBuffer`, then reading again | for every order of the map; the list that is left is specified by `keep` |
| C80 | `Gdtf.Value*`: the converters of the code put into the tables of `Node` and the trees of `Gdtf`; the resolution of the channel around an object; what `OnReadFromNode` does besides its statements | converters one by one (C14-C17, C09, C45 …), then the statements of a class with the conditions as they are while reading, then the tree (C63) with the resolutions, which come back because the offsets do |
| C81 | `Gdtf.File*`: the elements of `Gdtf` as the XML of `Xml` and the bytes of `description.xml` (UTF-16 to UTF-8 and back as on Linux), the root with its version, what `ImportFromZip` does with the bytes, `GetGDTFVersion`, the status of reading | texts and names are shown to be such that C57 applies, with the number of levels between the number of nested objects and twice this number; then C80 for the values, C58 for descriptions that have been cut off, C78 for the way through the package |
| C82 | `Xchg.JsonText`, `JsonMessage`: writing (`dump`, the UTF-8 automaton of `dump_escaped`) and reading (`parse`: lexer with comments, BOM and escapes, the parser's loop with its stack) of nlohmann::json 3.9.1, for values without fractions; the bodies of packets | `JsonSpec` is the grammar of RFC 8259, with white space as a parameter (`Space`, or `Blank` with comments); reading: induction over derivations of the grammar; nothing else is read (`JsonStrict`): from the tokens back to a derivation, by induction on the length of the text; writing: the text is derivable; the order of the members does not matter to the reader of messages; with C49 |
| C83 | `Xchg.Session`: `MVRxchangeSession::DoRead`/`Deliver`, `MVRxchangeClient` and `Send_message` over a connection given as a list of events (pieces of bytes, failure) | reading in pieces equals reading the bytes that arrived (`readInto_eq`, induction on the events), so a session is `receive` of C20 on these bytes; composed with C20 (packet) and C82 (text); `Heard` says what the sender must hear; induction on the list of stations |
| C84 | The writer of `Gdtf.ValueModel` (all classes, all converters) against `Gdtf.FormatSpec`: the nodes, nesting, attributes, notations and words of the GDTF standard, with a relation between a value and its text that uses no function of the model's writers. An empty list of offsets (virtual channel) is the empty text here, as the library writes it; the standard has the word "None" for it. | Induction over the tree: the written nodes are the objects one by one; the tables agree (kernel evaluation of the whole table); each converter writes a text of its notation with the value (induction over digits, bytes, rows). |
| C85 | The constructors of all GDTF classes (`Gdtf.CtorModel`: the value of every member, or that it has none), with the memory before as a parameter, put in front of `OnReadFromNode` of `Gdtf.ValueModel`; the defaults of the standard are a table of their own (`Gdtf.AbsentSpec`). | Each converter leaves the member or gives its own default without a text (case analysis for any memory and any other attributes); the finite tables of constructors, defaults and reads agree (`decide +kernel` over the whole tables, lifted by lemmas); for documents by induction on the depth, with the open members blanked on both sides. |
| C86 | `WriteXml` and `ReadFromGeneralSceneDescription` as bytes (`Mvr.SceneModel`): the root node with version and provider around the objects of `Mvr.Model`, the lists of the reading object, which are extended and never cleared, conversion of texts, `GetMVRVersion`; the package is that of `Pack.Model` | composition of C65 (values), C57/C58 (XML text), C81 (UTF-8 and bytes) and C77 (package): induction over the objects for the texts, the root attributes do not matter for the lists; violations: provider, deep scenes, damaged descriptions, second file, other root nodes |
| C87 | Reading a scene (`Mvr.Model`, `Mvr.SceneModel`) from documents of other programs; `Mvr.ForeignSpec`: the known nodes and attributes as lists, and the relation `Alike` between documents that differ only in unknown nodes and attributes, anywhere in them, and in the order of known ones. Nodes of `Layers` and `ChildList` without a UUID are skipped. | Induction on `Alike` with the invariant that every member finds the same objects in both documents; that the lists cover the table of classes by `decide +kernel` over the whole table; then C86. |
| C88 | The same reader; `Mvr.AbsentSpec`: for every attribute, every node and every list the value without it. | The converters on an empty text by cases, constructors and tables by `decide +kernel` over the whole tables, lifted by lemmas to any node in which the part is missing. |
| C89 | The writer of `Mvr.Model` and `Mvr.Table` (all classes, all converters) against `Mvr.FormatSpec`: node names, attributes, notations, words and places of the MVR standard, with relations between a value and its text that use no function of the model's writers, and a relation between a tree of objects and a node. | Induction over the tree; the tables agree (kernel evaluation of the whole tables, lifted by lemmas); each converter writes a text of its notation with the value. |
| C90 | Reading (`Mvr.Model`, `Mvr.Table`) and saving (`Mvr.SaveModel.save`: writing, where using the null pointer to the source of a mapping definition is an outcome of its own), against `Mvr.SaveSpec` (`Sane`: every node of the document has numbers of at most nine characters, unsigned where the member is, and the few nodes without which a member keeps undefined memory) | Every converter yields a value of the type of the member for every text (`dec_holds`), every class of the table gives a tree of the specification of C65 by induction on the depth of the document (`read_build`), trees of the specification do not use the null pointer (`build_saved`), then C65. The crash is proved for every document with a mapping definition without a source |
| C91 | Reading (`Mvr.Model`, `Mvr.Table`, all converters) against `Mvr.SpellSpec`: what a text in the notation of the standard means in any spelling (signs, spaces, any number of digits, upper and lower case), from which place of a node each value comes (`entries` of C89), and which nodes make up each member. Numbers may have an exponent; the range of a `double` (overflow, subnormal numbers), hexadecimal numbers, `inf` and `nan` are not in the model of `atof` | Each converter is shown to read every text with the meaning (`dec_means`, by the structure of the text), the tables agree by kernel evaluation of the whole tables, lifted by lemmas; lists are equal to a filter of the nodes for every document |
| C92 | Reading of GDTF descriptions (`Gdtf.Model`, `Gdtf.ValueModel`, `Node.Table`, all converters) against `Gdtf.SpellSpec`: what a text in the notation of the standard means in any spelling, which attributes there are (`forms` of C84), and where the nodes of each name are (`nesting` of C84). Numbers may have an exponent; the range of a `double` (overflow, subnormal numbers), hexadecimal numbers, `inf` and `nan` are not in the model of `atof` | Each converter is shown to read every text with the meaning (`means_read`, by the structure of the text; channel values by C12), the tables agree by kernel evaluation of the whole tables, lifted by lemmas; lists are equal to a filter of the nodes for every description |
| C93 | Reading (as in C92, with the constructors of `Gdtf.CtorModel` and the member objects of `Gdtf.SaveModel`), resolving the references in any way (`Resolved` of `Gdtf.SaveSpec`: only the resolved members change), writing, reading. Which texts are allowed is `Sane` of `Gdtf.SaveSpec`: nearly all, with limits for 34 attributes of integers, channel values and addresses | An invariant of everything that is read (`Well`, `Fine`): every member has a value of its type that has a text, proved converter by converter for every text (`dec_good`), by induction over the nodes for the tree (`reading_well`); then C63 and C80 apply. The limits are shown to be needed by `C93_gap_violated`, `C93_negative_violated` |
| C94 | Writing, reading and writing again (`Mvr.Model`, `Mvr.Table`), for the tree and, with the XML of C66, for the bytes. Which scenes this is for is `Steady` of `Mvr.StableSpec`: numbers up to 2^32, no group that is left out, no matrix that is the identity in all six decimals but not exactly | Numbers: `C47_stable` and its analogue for every value (`enc_again`, by cases of the value); the members that are left out the second time are those of the first time (`slots_again`), by induction over the depth of the object. Both limits are shown to be needed by `C94_matrix_violated` and `C90_again_violated` |
| C95 | Writing, reading, resolving and writing again (`Gdtf.ValueModel`, `Gdtf.Table`, `Node.Table`), for the tree of nodes with all attributes and for the bytes of the file. Which descriptions this is for is `Steady` of `Gdtf.StableSpec`: numbers up to 2^32, no duration of a wheel slot that is shown as zero but is not, no slash in the name of the fixture type; that references are resolved to what they named is `LinksKept`. Measurements of filters and of emitters are two rows of the tables (`GdtfMeasurement(true)` is that of a filter, GDTFManager.cpp:13058-13065, 13144-13145) | `text_again`: the text of a value that was read from the text of a value is that text, by cases of the converter, with the rounding of `C47_stable`; the guards of attributes (`table_conds`) give the same answer (`object_again`, `duration_again`); lifted to all objects by induction over the tree (`shape_write`), and with C81 to the bytes (`C95_file_partial`). That references can be resolved so is `C95_resolved`. The limit on durations is needed: `C95_duration_violated` |
| C96 | `CheckForMissingModeMasters` (GDTFManager.cpp:9297-9372) as `Master.check`: the loops over modes, channels, logical channels and pairs of functions with the `break` after the first conflicting range; the ranges of functions without mode masters are those of `Chan.fnRanges` (C27). When two functions can be active at the same time is `Clash` of `Master.Spec`: a value of the channel and values of all mode masters for which both are. Not modelled: the callback that aborts reading | No false alarms: by induction over the list of functions, with a common value of two overlapping ranges as witness; completeness for functions without mode masters (`C96_free`), and by the starts (`C96_increasing`, the last function ends at the end of the channel); with mode masters only for the first function with an overlapping range (`C96_first_partial`), the others are `C96_later_violated`, `C96_hidden_violated` |
| C97 | `SetFeature`, `SetActivationGroup` (GDTFManager.cpp:754-761, 595-602) as one transition `Attr.set` on the pointers of the attributes and the lists of their targets; `ResolveAttribRefs` as a sequence of these; count and index of the API. That the lists are right is `Right` of `Attr.Spec`, in terms of count and index | Invariant: setting an attribute without a target keeps the lists right (`set_right`), by induction over the history (`run_right`); reading is such a history (`resolve_run`). For attributes with a target the negation is proved |
| C98 | memory as blocks that are allocated and released (`Loan.Heap`); `FromExternalMessage`, `ToExternalMessage`, the session that answers and `Send_message` on it; the application is an arbitrary function, `Careful` in `Loan/Spec` says what it has to keep to | cases of one packet, induction over packets and answers; composed with C82 for a whole request; violations for every other kind of application |
| C99 | the loops of the reader with the places where the callback is asked; the callback is an arbitrary sequence of answers; the static variable with the registered callback (`Abort`) | one invariant of a run (`Run`, `Flat`), closed under one question, one object and composition, by mutual induction over the tree; violations by a callback that says yes once, and by histories of registrations |
| C100 | `GetFootPrintForBreak` with its questions to the abort callback (`Geo.AskModel`), beside the model without them (C28) | the two functions agree unless a question is answered yes (one invariant through the loops); violation for a callback that says yes from some question on |
| C49, C50 | message structs with fixed-size text fields, JSON as a tree; TXT record text | round trips; bounds; violation witnesses |
| C51 | folder and file identifiers as lists of parts; extraction of archive entries | part lists; violation witnesses (path traversal) |
| C52, C53 | `OnPrintToFile`/`OnReadFromNode`/`OnErrorCheck` of every class as data, executed by small functions | generic lemmas over the data, table checked by the kernel |

## Findings

Places where the code does not do what the property says. "proved" = there is a theorem with the suffix `_violated`
(see MANIFEST.json for the names); the others were seen while reading and are not claims.

| # | place | what happens | property |
|---|---|---|---|
| 1 | MVRxchange `MVR_LEAVE` | stations are never removed | C22, proved |
| 2 | MVRxchange `DecodeHeader`, `GrowTo` | length overflow above 31457253 bytes; 2^64-1 wraps; size accounting | C21, proved |
| 3 | MVRxchange messages | `strcpy` into 1024-byte fields; undefined type throws on send; missing JSON keys; empty file refused | C49, proved |
| 4 | MVRxchange TXT record | item without `=`, empty text, length above 255, name containing `StationName=` | C50, proved |
| 5 | MVRxchange join | duplicates, other groups accepted, moved port is a second station; message sent once per address | C22, C23, proved |
| 6 | `GetLocalServiceAt` | index equal to the size is accepted | C45, proved |
| 7 | `ConvertUUID` | malformed texts give the zero UUID without an error; several of them are duplicates of each other | C10, C44, proved |
| 8 | `ConvertDMXValue`, `ConvertDMXAdress`, `ConvertHexValue` | byte specifier 0 or garbage; truncation; wrap-around | C12, C13, C17, proved |
| 9 | text lists, dates | an empty first field stops the splitting; empty parts of a date are accepted; braces around nothing read as [0]; unsigned values above 2^31-1 | C16, C46, proved |
| 10 | enum converters | unknown texts of newer enums leave the old value without an error | C18 |
| 11 | `TXString::Split`, `Replace` | do not end for an empty pattern | C38, C39, proved |
| 12 | doubles | written with six decimals; list of one real is an error | C47, proved |
| 13 | footprint and breaks | virtual channels, high addresses, nested references, order of breaks; circular references never end; overlapping channel sets and equal starts | C26–C29, proved |
| 14 | duplicate geometry/attribute detection | differs above 64 channels, ambiguity of the bar between the names, missing geometry | C34, proved |
| 15 | ZIP archives | empty files, names over 1024 bytes, missing files read from uninitialised data, removal breaks the archive, search by extension finds nothing | C03, C04, C06–C08, proved |
| 16 | `CRGBColor::SetGreen`; CIE conversion | wrong component; RGB→CIE→RGB is no identity | C40, C48, proved |
| 17 | matrices | small matrices are not inverted, `InversePointTransform` only for orthonormal ones, rotation by 0, `IsFlipped` | C35, proved |
| 18 | `WriteXml` | classes are never written; groups and layers never get one; lower-case UUID text not found | C43, proved |
| 19 | scene groups | empty groups are dropped | C42, proved |
| 20 | `CreateFocusPoint` with a known name | object linked twice, iteration does not end | C42, proved |
| 21 | multipatch | forward references are lost | C55, proved |
| 22 | symbols | a dangling reference followed by another object dereferences null | C56, proved |
| 23 | archive extraction | `..` in entry names leaves the folder; GDTF folders are flattened and collide | C51, proved |
| 24 | `GdtfGeometryDisplay` | own attributes are reported as wrong | C52, proved |
| 25 | mode masters | overlap reported only for the first; different masters ignored | C33, proved |
| 26 | DMX offsets with a gap | everything behind the gap is lost | C15 |
| 27 | names | `.` is allowed in names although it separates references; generated names can clash | C41, proved |
| 28 | tinyxml2 back-end | blank texts lost, carriage returns changed, more than 98 levels unreadable, byte order mark written behind the declaration | C57, C59, proved |
| 29 | tinyxml2 back-end | stray end tag ends the document silently; `</a/>` is an element; unknown entities leave stale bytes | C58, proved |
| 30 | `XMLFileNodeImpl` | `GetLastChildNode` returns the first child, `IsEmpty` is inverted; `ReadFile`/`WriteFile` ignore errors; an empty document loses the `>` of its declaration | – |
| 32 | `CustomCommand` texts | `/percent` or `,` inside of values are misread | – |
| 33 | `GetUniverse` | does not end for absolute addresses above 2^64-512 | C14 |
| 34 | `MappingDefinition` without source, `GdtfDMXPersonality` without mode | null dereference on writing | – |
| 35 | `GetSubPhysicalUnitAt`, `GetPointAt` of gamuts, `GetBreakAt`, `GetLaserProtocolAt`, `GetPinPatchAt` of geometries, `GetProtocolAt` and `GetAdressAt` of scene objects | the index that equals the count is accepted | C60, proved |
| 36 | `CGdtfDmxModeImpl::GetBreakAt`, `CSceneObjImpl::GetProtocolAt` | no check of the pointer; the protocol is never delivered | C60, proved |
| 37 | `CGdtfConnectorImpl::SetType`, `CGdtfGeometryImpl::SetModel` | changes the name; changes nothing | C61, proved |
| 38 | `GdtfModel::GetBuffer3DS`, `GetBufferSVG` | the check is the wrong way round: a buffer that is set is reported as not set | C61, proved |
| 39 | colour spaces, DMX offsets, `SubPhysicalUnit`, mode masters, `FixtureIdNumeric` | fixed spaces ignore colours; offsets are taken modulo 65536; setting the type resets the unit; the two mode masters reset each other; the largest number is "not set" | C61, proved |
| 40 | 6 `SetName`, 12 `Create…` | names are not cleaned (in five a copy is cleaned and the original stored) | C62, proved |
| 41 | `SceneDataExchange::ReadFromFile` | always reports success | – |
| 42 | `GdtfFixture::OnReadFromNode` | presets are written (9560-9568) and never read | C63, proved |
| 43 | `SceneDataFixtureObj::OnPrintToFile` (2234-2240) | the rotation of a gobo is written only with a gobo | C65, proved |
| 44 | `SceneDataFixtureObj::OnPrintToFile` (2218) | custom IDs are `size_t` and written as `Sint32`: 2^32 + 5 is written as 5 | C65, proved |
| 45 | `GdtfConverter::ConvertInteger` (420-459) | unsigned members are written in full and read by `atoi`: undefined from 2^31 on | C65, proved |
| 46 | `SceneDataCustomCommand` (1192-1224) | a channel function with a comma (or "/percent") is cut there when read | C65, proved |
| 47 | `mdns_string_extract` (mdns.h:492-527) | a name that refers to itself is read for ever: one packet of 26 bytes blocks every search on the network | C66, proved |
| 48 | `service_callback` (mdns.cpp:336-339) | the name of an SRV question is parsed as record data; a well-formed question blocks a station for ever | C66, proved |
| 49 | `mdns_records_parse` (mdns.h:595-625) | no check against the size: an answer of 23 bytes makes the receiver read outside of its buffer | C66, proved |
| 50 | `mdns_string_make_with_ref` (mdns.h:585-593) | checks the wrong pointer: a group name of 222 to 444 characters makes the station write below address 0 when somebody searches | C67, proved |
| 51 | `mdns_query_answer` (mdns.h:1133) | a TXT record of more than 255 bytes (name of more than 193) is silently left out; the searching stations throw (row of C50). This also means that the endless loop of C50 for names of 244 bytes is reached only with other senders | C67, proved |
| 52 | `executeQuery2` (mdns.cpp:548-567) | records are matched by source address and a prefix of the name: two stations on one computer in one group get the same name and UUID | C67, proved |
| 53 | `query_callback` (mdns.cpp:286) | the data of a TXT record is copied without a check against the received size | seen, modelled (`copy`), no theorem |
| 54 | `ConnectToLocalService` (CMVRxchangeService.cpp:76) | the loopback test uses the address in network order: on little-endian machines it looks for x.x.x.127 | seen, not modelled |
| 55 | `ResolveAttribRefs` (GDTFManager.cpp:8702) | without a feature the main attribute is not resolved: the link is lost when a file is read, and a missing one is not reported | `C68_main_without_feature_violated`, `C69_main_violated` |
| 56 | `GdtfSubPhysicalUnit::GetNodeReference` (GDTFManager.cpp:547) | the reference is only the type of the unit: links to units of different attributes are confused | `C68_units_violated` |
| 57 | `GdtfDmxChannel::GetName` (GDTFManager.cpp:5647) | the name is kept when the geometry changes: the initial function and mode masters are written with the old name and not found | `C68_stale_name_violated` |
| 58 | `getAttributeByRef` (GDTFManager.cpp:8120) | an unknown attribute is silently replaced by `NoFeature` if that was used before; otherwise it is reported | `C69_attribute_violated` |
| 59 | `ResolveDmxChanelFunctionRefs` (GDTFManager.cpp:9187) | unknown wheels, emitters, filters, colour spaces, gamuts, profiles and units become null without a report | `C69_function_violated` |
| 60 | `GdtfMacroDMXValue`, `GdtfMacroVisualValue`, `GdtfDMXPersonality` (GDTFManager.cpp:11814, 12125, 11047) | a null pointer is dereferenced when a fixture is written whose description had an unknown channel, function or mode there | `C70_macro_channel_violated`, `C70_macro_function_violated`, `C70_personality_violated` |
| 61 | `GdtfDmxChannel::GetName` (GDTFManager.cpp:5654) | a null pointer is dereferenced while reading a channel with an initial function whose attribute is unknown | `C70_initial_violated` |
| 62 | `CreateNoFeatureAttribute` (GDTFManager.cpp:8158) in `ResolveAttribRefs` | appends to the array of attributes while a loop runs over it, if a main attribute is `NoFeature` | `C70_main_violated` |
| 63 | `ResolveAttribRefs` (GDTFManager.cpp:8704-8712) | only the inner loop ends when a feature was found, so the last group with a match decides | modelled (`lastFeature`), harmless with unique names |
| 64 | pin patches (GDTFManager.cpp:8620-8624) | the geometry found is cast to a wiring object whatever its type is | seen, not modelled |
| 65 | `QueryLocalServices` (CMVRxchangeService.cpp:155-162) | waits without a predicate and is notified without the mutex: if the search is over first, the call never returns | `C71_lost_violated`, `C71_missed_violated` |
| 66 | the same | after a spurious wake-up it returns early, and the task notifies a condition variable that is gone | `C71_spurious_violated` |
| 67 | `MVRxchangeServer::Stop` (mvrxchange_server.cpp:25-32) | a callback that leaves or joins a service runs on the server thread, which then joins itself: the program ends | `C71_callback_violated` |
| 68 | `mDNS_Client_Tick` (CMVRxchangeService.cpp:443-450) | does not see the error code of the timer; joined twice, two chains cancel each other and search without a pause for ever | `C72_again_violated`, `C72_flood_violated` |
| 69 | `OnMessage` (CMVRxchangeService.cpp:204-206) | changes the callback while a message may be using it (353-356) | `C73_callback_violated` |
| 70 | `CZIPFileBuffer::Close` (ZIPFileBuffer.cpp:70-87, RawOSFileimpl.cpp:41) | the file is emptied and written in place: killed in between, neither the old nor the new archive is left | `C74_atomic_violated` |
| 71 | `CRawOSFileImpl::Close` (RawOSFileimpl.cpp:48-61) | `fsync` (53) before `fclose` (55) has written the buffered rest: after a power loss the saved file can be incomplete | `C74_durable_violated` |
| 72 | `CZIPFileBuffer::Close` (ZIPFileBuffer.cpp:70-87), `CZIPFileImpl::Close` (221-231) | a file that cannot be opened or a full disk is not reported | `C74_errors_violated` |
| 73 | `GetCentralDirPosition`, `ReadLong` (ZIPFileImpl.cpp:1136-1162, 1004-1022) | an archive that lost 3 to 5 of its last bytes is read outside of the buffer | `C74_cut_violated` |
| 74 | `CZIPFileImpl::Close` (221-231), `OpenRead` and others (139-143, 161-165, 177-181, 200-204) | the buffer is kept after closing; the next opening closes it again and rewrites the file with its old content, over changes of others | `C75_reopen_violated` |
| 75 | `CZIPFileBuffer::Close` (ZIPFileBuffer.cpp:72) | an archive opened anew and closed without files leaves the old file | `C75_empty_violated` |
| 76 | `OpenWrite` (ZIPFileImpl.cpp:175-196) | starts with an empty archive: what the file held is lost | `C75_openWrite_violated` |
| 77 | `OpenRead` (ZIPFileBuffer.cpp:36-52) | opening a file that does not exist succeeds | `C75_missing_violated` |
| 78 | `RemoveFile` (ZIPFileImpl.cpp:755-773) | writes the file of an archive opened for reading | `C75_remove_reading_violated` |
| 79 | `OpenRead` from memory (ZIPFileImpl.cpp:159-173) | keeps the file opened before; `RemoveFile` then writes the archive from memory over it | `C75_memory_violated` |
| 80 | MVR `Close`: several files or buffers with one name (SceneDataExchange.cpp:3473-3575, XmlFileHelper.cpp:2254) | only the first is in the package; every call reports success | `C77_same_name_violated` |
| 81 | MVR `Close`: a GDTF file of the scene that is in no folder, or a file that is gone (SceneDataExchange.cpp:3558-3575) | left out, with success | `C77_missing_gdtf_violated`, `C77_vanished_violated` |
| 82 | `AddNeededGdtfFile` (SceneDataExchange.cpp:3692-3706) | compares without case: of two GDTF files that differ in case only one is packed | `C77_case_violated` |
| 83 | MVR `Close` a second time (SceneDataExchange.cpp:3554) | the object is still open for writing, but its buffers are gone: the package is replaced by one without them | `C77_close_twice_violated` |
| 84 | MVR `OpenForRead` of a file that does not exist (SceneDataExchange.cpp:3714-3788) | success, an empty scene | `C77_missing_file_violated` |
| 85 | MVR working folder (SceneDataExchange.cpp:2856-2897) | shared by all objects: reading replaces the files of the others that have the same name, and destroying an object deletes them; it is not emptied for a new object, because `EnumerateContents` (FolderIdentifier.cpp:735-763) never calls its listener and `remove` deletes only empty folders | `C77_shared_folder_violated`, `C77_destroyed_violated`, `C77_not_empty_violated` |
| 86 | MVR `OpenForRead` a second time (SceneDataExchange.cpp:3744-3768) | the files of the first package are still listed | `C77_read_twice_violated` |
| 87 | MVR `OpenForRead`: entries in sub-folders (SceneDataExchange.cpp:3758-3766) | listed, but never written: the folder is not made | `C77_sub_folder_violated` |
| 88 | `AddBufferToGdtfFile`, `AddFileToGdtfFile` twice with one name (CGdtfFixture.cpp:158, 177) | the first content stays, both calls report success: the result of `AddFile` is ignored | `C78_same_path_violated` |
| 89 | a fixture resource named `description.xml` (CGdtfFixture.cpp:155-158; GDTFManager.cpp:9901) | takes the place of the description; `Close` reports success | `C78_description_violated` |
| 90 | GDTF `OpenForWrite` (CGdtfFixture.cpp:68-70) | deletes an existing file at once; it is lost when the program ends before `Close` | `C78_open_deletes_violated` |
| 91 | GDTF `AddBuffer…`, `AddFile…`, `Close` after `Close` (CGdtfFixture.cpp:133-197) | report success; resources and a changed description are lost | `C78_closed_violated` |
| 92 | GDTF working folder (GDTFManager.cpp:7837-7865, 9385-9409) | one folder for all objects: reading a fixture replaces files with the same name that others list, destroying one deletes them; the folder is not emptied (as in 85) | `C78_shared_folder_violated`, `C78_destroyed_violated`, `C78_not_empty_violated` |
| 93 | `RefreshBuffer`, `Close` after reading (GDTFManager.cpp:9906-9933) | images and everything that does not end as a mesh are lost | `C79_image_violated` |
| 94 | the map of contents has no folders (GDTFManager.cpp:7906-7916, 9910-9923) | of meshes with one name in several resolutions the last one is used for the model, and after writing again it takes the place of the main one | `C79_low_violated`, `C78_round_trip_partial` (`mesh`) |
| 95 | `RefreshBuffer` (CGdtfFixture.cpp:2489-2492) | resources given as files are not in the bytes | `C79_file_violated` |
| 96 | `AddBuffer…`, `AddFile…` on a fixture that has been read (CGdtfFixture.cpp:136, 167) | always fail: there is no archive; `OpenForWrite` discards the fixture | `C79_add_violated` |
| 97 | `GdtfFixture::OnReadFromNode` (GDTFManager.cpp:9582) | replaces every slash in the name of the fixture by an underscore: the name that was written is not the one that is read | `C80_name_violated` |
| 98 | `GdtfFixture::ImportFromZip` (GDTFManager.cpp:7951, 7972) | `fReaded` is set as soon as there is a description; when it cannot be parsed, reading is reported to have succeeded and the fixture is empty. This is so for every description that has been cut off | `C81_truncated_violated`, `C81_unparsable_violated` |
| 99 | `GdtfFixture::ExportToFile` (GDTFManager.cpp:9858-9882), tinyxml2 | a fixture with more than 98 objects inside of each other is written, and then read as empty, with success (see 98) | `C81_deep_violated` |
| 100 | `CGdtfFixtureImpl::GetGDTFVersion` (CGdtfFixture.cpp:232) | fails for every version whose second number is zero, as 1.0 or 2.0 | `C81_version_zero_violated` |
| 101 | `SetStdUStrFromCharBuffer`, `PrepareCharBuffer` on Linux (GSString.cpp:2410-2416, 2527-2529) | text that is not UTF-8 in a description ends the reading with an exception that nothing catches; a surrogate without its partner in a name does so when writing | `C81_not_utf8_violated`, `C81_not_utf16_violated` |
| 102 | `dump` (json.h:15939, 16033) from mvrxchange_message.cpp:306 | a message with a text that is not UTF-8 (a Latin-1 name) cannot be sent: an exception leaves `Send_message`, or, for an answer, ends the thread of the service | `C82_message_violated` |
| 103 | `MVRxchangeSession::DoRead` (mvrxchange_session.cpp:49-50) with CMVRxchangeService.cpp:351-358 | a service whose application has set no callback answers with the undefined message, which cannot be written: the exception leaves the thread of the service and ends the program with the first message it gets | `C83_no_callback_violated` |
| 104 | mvrxchange_session.cpp:43-44 (also mvrxchange_client.cpp:65-66) | `remote_endpoint()` throws when the peer has reset the connection: a peer that sends a message and resets ends the program | `C83_reset_violated` |
| 105 | mvrxchange_session.cpp:40 with mvrxchange_message.cpp:463 | a message whose `Type` is not a text (`{"Type":5}`) ends the program of the station it is sent to | `C83_type_violated` |
| 106 | `MVRxchangeClient::ReadMessage` (mvrxchange_client.cpp:49) | the result of `DecodeHeader` is not looked at: an answer that is not a packet (28 bytes of a web server) is success, and the application hears a refusal | `C83_answer_magic_violated` |
| 107 | `MVRxchangeClient::Connect` (mvrxchange_client.cpp:123) | `resolve` throws for an address that cannot be resolved: `Send_message` throws and the answers of the other stations are lost | `C83_resolve_violated` |
| 108 | GDTFManager.cpp:1017-1019, 2941-2945, 3128-3133, 3360-3363, 3836-3840, 3910-3915, 4069-4073, 11262-11264, 11653-11655 | members without an initial value: if the attribute is not in the file (radius of an animation wheel, size of a display, values of a laser, pins, count of an inventory, cross section, capacities and resistances of a support, map, duration of a macro step), the program gets what was in the memory, and writes it | `C85_memory_violated` |
| 109 | `GdtfGeometryLamp::InitializeMembersWithDefaultsVals` (GDTFManager.cpp:4426) | the radius of a beam without `BeamRadius` is 50 (metres), not 0.05 | `C85_beam_radius_violated` |
| 110 | `GdtfDmxChannelFunction` (GDTFManager.cpp:6017-6018) | `Min` and `Max` that are not in the file are 0 and 1, not `PhysicalFrom` and `PhysicalTo` | `C85_limits_violated` |
| 111 | `ReadFromGeneralSceneDescription` (SceneDataExchange.cpp:3818-3822) | `provider` and `providerVersion` of the root node are written (3612-3613) and never read | `C86_provider_violated` |
| 112 | `ReadFromFile` (SceneDataExchange.cpp:3780-3787), `ReadFromGeneralSceneDescription` (3808) | a description that is cut off, is not XML or is nested too deeply is ignored, `OpenForRead` reports success; `GetMVRVersion` gives the version of the file read before | `C86_damaged_violated`, `C86_deep_violated` |
| 113 | `ReadFromFile` (SceneDataExchange.cpp:3717) | only the flat list of objects is cleared: an object that opens a second file has the layers, user data, positions, symbol and mapping definitions of both | `C86_second_violated` |
| 114 | `ReadFromGeneralSceneDescription` (SceneDataExchange.cpp:3815-3816) | the name of the root node is never fetched, the check compares an empty text and only in an assertion: any document is read as a scene | `C86_any_root_violated` |
| 115 | loops over children in SceneDataExchange.cpp, e.g. 4070-4077 | names of nodes in lists are compared without regard to case (`FIXTURE` is read as a fixture), names of single nodes with it (`matrix` is not read) | `C87_case_violated` |
| 116 | `SceneDataMappingObj` (SceneDataExchange.cpp:878-888, 1006-1044), `SceneDataProjectorObj` (2693-2696, 2787-2793) | the pixels and the rotation of a mapping and the scaling of a projector have no initial value: if their node is not in the file, the program gets what was in the memory | `C88_memory_violated` |
| 117 | `SceneDataAlignment` (SceneDataExchange.cpp:1239-1245, 1306-1307) | an alignment without `up` or `direction` has vectors of zeros, not 0,0,1 and 0,0,-1 | `C88_alignment_violated` |
| 118 | `SceneDataMappingDefinitionObj::OnPrintToFile` (SceneDataExchange.cpp:814, constructor 726-732, reading 845-854) | a scene that was read from a description with a mapping definition without a source cannot be saved: the null pointer `fSource` is used | `C90_source_violated` |
| 119 | `GdtfConverter::ConvertInteger` for `Uint32` (XmlFileHelper.cpp:420-459), used at SceneDataExchange.cpp:829-843 | a size of -1 is read as 4294967295, which is written but is out of the range of `atoi` when read again | `C90_negative_violated` |
| 120 | `SceneDataGroupObj` (SceneDataExchange.cpp:2493-2501) | a group that contains only empty groups is saved without them, and the next time the scene is saved it is lost itself: nested groups vanish level by level | `C90_again_violated` |
| 121 | `GdtfConverter::ConvertDMXValue` (XmlFileHelper.cpp:742-755) | the standard repeats the bytes of a channel value that has fewer bytes than the channel; the library scales the number, which is the same only if the number of bytes divides that of the channel: "255/2" in a channel with three bytes is 65281, not 65280 | `C92_mirror_violated` |
| 122 | `GdtfConverter::ConvertDmxOffset` (XmlFileHelper.cpp:1437-1447) | the addresses of a channel are written only up to the first gap: of "1,0,3" only 1 is saved, of "0,2" nothing | `C93_gap_violated` |
| 123 | `GdtfConverter::ConvertInteger` for `size_t` (XmlFileHelper.cpp:436-442, 569) | a count of -1 is read as 18446744073709551615, saved as this, and then out of the range of `atoi`, which is undefined | `C93_negative_violated` |
| 124 | `GdtfDmxChannelSet` (GDTFManager.cpp:6847-6851, 6872-6877) | a channel set with only one of `PhysicalFrom` and `PhysicalTo` loses it when the fixture is saved | `C93_physical_violated` |
| 125 | `SceneDataObjWithMatrix::OnPrintToFile` (SceneDataExchange.cpp:1510-1516) | a matrix that differs from the identity by less than the six decimals that are written is saved, read as exactly the identity, and left out of the next file: the same scene is saved as two different texts | `C94_matrix_violated` |
| 126 | `GdtfWheelSlot::OnPrintToFile` (GDTFManager.cpp:1281) | a duration that is not zero but is shown as zero in six decimals is written as `0.000000`, read as zero, and left out of the next file: the same wheel slot is saved as two different texts | `C95_duration_violated` |
| 127 | `GdtfFixture::CheckForMissingModeMasters` (GDTFManager.cpp:9336, 9347) | of two functions with overlapping ranges only the first one is asked for a mode master: if it has one and the other has none, both can be active at the same time and nothing is reported; in the other order it is | `C96_later_violated` |
| 128 | `GdtfFixture::CheckForMissingModeMasters` (GDTFManager.cpp:9364) | the `break` ends the search at the first function with an overlapping range, also if nothing was reported for it: a function with another mode master hides a later one with the same mode master and overlapping ranges | `C96_hidden_violated` |
| 129 | `GdtfAttribute::SetFeature`, `SetActivationGroup` (GDTFManager.cpp:754-761, 595-602) | an attribute that is given another feature or activation group stays in the list of the one it had, and one that is given what it has is listed twice; only an assertion of debug builds (597, 756) notices | `C97_moved_violated`, `C97_again_violated` |
| 130 | `Send_message` (CMVRxchangeService.cpp:275) with `FromExternalMessage` (mvrxchange_message.cpp:283) | a file in a buffer that is sent with `Send_message` is released twice; the callbacks are shown the message with the released buffer | `C98_send_violated` |
| 131 | `MVRxchangeSession::DoRead` (mvrxchange_session.cpp:46-50) | the buffer of an answer is released by the library without the interface saying so: an application that gives the same buffer to two stations, or sends back the one it received, makes the library read released memory | `C98_keep_violated`, `C98_echo_violated` |
| 132 | `FromExternalMessage` (mvrxchange_message.cpp:276-284) | the buffer of an answer that is not "OK", or of another type, is never released | `C98_refusal_violated` |
| 133 | `FromExternalMessage` (mvrxchange_message.cpp:290-296), `CRawOSFileImpl::Read` (RawOSFileimpl.cpp:90-94) | a file that cannot be opened is sent as an empty one, which the other side does not understand; one that can be read in part is sent as if it were complete | `C98_missing_violated`, `C98_short_violated` |
| 134 | `ReadChildObjs` (SceneDataExchange.cpp:4057, 3203, 3233, 3266, 3324, 3356, 3382, 3408, 3434), `CheckAbort` (4190-4193) | the wish to stop is kept in a member that nobody reads; a callback that says yes once loses one object (or the rest of one list) with all that is in it, and the rest of the file is read | `C99_once_violated` |
| 135 | `ReadFromGeneralSceneDescription` (SceneDataExchange.cpp:3853-3900, 3929-4025), `ReadFromFile` (3784-3787) | a stop between layers skips the lookup of links for the objects that were read; the call succeeds, so a document that was given up looks complete | `C99_links_violated`, `C99_told_violated` |
| 136 | `SetAbortCallback` (CMediaRessourceVectorImpl.cpp:1524-1531), `fAbortCallback` (SceneDataExchange.cpp:12) | the callback is static: set on one document it cancels the reading of every other one; an empty callback is refused, so it can never be removed (it may refer to objects that are gone) | `C99_shared_violated`, `C99_remove_violated` |
| 137 | `GetFootPrintForBreak` (GDTFManager.cpp:5300, 5328, 5366, 5393) | asks the abort callback for reading; after a cancelled reading the footprint of every mode of every fixture is 0, and the call reports no error | `C100_cancelled_violated` |
