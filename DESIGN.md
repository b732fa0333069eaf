# Formal model of pyucis: design

Subject: `fvutils/pyucis` as checked out in `/repo` (Python package `src/ucis`).
Tool: Lean 4.33.0 with selected Mathlib modules.  Project: `/verif/lean`.

## 1. What is modelled

The code is modelled function by function; each Lean definition cites the Python file and lines it
mirrors, and states every simplification in its doc comment.  Python exceptions are values
(`Except Err`), Python dictionaries are insertion ordered association lists, unbounded Python
integers are `Int`, type and kind masks are `Nat` with `&&&`.

There are two levels.

* **Value level** (`Verif/Db.lean`): a database is a finite tree of scopes.  The algorithms
  (merge, report, XML, YAML) only read their source through `scopes(mask)`, `coverItems(mask)`
  and getters and only append to their destination, so they are modelled as functions between such
  trees.  A scope carries its type bits, name, source location, weight, the data of its design unit
  (instances), the names of the crossed coverpoints (crosses), children and cover items.
* **Store level** (`Verif/Store*.lean`): objects have identities; the store is a list of
  object records, parent/child/cross/design-unit links are references, API calls are state
  transformers.  Here live the properties about aliasing, call sequences, iterators and frames.
  `Verif/StoreMerge*.lean` models the merge on the store and proves that it refines the value-level merge.

| Module | Python code |
|---|---|
| `Verif/Py.lean` | Python primitives: ordered dict, exceptions |
| `Verif/PyNum.lean` | Python numbers as text: `str(int)`, `int(str)`, `strip`, `round`, `'%.nf'` |
| `Verif/Db.lean` | `scope_type_t`, `cover_type_t`, `cover_data`, `mem_cover_index`, read side of `mem_scope` |
| `Verif/Merge.lean` | `merge/db_merger.py` |
| `Verif/Report.lean` | `report/coverage_report.py`, `report/coverage_report_builder.py` |
| `Verif/Format.lean` | `report/text_coverage_report_formatter.py`, `report/format_rpt_text.py`, `report/format_rpt_json.py` |
| `Verif/DateTime.lean` | `strptime`/`strftime` for the two date forms used by the XML code |
| `Verif/Hist.lean` | `mem/mem_history_node.py` (values), `mem_ucis.py` side tables |
| `Verif/XmlTree.lean` | element trees, `reparse` (what serialising and parsing does to a tree) |
| `Verif/XmlText.lean`, `Verif/XmlLayout.lean` | the text of XML documents: which texts stand for an element (XML 1.0), a parser, `tounicode(root, pretty_print=True)` (`xml_writer.py:86`) |
| `Verif/XmlWrite.lean` | `xml/xml_writer.py` |
| `Verif/XmlRead.lean` | `xml/xml_reader.py` |
| `Verif/Xsd.lean` | the part of XML Schema 1.0 that `ucis.xsd` uses: content models, attributes, simple types |
| `Verif/UcisXsd.lean` | `xml/schema/ucis.xsd`, transcribed |
| `Verif/XsdFile.lean` | the same file as an element tree, a reader of schemas (`ofXml`), and the proof `Xsd.ucisXsd_is_file` that the transcription is what the file says |
| `Verif/XmlFactory.lean` | `xml/xml_factory.py` `read`/`write`, `xml/__init__.py` `validate_ucis_xml` |
| `Verif/YamlDoc.lean` | parsed YAML values, the JSON-schema subset used by `schema/coverage.json`, that schema transcribed, typed documents |
| `Verif/Yaml.lean` | `yaml/yaml_reader.py` |
| `Verif/MergeDb.lean` | `merge/db_merger.py` on databases with history and file tables |
| `Verif/Store.lean` | `mem/*.py`, `scope.py`, `cvg_scope.py`, `covergroup.py`, `instance_scope.py`, `history_node.py` |
| `Verif/StoreMerge.lean` | `merge/db_merger.py` as API calls on the store |
| `Verif/MergeLeft.lean`, `Verif/StoreMergeLeft.lean` | `merge/db_merger.py` once more, with what it leaves when it raises (C84, C122) |
| `Verif/MergeTogether.lean`, `Verif/MergeSeen.lean`, `Verif/MergeHits.lean` | no new code: which databases can be merged (C123), what merging looks at and how many hits it keeps (C124) |
| `Verif/Notice.lean` | `scripts/update_copyright.py` (C125) |
| `Verif/StoreReport.lean` | `report/coverage_report_builder.py` as API calls on the store |
| `Verif/StoreXmlWrite.lean` | `xml/xml_writer.py` as API calls on the store |
| `Verif/StoreXmlRead.lean` | `xml/xml_reader.py` as API calls and attribute assignments on the store |
| `Verif/StoreYamlRead.lean` | `yaml/yaml_reader.py` as API calls on the store |
| `Verif/StoreSession.lean` | no new code: programs of several such calls (C101) |
| `Verif/StoreEdit.lean`, `Verif/StoreBuild.lean` | no new code: what content API calls make (C105, C106) |
| `Verif/SchemaFiles.lean` | `schema/coverage.json` and `schema/covreport.json` as parsed values, validity in JSON Schema draft 4 (`Spec.Conforms`), and the proofs that `validJ` and `fits` decide it (`Yaml.validJ_iff`, `Format.fits_iff`) |
| `Verif/JsonSchema.lean` | the schema of JSON reports and the documents that are written (C109) |
| `Verif/JsonText.lean` | the text of JSON reports: `json.dump(..., indent=4)` (`format_rpt_json.py:56-57`), which texts stand for a value (RFC 8259), a parser; theorems in `Verif/JsonTextThms.lean` (C133) |
| `Verif/TextRead.lean` | what a text report shows, and that its text determines it (C134) |
| `Verif/FileHits.lean` | the sum of all counts in a merged file (C135) |
| `Verif/MergeOrder.lean` | reports on the same files merged in another order (C136) |
| `Verif/LibRead.lean` | options by name, history iterators, locations and file names of native databases (C91, C92, C137) |
| `Verif/StoreIter.lean` | iterations over history records with calls in between (C48) |
| `Verif/SessionJson.lean` | no new code: a merge and a JSON report typed in the shell (C138) |
| `Verif/StoreDefaults.lean` | no new code: options of new objects (C139) |
| `Verif/Authors.lean` | `mem_ucis.py:49-83` (author and time), and the same attributes in `xml_writer.py:66-70`, `xml_reader.py:60-69` (C140) |
| `Verif/BinFlags.lean` | no new code: flags of bins (C141) |
| `Verif/FormatOptions.lean` | no new code: the options of the text reports as the user sets them (C28, C29); added after a mutation that swapped them went unnoticed |
| `Verif/Locations.lean` | no new code: source locations and XML files (C142) |
| `Verif/Weights.lean` | no new code: weights and thresholds and XML files (C143) |
| `Verif/ToldApart.lean` | no new code: which databases give the same XML file (C144) |
| `Verif/ReportNeeds.lean` | no new code: what a report does not depend on (C145) |
| `Verif/CliNumbers.lean` | no new code: words with a dash that are arguments (C116) |
| `Verif/XmlUsed.lean`, `Verif/XmlConv.lean` | what the XML reader uses, and the documented conventions of written XML (C110, C111) |
| `Verif/XmlFigures.lean`, `Verif/MergedDoc.lean` | reports on XML files and merged XML files, computed from the documents (C112, C113) |
| `Verif/Cli.lean`, `Verif/CliThms.lean` | the command line parser and `main` with it (C116) |
| `Verif/UnionCov.lean` | no new code: coverage of a covergroup compared with its instances, in reports on XML and YAML files (C118) |
| `Verif/XsdDates.lean`, `Verif/XsdSpec.lean` | no new code: description of schema validity and of the simple types, and the dates of the reader (C40, C71) |
| `Verif/LibSave.lean`, `Verif/ReportDir.lean`, `Verif/DateForms.lean` | no new code: saving native databases, reports into a directory, which dates are accepted (C126–C128) |
| `Verif/CommandErrors.lean` | no new code: which exception the commands raise (C129) |
| `Verif/YamlMerge.lean` | no new code: which loaded files can be merged (C131) |
| `Verif/HistKinds.lean` | no new code: history records by kind after a trip through XML (C130) |
| `Verif/FirstError.lean`, `Verif/YamlErrors.lean`, `Verif/ValidErrors.lean` | no new code: which exception the XML writer and reader and the YAML loader raise (C121) |
| `Verif/Zone.lean` | calendar and time zones in `setAttrDateTime` (`xml_writer.py:318-320`) (C120) |
| `Verif/MoreFiles.lean`, `Verif/MoreReports.lean` | no new code: two merges of which the second has more files, compared in the reports (C119) |
| `Verif/Session.lean` | no new code: a merge and a report typed in the shell (C117) |
| `Verif/Commands.lean` | no new code: the program run with each of the five commands (C116), a conversion and a report (C117) |
| `Verif/YamlFigures.lean`, `Verif/YamlMerged.lean` | reports on YAML files, and XML files made from YAML files, computed from the documents (C114, C115) |
| `Verif/MergeStages.lean`, `Verif/PipeStages.lean` | merging in stages through XML files (C108), for databases and for the commands |
| `Verif/Proc.lean` | the functions `ucis_*` of `__init__.py:258-452` (C107) |
| `Verif/Tools.lean` | `rgy/format_rgy.py`, `cmd/*.py`, `__main__.py`, `xml_factory._open_file`, `lib/lib_cover_data.py`, `lib/lib_test_data.py` |
| `Verif/Pipeline.lean` | the registered formats: `db_format_if_xml.py`, `db_format_if_yaml.py`, `db_format_if_lib.py`, `xml_ucis.py`, `yaml_ucis.py`, `format_rgy._init_rgy` |
| `Verif/MergeXml*.lean`, `Verif/MergeTypes*.lean`, `Verif/PipeMerge.lean` | no new code: chains of reading, merging, writing and reading (C79–C81) |
| `Verif/YamlXml.lean`, `Verif/MergeSingle.lean`, `Verif/PipeYaml.lean` | no new code: from YAML files to XML files, merges of one database (C102–C104) |
| `Verif/XmlTrip.lean` | reports after writing and reading XML, computed from the database (C34, C36) |
| `Verif/UnitTests.lean` | the repository's own unit tests run on the model (no properties) |
| `Verif/MergedForm.lean` | the form of merged databases, without reference to merging (C06) |
| `Verif/PipeReport.lean` | no new code: the `report` command with the registered formats (C87) |
| `Verif/Lib.lean` | `src/ucis/lib/*`: the binding to a native UCIS library |
| `Verif/LibThms.lean`, `Verif/LibUse.lean` | C88–C96; merging and reporting with native databases |
| `Verif/Binary64.lean`, `Verif/Accuracy.lean`, `Verif/AccuracyXml.lean` | IEEE 754 binary64 rounding and its effect on the figures (C86) |
| `Verif/*Spec.lean` | specifications used in theorem statements, independent of the model's helpers |
| `Verif/*Thms.lean` | the theorems and their non-vacuity examples |

## 2. What is not modelled (trusted base)

* The Lean kernel.  Theorems depend on at most `propext`, `Classical.choice`, `Quot.sound`.
* The reading of the Python source into Lean (definitions in the model modules).
* Floating point: the report model takes a rounding function `rd : Rat -> Rat` that is applied after
  every floating-point operation of the code.  Theorems hold for the class of roundings named in the
  statement (all, monotone with `rd 0 = 0`, or `Spec.Rounding`); those marked "exact arithmetic" are
  for `rd = id`.  `Binary64.lean` defines the rounding of IEEE 754 binary64 (`round64`), and C16–C18, C26, C36, C81 and
  C86 are also proved for it, with error bounds.  Its exponent is unbounded: overflow, underflow, NaN and signed zeros are
  not modelled.
* lxml (parsing, serialisation, XSD validation engine), PyYAML, jsonschema and
  python_jsonschema_objects: documents are modelled as the parsed element tree / parsed record.
  Of lxml it is assumed that it conforms to XML 1.0 (`Spec.Faithful`): it writes a document as one of the texts that stand for it, perhaps with white
  space between elements, and finds in such a text the element it stands for (`Spec.DocText`, C132); that this leaves the data alone is proved.  Wrappers of python_jsonschema_objects behave as the values they wrap (in particular they compare and
  hash by value, which the name dictionaries of the YAML reader rely on).
* argparse: the part in use is modelled after CPython 3.11 (`Cli.lean`; the model was compared with the standard library on 10000 random command lines
  with a parser configured alike, without differences).  Texts of help and usage messages are not modelled.
* File system, gzip/lz4.  ctypes: the conversions of arguments are modelled, not the memory behind pointers.  The native
  libucis library is an arbitrary function of the calls (C88–C96).
* `getpass`, `datetime.now`.  Time zones and daylight saving in `time.mktime` are modelled in `Verif/Zone.lean` (C120), where `mktime` is any function that finds a time the clocks show, if there is one; everywhere else the time zone is left out, which by `DateTime.C120_same_text_partial` makes no difference for dates that the clocks of the zone show.
* Dead or broken code: `db_format_rgy.py`, `filter_rgy.py`, `visitors/`, `mem_du_scope.py`
  (never instantiated), `cobertura_coverage_report_formatter.py`, abstract methods that only raise.
* Python dynamic typing errors from passing values of the wrong type (a string as weight and so on).

## 3. Plan per property

Merge (value level; store level adds frame and identity statements)
* C01 conservation: closed form of the name-slot grouping (`collect_eq`), then induction over the address; spec: `total` adds up everything reachable along an address.
* C02 existence: same closed form; spec: reachability along an address.
* C03 uniqueness: the keys of the grouping are the first-seen names, which are duplicate free.
* C04 order independence: corollary of C01 and permutation invariance of sums; success must be assumed for both orders since errors may depend on the order.
* C05 incremental: equality of closed forms, `merge (xs ++ ys)` against `merge (merge xs :: ys)`.
* C06 single copy / idempotence: `MergedForm` describes merged databases level by level; it is shown to be the image of merging and the set of databases that a merge of one leaves unchanged (`C06_form`).
* C07 first input decides: spec by `find?` over the list of inputs.
* C08, C09 monotonicity: from C01/C07 and non-negativity; C09 via bin-set equality.
* C10 kinds: C01 formulated per kind; non-interference by replacing bins of other kinds.
* C11 exact errors: prove `isOk` iff the three conditions.
* C12 cross references: names at value level, object identity at store level.
* C13 same-named siblings: false for all but crosses and bins (later sibling replaces the earlier one): refutation and `_partial`.
* C14 history: false (no history node is copied): refutation and `_partial`.
* C15 consistency: algebra on C01.
* C65 design units and source locations: from the closed form, spec by first input that has the address.

Report (value level, rationals)
* C16-C20, C22, C23, C25-C27: induction on the scope tree; spec: weighted mean and hit share defined on the database, not on the report.
* C21 false for more than one instance (each instance overwrites the figure); `_partial` for one instance.
* C24 false (weight of crosses is never read); `_partial` for weight 1.
* C25 for crosses false when the threshold is not 1; `_partial`.

Formatters
* C28 explicit line semantics with an indentation state; spec: recursive list of (depth, text).
* C29 stable partition.
* C30 false with crosses (`writeln` is undefined) and coverpoint names are dropped; `_partial`.
* C66 printed digits read back as a decimal number, compared with the exact figure; C67 false for large coverpoints, exact condition as `_partial`.

XML (reader after writer on element trees; closed forms in `XmlReadClosed`, `XmlWriteClosed`, `XmlRound`)
* C31 `C31_coverpoint_round_trip`, `C31_reads_back`: the view (names, order, bins with kind and count) of the read database equals that of the written one; the second theorem says exactly when the written document is readable.
* C32 false for ignore/illegal cross bins (`C32_cross_kinds_refuted`); everything else in `_partial` theorems.
* C33, C34: closed form of the fold over covergroup instances; C34 false for same-named bins of different kinds; `C34_kinds_exact`: a type-level bin has the kind of the first, and the counts are right per kind iff the others add up to 0.
* C35 fixpoint of write/read/write for unique instance names and trimmed crossed names; `C35_same_named_refuted` outside.
* C36 false (thresholds and weights of coverpoints are not carried by the written document): two refutations and the exact default case.  `C36_after_trip` computes the report after the trip from any database (`Spec.tripLine`: entries written, thresholds and weights 1, cross bins ordinary, type level put together), by C112 on the written document.
* C37 exact success condition of the reader on arbitrary element trees. C69 content of what is read, stated on the document alone (`XmlDocSpec`).
* C38 numbered file table. C39 false for a test status other than 0/1 and for negative numbers other than -1; exactly the rest is kept (`C39_history_exact_partial`).
* C40 exact condition on the database for its written document to satisfy the schema; refuted for databases without instances and for covergroups without bins.
* C41 lexical round trip of dates, years 1000-9999; refuted below 1000.
* C68 exact condition for the writer to accept. C70 condition for a report of a read database.
* C71 exact residual conditions under which a schema-valid document is readable.  Validity itself has an independent description (`XsdSpec`: content models as languages of words of tags, attributes, texts of the simple types); `Xsd.valid_iff` shows that the left-to-right checker of the model decides it for the transcribed schema, `Xsd.isDateTime_iff`, `isDouble_iff`, `isDecimal_iff` do so for the simple types.  `C71_dates_document`: a valid document's date is readable exactly if it has 19 characters and its hour is not 24.

YAML
* Documents are arbitrary trees of mappings, lists and values. `YamlSpec.Says j d` reads the content off the tree; `valid_iff_says` shows that passing the schema is the same as having a content. `YamlClosed` gives the closed form of loading one covergroup.
* C42 the views of covergroup instances equal those written in the document. C72 exact success condition for arbitrary trees.  `Yaml.conforms_iff_says`: the trees with a content are those valid (draft 4) against the value in `schema/coverage.json`; `Yaml.invalid_refused` covers the others.
* C43 false: ignore and illegal bins are added to the ordinary bins at type level; totals over all kinds, cross sums and ordinary bins whose name no ignore/illegal bin has are proved.
* C44 false: every type-level bin has threshold 1 (`C44_type_thresholds_one`), so the property holds exactly for threshold 1.
* C45 false: the table of coverpoints is shared by the instances of a covergroup. `C45_bindings` says which instance each crossed coverpoint belongs to (the last so far with the name).
* C46 false for every document with a covergroup without a list of instances: the loop runs over `None`.  With an empty list the
  covergroup is loaded and empty (`C46_empty_list_partial`).
* C73 condition for a report of a loaded database.

Object model (store level): `Store.lean` has a heap of scopes, bins, `CoverData`, handles and history nodes; API calls are
functions `Heap → Except Err α × Heap`.  `StoreDelta.lean` lists everything one call can do (`exec_delta`); `StoreInv.lean`
proves invariants over arbitrary call sequences (failing calls included); `StoreEvolve.lean` says what never changes.
* C47 iterators are modelled as the loops they are; refinement to filtering of the children, which by the tree invariant are the
  scopes reporting the parent, sorted by creation.
* C48 any interleaving of API calls and `__next__` (`drive`); invariant: yielded = hits among the elements passed. Scopes, bins and history records (`StoreIter.lean`).
* C49 invariant `TreeL`; C50 exact effect of each creation call, all raising calls leave the heap unchanged, exact acceptance of
  `createScope`.
* C51 read-back, alias, frame over all 32 properties and 7 classes, exact supportedness of setting and (in `StoreDefaults.lean`, added after a mutation) of reading.
* C52 false (string properties are no-ops); the comment setter pair is proved.
* C53 false for shared `CoverData`; proved for arbitrary programs otherwise.
* C54 false for instance scopes for every reachable store; proved elsewhere.
* C55 interning across arbitrary programs; C56 keys by injectivity of decimal printing; C57 setters with frame.
* C58 false for all statuses of the standard; proved for statuses set through the same interface.
Simplifications: references to missing objects stand for `None`; `createNextCover` rejects `None` as data (the code stores it and
fails later); integers are unbounded as in Python; the clock is a parameter.

Tools (`Tools.lean`, `Pipeline.lean`): a command is a function `World → Except Err α × World` of files, standard output and a
log of file operations; the world is returned also with an exception.
* C59 any sequence of registrations, by induction from the end; C77 the listings from that.
* C60 partition of the arguments; false for an empty argument (every vector that has one).
* C61 the world, including the log, is unchanged.
* C62 the decision function against the magic numbers; the missing-module branch separately.
* C63 marshalling of counts as union members; false if both widths are announced. C64 false for all test data (argument order of
  `TestData`); what arrives in which field is proved.
* C74 characterisation of success by what is in the files, and of failure; for every registry and every merge function.
* C75 false; `C75_lost_iff` says exactly when the content is lost, and the refutation uses the formats the program registers.
* C76 false for every failing command.
* C78 `defaultRgy` is the registry of the program with the models of the XML and YAML formats.  What is assumed of lxml for the
  positive part is `Spec.Faithful` (met by the serialiser and parser of C132, `exFaithful_ok`).
Simplifications: writing to an open file does not fail (disk full, characters the locale cannot encode); the message of an
exception is a parameter.

### Chains of operations (C79–C81)

* C79 `read_tidy`: what the reader builds from a schema-valid document satisfies `Spec.Tidy` (names representable, crosses refer to coverpoints
  of the same group, coverpoints and bins present); merging keeps `Tidy`, and `Tidy` implies that writing and reading succeed.
  At the level of files: `Tools.C79_merge_command`.
* C80 C01 combined with C31/C32 through a function of the XML view; at type level through `TypeTotals` (type-level counts are sums over
  the cover-instances, C33), which needs kinds that depend on the name only.
* C81 every covergroup of the merge satisfies `Spec.Representable`, hence C36 applies.

### Merging on objects (C82–C85)

* `StoreMerge.lean` has the merger again, now as a program of API calls on the store; reads are interleaved with creations, so
  iterators can see what the merge itself added.  `StoreView.lean` defines `Shows s o v`: reading object `o` through the getters gives the
  value-level scope `v`.  `StoreMergeRel`/`StoreMergeOut`/`StoreMergeThms` prove, function by function, that the store-level merge raises exactly
  if the value-level merge does, that its effect is a sequence of API calls, and `Frame`: which tables grew and how.
* C82 from `Frame` (also when the merge raises); C84 is the refinement.  No disjointness of sources and destination is assumed, so
  the same input twice and a destination that is its own input are covered (examples).
* C83 what the new objects refer to; consequences for arbitrary later call sequences from C85 in both directions.
* `StoreSolid.lean`: after calls with arguments that exist (`RealCalls`) every reference points to an object, so every scope shows something.
* C85 per call, for the five tables of the store; failing calls included.  `Receiver`/`Sets` are read off the call, not the model.

### What a failed merge leaves (C84, C122)

`MergeLeft.lean` is the merger a second time on values, in a writer-like type `Left`: the children and bins that have been appended so far, and the outcome.  `merge_left` proves that its outcome is that of `Merge.merge`, and `merge_leaves` (function by function, from `Grows`) that the store-level merger leaves exactly `Merge.leftIn`, whether it raises or not.  Hence `C84_copies` speaks about failing merges too.  C122 is derived from the relation `CutL`: what is left is a beginning, in depth-first order, of what a merge without failures would have made (`fits_merge`), and the bins of one place are appended with their sums already computed.  `C122_in_order` says in terms of merges of single instances (`onlyNamed`) where it stops.

### Which databases can be merged, and how many hits are kept (C123, C124)

Both start from the closed form of merging (`merge_closed`).  C123 uses the criterion of C11 (`Spec.Unresolvable`): what makes a list of inputs fail makes one of its parts fail (`unresolvable_part`), namely the part with the first input that has the place.  Hence the order matters only through who comes first (`C123_every_order_partial`).  For C124, `seenDb` keeps of a database what the merger reads, written down without the merger's functions; `hits` sums over all bins below a scope, wherever they are, and `seenHits` over those in `seenDb`.  The sum is preserved because grouping by name is a permutation (`groups_perm`).  `Neat` says that all bins are in covergroups of instances of the root; `neat_read` and `neat_loaded` prove it for the two readers.

### License notices (C125)

`Notice.lean` models `update_copyright.py` on a tree of entries in the order of `os.listdir`, with the exception and the names printed.  The scan of 32 lines is proved equal to an occurrence of one of the words after fewer than 32 line ends (`scan_iff`), which does not mention lines.

### Reporting and writing on objects (C97, C98)
* The report builder and the XML writer again as programs of API calls on the store.  `Reads s x e`: program `x` ends with
  `e` in the same store `s`; it is closed under sequencing and loops, so the proofs follow the functions.  The result is the value-level
  result for the tree shown (`Shows`), respectively the content shown (`ShowsDb`: tree, history, file table).
* Python's recursion is modelled with fuel; the theorems need only fuel at least the number of objects, because children are
  younger than their parents (`at_bounded`).  Python's own recursion limit is not modelled.
* `sk : Int -> String` prints a history kind that is an enumeration member; it is arbitrary.

### Reading XML on objects (C99)
* The reader again, as API calls on the store; its tables of type-level coverpoints and crosses map names to objects.  `Sim prog s val Q E`: program
  `prog` from store `s` ends like the value-level function `val`; `Q` relates results and store, `E` says what is known after an exception.  It is closed
  under sequencing and loops.  Within a covergroup the type-level coverpoints are filled after the instances, so the invariants (`IInv`, `GInv`, `TInv`)
  say which objects are still open and what they will show.
* `Spec.AllKept` compares the five tables of the store before and after, independent of the reader.
* `C99_merge_program` chains the reader with C84 and C98: the merge command on objects is the merge command on values.
* Simplifications: one clock value for all history records (it is overwritten by the date of the document); documents whose files have no name are excluded by
  `FilesNamed` (the schema demands the attribute; `None` as a file name is not modelled).

### Reading YAML on objects, whole programs (C100, C101)
* The YAML reader as API calls; the type-level coverpoints and crosses it computes first are no objects of the store.  Its table
  `cp_n_scope_m` maps names to objects; `KRel` relates it to the value model, whose entries are numbers of owners, so that `Spec.DbRefers` can be
  concluded: whose coverpoint each crossed name means.  Because crosses may refer to coverpoints of other instances, `Frame` with `N = 0` asks nothing of them.
* C101: `Spec.StepTo`/`Spec.Session` describe programs on contents alone; `sessionStep`/`session` run them on objects.  Induction over the program with
  the invariant `HoldsDbs` (distinct database objects showing the contents), from C84, C97, C98, C99, C100.  After a failed merge the destination shows what
  `Merge.leftIn` computes (`failed_showsDb`), so no condition on the merges is needed.

### From YAML to XML, merging one database (C102–C104)
* C102: a loaded document has the shape that the chain merge–write–read needs (`tidy_loaded`, `instanced_loaded`, `ordinary_loaded`, `unique_loaded`), so
  the general theorems behind C79/C80 (`tidy_merged_stored`, `counts_through_files`) apply.  `Spec.docBinCount` adds up the counts of the document itself.
* C103: databases loaded from plain documents satisfy `AllReadLike`, what is used about databases read from XML in C81 (`merged_figures`); the
  sums of the type level are those of the YAML reader (C43).  For one document, C104 turns the report on the merge into the report on the document.
* C104: report builder and merge both go through the children by type.  Without repeated names each group of the merge has one member, and merging
  it alone gives the same names, weights, counts and goals (`Sole`), hence the same report; both directions (also when the report raises).

### What content API calls make (C105, C106)
* C105: `Spec.Edit` gives each call an edit of the tree, by position (`PathTo`, `editAt`), in terms of the arguments of the call only.  The proof splits the scopes
  below the database into the one at the position, whose own line is edited, and the others, of which `SameNode` shows that nothing shown changes
  (`showsIn_edit`); two different positions are apart because every object has one parent.  A shared cover data object and the weight of a design unit are
  shown at several places (C53), so calls on them are no edit at one position; they are the stated restriction (`PlainCall`).
* C106: `Spec.Possible` describes the trees by roles.  From programs to trees: the invariant `Roles` (classes, types and what a parent may hold), kept by every call
  (`roles_exec`).  From trees to programs: `build` writes a program by recursion over the tree; `Grown` says that it only adds, so that what was
  built earlier is still shown.  Design units and crossed coverpoints are made in a further database that is not part of the tree.
  Merging, reading and loading give possible trees because they are programs of API calls (C84, C99, C100).

### JSON reports and the published schema (C109)

`Verif/JsonSchema.lean`.

* `RSchema`/`fits` are the keywords of JSON Schema that `schema/covreport.json` uses; `rRoot`, `rReport`, `rDefs` are its text.  `encJRpt` is the document
  that is written (members without value are left out, as `as_dict` of the class builder does; the order of members is not observable).
* `C109_never`: no document that is written satisfies the schema.  `C109_partial`: it satisfies the part for the report, and would satisfy all of it under
  the key `covreport`.  `C109_never_file` and `C109_file_partial` say the same of the schema file itself (`covreportJson`) and of validity as draft 4
  defines it (`Spec.Conforms`), so neither the transcription nor the checker `fits` has to be trusted.
* `C109_reads`: `saysReport` is a separate description of what a reader finds under the keys of the schema; the figures found are exactly those of the
  report.

### The XML documentation (C110, C111)

`Verif/XmlUsed.lean`, `Verif/XmlConv.lean`; the claims are those of `doc/source/reference/xml_interchange.rst`.

* C110: `readTable` is a list of elements and attributes, `prune` reduces a document to it.  `C110_read`: the reader does the same with the reduced
  document; so nothing else matters (`C110_same`), in particular no option (`C110_options`).  `C110_attributes_matter`, `C110_elements_matter`: the list
  cannot be shortened.
* C111: the written documents, as element trees.  `EachElem` goes through all elements; `C111_groups` lists instances, sections and entries.

### Reports and merges by hand (C112–C115)

`Verif/XmlFigures.lean`, `Verif/MergedDoc.lean`, `Verif/YamlFigures.lean`, `Verif/YamlMerged.lean`.

* `docLines`, `docTotal` compute a report from a document by lists, filters, sums and averages only (`percentHit`, `average`, `together`, `sums`), from the
  content that C69 gives (`docView`).  `C112_report`: that is the report that reader and builder make; `C112_made`: exactly when there is one;
  `C112_binary64`: with C86, how far double precision is from it; `C112_report_command`: the text that the command prints.
* `mergedSaid` computes what a merge of documents says, from what the documents say (`said`), with two combinators: `each` (the last of a name in each
  input) and `eachAll` (all of a name, for crosses).  `C113_merged`: that is what the merged file says, for any stages (`StagedAll` of C108);
  `C113_report`, `C113_commands`: so the report on it can be computed from the inputs.
* `yamlLines`, `yamlTotal` do for YAML documents what `docLines`, `docTotal` do for XML documents (C114).  The bins on the level of a covergroup are
  `collected`: a recursion over the bins of all instances in order that says what the loader does with ignore and illegal bins (violation of C43).
  Without these it is a sum by name (`C114_ordinary`).
* `yamlSaid` is what a YAML document says in the terms of `said`.  `C115_merged`: a readable file made from YAML files says `mergedSaid` of these, with
  blanks around crossed names stripped (`trimmed`; the cross of the example ends up naming another coverpoint).  No condition on instances is needed: a
  covergroup without instances has no coverpoints after the merge (`bare_group`), so the schema check of the XML reader rejects the file
  (`stored_instanced`, from C40).

### Command lines (C116)

`Verif/Cli.lean`, `Verif/CliThms.lean`.

* A command line is modelled as the list of words; the parser follows `argparse`: words are classified (`parseOptional`: exact option, prefix, `=`, glued
  short option, negative number, `--`), positional arguments take greedily what their pattern allows, options take their words, required options are
  checked at the end.  `parseArgs` is the parser with the four commands, `ucisMain` runs the command with the model of the tools level.
* The specification `cliLine` writes a list of items (`CliItem`: an option in some spelling, or a file name) as words; `cliValue` is the last value of an
  option, `cliTogether` says that the file names are adjacent, `cliRequired` and `cliShape` which options and how many file names are needed.
* `C116_convert`, `C116_report`, `C116_merge_partial` say what is run, `…_rejected` that all other lines are rejected, so the conditions are exact.
  `C116_dashed_argument`: which words with a dash are arguments (negative numbers and words with a blank).
  `C116_order`: adjacent options may be exchanged.  `C116_program`, `C116_program_rejected`: the program with plus-arguments anywhere.

### A session in the shell (C117)

`Verif/Session.lean` joins C116 with C113 and C115.  `Typed args line`: the words without plus-arguments are `line`; `ShellSession` describes the two lines.  Success of the first
run is recognised by its printing nothing (`Quiet`: no command but `report` prints anything except error messages; the warning of the YAML loader,
`yaml_reader.py:220`, is not modelled; it is always followed by the `TypeError` of `:250`, so a merge that prints it fails and prints a message anyway).  `C117_stale`, `C117_status_refuted`: status 0 is not
enough.  `Verif/Commands.lean` does the same for `convert` and states for each of the five commands what the program does (`C116_runs_*`; this was added after a
seeded edit that ran `convert` twice survived).

### Coverage of types and instances (C118)

`yaml_coverage.rst:20-25` calls the coverage of a covergroup type "the union of coverage achieved by all instances".  `UnionOf` states this about lines of a report alone: which bins of which lines reach the number listed beside them.  The proofs go through the closed forms of C112 (XML) and C114 (YAML) and the fact that a sum of non-negative counts is at least 1 exactly if one of them is.  `C118_yaml` is the exact description for YAML files with any thresholds: covered at the level of the type means one hit in some instance.  `SameLayout` is the promise of the format description that all instances have the same coverpoints, crosses and bins, which the loader does not check (`C118_layout_needed`); with it the figure of the type is the highest one.  The conditions are needed: `C118_threshold_refuted`, `C118_highest_refuted`, `C118_ignore_refuted`, `C118_xml_refuted`.

### Dates and time zones (C120)

`setAttrDateTime` takes the date to seconds with `time.mktime` and back with `fromtimestamp`.  `Zone` is an arbitrary offset as a function of time, with an arbitrary `mktime` that keeps the promise of the C library (`Zone.Ok`): a local time that the clocks show at some time is taken to such a time.  The calendar (`toSec`, `fromSec`) is proved to be a bijection between valid dates and seconds.  `C120_exact_partial` is an equivalence: a date comes back unchanged exactly if the clocks show it.  `C120_never_forward_partial` derives from it that all dates survive in zones that never set the clocks forward (discrete intermediate values), `C120_second_time` that a date is changed at most once, and `C120_refuted` has the night of 31 March 2024 in central Europe.  `C120_same_text_partial` connects the model with zones to `DateTime.toIso`, on which the chapters on XML rest.

### Saving, directories, dates (C126–C128)

These three were added after edits of the model survived: nothing said that saving and closing reach the native library, in which order a report directory is emptied and filled, and which dates the calendar has.  C126 states the one call each method makes, for an arbitrary library.  C127 computes the report command for a format with the directory flag in every state of the file system; what the report writes into the directory is not modelled, only that it is made after the directory.  C128 describes the accepted texts by their shape (`IsoForm`: digits and separators, with `Nat.ofDigitChars` of the core library as the value) and the calendar by the list of month lengths (`Calendar`), without reference to the matcher; one direction decomposes a match field by field (`Takes`), the other shows that the first alternative that fits is the right one.

### Why a command fails (C129)

`Unreadable`, `NoReport`, `MergeRaises`, `ConvertRaises` and `ReportRaises` are the reasons of the property as inductive predicates over formats and file contents; schema validity is the declarative `ValidDoc`, the problems of a document are those of C121.  Each theorem is an equivalence between a run that ends with an exception `e` and a reason for `e`, so a command without a reason succeeds, and reasons that apply together cause the same exception.  It was added because edits of the exception kinds in `xmlRead`, `libIf`, `yamlIf` and `reportCmd` survived.

### Selecting records after saving and loading (C130)

Store level. `saveLoad` runs the modelled writer and then the modelled reader on the same store, so the database before and the one after can be compared
through the same call, `getHistoryNodes`. `saveLoad_out` combines C98 (the writer shows what the value model writes), `Xml.read_written` (what is
read from a written document) and `read_sim_nodes` (the reader on objects, now with the parents of the records). That no record read has a number as
kind follows from C99: the value read does not depend on the naming of the kinds, so it cannot have gone through it. `C130_exact` gives the
condition under which the claim holds; `C130_kind` that selection by kind always gives nothing.

### Files that can be loaded can be merged (C131)

The exact condition of C11 (`Unresolvable`) is computed on loaded databases: `at_group`, `at_inst`, `at_cross` give the scopes that contribute to an
address in terms of the YAML document, with same-named covergroups and instances (the last counts). `C131_yaml` is an equivalence for any list of YAML
documents, in terms of the documents (`ForeignCross`). XML documents always link crosses inside an instance (`read_mergeable`).


### The text of XML files (C132)

`Spec.DocText` says which texts stand for an element, after XML 1.0: each character as itself where allowed, as a predefined entity or by its number in
decimal or hexadecimal, white space between attributes, empty tags or pairs of tags, name space declarations and prefixes. `Text.parse` is a parser (total,
with a bound on the depth); `Text.parse_text` proves by induction on the derivation that it finds the element in each of its texts, which also gives that a
text stands for one element only (`C132_unique`). `Text.showDoc` is the serialiser with indentation. `Spec.LaidOut` relates a document to the same with
white space added; the schema and the reader do not see it (`valid_laid`, `prune_laid` with C110). What the writer produces can be written as text
(`write_textual`: legal names, no repeated attribute, representable characters, no mixed content). `Spec.Faithful`, the assumption of all theorems about
commands, is now that lxml conforms to this, for any way of writing and indenting; before, it was that parsing gives back the tree.
Simplifications: names of ASCII characters (all names the writer uses); no comments, processing instructions, CDATA sections or document types; text files
are in UTF-8.

### The text of JSON reports (C133)

`Spec.JDoc` says which texts stand for a JSON value, after RFC 8259: white space, escapes of two characters, UTF-16 code units with surrogate pairs, numbers.
`JsonText.parse` is a parser; `parse_text` proves that it finds the value in each of its texts, which gives uniqueness. `JsonText.dump` is `json.dump` with
`indent=4` and `ensure_ascii`; `dump_text` proves that what it writes is a text of the value, `dump_ascii` that it is ASCII, `rpt_inj` that the value
determines the report, and `C109_reads` that the figures are those of the report. Numbers are by value: `Spec.numberValue` reads a text without point and
exponent exactly and others rounded to a float. The text of a float is a parameter, assumed to be a JSON number that reads back as the float, which Python
promises of `repr`; `C133_floats` proves that there are such texts for all finite decimals. A coverpoint without bins has the integer `0` as coverage
(`coverage_report_builder.py:129`), written `0` and not `0.0`; this is a choice of the text for the same number.
Not covered: `NaN` and `Infinity`; overflow is not modelled (trusted base).

### Reading text reports (C134)

`ShownGroup` is what a text report shows of a covergroup: names, printed percentages, and with details the three lists of bins with counts, in
the order of listing. `C134_text_determines_partial`: for either formatter, equal texts of two reports without line ends in names show the same.
The proof goes from the text to lines (`C28`), from lines to what they show, and from there to the tree. The last character tells headings (`%`),
titles (`:`) and bins (a digit) apart; the last colon separates name and figure. The level of a bin whose name begins with blanks follows from
the title above it. With line ends in names the claim is false (`C134_refuted`): the formatters write names as they are
(`text_coverage_report_formatter.py:29-32`, `format_rpt_text.py:42-45`).

### Hits in merged files (C135)

`docHits` and `yamlHits` add up the counts of all bins of a document, without regard to names. C124 says how many hits a merge adds to a database;
C135 is about files, with reading and writing. The closed forms of C113 and C115 give the content of the merged file; `said_eq` and `said_le` sum it
up, level by level: grouping by name loses nothing if names are not repeated within an input, and taking the last of several equal names can
only lose. `NoRepeats` is that condition, and it is necessary (`C135_refuted`: an entry twice in one file). Crosses are all merged, so they need no condition.
For the commands nothing is assumed of counts in XML files, since the schema check on reading excludes negative ones.

### The order of the files merged (C136)

`UpTo R` says that two lists are alike by `R` after reordering; `SamePoint`, `SameCross`, `SameParts` and `SameLine` say what "the same apart from order"
means at each level of a report. The closed forms of C113 and C115 give the report from what the documents say, as a list of documents; the proof shows
that each step (collecting names, grouping, taking the last, adding counts, averaging) respects permutations of that list. Two things depend on the order
and are refuted: the overall figure, which is that of the instance that comes last, and the sums over cover-instances for a bin that has one kind in one
of them and another kind in another. `KindsClear` and `OneInstance` exclude these two; nothing else is assumed.

### Reading from native databases (C137)

`KeepsLocations` and `KeepsFiles` say what a library has to do for its answers to mean anything: after a creation call that gave handle `h`, whatever calls
follow, the question for `h` is answered with what the creation call contained. `Ex.keeping` is such a library. The theorems then go through the Python
objects on both sides: the location is converted to C numbers on creation and back on reading. `C91_options_partial` and `C92_history_partial` were added
after mutations of the named accessors went unnoticed; the getters of options are not distinguished by any theorem, since all of them raise.

### A session with a JSON report (C138)

As C117, with `report --output-format json`. `JsonShows` describes the text: it is what the environment writes for a JSON value, the value says exactly the
covergroups and the figure computed from the documents (`saysReport`, the reading of C109), and, if numbers are written as JSON numbers that mean them, the
text is ASCII and stands for this value only (C133). Composed of C116, C113 or C115, C30, C109 and C133. With crosses in the documents the second run always
fails (`C138_crosses_refuted`, cause as in C30), which the exit status does not tell.

### Options of new objects (C139)

`schemaDefault` is copied from the schema, `initially` from the constructors, as two separate tables. `Blind` shows that a call that is not for options changes
no part of an existing object that reading options looks at; calls for options are covered by C51. With these, a value survives any sequence of calls in which
the property (under either name of the goal) is not set on this object. The statement index is left out, since it is a property of statements added later.
The theorem was added after a mutation of the default goal of instances went unnoticed.

### Author and time (C140)

The two attributes are added to databases as a pair of fields, since no other code reads them. A program is a list of calls on numbered databases; changes of
content are arbitrary functions. The specification takes the last setting from the list of calls; the proof is by induction over the calls. For files the
theorem composes the writer and the reader of the model, with a process (user, clock, environment) for each. The clock stands still during a call.

### Flags of bins (C141)

The flags are described by the positions of their bits, independently of the number in the model. That they never change is from the relation between states
that every call keeps (`Evolves`); the count comes from C53. Added after a mutation that dropped one of the flags went unnoticed.

### Source locations and XML files (C142)

The location that a file states is looked up by the number of the file in the file table of the document. For reading, the invariant "nothing in the tree has a
location" is kept by every step of the reader, for any document that is accepted.

### Weights and thresholds and XML files (C143)

What the writer ignores is described by a function that removes it from a tree (`Spec.unweighed`); the file is the same for trees that become equal. For reading, the same
invariant as for C142, now for any property that is implied by having no location, weight 1 and unit bins (`read_thru`).

### Which databases give the same XML file (C144)

The content of a database that a file can show is described by the views already used for C31 and C32, both for every written group. That it determines the file and is
determined by it is proved level by level from the closed form of the writer; coverpoints and crosses are told apart by their tags.

### What a report does not depend on (C145)

As for C143, what is ignored is described by a function that removes it from a tree (`Spec.reportable`). The weight of a scope is kept if its type word has the bit of a
covergroup, cover-instance or coverpoint.

### Which exception (C121)

`writeProblems` and `readProblems` list the problems of a database or document in document order, each as the exception it causes, in the vocabulary of C68 and C37.  `Fails x p` says that `x` raises exactly the first exception of the list `p`; it is closed under sequencing (`fails_bind`), loops (`fails_mapM`) and loops with state (`fails_fold`), and `C121_write` and `C121_read` follow the writer and reader function by function.  For a cross the reader looks up the names twice, first among the coverpoints of the type so far if the cross is the first of its name, then among those of the instance; the list says so, since it decides which of two problems is met first.

For a document that satisfies the schema, `C121_valid` leaves four kinds: `ValueError` (a number or date of a history node), `KeyError` (an undeclared file), `AttributeError` (an empty reference in a cross) and the exception of the library (a cross of a name that is no coverpoint of its instance).

For YAML (`C121_load`) every stage of a covergroup can raise only one kind of exception (`OnlyErr`), so the success conditions of C72 decide which stage fails first; `CgRefused` and `LoadRefused` say this without reference to the loader.

### Merging more files (C119)

Two runs are compared: the merge of some files and the merge of these and more, each in any stages (`StagedAll`, as in C108), each stored as XML, read again and reported.  `LineKept`, `SameShape` and `ReportKept` speak about the two reports alone.  The proofs start from the closed forms of C113 (XML) and C115 (YAML), where both reports are computed from what the documents say: `Sub` relates a list to a longer one in which the elements keep their order, and every level (instances, covergroups, entries, coverpoints and crosses, bins) is shown to be such a pair, because things of equal name are put together in order of first appearance and counts are added.  Counts of XML files are not negative because the files are checked against the schema (`entry_counts`).  For the figures, equal names on both reports force the pairs to match one to one on every level (`Sub.exact_nested`), also between the instances, which a report does not show.  The conditions are needed: `C119_figures_refuted` (a file with further bins lowers the coverage), `C119_bins_refuted` (an ignore bin of one instance hides an ordinary bin of another on the level of the covergroup), `C119_negative_refuted`.

### Merging in stages (C108)

`Staged ls d` (a mutual inductive predicate with `StagedAll`) says that the database `d` comes from the databases `ls`, all read from XML, by any tree of
stages; a stage merges into an empty database, writes the result and reads the file, each with its own user and time.

* `wDb` is what a document says: names of instances, covergroups and cover-instances, coverpoints with bins (name, kind, count), crosses with crossed
  names and bins.  The merge respects it (`wDb_pMerge`, level by level from the closed form of the merge), a file keeps it for databases whose
  covergroups have cover-instances, whose crosses have ordinary bins and whose crossed names are stripped (`wDb_throughFile`; XML-read databases and their
  merges are such, `read_plainly`, `merged_plainly`), and it determines the document and what is read from it (`doc_view`, `read_view`).
* The induction over stages (`kept`, `keptAll`) combines this with C05 (`EDb`): the result of a stage says what the merge of its leaves says.
* `C108_documents`, `C108_databases` compare two stagings with the same leaves; `C108_two_stages` is the usual case; `Tools.C108_merge_commands` and
  `Tools.C108_reports` are about the commands (there all commands run with the same environment, i.e. at the same time by the same user).
* `C108_counts`, `C108_any_order`: counts in the last file are sums over the inputs (with C01), so they do not depend on the order of the inputs either.
* `C108_memory_refuted`: before storing, the merges can differ, and reports on them too, because storing changes type-level bins (cf. C81).

### The procedural interface (C107)

`Proc.Fn` lists the functions, `Proc.call` is their code on the object store of `Verif.Store`.  `ucis_Time` is left to the model of dates (C41).
* `Spec.Means` says, case by case, which method call a function call stands for; it does not use `Proc.call`.
* C107: `C107_call_partial` equality of result and effect; `C107_others` for functions without a method; `C107_null` for calls without an object.
* `C107_exact`: programs of function calls are programs of method calls without `createCross`, so that no object is a cross (`Crossless`, an invariant);
  in the other direction the construction of C106 uses only calls that are function calls, apart from `createCross` (parameter `X` of `Grown`).

### Floating point (C86) and the report command (C87)
* C86: `Near u m a b` says that `a` is `b` up to the errors of `m` operations with relative error `u`.  It is closed under
  sums, products with exact non-negative numbers and rounding, because no operand is negative.  Induction over the loops of
  the report builder gives `k + 3` operations for a group of `k` items and `2K + 5` for the total; Bernoulli's inequality
  turns the factors into an absolute bound.  The relative error of `round64` is proved, not assumed.
* C17 in binary64: a figure below 100 misses at least one bin, so it is at most `100 (1 - 1/(B W))`, which is more than the
  rounding error within the stated limits.  A witness shows that the claim fails for a weight of `2^53`.
* C36, C81 in binary64: equal exact figures and the error bound.  Figures of coverpoints and crosses are equal, being one
  rounding of the exact share.
* C87: `report_success` gives the exact condition and result of the command for arbitrary formats (a format that writes a
  directory never succeeds); for the registered formats it is combined with C28 and C30.

### The native binding (C88–C96)
The library behind `ucis.lib` is not part of the repository.  It is an arbitrary function `Native` from the calls made so far and the
next call to an answer; all theorems are for every such function.  A method of the binding is a program with a trace of C calls, with the arguments
as the library receives them after the conversions of `ctypes`.
* C88, C89: the requests and the C call each stands for are a separate specification (`Req`, `Req.cCall`, `defaults`); `perform_run` gives the exact trace.
* C90: `Modifies` classifies the C calls.
* C92: the statement counts the scans and fixes their answers and the position of `freeIterator`; by induction on the loop.
* C94: bins through the model of `LibCoverData` in `Tools.lean` (C59–C64 level).
* C96: the rest of the merge and of the report after the failing call is left open (arbitrary continuation), so that the result does not depend on it.

### Validation of the model

`Verif/UnitTests.lean` transcribes the unit tests under `ve/unit` that do not need the native library: `test_merge.py` (all nine tests, with
the two XML documents), `test_yaml_reader.py`, `test_report.py` with `db_creator.py`, `test_xml_output.py`, `test_xml_reader.py`,
`test_simple_create.py` and `test_coverage_report.py`.  The API calls are those of the test, run on the objects of `Store.lean` from an empty
heap, and every asserted value (numbers of bins, percentages, validity against the schema) is compared by evaluation in the kernel.  All
agree.  Not covered: `test_xml_examples.py` (asserts nothing), the disabled tests, and what the tests only print.

## 4. Disagreements found (kept current)

Each is backed by a Lean refutation theorem with a concrete witness.

| Property | Behaviour of the code | Theorem |
|---|---|---|
| C13 | `db_merger.py:36-45,84-92,118-126,145-153`: of several same-named siblings in one input only the last contributes | `C13_same_named_siblings_refuted` |
| C21 | `coverage_report_builder.py`: the overall figure is overwritten by each instance, so only the last counts | `C21_overall_all_instances_refuted` |
| C24 | `coverage_report_builder.py`: the weight of a cross is never read, all crosses weigh 1 | `C24_cross_weights_refuted` |
| C25 | `coverage_report_builder.py`: bins of crosses are listed with goal 1 whatever their threshold | `C25_cross_hit_flags_refuted` |
| C30 | `format_rpt_json.py:130-147`: `report_cross` calls the undefined `self.writeln`, so no JSON report exists for a database with a cross; coverpoint names are never assigned | `C30_json_crosses_refuted`, `C30_json_names_refuted` |
| C67 | `format_rpt_text.py:56,73`: coverpoints and crosses are rounded to whole percents, 199 of 200 bins print as `100.000000%`; with `n` decimals it takes `200*10^n` bins | `C67_txt_refuted`, `C67_text_refuted` |
| C32 | `xml_reader.py` reads every cross bin as an ordinary bin; ignore and illegal cross bins become countable | `C32_cross_kinds_refuted` |
| C34 | `xml_reader.py`: type-level bins are keyed by name only, so bins of different kinds with one name are added into one bin | `C34_kinds_refuted` |
| C35 | `xml_reader.py`/`xml_writer.py`: same-named instances are not kept apart by a second trip | `C35_same_named_refuted` |
| C36 | `xml_writer.py` writes neither thresholds nor coverpoint weights where the reader looks for them: 0% becomes 100%, 75% becomes 50% | `C36_threshold_refuted`, `C36_weight_refuted` |
| C39 | `xml_writer.py`: the test status is written as a Boolean | `C39_history_refuted` |
| C40 | `xml_writer.py`: databases without instances, and covergroups whose coverpoints have no bins, produce documents the library's own schema check rejects | `C40_schema_refuted`, `C40_no_bins_refuted` |
| C41 | `strftime('%Y')` does not pad years below 1000 | `C41_small_year_refuted` |
| C71 | a schema-valid date with a time zone makes the reader raise `ValueError` | `C71_refuted` |
| C14 | `db_merger.py` never creates a history node, test records of all inputs are lost | `C14_history_refuted` |
| C43 | `yaml_reader.py`: ignore and illegal bins are merged into the ordinary bins of the type coverpoint | `C43_kinds_refuted`, `C43_ordinary_refuted` |
| C44 | `yaml_reader.py`: type-level coverpoints and crosses are built without `atleast` | `C44_thresholds_refuted` |
| C45 | `yaml_reader.py`: the coverpoint table is not reset per instance, so a cross can bind a coverpoint of another instance | `C45_own_instance_refuted` |
| C46 | `yaml_reader.py`: iterating over missing instances raises `TypeError` | `C46_no_instances_refuted`, `C46_type_error_refuted` |
| C72 | `yaml_reader.py`: a cross without bins in its first instance and with bins in a later one raises `AttributeError` | `C72_bins_refuted` |
| C52 | `mem_obj.py:32-44`: the string property calls every scope inherits do nothing and return `None`; they hide `CvgScope.getStringProperty` | `Store.C52_refuted` |
| C53 | `mem_scope.py:138-144`: bins keep the `CoverData` object of the caller, so bins created with one object count together | `Store.C53_refuted` |
| C54 | `mem_instance_scope.py:63-71` puts cover items into a list that `coverItems` does not look at | `Store.C54_refuted` |
| C58 | `mem_history_node.py:65-72`: `1 if status else 0` is 1 for every status of the standard, failed tests included | `Store.C58_refuted` |
| C60 | `__main__.py:78`: `arg[0]` raises `IndexError` for an empty argument | `Tools.C60_empty_refuted` |
| C63 | `lib_cover_data.py:34-37`: if both width flags are set only the low 32 bits are stored | `Tools.C63_both_widths_refuted` |
| C64 | `lib_test_data.py:65-81`: reading the structure back never gives the original test data | `Tools.C64_round_trip_refuted` |
| C75 | `xml_ucis.py:11`: the file is truncated before the document is built; if that raises the old content is lost | `Tools.C75_output_kept_refuted` |
| C76 | `__main__.py:86-90`: exceptions of a command are printed and swallowed, the status is 0 | `Tools.C76_exit_status_refuted`, `Tools.C76_status_always_zero` |
| C78 | `db_format_if_lib.py:37-38`: `_get_lib` always returns `None`, so `libucis` neither creates nor reads; `yaml_ucis.py:6-7`: `yaml` cannot write although it announces it | `Tools.C78_capabilities_refuted` |
| C79 | `xml_reader.py` accepts a blank `crossExpr`; after a merge the writer produces an empty one, which the reader rejects (`None.strip`) | `C79_blank_refuted` |
| C80 | `xml_writer.py`: a covergroup with cover-instances is written without its own coverpoints, so merging a flat covergroup with an instanced one and storing the result loses the counts of the flat one | `C80_flat_refuted` |
| C81 | `xml_reader.py`: the type-level bin takes the kind of the first cover-instance; after merging inputs in which a bin has different kinds, storing changes the coverage (0 to 100) | `C81_kinds_refuted` |
| C17 (double precision) | `coverage_report_builder.py:72-84`: a fully covered coverpoint of weight `2^53` hides an unhit one of weight 1; the group is reported at exactly 100% | `C17_group_binary64_refuted` |
| C89 | `lib_scope.py:117-153`, `lib_covergroup.py:66-110`: the handle is not checked; the wrapper of the null handle writes its default options onto the database | `Lib.C89_failed_creation_refuted` |
| C90 | `scope.py:40-41` through `lib_scope.py:47-50`: wrapping any scope sets its goal to 100; `lib_history_node.py:32-40`: `getTestData` calls `ucis_SetTestData` with zeros | `Lib.C90_read_only_refuted` |
| C91 | `lib_obj.py:37-69`: getters raise `NotImplementedError`; `lib_ucis.py:51-58`: `ucis_GetIntProperty` is not loaded | `Lib.C91_property_refuted` |
| C92 | `lib_scope_iterator.py:18-26`: a finished iterator scans and frees again; `lib_history_node_iterator.py:19-26`: `ucis_FreeIterator` with one argument; `lib_ucis.py:94-99` raise `UnimplError` | `Lib.C92_use_after_free_refuted`, `Lib.C92_history_refuted` |
| C93 | `libucis.py:100-102`: the mask is `c_uint32`, scope types go up to `2^34` | `Lib.C93_mask_refuted` |
| C94 | `lib_coverpoint.py:22-44`, `lib_cross.py:20-40`: threshold not transmitted, `IS_32BIT` counts, no kind for crosses | `Lib.C94_bin_refuted` |
| C95 | `lib_ucis.py:76-92`: the parent object is passed as `void *`; `str.encode(None)` | `Lib.C95_history_refuted` |
| C96 | `lib_source_info.py:37-42` reads `file.fh`, which in-memory locations do not have; `scope.py:102-103`: native scopes have no `getScopeName` | `Lib.C96_native_refuted` |
| C100 | `yaml_reader.py:247-271`: `cp_n_scope_m` is made once before the loop over the instances, so a cross may refer to a coverpoint of an earlier instance | `Store.C100_own_instance_refuted` |
| C102 (condition on crosses) | `yaml_reader.py:247-271` accepts a cross of coverpoints of an earlier instance; `db_merger.py` then finds no such coverpoint (AttributeError) | `Yaml.C102_cross_refuted` |
| C103 | ignore bins of YAML become ordinary bins of the type coverpoint but not of the XML; `xml_writer.py:175` does not write covergroup weights, and thresholds are not written where they are read | `Yaml.C103_ignore_refuted`, `Yaml.C103_weight_refuted`, `Yaml.C103_threshold_refuted` |
| C104 | `db_merger.py` unites children of equal name, so merging one database with two bins of one name in a coverpoint changes its coverage (25 to 50) | `Merge.C104_duplicates_refuted` |
| C104 | `db_merger.py:227-250` keeps thresholds but not goals of cross bins, with which the report lists them (`coverage_report_builder.py:140-151`) | `Merge.C104_goal_refuted` |
| C107 | `__init__.py:408-414` calls `parent.createNextCover` without the test for `None` that the other functions have | `Proc.C107_cover_refuted` |
| C107 | no function of `__init__.py` creates crosses, and `createScope` does not either (`mem_scope.py:146-175`) | `Proc.C107_cross_refuted` |
| C107 | `__init__.py:416-419` calls `db.removeScope`, which no class has; `ucis_Write` (`:440-452`) reaches `UCIS.write`, which raises | `Proc.C107_others` (they raise without effect) |
| C109 | `format_rpt_json.py:56` dumps the report object as the root; `covreport.json:7-25` allows only the key `covreport` there | `Format.C109_never`, `Format.C109_key_absent` |
| C110 | `xml_reader.py` never looks at `options` (weights are the constants in `:148-275`), against `xml_interchange.rst` ("Coverage Instance Options", "Coverpoint Bins") | `Xml.C110_options`, `Xml.C110_options_refuted` |
| C111 | `xml_writer.py:291-292` writes an empty `options` element; `auto_bin_max=0` is documented | `Xml.C111_options_never` |
| C111 | `xml_writer.py:282` writes `type="default"` for every cross bin | `Xml.C111_cross_type_never` |
| C111 | `xml_writer.py:284-285` writes the single index -1 | `Xml.C111_index_partial` |
| C116 | `__main__.py:47` declares the file names of `merge` as one positional with `nargs="+"`; argparse gives it the first run of file names only and rejects later ones | `Cli.C116_order_refuted`, `Cli.C116_merge_rejected` |
| C116 | `__main__.py:45-46` offers `--libucis`, `cmd_merge.py` never looks at it | `Cli.C116_libucis_ignored`, `Cli.C116_libucis_refuted` |
| C117 | `__main__.py:86-90` swallows the failure of `merge` (as in C76), the next command finds the old output file | `Cli.C117_stale`, `Cli.C117_status_refuted` |
| C118 | type-level coverpoints get no threshold (`yaml_reader.py`, cf. C44) and take over ignore and illegal bins as ordinary bins (cf. C43); in XML files the kind of the first bin of a name decides (`xml_reader.py`, cf. C34) | `UnionCov.C118_threshold_refuted`, `UnionCov.C118_highest_refuted`, `UnionCov.C118_ignore_refuted`, `UnionCov.C118_xml_refuted` |
| C119 | the kind of the first bin of a name decides at the level of the covergroup (`xml_reader.py`, cf. C34, C118); the YAML loader accepts negative counts (`yaml_reader.py`, `yaml_schema`, cf. C72) | `MoreFiles.C119_bins_refuted`, `MoreFiles.C119_negative_refuted` |
| C120 | `time.mktime` is used on a date without time zone (`xml_writer.py:318-320`): local times skipped when clocks are set forward are shifted | `DateTime.C120_refuted` |
| C123 (order) | an instance without design unit in the first of two inputs fails, in the second it does not: the design unit is taken from the first input that has the instance (`db_merger.py:47-56`) | `C123_order_refuted` |
| C124 | the merger asks each input for its top-level instances only (`db_merger.py:36-37`) and an instance for its covergroups only: bins in nested instances are lost | `C124_refuted` |
| C125 | text mode translates line ends when reading and the script writes the translated text (`update_copyright.py:29-52`); the notice is written before a line that names the interpreter (`:50-52`) | `C125_kept_refuted`, `C125_interpreter_refuted` |
| C126 | `lib_ucis.py:101-113`: the result codes of `ucis_Write` and `ucis_Close` are only logged; a scope object is passed where `ctypes` expects a pointer | `Lib.C126_refuted` |
| C127 | `cmd_report.py:44-66`: `fp` is the path, a string without `close`; without an existing directory `fp` is not assigned; the message for a file has two arguments for one placeholder | `Tools.C127_never`, `Tools.C127_refuted` |
| C130 | `xml_reader.py:99-101` stores the kind as the text of the file, `mem_history_node_iterator.py:26` compares with the enumeration: no record is found under a kind; `xml_writer.py:107` ("TODO: parent") and `xml_reader.py:96` drop parents; `xml_writer.py:132-157` adds a record to an empty history | `Store.C130_kind`, `Store.C130_refuted` |
| C131 | `yaml_reader.py:248` makes the table of coverpoints once for all instances of a covergroup, so a cross may refer to a coverpoint of an earlier instance; `db_merger.py:213-217` looks among the coverpoints of the same instance only (and the message it wants to give fails with an `AttributeError`) | `Yaml.C131_refuted` |
| C134 | `text_coverage_report_formatter.py:29-32`, `:43-44`, `:60-61`, `:71-78` and the same in `format_rpt_text.py` write names as they are; a name with a line end adds lines that look like other items | `C134_refuted` |
| C135 | `db_merger.py:84-92,118-126,145-153` keeps the objects of one input in a table by name, so of several with the same name in an input the last one is merged only | `FileHits.C135_refuted` |
| C136 | `coverage_report_builder.py` overwrites the overall figure for each instance (as in C21), and the instances are in the order of the files | `MergeOrder.C136_total_refuted` |
| C136 | `xml_reader.py` adds the bins of all cover-instances by name, with the kind of the first one (as in C34), and the cover-instances are in the order of the files | `MergeOrder.C136_kinds_refuted` |
| C137 | `lib_scope.py:171-177` makes a location of whatever the library has filled in; objects without a location are not told apart | `Lib.C137_locations_refuted` |
| C137 | `lib_file_handle.py:34-35` returns the result of `ctypes`, a `bytes` object, where a string is declared | `Lib.C137_files_refuted` |
| C138 | `format_rpt_json.py` raises on crosses (as in C30), `__main__.py:86-90` swallows it | `Cli.C138_crosses_refuted` |
| C139 | `mem_scope.py:46-66` sets the goal to -1 (`CovScope.__init__`, `cov_scope.py:28-30`, does not call the constructor that sets 100); `mem_covergroup.py:24-27` sets the required hits to 0 and both options to true | `Store.C139_schema_refuted`, `Store.C139_schema_partial` |
| C140 | `xml_writer.py:66-70` writes the current user and date instead of the attributes, `xml_reader.py:68-69` (comments) restores neither | `Authors.C140_file_refuted`, `Authors.C140_file_partial` |
| C141 | `coverpoint.py:54` always states 32 bits; neither `coverpoint.py:55` nor `mem_cover_index.py:31-32` limits the count | `Store.C141_width_refuted`, `Store.C141_width_partial` |
| C142 | `xml_writer.py:167` gives `None` to `addId`, so that every instance is put at line 1 of the null file; the reader reads the `id` (`xml_reader.py:126-127`), does not use it, and gives `None` as the location of everything it creates (`:129`, `:183`, `:198`, `:278`, `:357`) | `Xml.C142_refuted`, `Xml.C142_file_partial`, `Xml.C142_read_partial` |
| C143 | `xml_writer.py:291-292` writes an empty `options` element instead of the options given to it; the reader gives 1 as weight and threshold of everything it creates (`xml_reader.py:184`, `:204`, `:219`, `:283`, `:328`, `:362`, `:399`) | `Xml.C143_refuted`, `Xml.C143_file_partial`, `Xml.C143_read_partial` |
