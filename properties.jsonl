{"id": "C01", "title": "Merge conserves hit counts", "statement": "After merging a list of databases into an empty one, the total count stored for any bin (addressed by instance name, covergroup name, optional cover-instance name, coverpoint or cross name, bin kind and bin name) equals the sum of the counts stored for that same address in all the inputs. Inputs are assumed to have no two same-named siblings of the same scope type (crosses and bins may repeat).", "quantifier": "for every list of input databases with unique sibling names, every address and every bin kind, whenever the merge returns without an exception", "why_tests_cant": "The space of databases (names, nesting, number of inputs, unbounded counts) is infinite; a test fixes one shape and one set of counts.", "anchors": ["src/ucis/merge/db_merger.py: DbMerger.merge", "src/ucis/merge/db_merger.py: _merge_covergroups", "src/ucis/merge/db_merger.py: _merge_coverinsts", "src/ucis/merge/db_merger.py: _merge_coverpoints", "src/ucis/merge/db_merger.py: _merge_coverpoint_bins", "src/ucis/merge/db_merger.py: _merge_cross"]}
{"id": "C02", "title": "Merge neither drops nor invents bins", "statement": "A bin address exists in the merged database if and only if it exists in at least one input; likewise for instances, covergroups, cover-instances, coverpoints and crosses.", "quantifier": "for every list of inputs with unique sibling names and every address of each of the supported shapes", "why_tests_cant": "A test can check that listed bins exist; it cannot check that no other address appears or disappears for all inputs.", "anchors": ["src/ucis/merge/db_merger.py: DbMerger.merge", "src/ucis/merge/db_merger.py: _merge_coverpoint_bins", "src/ucis/merge/db_merger.py: _merge_crosses"]}
{"id": "C03", "title": "Merged databases have unique names", "statement": "In a merged database no two instances, no two covergroups of an instance, no two coverpoints, crosses or cover-instances of a covergroup, and no two bins of the same kind in a coverpoint or cross share a name, even if the inputs contained duplicates.", "quantifier": "for every list of inputs, including ones with duplicate sibling names", "why_tests_cant": "The space of databases (names, nesting, number of inputs, unbounded counts) is infinite; a test fixes one shape and one set of counts.", "anchors": ["src/ucis/merge/db_merger.py: DbMerger.merge", "src/ucis/merge/db_merger.py: _merge_covergroups", "src/ucis/merge/db_merger.py: _merge_coverpoints", "src/ucis/merge/db_merger.py: _merge_crosses"]}
{"id": "C04", "title": "Merged counts do not depend on input order", "statement": "Permuting the list of input databases never changes any merged bin count.", "quantifier": "for every list of inputs with unique sibling names and every permutation of it", "why_tests_cant": "The number of permutations and databases is unbounded; tests try one order.", "anchors": ["src/ucis/merge/db_merger.py: DbMerger.merge"]}
{"id": "C05", "title": "Incremental merging equals one-shot merging", "statement": "Merging some databases, and then merging the result with further databases, yields exactly the same database (instances, order, weights, thresholds, counts) as merging all of them at once; merging in groups and then merging the groups also gives the same result.", "quantifier": "for every partition of every list of inputs with unique sibling names for which the group merges succeed", "why_tests_cant": "Associativity quantifies over all groupings and all databases.", "anchors": ["src/ucis/merge/db_merger.py: DbMerger.merge"]}
{"id": "C06", "title": "Merging one database is a normalising copy", "statement": "Merging a single database and merging the result again gives the same database as merging once. Merging a database leaves it unchanged exactly if some merge produces it, which is exactly the case if it has this form: pairs of a module design unit and an instance of it with weight 1, instance names different; in each instance covergroups with different names; in each covergroup coverpoints, then crosses of these, then cover-instances (with coverpoints, then crosses), names different within each of the three; in each coverpoint and cross ordinary, then ignore, then illegal bins, names different within each kind, with thresholds and default goal and weight; nothing else anywhere.", "quantifier": "for every database", "why_tests_cant": "The space of databases (names, nesting, number of inputs, unbounded counts) is infinite; a test fixes one shape and one set of counts.", "anchors": ["src/ucis/merge/db_merger.py: DbMerger.merge", "src/ucis/cmd/cmd_convert.py: convert"]}
{"id": "C07", "title": "First input decides thresholds and weights", "statement": "In the merged database the hit threshold (at_least) of a bin, the weight of a covergroup, cover-instance, coverpoint or cross, and the list of crossed coverpoints of a cross are those of the first input (in argument order) that contains the item; items appear in order of first appearance.", "quantifier": "for every list of inputs and every item", "why_tests_cant": "Depends on every combination of which inputs contain the item.", "anchors": ["src/ucis/merge/db_merger.py: _merge_covergroups", "src/ucis/merge/db_merger.py: _merge_coverpoints", "src/ucis/merge/db_merger.py: _merge_coverpoint_bins", "src/ucis/merge/db_merger.py: _merge_crosses"]}
{"id": "C08", "title": "Merging never un-hits a bin", "statement": "If counts are non-negative and all inputs use the same threshold for a bin, a bin that counts as hit in some input counts as hit in the merged database.", "quantifier": "for every list of inputs, every bin address", "why_tests_cant": "The space of databases (names, nesting, number of inputs, unbounded counts) is infinite; a test fixes one shape and one set of counts.", "anchors": ["src/ucis/merge/db_merger.py: _merge_coverpoint_bins", "src/ucis/report/coverage_report_builder.py: build_coverpoint"]}
{"id": "C09", "title": "Merging never lowers coverage over an unchanged bin set", "statement": "If every input that has a coverpoint or cross defines the same ordinary bins for it (names and thresholds, each name once, in any order), with non-negative counts, the coverage percentage reported for it after merging is at least the percentage reported for it in each input.", "quantifier": "for every list of inputs and every coverpoint / cross present with the same bin set in all of them", "why_tests_cant": "A monotonicity statement over all counts and bin sets.", "anchors": ["src/ucis/merge/db_merger.py: _merge_coverpoint_bins", "src/ucis/report/coverage_report_builder.py: build_coverpoint", "src/ucis/report/coverage_report_builder.py: build_cross"]}
{"id": "C10", "title": "Bin kinds are kept apart by merging", "statement": "Counts of ordinary, ignore and illegal bins never flow into one another: the merged count of a bin of one kind is independent of all bins of the other kinds, even when they share a name.", "quantifier": "for every list of inputs with single-kind bins", "why_tests_cant": "Requires considering every mixture of kinds with equal names.", "anchors": ["src/ucis/merge/db_merger.py: _merge_coverpoint_bins", "src/ucis/merge/db_merger.py: _merge_cross"]}
{"id": "C11", "title": "Merge fails exactly on unresolvable input", "statement": "Merging raises an exception exactly when (a) some instance has no design unit in its first input, (b) the first occurrence of some cross lists a coverpoint name that no merged coverpoint of that covergroup carries, or (c) a bin whose first occurrence carries no threshold is met; otherwise it succeeds.", "quantifier": "for every list of inputs", "why_tests_cant": "The exact error boundary is a biconditional over all inputs.", "anchors": ["src/ucis/merge/db_merger.py: DbMerger.merge", "src/ucis/merge/db_merger.py: _merge_crosses", "src/ucis/cover_data.py: CoverData"]}
{"id": "C12", "title": "Merged crosses refer to merged coverpoints", "statement": "Every cross of the merged database refers, in order, to coverpoints of the same merged covergroup or cover-instance, and these carry the names of the coverpoints crossed in the first input.", "quantifier": "for every list of inputs for which the merge succeeds", "why_tests_cant": "The space of databases (names, nesting, number of inputs, unbounded counts) is infinite; a test fixes one shape and one set of counts.", "anchors": ["src/ucis/merge/db_merger.py: _merge_crosses"]}
{"id": "C13", "title": "Same-named siblings are all merged", "statement": "If an input contains two same-named coverpoints (or covergroups, instances, cover-instances) side by side, the counts of both contribute to the merge, as they do for same-named crosses and bins.", "quantifier": "for every list of inputs", "why_tests_cant": "Concerns inputs no test writer thinks of; the behaviours of coverpoints and crosses differ.", "anchors": ["src/ucis/merge/db_merger.py: _merge_coverpoints", "src/ucis/merge/db_merger.py: _merge_crosses"]}
{"id": "C14", "title": "Merging keeps the test history", "statement": "Every history node (test record) of every input is present in the merged database.", "quantifier": "for every list of inputs", "why_tests_cant": "A test with history-free inputs passes vacuously.", "anchors": ["src/ucis/merge/db_merger.py: DbMerger.merge", "src/ucis/mem/mem_ucis.py: MemUCIS.createHistoryNode"]}
{"id": "C15", "title": "Merging preserves type/instance consistency", "statement": "If in every input the type-level count of each coverpoint bin equals the sum over the cover-instances of the same covergroup, then the same holds in the merged database.", "quantifier": "for every list of inputs with unique sibling names that are consistent", "why_tests_cant": "An invariant over all databases.", "anchors": ["src/ucis/merge/db_merger.py: _merge_covergroup", "src/ucis/merge/db_merger.py: _merge_coverinsts"]}
{"id": "C16", "title": "Coverage percentages lie in [0,100]", "statement": "Every coverage figure of a report (coverpoint, cross, covergroup, cover-instance, overall) is between 0 and 100 when no covergroup or coverpoint weight is negative.", "quantifier": "for every database with non-negative weights whose report is built without an exception; computed in exact arithmetic, or in double precision with total weights up to 2^53/100", "why_tests_cant": "Range statement over all weights, counts, thresholds and nestings.", "anchors": ["src/ucis/report/coverage_report_builder.py: build_covergroups", "src/ucis/report/coverage_report_builder.py: build_covergroup", "src/ucis/report/coverage_report_builder.py: build_coverpoint", "src/ucis/report/coverage_report_builder.py: build_cross"]}
{"id": "C17", "title": "Full coverage means every bin is hit", "statement": "A coverpoint or cross is reported 100% exactly when it has at least one ordinary bin and every ordinary bin has reached its threshold; it is 0% exactly when no ordinary bin has. A covergroup with non-negative weights and positive total weight is 100% exactly when each of its crosses and positively weighted coverpoints is 100%.", "quantifier": "for every coverpoint, cross and covergroup; computed in exact arithmetic, or in double precision with fewer than 2^53 bins and, for a group of k items with at most B bins each and total weight W, 2(k+3)BW < 2^53", "why_tests_cant": "Biconditional over all bin sets.", "anchors": ["src/ucis/report/coverage_report_builder.py: build_covergroup", "src/ucis/report/coverage_report_builder.py: build_coverpoint", "src/ucis/report/coverage_report_builder.py: build_cross"]}
{"id": "C18", "title": "Covergroup coverage is the weighted mean of its items", "statement": "With non-negative weights, the coverage of a covergroup or cover-instance is the mean of the coverages of its coverpoints and crosses, where a coverpoint counts with the weight stored in the database (weight 0 excludes it) and each cross with weight 1, and it is 0 if the total weight is 0. In double precision this holds up to 200(k+3)/2^53 percent for k items.", "quantifier": "for every covergroup with non-negative weights", "why_tests_cant": "The space of databases (names, nesting, number of inputs, unbounded counts) is infinite; a test fixes one shape and one set of counts.", "anchors": ["src/ucis/report/coverage_report_builder.py: build_covergroup", "src/ucis/report/coverage_report_builder.py: build_cross"]}
{"id": "C19", "title": "Ignore and illegal bins do not influence coverage", "statement": "Adding, removing or changing ignore or illegal bins anywhere in the database changes no coverage figure of the report.", "quantifier": "for every database and every change of non-ordinary bins", "why_tests_cant": "Quantifies over pairs of databases that differ arbitrarily in the excluded bins.", "anchors": ["src/ucis/report/coverage_report_builder.py: build_coverpoint", "src/ucis/report/coverage_report_builder.py: build_cross"]}
{"id": "C20", "title": "Coverage is monotone in the counts", "statement": "Increasing any counts (leaving everything else as is) never decreases any coverage figure of a report when weights are non-negative.", "quantifier": "for every pair of databases that differ only by larger counts in the second", "why_tests_cant": "A relational property over all pairs of databases.", "anchors": ["src/ucis/report/coverage_report_builder.py: build_covergroups", "src/ucis/report/coverage_report_builder.py: build_covergroup"]}
{"id": "C21", "title": "Overall coverage accounts for all covergroups", "statement": "The overall coverage of a report is the weighted mean over all covergroups of all instances of the database.", "quantifier": "for every database with positive total weight", "why_tests_cant": "Tests use one instance; with several instances the figure is different.", "anchors": ["src/ucis/report/coverage_report_builder.py: build_covergroups", "src/ucis/report/coverage_report.py: CoverageReport.coverage"]}
{"id": "C22", "title": "A report is produced exactly when every instance has covergroup weight", "statement": "Building a report raises a division error exactly when some instance has covergroups whose weights add up to zero (in particular when it has none), given that all bins carry thresholds.", "quantifier": "for every database", "why_tests_cant": "Exact error boundary over all databases.", "anchors": ["src/ucis/report/coverage_report_builder.py: build_covergroups"]}
{"id": "C23", "title": "The report mirrors the database", "statement": "The report lists every covergroup, cover-instance, coverpoint, cross and bin (with name, count, weight of coverpoints and covergroups, in creation order, split by bin kind for coverpoints) exactly once and nothing else.", "quantifier": "for every database", "why_tests_cant": "The space of databases (names, nesting, number of inputs, unbounded counts) is infinite; a test fixes one shape and one set of counts.", "anchors": ["src/ucis/report/coverage_report_builder.py: _build", "src/ucis/report/coverage_report_builder.py: build_covergroup", "src/ucis/report/coverage_report_builder.py: build_coverpoint", "src/ucis/report/coverage_report_builder.py: build_cross"]}
{"id": "C24", "title": "Cross weights are honoured", "statement": "The weight set on a cross is the weight it is reported with and the weight with which it enters the coverage of its covergroup.", "quantifier": "for every covergroup", "why_tests_cant": "Tests only use the default weight.", "anchors": ["src/ucis/report/coverage_report_builder.py: build_cross", "src/ucis/mem/mem_cross.py: MemCross"]}
{"id": "C25", "title": "Per-bin hit flags agree with the percentage", "statement": "In a report, the percentage of each coverpoint and cross equals the share of its listed bins whose hit flag is set.", "quantifier": "for every coverpoint and cross with at least one bin", "why_tests_cant": "For crosses the flag and the percentage use different thresholds, visible only with unusual thresholds.", "anchors": ["src/ucis/report/coverage_report.py: CoverBin.hit", "src/ucis/report/coverage_report_builder.py: build_cross", "src/ucis/report/coverage_report_builder.py: build_coverpoint"]}
{"id": "C26", "title": "Scaling all weights leaves coverage unchanged", "statement": "Multiplying all weights of coverpoints of a covergroup (or of covergroups of an instance) by the same positive factor does not change the coverage figure, provided the group has no crosses. In double precision it changes by rounding errors at most.", "quantifier": "for every database without crosses and every positive factor", "why_tests_cant": "Metamorphic relation over all weights.", "anchors": ["src/ucis/report/coverage_report_builder.py: build_covergroup", "src/ucis/report/coverage_report_builder.py: build_covergroups"]}
{"id": "C27", "title": "Covergroup lookup by name", "statement": "Looking a covergroup up by name in the report's map returns the last covergroup of that name in the report's list, and succeeds exactly for names in the list.", "quantifier": "for every database", "why_tests_cant": "The space of databases (names, nesting, number of inputs, unbounded counts) is infinite; a test fixes one shape and one set of counts.", "anchors": ["src/ucis/report/coverage_report_builder.py: build_covergroups", "src/ucis/report/coverage_report.py: CoverageReport"]}
{"id": "C28", "title": "Text report layout", "statement": "The text report has exactly one heading line per covergroup, cover-instance, coverpoint and cross (and per listed bin with details on), in database order, each indented by four spaces per nesting level; the indentation returns to its initial value after the report.", "quantifier": "for every report and any option setting", "why_tests_cant": "Arbitrary nesting depth.", "anchors": ["src/ucis/report/text_coverage_report_formatter.py: TextCoverageReportFormatter", "src/ucis/report/format_rpt_text.py: FormatRptText"]}
{"id": "C29", "title": "Ordering bins by hit only reorders", "statement": "With ordering by hit switched on, the report prints exactly the same bin lines, all hit bins before all other bins, each class in its original order.", "quantifier": "for every list of bins", "why_tests_cant": "The space of databases (names, nesting, number of inputs, unbounded counts) is infinite; a test fixes one shape and one set of counts.", "anchors": ["src/ucis/report/text_coverage_report_formatter.py: report_bins"]}
{"id": "C30", "title": "JSON report exists for every reportable database", "statement": "Whenever a coverage report can be built for a database, the JSON report formatter produces output that contains every covergroup with its coverage, every coverpoint with its name, coverage and bins, and every cross with its name and bins.", "quantifier": "for every database for which a report can be built", "why_tests_cant": "Tests without crosses pass although every database with a cross fails.", "anchors": ["src/ucis/report/format_rpt_json.py: FormatRptJson.report", "src/ucis/report/format_rpt_json.py: report_cross"]}
{"id": "C31", "title": "XML round trip keeps coverpoint data", "statement": "Writing a database as XML and reading it back preserves, for each instance and each cover-instance (or for the covergroup itself if it has none), the names, order, bin names, bin kinds and bin counts of all its coverpoints.", "quantifier": "for every database with uniquely named instances that the writer accepts and whose crosses resolve", "why_tests_cant": "Round trip over all databases and unbounded counts.", "anchors": ["src/ucis/xml/xml_writer.py: write_coverinstance", "src/ucis/xml/xml_writer.py: write_coverpoint_bins", "src/ucis/xml/xml_reader.py: readCovergroup", "src/ucis/xml/xml_reader.py: readCoverpointBin"]}
{"id": "C32", "title": "XML round trip keeps cross data", "statement": "Writing a database as XML and reading it back preserves, for each written covergroup instance, the crosses with their names, the names of their crossed coverpoints, and the names, kinds and counts of their bins.", "quantifier": "for every database as above whose coverpoint names have no surrounding white space", "why_tests_cant": "As above; kinds of cross bins are not visible in default tests.", "anchors": ["src/ucis/xml/xml_writer.py: write_cross", "src/ucis/xml/xml_writer.py: write_cross_bins", "src/ucis/xml/xml_reader.py: readCrossInst", "src/ucis/xml/xml_reader.py: readCrossBin"]}
{"id": "C33", "title": "Type coverage read from XML is the sum over instances", "statement": "After reading an XML file, the type-level count of every coverpoint bin and cross bin of a covergroup equals the sum of the counts of that bin in all covergroup instances of that type within the same covergroupCoverage element.", "quantifier": "for every readable document", "why_tests_cant": "Sums over any number of instances.", "anchors": ["src/ucis/xml/xml_reader.py: readCovergroup", "src/ucis/xml/xml_reader.py: populateCoverpointType", "src/ucis/xml/xml_reader.py: populateCrossType"]}
{"id": "C34", "title": "Bin kinds survive type aggregation in XML", "statement": "After reading an XML file the type-level bins of a coverpoint have, for each kind separately, the summed counts of the instance bins of that kind.", "quantifier": "for every readable document", "why_tests_cant": "Needs same-named bins of different kinds.", "anchors": ["src/ucis/xml/xml_reader.py: readCoverpointBin", "src/ucis/xml/xml_reader.py: populateCoverpointType"]}
{"id": "C35", "title": "XML writing is stable", "statement": "Writing a database, reading it, and writing it again gives the same instance-coverage part of the document.", "quantifier": "for every database with uniquely named instances and crossed coverpoint names without surrounding white space that the writer accepts and whose document the reader accepts", "why_tests_cant": "Fixpoint over all databases.", "anchors": ["src/ucis/xml/xml_writer.py: write", "src/ucis/xml/xml_reader.py: read"]}
{"id": "C36", "title": "Coverage figures survive XML", "statement": "The coverage report of a database that is written to XML and read back shows the same percentages as the report of the original (of groups and in total up to rounding in double precision).", "quantifier": "for every database", "why_tests_cant": "Thresholds and weights are not stored by the writer; default tests use the defaults.", "anchors": ["src/ucis/xml/xml_writer.py: write_options", "src/ucis/xml/xml_reader.py: readCoverpointBin", "src/ucis/report/coverage_report_builder.py: build"]}
{"id": "C37", "title": "XML reader rejects exactly the malformed documents", "statement": "Reading fails exactly when the document violates one of: every instance id refers to a declared file, bins have a range or sequence with contents, bin types are among the four known, counts are integers, crosses only name coverpoints of the same covergroup instance (and already known ones), history nodes carry the required attributes.", "quantifier": "for every document tree", "why_tests_cant": "Exact error boundary over all documents.", "anchors": ["src/ucis/xml/xml_reader.py: read", "src/ucis/xml/xml_reader.py: readCoverpointBin", "src/ucis/xml/xml_reader.py: readCrossInst", "src/ucis/xml/xml_reader.py: readStatementId"]}
{"id": "C38", "title": "Source file table", "statement": "In a written document the source file ids are 1..n without gaps or duplicates, each file name occurs once, the null file has id 1, and every file referenced by any scope of the database is listed.", "quantifier": "for every database", "why_tests_cant": "Recursive over arbitrary scope trees.", "anchors": ["src/ucis/xml/xml_writer.py: find_all_files", "src/ucis/xml/xml_writer.py: write_source_files"]}
{"id": "C39", "title": "History nodes survive XML", "statement": "Writing and reading back a history node preserves its logical and physical name, test status, times, seed, command, arguments, user, cost, tool and vendor attributes, number of same tests and comment.", "quantifier": "for every history node with a valid date", "why_tests_cant": "Optional attributes in any combination.", "anchors": ["src/ucis/xml/xml_writer.py: write_history_nodes", "src/ucis/xml/xml_reader.py: readHistoryNode"]}
{"id": "C40", "title": "Written documents satisfy the schema the reader enforces", "statement": "A document produced by the writer satisfies the structural constraints of the schema used for validation on read (at least one source file, history node and instance; at least one coverpoint per covergroup instance and one bin per coverpoint; non-negative counts).", "quantifier": "for every database", "why_tests_cant": "The exact set of databases for which this holds is needed; tests show single examples.", "anchors": ["src/ucis/xml/xml_writer.py: write", "src/ucis/xml/schema/ucis.xsd", "src/ucis/xml/xml_factory.py: XmlFactory.read"]}
{"id": "C41", "title": "Dates survive XML", "statement": "A date in the YYYYMMDDHHMMSS form is unchanged by writing it as an ISO date/time and reading it back.", "quantifier": "for every valid date with a four-digit year", "why_tests_cant": "All dates, including leap days.", "anchors": ["src/ucis/xml/xml_writer.py: setAttrDateTime", "src/ucis/xml/xml_reader.py: getAttrDateTime"]}
{"id": "C42", "title": "YAML instances are loaded faithfully", "statement": "Each covergroup instance of a YAML document appears in the database with exactly its coverpoints, their bins of each kind with names, counts and thresholds, and its crosses with bins and crossed coverpoint names, in document order.", "quantifier": "for every document that loads without an exception", "why_tests_cant": "The space of databases (names, nesting, number of inputs, unbounded counts) is infinite; a test fixes one shape and one set of counts.", "anchors": ["src/ucis/yaml/yaml_reader.py: process_covergroup", "src/ucis/yaml/yaml_reader.py: record_coverpoint", "src/ucis/yaml/yaml_reader.py: record_cross"]}
{"id": "C43", "title": "YAML type coverage is the sum over instances", "statement": "For each kind of bin, the type-level bins of a coverpoint loaded from YAML carry the sums of the counts of the same bin over all instances.", "quantifier": "for every document that loads", "why_tests_cant": "Ignore and illegal bins take another path than ordinary bins.", "anchors": ["src/ucis/yaml/yaml_reader.py: process_covergroup"]}
{"id": "C44", "title": "YAML thresholds apply to type coverage", "statement": "The threshold given for a coverpoint or cross in a YAML document is the threshold of its bins both in the instance and in the type coverage.", "quantifier": "for every document that loads in which all instances give the same threshold", "why_tests_cant": "Default thresholds hide the difference.", "anchors": ["src/ucis/yaml/yaml_reader.py: record_coverpoint", "src/ucis/yaml/yaml_reader.py: record_cross"]}
{"id": "C45", "title": "YAML crosses bind to coverpoints of their own instance", "statement": "A cross of a covergroup instance only refers to coverpoints of the same instance, and loading fails if a named coverpoint does not exist there.", "quantifier": "for every document", "why_tests_cant": "Needs several instances with different coverpoints.", "anchors": ["src/ucis/yaml/yaml_reader.py: process_covergroup"]}
{"id": "C46", "title": "YAML covergroups without instances load", "statement": "A covergroup without instances is accepted with a warning and yields an empty covergroup.", "quantifier": "for every document containing such a covergroup", "why_tests_cant": "Absence of an optional section.", "anchors": ["src/ucis/yaml/yaml_reader.py: process_covergroup", "src/ucis/schema/coverage.json"]}
{"id": "C47", "title": "Scope iteration is exact", "statement": "Iterating over the scopes of a parent with a type mask yields exactly the children whose type intersects the mask, each once, in creation order; iteration over cover items and history nodes obeys the same law for their kinds.", "quantifier": "for every database reachable by API calls, every parent and every mask", "why_tests_cant": "All masks, all creation histories.", "anchors": ["src/ucis/mem/mem_scope_iterator.py: MemScopeIterator", "src/ucis/mem/mem_cover_index_iterator.py: MemCoverIndexIterator", "src/ucis/mem/mem_history_node_iterator.py: MemHistoryNodeIterator"]}
{"id": "C48", "title": "Iteration tolerates insertion", "statement": "If items are added while an iteration is in progress, the iteration still yields every matching item, old and new, exactly once and in creation order.", "quantifier": "for every interleaving of iteration steps and insertions", "why_tests_cant": "Infinitely many interleavings.", "anchors": ["src/ucis/mem/mem_scope_iterator.py: __next__", "src/ucis/mem/mem_cover_index_iterator.py: __next__", "src/ucis/mem/mem_history_node_iterator.py: __next__"]}
{"id": "C49", "title": "The scope structure is a tree", "statement": "After any sequence of creation calls each scope other than a database root is a child of exactly one parent, exactly once, the parent it reports, and was created after its parent.", "quantifier": "for every sequence of API calls, including failing ones", "why_tests_cant": "Invariant over all call sequences.", "anchors": ["src/ucis/mem/mem_scope.py: MemScope", "src/ucis/mem/mem_instance_scope.py: MemInstanceScope", "src/ucis/mem/mem_covergroup.py: MemCovergroup"]}
{"id": "C50", "title": "Creation only adds", "statement": "A creation call that succeeds adds exactly one new last child (or bin) to its receiver and changes nothing else; a call that raises changes nothing.", "quantifier": "for every reachable store and every creation call", "why_tests_cant": "Frame condition over all objects.", "anchors": ["src/ucis/mem/mem_scope.py: createScope", "src/ucis/mem/mem_scope.py: createNextCover", "src/ucis/mem/mem_instance_scope.py: createScope"]}
{"id": "C51", "title": "Integer properties read back", "statement": "After setting a supported integer property on a scope, reading it gives the value set (options that are on or off read 1 if the value was 1 and 0 otherwise), and no other property of this or any other scope is changed except the alias pair scope-goal / cover-goal. Setting any other property raises and changes nothing. The properties that can be read are those that can be set and the read-only one that tells whether the scope is under a design unit; reading any other raises.", "quantifier": "for every scope kind, property and value", "why_tests_cant": "All property pairs and scope classes.", "anchors": ["src/ucis/mem/mem_scope.py: getIntProperty", "src/ucis/cvg_scope.py: getIntProperty", "src/ucis/covergroup.py: getIntProperty", "src/ucis/scope.py: getIntProperty"]}
{"id": "C52", "title": "String properties read back", "statement": "A comment set on a covergroup or coverpoint through the string-property interface can be read back through it.", "quantifier": "for every scope and every string", "why_tests_cant": "A test of the direct setter does not exercise the property interface.", "anchors": ["src/ucis/mem/mem_obj.py: setStringProperty", "src/ucis/cvg_scope.py: setStringProperty"]}
{"id": "C53", "title": "Counts accumulate", "statement": "After any sequence of increments the count of a bin is its initial count plus the sum of the increments, and the counts of all other bins are unchanged.", "quantifier": "for every sequence of increments on every set of bins", "why_tests_cant": "All sequences and amounts.", "anchors": ["src/ucis/mem/mem_cover_index.py: incrementCover", "src/ucis/coverpoint.py: createBin"]}
{"id": "C54", "title": "Cover items created on a scope are visible", "statement": "A cover item created on a scope through the generic creation call is visible when iterating over the cover items of this scope.", "quantifier": "for every scope kind", "why_tests_cant": "Instance scopes use a different list.", "anchors": ["src/ucis/mem/mem_instance_scope.py: createNextCover", "src/ucis/mem/mem_scope.py: coverItems"]}
{"id": "C55", "title": "File handles are interned", "statement": "Requesting a file handle twice for the same name gives the same object, for different names different objects, whatever happens in between.", "quantifier": "for every sequence of requests", "why_tests_cant": "All request sequences.", "anchors": ["src/ucis/mem/mem_ucis.py: createFileHandle"]}
{"id": "C56", "title": "Cover instance keys are unique", "statement": "Keys handed out to instance-coverage records of one database are pairwise different.", "quantifier": "for every sequence of creations", "why_tests_cant": "Unbounded number of creations.", "anchors": ["src/ucis/mem/mem_ucis.py: createCoverInstance"]}
{"id": "C57", "title": "Test data is stored completely", "statement": "After storing test data on a history node, each of its thirteen values is returned by the corresponding getter and the remaining attributes are unchanged.", "quantifier": "for every history node and test data", "why_tests_cant": "All values in all fields.", "anchors": ["src/ucis/history_node.py: setTestData", "src/ucis/mem/mem_history_node.py: MemHistoryNode"]}
{"id": "C58", "title": "Test status is readable as integer property", "statement": "The integer property for the test status distinguishes passed tests from failed ones.", "quantifier": "for every test status", "why_tests_cant": "Only statuses other than OK show the loss.", "anchors": ["src/ucis/mem/mem_history_node.py: getIntProperty", "src/ucis/test_status_t.py: TestStatusT"]}
{"id": "C59", "title": "Format registry behaves as a map", "statement": "After any sequence of registrations a format is reported as available exactly when it was registered, the descriptor returned is the last one registered under the name, requesting an unknown format raises, and listings contain each registered name once in sorted order.", "quantifier": "for every sequence of registrations", "why_tests_cant": "All sequences.", "anchors": ["src/ucis/rgy/format_rgy.py: FormatRgy"]}
{"id": "C60", "title": "Command line separates plus-arguments", "statement": "Arguments starting with '+' are collected in order as plus-arguments and all others are passed to the parser in order; none is lost or duplicated.", "quantifier": "for every argument vector", "why_tests_cant": "All vectors, including empty arguments.", "anchors": ["src/ucis/__main__.py: main"]}
{"id": "C61", "title": "Unknown formats are rejected before any file is touched", "statement": "The merge, convert and report commands raise an error without reading or writing any file if one of the format names is not registered.", "quantifier": "for all argument values and registries", "why_tests_cant": "Requires observing the absence of effects.", "anchors": ["src/ucis/cmd/cmd_merge.py: merge", "src/ucis/cmd/cmd_convert.py: convert", "src/ucis/cmd/cmd_report.py: report"]}
{"id": "C62", "title": "Compressed files are recognised", "statement": "An input file is opened with gzip exactly when its first two bytes are 1f 8b, with lz4 exactly when its first four bytes are 04 22 4d 18, and as plain text otherwise; the two cases exclude each other.", "quantifier": "for every file content", "why_tests_cant": "All byte strings, including short ones.", "anchors": ["src/ucis/xml/xml_factory.py: _open_file"]}
{"id": "C63", "title": "Library cover data keeps the count", "statement": "Converting cover data to its C structure stores the full count whenever it fits the width announced by the flags and raises if no width is announced.", "quantifier": "for every flag word and count", "why_tests_cant": "All flag combinations and widths.", "anchors": ["src/ucis/lib/lib_cover_data.py: LibCoverData.ctor"]}
{"id": "C64", "title": "Library test data round trip", "statement": "Converting test data to its C structure and back gives the original test data.", "quantifier": "for every test data", "why_tests_cant": "All values in all fields; equal defaults hide swapped fields.", "anchors": ["src/ucis/lib/lib_test_data.py: LibTestData.ctor", "src/ucis/lib/lib_test_data.py: to_testdata"]}
{"id": "C65", "title": "Merged design units and source locations", "statement": "After a merge every merged instance refers to a design unit of the merged database that appears directly before it and carries the name, source location and weight of the design unit of the instance in the first input that has it; the source location of every merged scope is that of the scope in the first input that has it.", "quantifier": "for every list of input databases on which the merge succeeds", "why_tests_cant": "Locations and design units are usually equal in all inputs of a test, so a wrong choice does not show.", "anchors": ["src/ucis/merge/db_merger.py: DbMerger.merge", "src/ucis/merge/db_merger.py: _merge_covergroups"]}
{"id": "C66", "title": "Printed percentages are accurate", "statement": "The percentage printed for an item differs from its coverage by at most half a unit of the last place to which the formatter rounds: the selected number of decimals, or in the txt format two decimals for covergroups and whole percents for coverpoints and crosses.", "quantifier": "for every non-negative coverage figure and every number of decimals", "why_tests_cant": "Rounding errors appear only for particular quotients.", "anchors": ["src/ucis/report/text_coverage_report_formatter.py: report_covergroup", "src/ucis/report/format_rpt_text.py: report_coverpoint"]}
{"id": "C67", "title": "A printed 100% means fully covered", "statement": "A text report prints 100% for a coverpoint only if every ordinary bin of the coverpoint has reached its threshold.", "quantifier": "for every coverpoint and every option setting", "why_tests_cant": "Fails only for coverpoints with hundreds of bins, which tests do not contain.", "anchors": ["src/ucis/report/text_coverage_report_formatter.py: report_coverpoint", "src/ucis/report/format_rpt_text.py: report_coverpoint"]}
{"id": "C68", "title": "XML writer accepts exactly the representable databases", "statement": "Writing a database as XML succeeds exactly when every source file name is printable, every history node has text fields and a date the writer can convert, every instance has covergroups whose coverpoints and crosses have only bins with an XML kind and counts, and every crossed coverpoint is named.", "quantifier": "for every database built from the scope types the writer visits", "why_tests_cant": "All combinations of missing data in arbitrarily nested databases; tests only write well-formed databases.", "anchors": ["src/ucis/xml/xml_writer.py: XmlWriter.write"]}
{"id": "C69", "title": "The read database contains what the document says", "statement": "When reading an XML document succeeds, the database has the instances, covergroups, covergroup instances, coverpoints, crosses and bins of the document in document order, with the names, weights, counts, kinds and thresholds given there, and the history nodes with the attributes given there.", "quantifier": "for every readable document", "why_tests_cant": "Unbounded documents; a test document fixes one shape.", "anchors": ["src/ucis/xml/xml_reader.py: XmlReader.read"]}
{"id": "C70", "title": "Databases read from XML can be reported", "statement": "A coverage report can be built of a database read from XML exactly when every instance of the document contains a covergroup (or there is no instance).", "quantifier": "for every readable document", "why_tests_cant": "Needs all documents; the failing ones are valid but contain no functional coverage.", "anchors": ["src/ucis/xml/xml_reader.py: XmlReader.read", "src/ucis/report/coverage_report_builder.py: CoverageReportBuilder._build"]}
{"id": "C71", "title": "Schema-valid documents can be read", "statement": "A document that passes schema validation is read without exception exactly when its dates are in the form without time zone or fraction, its numbers fit the reader, the file ids are declared, and crosses name coverpoints of their own covergroup instance.", "quantifier": "for every document", "why_tests_cant": "Quantifies over all schema-valid documents, including the many that no simulator in the tests produces.", "anchors": ["src/ucis/xml/xml_factory.py: XmlFactory.read", "src/ucis/xml/xml_reader.py: XmlReader.read", "src/ucis/xml/schema/ucis.xsd"]}
{"id": "C72", "title": "YAML loading accepts exactly the loadable documents", "statement": "Loading a YAML document succeeds exactly when the document satisfies the schema, has a coverage section, every covergroup lists its instances, every crossed name is a coverpoint of the same or an earlier instance of the covergroup, and a cross that has bins in some instance has a bin list in the first instance where it occurs.", "quantifier": "for every document (tree of mappings, lists and values)", "why_tests_cant": "All documents, valid or not, with any number of covergroups and instances; tests load a handful.", "anchors": ["src/ucis/yaml/yaml_reader.py: YamlReader.load", "src/ucis/schema/coverage.json"]}
{"id": "C73", "title": "Databases loaded from YAML can be reported", "statement": "A coverage report can be built of a database loaded from YAML exactly when the weights of its covergroups (1 where none is given) do not add up to zero.", "quantifier": "for every loadable document", "why_tests_cant": "Fails only for zero or cancelling weights or missing covergroups, which no test document has.", "anchors": ["src/ucis/yaml/yaml_reader.py: YamlReader.load", "src/ucis/report/coverage_report_builder.py: CoverageReportBuilder._build"]}
{"id": "C74", "title": "The commands write only their output, and only after merging", "statement": "The merge and convert commands write their output file only after all inputs were read and merged; they succeed exactly if inputs, merge and writing succeed, then the output holds what the output format writes for the merged inputs. No other file is changed by merge, convert or report, whether they succeed or fail.", "quantifier": "for every registry of formats, every list of inputs, every state of the file system", "why_tests_cant": "Needs all failure points in all combinations; tests only run successful commands.", "anchors": ["src/ucis/cmd/cmd_merge.py: merge", "src/ucis/cmd/cmd_convert.py: convert", "src/ucis/cmd/cmd_report.py: report"]}
{"id": "C75", "title": "A failing command leaves an existing output file alone", "statement": "If the merge or convert command fails, a file that already existed at the output path has its previous content.", "quantifier": "for every input, every state of the file system and every failure", "why_tests_cant": "Requires failures in every phase, including in the middle of writing; tests never make a write fail over an existing file.", "anchors": ["src/ucis/cmd/cmd_merge.py: merge", "src/ucis/xml/xml_ucis.py: XmlUCIS.write"]}
{"id": "C76", "title": "A failing command gives a non-zero exit status", "statement": "If a command fails with an exception the process ends with a status other than 0.", "quantifier": "for every command, argument vector and failure", "why_tests_cant": "Scripts depend on it for every failure; the tests call the functions directly and never look at the exit status.", "anchors": ["src/ucis/__main__.py: main"]}
{"id": "C77", "title": "Format listings", "statement": "The listing commands print exactly one line per registered format, in sorted order, each starting with the name, padded so that all descriptions start in the same column.", "quantifier": "for every registry", "why_tests_cant": "All sets of formats with names of all lengths; tests have one fixed registry.", "anchors": ["src/ucis/cmd/cmd_list_db_formats.py: list_db_formats", "src/ucis/cmd/cmd_list_report_formats.py: list_report_formats"]}
{"id": "C78", "title": "Formats can do what they announce", "statement": "A registered database format that announces creating, reading or writing can create a database, read some file, write some database.", "quantifier": "for every registered format, whatever the external libraries do", "why_tests_cant": "Absence of any readable file or writable database cannot be tested.", "anchors": ["src/ucis/rgy/format_rgy.py: FormatRgy._init_rgy", "src/ucis/yaml/yaml_ucis.py: YamlUCIS.write", "src/ucis/lib/db_format_if_lib.py: DbFormatIfLib"]}
{"id": "C79", "title": "Coverage files that can be read can be merged and stored", "statement": "Databases read from XML files can always be merged. The merge of one or more of them can be written as XML and the library reads that file again; hence the merge command on readable XML files succeeds whenever the output can be opened, and produces a readable file. The only exception are files with blank crossed names.", "quantifier": "for every list of XML documents the library reads", "why_tests_cant": "All combinations of all readable documents, including those of other tools with the same names used differently; tests merge databases built through the API and never chain merge, write and read.", "anchors": ["src/ucis/merge/db_merger.py: DbMerger.merge", "src/ucis/xml/xml_reader.py: XmlReader.read", "src/ucis/xml/xml_writer.py: XmlWriter.write", "src/ucis/cmd/cmd_merge.py: merge"]}
{"id": "C80", "title": "Counts add up from the input files to the output file", "statement": "After merging XML files into an XML file, the count of every bin of every coverpoint and cross of a cover-instance in the output is the sum of its counts in the inputs. If the kind of a coverpoint bin is the same wherever it occurs, the same holds for the coverpoints and crosses of the covergroups themselves.", "quantifier": "for every list of readable XML files without same-named siblings, every address, bin name and bin kind", "why_tests_cant": "End-to-end sum over parser, reader, merger and writer for all inputs; a test can only compare a few counters.", "anchors": ["src/ucis/cmd/cmd_merge.py: merge", "src/ucis/merge/db_merger.py: DbMerger.merge", "src/ucis/xml/xml_reader.py: XmlReader.read", "src/ucis/xml/xml_writer.py: XmlWriter.write"]}
{"id": "C81", "title": "Storing a merge does not change the reported coverage", "statement": "The coverage report on a merge of databases read from XML files has the same total, and the same figures for every covergroup, coverpoint, cross and cover-instance, as the report on the database obtained by storing the merge and reading it again (of groups and in total up to rounding in double precision).", "quantifier": "for every list of readable XML files without same-named siblings", "why_tests_cant": "The figures are recomputed from counts that the reader re-aggregates; equality must hold for all aggregations. It fails only if a bin changes its kind between inputs, which tests do not have.", "anchors": ["src/ucis/report/coverage_report_builder.py: CoverageReportBuilder._build", "src/ucis/merge/db_merger.py: DbMerger.merge", "src/ucis/xml/xml_reader.py: XmlReader.read_covergroups"]}
{"id": "C82", "title": "Merging leaves its inputs alone", "statement": "Merging databases changes nothing but the destination: every other scope, every existing bin and count, every file handle and history record is afterwards what it was, and reading any other scope shows the same content. The destination keeps what it had and only gains children. All this also holds if the merge fails.", "quantifier": "for every store built by any sequence of API calls, every destination database, every list of inputs, successful or not", "why_tests_cant": "Absence of any effect on any object for all object graphs, including every point at which an exception can occur; tests look at the destination of successful merges only.", "anchors": ["src/ucis/merge/db_merger.py: DbMerger.merge", "src/ucis/mem/mem_scope.py: MemScope.createScope", "src/ucis/mem/mem_coverpoint.py: MemCoverpoint.createBin"]}
{"id": "C83", "title": "A merged database shares nothing with its inputs", "statement": "Everything a merge creates hangs below the destination and belongs to it alone: bins have their own counters, crosses refer to the merged coverpoints of their own covergroup, instances to their own merged design unit. So later changes of an input never show in the merge, nor the other way round (unless a scope outside the merge itself names the destination as design unit or crossed coverpoint).", "quantifier": "for every store built by any sequence of API calls, every destination and list of inputs", "why_tests_cant": "Aliasing is invisible in the values that tests compare; it shows only under later mutation.", "anchors": ["src/ucis/merge/db_merger.py: DbMerger._merge_crosses", "src/ucis/merge/db_merger.py: DbMerger.merge", "src/ucis/mem/mem_cross.py: MemCross"]}
{"id": "C84", "title": "Merging depends only on the content of the databases", "statement": "The outcome of a merge, success or the kind of failure, and the content of the destination afterwards are a function of what the inputs and the destination show when the merge begins. In particular it is the same if an input is given several times, if the destination is itself an input, or if inputs are replaced by equal copies.", "quantifier": "for every store, destination and list of inputs, with any overlap between them", "why_tests_cant": "Interference between reading an input and growing a destination that overlaps with it, for all object graphs; tests use distinct databases.", "anchors": ["src/ucis/merge/db_merger.py: DbMerger.merge", "src/ucis/mem/mem_scope_iterator.py: MemScopeIterator"]}
{"id": "C85", "title": "A call affects only what it is made on", "statement": "A call changes at most the scope or history node it is made on, or the counter of the bin it is made on (or the cover data whose attribute it assigns). Every other scope with all its attributes, every other counter, all bins, records and file handles are the same afterwards, whether the call succeeds or raises. Properties, weights and counts of one object can thus never change through another.", "quantifier": "for every API call with every argument and every state of the store", "why_tests_cant": "Shared default values or class attributes show only when some other object is looked at; a test looks at the object it changed.", "anchors": ["src/ucis/mem/mem_scope.py: MemScope", "src/ucis/mem/mem_obj.py: MemObj", "src/ucis/mem/mem_cover_index.py: MemCoverIndex.incrementCover", "src/ucis/mem/mem_history_node.py: MemHistoryNode"]}
{"id": "C86", "title": "Reported percentages are accurate", "statement": "The figures of a coverage report, computed in double precision floating point, differ from the exact values by at most 200(2K+5)/2^53 percentage points, where K bounds the number of items per group and of groups per instance; for a million of each this is less than 0.0000001. A report can be made in double precision exactly if it can be made in exact arithmetic, and has the same entries.", "quantifier": "for every database with non-negative weights, total weights up to 2^53 and K up to 2^50", "why_tests_cant": "Accumulation of rounding errors over sums of any length; tests compare a few figures with a tolerance.", "anchors": ["src/ucis/report/coverage_report_builder.py: build_covergroups", "src/ucis/report/coverage_report_builder.py: build_covergroup", "src/ucis/report/coverage_report_builder.py: build_coverpoint", "src/ucis/report/coverage_report_builder.py: build_cross"]}
{"id": "C87", "title": "The report command shows the coverage of the named file", "statement": "The report command succeeds exactly if the input file can be read, the report on it can be computed and shown in the requested format (as txt every report can be shown, as json those without crosses) and the output can be opened. Then the file or standard output receives the text of the report on the database in the input file, with every covergroup, coverpoint, cross and cover-instance, and nothing else is written.", "quantifier": "for every command line, every content of the files and every behaviour of the parsers", "why_tests_cant": "Equivalence over all inputs and failure points of a command; tests run a few successful commands.", "anchors": ["src/ucis/cmd/cmd_report.py: report", "src/ucis/report/format_rpt_json.py: FormatRptJson.report", "src/ucis/report/format_rpt_text.py: FormatRptText.report", "src/ucis/rgy/format_rgy.py: FormatRgy"]}
{"id": "C88", "title": "Native databases: creations are passed on", "statement": "Creating a scope, instance, covergroup, cover-instance, coverpoint, cross or toggle in a database of a native library makes exactly one creation call of the C interface, below the same parent and with the same name, location, weight, type and references. Everything else the library is told afterwards only concerns options of the new object, which end at their documented defaults. The result stands for the handle the library returned.", "quantifier": "for every native library, every history of calls, and all arguments that fit the C types", "why_tests_cant": "Holds for all behaviours of an external library; the tests skip the binding when no library is installed.", "anchors": ["src/ucis/lib/lib_scope.py: LibScope", "src/ucis/lib/lib_covergroup.py: LibCovergroup", "src/ucis/lib/lib_obj.py: LibObj"]}
{"id": "C89", "title": "Native databases: failed creations are reported", "statement": "If the library cannot create an object, the call raises an exception and makes no further change.", "quantifier": "for every native library and every kind of object", "why_tests_cant": "Failures of the library on demand cannot be provoked in a test.", "anchors": ["src/ucis/lib/lib_scope.py: LibScope.createCovergroup", "src/ucis/lib/lib_scope.py: LibScope.createToggle", "src/ucis/lib/lib_covergroup.py: LibCovergroup.createCross", "src/ucis/lib/lib_covergroup.py: LibCovergroup.createCoverInstance"]}
{"id": "C90", "title": "Native databases: reading does not modify", "statement": "Opening a database, walking over its scopes, and reading locations, properties and test data changes nothing in it.", "quantifier": "for every native library and every object", "why_tests_cant": "Absence of modifying calls in all cases; tests check what a read returns, not what it changes.", "anchors": ["src/ucis/lib/lib_scope.py: LibScope.__init__", "src/ucis/lib/lib_scope_iterator.py: LibScopeIterator", "src/ucis/lib/lib_history_node.py: LibHistoryNode.getTestData"]}
{"id": "C91", "title": "Native databases: properties can be read back", "statement": "Setting a property hands the value to the library for the same object; reading a property gives the value set last.", "quantifier": "for every native library, object, property and value", "why_tests_cant": "All objects, properties and values; no test covers properties of native databases.", "anchors": ["src/ucis/lib/lib_obj.py: LibObj.setIntProperty", "src/ucis/lib/lib_obj.py: LibObj.getIntProperty", "src/ucis/lib/lib_ucis.py: LibUCIS.isModified"]}
{"id": "C92", "title": "Native databases: iteration is complete and releases its resources", "statement": "A loop over scopes or history nodes of a native database yields exactly the handles the library enumerates, in order, and then stops. The iterator of the library is freed exactly once, after the last use.", "quantifier": "for every native library and every number of elements", "why_tests_cant": "Use after free and leaks do not show in results; quantifies over all enumerations.", "anchors": ["src/ucis/lib/lib_scope_iterator.py: LibScopeIterator.__next__", "src/ucis/lib/lib_history_node_iterator.py: LibHistoryNodeIterator.__next__", "src/ucis/lib/lib_ucis.py: LibUCIS.historyNodes"]}
{"id": "C93", "title": "Native databases: type selections reach the library", "statement": "The set of scope types asked for in an iteration reaches the library unchanged.", "quantifier": "for every set of scope types", "why_tests_cant": "All sets, including types above 2^32 that no test uses.", "anchors": ["src/ucis/lib/lib_scope.py: LibScope.scopes", "src/ucis/lib/libucis.py: fspec"]}
{"id": "C94", "title": "Native databases: bins are transmitted faithfully", "statement": "A bin created in a native database reaches the library with its name, kind, count and threshold.", "quantifier": "for every bin of every coverpoint and cross", "why_tests_cant": "All counts and kinds; the tests use small counts and look only at the in-memory database.", "anchors": ["src/ucis/lib/lib_coverpoint.py: LibCoverpoint.createBin", "src/ucis/lib/lib_cross.py: LibCross.createBin", "src/ucis/lib/lib_cover_data.py: LibCoverData"]}
{"id": "C95", "title": "Native databases: history can be recorded", "statement": "A test or merge record can be created in a native database, with or without a parent and a file name, and its test data are handed over in full.", "quantifier": "for every native library, parent, names and data", "why_tests_cant": "All combinations of present and missing arguments against all libraries.", "anchors": ["src/ucis/lib/lib_ucis.py: LibUCIS.createHistoryNode", "src/ucis/lib/lib_history_node.py: LibHistoryNode.setTestData"]}
{"id": "C96", "title": "Native databases can be merged and reported like others", "statement": "In-memory databases can be merged into a native database, native databases can be inputs of a merge, and a coverage report can be made of them.", "quantifier": "for every native library and all databases", "why_tests_cant": "Requires a native library with every possible content; no test combines the two implementations.", "anchors": ["src/ucis/merge/db_merger.py: DbMerger.merge", "src/ucis/report/coverage_report_builder.py: CoverageReportBuilder._build", "src/ucis/lib/lib_source_info.py: _LibSourceInfo.ctor", "src/ucis/scope.py: Scope.getScopeName"]}
{"id": "C97", "title": "Making a report never changes the database", "statement": "Making a coverage report of a database in memory changes nothing in it or in any other database, whether the report succeeds or raises. The report (or the exception) is determined by the content that the getters show: databases of equal content have equal reports, however they were built. Reporting on the destination of a merge is reporting on the merged content.", "quantifier": "for every store of objects reachable by API calls, every database in it, every rounding of the figures", "why_tests_cant": "A getter with a side effect or a report that depends on object identity or building order shows only for particular histories; quantifies over all call sequences.", "anchors": ["src/ucis/report/coverage_report_builder.py: CoverageReportBuilder.build", "src/ucis/mem/mem_scope_iterator.py: MemScopeIterator.__next__", "src/ucis/mem/mem_cover_index_iterator.py: MemCoverIndexIterator.__next__"]}
{"id": "C98", "title": "Writing XML never changes the database", "statement": "Writing a database in memory as XML changes nothing in it or in any other database, also when it raises. The document (or the exception) is determined by the content that the getters show, the history records and the environment. Writing the destination of a merge writes the merged content with the history the destination had.", "quantifier": "for every store of objects reachable by API calls, every database in it and every environment", "why_tests_cant": "Quantifies over all call sequences, including databases sharing design units and failing writes half way.", "anchors": ["src/ucis/xml/xml_writer.py: XmlWriter.write", "src/ucis/mem/mem_ucis.py: MemUCIS.historyNodes"]}
{"id": "C99", "title": "Reading XML makes a new database and touches no other", "statement": "Reading an XML document makes a new database in memory: its content, history records and files are those the document describes. No scope, bin, count, file handle or history record that existed before changes, whether the read succeeds or raises half way. Reading several documents, merging the databases and writing the result gives a document (or exception) that depends on the documents only.", "quantifier": "for every store of objects reachable by API calls and every document whose files have names", "why_tests_cant": "A reader that shares a scope or a count between databases shows only when several databases live at once; quantifies over all call sequences and documents.", "anchors": ["src/ucis/xml/xml_reader.py: XmlReader.read", "src/ucis/xml/xml_reader.py: XmlReader.readCovergroups", "src/ucis/cmd/cmd_merge.py: merge"]}
{"id": "C100", "title": "Reading YAML makes a new database and touches no other", "statement": "Loading a YAML document makes a new database in memory with the content the document describes. No scope, bin, count, file handle or history record that existed before changes, whether loading succeeds or raises half way. Every cross of a covergroup instance refers to coverpoint objects of that same instance.", "quantifier": "for every store of objects reachable by API calls and every document", "why_tests_cant": "Which object a cross refers to does not show in names or counts; sharing between instances or databases needs several of them alive at once. Quantifies over all call sequences and documents.", "anchors": ["src/ucis/yaml/yaml_reader.py: YamlReader.load", "src/ucis/yaml/yaml_reader.py: YamlReader.process_covergroup", "src/ucis/yaml/yaml_reader.py: YamlReader.record_cross"]}
{"id": "C101", "title": "Programs with several databases behave as the contents say", "statement": "A program that reads XML and YAML documents, makes databases, merges any of them into any other, makes reports and writes documents, in any order and repeatedly, sees at every statement the result or exception determined by the contents of the databases it uses at that time. A statement changes no database except the destination of a merge, and a merge that raises leaves the destination's earlier content in place and adds what the contents of the inputs determine. Nothing else in memory matters, and asking for reports or documents in between changes no other result.", "quantifier": "for every program, every initial set of databases and everything else in memory", "why_tests_cant": "Interference between statements (shared tables, caches, state left by a failed statement) needs particular sequences; the tests run one operation on fresh databases. Quantifies over all programs of any length.", "anchors": ["src/ucis/merge/db_merger.py: DbMerger.merge", "src/ucis/xml/xml_reader.py: XmlReader.read", "src/ucis/xml/xml_writer.py: XmlWriter.write", "src/ucis/yaml/yaml_reader.py: YamlReader.load", "src/ucis/report/coverage_report_builder.py: CoverageReportBuilder.build"]}
{"id": "C102", "title": "YAML files merged into an XML file keep every count", "statement": "Merging YAML files into an XML file (or converting one) succeeds when every covergroup of the documents has an instance, every instance a coverpoint, every coverpoint a bin, counts are not negative, names can be stored in XML and crosses name coverpoints of their own instance. The XML file can then be read, and for every covergroup, instance, coverpoint or cross, kind and name of a bin, its count in the XML file is the sum of the counts in the documents.", "quantifier": "for every list of YAML documents and every bin in them", "why_tests_cant": "The tests merge no YAML files; names, kinds, repeated and missing bins in several documents combine in unboundedly many ways.", "anchors": ["src/ucis/cmd/cmd_merge.py: merge", "src/ucis/yaml/yaml_reader.py: YamlReader.load", "src/ucis/merge/db_merger.py: DbMerger.merge", "src/ucis/xml/xml_writer.py: XmlWriter.write", "src/ucis/xml/xml_reader.py: XmlReader.read"]}
{"id": "C103", "title": "Converting YAML to XML does not change the figures", "statement": "Converting a YAML file to XML, or merging several into one, does not change the reported figures: the total, and the coverage of every covergroup, instance, coverpoint and cross are the same for the XML file as for the loaded documents.", "quantifier": "for every YAML document (list of documents) that can be converted", "why_tests_cant": "A conversion that keeps all counts can still change percentages (weights, thresholds, kinds of bins); quantifies over all documents.", "anchors": ["src/ucis/cmd/cmd_convert.py: convert", "src/ucis/yaml/yaml_reader.py: YamlReader.load", "src/ucis/xml/xml_writer.py: XmlWriter.write_covergroups", "src/ucis/report/coverage_report_builder.py: CoverageReportBuilder.build"]}
{"id": "C104", "title": "Merging a single database does not change its report", "statement": "Merging one database into an empty one gives a database with the same coverage report, whatever the figures are rounded to. Converting an XML file to XML does not change the reported figures.", "quantifier": "for every database in memory that can be merged, and every XML file that can be converted", "why_tests_cant": "Needs databases with repeated names, all kinds of bins and several levels; quantifies over all databases.", "anchors": ["src/ucis/merge/db_merger.py: DbMerger.merge", "src/ucis/cmd/cmd_convert.py: convert", "src/ucis/report/coverage_report_builder.py: CoverageReportBuilder.build"]}
{"id": "C105", "title": "A database is the tree that its calls describe", "statement": "The content of a database in memory after a program is the content before with one edit per call, in order. A successful creation call puts one new scope, with the given type, name, source, weight, design unit or crossed coverpoints and nothing below, after the other children of its receiver. A new bin comes after the other bins. A weight setter changes that weight; assigning or incrementing cover data changes that number of that bin. Calls that raise and calls on scopes outside the database change nothing. This holds for programs that set no weight of a design unit used in the database and no number that two of its bins share.", "quantifier": "for every program of API calls, failing calls included, every database and everything else in memory", "why_tests_cant": "An insertion at a wrong place, an object shared between scopes or a setter reaching a neighbour shows only for particular programs; quantifies over all call sequences.", "anchors": ["src/ucis/mem/mem_scope.py: MemScope.createScope", "src/ucis/mem/mem_covergroup.py: MemCovergroup.createCoverpoint", "src/ucis/mem/mem_instance_scope.py: MemInstanceScope.createScope", "src/ucis/coverpoint.py: Coverpoint.createBin", "src/ucis/mem/mem_cover_index.py: MemCoverIndex.incrementCover"]}
{"id": "C106", "title": "Which databases can be made", "statement": "A tree is the content of some database that API calls make if and only if: the root has no name, source or type; instances have no bins; only instances have a design unit and only crosses have crossed coverpoints; types are those of design units, covergroups, cover-instances, coverpoints and crosses except for instances, which have any type; crosses are in covergroups or cover-instances; below an instance there are only instances and covergroups. Names, weights, locations, the numbers and kinds of bins and the rest of the nesting are arbitrary. Any list of such databases can be held at once. Merging such databases, reading XML and loading YAML give such databases.", "quantifier": "for every tree, and every program of API calls", "why_tests_cant": "A question about all programs and all trees: tests can show that some tree can be made, not that a tree cannot, nor that all of infinitely many can.", "anchors": ["src/ucis/mem/mem_scope.py: MemScope.createScope", "src/ucis/mem/mem_instance_scope.py: MemInstanceScope.createScope", "src/ucis/mem/mem_covergroup.py: MemCovergroup.createCross", "src/ucis/mem/mem_scope.py: MemScope.createNextCover"]}
{"id": "C107", "title": "The procedural interface is the object interface", "statement": "The procedural functions (create a scope, instance, toggle, bin, history node or file; get and set properties; set test data; remove a scope; write; close) do what the method of the object does that they are named after: same result, same effect; with no object given, the object is the database. Functions without such a method raise and change nothing. Every content of a database that methods can make can be made with the functions.", "quantifier": "for every state of memory, every function and all arguments, every program of function calls, and every tree", "why_tests_cant": "That no program of function calls makes some content is a statement about all programs; equality of effects is over all states of memory.", "anchors": ["src/ucis/__init__.py: ucis_CreateScope", "src/ucis/__init__.py: ucis_CreateInstance", "src/ucis/__init__.py: ucis_CreateNextCover", "src/ucis/__init__.py: ucis_SetIntProperty", "src/ucis/__init__.py: ucis_RemoveScope"]}
{"id": "C108", "title": "Merging XML files in stages", "statement": "Merging XML files in stages, where every intermediate result is stored as an XML file that later stages merge with other files, gives the result of merging all the files at once in the same order: the final files have the same instance coverage, reading them gives the same content, and reports on them are the same. If siblings have distinct names, the counts in the final file do not depend on the order of the files either.", "quantifier": "for all lists of readable XML files, every grouping into stages of any depth, and whenever and by whomever the stages are run", "why_tests_cant": "Every stored intermediate result loses data (type-level bins, design units); that no grouping of any number of files shows the loss is a statement about all files and all groupings.", "anchors": ["src/ucis/cmd/cmd_merge.py: merge", "src/ucis/merge/db_merger.py: DbMerger.merge", "src/ucis/xml/xml_writer.py: XmlWriter.write", "src/ucis/xml/xml_reader.py: XmlReader.read", "src/ucis/cmd/cmd_report.py: report"]}
{"id": "C109", "title": "JSON reports satisfy their schema", "statement": "What the JSON report format writes satisfies the JSON schema that the library publishes for coverage reports, and a reader using the keys of the schema finds the covergroups of the report at every depth with name and coverage, their coverpoints with coverage and every bin with its count, and nothing else.", "quantifier": "for every database, rounding of figures, and with or without details", "why_tests_cant": "Shape of the document at all depths and for absent members; the tests parse the output but never check it against the schema.", "anchors": ["src/ucis/report/format_rpt_json.py: FormatRptJson.report", "src/ucis/report/format_rpt_json.py: FormatRptJson.report_covergroup", "src/ucis/schema/covreport.json"]}
{"id": "C110", "title": "Which parts of an XML document matter", "statement": "Reading an XML file uses a fixed list of elements and attributes (names, module and type names, kinds and counts of bins, crossed coverpoints, source ids, history attributes): documents agreeing on these give the same database or the same error, and every entry of the list matters for some document. As documented, the list contains the options weight, at_least, per_instance and merge_instances.", "quantifier": "for every element tree", "why_tests_cant": "That something is never looked at is a statement about all documents and all values.", "anchors": ["src/ucis/xml/xml_reader.py: XmlReader.read", "src/ucis/xml/xml_reader.py: XmlReader.readCovergroup", "src/ucis/xml/xml_reader.py: XmlReader.readHistoryNode", "doc/source/reference/xml_interchange.rst"]}
{"id": "C111", "title": "Written XML follows the documented conventions", "statement": "In every written XML document: options carry auto_bin_max=0; the type of a coverpoint bin is bins, ignore or illegal and its range is -1 to -1; a cross bin has a type only if it is ignore or illegal, and one index for every crossed coverpoint; a covergroup without cover-instances is written as a single entry with its own data, any other as one entry for each cover-instance, all naming the covergroup as their type.", "quantifier": "for every database that can be written", "why_tests_cant": "Interoperability with other tools depends on it for every database; the tests of the library read back with its own reader, which does not look at these attributes.", "anchors": ["src/ucis/xml/xml_writer.py: XmlWriter.write_options", "src/ucis/xml/xml_writer.py: XmlWriter.write_coverpoint_bins", "src/ucis/xml/xml_writer.py: XmlWriter.write_cross_bins", "src/ucis/xml/xml_writer.py: XmlWriter.write_covergroups", "doc/source/reference/xml_interchange.rst"]}
{"id": "C112", "title": "A report on an XML file can be computed from the file by hand", "statement": "The report on an XML file lists, for each instance name and covergroup type in the order of the file, exactly these figures: a coverpoint or cross of an entry has the percentage of its ordinary bins with count at least 1 (0 without any); on the level of the type, coverpoints, crosses and bins of equal name are put together, with counts added and the kind of the first; an entry and a type have the plain average over their coverpoints and crosses (0 without any). The overall figure is the average over the types of the instance listed last. The bins are listed with these counts. A report is made exactly if every instance name has a covergroup. In double precision the figures differ from these by at most 200(2K+5)/2^53 for up to K parts per group.", "quantifier": "for every readable XML document (exact arithmetic), every K up to 2^50 (double precision), and for the report command", "why_tests_cant": "An independent calculation from the document, without database, compared with reader and report for all documents, including repeated names and empty groups.", "anchors": ["src/ucis/xml/xml_reader.py: XmlReader.readCovergroup", "src/ucis/report/coverage_report_builder.py: CoverageReportBuilder.build", "src/ucis/cmd/cmd_report.py: report"]}
{"id": "C113", "title": "A merged XML file can be computed from the merged files by hand", "statement": "A file made by merging XML files says exactly this: the instances, covergroup types, entries and coverpoints of the inputs in order of first appearance, those of equal name put together (within one input the last of a name), crosses of equal name put together with what the first one crosses, and the bins of equal kind and name with the sum of their counts, ordinary bins first, then ignore bins, then illegal bins. The report on the file is the one computed by hand from that.", "quantifier": "for all lists of readable XML files, merged at once or in any stages, and for the merge command followed by the report command", "why_tests_cant": "Exact content of the output, in order, for all inputs, by a calculation on documents alone; tests compare single counts.", "anchors": ["src/ucis/merge/db_merger.py: DbMerger.merge", "src/ucis/xml/xml_writer.py: XmlWriter.write", "src/ucis/xml/xml_reader.py: XmlReader.read", "src/ucis/cmd/cmd_merge.py: merge", "src/ucis/cmd/cmd_report.py: report"]}
{"id": "C114", "title": "A report on a YAML file can be computed from the file by hand", "statement": "The report on a YAML file lists the covergroups in the order of the file with exactly these figures: a coverpoint or cross of an instance has the percentage of its ordinary bins that reach its threshold (1 if none is given; 0 without bins); on the level of the covergroup, coverpoints and crosses of equal name are put together without threshold, their ordinary bins of equal name with added counts, while the first ignore or illegal bin of a name counts as an ordinary bin that collects the ordinary ones after it, and further ones as bins of their own; covergroups and instances have the plain average over coverpoints and crosses (0 without any). The overall figure is the sum of covergroup figures with positive weight, times weight, over the sum of all weights. In double precision the figures differ from these by at most 200(2K+5)/2^53 for up to K parts per group and weights from 0 with sum up to 2^53.", "quantifier": "for every loadable YAML document for which a report is made (exact arithmetic), every K up to 2^50 (double precision), and for the report command", "why_tests_cant": "An independent calculation from the document compared with loader and report for all documents, including repeated names, all kinds of bins, thresholds and weights.", "anchors": ["src/ucis/yaml/yaml_reader.py: YamlReader.load", "src/ucis/yaml/yaml_reader.py: YamlReader.process_covergroup", "src/ucis/report/coverage_report_builder.py: CoverageReportBuilder.build", "src/ucis/cmd/cmd_report.py: report"]}
{"id": "C115", "title": "An XML file made from YAML files can be computed from them by hand", "statement": "A readable XML file made by merging YAML files, or by converting one, says exactly this: one instance named cg_inst; in it the covergroups, instances and coverpoints of the inputs in order of first appearance, those of equal name put together (within one input the last of a name), crosses of equal name put together with what the first one crosses, without blanks around the names; and the bins of equal kind and name with the sum of their counts, ordinary bins first, then ignore bins, then illegal bins. Thresholds and weights of the inputs have no influence. The report on the file is the one computed by hand from that.", "quantifier": "for all lists of loadable YAML documents whose merge can be written and read, and for the merge or convert command followed by the report command", "why_tests_cant": "Exact content of the output, in order, for all inputs, by a calculation on documents alone; the tests convert no YAML file with several kinds of bins, thresholds or repeated names.", "anchors": ["src/ucis/yaml/yaml_reader.py: YamlReader.load", "src/ucis/merge/db_merger.py: DbMerger.merge", "src/ucis/xml/xml_writer.py: XmlWriter.write", "src/ucis/cmd/cmd_convert.py: convert", "src/ucis/cmd/cmd_merge.py: merge"]}
{"id": "C116", "title": "Command lines are understood in any order", "statement": "A command line of the convert, merge or report command that has the required options and file names is accepted, whatever the order of options and file names, each option in its long or short spelling, the value in the next word or after '='; the command is run with the last value of each option and the file names in their order, and every option that is given takes effect. All other such lines end with a usage error, status 2 and without touching any file. Plus-arguments may stand anywhere.", "quantifier": "for every list of options and file names", "why_tests_cant": "All orders and spellings; the tests call the command functions with ready-made argument objects and never parse a command line.", "anchors": ["src/ucis/__main__.py: get_parser", "src/ucis/__main__.py: main", "src/ucis/cmd/cmd_merge.py: merge"]}
{"id": "C117", "title": "The report after a merge shows the input files", "statement": "If the program is run to merge files and then to report on the output, and both runs end with status 0, then the text that is printed (or written to the file given with --out) is the text of the report computed from the documents in the input files, whatever the spelling and order of options and whatever plus-arguments are given.", "quantifier": "for all pairs of command lines, all contents of the input files and all earlier contents of the output file", "why_tests_cant": "Command lines, file contents and failures of either run multiply; the tests call single functions.", "anchors": ["src/ucis/__main__.py: main", "src/ucis/cmd/cmd_merge.py: merge", "src/ucis/cmd/cmd_report.py: report", "src/ucis/report/format_rpt_text.py: FormatRptText"]}
{"id": "C118", "title": "Type coverage is the union of the coverage of the instances", "statement": "In a report on an XML or YAML file, a bin listed for a covergroup type counts as covered exactly if it counts as covered in at least one instance of the type, and every bin listed for an instance is listed for the type. If all instances list the coverpoints, crosses and bins of the type, no instance has a higher coverage figure than the type.", "quantifier": "for every file that can be read, every covergroup of its report, and any number of instances, coverpoints, crosses and bins", "why_tests_cant": "Holds across all distributions of hits over instances; the tests compare single files with one or two instances.", "anchors": ["doc/source/reference/yaml_coverage.rst: covergroupType", "src/ucis/yaml/yaml_reader.py: YamlReader", "src/ucis/xml/xml_reader.py: XmlReader", "src/ucis/report/coverage_report_builder.py: CoverageReportBuilder"]}
{"id": "C119", "title": "Merging more files never makes the report worse", "statement": "If XML files are merged, and then the same files together with further ones, everything listed in the report on the first result is listed in the report on the second one: every covergroup, instance, coverpoint, cross and bin, with at least the same count. If the second report lists nothing else, no coverage figure is lower. The same holds for YAML files.", "quantifier": "for all lists of files and further files, all stages of merging, and any contents", "why_tests_cant": "Relates two runs on different inputs; the tests look at one merge of two files at a time.", "anchors": ["src/ucis/merge/db_merger.py: DbMerger.merge", "src/ucis/xml/xml_writer.py: XmlWriter.write", "src/ucis/xml/xml_reader.py: XmlReader.read", "src/ucis/yaml/yaml_reader.py: YamlReader.load", "src/ucis/report/coverage_report_builder.py: CoverageReportBuilder", "src/ucis/cmd/cmd_merge.py: merge"]}
{"id": "C120", "title": "Dates survive XML in every time zone", "statement": "The date of a history node, fourteen digits of a valid date, is the same after the database was written as XML and read back, whatever the time zone the program runs in.", "quantifier": "for all valid dates of the years 1000 to 9999 and all time zones, that is all ways in which local clocks may be set over time", "why_tests_cant": "The date passes through seconds in local time; a failure shows only for local times that a zone skips, and tests run in one zone on one day.", "anchors": ["src/ucis/xml/xml_writer.py: XmlWriter.setAttrDateTime", "src/ucis/xml/xml_reader.py: XmlReader.getAttrDateTime"]}
{"id": "C121", "title": "The exception names the first problem", "statement": "If a database cannot be written as XML, or an XML or YAML document cannot be read, the exception is that of the first problem in the order of the document: for writing, ValueError for text that XML cannot hold and for invalid dates, TypeError for a history node without name or with a number as date, AttributeError for a bin that is of none of the three kinds and for a cross scope that crosses nothing; for reading, KeyError for missing attributes and undeclared files, ValueError for malformed numbers and dates, TypeError for a missing date or file number, StopIteration for a bin without contents, AttributeError for an empty crossed name, and the exception of the library for unknown bin types, bins without values and crosses of unknown coverpoints. A document that violates the schema causes a validation error before anything else. With a document that satisfies the schema only ValueError (a date or number of a history node), KeyError (an undeclared file), AttributeError and the exception of the library (both for crosses) are possible. For loading YAML: AttributeError for a missing coverage section; otherwise the first covergroup that cannot be loaded decides: TypeError if it has no instances, else AttributeError if a cross with bins first occurs in the covergroup without a bin list, else the exception for a crossed name that is no coverpoint of the same or an earlier instance.", "quantifier": "for every database and every document, with any number of problems in any places", "why_tests_cant": "The exception depends on the order in which all parts are visited; tests with one defect each cannot tell which of several defects is reported.", "anchors": ["src/ucis/xml/xml_writer.py: XmlWriter.write", "src/ucis/xml/xml_reader.py: XmlReader.read", "src/ucis/xml/xml_factory.py: XmlFactory.read", "src/ucis/yaml/yaml_reader.py: YamlReader.load"]}
{"id": "C122", "title": "What a failed merge leaves behind", "statement": "If a merge raises, every bin of a coverpoint or cross in the destination is either one that was there before or has the complete sum of the counts of all inputs at its place; no count is half added, and a total can only be the old one or the old one plus the totals of all inputs. The instances are treated in the order in which their names first appear in the inputs: the first one whose part of the inputs cannot be merged decides the exception, all instances before it are complete, and those after it are as before the merge.", "quantifier": "for every store, destination and list of inputs, with any overlap between them, and every place where the merge may fail", "why_tests_cant": "What is left depends on where in the inputs the merge fails; tests do not look at a destination after an exception.", "anchors": ["src/ucis/merge/db_merger.py: DbMerger.merge"]}
{"id": "C123", "title": "Which databases can be merged together", "statement": "Databases that can each be merged alone into an empty database can be merged together, and so can lists of databases if each list can. Whether databases can be merged does not depend on the order in which they are given, nor on the destination.", "quantifier": "for all databases, all lists of databases and all orders", "why_tests_cant": "Merging fails only for certain combinations of inputs; the tests merge two or three that fit, in one order.", "anchors": ["src/ucis/merge/db_merger.py: DbMerger.merge"]}
{"id": "C124", "title": "Merging loses no hits", "statement": "The sum of all bin counts in the destination grows by the sum of all bin counts in the inputs, for inputs without same-named siblings. Only instances, their covergroups, coverpoints, crosses, cover-instances and bins have an influence on the result of a merge: databases without instances make no difference.", "quantifier": "for all destinations and lists of inputs, whether built through the API or read from XML or YAML files", "why_tests_cant": "A sum over the whole of every database; the tests check single bins of two databases.", "anchors": ["src/ucis/merge/db_merger.py: DbMerger.merge", "src/ucis/xml/xml_reader.py: XmlReader.read", "src/ucis/yaml/yaml_reader.py: YamlReader.load"]}
{"id": "C125", "title": "Adding license notices to the sources", "statement": "The script that adds license notices puts the notice in front of every Python file below a directory that mentions neither 'Copyright' nor 'Licensed' in its first 32 lines, and names exactly these files; the text of the file follows unchanged, and no other file is changed. Running it again changes nothing. It fails exactly if a directory is named like a Python file or a Python file is not text, and even then every file is either as it was or has the notice in front.", "quantifier": "for all directory trees, file names and file contents", "why_tests_cant": "Idempotence and the limit of 32 lines concern all texts; the script has no tests.", "anchors": ["scripts/update_copyright.py: process_dir"]}
{"id": "C126", "title": "Native databases: saving and closing", "statement": "Saving a database of a native library hands the file name, the part to be saved, the recursion and the bin kinds (all by default) to the library in exactly one call; closing makes exactly one call; registering a source file hands over its name and directory and gives the handle of the library. If the library reports that saving failed, an exception is raised. A closed database cannot be used any more.", "quantifier": "for every native library, every database, file name, part, recursion and set of bin kinds", "why_tests_cant": "No native library comes with the repository, so no test saves or closes a database through it; a failing library cannot be provoked.", "anchors": ["src/ucis/lib/lib_ucis.py: LibUCIS.write, LibUCIS.close, LibUCIS.createFileHandle"]}
{"id": "C127", "title": "Reports into a directory", "statement": "With a report format that announces output into a directory, the report command makes the directory at the given path (an existing one is emptied first), puts the report into it and succeeds if the report does. A path that holds a file is refused and left alone, and so is a call without path. No file elsewhere is changed.", "quantifier": "for every such format, every input and every state of the file system", "why_tests_cant": "No registered format reports into a directory; the branch is never executed by tests.", "anchors": ["src/ucis/cmd/cmd_report.py: report", "src/ucis/rgy/format_if_rpt.py: FormatRptOutFlags"]}
{"id": "C128", "title": "Which dates can be written and read", "statement": "A date of fourteen digits can be written as XML exactly if it names a day of the Gregorian calendar in the years 1 to 9999 (with the leap years of that calendar) and a time of the day before 24:00:00 with at most 59 seconds; each field of the ISO text has the value it has in the fourteen digits. In an XML file exactly the texts year-month-dayThour:minute:second are accepted that name such a date, with four digits for the year, one or two for the other fields (a day below ten may follow a blank), and a T of either case. Everything else raises ValueError.", "quantifier": "for every text of fourteen digits, and for every text in an XML file", "why_tests_cant": "There are 10^14 texts of fourteen digits; the calendar has exceptions every 4, 100 and 400 years, and the format of the reader is a pattern with alternatives that are tried in turn.", "anchors": ["src/ucis/xml/xml_writer.py: setAttrDateTime", "src/ucis/xml/xml_reader.py: getAttrDateTime"]}
{"id": "C129", "title": "Why a command fails", "statement": "The merge, convert and report commands fail exactly for these reasons. An unknown format: general exception. An input that cannot be read: the file is missing or the library format was asked for (general exception), the compression module is missing (TypeError), decompressing or parsing fails (with the exception of the decompressor or parser), the document does not conform to the schema (general exception), or the reader meets a problem (with the exception of the first problem, see C121); report passes this exception on, merge and convert replace it by the general one. An output format that cannot be written, or an output file that cannot be opened: general exception. A report needs a threshold for every bin (AttributeError) and, in every instance, covergroup weights that do not add up to 0 (ZeroDivisionError), where the first instance with a problem decides; a report as JSON must not have crosses (AttributeError). Inputs that cannot be merged: general exception in merge; convert passes the exception on. A merged database that cannot be written as XML: the exception of its first problem. In all other cases the command succeeds.", "quantifier": "for all arguments, all file contents and states of the file system, and every compressor and parser", "why_tests_cant": "There are many reasons to fail, in combination and in an order that decides which is seen; the tests hardly provoke any.", "anchors": ["src/ucis/cmd/cmd_merge.py: merge", "src/ucis/cmd/cmd_convert.py: convert", "src/ucis/cmd/cmd_report.py: report", "src/ucis/xml/db_format_if_xml.py: DbFormatIfXml", "src/ucis/lib/db_format_if_lib.py: DbFormatIfLib", "src/ucis/yaml/db_format_if_yaml.py: DbFormatIfYaml"]}
{"id": "C130", "title": "Selecting test records after saving and loading", "statement": "After a database is saved as XML and loaded again, asking for the history records of a kind (test runs, merges, all) gives the records of that kind that the database had, in the same order, with the same names, and a record has a parent exactly if it had one before.", "quantifier": "for every database built through the API and every kind; for saving and loading in any state of the program", "why_tests_cant": "Every kind of record, with and without parent, in every number; the tests write records and do not read them back by kind.", "anchors": ["src/ucis/xml/xml_writer.py: XmlWriter.write_history_nodes", "src/ucis/xml/xml_reader.py: XmlReader.readHistoryNode", "src/ucis/mem/mem_history_node_iterator.py: MemHistoryNodeIterator"]}
{"id": "C131", "title": "Files that can be loaded can be merged", "statement": "Databases loaded from XML or YAML files can be merged, with each other and into any destination, and a file that can be loaded can be converted to XML as far as merging is concerned. If merging loaded databases fails at all, the exception is an AttributeError.", "quantifier": "for all XML documents and YAML documents that can be loaded, and all lists of them", "why_tests_cant": "The failing inputs refer from one instance of a covergroup to a coverpoint of another; the tests contain no such document.", "anchors": ["src/ucis/merge/db_merger.py: DbMerger._merge_crosses", "src/ucis/yaml/yaml_reader.py: YamlReader.process_covergroup", "src/ucis/cmd/cmd_convert.py: convert"]}
{"id": "C132", "title": "Text survives in XML files", "statement": "Whatever characters the names, texts and record fields of a database hold (markup characters, quotes, tabs, line ends, letters of any script), the text of its XML file is well-formed and stands for exactly one document: the elements, attributes and values that were written, in their order, with white space between elements. This white space, and the choice among the ways XML offers to write a character or an empty element, changes neither whether the file is accepted nor the data loaded from it.", "quantifier": "for every database that can be written, and every text that XML 1.0 allows for its document", "why_tests_cant": "Names in tests are plain words; there are 1.1 million characters, several ways to write each, and unlimited combinations.", "anchors": ["src/ucis/xml/xml_writer.py: XmlWriter.write", "src/ucis/xml/__init__.py: validate_ucis_xml", "src/ucis/xml/xml_reader.py: XmlReader.read", "src/ucis/xml/xml_factory.py: XmlFactory.read"]}
{"id": "C133", "title": "Text of JSON reports", "statement": "Whatever characters names hold (quotes, backslashes, control characters, letters of any script), the JSON report is well-formed JSON and stands for exactly one value, from which every name, count and coverage of the report can be read; two different reports never have the same text. The text has ASCII characters only, so that it does not depend on the encoding of the system.", "quantifier": "for every database that can be reported as JSON, and every text form of floating-point numbers that is valid JSON and reads back as the number", "why_tests_cant": "Names in tests are plain words; there are 1.1 million characters with four ways to be written.", "anchors": ["src/ucis/report/format_rpt_json.py: FormatRptJson.report", "src/ucis/cmd/cmd_report.py: report"]}
{"id": "C134", "title": "Text reports can be read back", "statement": "The text of a text report determines what the report shows: which covergroups, cover-instances, coverpoints and crosses there are, their names, nesting, order and printed percentages, and with details every bin with its name and count. So two databases whose reports show something different have different texts, whatever the names contain. Figures that are printed alike differ by at most one unit of the last printed place that is rounded to.", "quantifier": "for all pairs of reports, both text formatters, every precision, with and without details and ordering by hit", "why_tests_cant": "Names may look like other lines of the report (colons, blanks, words like CVP or Bins:); a test compares one expected text at a time and cannot show that no other report has it.", "anchors": ["src/ucis/report/text_coverage_report_formatter.py: TextCoverageReportFormatter.report", "src/ucis/report/format_rpt_text.py: FormatRptText.report"]}
{"id": "C135", "title": "A merged file has the hits of the files merged", "statement": "The sum of all bin counts in an XML file made by merging XML or YAML files, at once or in stages, is the sum of all bin counts in these files: merging, writing and reading neither lose a hit nor count one twice. In no case has the merged file more hits than the files merged, as long as no count is negative.", "quantifier": "for all lists of XML documents and YAML documents that can be loaded, all stages of merging, and every bin of coverpoints and crosses, ordinary, ignored and illegal", "why_tests_cant": "A lost hit shows only if names coincide in an unexpected way, within a file or between files; the tests merge two databases with one covergroup.", "anchors": ["src/ucis/merge/db_merger.py: DbMerger", "src/ucis/cmd/cmd_merge.py: merge", "src/ucis/xml/xml_writer.py: XmlWriter", "src/ucis/xml/xml_reader.py: XmlReader", "src/ucis/yaml/yaml_reader.py: YamlReader"]}
{"id": "C136", "title": "The order of the files merged does not matter to the report", "statement": "Merging the same XML or YAML files in another order, at once or in stages, gives a merged file whose report has the same covergroups, cover-instances, coverpoints, crosses and bins, with the same counts and figures, and the same overall figure; only the order in which they are listed can be different.", "quantifier": "for all lists of XML documents and YAML documents that can be loaded, and all their permutations", "why_tests_cant": "There are n! orders, and the merge treats the first file that has an object differently from the others; a test tries one order.", "anchors": ["src/ucis/merge/db_merger.py: DbMerger", "src/ucis/cmd/cmd_merge.py: merge", "src/ucis/report/coverage_report_builder.py: CoverageReportBuilder", "src/ucis/xml/xml_reader.py: XmlReader"]}
{"id": "C137", "title": "Native databases: locations and file names can be read back", "statement": "If the native library keeps what it is told, an object that was created with a source location has that location (file, line and token) when asked for it at any later time, and no location if it was created without one; and a source file that was registered has the name it was registered with, as a string.", "quantifier": "for every native library that keeps locations and names, every kind of object, all locations and names, and all calls in between", "why_tests_cant": "Needs a native library, and quantifies over everything that may happen between creating and reading.", "anchors": ["src/ucis/lib/lib_scope.py: LibScope.getSourceInfo", "src/ucis/lib/lib_source_info.py: LibSourceInfo", "src/ucis/lib/lib_file_handle.py: LibFileHandle.getFileName", "src/ucis/lib/lib_ucis.py: LibUCIS.createFileHandle"]}
{"id": "C138", "title": "The JSON report after a merge shows the input files", "statement": "Merging coverage files and then asking for a JSON report on the merged file gives a JSON text whose overall figure, covergroups, coverpoints, crosses and bins are those computed from the documents in the input files, whatever spelling, order and abbreviation of options is used on the two command lines.", "quantifier": "for all XML or YAML input files, all command lines of the two runs, and all contents of the disk before", "why_tests_cant": "The two runs interact through a file, and the claim relates the text of the final report to all input documents; tests look at one pair of command lines and at single figures.", "anchors": ["src/ucis/__main__.py: main", "src/ucis/cmd/cmd_merge.py: merge", "src/ucis/cmd/cmd_report.py: report", "src/ucis/report/format_rpt_json.py: FormatRptJson.report", "src/ucis/xml/xml_writer.py: XmlWriter.write", "src/ucis/xml/xml_reader.py: XmlReader.read"]}
{"id": "C139", "title": "Options of new objects have the defaults of the XML schema", "statement": "A covergroup, cover-instance, coverpoint or cross for which an option was never set has the default that the XML schema states for it (goal 100, one required hit, 64 automatic bins, no overlap detection, per_instance and merge_instances off, empty comment), whatever else has been done with it or with other objects in the meantime; and the weight is the one given at creation.", "quantifier": "for every way to create such an object, every option, and every sequence of API calls before and after the creation that does not set the option", "why_tests_cant": "Tests read options right after setting them; what an option is without being set, after arbitrary other calls, is not looked at.", "anchors": ["src/ucis/mem/mem_cvg_scope.py: MemCvgScope.__init__", "src/ucis/mem/mem_covergroup.py: MemCovergroup.__init__", "src/ucis/cvg_scope.py: CvgScope.__init__", "src/ucis/mem/mem_scope.py: MemScope.__init__", "src/ucis/xml/schema/ucis.xsd: CGINST_OPTIONS"]}
{"id": "C140", "title": "Author and time of a database are kept", "statement": "The author and the time of a database are those that were set last, and without setting those of the process that created it, whatever is done with its content and with other databases in the meantime; and both are in the XML file written from the database and in the database read from that file.", "quantifier": "for every program that creates, reads, changes and attributes any number of databases, every database, and every pair of writing and reading processes", "why_tests_cant": "Tests neither set these attributes nor compare them across processes; in a test both processes are the same user, so that a lost author looks kept.", "anchors": ["src/ucis/mem/mem_ucis.py: MemUCIS.__init__, getWrittenBy, setWrittenBy, getWrittenTime, setWrittenTime", "src/ucis/xml/xml_writer.py: XmlWriter.write", "src/ucis/xml/xml_reader.py: XmlReader.read"]}
{"id": "C141", "title": "The flags of a bin describe its record", "statement": "A bin that was created on a coverpoint or cross is flagged as holding a goal, a weight and a count of 32 bits, and nothing else, whatever is done afterwards; and its count always fits into the width that the flags state.", "quantifier": "for every bin, its first count, and every sequence of API calls afterwards", "why_tests_cant": "Counts in tests are small and no test reads the flags; the width matters only when a count passes 2^32.", "anchors": ["src/ucis/coverpoint.py: createBin", "src/ucis/cover_data.py: CoverData", "src/ucis/cover_flags_t.py", "src/ucis/mem/mem_cover_index.py: incrementCover"]}
{"id": "C142", "title": "Source locations survive an XML file", "statement": "The source location (file, line, token) of an instance is stated by its entry in the XML file that is written from the database, and every object of the database that is read from the file has the location that it had in the database written.", "quantifier": "for every database that can be written as XML, and every XML file that can be read", "why_tests_cant": "The round-trip tests compare names and counts; most of them create objects without a location, for which nothing can be lost.", "anchors": ["src/ucis/xml/xml_writer.py: write_instance_coverages, addId", "src/ucis/xml/xml_reader.py: readInstanceCoverage, readCovergroups, readCovergroup"]}
{"id": "C143", "title": "Weights and thresholds survive an XML file", "statement": "The weights of covergroups, coverpoints and crosses and the thresholds of bins can be told from the XML file that is written from a database, and the database read from the file has them.", "quantifier": "for every database that can be written as XML, and every XML file that can be read", "why_tests_cant": "The round-trip tests use weight 1 and threshold 1 throughout, for which nothing can be lost.", "anchors": ["src/ucis/xml/xml_writer.py: write_options, write_coverpoint_bins", "src/ucis/xml/xml_reader.py: readCovergroups, readCovergroup, readCoverpointInst, readCoverpointBin"]}
{"id": "C144", "title": "Which databases give the same XML file", "statement": "Two databases with the same source files and test records give the same XML file if and only if they have the same instances, covergroups and cover-instances by name and order, with the same coverpoints (names; names, kinds and counts of bins) and crosses (names; crossed coverpoints; names and counts of bins). Nothing else can be told from a file, and nothing of this is lost in it.", "quantifier": "for every pair of databases that can be written as XML", "why_tests_cant": "A test can compare two files, but not show that no two databases that differ in a count, a kind or the nesting of their objects are written alike.", "anchors": ["src/ucis/xml/xml_writer.py: write, write_instance_coverages, write_covergroups, write_coverinstance, write_coverpoint, write_cross"]}
{"id": "C145", "title": "What a report does not depend on", "statement": "Databases that differ only in source locations, design units, the coverpoints that are crossed, the weights of design instances, crosses and bins, and in scopes and cover items of types that are not reported, have the same report, or the same exception instead of one.", "quantifier": "for every pair of databases, and any rounding of the figures", "why_tests_cant": "A test can only vary one such detail of one database at a time; the claim is about all differences together.", "anchors": ["src/ucis/report/coverage_report_builder.py: build, build_covergroups, build_covergroup, build_coverpoint, build_cross"]}
