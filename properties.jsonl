{"id": "C01", "title": "Enhanced data of a section is the last-wins merge of its depth-first unrolling", "statement": "When parse_section(S) succeeds on a fresh object, configparserenhanceddata[S] is exactly the dict obtained by writing, in order and with later writes overwriting earlier ones, the unhandled options met in the depth-first unrolling of the DEFAULT section (if present) followed by S, where a `use T` option is replaced in place by the unrolling of T unless T is already being unrolled. Keys keep their first-write position.", "quantifier": "every configuration (any sections, options, `use` graph, cycles included), every section S, every set of subclass handlers, every exception_control_level and debug_level", "why_tests_cant": "the value of one key depends on the whole graph of `use` links and on visit order; tests cover a handful of graphs", "anchors": ["src/configparserenhanced/ConfigParserEnhanced.py:_parse_section_r", "src/configparserenhanced/ConfigParserEnhanced.py:_handler_use", "src/configparserenhanced/ConfigParserEnhanced.py:_launch_generic_option_handler", "src/configparserenhanced/ConfigParserEnhanced.py:ConfigParserEnhancedData.set"]}
{"id": "C02", "title": "Key set is the union over the transitive closure of `use`", "statement": "After a successful parse of S the keys of configparserenhanceddata[S] are exactly the unhandled option keys of the sections reachable from S or from the DEFAULT section through `use` options, cyclic graphs included: pruning at cycles never loses a section, and no key comes from an unreachable section.", "quantifier": "every configuration and every `use` graph, including cyclic ones", "why_tests_cant": "depends on all paths of an arbitrary directed graph", "anchors": ["src/configparserenhanced/ConfigParserEnhanced.py:_parse_section_r", "src/configparserenhanced/ConfigParserEnhanced.py:_handler_use"]}
{"id": "C03", "title": "Parsing terminates on every use graph unless DEFAULT leads back to the root", "statement": "parse_section(S) terminates (recursion depth at most the number of sections plus three, and a larger recursion limit never changes the result) for every configuration, whatever cycles the `use` links form, provided S cannot be reached from the DEFAULT section by `use`. If it can, the parse never succeeds; and if the DEFAULT section uses S directly before any failing option, parse_section(S) recurses without bound.", "quantifier": "every configuration, every root section; the negative half: every configuration whose DEFAULT section starts with `use S`", "why_tests_cant": "non-termination and termination are about unbounded executions", "anchors": ["src/configparserenhanced/ConfigParserEnhanced.py:_parse_section_r", "src/configparserenhanced/ConfigParserEnhanced.py:_handler_use"]}
{"id": "C04", "title": "A `use` cycle is skipped with a WARNING, and raises ValueError at level 5", "statement": "A `use T` met while T is being unrolled changes no option data. With exception_control_level 5 it aborts the parse with ValueError; below 5 the parse goes on with the next option and (level 1..4, warnings not silenced) one notice is printed for each such option visit; otherwise nothing is printed.", "quantifier": "every configuration with cycles, every level 0..5", "why_tests_cant": "all cycle shapes and all levels", "anchors": ["src/configparserenhanced/ConfigParserEnhanced.py:_handler_use", "src/configparserenhanced/ExceptionControl.py:exception_control_event"]}
{"id": "C05", "title": "Re-parsing is idempotent", "statement": "Parsing a section again after a successful parse of it, in any history, leaves all stored data (contents and key order) unchanged if the second parse succeeds too; it does succeed when the handlers depend only on what they are given and on data_shared.", "quantifier": "every configuration and section, any state of the other sections", "why_tests_cant": "requires comparing two runs for all inputs", "anchors": ["src/configparserenhanced/ConfigParserEnhanced.py:parse_section", "src/configparserenhanced/ConfigParserEnhanced.py:ConfigParserEnhancedData.set"]}
{"id": "C06", "title": "Parsing one section never changes another section's data", "statement": "parse_section(S), whether it succeeds or raises, leaves data[T] unchanged for every T different from S that already has an entry; the only new entries it creates are S and empty dicts for sections it visited.", "quantifier": "every configuration, state, S and T, successful and failing parses", "why_tests_cant": "a frame property over all states and all failure points", "anchors": ["src/configparserenhanced/ConfigParserEnhanced.py:_parse_section_r", "src/configparserenhanced/ConfigParserEnhanced.py:ConfigParserEnhancedData.add_section", "src/configparserenhanced/ConfigParserEnhanced.py:ConfigParserEnhancedData.set"]}
{"id": "C07", "title": "Lazy access is independent of history", "statement": "After any history of accesses, listings and parses with initialization (get, options, items, has_option, has_section, [], sections(True/'force'), parse_section, parse_all_sections) in which no set/add was made on section S and no parse of S failed, whatever happened to other sections, a successful access to a section S of the file answers with what a fresh object would return: the resolved data of S.", "quantifier": "every finite sequence of read operations over every configuration", "why_tests_cant": "arbitrary interleavings of lazy operations", "anchors": ["src/configparserenhanced/ConfigParserEnhanced.py:ConfigParserEnhancedData", "src/configparserenhanced/ConfigParserEnhanced.py:ConfigParserEnhancedData._parse_owner_section"]}
{"id": "C08", "title": "A failed parse is remembered as done", "statement": "If the first access to a section of the file raises, the section is nevertheless marked as parsed: every later access does not parse again and answers from what is stored, that is, the merge of the options met before the failure (a prefix of the unrolling), or KeyError if the failure came before anything was recorded for the section.", "quantifier": "every configuration and every section whose parse raises, every failure point", "why_tests_cant": "needs all failure points inside the recursion", "anchors": ["src/configparserenhanced/ConfigParserEnhanced.py:ConfigParserEnhancedData._parse_owner_section", "src/configparserenhanced/ConfigParserEnhanced.py:ConfigParserEnhancedData.get"]}
{"id": "C09", "title": "Membership queries on a missing section", "statement": "On an object where section M is neither in the file nor stored, has_section(M) is False and changes nothing, options/[] raise KeyError; the first has_option(M, o) or get(M) raises, with KeyError unless DEFAULT fails earlier; after that has_option(M, o) answers from, and get(M) returns, the unhandled options of DEFAULT if there are any, and otherwise has_option is False and get raises KeyError.", "quantifier": "every configuration and every absent section name", "why_tests_cant": "history dependent answers", "anchors": ["src/configparserenhanced/ConfigParserEnhanced.py:ConfigParserEnhancedData.has_option", "src/configparserenhanced/ConfigParserEnhanced.py:ConfigParserEnhancedData.has_section", "src/configparserenhanced/ConfigParserEnhanced.py:ConfigParserEnhancedData.get"]}
{"id": "C10", "title": "Handler lookup: dash and underscore are the same, public wins, ambiguity raises from level 3", "statement": "An option whose first token matches [\\w-]+ is routed to the handler whose name is the token with '-' replaced by '_'; tokens that differ only in '-' versus '_' are routed identically. If only one of handler_X / _handler_X exists it is used; if both exist AmbiguousHandlerError is raised at level 3 or more, and otherwise the public one is used, exactly as if the private one did not exist.", "quantifier": "every token, every handler table, every level", "why_tests_cant": "all strings and all subclass method tables", "anchors": ["src/configparserenhanced/ConfigParserEnhanced.py:_locate_handler_method", "src/configparserenhanced/ConfigParserEnhanced.py:_apply_transformation_to_operation", "src/configparserenhanced/ConfigParserEnhanced.py:_get_op_components_from_tokenized_option_key"]}
{"id": "C11", "title": "An option is stored if and only if no handler takes it", "statement": "Options routed to a handler never appear in the enhanced data because of that visit; options not routed to a handler always do, with value stripped of surrounding blanks and then of surrounding double quotes (None stays None).", "quantifier": "every option key and value, every handler table", "why_tests_cant": "all strings", "anchors": ["src/configparserenhanced/ConfigParserEnhanced.py:_parse_section_r", "src/configparserenhanced/ConfigParserEnhanced.py:_launch_generic_option_handler"]}
{"id": "C12", "title": "Handlers run in unrolling order; initialize first and finalize last, exactly once", "statement": "In a successful parse_section(S) the sequence of handler invocations is handler_initialize, then the handled options of the unrolling of DEFAULT and of S in depth-first order (once per visit), then handler_finalize; data_shared returned is the fold of these handlers over a fresh data_shared.", "quantifier": "every configuration, every user handler (arbitrary functions of the parameters and of the mutable state)", "why_tests_cant": "all graphs and all handlers", "anchors": ["src/configparserenhanced/ConfigParserEnhanced.py:_parse_section_r", "src/configparserenhanced/ConfigParserEnhanced.py:operation_handler", "src/configparserenhanced/ConfigParserEnhanced.py:handler_initialize", "src/configparserenhanced/ConfigParserEnhanced.py:handler_finalize"]}
{"id": "C13", "title": "DEFAULT options come first and are overridden by the section's own", "statement": "If the DEFAULT section exists its unrolling is processed before the root section, so for every key written by the unrolling of the root section the DEFAULT value is overridden, and keys only in DEFAULT keep the DEFAULT value. Parsing the DEFAULT section itself runs its options twice.", "quantifier": "every configuration, every root", "why_tests_cant": "all configurations", "anchors": ["src/configparserenhanced/ConfigParserEnhanced.py:_parse_section_r"]}
{"id": "C14", "title": "Handler return code policy", "statement": "For a decorated handler: 0 continues silently; any other int up to 10 (negatives included) raises RuntimeError only at level 5 and otherwise continues (a notice for levels 1..4); an int above 10 always raises RuntimeError; a non-int always raises TypeError. For an undecorated handler the return value is ignored.", "quantifier": "every return value and every level", "why_tests_cant": "unbounded integers", "anchors": ["src/configparserenhanced/ConfigParserEnhanced.py:_check_handler_rval", "src/configparserenhanced/ConfigParserEnhanced.py:operation_handler"]}
{"id": "C15", "title": "`use` of a missing section raises KeyError; `use` without parameter raises IndexError", "statement": "If the unrolling reaches `use T` with T not in the file, the parse raises KeyError (unless it raised before), at every exception_control_level, and options recorded before that point stay stored; `use` with no parameter raises IndexError; parameters after the first are ignored.", "quantifier": "every configuration and level", "why_tests_cant": "all failure positions", "anchors": ["src/configparserenhanced/ConfigParserEnhanced.py:_parse_section_r", "src/configparserenhanced/ConfigParserEnhanced.py:_handler_use"]}
{"id": "C16", "title": "The debug log is well nested", "statement": "With debug_level > 0, the log of a successful parse is a well-nested sequence: every section-entry is closed by a section-exit of the same name in LIFO order, and handler-entry/handler-exit likewise once the extra handler-exit recorded at each cycle-detected is discounted. The first and last records are those of handler_initialize and of the root section's exit. More precisely, the log of every parse, successful or failing, is the one obtained by writing the records at their places in the depth-first unrolling (key/value, operation, handler entry and exit, cycle, section entry and exit) and stopping at the first failure.", "quantifier": "every configuration and handler set", "why_tests_cant": "nesting of unbounded depth", "anchors": ["src/configparserenhanced/ConfigParserEnhanced.py:_loginfo_add", "src/configparserenhanced/ConfigParserEnhanced.py:enter_handler", "src/configparserenhanced/ConfigParserEnhanced.py:exit_handler", "src/configparserenhanced/ConfigParserEnhanced.py:_handler_use"]}
{"id": "C17", "title": "Debug level never influences results", "statement": "Changing debug_level changes neither the outcome nor the stored data, shared data, printed event notices; at level 0 the log stays empty. Event notices appear only at a positive exception_control_level that is below the threshold of the event, with warnings not silenced.", "quantifier": "every configuration, state, level", "why_tests_cant": "two-run (non-interference) property", "anchors": ["src/configparserenhanced/ConfigParserEnhanced.py:_loginfo_add", "src/configparserenhanced/Debuggable.py:debug_message"]}
{"id": "C18", "title": "Exception control threshold", "statement": "exception_control_event(kind, exc) raises exc iff the level is at least 5,5,4,3,2,0 for SILENT, WARNING, MINOR, SERIOUS, CRITICAL, CATASTROPHIC; raising is monotone in the level; if it does not raise it prints iff the level is positive, warnings are not silenced and the kind is not SILENT; event names are case-insensitive, unknown names raise KeyError and a non-exception raises TypeError first.", "quantifier": "every event name (any string), every level, every flag combination", "why_tests_cant": "all strings and all histories of level assignments", "anchors": ["src/configparserenhanced/ExceptionControl.py:exception_control_event", "src/configparserenhanced/ExceptionControl.py:_exception_control_map_event_to_level_req"]}
{"id": "C19", "title": "Control level stays within 0..5 and flags stay boolean", "statement": "After any sequence of assignments (including rejected ones) exception_control_level is the clamp to 0..5 of the last accepted assignment (4 if none), and the two warning flags are the last bool assigned (False if none), rejected assignments leaving them unchanged.", "quantifier": "every finite sequence of assignments of arbitrary values", "why_tests_cant": "arbitrary histories", "anchors": ["src/configparserenhanced/ExceptionControl.py:exception_control_level", "src/configparserenhanced/ExceptionControl.py:exception_control_silent_warnings", "src/configparserenhanced/ExceptionControl.py:exception_control_compact_warnings"]}
{"id": "C20", "title": "typed_property: stored value always passed its checks", "statement": "After any history of get/set/delete on a typed property, the value read is either the default or the converted form (cast, transform, cast) of the last accepted assignment, and every assigned value passed the type check on input and the validator on the stored form; a rejected assignment leaves the property unchanged.", "quantifier": "every property configuration (types, cast, transform, validator as arbitrary functions that may raise) and every finite history", "why_tests_cant": "arbitrary callables and histories", "anchors": ["src/configparserenhanced/TypedProperty.py:typed_property"]}
{"id": "C21", "title": "typed_property: assign-before-use and delete", "statement": "With req_assign_before_use a read raises UnboundLocalError exactly when no assignment was accepted since creation or the last delete; delete returns the property to its initial state; otherwise reads without assignment return the default (a fresh copy, or the factory's value).", "quantifier": "every history", "why_tests_cant": "arbitrary histories", "anchors": ["src/configparserenhanced/TypedProperty.py:typed_property"]}
{"id": "C22", "title": "Handler parameters have independent defaults and typed slots", "statement": "Two HandlerParameters objects never share default containers: in every history without an assignment of one slot's dict to another slot, every operation behaves as if each slot of each object had a container of its own; assigning a dict shares it, and both sides see each other's changes until one of them is assigned or deleted again; raw_option can only hold pairs, and every other slot only values of its type.", "quantifier": "every history of operations on two objects", "why_tests_cant": "aliasing over histories", "anchors": ["src/configparserenhanced/HandlerParameters.py:HandlerParameters", "src/configparserenhanced/HandlerParameters.py:value_len_eq_2", "src/configparserenhanced/TypedProperty.py:typed_property"]}
{"id": "C23", "title": "Changing inifilepath keeps previously parsed data", "statement": "Re-assigning inifilepath makes the next read of configparserdata load the new files. Sections parsed before keep their old enhanced data on lazy access, whether or not the new files have them; a section that nothing asked about or edited in any earlier history (failures included) is resolved from the new files.", "quantifier": "every pair of files and every history of accesses before the switch", "why_tests_cant": "history dependent", "anchors": ["src/configparserenhanced/ConfigParserEnhanced.py:inifilepath", "src/configparserenhanced/ConfigParserEnhanced.py:configparserenhanceddata"]}
{"id": "C24", "title": "Changing configparser_delimiters is a full reset", "statement": "After assigning configparser_delimiters, every later history of operations, over any changes on disk, gives the results a new object with the same files, delimiters, exception level and subclass attributes would give, and prints the same; a value that is not a tuple, list or str raises TypeError and changes nothing.", "quantifier": "every state and every later history", "why_tests_cant": "equivalence of all futures", "anchors": ["src/configparserenhanced/ConfigParserEnhanced.py:configparser_delimiters", "src/configparserenhanced/ConfigParserEnhanced.py:_reset_configparserdata"]}
{"id": "C25", "title": "A failed load leaves an empty configuration behind", "statement": "When the first configparserdata access raises because the file list is empty or a file is missing, the next access returns an empty configuration without raising, even if the file has appeared or inifilepath has been assigned for the first time meanwhile; when it raises DuplicateOptionError the next access raises again as long as the files are the same; after any other reading error the next access returns what had been read before the error. If no file was ever assigned, parsing a section raises ValueError, not KeyError, and a section asked for before is missing (KeyError).", "quantifier": "every object state and file system", "why_tests_cant": "error history", "anchors": ["src/configparserenhanced/ConfigParserEnhanced.py:configparserdata"]}
{"id": "C26", "title": "unroll_to_str output", "statement": "unroll_to_str() is the concatenation, in file order, of `[section]` headers with one `key : value` line per resolved option (None shown as empty) separated by blank lines; with section=S it is only that section; a missing S raises KeyError.", "quantifier": "every configuration", "why_tests_cant": "all configurations", "anchors": ["src/configparserenhanced/ConfigParserEnhanced.py:unroll_to_str", "src/configparserenhanced/ConfigParserEnhanced.py:write"]}
{"id": "C27", "title": "Unrolled text reads back to the resolved data", "statement": "For configurations whose resolved keys and values are single-line and free of delimiter/comment/interpolation characters, reading the text produced by unroll_to_str() with the plain ini reader and resolving it gives the same sections with the same keys and values (None becoming the empty string).", "quantifier": "every such configuration", "why_tests_cant": "round trip over all texts", "anchors": ["src/configparserenhanced/ConfigParserEnhanced.py:unroll_to_str", "src/configparserenhanced/ConfigParserEnhanced.py:configparserdata"]}
{"id": "C28", "title": "unroll_to_str and the exception level", "statement": "With use_base_class_parser=False a successful unroll_to_str leaves exception_control_level as it was and runs at level 0 meanwhile; if it raises, the level is left at 0. With use_base_class_parser=True the object is not changed at all.", "quantifier": "every configuration, level and failure", "why_tests_cant": "failure points", "anchors": ["src/configparserenhanced/ConfigParserEnhanced.py:unroll_to_str"]}
{"id": "C29", "title": "assert_section_all_options_handled is exact", "statement": "It returns 0 iff the unrolling of the section contains no unhandled option; otherwise at level >= 3 (do_raise) it raises ValueError, and below it returns a non-empty message that lists every unhandled key.", "quantifier": "every configuration, handler set and level", "why_tests_cant": "all configurations", "anchors": ["src/configparserenhanced/ConfigParserEnhanced.py:assert_section_all_options_handled"]}
{"id": "C30", "title": "assert_file_all_sections_handled is exact", "statement": "It returns 0 iff every section of the file resolves to no unhandled option; otherwise it raises ValueError at level >= 3 and returns 1 below.", "quantifier": "every configuration, handler set and level", "why_tests_cant": "all configurations", "anchors": ["src/configparserenhanced/ConfigParserEnhanced.py:assert_file_all_sections_handled"]}
{"id": "C31", "title": "Quoting a section name in `use`", "statement": "For every non-empty name N without single quotes, the option key `use 'N'` is tokenized to exactly ['use', N]; and the tokenization of a list of single-quoted words joined by blanks is that list.", "quantifier": "every string N", "why_tests_cant": "all strings", "anchors": ["src/configparserenhanced/ConfigParserEnhanced.py:_tokenize_option_key", "src/configparserenhanced/ConfigParserEnhanced.py:_handler_use"]}
{"id": "C32", "title": "Tokenizing a non-blank key never yields an empty list", "statement": "For every option key that is not blank, tokenization either raises ValueError (unbalanced quote or trailing escape) or yields at least one token, so parsing never raises IndexError while looking for the operation.", "quantifier": "every string", "why_tests_cant": "all strings", "anchors": ["src/configparserenhanced/ConfigParserEnhanced.py:_tokenize_option_key", "src/configparserenhanced/ConfigParserEnhanced.py:_parse_section_r"]}
{"id": "C33", "title": "Only reachable sections matter", "statement": "If two configurations agree on every section reachable from S and from DEFAULT (and on the presence of DEFAULT), then parsing S gives the same outcome and the same data[S] in both: unrelated sections and the order of sections in the file are irrelevant.", "quantifier": "every pair of configurations", "why_tests_cant": "two-run property", "anchors": ["src/configparserenhanced/ConfigParserEnhanced.py:_parse_section_r"]}
{"id": "C34", "title": "The exception level only decides between raising and continuing", "statement": "If a parse succeeds at some exception_control_level then it succeeds at every lower level with the same stored data and shared data.", "quantifier": "every configuration, every pair of levels", "why_tests_cant": "two-run property", "anchors": ["src/configparserenhanced/ConfigParserEnhanced.py:_parse_section_r", "src/configparserenhanced/ExceptionControl.py:exception_control_event"]}
{"id": "C35", "title": "Section listing agrees with the file", "statement": "keys(), iteration, sections() and len() of the enhanced data always list exactly the file's sections in file order, whatever was parsed, set or added before; sections(True) parses each section not yet parsed, sections('force') parses all.", "quantifier": "every history", "why_tests_cant": "arbitrary histories", "anchors": ["src/configparserenhanced/ConfigParserEnhanced.py:ConfigParserEnhancedData.keys", "src/configparserenhanced/ConfigParserEnhanced.py:ConfigParserEnhancedData.sections", "src/configparserenhanced/ConfigParserEnhanced.py:ConfigParserEnhancedData.__len__"]}
{"id": "C36", "title": "Direct set is read back", "statement": "configparserenhanceddata.set(S, o, v) followed by get(S, o) returns v for a section of the file; it leaves every other (section, option) unchanged apart from the parse of S it may trigger; it creates S if absent, but for a section absent from the file and never accessed get(S, o) still raises the first time while options(S) and [S] show the value.", "quantifier": "every state, S, o, v", "why_tests_cant": "all states", "anchors": ["src/configparserenhanced/ConfigParserEnhanced.py:ConfigParserEnhancedData.set", "src/configparserenhanced/ConfigParserEnhanced.py:ConfigParserEnhancedData.get"]}
{"id": "C37", "title": "parse_section returns and remembers the shared data of that parse only", "statement": "data_shared starts empty in each parse_section call, whatever previous parses stored; parse_section_last_result equals the result of the last successful parse_section, and a failing parse leaves it unchanged; an empty name raises ValueError.", "quantifier": "every history of parses", "why_tests_cant": "arbitrary histories", "anchors": ["src/configparserenhanced/ConfigParserEnhanced.py:parse_section", "src/configparserenhanced/ConfigParserEnhanced.py:_new_handler_parameters", "src/configparserenhanced/ConfigParserEnhanced.py:parse_section_last_result"]}
{"id": "C38", "title": "Options named `initialize` or `finalize` run the hooks although they are not known operations", "statement": "get_known_operations lists exactly the operations with a handler except initialize/finalize; an option whose operation is listed is never stored; an option key `initialize` or `finalize` is not listed but is nevertheless routed to the hook and not stored.", "quantifier": "every handler table and option", "why_tests_cant": "all tables", "anchors": ["src/configparserenhanced/ConfigParserEnhanced.py:get_known_operations", "src/configparserenhanced/ConfigParserEnhanced.py:_locate_handler_method"]}
{"id": "C39", "title": "Value interpolation", "statement": "A value without '%' is delivered unchanged; '%%' is delivered as '%'; '%(name)s' is replaced by the interpolated value of name in the section or in the common section (the section first); anything else after '%' is a syntax error; self-referential chains raise an interpolation error instead of looping.", "quantifier": "every value and every section", "why_tests_cant": "all strings and reference graphs", "anchors": ["src/configparserenhanced/ConfigParserEnhanced.py:configparserdata", "src/configparserenhanced/ConfigParserEnhanced.py:_parse_section_r"]}
{"id": "C40", "title": "debug_message prints iff the level is high enough", "statement": "debug_level is max(0, last assigned int); a message at level n is printed iff debug_level >= n.", "quantifier": "every history and level", "why_tests_cant": "arbitrary histories", "anchors": ["src/configparserenhanced/Debuggable.py:Debuggable"]}
{"id": "C41", "title": "Lazy loading cannot be seen", "statement": "If the files load, every operation on an object that has not loaded them yet gives the same result, and leaves the same data, as if configparserdata had been read just before it.", "quantifier": "every object state, operation and file system", "why_tests_cant": "all states and operations", "anchors": ["src/configparserenhanced/ConfigParserEnhanced.py:configparserdata", "src/configparserenhanced/ConfigParserEnhanced.py:parse_section"]}
{"id": "C42", "title": "What a configuration text means", "statement": "For every text that follows the documented .ini grammar (comment lines with # or ;, headers at the start of a line with anything after the last bracket ignored, equally indented options 'key delimiter value' or a bare key, continuation lines indented deeper, blank and comment lines anywhere, either line end, no repeated header or key), configparserdata is exactly the configuration it denotes: sections and options in the order of the text, keys with their case kept, values with surrounding blanks removed, continuation lines joined by line ends with empty lines inside kept and at the end dropped, None for a bare key, and the section CONFIGPARSERENHANCED_COMMON as the common options.", "quantifier": "every text of the grammar, set of one-character delimiters", "why_tests_cant": "unboundedly many texts", "anchors": ["src/configparserenhanced/ConfigParserEnhanced.py:configparserdata"]}
{"id": "C43", "title": "Several files: the last one wins", "statement": "With a list of files, an option has the value given by the last file of the list that gives it one; sections appear in the order in which they are first met; files that exist but cannot be opened are skipped.", "quantifier": "every list of files and contents", "why_tests_cant": "all combinations of files", "anchors": ["src/configparserenhanced/ConfigParserEnhanced.py:configparserdata", "src/configparserenhanced/ConfigParserEnhanced.py:inifilepath"]}
{"id": "C44", "title": "Malformed texts are refused with a definite error", "statement": "In an otherwise well formed text, the first fault decides: a repeated header raises DuplicateSectionError, a repeated key in a section DuplicateOptionError, text before the first header MissingSectionHeaderError, a continuation line after a bare key AttributeError; an option line that starts with a delimiter raises ParsingError once the whole file has been read, or the exception of a later fault.", "quantifier": "every text with a well formed beginning followed by a fault, whatever follows", "why_tests_cant": "unboundedly many texts", "anchors": ["src/configparserenhanced/ConfigParserEnhanced.py:configparserdata"]}
{"id": "C45", "title": "Operations on environment variables do exactly what their name says", "statement": "For every environment, variable name and value, after expansion of the references in the value: set writes it, set_if_empty writes it only if the variable is unset or empty, append and prepend join it to the present value with ':' (or write it alone), unset removes the variable, remove_substr removes every occurrence found from left to right, remove_path_entry drops exactly the equal ':'-separated entries and keeps the others in order, find_in_path writes where the executable is (or the empty text), assert_not_empty and unknown operations raise ValueError without effect. A write with a NUL character or with '=' in the name is a ValueError, a write to the empty name an OSError, both without effect. No other variable changes, whatever happens; when empty values are not allowed, ValueError is raised instead of writing one.", "quantifier": "every environment, operation name, variable name, value, executable search", "why_tests_cant": "unboundedly many texts and environments", "anchors": ["wip/setenvironment/src/setenvironment/SetEnvironment.py:envvar_op", "wip/setenvironment/src/setenvironment/SetEnvironment.py:envvar_set", "wip/setenvironment/src/setenvironment/SetEnvironment.py:envvar_set_if_empty"]}
{"id": "C46", "title": "References in values are expanded once", "statement": "In every value, each $NAME (longest name) and ${NAME} of a variable that is set is replaced by its value, references to unset variables and other dollar signs stay, and inserted values are not expanded again.", "quantifier": "every environment and text", "why_tests_cant": "unboundedly many texts", "anchors": ["wip/setenvironment/src/setenvironment/SetEnvironment.py:envvar_op"]}
{"id": "C47", "title": "The action list of a section", "statement": "After any history of operations on a SetEnvironment object, the stored action list of a section is: one action per envvar-*/module-* option in unrolled order (DEFAULT first), without the actions that a later envvar-remove NAME or module-remove NAME takes out (all actions on that variable; all module actions with that module or with its name in their value). A parse that fails, or that is not finalized, leaves the lists as they were; a parse of one section never changes the list of another.", "quantifier": "every file without options named initialize/finalize, every history", "why_tests_cant": "unboundedly many files and histories", "anchors": ["wip/setenvironment/src/setenvironment/SetEnvironment.py:SetEnvironment.actions", "wip/setenvironment/src/setenvironment/SetEnvironment.py:SetEnvironment.handler_finalize", "wip/setenvironment/src/setenvironment/SetEnvironment.py:SetEnvironment._helper_handler_common_envvar"]}
{"id": "C48", "title": "apply performs the actions in order", "statement": "apply(S) performs the actions of the list of S in order on the process environment: it stops at the first exception (an action that lacks a needed name or value is a TypeError), returns the largest status otherwise, a module command with a status other than 0 being a CRITICAL event; if S has no list it raises KeyError, and if looking S up raises anything else it is passed on, with the environment unchanged.", "quantifier": "every file, history, environment and behaviour of the module command; action texts without quotes, backslashes, line ends and NUL", "why_tests_cant": "all files, environments and histories", "anchors": ["wip/setenvironment/src/setenvironment/SetEnvironment.py:SetEnvironment.apply", "wip/setenvironment/src/setenvironment/SetEnvironment.py:SetEnvironment._apply_envvar", "wip/setenvironment/src/setenvironment/SetEnvironment.py:SetEnvironment._apply_module", "wip/setenvironment/src/setenvironment/SetEnvironment.py:SetEnvironment._exec_helper"]}
{"id": "C49", "title": "Generated scripts list and do what apply does", "statement": "generate_actions_script(S) returns exactly the optional interpreter line and header, and one command line per action of the list of S in order, for bash and python; another interpreter is a SERIOUS event with an empty script; write_actions_to_file stores exactly this text and touches no other file, or writes nothing if generation raises. Running the Python script on an environment performs the same actions: whenever apply(S) succeeds, the script leaves the environment as apply would.", "quantifier": "every file, history, environment, combination of include flags", "why_tests_cant": "all files, environments and histories", "anchors": ["wip/setenvironment/src/setenvironment/SetEnvironment.py:SetEnvironment.generate_actions_script", "wip/setenvironment/src/setenvironment/SetEnvironment.py:SetEnvironment.write_actions_to_file", "wip/setenvironment/src/setenvironment/SetEnvironment.py:SetEnvironment._gen_actioncmd_envvar", "wip/setenvironment/src/setenvironment/SetEnvironment.py:SetEnvironment._gen_actioncmd_module"]}
{"id": "C50", "title": "Values of a keyword", "statement": "KeywordParser.get_values_for_section_key(S, k) returns the words written in the text of key k of the section S as ConfigParserEnhanced resolves it (text after '#' and the rest of such a line dropped, lines and '^' separate), in order; it exits exactly when a value is listed twice, contains a blank or '_' (other than SELECT_ONE, SELECT_MANY) or is a key of the section; a key that S lacks is a KeyError.", "quantifier": "every file, section, key, value text", "why_tests_cant": "all texts of values with comments anywhere", "anchors": ["wip/keywordparser/keywordparser/KeywordParser.py:KeywordParser.get_values_for_section_key", "wip/keywordparser/keywordparser/KeywordParser.py:KeywordParser.assert_values_are_unique", "wip/keywordparser/keywordparser/KeywordParser.py:KeywordParser.assert_values_do_not_contain_whitespace_or_delimiter", "wip/keywordparser/keywordparser/KeywordParser.py:KeywordParser.assert_no_value_is_equal_to_a_key_name"]}
{"id": "C51", "title": "The key of a value", "statement": "get_key_for_section_value(S, v) returns the last key of S that lists v, exits if there is none or if any key breaks the rules of C50; if no value is listed twice, it is the inverse of get_values_for_section_key.", "quantifier": "every file, section, value", "why_tests_cant": "all sections", "anchors": ["wip/keywordparser/keywordparser/KeywordParser.py:KeywordParser.get_key_for_section_value"]}
{"id": "C52", "title": "The environment of a build name", "statement": "EnvKeywordParser(build, system, file) exists exactly when the alias lists of the system obey the rules and no alias is listed twice, otherwise the constructor exits. qualified_env_name is the system name, '_' and the environment whose name is the longest one found in the build name at word boundaries, or, if no name is found, the environment of the longest alias found; it exits if none is found, and once computed it does not change.", "quantifier": "every file, system, build name (names and aliases of ordinary characters)", "why_tests_cant": "all build names and supported-env files", "anchors": ["wip/loadenv/loadenv/EnvKeywordParser.py:EnvKeywordParser.__init__", "wip/loadenv/loadenv/EnvKeywordParser.py:EnvKeywordParser.qualified_env_name", "wip/loadenv/loadenv/EnvKeywordParser.py:EnvKeywordParser.get_aliases"]}
{"id": "C53", "title": "Selected options of a build name", "statement": "ConfigKeywordParser: selected_options has one entry per flag of the section configure-flags, in file order: the option of the flag that is a word of the build name (split at '_'), the first option if none is, the alphabetical list of them if several are and the flag is SELECT_MANY; several for a SELECT_ONE flag is a ValueError. selected_options_str is '_option' for each of them; choosing again from that text, after any beginning without options, selects the same. A flag without type is a ValueError (IndexError without values), an option listed under two flags exits. After any sequence of assignments to build_name and queries, successful or not, every query answers as a new object made with the current build name.", "quantifier": "every file, build name, history of assignments and queries", "why_tests_cant": "all files, build names, histories", "anchors": ["wip/genconfig/src/config_keyword_parser.py:ConfigKeywordParser.selected_options", "wip/genconfig/src/config_keyword_parser.py:ConfigKeywordParser.selected_options_str", "wip/genconfig/src/config_keyword_parser.py:ConfigKeywordParser.parse_selected_options", "wip/genconfig/src/config_keyword_parser.py:ConfigKeywordParser.get_options_and_flag_type_for_flag", "wip/genconfig/src/config_keyword_parser.py:ConfigKeywordParser.is_default_option", "wip/genconfig/src/config_keyword_parser.py:ConfigKeywordParser.build_name"]}
{"id": "C54", "title": "The system of a host and a build name", "statement": "DetermineSystem.system_name: the host's system is the first section of the file (other than DEFAULT) with a key whose part before '#', '^' or blank is found in the host name; two systems named in the lower-cased build name: exit; none named: the host's system, exit if there is none; one named: that one, exit if it is not the host's unless forced. Once returned it does not change; after an exit because of a mismatch that the caller catches, the next read returns the system of the build name.", "quantifier": "every file, host name, build name", "why_tests_cant": "all files, host names and build names", "anchors": ["wip/determinesystem/determinesystem/DetermineSystem.py:DetermineSystem.system_name", "wip/determinesystem/determinesystem/DetermineSystem.py:DetermineSystem.determine_system", "wip/determinesystem/determinesystem/DetermineSystem.py:DetermineSystem.get_sys_name_from_hostname", "wip/determinesystem/determinesystem/DetermineSystem.py:DetermineSystem.get_sys_name_from_build_name", "wip/determinesystem/determinesystem/DetermineSystem.py:DetermineSystem.supported_sys_names"]}
{"id": "C55", "title": "Names of a LoadEnv object follow its build name", "statement": "LoadEnv: system_name is what DetermineSystem says, parsed_env_name the environment EnvKeywordParser finds on that system, env_stripped_build_name the build name without the words that are environment names, aliases or systems; a failure is that of the first tool that fails. After any history of reads and assignments to build_name, failures included, every read answers like a new object with the current build name.", "quantifier": "every set of files, build name, force flag and history of reads and assignments", "why_tests_cant": "all files, build names and histories; the answers are cached", "anchors": ["wip/loadenv/load_env.py:LoadEnv.system_name", "wip/loadenv/load_env.py:LoadEnv.build_name", "wip/loadenv/load_env.py:LoadEnv.parsed_env_name", "wip/loadenv/load_env.py:LoadEnv.env_stripped_build_name", "wip/loadenv/load_env.py:LoadEnv.load_env_keyword_parser"]}
{"id": "C56", "title": "The configuration of a build name and the validation of config-specs.ini", "statement": "GenConfig: complete_config is the environment name followed by the text of the selected options, or the failure of the first tool that fails; the validation succeeds exactly when each section of config-specs.ini whose name is not all upper case is its own complete configuration, raises ValueError when all have one and some name differs, and what the tools raise otherwise; list_configs lists the sections whose names begin with the system. In any history in which no validation failed every operation answers like a new object. After a validation that failed because of the names the next complete_config is that of the last section checked, whatever the build name.", "quantifier": "every set of files, build name, force flag and history of operations", "why_tests_cant": "all files, build names and histories; the validation re-uses the objects of the build name", "anchors": ["wip/genconfig/gen_config.py:GenConfig.complete_config", "wip/genconfig/gen_config.py:GenConfig.validate_config_specs_ini", "wip/genconfig/gen_config.py:GenConfig.list_configs", "wip/genconfig/gen_config.py:GenConfig.generated_config_flags_str", "wip/genconfig/gen_config.py:GenConfig.load_config_keyword_parser", "wip/genconfig/gen_config.py:GenConfig.load_load_env"]}
{"id": "C57", "title": "The Bash script of a section does what apply does", "statement": "The script that generate_actions_script makes for Bash, run in an environment, leaves the environment that performing the actions in Python (apply, or the Python script) leaves, and exits exactly where Python raises (an assertion that a variable is not empty), for every list of actions whose arguments mean the same in both languages: references to variables that are set, no characters special in double quotes, variable names not used by the script's own functions, no removal of path entries, and for substring removal and path search words that Bash does not split.", "quantifier": "every list of such actions, environment and behaviour of the module command", "why_tests_cant": "all lists, values and environments; the two languages differ in expansion and quoting", "anchors": ["wip/setenvironment/src/setenvironment/SetEnvironment.py:SetEnvironment.generate_actions_script", "wip/setenvironment/src/setenvironment/SetEnvironment.py:SetEnvironment._gen_actioncmd_envvar", "wip/setenvironment/src/setenvironment/SetEnvironment.py:SetEnvironment._gen_actioncmd_module", "wip/setenvironment/src/setenvironment/SetEnvironment.py:SetEnvironment._gen_script_header_bash"]}
{"id": "C58", "title": "Where the Bash script differs from apply", "statement": "Removing an entry from a path variable that is set leaves, in Bash, the remaining entries with a colon before and after each of them (of two equal entries in a row the second stays; a leading ':1' is cut off), never the value that Python leaves. On a variable that is not set, removal of an entry or substring does nothing in Python and sets the variable to '::' or '' in Bash. A reference to a variable that is not set is kept by Python and dropped by Bash. append, prepend, remove_substr, remove_path_entry and find_in_path with an empty argument end the Bash script and succeed in Python. A variable called op, arg1 or arg2 cannot be set by the Bash script. A substring with a '#' in it is removed by Python and left alone by Bash.", "quantifier": "every environment, variable and argument of the kind described", "why_tests_cant": "all values of the variables", "anchors": ["wip/setenvironment/src/setenvironment/SetEnvironment.py:SetEnvironment.generate_actions_script", "wip/setenvironment/src/setenvironment/SetEnvironment.py:SetEnvironment._gen_script_header_bash", "wip/setenvironment/src/setenvironment/SetEnvironment.py:SetEnvironment._gen_actioncmd_envvar"]}
{"id": "C59", "title": "write puts the rendered text into the file, or nothing", "statement": "write appends to the file exactly the text unroll_to_str gives with the same arguments and returns 0; when unroll_to_str raises, write raises the same and the file is not touched. An argument that is not a file raises TypeError at every exception level and changes nothing. A file so written, read by a new object, has the same sections resolving to the same options. Writing to the object's own (just truncated) ini file leaves a single line end.", "quantifier": "every object and history state, file system, section argument, flags and stream content", "why_tests_cant": "all configurations and states", "anchors": ["src/configparserenhanced/ConfigParserEnhanced.py:ConfigParserEnhanced.write", "src/configparserenhanced/ConfigParserEnhanced.py:ConfigParserEnhanced.unroll_to_str"]}
{"id": "C60", "title": "The top level files of GenConfig and LoadEnv", "statement": "gen-config.ini is accepted exactly if its two sections are there, unroll without a fault, and each of the five options is a non-empty path of something that exists at the time of the access; each access checks again, so for any history of accesses and of changes on disk the answer depends on the disk now. Failures: the exception of the loading; ValueError for a missing section; the first fault of a section; ValueError otherwise. The values become paths seen from the directory of the file and nothing else changes. args gives, for each file, the one of the command line or that path, raises if the top level file is bad even if all files are given, and is computed once. A file missing at the first access is missed for good. If the path of gen-config.ini is relative with a directory, the second access looks below that directory once more. load-env.ini: the same with one section and three options, without asking whether the files exist, checked once.", "quantifier": "every content of the files, path, history of accesses with arbitrary changes on disk between them, and command line", "why_tests_cant": "all paths, contents and histories", "anchors": ["wip/genconfig/gen_config.py:GenConfig.gen_config_config_data", "wip/genconfig/gen_config.py:GenConfig.validate_gen_config_config_data", "wip/genconfig/gen_config.py:GenConfig.args", "wip/loadenv/load_env.py:LoadEnv.parse_top_level_config_file", "wip/loadenv/load_env.py:LoadEnv.args"]}
{"id": "C61", "title": "LoadEnv applies and writes the environment asked for", "statement": "After any history of operations, apply_env performs, in order, the actions that environment-specs.ini gives the environment that the present build name asks for; the first action that raises or has a status other than 0 (RuntimeError) ends it, and if it fails earlier the process environment is unchanged; it writes no files. A new object first checks all of environment-specs.ini: an unreadable section, or an option anywhere that no handler takes (ValueError), stops it before the first action; an environment without a section is a KeyError; the check is not repeated by a second call. write_load_matching_env never changes the environment; when it succeeds the temporary file and the requested file both hold the script of that environment, ending with `export LOADED_ENV_NAME=<name>`, and no other file changes; when it fails only the temporary file may be gone. After a successful apply_env the script is written, and sourcing it in the environment apply_env started from leaves what apply_env left plus LOADED_ENV_NAME. The program writes the path of the temporary file where load-env.sh looks for it, writes nothing if the environment cannot be applied, and changes nothing with --list-envs.", "quantifier": "every set of files, build name, history, environment of the process, and paths", "why_tests_cant": "all configurations, histories and environments", "anchors": ["wip/loadenv/load_env.py:LoadEnv.apply_env", "wip/loadenv/load_env.py:LoadEnv.write_load_matching_env", "wip/loadenv/load_env.py:LoadEnv.load_set_environment", "wip/loadenv/load_env.py:main", "wip/loadenv/load-env.sh"]}
{"id": "C62", "title": "module commands: what is run, and when the environment changes", "statement": "ModuleHelper.module(command, *arguments) without LMOD runs modulecmd (found on the search path, or else at the one place that the shell function `module` names and that exists; otherwise FileNotFoundError) with the words python, the command, and the arguments, where a single argument is split at white space. The environment changes only by executing what a modulecmd printed that ended with status 0 and has no `ERROR:` in its error output; in all other cases it is what it was. The result is 1 if an error was reported or the executed code left _mlstatus False, the exit status if it is not 0, and 0 otherwise; exceptions are passed on. With LMOD the result is 1 if the error output has `error:` in any capitalisation, otherwise the status of the first check that fails (loaded after load, not loaded after unload, both for swap, existing after use), otherwise 0; it needs LMOD_CMD. If modulecmd reports an error or fails for an action of a section, SetEnvironment.apply (exception_control_level 2 or more) raises RuntimeError there and leaves the environment that the actions before it made.", "quantifier": "every command, every list of arguments, every environment, and every behaviour of the programs called", "why_tests_cant": "all behaviours of an external program and all environments", "anchors": ["wip/setenvironment/src/setenvironment/ModuleHelper.py:module", "wip/setenvironment/src/setenvironment/SetEnvironment.py:SetEnvironment.apply"]}
{"id": "C63", "title": "GenConfig output: fragment, flags, saved arguments, and main", "statement": "Whatever was called before on the object (also if a validation failed): generated_config_flags_str is the options generated for bash for the configuration of the build name, with ` \\`, a line end and four blanks between them, provided every checked section of config-specs.ini has its canonical name; it touches no file. write_cmake_fragment writes the options for a CMake fragment, one a line, to the file of --cmake-fragment. A file that is already there is replaced only with --yes or if the first typed line that starts with y or n (any case) starts with y; otherwise it is left as it is and the program ends (an empty line is an IndexError, the end of the input an EOFError). If there is no configuration or no option list, the failure is passed on and nothing is written or asked. Once the fragment has been written, a further call returns the path and does nothing. main: the list options end the program and touch no file; --save-load-env-args writes the LoadEnv arguments (three files, --force and --ci-mode if given, build name) and looks for no configuration; --cmake-fragment writes the fragment; otherwise the flags go to a new file and its path to the file that gen-config.sh reads, which is not touched on a failure. The shell gets the saved arguments back if none is empty or has white space. From the flags text it gets the options with a single backslash as an extra word between each two.", "quantifier": "every set of configuration files, every command line, every history of calls and changes to the files, every typed input, every option generator", "why_tests_cant": "all histories, all files on disk and all inputs", "anchors": ["wip/genconfig/gen_config.py:GenConfig.generated_config_flags_str", "wip/genconfig/gen_config.py:GenConfig.write_cmake_fragment", "wip/genconfig/gen_config.py:GenConfig.load_env_args", "wip/genconfig/gen_config.py:main", "wip/genconfig/gen-config.sh"]}
{"id": "C64", "title": "Messages and lists of supported names", "statement": "A formatted message is a frame line, the lines of the message with its kind before the first one, the lines of the extra text and the frame line again, and no line ends in white space, whatever kinds of line ends the texts contain; a message for a list shows every item on its own line in order. The list of supported flags shows every flag of the file in order with its type and options, the first marked as default, at any point of a history of the object, or fails with the error of the first bad flag. The list of supported environments never fails once the parser was constructed and shows all environments of the system and their aliases in alphabetical order. --list-config-flags, --list-configs and --list-envs show exactly these lists.", "quantifier": "every message, kind, extra text and list of items; every flags file, environments file and history of queries", "why_tests_cant": "Tests compare a few fixed messages; which line ends, blank lines, trailing blanks and lists come in depends on file contents and histories without bound.", "anchors": ["wip/keywordparser/keywordparser/FormattedMsg.py:FormattedMsg.get_formatted_msg,get_msg_for_list", "wip/genconfig/src/config_keyword_parser.py:get_msg_showing_supported_flags", "wip/loadenv/loadenv/EnvKeywordParser.py:get_msg_showing_supported_environments", "wip/genconfig/gen_config.py:list_config_flags,list_configs", "wip/loadenv/load_env.py:list_envs"]}
{"id": "C65", "title": "Sourcing load-env.sh", "statement": "Sourcing load-env.sh loads the environment that load_env.py has prepared, or none. It refuses when executed instead of sourced, and in a shell where an environment is already loaded. Without Python 3.6, without arguments, or if load_env.py fails, the exported variables are as before and the status is 1, or that of load_env.py. With --ci-mode the calling shell is left with the environment that the actions of the section make of the one it had, plus LOADED_ENV_NAME; without it only a new interactive shell gets it, whose prompt shows the name and in which load-env.sh refuses. Of the files only the generated ones are removed (and, when none was generated, those that a variable env_file of the caller names, or a file rc in the working directory); of the other variables only the script's own change.", "quantifier": "every calling shell (exported and other variables, files), argument list, behaviour of the programs started, and site", "why_tests_cant": "A test runs the script in one shell with one environment; the state of the caller, the files that lie around and the point at which something fails vary without bound.", "anchors": ["wip/loadenv/load-env.sh:cleanup", "wip/loadenv/load_env.py:main"]}
{"id": "C66", "title": "Sourcing gen-config.sh", "statement": "Sourcing gen-config.sh with a directory as the last argument (or --cmake-fragment) runs gen_config.py, sources load-env.sh with exactly the arguments that gen_config.py has saved, and, with --ci-mode, starts CMake in the loaded environment with the options generated for the configuration (with a backslash between each two) and the path to the source. It returns 1 with nothing loaded if it is called without a directory, without arguments, with --help, or without Python 3.6. If gen_config.py, load-env.sh or CMake fails it returns 0, and after a failure of gen_config.py nothing is loaded and CMake is not started. In every case its variables, its exported function and its two files are gone afterwards, and other variables and files are left alone.", "quantifier": "every calling shell, argument list, behaviour of the programs started, and site", "why_tests_cant": "The outcome depends on the words that unquoted texts are split into, on the caller's variables and on which of four programs fails; tests fix all of these.", "anchors": ["wip/genconfig/gen-config.sh:cleanup_gc,gen_config_helper", "wip/loadenv/load-env.sh:cleanup", "wip/genconfig/gen_config.py:main", "wip/loadenv/load_env.py:main"]}
{"id": "C67", "title": "Handlers that use the object while it parses", "statement": "A handler may call parse_section, get or set options of any section through configparserenhanceddata, and assign exception_control_level, while its own parse is under way. Each nested parse is a parse of its own with empty shared data; afterwards the outer parse goes on with its own shared data and position. Looking up a section that is being parsed, or has been, starts no parse and returns what has been collected so far. The result and all effects are determined; handlers that leave the object alone give the parse of C01. If handlers look up only finitely many names and never call parse_section, every parse ends. Options of the section being parsed are the merge of C01 whatever handlers do to other sections. A handler that unconditionally starts the same parse again makes parse_section recurse without end.", "quantifier": "every configuration, every class, every handler as a sequence of such steps depending on what the steps before returned or raised, every state of the object", "why_tests_cant": "Which section is parsed when depends on the order of the lookups, on what is marked already and on exceptions caught by handlers at any depth; no test has a handler that calls back.", "anchors": ["src/configparserenhanced/ConfigParserEnhanced.py:parse_section", "src/configparserenhanced/ConfigParserEnhanced.py:_parse_section_r", "src/configparserenhanced/ConfigParserEnhanced.py:ConfigParserEnhancedData.get", "src/configparserenhanced/ConfigParserEnhanced.py:ConfigParserEnhancedData.set", "src/configparserenhanced/ConfigParserEnhanced.py:ConfigParserEnhancedData.has_section", "src/configparserenhanced/ConfigParserEnhanced.py:ConfigParserEnhancedData._parse_owner_section"]}
{"id": "C68", "title": "The printed list of actions is the list that is performed", "statement": "pretty_print_actions(S) looks S up and prints a heading and one line per action in S's list, in order: the operation padded to the widest operation (at least fourteen characters) and what it does to which variable or module. The text is determined by the list; every action a file can ask for has a line. apply(S) right afterwards performs exactly that list with the effects it would have had without printing, and a script generated right afterwards holds its commands. An exception of the look-up, or a missing list, is raised before anything is printed. If the client made a list with an action that lacks what its operation needs, KeyError comes after the lines of the actions before it.", "quantifier": "every configuration, every history of the object, every section, every list of actions", "why_tests_cant": "The width of the label depends on all actions, and agreement with apply and with the scripts is a relation between three operations at every state of the object.", "anchors": ["wip/setenvironment/src/setenvironment/SetEnvironment.py:pretty_print_actions", "wip/setenvironment/src/setenvironment/SetEnvironment.py:apply", "wip/setenvironment/src/setenvironment/SetEnvironment.py:generate_actions_script"]}
{"id": "C69", "title": "The printed environment hides what the filter does not mention", "statement": "pretty_print_envvars(envvar_filter, filtered_keys_only) prints a banner and then, in the order of the environment, each variable with its value if there is no filter or an entry of the filter occurs in its name; otherwise its name only, or nothing if filtered_keys_only. Values of variables the filter does not mention never influence the output; with filtered_keys_only neither do their names. Arguments of a wrong type raise TypeError before anything is printed; a filter entry that is not a text raises TypeError at the first variable that no entry before it mentions. Nothing else changes and the result is 0.", "quantifier": "every environment, every filter (also with entries that are no texts), both flags", "why_tests_cant": "That hidden values (such as credentials) never influence the output is a statement about all pairs of environments.", "anchors": ["wip/setenvironment/src/setenvironment/SetEnvironment.py:pretty_print_envvars"]}
{"id": "C70", "title": "A list of actions is that of the last parse, or of the last assignment", "statement": "In every history of an object (files, delimiters, exception level, look-ups, parses, actions assigned, apply, listings, scripts, files changing on disk in between), the list that apply, the listing and the scripts use for a section S was part of the last assignment to `actions`, or was made at a later operation from the configuration the object had loaded at the end of that operation. apply(S) makes it anew exactly when S was not looked up since the configuration was last dropped and the configuration has S; otherwise the old list is performed, also when the files no longer have S. A script makes a list only if there is none: after the delimiters were assigned, a script still holds the old commands until S is looked up or applied. With no file ever assigned apply is a ValueError. A value that is no dict is a TypeError and changes nothing. Once a configuration is loaded the operations are those of C41-C50.", "quantifier": "every file system before every operation, every history of operations (also failing ones), every section and list", "why_tests_cant": "Whether the commands of a script are those apply performs depends on the whole history of assignments and look-ups.", "anchors": ["wip/setenvironment/src/setenvironment/SetEnvironment.py:actions", "wip/setenvironment/src/setenvironment/SetEnvironment.py:apply", "wip/setenvironment/src/setenvironment/SetEnvironment.py:generate_actions_script", "wip/setenvironment/src/setenvironment/SetEnvironment.py:pretty_print_actions", "src/configparserenhanced/ConfigParserEnhanced.py:inifilepath", "src/configparserenhanced/ConfigParserEnhanced.py:configparser_delimiters"]}
{"id": "C71", "title": "What a skipped event shows", "statement": "exception_control_event with an exception class, at a positive level that does not make the event raise, with warnings not silenced and an event other than SILENT, returns and prints one notice. The long form shows the event in upper case, the name of the class, the message if there is one (with every line of it on a line of its own), the callers from the outermost one to the immediate one but not the method itself, and the level at which the call would raise: the printed number is the least such level. Every line of it starts with `!!`, whatever the message and the stack contain, and two notices that read the same come from the same event, exception and message (no message differs from an empty one). The compact form is a single line with event, exception and the first line on the immediate caller. In all other cases nothing is printed. Printing does not change the outcome or the settings. A value that is no exception is a TypeError; a class that cannot be constructed without arguments gives the exception of its constructor, at every level; an exception instance is raised as it is if the level is reached and no message is given, is ignored at level 0, and is a TypeError otherwise.", "quantifier": "every message, call stack, class name without line feed, event name and state of the settings", "why_tests_cant": "That no message or stack can imitate another notice, and that the printed level is the least one, is a claim on all texts and all levels.", "anchors": ["src/configparserenhanced/ExceptionControl.py:exception_control_event"]}
{"id": "C72", "title": "What a command line means", "statement": "A command line of load-env or gen-config is accepted exactly if it can be read word by word: options by name or by an unambiguous beginning of a long name, values in the next word, after an equals sign, or directly behind a short name, short names sharing a dash, at most one other word (the build name, empty if there is none), no call for help; there is at most one way to read it. Then a flag is on exactly if it is there, of several values for an option the last one counts, values become paths, and for a configuration file that is not given the path of the top level file counts (C60). Anything else ends the program. Parts of a command line that share no option and are not both words may change places. load-env takes no notice of --ci-mode. The command line that gen-config makes up for load-env gives load-env the same build name, --force and files, and nothing else, exactly if load-env does not take the build name for an option; so always when it has no dash in front. (gen-config accepts `--output=a b` as a build name, and load-env then writes the file `a b` and has no build name.)", "quantifier": "every list of words, every resolution of paths, every notion of negative number, every content of the top level files", "why_tests_cant": "The claim is about all command lines, and the last part about the agreement of two parsers on everything one of them makes up.", "anchors": ["wip/loadenv/load_env.py:LoadEnv.__parser", "wip/loadenv/load_env.py:LoadEnv.args", "wip/genconfig/gen_config.py:GenConfig.__parser", "wip/genconfig/gen_config.py:GenConfig.args", "wip/genconfig/gen_config.py:GenConfig.load_env_args"]}
{"id": "C73", "title": "load_env.py from its words and the texts of its files to what it leaves", "statement": "If the command line can be read, load-env.ini says which files there are, and the files can be read, then load_env.py either applies the environment that the build name stands for to its own environment, writes the script for it to the temporary file and to --output, the path of the temporary file to --load-matching-env-location, and changes no other file; or it fails and changes no file. With --list-envs it changes nothing. If load-env.ini does not name the files, if the command line cannot be read, or if one of the three files is not there, it changes nothing. And `source load-env.sh --ci-mode ... <build name>` on a machine that runs this program gives the shell exactly the environment that the actions of the environment section make of the one it had, with LOADED_ENV_NAME set, or returns a status other than 0 and leaves the environment as it was. What the programs find under a path is what was put there: reading a directory or a path with nothing at it fails, and an .ini file that is there and cannot be opened counts as one that says nothing.", "quantifier": "every command line, every environment, every set of files and their texts, every host and every behaviour of the module command and of `which`", "why_tests_cant": "The claim joins the reading of four files, a command line, three parsers, an interpreter of actions, and two generated scripts; tests see a few combinations of them.", "anchors": ["wip/loadenv/load_env.py:LoadEnv.__init__", "wip/loadenv/load_env.py:LoadEnv.args", "wip/loadenv/load_env.py:LoadEnv.load_environment_specs", "wip/loadenv/load_env.py:main", "wip/loadenv/load-env.sh"]}
{"id": "C74", "title": "gen_config.py from its words and the texts of its files to what it leaves, and gen-config.sh with it", "statement": "If the command line can be read, gen-config.ini names five files that are there, and the files can be read, then gen_config.py writes the CMake options of the configuration that the build name stands for to a temporary file and the path of that file to a second one; with --cmake-fragment it writes them to that file (an existing one only if the user agrees); with --save-load-env-args it writes the words for load_env.py there and reads nothing else; with --list-configs or --list-config-flags it writes nothing. Nothing else changes. If the command line cannot be read, if gen-config.ini does not name existing files, or if a file is missing, it fails and changes nothing but that the temporary file may be empty. And `source gen-config.sh --ci-mode ... <build name> <source>` on a machine that runs gen_config.py and load_env.py starts CMake with the options for the configuration, in the environment that the actions of the environment section make of the one that there was, and leaves that environment in the shell.", "quantifier": "every command line, every environment, every set of files and their texts, every answer of the user, every host, and every behaviour of the module command and of the generator of options", "why_tests_cant": "The claim joins seven files, two command lines (one made up by the other program), two programs run three times, and two shell scripts; tests see a few combinations of them.", "anchors": ["wip/genconfig/gen_config.py:GenConfig.__init__", "wip/genconfig/gen_config.py:GenConfig.args", "wip/genconfig/gen_config.py:GenConfig.load_load_env", "wip/genconfig/gen_config.py:GenConfig.write_cmake_fragment", "wip/genconfig/gen_config.py:main", "wip/genconfig/gen-config.sh"]}
{"id": "C75", "title": "How Python reads the values of actions", "statement": "The values and names of actions are put between double quotes in the generated Python commands as they are, so what is set is what Python reads there: a backslash begins an escape (by letter, octal or hexadecimal number; before a line end it joins lines; before any other character it stays), a text without quotes, backslashes, line ends and NUL stands for itself, and every text can be written with escapes. A line end or an escape by number without its digits is a SyntaxError, and so is a last value that ends with a backslash that takes the closing quote. apply(S) performs the actions before the first one that cannot be read and then raises SyntaxError; the generated script is read as a whole, so it raises SyntaxError and does nothing at all. Whenever apply(S) succeeds the script leaves the environment as apply does.", "quantifier": "every file, history, environment, behaviour of the module command, and all texts without an unescaped double quote, NUL, \\N{name} and surrogates", "why_tests_cant": "the meaning depends on every character of every value, and on the text that follows it (octal escapes, closing quote); tests use values without backslashes", "anchors": ["wip/setenvironment/src/setenvironment/SetEnvironment.py:SetEnvironment._gen_actioncmd_envvar", "wip/setenvironment/src/setenvironment/SetEnvironment.py:SetEnvironment._gen_actioncmd_module", "wip/setenvironment/src/setenvironment/SetEnvironment.py:SetEnvironment._exec_helper", "wip/setenvironment/src/setenvironment/SetEnvironment.py:SetEnvironment.apply", "wip/setenvironment/src/setenvironment/SetEnvironment.py:SetEnvironment.generate_actions_script"]}
{"id": "C76", "title": "From the texts of the files to the answers", "statement": "For an object of the base class, every way to access a section S through configparserenhanceddata is answered from one dict that can be read off the texts of the files: take the options of the DEFAULT section (if any) and then those of S in the order of the files, later files written over earlier ones, options of the common section after a section's own, with each 'use T' replaced in place by the options of T (by nothing if T is being replaced already), references in values replaced, white space and then double quotes removed at the ends of values; write them in order, the last value of a key wins. A key that is not in this dict raises KeyError when it is asked for, and if a section is used that no file has, every access to S raises KeyError.", "quantifier": "all texts in the ini format, any number of files, any graph of use, all delimiters, exception levels up to 4, all accesses", "why_tests_cant": "it is the composition of reading, merging, unrolling, interpolation and caching; tests check a few fixed files", "anchors": ["src/configparserenhanced/ConfigParserEnhanced.py:parse_section", "src/configparserenhanced/ConfigParserEnhanced.py:_parse_section_r", "src/configparserenhanced/ConfigParserEnhanced.py:configparserdata", "src/configparserenhanced/ConfigParserEnhanced.py:ConfigParserEnhancedData"]}
{"id": "C77", "title": "Backslashes in values: where the Bash script agrees with apply", "statement": "In the Bash script of a section a backslash in a value goes away before $, a backquote, a double quote and a backslash, and stays elsewhere; a variable that is set gets exactly the text so read. apply and the Python script read the value as a Python literal instead. The two readings of a value without $ and backquotes are the same if and only if every backslash is followed by a backslash, a double quote, or a character that has no meaning after a backslash in Python; otherwise envvar-set leaves different values in the variable. A reference after a backslash is kept by Bash and replaced by Python. If the two agree on each value, the Bash script ends with the environment that apply leaves.", "quantifier": "all values, environments, lists of actions and operations", "why_tests_cant": "the readings depend on every character after a backslash; the tests compare the text of the scripts and have no backslash in a value", "anchors": ["wip/setenvironment/src/setenvironment/SetEnvironment.py:SetEnvironment.generate_actions_script", "wip/setenvironment/src/setenvironment/SetEnvironment.py:SetEnvironment._gen_actioncmd_envvar", "wip/setenvironment/src/setenvironment/SetEnvironment.py:SetEnvironment.apply", "wip/setenvironment/src/setenvironment/SetEnvironment.py:SetEnvironment._gen_script_header_bash"]}
{"id": "C78", "title": "From the texts of the files to the environment of the process", "statement": "For a SetEnvironment object on .ini files that has not looked at section S: the options of DEFAULT and of S, with each use replaced by the options of the used section, read in order, give a list of actions; an envvar-remove or module-remove takes out those before it, not those after it, and options that are no operations give nothing. apply(S) performs exactly these, one after the other: each variable gets the value that its operation asks for in the environment of that moment, the first action that fails ends it with the exception of that action and leaves what was done before, and a module command with a status other than 0 ends it with RuntimeError. The script of the section has one line per action. A use of a section that is in no file is KeyError, an operation without a name IndexError, and then the environment is unchanged. The outcome and the values of all variables are determined by the files and by the values before.", "quantifier": "all texts of files, sections, environments, module commands and searches for executables", "why_tests_cant": "the whole way depends on all characters of all files and on the environment; the tests follow a few sections of fixed files", "anchors": ["wip/setenvironment/src/setenvironment/SetEnvironment.py:SetEnvironment.apply", "wip/setenvironment/src/setenvironment/SetEnvironment.py:SetEnvironment._handler_envvar_set", "wip/setenvironment/src/setenvironment/SetEnvironment.py:SetEnvironment._handler_envvar_remove", "wip/setenvironment/src/setenvironment/SetEnvironment.py:SetEnvironment._handler_module_remove", "wip/setenvironment/src/setenvironment/SetEnvironment.py:SetEnvironment.generate_actions_script", "src/configparserenhanced/ConfigParserEnhanced.py:ConfigParserEnhanced._parse_section_r", "src/configparserenhanced/ConfigParserEnhanced.py:ConfigParserEnhanced.configparserdata"]}
{"id": "C79", "title": "What a parse prints, at every debug level", "statement": "parse_section prints the banner START, then a trace that follows the parse step by step (the section entered, each option, the handler found or not found for it, the arguments at the beginning of a handler and the data at its end, what it returned, the section left) with each event notice in its place, and after a success the banner FINISH. A parse that fails has printed everything up to the step that failed and nothing after it. A line asks for a level and is printed if and only if debug_level is at least that, marked with its level. Lower debug levels print the same without the lines above them; at level 0 only event notices are printed. The debug level, and what was printed before, have no influence on the result, the data or the notices.", "quantifier": "all configurations, handlers, sections, debug levels, states of the object, successful and failing parses, any way Python shows the data", "why_tests_cant": "the trace depends on the whole course of the parse, of which there are unboundedly many; the tests look at no debug output", "anchors": ["src/configparserenhanced/ConfigParserEnhanced.py:ConfigParserEnhanced.parse_section", "src/configparserenhanced/ConfigParserEnhanced.py:ConfigParserEnhanced._parse_section_r", "src/configparserenhanced/ConfigParserEnhanced.py:ConfigParserEnhanced.enter_handler", "src/configparserenhanced/ConfigParserEnhanced.py:ConfigParserEnhanced.exit_handler", "src/configparserenhanced/ConfigParserEnhanced.py:ConfigParserEnhanced._check_handler_rval", "src/configparserenhanced/ConfigParserEnhanced.py:ConfigParserEnhanced._locate_handler_method", "src/configparserenhanced/Debuggable.py:Debuggable.debug_message"]}
{"id": "C80", "title": "Which dict the handlers of a parse share", "statement": "Every handler of a parse finds in handler_parameters.data_shared the dict of the section whose option it handles. If no handler binds another dict there is only one: all handlers, at any depth of use, in DEFAULT and in the two hooks, get the dict the parse began with, and parse_section returns that very dict. A handler that binds another dict to handler_parameters.data_shared binds it for the later options of its section and for the sections these use; the section that uses it, and the root section after DEFAULT and after handler_initialize, still have their own. parse_section returns the dict of the root section: what a used section, DEFAULT, handler_initialize or handler_finalize bound is not returned.", "quantifier": "all classes with any handlers and hooks, configurations (cycles of use and missing sections included), sections, states of the object, successful and failing parses", "why_tests_cant": "which object a handler holds depends on the whole course of the parse; the tests only change the dict they are given", "anchors": ["src/configparserenhanced/ConfigParserEnhanced.py:ConfigParserEnhanced._parse_section_r", "src/configparserenhanced/ConfigParserEnhanced.py:ConfigParserEnhanced._new_handler_parameters", "src/configparserenhanced/ConfigParserEnhanced.py:ConfigParserEnhanced._handler_use", "src/configparserenhanced/ConfigParserEnhanced.py:ConfigParserEnhanced.parse_section"]}
{"id": "C81", "title": "The printed debug log", "statement": "The debug log has, in order, the dicts logged at a positive debug level since it was last forgotten (by a new parse or other files), each with its type. Printing it prints one block per dict: the type, then the name, then the other keys in their order, each key exactly once with its value, and an empty line; every colon is in the same column, as far right as the longest key of the whole log needs. Every line is a message of level 1, so nothing is printed at debug level 0. Printing changes neither the log nor the debug level, so it can be repeated. If nothing was logged since the log was forgotten, printing raises AttributeError. Logging something that is no dict raises TypeError if and only if the debug level is positive. After a parse there is one block for each section entered or left, each option, operation and handler, and each cycle.", "quantifier": "all histories of logging, forgetting, setting the level and printing, all dicts and values, any way Python shows the values", "why_tests_cant": "the layout depends on all entries of the log at once; the tests print a log and look at nothing", "anchors": ["src/configparserenhanced/ConfigParserEnhanced.py:ConfigParserEnhanced._loginfo_print", "src/configparserenhanced/ConfigParserEnhanced.py:ConfigParserEnhanced._loginfo_add", "src/configparserenhanced/ConfigParserEnhanced.py:ConfigParserEnhanced._reset_lazy_attr", "src/configparserenhanced/Debuggable.py:Debuggable.debug_message"]}
{"id": "C82", "title": "A canonical name stands for itself", "statement": "The configuration that GenConfig finds for a build name is the name of the system, '_', the name of an environment of that system and the text of the selected options. Taken as a build name on the same host it stands for itself and selects the same options, if it names its system (in lower case) and no other system, no other environment name of the system that is as long is found in it, and no option is a word of the name of the environment. Likewise for the environment that LoadEnv finds: each build name that begins with it, under the same conditions, stands for it. A name in which two systems are found is refused, also if it is the name of a configuration.", "quantifier": "all files with systems, environments and options, all host names and build names, forced or not", "why_tests_cant": "the text of the options is searched again for systems and environments; the tests try a few names of a few files", "anchors": ["wip/genconfig/gen_config.py:GenConfig.complete_config", "wip/loadenv/loadenv/EnvKeywordParser.py:EnvKeywordParser.__init__", "wip/genconfig/src/config_keyword_parser.py:ConfigKeywordParser.selected_options", "wip/determinesystem/determinesystem/DetermineSystem.py:DetermineSystem.system_name", "wip/loadenv/load_env.py:LoadEnv.system_name"]}
{"id": "C83", "title": "Options may be moved into a section of their own", "statement": "If consecutive options of a section S, `use` options included, are moved into a new section T that was not mentioned before, and an option `use 'T'` is put in their place, then every section but T has the same enhanced data as before, with the same order of keys, for every class and all `use` links, cyclic ones too. If moreover the handlers of the class do not look at the name of the section in which an option stands, then parse_section of every section but T raises the same exception or returns the same shared data, with the same notices, and leaves the same attributes of the object and the same data of all other sections.", "quantifier": "all configurations with any `use` links, all ways to choose S and its consecutive options, all classes and objects, all exception levels; references with %(...)s do not lead from the options moved to others or back, and there is no common section with other options", "why_tests_cant": "a rearrangement of the file is compared with the file, for all files; the tests have a few fixed files", "anchors": ["src/configparserenhanced/ConfigParserEnhanced.py:ConfigParserEnhanced.parse_section", "src/configparserenhanced/ConfigParserEnhanced.py:ConfigParserEnhanced._parse_section_r", "src/configparserenhanced/ConfigParserEnhanced.py:ConfigParserEnhanced._handler_use"]}
{"id": "C84", "title": "The names of the sections carry no meaning", "statement": "If the sections of a file are given other names, no two the same and DEFAULT keeping its own, and every `use` option is changed accordingly, then every section has under its new name the enhanced data that it had under the old one, with the same order of keys, for every class and all `use` links, also cyclic ones and those to sections that do not exist. If moreover the handlers of the class do not look at section names, then parse_section of the section under its new name raises an exception of the same type or returns the same shared data, with the same notices, and leaves the same attributes of the object and the same data of every section under its new name.", "quantifier": "all configurations with any `use` links, all one-to-one ways to rename the sections, all classes, all pairs of objects that hold the same under the new names, all exception levels; the renaming leaves the values of other options as they are read", "why_tests_cant": "the claim compares the runs on two files, for all files and renamings; the tests have a few fixed names", "anchors": ["src/configparserenhanced/ConfigParserEnhanced.py:ConfigParserEnhanced.parse_section", "src/configparserenhanced/ConfigParserEnhanced.py:ConfigParserEnhanced._parse_section_r", "src/configparserenhanced/ConfigParserEnhanced.py:ConfigParserEnhanced._handler_use"]}
{"id": "C85", "title": "When the order and repetition of options is of no account", "statement": "Two neighbouring options of a section that cannot write the same key may change places, whether they are ordinary options or `use` options (which may write the options of every section that can be reached through them): every section keeps its keys and all their values, for every class and all `use` links, cyclic ones too. The first of two `use` options of a section that name the same section may be left out, whatever stands between them: again every section keeps its keys and all their values.", "quantifier": "all configurations with any `use` links, all sections and neighbouring options of them that cannot write a common key, all pairs of `use` options with the same target, all classes; the values read for the other options stay the same; for the parse: all pairs of objects that have not parsed the section, if both parses succeed", "why_tests_cant": "the claim compares two files, for all files; the tests parse a few fixed files in one order", "anchors": ["src/configparserenhanced/ConfigParserEnhanced.py:ConfigParserEnhanced._parse_section_r", "src/configparserenhanced/ConfigParserEnhanced.py:ConfigParserEnhanced._handler_use", "src/configparserenhanced/ConfigParserEnhanced.py:ConfigParserEnhanced._launch_generic_option_handler"]}
{"id": "C86", "title": "Actions on different variables may change places", "statement": "Two neighbouring actions on environment variables in the list of a section may change places if they are on different variables and the name of neither occurs in the value of the other (and neither is on PATH if the other searches an executable): a successful apply() of the list becomes a successful apply() of the other list, with the same status, the same notices and the same variables with the same values afterwards, whatever actions come before and after. The same holds for any number of such changes of places; so if any two actions of a list are apart in this way, every order of them will do. For envvar_op itself: each of the two operations raises in one order exactly what it raises in the other.", "quantifier": "all lists of actions, environments, values with any references, exception levels and all behaviours of the module command that look at the variables only (not at their order); the search of an executable looks at PATH only; action texts without quotes, backslashes, line ends and NUL", "why_tests_cant": "the claim compares two orders of execution, for all lists and environments; the tests run fixed lists in one order", "anchors": ["wip/setenvironment/src/setenvironment/SetEnvironment.py:envvar_op", "wip/setenvironment/src/setenvironment/SetEnvironment.py:SetEnvironment.apply", "wip/setenvironment/src/setenvironment/SetEnvironment.py:SetEnvironment._apply_envvar"]}
{"id": "C87", "title": "Only the set of known words in a build name counts", "statement": "The words of a build name (split at '_') may be put in any order and repeated, and words that are options of no flag may be added in front or behind: ConfigKeywordParser then selects the same options, gives the same text, and fails with the same exception if it fails, even if the configure-flags section itself is wrong. DetermineSystem likewise returns the same system or fails alike for two build names that name the same systems, forced or not.", "quantifier": "all files, all pairs of build names with the same known words, correct and incorrect sections, all hosts", "why_tests_cant": "the claim compares the results for two build names, for all files and names; the tests have a few fixed names", "anchors": ["wip/genconfig/src/config_keyword_parser.py:ConfigKeywordParser.selected_options", "wip/genconfig/src/config_keyword_parser.py:ConfigKeywordParser.selected_options_str", "wip/genconfig/src/config_keyword_parser.py:ConfigKeywordParser.parse_selected_options", "wip/determinesystem/determinesystem/DetermineSystem.py:DetermineSystem.system_name", "wip/determinesystem/determinesystem/DetermineSystem.py:DetermineSystem.get_sys_name_from_build_name"]}
{"id": "C88", "title": "When the order in the keyword files is of no account", "statement": "Two files that list the environments of a system, and the aliases of each environment, in different orders: an EnvKeywordParser can be made from both or exits for both, and if no two different names (or aliases) of the same length are in the build name, qualified_env_name is the same for both or exits for both. Two system files that list the systems in different orders: if the host name fits one system at most, DetermineSystem.system_name is the same for both, or exits for both, whatever the build name and forced or not.", "quantifier": "all pairs of files whose sections list the same in different orders (also by different `use` links), all build names without a tie, all hosts; names and aliases of ordinary characters and '.'; the system files have no broken section or pattern", "why_tests_cant": "the claim compares two files, for all files and orders; the tests have one fixed order", "anchors": ["wip/loadenv/loadenv/EnvKeywordParser.py:EnvKeywordParser.qualified_env_name", "wip/loadenv/loadenv/EnvKeywordParser.py:EnvKeywordParser.__init__", "wip/determinesystem/determinesystem/DetermineSystem.py:DetermineSystem.system_name"]}
{"id": "C89", "title": "Applying twice is applying once, for lists that set and unset", "statement": "After a successful apply() of a section whose actions only set variables, to values that do not mention any variable the section touches, or unset them: applying it again, with the same object or another one, in the environment as it is then, succeeds with the same status and without notices, and leaves all variables as they are. The same object is left exactly as it was.", "quantifier": "all lists of such actions of any length, also with several actions on one variable and with references to other variables, all environments, exception levels and systems; action texts without quotes, backslashes, line ends and NUL", "why_tests_cant": "the claim compares two runs one after the other, for all lists and environments; the tests apply fixed lists once", "anchors": ["wip/setenvironment/src/setenvironment/SetEnvironment.py:envvar_op", "wip/setenvironment/src/setenvironment/SetEnvironment.py:SetEnvironment.apply", "wip/setenvironment/src/setenvironment/SetEnvironment.py:SetEnvironment._apply_envvar"]}
{"id": "C90", "title": "Comment lines say nothing, nor do blank lines that end a value", "statement": "Lines that begin with '#' or ';' after any blanks may be put anywhere into the .ini files, also between the lines of a value, blank lines may be put in before any line that has text in its first column (other than a comment) and at the end of a file, blanks may be put at the end of any line, and the line ends may be changed between \\n and \\r\\n: every operation of every class, on an object in any state and in any history (also if such lines and blanks come and go between operations), gives the same results, failures and output (line numbers in the messages of parsing errors aside), whether the files are correct or malformed. The same holds for all operations of SetEnvironment, and for what load_env.py and gen_config.py find in their files and do with them.", "quantifier": "all files, correct or not, all positions and numbers of comment lines and such blank lines, all classes, object states, operations and histories with files that change on disk; all delimiters", "why_tests_cant": "the claim compares the runs on two sets of files, for all texts and positions; the tests have a few fixed files", "anchors": ["src/configparserenhanced/ConfigParserEnhanced.py:ConfigParserEnhanced.configparserdata", "src/configparserenhanced/ConfigParserEnhanced.py:ConfigParserEnhanced.configparserenhanceddata", "src/configparserenhanced/ConfigParserEnhanced.py:ConfigParserEnhanced.unroll_to_str"]}
{"id": "C91", "title": "How the sections are spread over the files is of no account", "statement": "Two lists of correct .ini files that say the same sections with the same options in the same order, cut into files at different places between sections (a section may be continued in a later file, unreadable files say nothing): objects of any class, in any state, that differ only in which of the two lists they have give the same results, failures and output for every operation but the assignment of files and delimiters, and in every history of such operations, and differ in nothing but the list afterwards. The same holds for all operations of SetEnvironment: what they return, do to the environment, write and print.", "quantifier": "all pairs of file lists, all contents, classes, object states, operations and histories (files may change on disk as long as both lists say the same); all delimiters that are single characters and not blank (the default ones for unroll_to_str with the base class parser, which uses those)", "why_tests_cant": "the claim compares the runs on two lists of files, for all contents and ways to cut them; the tests have one or two fixed files", "anchors": ["src/configparserenhanced/ConfigParserEnhanced.py:ConfigParserEnhanced.configparserdata", "src/configparserenhanced/ConfigParserEnhanced.py:ConfigParserEnhanced.inifilepath", "src/configparserenhanced/ConfigParserEnhanced.py:ConfigParserEnhanced.unroll_to_str"]}
