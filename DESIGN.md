# Formal model of ConfigParserEnhanced in Lean 4

Sources: `/repo` (sandialabs/ConfigParserEnhanced, pinned). Nothing in `/repo` is run or changed.

## Method

* The model is a *shallow executable* one: every Python function is a Lean function.
  Every definition under `lean/Verif/Model` cites the file and lines it models and says what it leaves out.
* **Exceptions** are values (`Out.exc`); a raising function still returns the state it reached, because
  Python does not roll mutations back. `Out.diverge` is the outcome of running out of recursion fuel; it is
  separate from every exception so that termination is a theorem and not an assumption.
* **Strings** are `List Char` (Python `str` = sequence of code points). Literals are written `py!"..."`.
* **dict** = association list in insertion order (overwrite keeps the position, as CPython does);
  **set** = list, only membership is observed.
* **Handlers** of subclasses are arbitrary functions of what a handler receives (section, root, raw option,
  operation, parameters, value, handler name) and of the mutable state they can reach (`data_shared` and the
  subclass' own attributes); they may raise anything and return anything.
* **Specifications** live in `lean/Verif/Spec`, do not mention the functions of the model, and are short:
  the unrolling of `use` is an inductive relation `Unrolls`, a parse is specified as the replay of an unrolled
  event list, dicts are specified by look-up.
* **Property theorems** live in `lean/Verif/Props`, one file per theme, each followed by `example`s that
  instantiate the hypotheses on a concrete non-trivial case. Helper lemmas live in `lean/Verif/Proofs`.

## Layout

| module | models |
|---|---|
| `Verif/Base` | Python `str`/`dict` primitives, exception classes, the state-and-exception monad |
| `Verif/Model/ExceptionControl` | ExceptionControl.py |
| `Verif/Model/TypedProperty` | TypedProperty.py |
| `Verif/Model/HandlerParameters` | HandlerParameters.py, containers with identity in a heap |
| `Verif/Model/Operations` | the list of known operations |
| `Verif/Model/Debuggable` | Debuggable.py |
| `Verif/Model/Shlex` | the part of the standard `shlex.split` that the parser relies on |
| `Verif/Model/Config` | the part of the standard `configparser` that the parser relies on |
| `Verif/Model/Parser` | `_parse_section_r`, `_handler_use`, dispatch, `operation_handler` |
| `Verif/Spec/Chronicle` | the unrolling with the records of the debug log in place |
| `Verif/Model/EnhancedData` | the inner class `ConfigParserEnhancedData`, `parse_section`, asserts |
| `Verif/Model/IniText` | the text reader of the standard `configparser` (`_read`) |
| `Verif/Model/Object` | inifilepath / configparserdata / delimiters life cycle, `unroll_to_str` |
| `Verif/Model/SetEnvironment` | wip/setenvironment SetEnvironment.py: environment operations, handlers, `apply`, scripts |
| `Verif/Model/BashScript` | the Bash functions in the header of generated scripts (SetEnvironment.py L1609-1751) and the part of Bash that their lines use |
| `Verif/Model/Write` | `ConfigParserEnhanced.write` (ConfigParserEnhanced.py:373-401) |
| `Verif/Model/TopLevel` | the top level files: `gen_config_config_data`, `args` (gen_config.py:282-377), `parse_top_level_config_file`, `args` (load_env.py:56-96, 334-361), and the part of pathlib they use; the reading of the command line is in CommandLine and `Path.resolve` arbitrary |
| `Verif/Model/LoadEnv` | `load_set_environment`, `apply_env`, `write_load_matching_env`, `list_envs`, the end of `main` (load_env.py:180-279, 530-543), and `source` of the script in load-env.sh |
| `Verif/Model/ModuleHelper` | both functions `module` of ModuleHelper.py (modulecmd L177-315, LMOD L55-172); processes, `exec` of what they print and `env_modules_python` are parameters |
| `Verif/Model/Keywords` | KeywordParser.py, EnvKeywordParser.py, config_keyword_parser.py, DetermineSystem.py of the `wip` packages |
| `Verif/Model/GenConfig` | load_env.py and gen_config.py of the `wip` packages: names and caches; for the command line see CommandLine |
| `Verif/Model/Scripts` | wip/loadenv/load-env.sh, wip/genconfig/gen-config.sh |
| `Verif/Model/Reentrant` | ConfigParserEnhanced.py again, with handlers that parse, look up and write sections of the object |
| `Verif/Model/SetEnvPrint` | setenvironment SetEnvironment.py: `pretty_print_actions`, `pretty_print_envvars` |
| `Verif/Model/SetEnvLife` | setenvironment SetEnvironment.py: `actions` (both ways), `apply`, `pretty_print_actions`, `generate_actions_script`, `write_actions_to_file` on an object whose files, delimiters and level change |
| `Verif/Model/EventText` | ExceptionControl.py: what `exception_control_event` prints, and all kinds of its argument `exception_type` |
| `Verif/Model/CommandLine` | the command lines of load_env.py:334-361, 364-516 and gen_config.py:343-377, 380-496, and the part of argparse they use |
| `Verif/Model/Programs` | the programs load_env.py:526-547 and gen_config.py:499-542 as a whole, from the words and the texts of the files; put together from CommandLine, TopLevel, IniText, LoadEnv and GenOutput |
| `Verif/Conformance` | (no model) the repository's own unit tests, evaluated on the model |
| `Verif/Model/Messages` | FormattedMsg.py; the lists of supported flags and environments in config_keyword_parser.py and EnvKeywordParser.py |
| `Verif/Model/GenOutput` | gen_config.py: flags, fragment file, saved LoadEnv arguments, `main`; `gen_option_list` of SetProgramOptionsCMake is a parameter |

## Plan per property

| id | model | proof |
|---|---|---|
| C01, C11-C13 | Parser | refinement of the fuelled parser to replay of `Unrolls` (induction on the derivation) |
| C02 | Parser + `Reach` relation | walks are shortened to simple walks; induction on the walk |
| C03 | Parser | measure: sections not on the path; divergence by induction on fuel |
| C04, C14, C15, C34 | Parser + ExceptionControl | corollaries of the refinement, replay lemmas |
| C05, C06 | Parser | invariants of replay |
| C07-C09, C35-C37 | EnhancedData | invariant over arbitrary operation histories |
| C10, C38 | Parser.locate | case analysis for all tables and tokens |
| C16, C17 | Parser | log grammar by induction on fuel; two-run simulation |
| C18, C19 | ExceptionControl | case analysis, induction over histories |
| C20-C22 | TypedProperty | induction over histories, arbitrary callables |
| C23-C25, C28, C41 | Object | state machine over histories and changing disks; C24 by a two-run relation |
| C42-C44 | IniText, Spec/IniDoc | a grammar relating texts to documents; the line reader simulates the derivation, with an invariant for what earlier files left |
| C26, C27 | Object, Spec/Render | the text is compared with `render` of resolved sections; C27 builds the document that the rendered text says and applies C42, then resolves it again |
| C29, C30 | EnhancedData | corollaries of C01/C07 |
| C31, C32 | Shlex | induction on the string |
| C33 | Parser | congruence of `Unrolls` on the reachable part |
| C39 | Config | induction on the value |
| C40 | Debuggable | induction over histories |
| C45, C46 | SetEnvironment | inductive specifications of expansion, removal and of each operation, decided by the code |
| C47 | SetEnvironment | the calls of a replay folded over the class's handlers; invariant over histories |
| C48, C49 | SetEnvironment, Spec/SetEnvironment | generated commands are read back by a small reader of Python calls; simulation of `apply` and of the script by the sequence of steps |
| C57 | BashScript, Spec/BashScript | each line is read back and executed step by step (`Acts` calculus); simulation of the Python steps on the actions `Portable` admits |
| C58 | BashScript, Spec/BashScript | computation of the same functions where the languages differ; `Thinned`/`fenced` describe the Bash result |
| C59 | Write | case analysis on what `unroll_to_str` gives, and C26-C28 for the text; the stream is its content and the exception it raises, if any |
| C60 | TopLevel, Spec/TopLevel | one access on loaded data key by key; invariant of all later accesses (each wanted value is the one of the file or its place); C26's `Sound`/`Faults` for the sections |
| C61 | LoadEnv, Spec/LoadEnv | invariant of histories: caches of the names (C55) and every stored list is that of its section (C47); apply from C48, script from C49; the check from C30 and an induction showing that a passed check stores every list; the script line by line from C57 |
| C62 | ModuleHelper, Spec/ModuleHelper | both functions against an inductive description of all outcomes, by cases; the search for the path in `type module` by induction over the line; words by induction; the effect on `apply` from C48 |
| C50, C51 | Keywords, Spec/Keywords | the matches of the value pattern against the words of the lines; after one read of a section the object answers from its data |
| C52 | Keywords, Spec/Keywords | sorting by length, search at word boundaries; the choice is unique |
| C53 | Keywords, Spec/Keywords | invariant: whatever the object remembers is right for its build name; selection by cases per flag; sorted lists are unique |
| C54 | Keywords, Spec/Keywords | the loop over the systems reads undamaged sections (C07); cases on the build name |
| C55 | GenConfig, Spec/GenConfig | invariant: what is remembered is right for the build name; induction over histories |
| C56 | GenConfig, Spec/GenConfig | the same invariant over both parsers; induction over the sections of config-specs.ini and over histories |
| C63 | GenOutput, Spec/GenOutput | C56 for any history (a weaker invariant after a failed validation); invariant over histories of calls and changes to the files; the typed input and the words of the shell by induction |
| C64 | Messages, Spec/Messages | `splitlines` against an inductive relation of text and lines; the substitution that removes trailing white space line by line, as every line begins with a visible character; the loops over flags and environments by induction from C53 and C52 |
| C65 | Scripts, Spec/Scripts | symbolic execution of the script with an invariant that relates the shell to the calling one (exported variables, other variables, files, programs started); unquoted expansions against the word relation of C63; the end-to-end theorem composes it with C61 and with the model of the generated script (C57, C61) |
| C66 | Scripts, Spec/Scripts | the same for gen-config.sh; C66_ci composes it with C65_ci, and C66_program with C63 (flags, saved arguments) and C61 |
| C67 | Reentrant, Spec/Reentrant | handlers as step trees; big-step rules over the events of C01; evaluation with the nested calls as a parameter, equal to the model at every depth; rules ↔ evaluation; termination by counting unmarked names |
| C68 | SetEnvPrint, Spec/SetEnvPrint | relation `Listing` between a list and its text, functional; equation of the printing operation; agreement with C48/C49 after any history |
| C69 | SetEnvPrint, Spec/SetEnvPrint | relation `VarLines`, functional; two-run statements over environments that differ only where the filter mentions nothing |
| C70 | SetEnvLife, Spec/SetEnvLife | invariant over histories: every operation leaves a list alone or replaces it by the list of the loaded configuration; origin of a list by induction on the history; equations of apply/script/listing in the state after the look-up; equality with the State model once loaded |
| C71 | EventText, Spec/EventText | the printed text as a list of rows against a relational specification of the notice; rows are recovered from the text by induction (no row has a line feed), message rows end at the first bare `!!`; outcome and settings equal to those of the C18 model by cases |
| C72 | CommandLine, TopLevel, GenOutput, Spec/CommandLine | how one word is read is characterised for every well-formed table of options (all names distinct, none with an equals sign); then both directions between the loop and the relation `Reading` by induction; the namespace by induction on what is done; the handover from uniqueness of the reading |
| C73 | Programs, Spec/Programs | the program reads its files one after the other as it needs them; that this is the same as having them from the beginning is shown step by step (what has been computed is remembered); then C55, C60, C61, C65 and C72 are put together |
| C74 | Programs, Spec/Programs | as C73, with C63, C66 and the handover of C72; that the files that the first two runs write do not disturb what the later runs read is shown from the paths |
| C75 | SetEnvironment (`escape`, `readArgs`, `readProgram`), Spec/Literal | the specification says what each piece of a literal stands for; the reader takes one piece at a time, so a simulation; uniqueness and disjointness of readings follow from the reader being a function; a script is read before it is run |
| C76 | all of the above for the base class, Spec/Gather | the specification reads the options off the documents by one inductive relation; it is simulated by the unrolling of C01, and composed with C43 (texts), C41 (lazy loading) and the access lemmas of C07 |
| C77 | BashScript (double quotes), Literal, Spec/Quotes | `Quoted` says what Bash reads; the reader of commands and the expansion are shown to follow it; the two readings are compared piece by piece, Python never gives the longer text; the scripts by the simulation of C57 |
| C78 | all of SetEnvironment, from the texts of the files, Spec/Journey | `Plan` reads the actions off the options that C76 gathers, `Runs` says what performing them does; the events of the parse are shown to be the options gathered, the handlers to build the plan; then C43, C45, C47, C70 and C75 are put together |
| C79 | Console (the parser with its debug messages), Spec/Console | `ParseTrace` is the unrolling of C01 with the lines of the trace in their places; the printing parser is shown to erase to the parser, to follow the trace (simulation), and to do the same at two levels side by side |
| C80 | Rebind (the parser with one reference to `data_shared` per section), Spec/Rebind | `Works` is a big-step account of a section over the option meanings of C01, in which the reference goes back after a used section, DEFAULT and a hook; the parser is shown to follow it, to have exactly one outcome, and to be the parser of C01 if no handler binds another dict |
| C81 | LogPrint (the log as a list of dicts, with the function that prints it), Spec/LogPrint | the log after a history is read off the operations since it was last forgotten (induction over histories); printing is shown to put out the page of the specification, whose width is characterised, not computed |
| C82 | the models of C52-C56 | the name found is cut into system, environment and options; C54, C52 and C53_idempotent are applied to it as a build name; examples show that each condition is needed |
| C83 | Parser, Spec/Unroll, Spec/Move (the new file) | the unrolling of the old file is turned into that of the new one (induction over the unrolling; the new section is only open below S), the events differ in visits of T and in section names, and replaying them does the same |
| C84 | Parser, Spec/Unroll, Spec/Rename (the renamed file) | the unrolling of the new file is that of the old one with the names changed event by event (induction over the unrolling; the names are changed one to one, so cycles are found at the same places), and replaying the two does the same |
| C85 | Parser, Spec/Unroll, Spec/Order (the new file; what an option may write) | each option of the old file is unrolled by itself, and the pieces are put together in the new order (induction over the unrolling); which value is written last is a congruence, is not changed if pieces with different keys change places, nor if a piece that comes again is dropped |
| C86 | SetEnvironment, Spec/Apart (when actions are apart; what the system looks at) | from C45: an operation looks at its variable, at the variables its value names, and for a search at PATH; so two that are apart commute up to the order of the variables, and all later steps look at the variables only (induction over the list); any number of changes of places by induction over them, and a permutation of actions that are pairwise apart is such a sequence (Props/Permute) |
| C87 | Keywords (ConfigKeywordParser, DetermineSystem), Spec/Keywords | the answers are functions of the data of the section and of the options that are words (C53); the filter on the options is the same for both names, by induction over the flags; for the system the filter on the sections of the file |
| C88 | Keywords (EnvKeywordParser, DetermineSystem), Spec/Keywords, Spec/Reorder (reordered sections, ties) | from C52 and C54: without a tie the longest name that occurs is the same in every permutation of the list, and so is the first system if it is the only one |
| C89 | SetEnvironment, Spec/Twice (actions that can be performed again) | from C45 and C48: what such an action makes of its variable depends on variables the list does not touch; two runs from environments that agree on these end with the same values of the touched variables (induction over the list) |
| C90 | IniText, Object, SetEnvLife, TopLevel, Programs, Spec/Comments (texts alike but for comments, blank lines that end a value, and blanks at the ends of lines) | a comment line leaves the state of the reader as it is; a blank line leaves it as it is once the values are joined, and a line with text in its first column looks at nothing else (induction over the lines, with the value that may still go on kept equal, Proofs/BlankLines); all operations look at the disk only through what is read and through which paths exist, so they are equal as functions |
| C91 | IniText, Object, SetEnvLife, Spec/IniDoc (what a text says) | from C43: documents read one after the other are one document read (a fold over the concatenation), so both lists load the same configuration; each operation looks at the list of files only through what is loaded, and keeps list and delimiters (cases), so histories agree (induction); for SetEnvironment a rule for each construct of its code (Props/SplitEnv) |

## Trusted base

* Lean 4.33 kernel; axioms used by theorems: at most `propext`, `Classical.choice`, `Quot.sound`
  (AXIOMS.md lists them theorem by theorem).
  No axiom is added, no `sorry`, no `native_decide`, no `bv_decide`.
* The transcription of the Python code into the model (by reading, checked by the examples).
* `Verif/Conformance` tests that transcription: it has the .ini files and expected results (values, event orders, log
  records, texts, exceptions) of the unit tests of the repository, verbatim, evaluated on the model by the kernel: the parser
  (test_ConfigParserEnhanced.py), SetEnvironment with its generated scripts (test_SetEnvironment.py), and the keyword tools
  (test_keyword_parser.py, test_determine_system.py, test_unit_env_keyword_parser.py, test_unit_config_keyword_parser.py), the
  programs load_env.py and gen_config.py from their command lines (test_unit_load_env.py, test_integration_load_env.py,
  test_unit_gen_config.py, test_integration_gen_config.py), the helper classes (test_Debuggable.py, test_ExceptionControl.py,
  test_TypedProperty.py, test_HandlerParameters.py) and the module function (test_ModuleHelper.py).
  One test file of the repository does not fit the code: the supporting sections of genconfig's test-config-specs.ini are not
  in upper case, so the validation refuses it (`Verif/Conformance/GenConfig`, where they are renamed).
  These are tests, not proofs; no property rests on them.
* `difftest` compares the parts of the model that transcribe the Python standard library (configparser, shlex, re, str methods,
  pathlib, argparse, string literals) and Bash (double quotes, word splitting) with the originals on random inputs. No code of
  the repository is run. Tests as well.
* Functions that model and specifications share: those of dictionaries, sets, splitting and joining, listings of a
  configuration and the tables of operations are characterised in `Props/Pins`; blanks (`White`), stripping (C11), words
  (C31) and event names (C18) have specifications of their own, to which the functions of the model are proved equal.

## Not modelled

* What is printed, apart from event notices (C71 has their text), the debug trace of a parse (C79), the printed debug log (C81), listings (C68, C69) and messages of the keyword tools (C64); the text of tracebacks (an argument in C71); exception message texts
  (exceptions are modelled by class), except where a message is the return value.
* CPython resource limits (recursion limit, memory). A recursion that never ends is `Out.diverge`.
* Handlers that call back into the parser, or change `exception_control_level` in the middle of a parse, in all
  properties but C67. Handlers that edit `data_internal` or assign `section_root`. Handlers that bind another
  dict to `data_shared` in all properties but C80.
* Threads: the code has none.
* File system: a path is absent, a directory, an unreadable file or a decoded text; the file system may change between operations. Decoding errors and the normalisation of paths are not modelled.
* SetEnvironment: what the external `modulecmd` and `env_modules_python` do (arbitrary functions of their arguments and
  the environment; how ModuleHelper.py uses them is C62), the
  search for executables, the text of the Python script header. Values are put into the generated Python command as they are. What Python reads
  there is modelled for string literals with all escapes (C75) but `\N{name}` and surrogates; an unescaped double quote ends the literal, and
  what comes after it (any Python expression) is not modelled: such a command has the outcome `NotModelled`, which no theorem equates with anything.
  C48 and C49 keep to texts that stand for themselves.
* Bash: `Model/BashScript` is a transcription of the header functions and of the rules of the Bash manual for the
  constructs they use (double quotes and backslashes in them, `$NAME`, `${NAME}`, word splitting, `${x//p/}`, `${x#p}`, `local`, `export`,
  `unset`, `sed s#..##g`, `which`). Text that would need more of Bash (pattern characters, other quotes, command
  substitution in arguments, special parameters, line continuation) has the outcome `NotModelled`, which no theorem
  equates with anything. Every shell variable is taken to be exported, no special variables (`IFS`, `RANDOM`, ...) are
  treated apart, and output is not modelled. The `module` function and `which` of the shell are parameters; C57
  assumes that they do what Python's do.
* Keyword tools: regular expressions made of names with metacharacters other than '.' (an abstract function of the
  pattern and the text), the texts of error messages apart from C64, `str.lower`/`str.upper` and the host name (parameters).
* Scripts load-env.sh and gen-config.sh: signals and the traps for them, output, `sleep`, shell options, special variables (`IFS`; `$RANDOM`
  is a parameter), failures to write or remove a file. An unquoted value with `*`, `?` or `[`, and a test or redirection that gets several
  words, are `NotModelled`. Programs are arbitrary functions of their words, environment and files; they do not change the variables of the shell. What sourcing a script
  does to exported variables is a parameter (in C65_program and C66_program it is `Model/BashScript`); unexported variables are not seen by it.
  The variable `ret` of load-env.sh is kept apart from the others.
