# Formal model of abrt/satyr in Lean 4 — design

The C library in `/repo` is modelled, function by function, as small total functions in Lean 4
(`lean/Verif/`). Each property of `properties.jsonl` becomes one or more theorems that Lean's kernel
checks for every input. Nothing of `/repo` is executed; the tie between the code and the model is the
citation (file and lines) on every definition.

## Layout

* `Verif/<Area>/Model.lean` — the model: transcription of the C functions, each with its citation.
* `Verif/<Area>/Spec.lean` — where needed, a small specification that does not mention the model.
* `Verif/<Area>/Lemmas.lean` — helper lemmas.
* `Verif/<Area>/Props.lean` — the property theorems (`C01_...`), with a non-vacuity `example` beside each.

A theorem named `Cnn_..._partial` proves part of property `Cnn`; the comment above it says what is
missing. `Cnn_not_...` is a proved negation with a concrete witness: the unchanged code violates the
property as stated. `Cnn_..._conditional` would be a theorem with a hypothesis the code does not check.

## Modelling conventions

* A C string is `List Char`, one `Char` per byte (code 1..255); the terminating NUL is implicit. A pointer
  into a string is the remaining suffix. `*p` at the end of the list is `'\0'`. Moving a pointer past the
  terminator is undefined behaviour and is a distinct outcome (`Res.ub`) in the functions where it can happen.
* `NULL`-able `char *` is `Option (List Char)`.
* Linked lists are `List`; pointer identity, where the API uses it (frame removal), is an index.
* `int`/`uint32_t`/`uint64_t` are `Int`/`Nat` when the property does not depend on the width;
  comparison functions that subtract unsigned values and return `int` are modelled with the exact
  two's-complement truncation.
* `float` and `double` are modelled twice. The main models compute with rational numbers (exact arithmetic). `Metrics/Float`,
  `Crash/Float` and `Cluster/Float` repeat the last steps with the rounding of every operation; a rounding (`Verif/Rounding.lean`)
  is any monotone function to numbers of 24 (53) bits that keeps such numbers, and rounding to nearest even is shown to be one.
  Overflow, NaN and signed zero do not occur in these computations and are not modelled. Values that are
  only copied, compared or stored are elements of an arbitrary type.
* Memory with pointers, allocation and freeing is modelled in `Verif/Heap` and `Verif/Distances/Memory*`: an allocator returns any
  address not in use, or the program aborts (as glib does). The other models leave memory out.
* SHA-1 hashing is not modelled: statements are about the text that gets hashed.

## Trusted base

Lean 4.33.0 kernel; axioms `propext`, `Classical.choice`, `Quot.sound` only (per-theorem lists at the end of this file). No axioms of our own, no `sorry`, `native_decide` or `bv_decide`. Trusted transcription: the
models' faithfulness to the cited lines; the behaviour of libc/glib/json-c functions as modelled in
`Verif/CStr` and `Verif/Json` (strchr, strspn, strncmp, strtoul on digit strings, g_strndup, GString, qsort
returning a sorted permutation, json-c tokener on the subset of JSON the library emits).

## Plan per property

| id | modelled | proof |
|----|----------|-------|
| C01 | triangular index, array, get/set | refinement to a function on unordered pairs, by induction over set-histories |
| C02 | part_create loop | invariant: parts emitted so far + current counter = prefix of the pair enumeration |
| C03 | part_compute, part_merge, threads_compare | both sides equal the same pointwise spec |
| C04 | part_merge checks | pointwise spec is order independent; decision logic for rejections |
| C05 | the DP with two diagonal buffers | loop invariant buffer[m+j-i] = D(i,j); D = min over edit scripts |
| C06 | same | induction on the spec recursion / edit scripts |
| C07 | jaccard counting loops | counts equal cardinalities of dedup lists |
| C08 | jaro-winkler loops | bounds by counting arguments over rationals |
| C09 | sr_distance dispatch | case analysis |
| C10 | agglomeration loop | invariant: concatenation of clusters is a permutation; levels assigned at cluster boundaries |
| C11, C12 | cut loop | fold equals splitting at levels > cut |
| C13 | list splicing loops | equal to `eraseIdx`, `drop`, `take` |
| C14–C16 | normalize loops for GDB and core | sublist invariant per rule; counterexample for idempotence |
| C17 | koops normalize with bsearch | bsearch over sorted table = membership; filter laws |
| C18 | paired names | induction over both lists |
| C19 | duphash text loop | equality of prefix-limited folds |
| C20 | bthash text | counterexample for koops flags, injectivity where it holds |
| C21 | crash-thread heuristics | case analysis |
| C22 | quality counters | bounds over rationals |
| C23, C24 | all cmp/cmp_distance with int truncation | lexicographic order lemma; counterexamples at wrap-around |
| C25–C31, C34 | utils.c/location.c primitives | structural induction over the input string |
| C32, C33 | os-release | induction over lines; permutation argument |
| C35–C38 | rpm.c and dso list | string splitting lemmas; sort as a parameter with the qsort contract |
| C39–C48 | JSON writer as text, lexer+parser, readers | writer output renders the token list of a value; parser inverts; reader inverts value |
| C49 | tables | decision over the finite table plus prefix lemma |
| C50–C54 | text printers and parsers | scanner lemmas composed |
| C55 | lookups | `List.find?` characterisation |
| C56 | UB as outcome | witnesses (negation) and safety theorems for the safe parsers |
| C57, C58 | allocation sizes explicit | invariants on capacity; witnesses of overflow |
| C59 | agglomeration with averaged distances | invariant: matrix entry = mean of the distances between members |
| C60–C62 | thread comparison, normalization and optimization of threads | order lemmas with truncation; filter laws |
| C63, C64 | system release text, reasons | string splitting; case analysis |
| C65–C68 | library names, eu-unstrip output, shared libraries, core traces from gdb output | tables as lists of lines; scanner lemmas composed |
| C69, C70 | V8 and Java stack trace parsers | grammar of the printed form as inductive predicate, induction over it; for Java also the exact grammar of all accepted texts (`Text/JavaLines.lean`), shown unambiguous and equal to the reader |
| C71 | gdb frame parser with all name/argument loops | soundness by postconditions, completeness by induction over a grammar of names and arguments, termination by fuel bounds |
| C72, C73 | gdb thread and stack trace parsers | exact grammar of header lines (both directions); induction over lists of frames and threads |
| C74, C75 | kernel oops lines and traces (lib/koops_frame.c, lib/koops_stacktrace.c), checked by evaluation against the frame counts, module counts and first/last functions of tests/koops_stacktrace.c | grammar of the line formats (both directions); soundness for every text; induction over lines |
| C76 | generic short text with the printers of all frames | the loop equals a list of numbered lines; prefix lemma |
| C79 | the frame printers | cutting texts at separators; for JavaScript and Java by the round trip through the parser |
| C80 | `sr_abrt_report_from_dir`; a directory is a pair of functions (exists, contents) | compositional lemmas: each step gives a result iff its specification holds |
| C81 | `occurrences_from_dir`, `strtol`, errno as a parameter | case analysis of the scanned text |
| C82 | `sr_abrt_operating_system_from_dir`, `desktop_from_dir` | first occurrence of the variable; composition |
| C83 | `sr_abrt_rpm_packages_from_dir` | composition with C35, C36, C38 |
| C84 | the state "message assigned" threaded through all functions of C80 | each step sets it when it fails |
| C85 | `fulfill_missing_values`, text of core_backtrace | induction over frames and threads; C40 |
| C86 | `sr_callgraph_extend`, disassembler as a parameter | depth-first search: invariant (prefix, closure, reachability) by induction on the number of missing functions |
| C87 | `sr_callgraph_compute` | induction over the functions; negation for relocated ones |
| C88 | `sr_elf_get_eh_frame`; sections, segments, CIEs and FDEs as decoded by libelf/libdw are inputs | layout of the section as inductive predicate, little-endian reading, induction |
| C89 | lookup functions | induction over the list |
| C90 | `sr_elf_get_procedure_linkage_table` | layout of the slots as inductive predicate, induction |
| C91 | JSON writer for functions | token lists, the JSON reader of C40 |
| C92 | `resolve_frame`; modules, symbols and the demangler are inputs | case analysis, arithmetic modulo 2^64 |
| C93 | `sr_parse_coredump` (elfutils) with its callbacks | induction over frames and threads; both directions |
| C94 | `sr_core_stacktrace_from_core_hook_generate` | from the lemmas for C93 |
| C95 | `sr_core_stacktrace_from_gdb` | induction over frames, counting |
| C96 | `get_signal_number` | induction over notes and segments |
| C97 | `sr_parse_coredump` (libunwind) | induction over steps and threads |
| C98 | memory as a partial function of blocks; tables of the members that each `sr_*_dup` copies; any allocator | induction over the structures; memory only grows by fresh blocks (`Adds`) |
| C99, C100 | tables of the members that each `sr_*_free` frees | induction over the structures; the blocks they occupy are erased one after the other |
| C101 | `sr_*_append` | induction over the first list |
| C102 | `sr_gdb_stacktrace_remove_threads_except_one` | induction over the threads before and after the one that is kept |
| C103 | tables of members and attributes of all Python classes; the getters and setters of python/py_common.c on blocks of bytes and texts | little-endian reading and writing; case analysis of the accessors; negations for the values that are accepted wrongly |
| C104, C105 | `frames_prepare_linked_list`, `threads_prepare_linked_list`; reference counts and links as functions | induction over the lists; negations for shared objects and empty lists |
| C106 | `frames_to_python_list` | induction over the linked list; composition with C104 |
| C107 | `sr_py_multi_stacktrace_get_crash` | induction over the list |
| C108 | python/py_metrics.c on top of the model of lib/distance.c; ranges of the argument formats | histories reduced to those of C01 |
| C109 | `sr_py_distances_new`, `prepare_thread_array` | induction over the list; C03 |
| C110 | `DistancesPart`: create, compute, pickle, merge | composition of C02, C03, C04 with the round trip of pickling; links as in C104 |
| C111 | python/py_cluster.c on top of the model of lib/cluster.c | composition with C10, C11; negation for the last positions |
| C112 | the readers of JavaScript frames and stack traces again, with locations (`Verif/Text/JsLocModel`) | erasure to the model without locations; a grammar of lines, shown to be exactly what is read (`C51_lines`); a frame is read from its line only; induction over the lines |
| C113 | `normalize_and_compare` for gdb threads (`Verif/Metrics/GdbCompare`), on top of pairing, quality counts and the metrics | candidates for pairs are not changed by pairing, so the pairs are the unique first-fit matching, which is symmetric (`Verif/Normalize/Matching`); the metrics depend only on which positions hold the same frames (`Verif/Metrics/Natural`); monotonicity of alignments |
| C114 | the method tables of all types and the functions that dispatch on them (`Verif/Generic`) | every method shown to be the one of the type; loops over `next` shown to be the loops over lists of the other models; orders of the types put together |
| C115 | as C10 and C59 | invariant of the merge loop: each cluster is drawn by joins at nearest ends; two neighbours and the level between them stay together under joins and reversals |
| C116 | platforms as numbers, their names, the parsers for a platform (`Verif/Platform`) | bit arithmetic; the located parser of C112 never fails to return (C56); JSON by C44 |
| C117 | the whole program as a function from arguments to output, messages and status (`Verif/Cli`); files, directories and unwinding are parameters | case analysis of all commands; C80 for the report |
| C118 | the loop that reads the frames, as written | exact reading of lines; normalization of frames with empty source file by C15's composition |
| C119 | as C117 | C19, C114 for the hash; strtoul model for the numbers |
| C120 | lib/abrt.c creating stack traces, `sr_string_to_file` with its failures; what libdwfl sees in the core dump is a parameter | composition of C93, C95, C85 and C40 |
| C121 | python/py_report.c: attributes, linking of packages, `to_json`, `report_type`, `auth`; the interpreter by reference counts and values of attributes | linking as in C104 and C106, case analysis of the attributes, induction over the entries |
| C122 | duphash text of frames of each kind | lines and fields of the text are read back uniquely |
| C123 | all JSON readers over arbitrary JSON values | description of the documents by relations (`Verif/Json/Documents.lean`, `Verif/Report/Documents.lean`), each reader shown equivalent to its relation |
| C124 | `open_coredump`, `touch_module`, `core_handle_free`, `sr_parse_coredump`, `sr_core_stacktrace_from_core_hook_prepare`, `sr_core_stacktrace_unwind_state_free` over every outcome of the calls of libelf, libdwfl and the kernel | state = what is held (descriptors, handles, memory, traced process), wrong release = undefined; steps with their messages as a list, first failing step; the leaks as `_not_` theorems |
| C125 | `sr_py_gdb_stacktrace_{new,dup,limit_frame_depth,set_libnames,normalize,to_short_text,find_crash_frame,find_address,str}` with `gdb_prepare_linked_lists`, `stacktrace_rebuild_thread_python_list` | memory with addresses of C frames, reference counts and linked lists; `Shows` relates the Python lists to a stack trace; invariant `Regular` kept by every method, histories by induction; wrong reference counts and double frees as `_not_` theorems |
| C126 | `sr_py_base_frame_{cmp,equals,short_string}`, `sr_py_base_thread_{cmp,equals,distance,get_duphash}`, `frames_prepare_linked_list`, `sr_py_single_stacktrace_{to_short_text,get_bthash,from_json}` over the generic interface (C114) | `Shows` relates an object with its list to a library thread; comparison by cases on the type, the rest by C109 and C114; `equals` of two single-thread stack traces aborts, `equals` with a bad list gives `SystemError`, reading a JavaScript document with a platform uses an uninitialised variable (`_not_` theorems) |
| C127 | `sr_py_{ruby,js,java,python,koops}_frame_{new,str}` | by the exact grammars of frames (C51, C52, C53, C54, C74): the printed text is in the grammar with the same frame; false for line 0, numbers above 2147483647, unknown sources, every Python frame, and kernel oops frames with addresses (`_not_` theorems) |
| C128 | `header_get_string`, `header_get_uint32`, `header_to_rpm_info`, `sr_rpm_package_get_by_name`, `sr_rpm_package_get_by_path`; what librpm delivers is the input | induction over the headers: the result is the list of described packages, or the message about the first missing attribute; false for packages without epoch (`C128_not_epoch`) |
| C129 | `sr_py_rpm_package_{new,str,get_role,set_role}`, `sr_py_operating_system_{new,str}`, `sr_py_gdb_sharedlib_{str,get_symbols,set_symbols}`; the conversion of optional arguments by `PyArg_ParseTuple` | induction over the formats gives each argument; texts through the exact grammar of names (C35) and by cutting at the first separator; false for a missing epoch, a large epoch and ambiguous texts |
| C130 | `sr_py_koops_stacktrace_{new,get_modules,get_taint_flags,str,dup,normalize}`, `koops_stacktrace_to_python_obj`, `frames_prepare_linked_list` for this class; references not counted | totality of the parser (C56), taint letters (C57), grammar (C75) and filter (C17) carried through the object; false for a list that was emptied |
| C131 | `sr_py_core_stacktrace_{new,str,dup}`, `core_stacktrace_to_python_obj`, `threads_prepare_linked_list`, `sr_py_multi_stacktrace_{to_short_text,get_bthash,get_crash}` for core stack traces; memory of C threads with addresses, frames as values, references not counted | relation `Shows` between object, memory and the stack trace a user sees; every method is the library's function on that stack trace; false for copies of objects with a crash thread and for lists from which the crash thread or everything was removed |
| C132 | `sr_py_gdb_thread_{new,str,dup,quality_counts,quality,format_funs}`, `sr_py_java_thread_{new,str,dup,quality_counts,quality,format_funs}`, `sr_java_thread_format_funs`, `sr_py_core_thread_{new,str,dup}`; memory of C frames with addresses, references not counted, quotient exact | relation `Shows` between object, memory and thread; one lemma for all methods that link the list first; constructors by case analysis of the arguments; false for `format_funs` after a change of the list and for a list that was emptied |
| C133 | `sr_py_gdb_frame_{new,str,calls_func,calls_func_in_file}`, `sr_py_core_frame_{new,str}`; an object is the frame that it owns | constructor composed with the grammar of GDB frames (C71); the two texts are divided at separators in one way only, part after part; false for `calls_func`, which always says no, for names that look like other parts and for unknown addresses of core frames |
| C134 | `sr_py_{python,ruby,js}_stacktrace_{new,str,dup}`, `sr_py_single_stacktrace_to_short_text`; one definition for the three classes, over the memory of C132 | generic constructor and copy proofs for any class, then composed with the grammars (C52, C53), the parser round trips (C53, C69) and the short texts (C76); false for emptied lists, JavaScript frames without a file and Python texts that end within a stack trace |
| C135 | composition of the JSON writers and readers (C40–C45, C114) with hashes (C11, C114), short texts (C76), reasons, the search for the crash thread and distances | the change that JSON makes commutes with normalization (`Unnoticed`), loops and metrics (naturality on the frames that fit); exact conditions for the texts of frames and for the crash thread; false for unknown crash threads, reasons of oopses and addresses of the kernel |
| C136 | the readers of C52, C53, C70 and of gdb stack traces again, with the location that they update (`Verif/Text/{Ruby,Python,Java}LocModel.lean`, `Verif/Gdb/LocModel.lean`), `stacktrace_parse_wrapper`, `sr_location_to_string` | erasing the locations gives the readers without them; grammars of the places where reading stops, on top of the exact grammars; induction over records; false for Python and for records and gdb frame headers of several lines (negations) |
| C137 | the readers of C51-C54, C69, C70 and core normalization (C14), `anonymize_path` (`Verif/Text/Home.lean`) | from the exact grammars: every branch that yields a file name applies `anonymize_path`; two texts that differ in the user names only are read as equal; false for gdb texts, URLs with slashes and user names that look like a library (negations) |
| C138 | as C10 and C115 (`Verif/Cluster/Relabel.lean`) | specification without numbers of clusters: sets of sequences, readable in both directions, of which the nearest two are joined; the code refines it, it commutes with renamings of the objects, and without ties it has one result; false with ties (negation) |
| C139 | as C06, C07 and C24 (`Verif/Metrics/Triangle.lean`, `Verif/Generic/Triangle.lean`) | Jaccard: frames are replaced by their classes, then a counting argument about three finite sets; edit distances: triangle inequality of the number of operations, a swap is two replacements, and arithmetic of the quotients by the longer length; false without factor (negations) |
| C140 | `sr_py_java_stacktrace_{new,free,str,dup}`, `sr_py_multi_stacktrace_from_json`, `sr_py_multi_stacktrace_to_short_text`, `sr_py_multi_stacktrace_get_crash` and `sr_py_multi_stacktrace_get_bthash` for Java; memory of C threads with addresses, references not counted | as C131: relation `Shows` between object, memory and stack trace; composed with the parser (C54), the reader (C45) and the generic functions (C114); false for a list that was emptied |
| C141 | the parsers of kernel oopses, JavaScript and Ruby as in C75, C112 and C53 | two runs in step: `Same` relates the results of the same function on a text and on the text with more after it, for every function of the oops parser, with separate fuels; then what the longer run still does only adds frames. JavaScript and Ruby from their exact grammars. False for Java and Python, witnesses |
| C142 | normalization, hashes, crash threads, texts, distances (C114, C135) and unwinding with libdwfl (C92) | two stack traces are related if they are equal after all addresses are blanked out (only whether they are zero is left); blanking is a change that neither normalization nor comparison notices (`Unnoticed`). Core dumps are related if their program counters are at the same distances from the starts of the same modules. False for the hash of the whole stack trace, frames with nothing but an address and modules without a name |
| C143 | clustering and cutting (C10, C11, C138) with the distances of C139 | invariant of the relational clustering of C138: at first all clusters consist of identical objects and all levels are 0; from the first positive level on, different clusters have no identical objects; so every sequence is one of groups of identical objects at levels 0, put together at positive levels. Averages of floats that are at least 2^-149 are at least 2^-149. False where distance 0 is not transitive and for Jaro-Winkler |
| C144 | memory (C98) with the functions `sr_*_from_json` of all stack traces, threads, frames and packages: a table of the members each of them reads, in order, run by one interpreter over memory with an arbitrary allocator; the pointer to the message | invariant of the steps: memory is that of the beginning plus exactly the memory of the structure so far; a table check that no member is stored twice; what is in memory at the end is what the functions of C48 and C57 read. Fails for kernel oopses whose modules are not fewer than 128 texts, and for JavaScript stack traces without a pointer to a NULL for the message |
| C145 | memory (C98, C144) with `sr_operating_system_from_json` and `sr_report_from_json`: the report is built in place, the operating system, packages, stack trace and authentication entries are attached to it, the text of the type is freed when its block is left | segments of the function, each of which either leaves memory as that of the beginning plus the report so far, or fails with a message; the block of the type is taken as part of the memory of the beginning and removed again; attaching members; the entries do not move the crash thread. Fails if something wrong is reported and then ignored (desktop, variant, stack trace, authentication entries), and the texts of the reporter are never freed |
| C146 | the readers of C144 with the texts of their messages | a separate table of the members of every document (`schema`) and of what is wrong with them (`Fault`); the table is linked to the steps of the readers member by member, and reading fails with a message exactly if there is a fault, by induction on the nesting. Fails for JavaScript stack traces if there is a message from before, and nothing can be said if a kernel oops has 128 modules or a module that is not a text (C144) |
| C147 | the readers of Python, Ruby and JavaScript stack traces from text, with every allocation, replacement and release | each step of a reader is related to the model of the text without memory (C55, C56 and the models with locations): the frame that is being read is a structure with the members read so far, and all other memory is as before (`Fills`, `Makes`); lists of frames by induction on the text, with the frames read so far as one chain. False for Python and for Ruby texts without a frame: messages are lost (negations) |
| C148 | the readers of kernel oopses from text, with every allocation and release | as C147; the texts that are lost are given by a separate function on the text (`lostTexts`), and memory at the end is split into what was there, these texts, and the stack trace; induction on the lines, with the current label and the pending instruction as part of the invariant (`Reading`). False in two cases (negations) |
| C149 | the reader of Java stack traces from text, with every allocation and release | as C147; the frames that are lost are given by a separate function on the text (`lostFrames`); induction on the frames of an exception, with the list built so far as the invariant, and on the depth of exceptions. False if the text cannot be read after a frame (negation); memory is as before if and only if no frame had been read |
| C150 | the readers of gdb frames, threads, shared libraries and stack traces from text, with every allocation and release, growing texts included | the result of each reader is compared with the one of the model without memory (C56); induction on the nesting of brackets in names, on frames, threads and libraries, with the list built so far as the invariant; one lemma about ` const` shows that the second growing text is never freed when there is none |
| C151 | sorting and merging lists of packages and reading them from the list of shared libraries, with every allocation, release and assignment to `next` | the list in memory is split into its packages with their blocks; sorting permutes these, and merging replaces two neighbours by one new package, by induction on the rest of the list; reading is compared with the model without memory (C38). Two witnesses show what is not true: an epoch that is not a number, and the list without packages |
| C152 | `sr_abrt_rpm_packages_from_dir` and the functions that read its files, with every allocation, release and assignment, also of `*error_message` | memory is described as the memory before with the messages written so far, and above it the list of packages; each step adds a message or a block below the list, or changes the list, with the lemmas of C151. The result is described by the specification of C83. Two theorems show what is lost if the epoch cannot be read or is too great |
| C153 | `sr_abrt_operating_system_from_dir`, `occurrences_from_dir`, `get_component` and the functions that read their files, with every allocation, release and assignment, also of `*error_message` | memory is described as the memory before with the messages and the lost texts in addition, and above it the operating system; assigning to a member that is set moves its text from the operating system to the lost texts. The result is described by the specification of C82. Three theorems show what is lost if a key is repeated, for a development release, and if name and version are taken from the second file |
| C154 | `sr_abrt_report_from_dir` up to the stack trace, with every allocation, release and assignment to the report, on top of the models of C152 and C153 | the report under construction is a footprint on a base memory; each step extends the footprint by what it assigns, and the base by the messages and lost texts. Every failure frees exactly the footprint. What the files say is an inductive relation with one case for each way the function ends; a concrete directory shows that the block of a package is lost if its epoch is missing |
| C155 | `sr_abrt_report_from_dir` as a whole, with the stack traces of Python, Java, Ruby and kernel oopses read by the models of C147 to C149; the stack trace of a core dump is a parameter | what a parser leaves in memory besides its result is an added footprint with a property that depends only on this footprint; it can be seen as added below the report, and the contents of the file are taken out again. One lemma for all parsers, then each parser by its own theorem; the version of a kernel oops moves from the base into the stack trace |
| C156 | the branch of `sr_abrt_report_from_dir` for core dumps and `sr_core_stacktrace_from_json_text`, with the model of reading JSON of C144; the memory of the JSON library is not modelled | the stack trace of C144 is added to the footprint of the report of C155 with its pointer to the crash thread, and the contents of the file are taken out again; the structure is of the right type, so that the theorem about freeing gives back everything |
| C157 | `sr_abrt_report_from_dir` with all its branches (C154, C155, C156) followed by `sr_report_free` | every stack trace, operating system and list of packages that reading makes is of the right type, so that the theorem about freeing (C99) gives back the whole footprint; composed with C155 and C156 for every type of report; for complete directories nothing is lost, so that memory is as it was |
| C158 | `sr_thread_remove_frame`, `sr_thread_remove_frames_above` and `sr_*_thread_remove_frames_below_n` on memory with pointers (C98), for every kind of thread | induction over the frames before the place; the invariant says that memory is a base with the rest of the list in addition, where the base has the frame (or the thread) whose pointer is to be changed; freeing is C99 |
| C159 | the list made by `sr_distances_part_create`, the array of `sr_distances_part_compute` and `sr_distances_part_free`, as blocks with pointers between them; the allocator returns any address not in use | invariant: memory is the memory before with the blocks of the list and the lost blocks in addition; induction over the calls, with a count of the computed parts; induction over the list for freeing |
| C160 | `struct cluster` as an array with room that is doubled, `cluster_init`, `cluster_clean`, `cluster_add_index`, `cluster_merge`, `cluster_reverse`; accesses outside the array, reads of elements not written and `int` overflow are undefined | refinement of the lists of the model of C10: each function on the array gives the array of the list; the number of objects in all clusters stays the same, which bounds every array; the merges of the model of clustering are such a sequence |
| C77, C78 | gdb short text, optimized thread, crash frame | composition of the normalization theorem with filters; naturality of normalization under forgetting library names |

Not modelled: the libraries themselves (libelf, libdw, libdwfl, libunwind, libopcodes, json-c, librpm, C library, the Python
interpreter); what they deliver is an input of the model (`Verif/Elf`, `Verif/Unwind`, `Verif/Callgraph`, `Verif/Disasm`, `Verif/Rpm/Db*`,
`Verif/Py`). SHA-1 is a parameter. The C++ demangler is not modelled. The functions without a model are listed at the end of this file. The
file system is modelled only as far as `Verif/Abrt` and `Verif/Cli` need it: which files of a problem directory exist and what their
contents are, which writes fail; they do not change while
they are read, and the size limit of `sr_file_to_string` counts as unreadable.

## Conformance with the unit tests

The modules in `Verif/Conformance` run the model on inputs of the repository's own unit tests (tests/*.c, tests/python/*.py) and compare the
results with the ones those tests expect of the C code. They are tests of the model and prove nothing about all inputs; no property rests
on them. They are there because the model was written by reading the code, which is not compiled here.

- `Script`: Ruby and JavaScript. `Gdb`: GDB frames, threads and their parts. `Metrics`: distances, parts, clusters, normalization.
- `Java`: frames, threads, stack traces, removal of frames. `Koops`: kernel oops frames, 14 of the 27 kernel oops files, their reasons and
  their JSON texts; the other 13 files were evaluated with the interpreter and agreed.
- `Hash`: the texts hashed by `get_bthash` and `get_duphash`, and the short texts, of one stack trace of each type. The SHA-1 values were
  computed outside of Lean from the same literals and are those in tests/python/*.py.
- `Python`: Python stack traces, the JSON texts of Ruby stack traces, and the JSON documents of tests/python/*.py.
- `Core`: core stack traces and their JSON. `Platform`: JavaScript platforms. `Utils`: the string functions. `System`: operating systems,
  packages, the list of libraries, authentication entries, and the report of tests/problem_dir, whose JSON text is that of
  tests/json_files/ureport-from-problem-dir.
- The files of tests/gdb_stacktraces are too big for the kernel (up to 168 KB) and were evaluated with the interpreter: bthash, duphash and
  short text of rhbz-803600, short text of rhbz-955617, the crash threads, crash frames, thread and frame counts, shared libraries and
  qualities that tests/gdb_stacktrace.c and tests/gdb_sharedlib.c expect. All agreed.

Running them found two errors in the model, which were corrected. The model of the JavaScript parser computed the column of the location
from the length of the exception name, while the C code adds a truth value (lib/js_stacktrace.c:144-157). The model of the JSON reader
rejected a comma before a closing bracket, which json-c accepts and the documents in tests/python use.

## Axioms of each theorem

Collected with `Lean.collectAxioms` for the theorems of `MANIFEST.json`. Every theorem not listed below depends on exactly `Classical.choice`, `Quot.sound`, `propext`.

* only `Quot.sound`, `propext` (239 theorems): `Satyr.Abrt`: C82_desktop_partial, C83_packages, C83_epoch, C120_created, C120_created_gdb, C120_failed, C120_not_empty; `Satyr.CStr`: C27_string, C28_add, C28_order, C28_order_lt, C29_removable, C31_replaces, C31_hides_user; `Satyr.Callgraph`: C86_message, C86_not_zero, C87_not_relocated; `Satyr.Cli`: C117_help, C117_version, C117_status, C117_unknown, C117_not_defined, C118_not_source, C118_not_lines, C119_refused, C119_no_duphash, C119_hook_partial, C119_not_number; `Satyr.Disasm`: C58_present, C58_text; `Satyr.Distances.Memory`: C159_one; `Satyr.Elf`: C88_not_other_segment, C88_not_long, C90_find, C90_safe_partial, C91_not_empty; `Satyr.Frames`: C24_gdb_partial, C24_gdb_symm, C24_core_partial; `Satyr.Gdb`: C50_every_text, C55_sharedlib_partial, C71_chars, C136_not_gdb, C136_not_gdb_column; `Satyr.Generic`: C114_not_thread_cmp, C114_not_gdb_text, C114_set_frames, C114_set_next, C114_set_threads, C114_duphash, C114_cmp_distance, C114_dup, C114_reason, C114_walk, C114_type, C114_bthash, C142_crash_position, C142_not_bthash, C142_not_unidentified; `Satyr.Hash`: C19_beyond_limit, C19_gdb_attributes, C19_core_attributes, C19_koops_attributes, C19_python_attributes, C19_ruby_attributes, C19_js_attributes, C19_java_attributes, C19_text, C20_not_separators, C20_not_unknown, C20_not_koops_flags, C20_gdb_text, C20_core_text, C20_koops_text, C20_python_text, C20_java_text, C20_ruby_text, C20_js_text; `Satyr.Heap`: C144_not_modules, C144_not_js_null, C144_not_js_message, C145_not_desktop, C145_not_two_messages, C145_not_reporter, C145_not_reporter_freed, C145_not_trace, C145_not_auth, C146_not_js, C147_not_owned, C151_not_dso, C152_not_epoch, C152_not_range, C153_component; `Satyr.Json`: C39_no_newline, C39_strict_partial; `Satyr.Json.Core`: C40_not_without_threads; `Satyr.Json.Js`: C44_not_empty_frame; `Satyr.Json.Koops`: C57_flags_json, C57_modules_json_partial, C57_not_many_modules; `Satyr.Json.Python`: C42_not_empty_frame; `Satyr.Json.Rpm`: C46_not_empty; `Satyr.Json.Ruby`: C43_not_empty_frame; `Satyr.Normalize`: C14_gdb, C14_core, C18_names_distinct, C62_main, C62_idempotent; `Satyr.Os`: C33_order, C33_values; `Satyr.Py`: C103_refused_partial, C103_not_uint32, C103_not_uint64, C103_not_bool, C103_not_nul, C103_not_none, C103_not_constant, C104_frames_partial, C104_refs, C107_crash_thread, C110_linked_partial, C121_not_empty, C121_not_repeated, C121_not_lists, C121_not_javascript, C121_not_without_stacktrace, C121_str; `Satyr.Py.Base`: C126_frame_equals_other, C126_thread_equals_other, C126_not_type_error, C126_distance, C126_from_json_partial, C126_not_platform, C126_not_emptied, C126_not_gdb_string; `Satyr.Py.Core`: C131_bthash_partial, C131_bad_item, C131_text; `Satyr.Py.FrameObjects`: C133_number, C133_not_text, C133_not_signal, C133_not_calls_func, C133_not_core_text, C133_not_core_unknown; `Satyr.Py.Gdb`: C125_limit_partial, C125_crash_frame_partial, C125_short_text, C125_new, C125_not_alive, C125_not_counted, C125_not_copied, C125_copy_partial, C125_not_empty, C125_address_partial, C125_not_high, C125_str; `Satyr.Py.Java`: C140_crash_thread_partial, C140_bthash_partial, C140_bad_item, C140_free, C140_list, C140_text; `Satyr.Py.Kerneloops`: C130_bad_item, C130_dup_partial, C130_text; `Satyr.Py.Lang`: C134_not_python, C134_text, C134_bad_item; `Satyr.Py.Objects`: C129_not_text, C129_os_text_partial, C129_library_partial; `Satyr.Py.Text`: C127_not_ruby_line, C127_not_ruby_large, C127_not_ruby_block, C127_not_js_large, C127_not_java_unknown, C127_not_java_exception, C127_not_koops_address, C127_not_koops_zero, C127_not_koops_error; `Satyr.Py.Threads`: C132_bad_item, C132_text, C132_not_format_freed, C132_not_emptied; `Satyr.Report`: C48_not_reporter, C48_not_empty_stacktrace, C48_not_missing_stacktrace, C48_not_gdb, C48_not_auth, C49_out_of_range, C49_abrt_partial, C49_abrt_only, C64_core, C64_python, C64_ruby, C64_js, C64_java, C64_not_defined, C64_not_defined_js; `Satyr.Short`: C76_python_frame, C76_ruby_frame, C76_none, C76_core_frame, C76_not_core, C77_frame, C77_not_unnamed, C79_python_frame, C79_ruby_frame, C79_not_block; `Satyr.Text`: C141_not_java, C141_not_python; `Satyr.Text.Java`: C54_not_jar, C70_not_printed_cause; `Satyr.Text.Js`: C51_not_new, C51_not_home, C69_not_new; `Satyr.Text.Koops`: C141_not_koops_ip, C141_not_koops_blank; `Satyr.Text.Ruby`: C136_not_ruby_column; `Satyr.Threads`: C13_remove_frame, C13_remove_frames_above; `Satyr.Unstrip`: C55_unstrip_partial; `Satyr.Unwind`: C92_unknown, C92_not_unnamed, C93_trace, C93_message, C93_limit, C94_trace_partial, C94_message_partial, C94_not_failure, C95_frames_partial, C95_not_limit, C96_signal, C97_not_safe, C97_not_only_failure, C124_status, C124_prepare_partial, C124_hook, C142_not_unnamed.
* only `propext` (110 theorems): `Satyr.Abrt`: C80_not_safe, C81_not_zero, C81_not_newline, C82_not_prefix, C83_not_epoch, C84_not_explained, C84_not_only_failure, C85_fulfilled; `Satyr.CStr`: C27_char, C27_skip_char_limited_partial, C29_except_first, C29_indent; `Satyr.Crash`: C21_single; `Satyr.Distances`: C01_not_beyond_46340, C04_not_distance_type_checked; `Satyr.Elf`: C88_not_safe, C88_unknown_letter, C89_not_end, C90_not_safe; `Satyr.Frames`: C24_koops, C24_python, C24_java, C24_ruby, C24_not_gdb_refl, C24_not_gdb_trans, C24_core_refl, C24_not_core_trans, C60_not_java; `Satyr.Gdb`: C50_not_space, C50_not_empty, C55_not_last_address, C56_not_gdb_arguments, C56_not_gdb_operator, C56_not_gdb_const, C56_not_sharedlib, C56_not_sharedlib_unnamed, C65_not_unnamed, C71_not_construct, C71_not_two_words, C71_not_const_pointer, C71_not_vtable, C71_not_operator_word, C71_not_conversion, C71_not_char_argument, C71_not_file_space, C72_not_named, C72_not_process, C73_not_first_frame, C73_not_single_frame, C73_not_first_line, C73_not_all_threads; `Satyr.Heap`: C99_not_reporter, C101_not_self, C151_not_sort; `Satyr.Json`: C39_embedded, C39_not_strict; `Satyr.Normalize`: C16_not_idempotent_null, C16_not_idempotent_prefix; `Satyr.Os`: C32_value; `Satyr.Platform`: C116_names, C116_from_string; `Satyr.Py`: C108_not_unset, C108_not_symmetric, C109_not_empty, C110_wrong_number, C110_not_checked; `Satyr.Py.FrameObjects`: C133_not_total, C133_not_same_file; `Satyr.Py.Kerneloops`: C130_not_emptied; `Satyr.Py.Lang`: C134_limit; `Satyr.Py.Objects`: C129_not_default_epoch, C129_not_exact_epoch; `Satyr.Py.Threads`: C132_format_partial, C132_java_format_partial, C132_java_lines, C132_not_format; `Satyr.Report`: C49_round_trip, C49_names_differ, C49_not_javascript; `Satyr.Rpm`: C35_not_clean, C36_not_empty, C36_not_sortable, C37_not_epoch, C37_not_install_time, C38_not_safe; `Satyr.Rpm.Db`: C128_config; `Satyr.Short`: C76_koops_frame, C78_not_found, C79_koops_frame; `Satyr.Text.Home`: C137_not_gdb, C137_not_url, C137_not_core; `Satyr.Text.Java`: C70_not_suppressed, C70_not_empty_message, C70_not_multiline, C70_not_empty_line; `Satyr.Text.Koops`: C57_not_list_end, C74_not_bracket, C74_not_arm_address, C74_not_marked, C75_not_after_ip, C75_not_new_ip; `Satyr.Text.Python`: C52_not_repeated; `Satyr.Text.Ruby`: C53_not_operator, C53_not_multiline, C141_not_ruby_class; `Satyr.Threads`: C13_remove_frames_below; `Satyr.Unstrip`: C55_not_unstrip_end, C68_not_any, C68_no_frames_partial.
* no axiom at all (25 theorems): `Satyr.Disasm`: C58_not_mnemonic; `Satyr.Frames`: C23_not_gdb, C23_not_core, C23_not_koops, C23_not_koops_zero, C23_not_python, C23_not_java, C23_not_ruby, C23_not_js, C60_not_gdb; `Satyr.Hash`: C20_hash; `Satyr.Py`: C104_not_repeated, C104_not_empty, C104_not_shared, C105_not_refs, C106_not_refs, C110_not_repeated; `Satyr.Py.Gdb`: C125_not_hand_made, C125_not_zero; `Satyr.Py.Objects`: C129_not_os_text, C129_not_library; `Satyr.Rpm.Db`: C128_cases; `Satyr.Short`: C79_not_unknown; `Satyr.Threads`: C13_frame_count; `Satyr.Unstrip`: C66_not_truncated.

## Functions

Per file of `/repo`: how many functions have a model (the citation in a definition lies in the body), and the names of those without one. Functions that only allocate and set default values (`*_new`, `*_init`) are part of the default values of the structures in the model; `*_free` and the reference counts of the interpreter are modelled where memory is the subject of a property (`Verif/Heap`, `Verif/Py/Lists.lean`, `Verif/Py/Gdb*`).

| file | functions | without a model |
|---|---|---|
| lib/abrt.c | 21 of 24 | `sr_abrt_get_core_stacktrace_from_core_hook_prepare`, `sr_abrt_get_core_stacktrace_from_core_hook`, `sr_abrt_type_from_analyzer` |
| lib/callgraph.c | 3 of 5 | `sr_callgraph_free`, `sr_callgraph_last` |
| lib/cluster.c | 9 of 11 | `sr_cluster_new`, `sr_cluster_free` |
| lib/core_frame.c | 12 of 13 | `sr_core_frame_new` |
| lib/core_stacktrace.c | 12 of 12 |  |
| lib/core_thread.c | 10 of 10 |  |
| lib/core_unwind.c | 7 of 11 | `sr_parse_coredump`, `sr_core_stacktrace_from_core_hook_prepare`, `sr_core_stacktrace_from_core_hook_generate`, `sr_core_stacktrace_from_core_hook` |
| lib/core_unwind_elfutils.c | 8 of 8 |  |
| lib/core_unwind_libunwind.c | 3 of 3 |  |
| lib/deb.c | 0 of 1 | `sr_deb_package_free` |
| lib/disasm.c | 6 of 10 | `sr_disasm_init`, `sr_disasm_free`, `sr_disasm_instructions_free`, `sr_disasm_binary_to_text` |
| lib/distance.c | 18 of 20 | `get_distance_position`, `sr_distances_free` |
| lib/elves.c | 11 of 14 | `sr_elf_procedure_linkage_table_free`, `cie_free`, `sr_elf_eh_frame_free` |
| lib/gdb_frame.c | 25 of 26 | `frame_cmp_without_number` |
| lib/gdb_sharedlib.c | 6 of 9 | `sr_gdb_sharedlib_new`, `sr_gdb_sharedlib_init`, `sr_gdb_sharedlib_count` |
| lib/gdb_stacktrace.c | 17 of 22 | `gdb_return_null`, `gdb_from_json`, `sr_gdb_stacktrace_new`, `sr_gdb_stacktrace_get_thread_count`, `sr_gdb_stacktrace_set_crash_tid` |
| lib/gdb_thread.c | 18 of 20 | `sr_gdb_thread_new`, `sr_gdb_thread_skip_lwp` |
| lib/generic_frame.c | 8 of 8 |  |
| lib/generic_stacktrace.c | 13 of 14 | `sr_stacktrace_free` |
| lib/generic_thread.c | 15 of 19 | `thread_no_next_thread`, `thread_no_bthash_text`, `thread_no_normalization`, `sr_thread_free` |
| lib/java_frame.c | 19 of 20 | `sr_java_frame_get_last` |
| lib/java_stacktrace.c | 9 of 11 | `sr_java_stacktrace_new`, `sr_java_stacktrace_init` |
| lib/java_thread.c | 15 of 17 | `sr_java_thread_new`, `sr_java_thread_init` |
| lib/js_frame.c | 14 of 14 |  |
| lib/js_platform.c | 9 of 9 |  |
| lib/js_stacktrace.c | 10 of 10 |  |
| lib/json_utils.c | 3 of 3 |  |
| lib/koops_frame.c | 20 of 20 |  |
| lib/koops_stacktrace.c | 18 of 18 |  |
| lib/location.c | 5 of 7 | `sr_location_add`, `sr_location_eat_char` |
| lib/normalize.c | 13 of 13 |  |
| lib/operating_system.c | 8 of 8 |  |
| lib/python_frame.c | 13 of 13 |  |
| lib/python_stacktrace.c | 9 of 9 |  |
| lib/report.c | 10 of 11 | `sr_report_from_json_text` |
| lib/rpm.c | 26 of 28 | `sr_rpm_consistency_new`, `sr_rpm_consistency_init` |
| lib/ruby_frame.c | 13 of 13 |  |
| lib/ruby_stacktrace.c | 9 of 9 |  |
| lib/unstrip.c | 3 of 3 |  |
| lib/utils.c | 35 of 38 | `sr_skip_uint`, `sr_skip_hexadecimal_uint`, `sr_build_path` |
| python/py_base_frame.c | 3 of 3 |  |
| python/py_base_stacktrace.c | 9 of 12 | `sr_py_single_stacktrace_get_crash`, `sr_py_single_stacktrace_set_crash`, `sr_py_multi_stacktrace_set_crash` |
| python/py_base_thread.c | 6 of 6 |  |
| python/py_cluster.c | 5 of 7 | `sr_py_dendrogram_free`, `sr_py_dendrogram_str` |
| python/py_common.c | 11 of 12 | `sr_py_setter_readonly` |
| python/py_core_frame.c | 3 of 4 | `sr_py_core_frame_dup` |
| python/py_core_stacktrace.c | 4 of 5 | `sr_py_core_stacktrace_free` |
| python/py_core_thread.c | 4 of 4 |  |
| python/py_gdb_frame.c | 5 of 6 | `sr_py_gdb_frame_dup` |
| python/py_gdb_sharedlib.c | 3 of 5 | `sr_py_gdb_sharedlib_new`, `sr_py_gdb_sharedlib_free` |
| python/py_gdb_stacktrace.c | 12 of 17 | `sharedlib_linked_list_to_python_list`, `stacktrace_rebuild_sharedlib_python_list`, `sr_py_gdb_stacktrace_free`, `sr_py_gdb_stacktrace_quality_simple`, `sr_py_gdb_stacktrace_quality_complex` |
| python/py_gdb_thread.c | 7 of 7 |  |
| python/py_java_frame.c | 3 of 4 | `sr_py_java_frame_dup` |
| python/py_java_stacktrace.c | 5 of 5 |  |
| python/py_java_thread.c | 7 of 7 |  |
| python/py_js_frame.c | 2 of 4 | `sr_py_js_frame_free`, `sr_py_js_frame_dup` |
| python/py_js_stacktrace.c | 4 of 5 | `js_stacktrace_to_python_obj` |
| python/py_koops_frame.c | 2 of 4 | `sr_py_koops_frame_free`, `sr_py_koops_frame_dup` |
| python/py_koops_stacktrace.c | 7 of 10 | `sr_py_koops_stacktrace_set_modules`, `sr_py_koops_stacktrace_set_taint_flags`, `sr_py_koops_stacktrace_free` |
| python/py_metrics.c | 13 of 17 | `sr_py_distances_free`, `sr_py_distances_str`, `sr_py_distances_part_free`, `sr_py_distances_part_str` |
| python/py_module.c | 0 of 1 | `sr_py_demangle_symbol` |
| python/py_operating_system.c | 2 of 3 | `sr_py_operating_system_free` |
| python/py_python_frame.c | 2 of 4 | `sr_py_python_frame_free`, `sr_py_python_frame_dup` |
| python/py_python_stacktrace.c | 4 of 6 | `python_stacktrace_to_python_obj`, `sr_py_python_stacktrace_normalize` |
| python/py_report.c | 10 of 14 | `sr_py_report_new`, `sr_py_report_free`, `sr_py_report_get_version`, `sr_py_report_set_auth` |
| python/py_rpm_package.c | 4 of 5 | `sr_py_rpm_package_free` |
| python/py_ruby_frame.c | 2 of 4 | `sr_py_ruby_frame_free`, `sr_py_ruby_frame_dup` |
| python/py_ruby_stacktrace.c | 4 of 5 | `ruby_stacktrace_to_python_obj` |
| satyr.c | 12 of 12 |  |

In all 638 of 732 functions.
