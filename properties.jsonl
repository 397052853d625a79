{"id": "C01", "title": "Distance matrix behaves as a symmetric map with zero diagonal", "statement": "After any sequence of sr_distances_set_distance calls on a matrix created by sr_distances_new(m, n), sr_distances_get_distance(i, j) returns 0 for i == j and otherwise the value most recently set for the unordered pair {i, j}; setting one pair never changes the value of another pair, and every access stays inside the allocated array.", "quantifier": "all m, n accepted by sr_distances_new, all in-range index pairs, all histories of set operations", "why_tests_cant": "Aliasing between triangular-index slots or an out-of-bounds slot shows only for particular (i, j, m, n) combinations; tests try a few small matrices.", "anchors": ["lib/distance.c:get_distance_position_mn", "lib/distance.c:sr_distances_new", "lib/distance.c:sr_distances_get_distance", "lib/distance.c:sr_distances_set_distance"]}
{"id": "C02", "title": "Work division covers every pair exactly once and is balanced", "statement": "sr_distances_part_create(m, n, type, nparts) returns parts such that walking each part from its first coordinates for its length enumerates, over all parts together, every pair (i, j) with i < m, i < j < n exactly once; there are at most nparts parts, none is empty, and part lengths differ by at most one.", "quantifier": "all m, n with m>=1, n>=2 and all nparts >= 1", "why_tests_cant": "Leftover distribution and row-wrap arithmetic fail only for special divisibility relations between m, n and nparts.", "anchors": ["lib/distance.c:sr_distances_part_create", "lib/distance.c:sr_distances_part_new"]}
{"id": "C03", "title": "Split / compute / merge equals the direct computation", "statement": "For any array of threads, creating parts, computing each of them and merging the list yields a matrix in which every pair has exactly the distance that sr_threads_compare stores for it.", "quantifier": "all thread arrays, all m, n, nparts, all distance types (distance function arbitrary)", "why_tests_cant": "Requires agreement of two different traversal orders on every matrix shape and every split.", "anchors": ["lib/distance.c:sr_distances_part_create", "lib/distance.c:sr_distances_part_compute", "lib/distance.c:sr_distances_part_merge", "lib/distance.c:sr_threads_compare"]}
{"id": "C04", "title": "Merging is independent of the order of the parts and rejects incompatible parts", "statement": "sr_distances_part_merge gives the same matrix for every permutation of the list of computed parts, and returns NULL whenever some part was not computed, or has other dimensions or another checksum than the first one. (Parts of different distance type are accepted.)", "quantifier": "all lists of parts and all permutations of them", "why_tests_cant": "Permutations of parts are factorially many; tests merge in creation order.", "anchors": ["lib/distance.c:sr_distances_part_merge"]}
{"id": "C05", "title": "Levenshtein distance is the true edit distance", "statement": "For two threads of one type sr_distance(LEVENSHTEIN) is the minimum number of frame insertions, deletions and substitutions turning one frame sequence into the other (frames compared with the distance comparison), divided by the length of the longer sequence; DAMERAU_LEVENSHTEIN additionally allows swapping two adjacent frames (optimal string alignment), if frame equality is symmetric and transitive.", "quantifier": "all pairs of frame sequences, all frame comparison functions", "why_tests_cant": "The implementation keeps only diagonals of the DP table in two reused buffers, so an error shows only for particular length combinations and equality patterns.", "anchors": ["lib/distance.c:distance_levenshtein", "lib/distance.c:sr_distance"]}
{"id": "C06", "title": "Levenshtein distance range, identity and symmetry", "statement": "The Levenshtein and Damerau-Levenshtein distances lie in [0, 1], are 0 exactly when the two sequences have the same length and pairwise equal frames, are symmetric if frame comparison is, and the unnormalised Levenshtein distance obeys the triangle inequality if frame equality is an equivalence. The returned float has these properties in every rounding mode, is within 2^-24 of the exact value and compares as the exact values do (threads of up to 2^24 frames).", "quantifier": "all pairs/triples of frame sequences", "why_tests_cant": "Metric axioms quantify over all triples of sequences.", "anchors": ["lib/distance.c:distance_levenshtein"]}
{"id": "C07", "title": "Jaccard distance is 1 - |A∩B|/|A∪B| of the sets of frames", "statement": "For non-empty threads sr_distance(JACCARD) equals 1 - |A∩B|/|A∪B| where A and B are the sets of distinct frames; hence it lies in [0,1], is symmetric, 0 iff the sets are equal, and 1 iff they are disjoint. The returned float has these properties in every rounding mode (0 and 1 exactly in these cases for up to 2^24 different frames), is within 3*2^-24 of the exact value and compares as the exact values do.", "quantifier": "all pairs of frame sequences, frame equality an equivalence relation", "why_tests_cant": "Counting duplicates wrongly shows only for particular repetition patterns.", "anchors": ["lib/distance.c:distance_jaccard"]}
{"id": "C08", "title": "Jaro-Winkler similarity is in [0,1] and 1 on identical threads", "statement": "sr_distance(JARO_WINKLER) is always in [0, 1]; it is 1 for two threads with pairwise equal frames and 0 if no frame of one thread equals a frame of the other. The returned float stays in this range in every rounding mode and is within a millionth of the exact value.", "quantifier": "all pairs of frame sequences", "why_tests_cant": "Match-window and transposition counting interact; bounds must hold for all sequences.", "anchors": ["lib/distance.c:distance_jaro_winkler"]}
{"id": "C09", "title": "Threads of different type are maximally distant", "statement": "sr_distance on threads of different problem types is 1 regardless of contents, and for same-type threads only the metric of the requested type is used.", "quantifier": "all pairs of threads and all distance types", "why_tests_cant": "Combination of types with arbitrary contents.", "anchors": ["lib/distance.c:sr_distance"]}
{"id": "C10", "title": "Clustering returns every object exactly once", "statement": "sr_distances_cluster_objects on any distance matrix terminates without failing its internal assertions and returns a dendrogram whose order is a permutation of 0..n-1 and whose n-1 merge levels are all assigned.", "quantifier": "all n >= 2, all m, all matrices of distances (also with ties)", "why_tests_cant": "Ties, reversals and the m-limited search interact; permutations must be preserved for every matrix.", "anchors": ["lib/cluster.c:sr_distances_cluster_objects"]}
{"id": "C11", "title": "Cutting a dendrogram partitions it", "statement": "sr_dendrogram_cut(d, level, min_size) returns exactly those maximal runs of the dendrogram order whose inner merge levels are <= level and whose size is >= min_size: neighbouring runs are separated by a merge level > level, and with min_size <= 1 the clusters partition all the objects.", "quantifier": "all dendrograms, all levels and minimum sizes", "why_tests_cant": "Off-by-one at the first/last run or at equal levels shows only at boundary values.", "anchors": ["lib/cluster.c:sr_dendrogram_cut"]}
{"id": "C12", "title": "Complete-matrix clustering is agglomerative: lowering the cut refines clusters", "statement": "For two levels l1 <= l2 every cluster returned by cutting at l1 is contained in a cluster returned by cutting at l2 (min_size <= 1).", "quantifier": "all dendrograms and pairs of levels", "why_tests_cant": "Quantifies over all pairs of levels and all dendrograms.", "anchors": ["lib/cluster.c:sr_dendrogram_cut"]}
{"id": "C13", "title": "Frame removal operations edit exactly the requested frames", "statement": "sr_thread_remove_frame removes exactly the given frame and reports whether it was present; sr_thread_remove_frames_above leaves exactly the suffix starting at the frame (or an unchanged thread and false); sr_gdb_thread_remove_frames_below_n keeps exactly the first n frames.", "quantifier": "all threads, frames and n", "why_tests_cant": "Pointer-splicing errors occur only at particular positions (head, last, absent).", "anchors": ["lib/generic_thread.c:thread_remove_frame", "lib/generic_thread.c:thread_remove_frames_above", "lib/gdb_thread.c:sr_gdb_thread_remove_frames_below_n", "lib/java_thread.c:sr_java_thread_remove_frames_below_n"]}
{"id": "C14", "title": "Normalization only deletes and renames frames", "statement": "Normalizing a GDB or core thread yields a thread whose frames are, in the original order, a subsequence of the original frames up to renaming of function names; the addresses, and every other attribute not documented as rewritten, are unchanged.", "quantifier": "all threads", "why_tests_cant": "Nested removal loops re-reading the list while it is being edited; interactions of rules for arbitrary threads.", "anchors": ["lib/normalize.c:sr_normalize_gdb_thread", "lib/normalize.c:sr_normalize_core_thread"]}
{"id": "C15", "title": "Normalization removes what it promises", "statement": "After sr_normalize_gdb_thread / sr_normalize_core_thread no frame at or above the exit frame of the input remains, no removable frame remains and no two adjacent frames have the same known function name.", "quantifier": "all threads", "why_tests_cant": "Rules run in sequence and later rules may re-create adjacency; only an argument over all threads shows the post-condition.", "anchors": ["lib/normalize.c:sr_normalize_gdb_thread", "lib/normalize.c:sr_normalize_core_thread", "lib/normalize.c:sr_gdb_frame_is_removable"]}
{"id": "C16", "title": "Normalization is idempotent", "statement": "Normalizing an already normalized thread does not change it.", "quantifier": "all threads", "why_tests_cant": "Idempotence over arbitrary sequences of frames, rules and names.", "anchors": ["lib/normalize.c:sr_normalize_gdb_thread", "lib/normalize.c:sr_normalize_core_thread", "lib/koops_stacktrace.c:sr_normalize_koops_stacktrace"]}
{"id": "C17", "title": "Kernel oops normalization is an exact, idempotent filter", "statement": "sr_normalize_koops_stacktrace keeps, in order, exactly the frames that belong to a module or whose function name up to the first dot is not on the built-in list of uninteresting functions, cuts the names at the first dot, and is idempotent.", "quantifier": "all kernel oops stack traces", "why_tests_cant": "The list is searched with bsearch: correctness depends on the sortedness of the whole table for every probe.", "anchors": ["lib/koops_stacktrace.c:sr_normalize_koops_stacktrace"]}
{"id": "C18", "title": "Pairing of unknown function names", "statement": "sr_normalize_gdb_paired_unknown_function_names changes only frames named '??', gives each paired frame of thread 1 the same name as its partner in thread 2, never changes the number or order of frames, and never gives two differently-paired frames the same invented name. The pairs are exactly the first fitting ones: two unknown frames fit if their neighbours in the given threads have equal known names and no contradicting libraries, and a fitting pair is left out only if one of its frames is paired with an earlier frame.", "quantifier": "all pairs of threads", "why_tests_cant": "Similarity depends on surrounding frames of both threads.", "anchors": ["lib/normalize.c:sr_normalize_gdb_paired_unknown_function_names", "lib/normalize.c:next_functions_similar"]}
{"id": "C19", "title": "Duplication hash depends only on normalized leading frames", "statement": "The text hashed by sr_thread_get_duphash(thread, n, prefix, flags) depends only on the prefix, the flags and the first n text-contributing frames of the normalized thread; frames removed by normalization, frames beyond the limit and attributes that do not enter the text never influence it.", "quantifier": "all threads, limits and flags", "why_tests_cant": "Universal statement about all pairs of threads agreeing on a prefix.", "anchors": ["lib/generic_thread.c:sr_thread_get_duphash"]}
{"id": "C20", "title": "Backtrace hash text identifies the stack trace", "statement": "Equal stack traces give equal hash text, and two stack traces of the same type that differ in an attribute shown in the hash text give different hash text.", "quantifier": "all pairs of stack traces", "why_tests_cant": "Injectivity over all pairs; delimiter confusion needs crafted names.", "anchors": ["lib/generic_stacktrace.c:sr_stacktrace_get_bthash", "lib/koops_stacktrace.c:koops_append_bthash_text"]}
{"id": "C21", "title": "Crash thread search returns a thread that contains the crash frame", "statement": "sr_gdb_stacktrace_find_crash_thread returns a thread of the stack trace; if a single thread's top frame matches the crash frame it is that thread; NULL is returned only if the documented heuristics leave no candidate.", "quantifier": "all GDB stack traces", "why_tests_cant": "Several heuristics in order over arbitrary thread sets.", "anchors": ["lib/gdb_stacktrace.c:sr_gdb_stacktrace_find_crash_thread"]}
{"id": "C22", "title": "Quality is a fraction in [0,1] and counts exactly the frames", "statement": "sr_gdb_thread_quality, sr_java_thread_quality, sr_gdb_stacktrace_quality_simple and sr_gdb_stacktrace_quality_complex return a number in [0,1]. A thread's quality is the fraction of resolved frames (1 for a thread without frames) and is 1 iff every frame is resolved; the simple quality is the fraction over all threads (0 for a stack trace without frames) and is 1 iff there is a frame and every frame is resolved; the complex quality is the documented weighted sum over the normalized stack trace. The returned float is the exact fraction rounded once; the complex quality stays within 0 and 1 and within 8*2^-24 of the exact value.", "quantifier": "all threads and stack traces", "why_tests_cant": "Universal bound including empty threads and stack traces.", "anchors": ["lib/gdb_thread.c:sr_gdb_thread_quality", "lib/gdb_stacktrace.c:sr_gdb_stacktrace_quality_simple", "lib/gdb_stacktrace.c:sr_gdb_stacktrace_quality_complex", "lib/java_thread.c:sr_java_thread_quality"]}
{"id": "C23", "title": "Frame comparison functions are total orders consistent with equality", "statement": "For every frame type the comparison function is reflexive, antisymmetric (sign of cmp(a,b) is opposite of cmp(b,a)), transitive, and returns 0 only for frames that agree on all compared attributes.", "quantifier": "all triples of frames, with the full ranges of uint32_t / uint64_t members", "why_tests_cant": "Order axioms quantify over triples and wrap-around occurs at 2^31 / 2^32 differences.", "anchors": ["lib/gdb_frame.c:sr_gdb_frame_cmp", "lib/core_frame.c:sr_core_frame_cmp", "lib/koops_frame.c:sr_koops_frame_cmp", "lib/python_frame.c:sr_python_frame_cmp", "lib/java_frame.c:sr_java_frame_cmp", "lib/ruby_frame.c:sr_ruby_frame_cmp", "lib/js_frame.c:sr_js_frame_cmp"]}
{"id": "C24", "title": "Distance comparison of frames is an equivalence", "statement": "The relation 'cmp_distance == 0' is reflexive, symmetric and transitive for every frame type (as assumed by the clustering metrics).", "quantifier": "all triples of frames", "why_tests_cant": "Transitivity needs triples with missing attributes.", "anchors": ["lib/gdb_frame.c:sr_gdb_frame_cmp_distance", "lib/core_frame.c:sr_core_frame_cmp_distance", "lib/koops_frame.c:sr_koops_frame_cmp_distance", "lib/python_frame.c:sr_python_frame_cmp_distance", "lib/java_frame.c:sr_java_frame_cmp_distance", "lib/ruby_frame.c:sr_ruby_frame_cmp_distance", "lib/js_frame.c:sr_js_frame_cmp_distance"]}
{"id": "C25", "title": "Unsigned number scanners accept exactly in-range decimal numbers", "statement": "sr_parse_uint32 / sr_parse_uint64 consume exactly the maximal run of leading decimal digits and store its value, returning the number of digits, when there is at least one digit and the value fits the type; otherwise they return 0 and leave input and result unchanged.", "quantifier": "all input strings", "why_tests_cant": "Boundary values near the type limits and arbitrary digit strings (leading zeros, long strings).", "anchors": ["lib/utils.c:sr_parse_uint32", "lib/utils.c:sr_parse_uint64"]}
{"id": "C26", "title": "Hexadecimal scanners accept exactly in-range hexadecimal numbers", "statement": "sr_parse_hexadecimal_uint64 and sr_parse_hexadecimal_0xuint64 consume the maximal run of hex digits (after the prefix 0x) and store its value iff it fits 64 bits, else consume nothing.", "quantifier": "all input strings", "why_tests_cant": "Boundary values and all digit/letter-case combinations.", "anchors": ["lib/utils.c:sr_parse_hexadecimal_uint64", "lib/utils.c:sr_parse_hexadecimal_0xuint64"]}
{"id": "C27", "title": "Skipping and parsing primitives never move past the end of input and split the input exactly", "statement": "Each sr_skip_*/sr_parse_* primitive leaves the input pointing at a suffix of the original string within its bounds; what it returned plus that suffix is the original input; the variants returning text return exactly the consumed text.", "quantifier": "all input strings and character sets, including the empty remainder", "why_tests_cant": "Out-of-bounds reads at the terminator do not show up as test failures.", "anchors": ["lib/utils.c:sr_skip_char", "lib/utils.c:sr_skip_char_limited", "lib/utils.c:sr_parse_char_limited", "lib/utils.c:sr_skip_char_sequence", "lib/utils.c:sr_skip_char_span", "lib/utils.c:sr_parse_char_span", "lib/utils.c:sr_skip_char_cspan", "lib/utils.c:sr_parse_char_cspan", "lib/utils.c:sr_skip_string", "lib/utils.c:sr_parse_string"]}
{"id": "C28", "title": "Line/column locations are those of the character found", "statement": "The location-reporting searches (sr_strchr_location, sr_strstr_location, sr_strspn_location, sr_skip_to_next_line_location) report line = 1 + number of newlines before the found position and column = number of characters since the last newline; adding locations with sr_location_add composes like concatenating the text. Comparing the locations of two places in a text tells which is first.", "quantifier": "all strings", "why_tests_cant": "Newlines at particular places relative to the match.", "anchors": ["lib/utils.c:sr_strchr_location", "lib/utils.c:sr_strstr_location", "lib/utils.c:sr_strspn_location", "lib/location.c:sr_location_add", "lib/location.c:sr_location_eat_char", "lib/location.c:sr_location_cmp"]}
{"id": "C29", "title": "Indentation adds blanks at line starts only", "statement": "sr_indent(text, n) and sr_indent_except_first_line(text, n) differ from the text only by n spaces inserted after line starts (after each newline that is followed by more text); removing these spaces gives the text back.", "quantifier": "all texts and widths", "why_tests_cant": "Edge cases: empty text, trailing newline, consecutive newlines.", "anchors": ["lib/utils.c:sr_indent", "lib/utils.c:sr_indent_except_first_line"]}
{"id": "C30", "title": "bin2hex is injective and round-trips", "statement": "sr_bin2hex writes exactly two lower-case hex digits per byte, and decoding them gives the bytes back.", "quantifier": "all byte strings", "why_tests_cant": "All 256 byte values in all positions.", "anchors": ["lib/utils.c:sr_bin2hex"]}
{"id": "C31", "title": "Path anonymization hides the user name and nothing else", "statement": "anonymize_path replaces the user component of a path /home/<user>/... by 'anonymized' whatever the user name is, leaves every other path unchanged, and is idempotent.", "quantifier": "all paths and user names", "why_tests_cant": "Two users' paths must map to the same result for all names.", "anchors": ["lib/utils.c:anonymize_path"]}
{"id": "C32", "title": "os-release parsing is line-by-line", "statement": "sr_parse_os_release reports, in order, exactly one (key, value) pair for each line of the form KEY=VALUE that is not a comment, with the value unquoted/unescaped, for arbitrary mixes of comments, blank and malformed lines.", "quantifier": "all file contents", "why_tests_cant": "Interaction of malformed lines and missing final newline.", "anchors": ["lib/utils.c:sr_parse_os_release", "lib/utils.c:unescape_osinfo_value", "lib/operating_system.c:sr_operating_system_parse_etc_os_release"]}
{"id": "C33", "title": "Operating system detection does not depend on line order", "statement": "For an os-release file with distinct keys the operating system name, version, CPE and variant do not depend on the order of lines, and a '(Rawhide)' VERSION always wins over VERSION_ID.", "quantifier": "all permutations of distinct-key lines", "why_tests_cant": "Factorially many orders.", "anchors": ["lib/operating_system.c:os_release_callback"]}
{"id": "C34", "title": "Sorted duplicate removal of strings", "statement": "sr_struniq on a sorted array leaves each distinct string exactly once, in order, and reports the new size.", "quantifier": "all sorted arrays", "why_tests_cant": "Runs of duplicates at every position.", "anchors": ["lib/utils.c:sr_struniq"]}
{"id": "C35", "title": "Package NVR/NEVRA strings are parsed exactly", "statement": "sr_rpm_package_parse_nvr accepts exactly the strings name-version-release with non-empty name and version, where version and release have no dash, and returns these parts; sr_rpm_package_parse_nevra inverts the usual printing name-[epoch:]version-release.arch.", "quantifier": "all strings", "why_tests_cant": "Dashes, dots and colons may occur in many positions.", "anchors": ["lib/rpm.c:sr_rpm_package_parse_nvr", "lib/rpm.c:sr_rpm_package_parse_nevra"]}
{"id": "C36", "title": "Package list sort and uniq", "statement": "sr_rpm_package_sort returns a permutation of the list sorted by sr_rpm_package_cmp_nevra; after sorting, sr_rpm_package_uniq leaves no two neighbouring packages with the same name, version, release, epoch and compatible architecture and loses no package identity.", "quantifier": "all package lists", "why_tests_cant": "Orderings and merges of arbitrary lists.", "anchors": ["lib/rpm.c:sr_rpm_package_sort", "lib/rpm.c:sr_rpm_package_uniq", "lib/rpm.c:sr_rpm_package_merge"]}
{"id": "C37", "title": "Package comparison is a total order on identities", "statement": "sr_rpm_package_cmp_nevra/_nvr/_cmp are total preorders over all packages and return 0 exactly for packages with equal compared attributes.", "quantifier": "all packages with full-range epoch and install time", "why_tests_cant": "Differences of unsigned values wrap around only for huge values.", "anchors": ["lib/rpm.c:sr_rpm_package_cmp", "lib/rpm.c:sr_rpm_package_cmp_nevra", "lib/rpm.c:sr_rpm_package_cmp_nvr"]}
{"id": "C38", "title": "DSO list parsing yields one package per well-formed line", "statement": "sr_abrt_parse_dso_list returns, in order, exactly the packages of the well-formed lines 'library nevra (vendor) time', independent of how many lines there are.", "quantifier": "all well-formed dso_list texts", "why_tests_cant": "A cursor that runs over a line boundary shows only for particular mixes of lines.", "anchors": ["lib/abrt.c:sr_abrt_parse_dso_list"]}
{"id": "C39", "title": "JSON string escaping round-trips", "statement": "A string written by sr_json_append_escaped is a JSON string literal that a JSON parser reads back as the same string, and it contains no raw newline or quote.", "quantifier": "all strings", "why_tests_cant": "All character values in all positions.", "anchors": ["lib/json_utils.c:sr_json_escape", "lib/json_utils.c:sr_json_append_escaped"]}
{"id": "C40", "title": "Core stack trace survives JSON round trip", "statement": "Parsing the output of sr_core_stacktrace_to_json with sr_core_stacktrace_from_json gives an equal stack trace (threads, frames, crash thread, signal, executable).", "quantifier": "all core stack traces", "why_tests_cant": "Combinations of missing attributes, special addresses and empty lists.", "anchors": ["lib/core_stacktrace.c:sr_core_stacktrace_to_json", "lib/core_stacktrace.c:sr_core_stacktrace_from_json", "lib/core_thread.c:sr_core_thread_to_json", "lib/core_frame.c:sr_core_frame_to_json"]}
{"id": "C41", "title": "Kernel oops survives JSON round trip", "statement": "Parsing the output of sr_koops_stacktrace_to_json gives an equal stack trace.", "quantifier": "all kernel oops stack traces", "why_tests_cant": "Combinations of missing attributes, flags and long module lists.", "anchors": ["lib/koops_stacktrace.c:sr_koops_stacktrace_to_json", "lib/koops_stacktrace.c:sr_koops_stacktrace_from_json", "lib/koops_frame.c:sr_koops_frame_to_json"]}
{"id": "C42", "title": "Python stack trace survives JSON round trip", "statement": "Parsing the output of sr_python_stacktrace_to_json gives an equal stack trace.", "quantifier": "all Python stack traces", "why_tests_cant": "Combinations of missing and special attributes.", "anchors": ["lib/python_stacktrace.c:sr_python_stacktrace_to_json", "lib/python_frame.c:sr_python_frame_to_json", "lib/python_stacktrace.c:sr_python_stacktrace_from_json"]}
{"id": "C43", "title": "Ruby stack trace survives JSON round trip", "statement": "Parsing the output of sr_ruby_stacktrace_to_json gives an equal stack trace.", "quantifier": "all Ruby stack traces", "why_tests_cant": "Combinations of missing and special attributes.", "anchors": ["lib/ruby_stacktrace.c:sr_ruby_stacktrace_to_json", "lib/ruby_frame.c:sr_ruby_frame_to_json", "lib/ruby_stacktrace.c:sr_ruby_stacktrace_from_json"]}
{"id": "C44", "title": "JavaScript stack trace survives JSON round trip", "statement": "Parsing the output of sr_js_stacktrace_to_json gives an equal stack trace including its platform (engine and runtime).", "quantifier": "all JavaScript stack traces", "why_tests_cant": "Combinations of missing attributes and platforms.", "anchors": ["lib/js_stacktrace.c:sr_js_stacktrace_to_json", "lib/js_platform.c:sr_js_platform_from_json", "lib/js_platform.c:sr_js_platform_to_json"]}
{"id": "C45", "title": "Java stack trace survives JSON round trip", "statement": "Parsing the output of sr_java_stacktrace_to_json gives an equal stack trace.", "quantifier": "all Java stack traces", "why_tests_cant": "Combinations of missing attributes, several threads.", "anchors": ["lib/java_stacktrace.c:sr_java_stacktrace_to_json", "lib/java_thread.c:sr_java_thread_to_json", "lib/java_frame.c:sr_java_frame_to_json"]}
{"id": "C46", "title": "Package list survives JSON round trip", "statement": "Parsing the output of sr_rpm_package_to_json(list, true) gives an equal package list.", "quantifier": "all package lists", "why_tests_cant": "Combinations of missing attributes and extreme values.", "anchors": ["lib/rpm.c:sr_rpm_package_to_json", "lib/rpm.c:sr_rpm_package_from_json"]}
{"id": "C47", "title": "Operating system survives JSON round trip", "statement": "Parsing the output of sr_operating_system_to_json gives an equal record.", "quantifier": "all operating system records", "why_tests_cant": "Combinations of missing attributes.", "anchors": ["lib/operating_system.c:sr_operating_system_to_json", "lib/operating_system.c:sr_operating_system_from_json"]}
{"id": "C48", "title": "Report survives JSON round trip and is always valid JSON", "statement": "sr_report_to_json always emits valid JSON; sr_report_from_json gives an equal report.", "quantifier": "all reports of every type", "why_tests_cant": "Cross product of report types, missing parts and nested serialisers.", "anchors": ["lib/report.c:sr_report_to_json", "lib/report.c:sr_report_from_json"]}
{"id": "C49", "title": "Report type names round-trip", "statement": "sr_report_type_from_string inverts sr_report_type_to_string for every type, unknown names give INVALID, and the ABRT problem type name of each supported type is recognised as that type.", "quantifier": "all report types and all strings", "why_tests_cant": "Prefix matching needs the whole name space.", "anchors": ["lib/report.c:sr_report_type_from_string", "lib/report.c:sr_report_type_to_string", "lib/abrt.c:sr_abrt_type_from_type"]}
{"id": "C50", "title": "Function list text round-trips", "statement": "sr_gdb_thread_parse_funs inverts sr_gdb_thread_format_funs for every thread whose frames have names and library names free of the separators.", "quantifier": "all threads", "why_tests_cant": "Missing libraries, spaces in names.", "anchors": ["lib/gdb_thread.c:sr_gdb_thread_parse_funs", "lib/gdb_thread.c:sr_gdb_thread_format_funs"]}
{"id": "C51", "title": "JavaScript frame print/parse round trip", "statement": "sr_js_frame_parse reads back every frame printed by sr_js_frame_append_to_str. It reads exactly the lines of the two forms `at file:line:column` and `at name (file:line:column)`, and returns what is written there.", "quantifier": "all JavaScript frames", "why_tests_cant": "Colons, parentheses and blanks inside file names.", "anchors": ["lib/js_frame.c:sr_js_frame_parse_v8", "lib/js_frame.c:sr_js_frame_append_to_str"]}
{"id": "C52", "title": "Python traceback parsing", "statement": "sr_python_stacktrace_parse on a traceback as printed by Python yields the frames in reverse order with exactly the printed file names, lines and function names, and the exception name; it never reads beyond the end of the text. Exactly these texts are accepted: after the first header (or, without header, the first file after the words `invalid syntax (`) there is at least one frame, and the text after the last frame begins with the name of the exception.", "quantifier": "all tracebacks", "why_tests_cant": "Any number of frames, with and without source lines, truncated input.", "anchors": ["lib/python_stacktrace.c:sr_python_stacktrace_parse", "lib/python_frame.c:sr_python_frame_parse"]}
{"id": "C53", "title": "Ruby backtrace parsing", "statement": "sr_ruby_stacktrace_parse on a backtrace as printed by Ruby yields exactly the printed frames (file, line, function, block and rescue levels) and the exception class. Exactly these texts are accepted: a frame, `: `, a message with the class in parentheses at the end of its last line, and lines `from` with one frame each up to the end of the text.", "quantifier": "all Ruby backtraces", "why_tests_cant": "Any nesting levels, colons and digits in file names.", "anchors": ["lib/ruby_stacktrace.c:sr_ruby_stacktrace_parse", "lib/ruby_frame.c:sr_ruby_frame_parse"]}
{"id": "C54", "title": "Java frame print/parse round trip", "statement": "sr_java_frame_parse reads back a method frame printed by sr_java_frame_append_to_str.", "quantifier": "all Java method frames", "why_tests_cant": "Native/unknown sources, class paths.", "anchors": ["lib/java_frame.c:sr_java_frame_parse", "lib/java_frame.c:sr_java_frame_append_to_str"]}
{"id": "C55", "title": "Shared library and mapping lookup", "statement": "sr_gdb_sharedlib_find_address returns the first library whose range contains the address, NULL iff there is none; sr_unstrip_find_address returns the first mapping with start <= address < start + length.", "quantifier": "all lists and addresses", "why_tests_cant": "Overlaps and address-space end.", "anchors": ["lib/gdb_sharedlib.c:sr_gdb_sharedlib_find_address", "lib/unstrip.c:sr_unstrip_find_address"]}
{"id": "C56", "title": "Parsers stay inside their input", "statement": "The text parsers never read past the terminating NUL of the input for any input text.", "quantifier": "all input strings", "why_tests_cant": "Over-reads at the end of truncated input usually go unnoticed.", "anchors": ["lib/utils.c:sr_skip_char_limited", "lib/gdb_frame.c:sr_gdb_frame_skip_function_args", "lib/gdb_frame.c:sr_gdb_frame_parse_function_name_chunk", "lib/gdb_sharedlib.c:sr_gdb_sharedlib_parse", "lib/python_frame.c:sr_python_frame_parse"]}
{"id": "C57", "title": "Taint flags and module list", "statement": "Taint flag letters parsed from a kernel oops and taint flags read from JSON set exactly the named flags; the module list is read back completely for any number of modules without writing outside the allocated array.", "quantifier": "all flag sets, all module lists", "why_tests_cant": "Growth of the array happens only past the initial allocation.", "anchors": ["lib/koops_stacktrace.c:sr_koops_stacktrace_from_json", "lib/koops_stacktrace.c:sr_koops_stacktrace_parse_modules", "lib/koops_stacktrace.c:taint_flags_to_json"]}
{"id": "C58", "title": "Callee address collection", "statement": "sr_disasm_get_callee_addresses returns each distinct call target once, in order of first occurrence, zero-terminated, within its allocation. An instruction is reported as present exactly if one of the instructions starts with one of the given mnemonics; the text of the instructions has one line for each.", "quantifier": "all instruction lists", "why_tests_cant": "Buffer overflow depends on duplicate count.", "anchors": ["lib/disasm.c:sr_disasm_get_callee_addresses", "lib/disasm.c:sr_disasm_instruction_is_one_of"]}
{"id": "C59", "title": "Average-linkage dendrograms mean what they say", "statement": "On a complete matrix of exact distances the dendrogram returned by sr_distances_cluster_objects is a hierarchy: every merge level is the mean of the pairwise distances between the members of the two clusters it joins, levels never decrease towards the root, and for every level the clusters returned by sr_dendrogram_cut have mean pairwise distance above that level from each other. With float arithmetic the levels stay in [0, 1] if the distances do.", "quantifier": "all n >= 2, all complete symmetric matrices of rationals, all cut levels and minimum sizes", "why_tests_cant": "Incremental updates of cluster distances and reversals of level arrays could go wrong only for particular merge orders.", "anchors": ["lib/cluster.c:sr_distances_cluster_objects", "lib/cluster.c:sr_dendrogram_cut"]}
{"id": "C60", "title": "Thread comparison functions are total orders consistent with equality", "statement": "sr_gdb_thread_cmp, sr_core_thread_cmp, sr_java_thread_cmp and sr_java_stacktrace_cmp are antisymmetric and transitive, and return 0 only for threads (stack traces) whose compared attributes and frames agree pairwise.", "quantifier": "all triples of threads or Java stack traces", "why_tests_cant": "Order axioms quantify over triples of lists of any length, and the comparison of Java threads looks at the first frame only.", "anchors": ["lib/gdb_thread.c:sr_gdb_thread_cmp", "lib/core_thread.c:sr_core_thread_cmp", "lib/java_thread.c:sr_java_thread_cmp", "lib/java_stacktrace.c:sr_java_stacktrace_cmp"]}
{"id": "C61", "title": "Normalizing a GDB stack trace keeps the crash thread", "statement": "After sr_normalize_gdb_stacktrace the crash thread search returns the same thread as before.", "quantifier": "all GDB stack traces", "why_tests_cant": "Normalization removes the very frames the search looks at; depends on which thread ids are known.", "anchors": ["lib/normalize.c:sr_normalize_gdb_stacktrace", "lib/gdb_stacktrace.c:sr_gdb_stacktrace_find_crash_thread"]}
{"id": "C62", "title": "Thread optimization removes exactly the main frames", "statement": "sr_gdb_normalize_optimize_thread removes exactly the frames whose function is main, keeps all others in order, and is idempotent.", "quantifier": "all threads", "why_tests_cant": "Removal while iterating over lists of any length and any positions of main.", "anchors": ["lib/normalize.c:sr_gdb_normalize_optimize_thread"]}
{"id": "C63", "title": "System release texts are split at the first ' release '", "statement": "Parsing a system-release text succeeds exactly when it contains ' release ' with something before the first occurrence. Then the name is the text before the first ' release ' in lower case, except that any product whose text starts with 'Red Hat Enterprise Linux' (in any case of letters) is named 'rhel'; the version is the longest run of digits and dots after ' release ', or all the rest of the text when there is no such run.", "quantifier": "every text", "why_tests_cant": "Tests try a handful of known release files; the claim is about every text, including ones with several occurrences of the separator and with unusual versions.", "anchors": ["lib/operating_system.c: sr_operating_system_parse_etc_system_release"]}
{"id": "C64", "title": "Reason of a stack trace names the error and where it happened", "statement": "The one-line reason of a stack trace is defined for every stack trace of a type that has one. For Python, Ruby and JavaScript it names the exception (or says it is unknown) and the file and line of the frame where the error happened; for Java it names the first exception of the first thread and the last position known in it; for core dumps it names the executable and the signal; for a kernel oops it names the first frame that is not a normalization artefact.", "quantifier": "all stack traces of every type, with any missing parts", "why_tests_cant": "Missing names, empty frame lists and nested exceptions combine in ways a handful of traces do not cover.", "anchors": ["lib/core_stacktrace.c:sr_core_stacktrace_get_reason", "lib/python_stacktrace.c:sr_python_stacktrace_get_reason", "lib/java_stacktrace.c:sr_java_stacktrace_get_reason", "lib/ruby_stacktrace.c:sr_ruby_stacktrace_get_reason", "lib/js_stacktrace.c:sr_js_stacktrace_get_reason", "lib/koops_stacktrace.c:sr_koops_stacktrace_get_reason", "lib/generic_stacktrace.c:sr_stacktrace_get_reason"]}
{"id": "C65", "title": "Library names of gdb frames", "statement": "sr_gdb_thread_set_libnames gives every frame whose address lies in a listed library the short name of the first such library (its base name up to and including .so) and leaves every other frame and every other field unchanged.", "quantifier": "all threads and library lists", "why_tests_cant": "Overlapping libraries, names without slash or .so, addresses at range ends.", "anchors": ["lib/gdb_thread.c:sr_gdb_thread_set_libnames", "lib/gdb_sharedlib.c:sr_gdb_sharedlib_find_address"]}
{"id": "C66", "title": "eu-unstrip output is read completely", "statement": "sr_unstrip_parse on a text made of well-formed eu-unstrip lines and other lines yields exactly the entries of the well-formed lines, in order, with all their fields.", "quantifier": "all sequences of lines", "why_tests_cant": "Any number of lines, any numbers, build ids with or without address, junk lines in between.", "anchors": ["lib/unstrip.c:sr_unstrip_parse"]}
{"id": "C67", "title": "The list of shared libraries is read completely", "statement": "sr_gdb_sharedlib_parse on gdb output that contains an 'info sharedlibrary' table yields exactly the libraries of the table, in order, with their ranges, symbol state and names.", "quantifier": "all texts before the table, all tables", "why_tests_cant": "Any number of libraries, any addresses and names.", "anchors": ["lib/gdb_sharedlib.c:sr_gdb_sharedlib_parse"]}
{"id": "C68", "title": "Core stack trace from gdb output and eu-unstrip output", "statement": "sr_core_stacktrace_create yields one core thread per gdb thread and one core frame per gdb frame, with the build id, file name and offset of the mapping that contains the frame's address, and its function name unless it is unknown.", "quantifier": "all gdb outputs and eu-unstrip outputs", "why_tests_cant": "Must hold for every number of threads and frames.", "anchors": ["lib/core_stacktrace.c:sr_core_stacktrace_create"]}
{"id": "C69", "title": "V8 stack trace parsing", "statement": "sr_js_stacktrace_parse on the value of the stack property printed by V8 yields exactly the printed exception name and all printed frames in their order.", "quantifier": "all stack traces: any exception name and message, any number of frames", "why_tests_cant": "The number of frames and the texts of names and files are unbounded.", "anchors": ["lib/js_stacktrace.c:sr_js_stacktrace_parse", "lib/js_frame.c:sr_js_frame_parse_v8"]}
{"id": "C70", "title": "Java stack trace parsing", "statement": "sr_java_stacktrace_parse on a stack trace as printed by the JVM yields exactly the thread name, the exceptions with their messages (innermost first) and all their calls; a thread printed by sr_java_thread_append_to_str is read back.", "quantifier": "all Java stack traces: any number of exceptions in the chain, calls, suppressed exceptions", "why_tests_cant": "Chains of causes, suppressed exceptions and calls are unbounded, and so are their texts.", "anchors": ["lib/java_stacktrace.c:sr_java_stacktrace_parse", "lib/java_thread.c:sr_java_thread_parse", "lib/java_thread.c:sr_java_thread_append_to_str", "lib/java_frame.c:sr_java_frame_parse_exception", "lib/java_frame.c:sr_java_frame_parse"]}
{"id": "C71", "title": "A gdb frame is read as it is printed", "statement": "For every frame text of the form gdb prints (frame number, optional address, function with optional type, template arguments, operators and const, arguments with balanced brackets and quoted strings, optional source location), parsing returns a frame with exactly the printed number, address, function name, type, source file and line, and goes on at the next frame or thread. Whatever text is given, each member of a returned frame stands in the text where gdb prints it; files that are shared objects are not stored as source files.", "quantifier": "all texts; all numbers, addresses, function names, nested template arguments, argument lists and locations of the printed form", "why_tests_cant": "function names and arguments nest to any depth and are unbounded; the tests use some dozens of literal lines", "anchors": ["lib/gdb_frame.c:sr_gdb_frame_parse", "lib/gdb_frame.c:sr_gdb_frame_parse_header", "lib/gdb_frame.c:sr_gdb_frame_parse_function_name", "lib/gdb_frame.c:sr_gdb_frame_skip_function_args", "lib/gdb_frame.c:sr_gdb_frame_parse_file_location"]}
{"id": "C72", "title": "A gdb thread is read completely", "statement": "For every thread printed by gdb as a header line (thread number, optional LWP number, optional thread id) followed by frames, parsing returns a thread with exactly the printed number and thread id and all of its frames in order, and goes on at the next thread. Whatever text is given, a thread that is returned has at least one frame, and its header and frames stand one after another in the text.", "quantifier": "all texts; all header lines and all lists of frames of the printed form", "why_tests_cant": "any number of frames with unbounded texts; the tests use a few literal threads", "anchors": ["lib/gdb_thread.c:sr_gdb_thread_parse", "lib/gdb_thread.c:sr_gdb_thread_parse_lwp"]}
{"id": "C73", "title": "A gdb stack trace is read completely", "statement": "For every gdb output of the form preamble, optional crash frame, threads, parsing returns a stack trace with the printed crash frame and all printed threads in order, together with the shared libraries listed in the output. Whatever text is given, a stack trace that is returned has at least one thread, and its crash frame and threads stand one after another in the text. Every frame that is printed in a thread is a frame of a returned thread.", "quantifier": "all texts; all preambles and all lists of threads of the printed form", "why_tests_cant": "any number of threads and frames with unbounded texts; the tests use a few recorded outputs", "anchors": ["lib/gdb_stacktrace.c:sr_gdb_stacktrace_parse", "lib/gdb_stacktrace.c:sr_gdb_stacktrace_parse_header"]}
{"id": "C74", "title": "A kernel oops frame is read exactly", "statement": "For every line in one of the forms that kernels print (x86, s390, ARM, PowerPC, a bare address), parsing returns the frame with exactly the printed address, reliability, function name, offset, length, module and caller, and the rest of the text begins at the next line. Whatever text is given, a frame that is returned describes a text of one of these forms that stands at the beginning of the input.", "quantifier": "all texts; all addresses, names, offsets, lengths and modules", "why_tests_cant": "names and numbers are unbounded and several line formats overlap; the tests use a few literal lines", "anchors": ["lib/koops_frame.c:sr_koops_frame_parse", "lib/koops_frame.c:sr_koops_parse_function", "lib/koops_frame.c:sr_koops_parse_address", "lib/koops_frame.c:sr_koops_parse_module_name"]}
{"id": "C75", "title": "A kernel oops is read completely", "statement": "For every kernel oops that consists of frame lines, marks of special stacks, a module list, an instruction pointer and other lines, parsing returns a stack trace with all printed frames in order, each labelled with the special stack it is on, the instruction pointer first, the printed modules, the taint flags and the first line as the reason. Whatever text is given, every frame of the stack trace stands in the text.", "quantifier": "all texts; all sequences of lines of the printed forms", "why_tests_cant": "any number of lines in any order with unbounded contents; the tests use a few recorded oopses", "anchors": ["lib/koops_stacktrace.c:sr_koops_stacktrace_parse", "lib/koops_stacktrace.c:sr_koops_stacktrace_parse_modules", "lib/koops_stacktrace.c:parse_IP", "lib/koops_stacktrace.c:parse_alt_stack_start", "lib/koops_stacktrace.c:parse_alt_stack_end"]}
{"id": "C76", "title": "The short text of a stack trace has one numbered line for each of the first frames of the crash thread", "statement": "For kernel oopses, Python, Ruby, Java, JavaScript and core stack traces the short text consists of the lines '#1 ...', '#2 ...' for the first frames of the crash thread, in order: all of them if the limit is 0, at most as many as a positive limit says. With a smaller limit the text is the beginning of the text with a larger one. Without a crash thread there is no text. This needs core frames with a function name or a build id and JavaScript frames with a file name; otherwise a null pointer is printed.", "quantifier": "all stack traces of these kinds, all limits", "why_tests_cant": "the number of frames and their contents are unbounded; the tests compare a few literal texts", "anchors": ["lib/generic_stacktrace.c:stacktrace_to_short_text", "lib/generic_stacktrace.c:sr_stacktrace_to_short_text", "lib/core_frame.c:core_append_to_str", "lib/core_stacktrace.c:sr_core_stacktrace_find_crash_thread", "lib/koops_frame.c", "lib/python_frame.c", "lib/ruby_frame.c"]}
{"id": "C77", "title": "The short text of a gdb stack trace shows the known functions of the normalized crash thread", "statement": "The short text of a gdb stack trace shows exactly those frames which normalization of the crash thread keeps and whose function is known and is not main, in order, up to the limit. Each of them is a frame of the thread in which nothing but the names of function and library is changed. The text does not depend on the shared libraries. This needs libraries with names.", "quantifier": "all gdb stack traces, all limits, all lists of named libraries", "why_tests_cant": "the composition of naming, normalization, filtering and cutting is tested on one thread only", "anchors": ["lib/gdb_stacktrace.c:sr_gdb_stacktrace_to_short_text", "lib/gdb_thread.c:sr_gdb_thread_get_optimized", "lib/gdb_stacktrace.c:sr_gdb_stacktrace_get_optimized_thread", "lib/gdb_frame.c:sr_gdb_frame_append_to_str"]}
{"id": "C78", "title": "The crash frame is the first frame that normalization leaves in the crash thread", "statement": "The crash frame of a gdb stack trace is the first frame of its normalized crash thread. It is a frame of that thread in which nothing but the function name is changed, and it is neither a redundant frame nor one that ends the process. There is none exactly if there is no crash thread or if normalization removes all its frames.", "quantifier": "all gdb stack traces", "why_tests_cant": "any number of threads and frames and any function names; the tests look at recorded stack traces", "anchors": ["lib/gdb_stacktrace.c:sr_gdb_stacktrace_get_crash_frame"]}
{"id": "C79", "title": "Stack traces with the same short text have the same frames", "statement": "If two kernel oopses, Python, Ruby, JavaScript or Java stack traces have the same unlimited short text, then the crash threads have equally many frames, and the frames agree in everything that is printed: stack, reliability, function and module of a kernel oops frame; file, line and function, with their special marks, of a Python frame; everything of Ruby, JavaScript and Java frames. This needs names that cannot be mistaken for marks: no blanks in function names, no colon in file names of Python and Ruby frames, no function called ?? and so on.", "quantifier": "all pairs of stack traces of these kinds whose names meet the conditions", "why_tests_cant": "a statement about all pairs of stack traces", "anchors": ["lib/generic_stacktrace.c:stacktrace_to_short_text", "lib/koops_frame.c:sr_koops_frame_append_to_str", "lib/python_frame.c:sr_python_frame_append_to_str", "lib/ruby_frame.c:sr_ruby_frame_append_to_str", "lib/js_frame.c:sr_js_frame_append_to_str", "lib/java_frame.c:sr_java_frame_append_to_str"]}
{"id": "C80", "title": "The report of a problem directory says exactly what its files say", "statement": "A report is read from an ABRT problem directory if and only if its files describe it: the type from the file type, the operating system, the component (the file component for a packaged program, otherwise the name of the executable with a suffix), the packages, the number of occurrences, and the stack trace read from backtrace or core_backtrace according to the type. The frames of a printed Python, Ruby or Java stack trace or kernel oops stand in the report. Reading never uses freed memory or leaves a text, as long as no package mentioned has an epoch that is not a number.", "quantifier": "all directories (any files missing or unreadable, any contents), all values of errno", "why_tests_cant": "arbitrary combinations of missing, unreadable and malformed files", "anchors": ["lib/abrt.c:sr_abrt_report_from_dir", "lib/abrt.c:get_component", "lib/abrt.c:sr_abrt_type_from_type"]}
{"id": "C81", "title": "The number of occurrences is read exactly", "statement": "The number of occurrences is taken from the file count if and only if it contains a decimal number from 0 to 4294967295, with white space and a sign allowed before it and nothing after it. Every such number is read from its digits.", "quantifier": "all texts, all values of errno before the call", "why_tests_cant": "all texts; the outcome also depends on errno left by earlier calls", "anchors": ["lib/abrt.c:occurrences_from_dir"]}
{"id": "C82", "title": "The operating system of a problem directory", "statement": "The operating system is described by os_info if it has a name and a version, otherwise name and version come from os_release; the architecture is required; the desktop session is the value of the variable DESKTOP_SESSION in environ, if that is there, and is left out otherwise.", "quantifier": "all directories", "why_tests_cant": "all combinations of files and all environments", "anchors": ["lib/abrt.c:sr_abrt_operating_system_from_dir", "lib/abrt.c:desktop_from_dir"]}
{"id": "C83", "title": "The packages of a problem directory", "statement": "The packages of a report are the package of the program with the role affected (if it is packaged), those of the list of libraries, and last the package of the interpreter. If the list of libraries names packages, the first two groups are sorted and merged: no two describe one package, every package that was read is represented and none is invented. The epoch is the number in pkg_epoch.", "quantifier": "all directories; any sorting function that meets the contract of qsort", "why_tests_cant": "all lists of packages and all sorting functions allowed by the standard", "anchors": ["lib/abrt.c:sr_abrt_rpm_packages_from_dir", "lib/abrt.c:rpm_pkg_from_dir", "lib/abrt.c:rpm_dso_list_from_dir", "lib/abrt.c:rpm_interpreter_from_dir"]}
{"id": "C84", "title": "If no report can be read from a directory, there is a message", "statement": "Whenever reading a report from a problem directory fails, the error message has been set.", "quantifier": "all directories, all values of errno", "why_tests_cant": "every way to fail", "anchors": ["lib/abrt.c:sr_abrt_report_from_dir", "lib/abrt.c:sr_abrt_rpm_packages_from_dir", "lib/utils.c:sr_file_to_string"]}
{"id": "C85", "title": "A core stack trace written to a problem directory is the one in its report", "statement": "In a core stack trace that is written to the file core_backtrace, frames of __kernel_vsyscall without a file name get the file name kernel, and nothing else is changed. The report read from the directory afterwards contains that stack trace, up to the known differences of the JSON form (C40).", "quantifier": "all core stack traces with at least one thread, all directories", "why_tests_cant": "all stack traces", "anchors": ["lib/abrt.c:fulfill_missing_values", "lib/abrt.c:create_core_stacktrace", "lib/abrt.c:sr_abrt_get_core_stacktrace_from_core_hook_generate", "lib/core_stacktrace.c:sr_core_stacktrace_from_json_text"]}
{"id": "C86", "title": "Extending a call graph adds exactly the functions reachable by calls", "statement": "Extending a call graph by the address of a function keeps the nodes it has and adds a node for every function that can be reached from that address by calls and is not yet in it, each once, with the call targets found in its instructions. An address without function is refused with an error message. The extension always ends, also for recursive functions.", "quantifier": "all programs (lists of functions and their disassemblies), all graphs closed under calls, all addresses", "why_tests_cant": "arbitrary call structures including recursion; reachability", "anchors": ["lib/callgraph.c:sr_callgraph_extend", "lib/callgraph.c:sr_callgraph_find"]}
{"id": "C87", "title": "The call graph of a file has one node per function", "statement": "The call graph computed for a file has one node for each function, in the order of the functions, with the address and the call targets of the function. If a function cannot be disassembled, there is no graph and the error message is that of the first such function.", "quantifier": "all lists of functions and disassemblies", "why_tests_cant": "arbitrary files", "anchors": ["lib/callgraph.c:sr_callgraph_compute"]}
{"id": "C88", "title": "Functions are read from a file with their addresses and lengths", "statement": "From a file whose .eh_frame section describes functions, exactly these functions are read, in the same order, with their addresses and lengths; nothing outside of the data is read.", "quantifier": "all files: sections, program headers, CIEs with any augmentation, encodings of the addresses", "why_tests_cant": "all encodings and layouts of the file", "anchors": ["lib/elves.c:sr_elf_get_eh_frame", "lib/elves.c:read_cie"]}
{"id": "C89", "title": "Functions are found by offset, address and start", "statement": "Looking up an offset or address gives the first function whose range contains it, and nothing if there is none; looking up a start address gives the first function that starts there. If functions do not overlap there is only one; offset and address agree for functions of one file.", "quantifier": "all lists of functions, all 64-bit offsets and addresses", "why_tests_cant": "boundaries and overflow for all addresses", "anchors": ["lib/elves.c:sr_elf_find_fde_for_offset", "lib/elves.c:sr_elf_find_fde_for_address", "lib/elves.c:sr_elf_find_fde_for_start_address"]}
{"id": "C90", "title": "The entries of the procedure linkage table get the right symbols", "statement": "From a file with a procedure linkage table one entry is read for every slot after the first, with the address of the slot and the name of the symbol of its relocation. Looking up an address gives the entry with that address. Nothing outside of the sections is read.", "quantifier": "all files with .plt sections, relocations, symbols and strings", "why_tests_cant": "all contents of the sections", "anchors": ["lib/elves.c:sr_elf_get_procedure_linkage_table", "lib/elves.c:sr_elf_plt_find_for_address"]}
{"id": "C91", "title": "The JSON text of functions contains them all", "statement": "The JSON text of a list of functions is a JSON array with the start address and length of every function, in the same order.", "quantifier": "all lists of functions", "why_tests_cant": "all lists and numbers", "anchors": ["lib/elves.c:sr_elf_eh_frame_to_json", "lib/elves.c:sr_elf_fde_to_json"]}
{"id": "C92", "title": "A frame of a core dump names the module and function at its address", "statement": "The frame made for a program counter has that address; if the address is in a module, the frame has the build id of the module in hexadecimal, the distance of the address from the start of the module, the file (or name) of the module, and the function there, demangled if it is a C++ symbol. For a return address the instruction before it is looked up. Outside of modules the frame has only the address.", "quantifier": "all modules, all 64-bit addresses, return addresses or not", "why_tests_cant": "all address spaces and addresses", "anchors": ["lib/core_unwind.c:resolve_frame", "lib/utils.c:sr_demangle_symbol"]}
{"id": "C93", "title": "The stack trace of a core dump has all threads with their stacks", "statement": "Unwinding a core dump gives a stack trace exactly if the core dump can be opened and the program counters of all frames above __libc_start_main are known. It has all threads in their order, each with its id and the oldest 256 frames above __libc_start_main; the first thread is the crash thread; the signal and executable are set. There is an error message exactly if there is no stack trace.", "quantifier": "all core dumps: threads, frames, errors of the library at any place", "why_tests_cant": "errors at any place, stacks of any length", "anchors": ["lib/core_unwind_elfutils.c:sr_parse_coredump", "lib/core_unwind_elfutils.c:unwind_thread", "lib/core_unwind_elfutils.c:frame_callback"]}
{"id": "C94", "title": "Unwinding in the core hook gives the crashed thread or an error", "statement": "In the core hook, a stack trace with the crashed thread as only thread and as crash thread is made, with the oldest 256 frames above __libc_start_main, the executable and the signal; if this fails, there is an error message and no stack trace.", "quantifier": "all processes: frames, errors of the library at any place", "why_tests_cant": "errors at any place", "anchors": ["lib/core_unwind_elfutils.c:sr_core_stacktrace_from_core_hook_generate"]}
{"id": "C95", "title": "A gdb stack trace becomes a core stack trace with the same threads", "statement": "The core stack trace made of the output of gdb has the threads of the gdb stack trace, in the same order, with frames for the addresses of the oldest 256 frames that are not the mark of a signal handler; the crash thread is that of the gdb stack trace.", "quantifier": "all gdb stack traces, all core dumps", "why_tests_cant": "stacks of any length with signal handlers at any place", "anchors": ["lib/core_unwind.c:sr_core_stacktrace_from_gdb"]}
{"id": "C96", "title": "The signal is the first one in the notes of a core dump", "statement": "The signal number of a core dump is the first one that is not 0 in the process states (notes of name CORE and type NT_PRSTATUS of the right size), 0 if there is none.", "quantifier": "all core dumps: any notes in any segments", "why_tests_cant": "all orders and sizes of notes", "anchors": ["lib/core_unwind.c:get_signal_number"]}
{"id": "C97", "title": "Unwinding with libunwind gives all threads", "statement": "Unwinding with libunwind gives the threads of the core dump in their order, each with the frames up to __libc_start_main, at most 999, and the first signal that is not 0; if it fails there is an error message and no stack trace.", "quantifier": "all core dumps, failure of any thread", "why_tests_cant": "failures of any thread", "anchors": ["lib/core_unwind_libunwind.c:sr_parse_coredump", "lib/core_unwind_libunwind.c:unwind_thread"]}
{"id": "C98", "title": "A copy is equal to the original and shares no memory with it", "statement": "Copying a frame, thread, stack trace or shared library, alone or with the rest of its list, never fails except for lack of memory. The copy has the same contents down to all texts and members; it consists only of memory that was not in use before; all other memory, including the original, is unchanged. Pointers inside of the copy point into the copy.", "quantifier": "all structures of all kinds that can be copied, lists of all lengths, all states of memory, all behaviours of the allocator", "why_tests_cant": "all shapes of lists and all states of memory", "anchors": ["lib/core_frame.c:sr_core_frame_dup", "lib/core_thread.c:sr_core_thread_dup", "lib/core_stacktrace.c:sr_core_stacktrace_dup", "lib/gdb_frame.c:sr_gdb_frame_dup", "lib/gdb_thread.c:sr_gdb_thread_dup", "lib/gdb_stacktrace.c:sr_gdb_stacktrace_dup", "lib/gdb_sharedlib.c:sr_gdb_sharedlib_dup", "lib/koops_frame.c:sr_koops_frame_dup", "lib/koops_stacktrace.c:sr_koops_stacktrace_dup", "lib/java_frame.c:sr_java_frame_dup", "lib/java_thread.c:sr_java_thread_dup", "lib/java_stacktrace.c:sr_java_stacktrace_dup", "lib/js_frame.c:sr_js_frame_dup", "lib/js_stacktrace.c:sr_js_stacktrace_dup", "lib/python_frame.c:sr_python_frame_dup", "lib/python_stacktrace.c:sr_python_stacktrace_dup", "lib/ruby_frame.c:sr_ruby_frame_dup", "lib/ruby_stacktrace.c:sr_ruby_stacktrace_dup"]}
{"id": "C99", "title": "Freeing releases exactly the memory of a structure", "statement": "Freeing a structure, or a list of structures, releases exactly the memory that it occupies with all its texts and members. Nothing is freed twice or read after it was freed, nothing is leaked, and all other memory is unchanged.", "quantifier": "all structures of all kinds, lists of all lengths, all states of memory", "why_tests_cant": "leaks and double frees for all shapes", "anchors": ["lib/core_stacktrace.c:sr_core_stacktrace_free", "lib/gdb_stacktrace.c:sr_gdb_stacktrace_free", "lib/koops_stacktrace.c:sr_koops_stacktrace_free", "lib/java_stacktrace.c:sr_java_stacktrace_free", "lib/js_stacktrace.c:sr_js_stacktrace_free", "lib/python_stacktrace.c:sr_python_stacktrace_free", "lib/ruby_stacktrace.c:sr_ruby_stacktrace_free", "lib/rpm.c:sr_rpm_package_free", "lib/operating_system.c:sr_operating_system_free", "lib/report.c:sr_report_free", "lib/unstrip.c:sr_unstrip_free"]}
{"id": "C100", "title": "A copy and its original are independent", "statement": "Freeing a copy leaves memory exactly as it was before copying. Freeing the original leaves the copy with all its contents, and releases exactly the memory of the original.", "quantifier": "all structures that can be copied, lists of all lengths, all states of memory, all behaviours of the allocator", "why_tests_cant": "all shapes and states of memory", "anchors": ["lib/gdb_stacktrace.c:sr_gdb_stacktrace_dup", "lib/gdb_stacktrace.c:sr_gdb_stacktrace_free"]}
{"id": "C101", "title": "Appending a list gives both lists one after the other", "statement": "Appending a list of frames, threads, shared libraries or packages to another one gives the list of all structures of the first followed by all structures of the second, in the memory of both lists. Only the first list is changed; it stays at its address if it is not empty.", "quantifier": "all pairs of lists, all states of memory", "why_tests_cant": "lists of all lengths", "anchors": ["lib/core_frame.c:sr_core_frame_append", "lib/gdb_frame.c:sr_gdb_frame_append", "lib/gdb_thread.c:sr_gdb_thread_append", "lib/gdb_sharedlib.c:sr_gdb_sharedlib_append", "lib/rpm.c:sr_rpm_package_append"]}
{"id": "C102", "title": "Removing all threads but one keeps that thread and frees the others", "statement": "After removing all threads but one, the gdb stack trace has exactly that thread, unchanged, and everything else as before; the memory of all other threads is released, and no other memory is changed.", "quantifier": "all gdb stack traces, any thread of it, all states of memory", "why_tests_cant": "any number of threads", "anchors": ["lib/gdb_stacktrace.c:sr_gdb_stacktrace_remove_threads_except_one"]}
{"id": "C103", "title": "Python attributes have the values that were assigned to them", "statement": "Assigning a value of the right type to an attribute of a Python object of the library gives the attribute this value and changes no other attribute. A value of a wrong type or outside of the range is refused with an exception and changes nothing.", "quantifier": "all classes and attributes, all values, all states of the object, all behaviours of the allocator", "why_tests_cant": "all values and all memory contents", "anchors": ["python/py_common.c:sr_py_setter_string", "python/py_common.c:sr_py_getter_string", "python/py_common.c:sr_py_setter_uint16", "python/py_common.c:sr_py_setter_uint32", "python/py_common.c:sr_py_setter_uint64", "python/py_common.c:sr_py_setter_bool", "python/py_gdb_frame.c", "python/py_core_frame.c", "python/py_report.c"]}
{"id": "C104", "title": "The library sees the frames of the Python list", "statement": "When a thread object of Python is passed to the library, the library sees exactly the frames of its Python list, in the same order. An object that is no frame is refused. Reference counts are the same afterwards, and other threads are not changed.", "quantifier": "all lists of frames, all states of the interpreter", "why_tests_cant": "lists of all lengths, all histories of sharing of objects", "anchors": ["python/py_base_thread.c:frames_prepare_linked_list"]}
{"id": "C105", "title": "The library sees the threads of the Python list", "statement": "When a stack trace object of Python is passed to the library, the library sees exactly the threads of its Python list, in the same order, and each thread has exactly the frames of its list. Reference counts are the same afterwards.", "quantifier": "all lists of threads and frames, all states of the interpreter", "why_tests_cant": "lists of all lengths", "anchors": ["python/py_base_stacktrace.c:threads_prepare_linked_list"]}
{"id": "C106", "title": "Python lists of frames have the frames that the library found", "statement": "The Python list made for a linked list of frames has one object for each frame, in the same order, each owned only by the list. Passing the list back to the library gives the same linked list.", "quantifier": "linked lists of all lengths, all states of the interpreter", "why_tests_cant": "lists of all lengths", "anchors": ["python/py_base_thread.c:frames_to_python_list"]}
{"id": "C107", "title": "The crash thread in Python is the object for the crash thread of the library", "statement": "The crash thread of a stack trace object is the first object of its list of threads whose structure is the crash thread that the library finds, and None if there is none.", "quantifier": "all lists of threads, all results of the library", "why_tests_cant": "lists of all lengths", "anchors": ["python/py_base_stacktrace.c:sr_py_multi_stacktrace_get_crash"]}
{"id": "C108", "title": "The Python distance matrix has the distances that were assigned last", "statement": "Distances(m, n) gives a matrix of size (min(m, n-1), n) if m is at least 1 and n at least 2, and raises an exception otherwise. After any history of set_distance calls, get_distance gives zero for equal indices, the value assigned last to the pair, and an exception for indices outside of the matrix; calls with such indices change nothing.", "quantifier": "all sizes, all histories of calls with all integers as indices", "why_tests_cant": "all histories and all indices", "anchors": ["python/py_metrics.c:sr_py_distances_new", "python/py_metrics.c:sr_py_distances_get_distance", "python/py_metrics.c:sr_py_distances_set_distance", "python/py_metrics.c:sr_py_distances_dup"]}
{"id": "C109", "title": "The Python distance matrix of a list of threads has the distances of the threads", "statement": "Distances(threads, m, dist_type) gives the matrix of the distances of the threads if the list has at least two threads, all of one type, m is positive and the distance type is a metric. In all other cases it raises an exception.", "quantifier": "all lists of Python objects, all integers as m and distance type, any distance function", "why_tests_cant": "all lists and arguments", "anchors": ["python/py_metrics.c:sr_py_distances_new", "python/py_metrics.c:validate_distance_params", "python/py_metrics.c:prepare_thread_array"]}
{"id": "C110", "title": "Parts of a matrix can be computed in other processes", "statement": "Pickling and unpickling a part of a matrix gives the same part. Making the parts of a matrix, sending each to another process, computing it there for the same threads, sending it back and merging the parts in any order gives the matrix that Distances gives for the same threads. No call makes the library crash.", "quantifier": "all lists of threads, all numbers of parts, all orders of the parts, any distance function and checksum", "why_tests_cant": "all divisions, all orders of completion", "anchors": ["python/py_metrics.c:sr_py_distances_part_new", "python/py_metrics.c:sr_py_distances_part_reduce", "python/py_metrics.c:sr_py_distances_part_create", "python/py_metrics.c:sr_py_distances_part_compute", "python/py_metrics.c:sr_py_distances_merge_parts", "python/py_metrics.c:parts_prepare_linked_list"]}
{"id": "C111", "title": "The Python dendrogram gives access to all objects and levels and to nothing else", "statement": "The dendrogram of the matrix of a list of threads has the size of the list; get_object gives each index of a thread exactly once; get_merge_level gives the level between each two neighbours; cut gives the clusters that the library gives. Positions outside of the range raise an exception.", "quantifier": "all lists of threads, all integers as positions, all levels and sizes", "why_tests_cant": "all positions", "anchors": ["python/py_cluster.c:sr_py_dendrogram_new", "python/py_cluster.c:sr_py_dendrogram_get_object", "python/py_cluster.c:sr_py_dendrogram_get_merge_level", "python/py_cluster.c:sr_py_dendrogram_cut"]}
{"id": "C112", "title": "The message about a JavaScript stack trace that cannot be read names the first bad line", "statement": "A text is read as a JavaScript stack trace if and only if its first line is a header and the other lines are frames (the last may be empty); the result has exactly the frames of the lines, in their order. For every other text the error message names the line of the first error - the first line, if it is no header or the only one, else the first line that is no frame - and a column within that line.", "quantifier": "all texts", "why_tests_cant": "the place of the first error, the number and form of the lines before it and the characters in it are arbitrary", "anchors": ["lib/js_stacktrace.c:sr_js_stacktrace_parse", "lib/js_stacktrace.c:sr_js_stacktrace_parse_v8", "lib/js_frame.c:sr_js_frame_parse_v8", "lib/location.c:sr_location_add", "lib/location.c:sr_location_to_string", "lib/stacktrace.c:sr_stacktrace_parse"]}
{"id": "C113", "title": "The distance of two gdb threads does not depend on their order", "statement": "The distance that a matrix holds for two gdb threads does not depend on which of them comes first in the array (edit distances and Jaccard, if no function really has a name that the pairing of unknown functions may invent and frame comparison is transitive). The Levenshtein distance is never greater than sr_distance of the threads as they are, equals it if one of the threads has no unknown function, and is 0 for two identical threads exactly if they have no two unknown functions in a row.", "quantifier": "all pairs of gdb threads", "why_tests_cant": "unknown functions are paired greedily, scanning one thread for each frame of the other, so the order of the threads could matter for any arrangement of unknown frames", "anchors": ["lib/distance.c:normalize_and_compare", "lib/distance.c:sr_threads_compare", "lib/distance.c:sr_distances_part_compute", "lib/normalize.c:sr_normalize_gdb_paired_unknown_function_names", "lib/gdb_thread.c:sr_gdb_thread_quality_counts"]}
{"id": "C114", "title": "One interface for stack traces of every type", "statement": "With the functions for stack traces, threads and frames of any type a program reaches every thread of a stack trace and every frame of a thread, in order and all of the type of the stack trace; the crash thread is one of the threads. The short text, the reason, the JSON and both hashes are those described for the type, and what is written as JSON is read back with the type. Comparing frames is a total order over frames of all types. Setting frames, next thread or threads changes only that, if the type fits, and a wrong type aborts. (Not so: threads of the types with one thread cannot be compared, nor can their threads be set; the text of a gdb frame is undefined.)", "quantifier": "all stack traces, threads and frames of the seven types, and all types passed as numbers", "why_tests_cant": "the functions choose methods from tables by the type; a missing, swapped or mistyped entry shows only for one combination of function and type, or only when objects of two types meet", "anchors": ["lib/generic_stacktrace.c", "lib/generic_thread.c", "lib/generic_frame.c", "lib/internal_utils.h:DISPATCH", "lib/generic_thread.h", "lib/generic_frame.h", "lib/generic_stacktrace.h"]}
{"id": "C115", "title": "A dendrogram puts near objects side by side", "statement": "In the order of a dendrogram made from a complete matrix of distances, sequences of objects are joined at those of their ends that are nearest to each other. Two objects with the smallest distance of all are neighbours, and the merge level between them is their distance. Both hold with float arithmetic in every rounding mode.", "quantifier": "all complete matrices of distances, all roundings", "why_tests_cant": "the ends are compared and the sequences reversed anew at each merge, and levels are moved along with the objects, so a mistake may show only for certain arrangements of many clusters", "anchors": ["lib/cluster.c:sr_distances_cluster_objects", "include/cluster.h:struct sr_dendrogram"]}
{"id": "C116", "title": "JavaScript stack traces are read for the platform they come from", "statement": "The platform named Node.js is Node.js with the engine V8, for every version; for every other name there is no platform and the message has the name. A stack trace or frame is read for a platform with a known runtime and engine exactly as without a platform, but the stack trace has that platform; for other platforms nothing is read. The platform of a stack trace is the same after writing the stack trace to JSON and reading it back.", "quantifier": "all names, versions, platforms, texts and locations", "why_tests_cant": "names, platforms and texts are unbounded", "anchors": ["lib/js_platform.c:sr_js_platform_from_string", "lib/js_platform.c:sr_js_platform_parse_frame", "lib/js_platform.c:sr_js_platform_parse_stacktrace", "include/js/platform.h:sr_js_platform_engine", "include/js/platform.h:sr_js_platform_runtime"]}
{"id": "C117", "title": "The program satyr tells by its status whether it succeeded", "statement": "The status of the program is 0 or 1. With status 1 there is a message on standard error (except without arguments); with status 0 there is none (except for abrt-report-dir). abrt-print-report-from-dir prints the JSON text of the report of the directory exactly if the directory describes a report; otherwise it fails with a message. Unknown commands fail, and the help tells exactly of the others. The behaviour is always defined.", "quantifier": "all lists of arguments, all files and problem directories", "why_tests_cant": "argument lists and directories are unbounded, and a failure without message is met only for unusual directories", "anchors": ["satyr.c:main", "satyr.c:abrt_print_report_from_dir", "satyr.c:debug", "lib/abrt.c:sr_abrt_print_report_from_dir"]}
{"id": "C118", "title": "satyr debug normalize prints the normalized thread of a file", "statement": "satyr debug normalize prints the function names of the frames that remain after the normalization of the thread whose frames are described by the lines of the file, each with a function, a library and a source file.", "quantifier": "all files of such lines", "why_tests_cant": "any number of lines, any names", "anchors": ["satyr.c:debug_normalize"]}
{"id": "C119", "title": "The debugging commands work on what their arguments say", "statement": "satyr debug duphash prints the text made of the component and the first three frames of the normalized crash thread of the stack trace in the file, and the hash of this text; it fails and prints nothing if there is no such thread. satyr debug unwind-from-hook unwinds the thread with the given number and signal, and refuses arguments that are no numbers.", "quantifier": "all arguments, all files", "why_tests_cant": "arguments and files are unbounded", "anchors": ["satyr.c:debug_duphash", "satyr.c:debug_unwind_from_hook"]}
{"id": "C120", "title": "The stack trace of a crash goes from the core dump through the problem directory into the report", "statement": "Creating the core stack trace of a problem directory succeeds exactly if the executable is known, the core dump has a stack trace (or can be opened and the output of gdb can be read), and the file can be written. Then only the file of the stack trace is changed, and the report read from the directory has the threads of the core dump (or of gdb) in their order, each with the oldest 256 frames. A failure sets an error message and changes at most that file.", "quantifier": "all problem directories, core dumps, outputs of gdb and failures of writing", "why_tests_cant": "directories, core dumps and failures of the file system are unbounded; the result is only seen by a later reader", "anchors": ["lib/abrt.c:sr_abrt_create_core_stacktrace", "lib/abrt.c:sr_abrt_create_core_stacktrace_from_gdb", "lib/abrt.c:create_core_stacktrace", "lib/utils.c:sr_string_to_file", "lib/core_unwind.c:sr_core_stacktrace_from_gdb"]}
{"id": "C121", "title": "A Python Report writes what its attributes say", "statement": "Report.to_json() writes the report that the attributes of the object say at that time: the packages of the Python list in their order, the operating system, the stack trace, and the other attributes; calling it changes no reference counts and nothing that is seen from Python. If an attribute has a value of a wrong type (no list, a list with other objects, another operating system, a stack trace of another kind than the type of the report) an exception is raised and nothing is written. A Report made for a report writes that report. report_type can be set exactly to the names of types other than invalid and then has that name; auth has each key once, with its value.", "quantifier": "all Report objects, lists of packages, values of the attributes, types and authentication entries", "why_tests_cant": "the attributes are arbitrary Python objects changed in any order before the call; the C structures are only linked when the report is written", "anchors": ["python/py_report.c:sr_py_report_to_json", "python/py_report.c:report_prepare_subobjects", "python/py_report.c:rpms_prepare_linked_list", "python/py_report.c:report_to_python_obj", "python/py_report.c:sr_py_report_set_type", "python/py_report.c:sr_py_report_get_auth"]}
{"id": "C122", "title": "Different crashes are not taken for duplicates by their hashed text", "statement": "Two threads of the same kind have the same text in sr_thread_get_duphash exactly if the frames that count for the limit agree in what identifies a frame: function name, type and signal handler for gdb; build id (or fingerprint) and offset, or name, or address for core dumps; name or address for kernel oopses; name, or class path, file and line for Java; file and line for Python, Ruby and JavaScript.", "quantifier": "all pairs of threads, limits and prefixes", "why_tests_cant": "injectivity is about all pairs of threads; a missing separator or field makes crashes collide that no test compares", "anchors": ["lib/generic_thread.c:sr_thread_get_duphash", "lib/gdb_frame.c:gdb_append_duphash_text", "lib/core_frame.c:core_append_duphash_text", "lib/koops_frame.c:koops_append_duphash_text", "lib/java_frame.c:java_append_duphash_text", "lib/python_frame.c:python_append_duphash_text"]}
{"id": "C123", "title": "What is read from any JSON document", "statement": "For every JSON document, reading a stack trace, a list of packages, an operating system or a whole report succeeds exactly if the document is of the described form, and then every value is the described one: of several members with the same name the last counts, missing members have their defaults, numbers are saturated to the signed range and then reduced to the width of the field, unknown members mean nothing, the last thread that is marked is the crash thread, exactly the taint flags that are named are set, a desktop or variant that is no string is ignored, the user is looked up beside the problem, a stack trace that cannot be read leaves the report without one. The modules of a kernel oops are read if they are strings and at most 127.", "quantifier": "all JSON values", "why_tests_cant": "a document is any tree from any sender; tests read a few files that were written by the library itself", "anchors": ["lib/json_utils.c", "lib/core_stacktrace.c:sr_core_stacktrace_from_json", "lib/python_stacktrace.c:sr_python_stacktrace_from_json", "lib/ruby_stacktrace.c:sr_ruby_stacktrace_from_json", "lib/java_stacktrace.c:sr_java_stacktrace_from_json", "lib/js_stacktrace.c:sr_js_stacktrace_from_json", "lib/koops_stacktrace.c:sr_koops_stacktrace_from_json", "lib/rpm.c:sr_rpm_package_from_json", "lib/operating_system.c:sr_operating_system_from_json", "lib/report.c:sr_report_from_json"]}
{"id": "C124", "title": "Reading a core dump releases everything on every path", "statement": "Whatever the ELF library, the unwinding library and the kernel answer, making a stack trace of a core dump or of a stopped process never releases anything twice or while it is in use, and when it returns every file descriptor, library handle and piece of memory it acquired is released; if any step fails the error message is the one of the first failing step, and otherwise there is a stack trace and no message. A process is accepted exactly if it is stopped by the event that it is about to exit.", "quantifier": "all outcomes of all external calls, all lists of modules and threads, all states of open descriptors", "why_tests_cant": "the failures of the libraries and the kernel at each step cannot be provoked one by one in a test, and leaks are not visible in results", "anchors": ["lib/core_unwind.c:open_coredump", "lib/core_unwind.c:core_handle_free", "lib/core_unwind.c:touch_module", "lib/core_unwind_elfutils.c:sr_parse_coredump", "lib/core_unwind_elfutils.c:sr_core_stacktrace_from_core_hook_prepare", "lib/core_unwind_elfutils.c:sr_core_stacktrace_unwind_state_free"]}
{"id": "C125", "title": "Methods of the Python class GdbStacktrace show what the library computes and use memory correctly", "statement": "After any sequence of limit_frame_depth, set_libnames, normalize, to_short_text and find_crash_frame on a stack trace object, its lists of threads and frames show exactly what these operations make of the stack trace, all frames in the lists are alive, and no call reads freed memory or frees memory twice. A copy shows the same threads with new objects and leaves the original as it is. find_address returns the first library whose range has the address.", "quantifier": "all stack traces, all sequences of calls with all arguments, all object graphs that Python code can make", "why_tests_cant": "reference counts and freed memory are not visible in results, and the objects are shared between Python code and the library in unboundedly many ways", "anchors": ["python/py_gdb_stacktrace.c:sr_py_gdb_stacktrace_limit_frame_depth", "python/py_gdb_stacktrace.c:sr_py_gdb_stacktrace_set_libnames", "python/py_gdb_stacktrace.c:sr_py_gdb_stacktrace_normalize", "python/py_gdb_stacktrace.c:sr_py_gdb_stacktrace_to_short_text", "python/py_gdb_stacktrace.c:sr_py_gdb_stacktrace_find_crash_frame", "python/py_gdb_stacktrace.c:sr_py_gdb_stacktrace_find_address", "python/py_gdb_stacktrace.c:sr_py_gdb_stacktrace_dup", "python/py_gdb_stacktrace.c:stacktrace_rebuild_thread_python_list", "python/py_base_thread.c:frames_prepare_linked_list"]}
{"id": "C126", "title": "Frames, threads and stack traces in Python compare, measure and hash as what their lists show", "statement": "For every frame, thread or stack trace object in Python, whatever was put into its list of frames: equals is true exactly if the two objects have the same type and the same content, distance is the distance between the two threads that the lists show and equals the entry of a Distances object made from them, get_duphash, get_bthash and to_short_text are those of what the lists show, from_json shows exactly what the library reads, and bad arguments give a Python exception.", "quantifier": "all types of frames and threads, all contents of the Python lists, all arguments, all distance types, all flags and all JSON texts", "why_tests_cant": "the lists can hold any objects in any order and the methods must agree with the library for all of them", "anchors": ["python/py_base_frame.c:sr_py_base_frame_cmp", "python/py_base_frame.c:sr_py_base_frame_equals", "python/py_base_frame.c:sr_py_base_frame_short_string", "python/py_base_thread.c:sr_py_base_thread_cmp", "python/py_base_thread.c:sr_py_base_thread_equals", "python/py_base_thread.c:sr_py_base_thread_distance", "python/py_base_thread.c:sr_py_base_thread_get_duphash", "python/py_base_thread.c:frames_prepare_linked_list", "python/py_base_stacktrace.c:sr_py_single_stacktrace_get_bthash", "python/py_base_stacktrace.c:sr_py_single_stacktrace_to_short_text", "python/py_base_stacktrace.c:sr_py_single_stacktrace_from_json"]}
{"id": "C127", "title": "A frame printed in Python can be read again", "statement": "For Ruby, JavaScript, Java, Python and kernel oops frames in Python: if a frame was made from a text, str(frame) is a text from which the constructor of the class makes an equal frame; a text that cannot be read gives ValueError.", "quantifier": "all texts and all frames of the five classes", "why_tests_cant": "file and function names are arbitrary, and whether they are taken for punctuation of the format depends on all of their characters", "anchors": ["python/py_ruby_frame.c:sr_py_ruby_frame_str", "python/py_ruby_frame.c:sr_py_ruby_frame_new", "python/py_js_frame.c:sr_py_js_frame_str", "python/py_js_frame.c:sr_py_js_frame_new", "python/py_java_frame.c:sr_py_java_frame_str", "python/py_java_frame.c:sr_py_java_frame_new", "python/py_python_frame.c:sr_py_python_frame_str", "python/py_python_frame.c:sr_py_python_frame_new", "python/py_koops_frame.c:sr_py_koops_frame_str", "python/py_koops_frame.c:sr_py_koops_frame_new"]}
{"id": "C128", "title": "Packages found in the rpm database are returned with their attributes", "statement": "Searching the rpm database by name or path returns exactly the packages found, in their order, with name, epoch, version, release, architecture and installation time; a failure is reported by a message, and no memory other than the returned packages stays allocated.", "quantifier": "all databases (sequences of headers with any attributes present, missing or of another type), with and without configuration", "why_tests_cant": "the installed packages of the machine decide which branches run; a test cannot install every combination of headers", "anchors": ["lib/rpm.c:sr_rpm_package_get_by_name", "lib/rpm.c:sr_rpm_package_get_by_path", "lib/rpm.c:header_to_rpm_info", "lib/rpm.c:header_get_string", "lib/rpm.c:header_get_uint32"]}
{"id": "C129", "title": "Packages, operating systems and shared libraries in Python are what they were made from", "statement": "RpmPackage(name, epoch, version, release, architecture) and OperatingSystem(name, version, architecture) succeed exactly if there are not too many arguments and each is of its type, and the object has then just these attributes and defaults for the others. str() of a package is a text that the library reads again as the same package; objects with different attributes have different texts. The role of a package and the symbols of a shared library can be set to the defined constants only, and setting them changes nothing else.", "quantifier": "all argument lists, all assigned values, all packages, operating systems and shared libraries", "why_tests_cant": "the arguments are arbitrary values, and whether a text can be taken apart depends on all characters of all its parts", "anchors": ["python/py_rpm_package.c:sr_py_rpm_package_new", "python/py_rpm_package.c:sr_py_rpm_package_str", "python/py_rpm_package.c:sr_py_rpm_package_set_role", "python/py_operating_system.c:sr_py_operating_system_new", "python/py_operating_system.c:sr_py_operating_system_str", "python/py_gdb_sharedlib.c:sr_py_gdb_sharedlib_str", "python/py_gdb_sharedlib.c:sr_py_gdb_sharedlib_set_symbols"]}
{"id": "C130", "title": "A kernel oops in Python shows what its text says and what is left by normalization", "statement": "Kerneloops(text) succeeds for every text. The object has the text as raw_oops, the modules and frames of the text, and a dictionary taint_flags with sixteen keys of which each is True exactly if its letter stands after 'Tainted:'. normalize() removes exactly the frames of uninteresting functions that belong to no module, cuts the other names at the first dot, changes nothing else, and changes nothing if called again; dup() gives an object that shows the same. A list with something else than frames gives TypeError. str() tells the number of frames in the list.", "quantifier": "all texts, all objects and all lists of frames assigned to them", "why_tests_cant": "texts and lists are unbounded, and C data and the Python list can differ after any history of assignments", "anchors": ["python/py_koops_stacktrace.c:sr_py_koops_stacktrace_new", "python/py_koops_stacktrace.c:sr_py_koops_stacktrace_get_modules", "python/py_koops_stacktrace.c:sr_py_koops_stacktrace_get_taint_flags", "python/py_koops_stacktrace.c:sr_py_koops_stacktrace_normalize", "python/py_koops_stacktrace.c:sr_py_koops_stacktrace_dup", "python/py_koops_stacktrace.c:sr_py_koops_stacktrace_str", "python/py_base_thread.c:frames_prepare_linked_list"]}
{"id": "C131", "title": "A core stack trace in Python behaves as the threads in its lists say", "statement": "CoreStacktrace(text) succeeds exactly if the library reads the text, and shows what was read; made from what the library wrote, it shows the stack trace that was written. Whatever was assigned to the attributes, the list of threads and the lists of frames, to_short_text(), get_bthash() and crash_thread give what the library gives for the stack trace shown by these lists, crash_thread being the object in the list. dup() gives an object that shows the same and does not depend on the threads of the original. Something else than a thread or frame in a list gives TypeError.", "quantifier": "all arguments, all objects in all states of memory, all lists of threads and frames", "why_tests_cant": "lists are unbounded, and C memory and the Python lists can differ after any history of assignments", "anchors": ["python/py_core_stacktrace.c:sr_py_core_stacktrace_new", "python/py_core_stacktrace.c:sr_py_core_stacktrace_dup", "python/py_core_stacktrace.c:sr_py_core_stacktrace_str", "python/py_base_stacktrace.c:threads_prepare_linked_list", "python/py_base_stacktrace.c:sr_py_multi_stacktrace_to_short_text", "python/py_base_stacktrace.c:sr_py_multi_stacktrace_get_bthash", "python/py_base_stacktrace.c:sr_py_multi_stacktrace_get_crash", "lib/core_stacktrace.c:sr_core_stacktrace_dup"]}
{"id": "C132", "title": "GDB, Java and core threads in Python behave as their lists of frames say", "statement": "GdbThread(text), GdbThread(text, True) and JavaThread(text) succeed exactly if the arguments are proper and the library reads the text, and show what was read; CoreThread() is a thread without frames. Whatever was assigned to the list of frames, quality_counts() and quality() count the resolved frames in the list, dup() gives a thread that shows the same and does not depend on the original, and str() tells the number of frames in the list. format_funs() gives a line for each named frame in the list, and GdbThread(t.format_funs(), True) has these frames again. Something else than a frame in the list gives TypeError.", "quantifier": "all arguments, all thread objects in all states of memory, all lists of frames", "why_tests_cant": "texts and lists are unbounded, and the linked C list and the Python list can differ after any history of assignments", "anchors": ["python/py_gdb_thread.c:sr_py_gdb_thread_new", "python/py_gdb_thread.c:sr_py_gdb_thread_dup", "python/py_gdb_thread.c:sr_py_gdb_thread_quality_counts", "python/py_gdb_thread.c:sr_py_gdb_thread_quality", "python/py_gdb_thread.c:sr_py_gdb_thread_format_funs", "python/py_java_thread.c:sr_py_java_thread_new", "python/py_java_thread.c:sr_py_java_thread_dup", "python/py_java_thread.c:sr_py_java_thread_quality", "python/py_java_thread.c:sr_py_java_thread_format_funs", "lib/java_thread.c:sr_java_thread_format_funs", "python/py_base_thread.c:frames_prepare_linked_list"]}
{"id": "C133", "title": "GDB and core frames in Python show what they have and tell which function is called", "statement": "GdbFrame() is the empty frame; GdbFrame(text) has number, address, function and place that stand in the text where GDB prints them, a frame as GDB prints it is read, and another text gives ValueError. str() of a GDB frame tells its number, function, address and library, and str() of a core frame tells all that is shown, so that different frames are shown differently. calls_func_in_file(name, file) is 1 exactly if the frame has this name and the source file has this text in it, and calls_func(name) is 1 exactly if the frame has this name.", "quantifier": "all arguments, all GDB and core frames", "why_tests_cant": "names, addresses and texts are unbounded, and different frames could be shown alike in any combination of parts", "anchors": ["python/py_gdb_frame.c:sr_py_gdb_frame_new", "python/py_gdb_frame.c:sr_py_gdb_frame_str", "python/py_gdb_frame.c:sr_py_gdb_frame_calls_func", "python/py_gdb_frame.c:sr_py_gdb_frame_calls_func_in_file", "python/py_core_frame.c:sr_py_core_frame_new", "python/py_core_frame.c:sr_py_core_frame_str", "lib/gdb_frame.c:sr_gdb_frame_calls_func"]}
{"id": "C134", "title": "Python, Ruby and JavaScript stack traces in Python show what was read and give short texts of their frames", "statement": "PythonStacktrace(text), RubyStacktrace(text) and JSStacktrace(text) succeed exactly if the library reads the text, and show what was read; without text they are empty, another text gives ValueError. The texts that are taken are those of the grammars of Python and Ruby backtraces. Whatever was assigned to the list of frames, to_short_text(n) is a numbered line for each of the first n frames in the list (all for 0), dup() gives a stack trace that shows the same and does not depend on the original, and str() tells the number of frames in the list. From a backtrace as Ruby or V8 prints it one gets the short text with its places. Something else than a frame in the list gives TypeError, and the call never fails otherwise.", "quantifier": "all arguments, all stack trace objects in all states of memory, all lists of frames", "why_tests_cant": "texts and lists are unbounded, and the linked C list and the Python list can differ after any history of assignments", "anchors": ["python/py_python_stacktrace.c:sr_py_python_stacktrace_new", "python/py_python_stacktrace.c:sr_py_python_stacktrace_dup", "python/py_python_stacktrace.c:sr_py_python_stacktrace_str", "python/py_ruby_stacktrace.c:sr_py_ruby_stacktrace_new", "python/py_ruby_stacktrace.c:sr_py_ruby_stacktrace_dup", "python/py_js_stacktrace.c:sr_py_js_stacktrace_new", "python/py_js_stacktrace.c:sr_py_js_stacktrace_dup", "python/py_base_stacktrace.c:sr_py_single_stacktrace_to_short_text"]}
{"id": "C135", "title": "What identifies a crash survives JSON", "statement": "A stack trace that is written as JSON and read again identifies the same crash: every thread, and the crash thread, has the same hash for duplicates with any limit, prefix and flags, the whole stack trace has the same hash, the short text and the reason are the same, the same thread is found as the crash thread, and the distance to any other stack trace that went through JSON is the same in every metric.", "quantifier": "all stack traces of all types, all limits, prefixes, flags and metrics", "why_tests_cant": "the numbers, names and lists are unbounded, and JSON changes large numbers, unknown numbers and the mark of the crash thread depending on other members", "anchors": ["lib/generic_stacktrace.c:sr_stacktrace_from_json_text", "lib/generic_stacktrace.c:sr_stacktrace_to_json", "lib/generic_thread.c:sr_thread_get_duphash", "lib/generic_stacktrace.c:sr_stacktrace_get_bthash", "lib/core_stacktrace.c:sr_core_stacktrace_find_crash_thread", "lib/distance.c:sr_distance", "lib/koops_stacktrace.c:sr_koops_stacktrace_to_json"]}
{"id": "C136", "title": "The error message names the line where reading stopped", "statement": "When a text is rejected as a Ruby, Python, Java or gdb stack trace, the error message that sr_stacktrace_parse returns names the line (and a column of it) of the place in the text where reading stopped, whatever was read before it; a text gets an error message exactly if it is not read.", "quantifier": "for every text without NUL characters, of any number of lines, records, threads and chained exceptions, and every place in it where reading can stop", "why_tests_cant": "The line is counted by hand in every function of the readers, and each record that is read before the error moves it; tests look at the message of a few texts at most, and mostly only that there is one.", "anchors": ["lib/generic_stacktrace.c:stacktrace_parse_wrapper", "lib/location.c:sr_location_to_string", "lib/ruby_stacktrace.c:sr_ruby_stacktrace_parse", "lib/ruby_frame.c:sr_ruby_frame_parse", "lib/python_stacktrace.c:sr_python_stacktrace_parse", "lib/python_frame.c:sr_python_frame_parse", "lib/java_thread.c:sr_java_thread_parse", "lib/java_frame.c:sr_java_frame_parse_exception", "lib/gdb_stacktrace.c:sr_gdb_stacktrace_parse", "lib/gdb_stacktrace.c:sr_gdb_stacktrace_parse_header", "lib/gdb_thread.c:sr_gdb_thread_parse", "lib/gdb_frame.c:sr_gdb_frame_parse", "lib/gdb_frame.c:sr_gdb_frame_parse_header"]}
{"id": "C137", "title": "No path that is read names the user in whose home directory it is", "statement": "In every stack trace read from a JavaScript, Ruby, Python, Java or gdb text, and in every core stack trace, no file name (and no class file of Java) of a frame is a path /home/<user>/... with another user than 'anonymized'; and texts of the same calls of two users, which differ only in the user name in such paths and in the message, give the same stack trace, while different files stay different.", "quantifier": "for every text without NUL characters that is read, every number of frames and chained exceptions, every pair of user names", "why_tests_cant": "Each reader has its own place where the name is replaced, on every branch that yields a file name; a test looks at one path, not at every branch for every text, and privacy is a claim about all texts.", "anchors": ["lib/utils.c:anonymize_path", "lib/js_frame.c:sr_js_frame_parse", "lib/ruby_frame.c:sr_ruby_frame_parse", "lib/python_frame.c:sr_python_frame_parse", "lib/java_frame.c:sr_java_frame_parse", "lib/java_frame.c:sr_java_frame_parse_frame_url", "lib/normalize.c:sr_normalize_core_thread", "lib/gdb_frame.c:sr_gdb_frame_parse"]}
{"id": "C138", "title": "Clusters do not depend on the order in which the objects are given", "statement": "If the same objects with the same pairwise distances are given in another order, clustering gives the same dendrogram under the new names of the objects, perhaps read from its other end; and cutting it at any level with any minimum size gives the same clusters. This is claimed for complete matrices in which no two pairs of objects have the same distance and at no step are two pairs of clusters equally near; with exact arithmetic it is enough that no two pairs of disjoint groups have the same mean distance. It holds with float arithmetic in every rounding mode.", "quantifier": "all complete matrices of distances without ties, all permutations of the objects, all levels and minimum sizes, all roundings", "why_tests_cant": "the search, the array of clusters and the reversals all work with the numbers of objects; there are n! orders of n objects, and a bug may show only for certain arrangements", "anchors": ["lib/cluster.c:sr_distances_cluster_objects", "lib/cluster.c:sr_dendrogram_cut", "include/cluster.h:struct sr_dendrogram"]}
{"id": "C139", "title": "Threads near the same thread are near each other", "statement": "For any three threads t, u, v the distance between t and v is not more than the distance between t and u plus that between u and v, and threads with distance 0 from each other have the same distance to every thread. For the Jaccard distance this holds as it stands. For the Levenshtein distance it holds if u is not longer than both t and v, and otherwise up to the factor 3/2, which is the least possible; for the Damerau-Levenshtein distance up to the factor 5/2. In float arithmetic the error is at most 9/2^24 for threads of up to 2^23 frames (Jaccard) and 6/2^24 for threads of up to 2^24 frames. This is claimed for frames about which enough is known (the function of a core frame, function and library of a GDB frame).", "quantifier": "all triples of threads, of whatever types and lengths", "why_tests_cant": "an inequality over all triples of threads; clustering and search for near crashes rely on it, and the normalised edit distances break it only for certain lengths", "anchors": ["lib/distance.c:sr_distance", "lib/distance.c:distance_jaccard", "lib/distance.c:distance_levenshtein", "lib/generic_frame.c:sr_frame_cmp_distance"]}
{"id": "C140", "title": "A Java stack trace in Python behaves as the threads in its lists say", "statement": "JavaStacktrace(text) and JavaStacktrace.from_json(text) succeed exactly if the library reads the text, show what was read, and give ValueError otherwise; from_json of what the library wrote shows the stack trace that was written. Whatever was assigned to the list of threads and the lists of frames, to_short_text() and get_bthash() give what the library gives for the stack trace shown by these lists, and crash_thread is the first object in the list. dup() gives an object that shows the same; neither it nor the original depends on the threads of the other. Destroying an object changes nothing for others. Something else than a thread or frame in a list gives TypeError. CoreStacktrace.from_json(text) shows what the library reads, and GdbStacktrace.from_json(text) always gives ValueError.", "quantifier": "all arguments, all objects in all states of memory, all lists of threads and frames", "why_tests_cant": "texts and lists are unbounded, and C memory and the Python lists can differ after any history of assignments", "anchors": ["python/py_java_stacktrace.c:sr_py_java_stacktrace_new", "python/py_java_stacktrace.c:sr_py_java_stacktrace_dup", "python/py_java_stacktrace.c:sr_py_java_stacktrace_free", "python/py_java_stacktrace.c:sr_py_java_stacktrace_str", "python/py_base_stacktrace.c:sr_py_multi_stacktrace_from_json", "python/py_base_stacktrace.c:threads_prepare_linked_list", "python/py_base_stacktrace.c:sr_py_multi_stacktrace_get_crash"]}
{"id": "C141", "title": "A stack trace that was cut off is read as the beginning of the whole one", "statement": "When the text of a stack trace is cut off after one of its lines, as happens when a log is rotated or a buffer is full, the frames that are read from the beginning are the first frames that are read from the whole text, in the same order and with the same contents. For kernel oopses this holds for every text that ends with a line, unless the line ends within the brackets of a timestamp or before the address in a line with an instruction pointer, except that an instruction pointer which stands in the missing part comes before the frames. For JavaScript the beginning is read whenever the whole is read. For Ruby it holds whenever both are read, and the class of the exception is the same if there is more than one frame.", "quantifier": "all texts and all places at which they can be cut off", "why_tests_cant": "a relation between two runs of a parser on texts of any length, one of which goes on where the other ends", "anchors": ["lib/koops_stacktrace.c:sr_koops_stacktrace_parse", "lib/koops_stacktrace.c:sr_koops_stacktrace_parse_modules", "lib/koops_frame.c:sr_koops_frame_parse", "lib/js_stacktrace.c:sr_js_stacktrace_parse", "lib/ruby_stacktrace.c:sr_ruby_stacktrace_parse", "lib/java_thread.c:sr_java_thread_parse", "lib/python_stacktrace.c:sr_python_stacktrace_parse"]}
{"id": "C142", "title": "What identifies a crash does not depend on where the program was loaded", "statement": "If a program or a library is loaded at other addresses and the program crashes at the same places, the crash is identified as the same: the core dumps are read alike, with frames that differ only in their addresses, and for stack traces that differ only in addresses all threads, and the crash thread, have the same hash for duplicates with any limit, prefix and flags, the same thread is found as the crash thread, the reason and the short text are the same, the distances to other stack traces, loaded anywhere, are the same in every metric, and the hash of the whole stack trace is the same.", "quantifier": "all pairs of core dumps at the same places of modules loaded anywhere; all pairs of stack traces of all types that are equal apart from addresses; all limits, prefixes, flags and metrics", "why_tests_cant": "addresses, modules and frames are unbounded, address space layout randomization makes each run different, and a hash that depends on an address is only noticed if the tests compare runs with different layouts", "anchors": ["lib/core_unwind.c:resolve_frame", "lib/core_unwind_elfutils.c:sr_parse_coredump", "lib/generic_thread.c:sr_thread_get_duphash", "lib/core_frame.c:core_append_duphash_text", "lib/koops_frame.c:koops_append_duphash_text", "lib/normalize.c:sr_normalize_core_thread", "lib/normalize.c:sr_normalize_gdb_thread", "lib/distance.c:sr_distance", "lib/generic_stacktrace.c:sr_stacktrace_get_bthash"]}
{"id": "C143", "title": "Identical crashes always fall into one cluster", "statement": "When stack traces are clustered by any metric, two of them whose distance is 0 are in the same cluster at whatever level (of at least 0) the dendrogram is cut, however many other stack traces there are and in whatever order they are given; and when it is cut at level 0, the clusters are exactly the groups of stack traces with distance 0 from each other.", "quantifier": "all numbers of stack traces, all threads of every type, all complete distance matrices, all metrics, all cut levels and minimal sizes, exact and float arithmetic with every rounding mode", "why_tests_cant": "the clusters arise from a sequence of merges whose distances are averages of averages; a test with a few stack traces cannot show that no sequence of merges and reversals ever separates two identical ones, or that rounding never makes an average of positive distances 0", "anchors": ["lib/cluster.c: sr_distances_cluster_objects, sr_dendrogram_cut", "lib/distance.c: sr_distance, sr_threads_compare"]}
{"id": "C144", "title": "Reading a JSON document leaks no memory", "statement": "When a stack trace, a thread, a frame or a list of packages is read from a JSON document, the result is a structure with the contents of the document in newly allocated memory and all other memory is as before, whatever is in use elsewhere; if anything in the document cannot be read, however deep inside, the result is NULL, everything allocated on the way has been freed exactly once, and only the error message is left (nothing if the caller does not want one). Freeing the result afterwards gives back exactly the memory that reading it has used.", "quantifier": "all JSON values, all contents of memory and all allocators (including ones that run out of memory at any point), with and without a place for the message", "why_tests_cant": "there are infinitely many ways in which a document can be wrong, each one leaving the function at a different point with different memory to be freed", "anchors": ["lib/core_stacktrace.c: sr_core_stacktrace_from_json", "lib/core_thread.c: sr_core_thread_from_json", "lib/core_frame.c: sr_core_frame_from_json", "lib/java_stacktrace.c: sr_java_stacktrace_from_json", "lib/java_thread.c: sr_java_thread_from_json", "lib/koops_stacktrace.c: sr_koops_stacktrace_from_json", "lib/python_stacktrace.c: sr_python_stacktrace_from_json", "lib/ruby_stacktrace.c: sr_ruby_stacktrace_from_json", "lib/js_stacktrace.c: sr_js_stacktrace_from_json", "lib/js_platform.c: sr_js_platform_from_json", "lib/rpm.c: sr_rpm_package_from_json", "lib/json_utils.c: json_check_type"]}
{"id": "C145", "title": "Reading a report from JSON leaks no memory", "statement": "When a report or an operating system is read from a JSON document, the result is a structure with exactly the contents of the document (operating system, packages, stack trace with its crash thread, authentication entries) in newly allocated memory, and all other memory is as before; if the document cannot be read, the result is NULL, everything allocated on the way has been freed exactly once, and only one error message is left. A message is given exactly if the result is NULL. Freeing the result gives back exactly the memory that reading it has used.", "quantifier": "all JSON values, all contents of memory and all allocators (including ones that run out of memory at any point), with and without a place for the message", "why_tests_cant": "a report contains every other structure, so the ways in which a document can be wrong, and the memory to be freed at each of them, are unbounded; leaks do not change any result", "anchors": ["lib/report.c: sr_report_from_json", "lib/report.c: sr_report_add_auth", "lib/report.c: sr_report_free", "lib/operating_system.c: sr_operating_system_from_json", "lib/operating_system.c: sr_operating_system_free", "lib/json_utils.c: json_check_type"]}
{"id": "C146", "title": "A JSON document is refused exactly if something in it is wrong, and the message says what", "statement": "When a frame, thread, stack trace or package is read from a JSON document, the result is NULL exactly if something in the document is wrong: it is not an object, a member that is there has the wrong type, an element of a list is wrong, the role of a package or the engine or runtime of a platform is not known. The message is about something in the document that is wrong: it names the member and the expected type, or the unknown value. If nothing is wrong there is a result, and no message is given.", "quantifier": "all JSON values, for all kinds of frames, threads and stack traces with a JSON form, packages and lists of packages; all contents of memory and all allocators", "why_tests_cant": "each of the over eighty members of the documents can be missing, right or wrong at every position of every list, in any combination; tests show single wrong documents", "anchors": ["lib/json_utils.c: json_check_type", "lib/json_utils.c: json_read_uint64", "lib/json_utils.c: json_read_string", "lib/json_utils.c: json_read_bool", "lib/core_stacktrace.c: sr_core_stacktrace_from_json", "lib/koops_stacktrace.c: sr_koops_stacktrace_from_json", "lib/java_stacktrace.c: sr_java_stacktrace_from_json", "lib/js_stacktrace.c: sr_js_stacktrace_from_json", "lib/js_platform.c: sr_js_platform_from_json", "lib/python_stacktrace.c: sr_python_stacktrace_from_json", "lib/ruby_stacktrace.c: sr_ruby_stacktrace_from_json", "lib/rpm.c: sr_rpm_package_from_json"]}
{"id": "C147", "title": "Reading a stack trace from text loses no memory", "statement": "When a Python, Ruby or JavaScript stack trace is read from text, then at the end either the program has aborted for lack of memory, or the result is a stack trace that has all memory that was added, and is the stack trace that the text says; or the result is NULL and no memory was added except for the message in the location. All other memory is as before. Nothing is read or written that is not in use, and nothing is freed twice.", "quantifier": "all texts, all contents of memory and all allocators", "why_tests_cant": "every text can stop or go wrong at every character, in every frame, with texts in memory that were cut, moved or replaced before; tests compare the results and do not look at memory, and a lost message shows nowhere", "anchors": ["lib/python_stacktrace.c: sr_python_stacktrace_parse", "lib/python_frame.c: sr_python_frame_parse", "lib/ruby_stacktrace.c: sr_ruby_stacktrace_parse", "lib/ruby_frame.c: sr_ruby_frame_parse", "lib/js_stacktrace.c: sr_js_stacktrace_parse", "lib/js_stacktrace.c: sr_js_stacktrace_parse_v8", "lib/js_frame.c: sr_js_frame_parse_v8", "lib/utils.c: anonymize_path"]}
{"id": "C148", "title": "Reading a kernel oops from text loses no memory", "statement": "When a kernel oops is read from text, then at the end either the program has aborted for lack of memory, or the result is a stack trace that has all memory that was added, and is the stack trace that the text says. All other memory is as before. Nothing is read or written that is not in use, and nothing is freed twice.", "quantifier": "all texts, all contents of memory and all allocators", "why_tests_cant": "every line is tried as several kinds of frame one after the other, and each attempt may stop anywhere with texts in memory that have to be freed; names of modules and labels of stacks are cut and joined over lines; tests compare the results and do not look at memory", "anchors": ["lib/koops_stacktrace.c: sr_koops_stacktrace_parse", "lib/koops_stacktrace.c: sr_koops_stacktrace_parse_modules", "lib/koops_stacktrace.c: parse_alt_stack_start", "lib/koops_frame.c: sr_koops_frame_parse", "lib/koops_frame.c: sr_koops_parse_module_name", "lib/koops_frame.c: sr_koops_parse_function"]}
{"id": "C149", "title": "Reading a Java stack trace from text loses no memory", "statement": "When a Java stack trace is read from text, then at the end either the program has aborted for lack of memory, or the result is a stack trace that has all memory that was added, is the stack trace that the text says, and gives back all of this memory when it is freed; or the text cannot be read, there is a message, and memory is as before. Nothing is read or written that is not in use, and nothing is freed twice.", "quantifier": "all texts, all contents of memory and all allocators", "why_tests_cant": "exceptions are nested in exceptions that they caused, to any depth, and the reader may fail in any frame of any of them with all others in memory; tests compare the results and do not look at memory", "anchors": ["lib/java_stacktrace.c: sr_java_stacktrace_parse", "lib/java_thread.c: sr_java_thread_parse", "lib/java_frame.c: sr_java_frame_parse_exception", "lib/java_frame.c: sr_java_frame_parse", "lib/java_frame.c: sr_java_frame_parse_frame_url"]}
{"id": "C150", "title": "Reading a gdb stack trace from text loses no memory", "statement": "When a frame, a thread or a whole stack trace printed by gdb is read from text without leaving the text, then at the end either the program has aborted for lack of memory, or the result is the frame, thread or stack trace that the text says, has all memory that was added, and gives back all of this memory when it is freed; or the text cannot be read, and memory is as before. Nothing is read or written that is not in use, nothing is freed twice, and no growing text that does not exist is freed.", "quantifier": "all texts that the reader does not leave (among them all texts that end with a line break and whose list of shared libraries can be read), all contents of memory and all allocators", "why_tests_cant": "names of functions are put together from parts that are nested in brackets to any depth, and the reader may fail in any part of any name, argument list or location with the texts of the other parts in memory; tests compare the results and do not look at memory", "anchors": ["lib/gdb_frame.c: sr_gdb_frame_parse", "lib/gdb_frame.c: sr_gdb_frame_parse_header", "lib/gdb_frame.c: sr_gdb_frame_parse_function_name", "lib/gdb_frame.c: sr_gdb_frame_parse_function_call", "lib/gdb_frame.c: sr_gdb_frame_parse_file_location", "lib/gdb_thread.c: sr_gdb_thread_parse", "lib/gdb_stacktrace.c: sr_gdb_stacktrace_parse", "lib/gdb_stacktrace.c: sr_gdb_stacktrace_parse_header", "lib/gdb_sharedlib.c: sr_gdb_sharedlib_parse"]}
{"id": "C151", "title": "Reading, sorting and merging lists of packages loses no memory", "statement": "When the packages of a list of shared libraries are read from text, the memory added is the list of packages that the text says and nothing else. When a list of packages in memory is sorted, the result is the sorted list of the same packages in the same memory, and all other memory is as before. When equal neighbours of a list are merged, the result is the list of the merged packages, the packages that were merged are freed, and all other memory is as before. A list that is read, sorted, merged and freed leaves memory as it was. Nothing is read or written that is not in use, and nothing is freed twice.", "quantifier": "all texts, all lists of packages with their consistency records, all contents of memory, all allocators and all functions that do what the C standard says of qsort", "why_tests_cant": "the links of the list are rewritten in place, for any order of the packages and any pattern of equal neighbours, also at the beginning and the end of the list; tests compare the names of the packages in short lists and do not look at memory", "anchors": ["lib/rpm.c: sr_rpm_package_sort", "lib/rpm.c: sr_rpm_package_uniq", "lib/rpm.c: package_merge", "lib/rpm.c: sr_rpm_package_parse_nevra", "lib/rpm.c: sr_rpm_package_append", "lib/abrt.c: sr_abrt_parse_dso_list"]}
{"id": "C152", "title": "What memory reading the packages of a problem directory loses", "statement": "When the packages of a problem directory are read, the packages are those that the files of the directory say: the package of the program, those of the list of libraries, sorted into it and merged, and the package of the interpreter. If all files that exist can be read, the memory added is this list and nothing else, and no message is written. Each file of the list of libraries or the interpreter that exists and cannot be read leaves one message in memory. If a file with the name, version, release or architecture of the package cannot be read, the function fails, everything read before is freed, and one message for each such file is left in memory, of which only the last can be freed by the caller. If the function fails, no package is left in memory.", "quantifier": "all problem directories (any set of files, readable or not, with any contents), all contents of memory, all allocators and all functions that do what the C standard says of qsort", "why_tests_cant": "what is freed depends on which of eight files exist, can be read and have which contents; tests use one complete directory and do not look at memory", "anchors": ["lib/abrt.c: sr_abrt_rpm_packages_from_dir", "lib/abrt.c: rpm_pkg_from_dir", "lib/abrt.c: rpm_dso_list_from_dir", "lib/abrt.c: rpm_interpreter_from_dir", "lib/abrt.c: file_contents", "lib/abrt.c: strip_newline"]}
{"id": "C153", "title": "What memory reading the operating system, the component and the number of occurrences of a problem directory loses", "statement": "When the operating system of a problem directory is read, the result is the operating system that the files of the directory say, or NULL if they say none. If the file os_info says name and version and says no member twice, the release is not a development release, and the files with architecture and environment can be read, then the memory added is this operating system and nothing else, and no message is written. In every other case the memory added is described completely: the operating system, one message for each file looked for that cannot be read or if there is no name and version, and the texts that were stored in a member and then overwritten. If the result is NULL, no operating system is left in memory. Reading the number of occurrences leaves memory as it was, or adds one message if the number is missing or wrong. Reading the component adds its text and nothing else, or one message if the file that says it cannot be read.", "quantifier": "all problem directories (any set of files, readable or not, with any contents), all contents of memory, all allocators, all values of errno before the call", "why_tests_cant": "what is lost depends on the order and repetition of the lines of os_info, and on which of four files can be read; tests use one directory and do not look at memory", "anchors": ["lib/abrt.c: sr_abrt_operating_system_from_dir", "lib/abrt.c: desktop_from_dir", "lib/abrt.c: occurrences_from_dir", "lib/abrt.c: get_component", "lib/operating_system.c: sr_operating_system_parse_etc_os_release", "lib/operating_system.c: os_release_callback", "lib/operating_system.c: sr_operating_system_parse_etc_system_release", "lib/utils.c: sr_parse_os_release"]}
{"id": "C154", "title": "What memory reading the report of a problem directory loses, up to its stack trace", "statement": "When the report of a problem directory is read, up to its stack trace, the result is the report that the files of the directory say: type, operating system, component, packages and number of occurrences, or NULL if one that is needed is missing. Memory is as before with this report in addition, the messages about files that cannot be read, the texts lost when the operating system is read, and nothing else. If the result is NULL, nothing of the report is left in memory. If every file looked for can be read and os_info is complete and says nothing twice, the report is all that is added. Freeing the report gives back all its memory.", "quantifier": "all problem directories (any set of files, readable or not, with any contents within the stated condition on the epoch), all contents of memory, all allocators, all sorting functions that qsort may be, all values of errno before the call", "why_tests_cant": "there are five ways in which the function fails, each with a different part of the report already built and to be freed, and combinations of some ten files; tests use one directory and do not look at memory", "anchors": ["lib/abrt.c: sr_abrt_report_from_dir", "lib/report.c: sr_report_new", "lib/report.c: sr_report_init", "lib/report.c: sr_report_free", "lib/abrt.c: sr_abrt_rpm_packages_from_dir", "lib/abrt.c: sr_abrt_operating_system_from_dir"]}
{"id": "C155", "title": "What memory reading the whole report of a problem directory loses, with its stack trace", "statement": "When the report of a problem directory is read with its stack trace, the result is the report of C154 with the stack trace that the file backtrace says (Java, Ruby, Python, kernel oops), or NULL. For Java and Ruby nothing is lost if the stack trace can be read. In all other cases what is lost is described completely: for a Java stack trace that cannot be read the frames that had been read, for Ruby the message of the location and the message about the first frame, for Python one message whether or not the stack trace can be read, except if there is no header, for a kernel oops the labels and parts of module names of C148, and the version of the kernel if there is no file backtrace. In every case in which the result is NULL, the report is freed and a message is given.", "quantifier": "all problem directories (any set of files, readable or not, with any contents within the condition on the epoch of C154), all contents of memory, all allocators, all sorting functions that qsort may be", "why_tests_cant": "each type has its own parser with its own ways to fail and its own rules about who frees the message; tests use one directory for each type and do not look at memory", "anchors": ["lib/abrt.c: sr_abrt_report_from_dir", "lib/location.c: sr_location_to_string", "lib/java_stacktrace.c: sr_java_stacktrace_parse", "lib/ruby_stacktrace.c: sr_ruby_stacktrace_parse", "lib/python_stacktrace.c: sr_python_stacktrace_parse", "lib/koops_stacktrace.c: sr_koops_stacktrace_parse"]}
{"id": "C156", "title": "Reading the stack trace of a core dump into the report of a problem directory loses no memory", "statement": "When the stack trace of a core dump is read from the file core_backtrace into the report of a problem directory, then either the text says a stack trace, the memory added is exactly this stack trace, the pointer to the crash thread is the address of the thread that the text marks, no message is written, and freeing the report gives back all its memory, including the stack trace; or the text says no stack trace or cannot be read, the report is freed, and one message is all that is left.", "quantifier": "all contents of the file, readable or not, all reports read up to the stack trace, all contents of memory, all allocators", "why_tests_cant": "the text is any JSON document with any member missing or of the wrong type at any depth, so that any part of the stack trace may have been built when the function gives up; tests do not look at memory", "anchors": ["lib/abrt.c: sr_abrt_report_from_dir", "lib/core_stacktrace.c: sr_core_stacktrace_from_json_text", "lib/core_stacktrace.c: sr_core_stacktrace_from_json", "lib/report.c: sr_report_free"]}
{"id": "C157", "title": "Freeing a report read from a problem directory gives back its memory", "statement": "When the report of a problem directory of any type is read, memory that was in use before is not changed, and if there is a report, freeing it gives back every block of it, including operating system, packages and stack trace, so that what stays is exactly what reading lost. For a complete directory of a core dump, a Java or a Ruby program, or of a type without a stack trace of its own, reading the report and freeing it leaves memory exactly as it was, and there is no message.", "quantifier": "all problem directories (any set of files, readable or not, with any contents within the conditions of C154 and of reading Python text), all contents of memory, all allocators, all sorting functions that qsort may be", "why_tests_cant": "that nothing is lost and nothing is freed twice has to hold for every combination of files and every stack trace of any size; tests read a few directories and do not look at memory", "anchors": ["lib/abrt.c: sr_abrt_report_from_dir", "lib/report.c: sr_report_free", "lib/generic_stacktrace.c: sr_stacktrace_free"]}
{"id": "C158", "title": "Removing frames from a thread gives back exactly their memory", "statement": "Removing a frame of a thread, the frames above a frame, or all frames from a given number on gives back exactly the memory of the removed frames. The thread then has the other frames in their order and unchanged, its other members and the thread after it are as before, and all other memory is unchanged. If the frame does not belong to the thread, nothing changes and the result says so. Nothing is freed twice or read after it was freed.", "quantifier": "all kinds of threads, all lists of frames of any length, all positions in the list, all contents of memory", "why_tests_cant": "the place of the frame in the list decides which pointer is changed, and a mistake shows only as memory that is lost or used after it was freed; tests remove one frame from one thread", "anchors": ["lib/generic_thread.c: sr_thread_remove_frame", "lib/generic_thread.c: sr_thread_remove_frames_above", "lib/gdb_thread.c: sr_gdb_thread_remove_frames_below_n", "lib/java_thread.c: sr_java_thread_remove_frames_below_n", "lib/koops_stacktrace.c: sr_koops_stacktrace_remove_frame"]}
{"id": "C159", "title": "Freeing the parts of a distance matrix gives back their memory", "statement": "After sr_distances_part_create, calls of sr_distances_part_compute on any of the parts in any order, and sr_distances_part_free with follow_links on the first part, memory is exactly as before if no part was computed more than once: nothing is lost, freed twice or read after it was freed. Every further call of sr_distances_part_compute on the same part loses one array of distances, and nothing else is ever lost. Without follow_links sr_distances_part_free gives back exactly the part and its distances, and the list of the other parts stays as it is.", "quantifier": "all numbers and lengths of parts, all sequences of calls, all contents of memory, all allocators", "why_tests_cant": "what has to be given back depends on which parts were computed and how often; a test sees one sequence, and a lost block changes no result", "anchors": ["lib/distance.c: sr_distances_part_create", "lib/distance.c: sr_distances_part_compute", "lib/distance.c: sr_distances_part_free"]}
{"id": "C160", "title": "Clustering stays within its growing arrays and leaves no memory behind", "statement": "While sr_distances_cluster_objects merges fewer than 2^30 objects, no sequence of merges and reversals makes it read or write outside the array of a cluster, read an element that was not written, or overflow the size of an array; the arrays hold exactly the sequences of objects that putting the two sequences together gives. An array never has more than twice the room it needs, and a cluster that was merged into another one has no memory. When the dendrogram is made, the first array holds its order of objects and is the only one that still has memory, which is then freed.", "quantifier": "all numbers of objects below 2^30, all distances, all sequences of merges with any reversals", "why_tests_cant": "the arrays grow at sizes that depend on which clusters are merged; an access one element too far is usually invisible in a test", "anchors": ["lib/cluster.c: sr_distances_cluster_objects", "lib/cluster.c: cluster_add_index", "lib/cluster.c: cluster_merge", "lib/cluster.c: cluster_reverse", "lib/cluster.c: cluster_clean"]}
