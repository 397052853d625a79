{
 "claims": [
  {
   "property": "C01",
   "status": "proved",
   "theorems": [
    "Satyr.Distances.C01_get_after_history",
    "Satyr.Distances.C01_get_symm",
    "Satyr.Distances.C01_new_iff",
    "Satyr.Distances.C01_dup",
    "Satyr.Distances.C01_no_int_overflow",
    "Satyr.Distances.C01_not_beyond_46340"
   ],
   "note": "int is unbounded in the model; C01_no_int_overflow gives the exact range (n <= 46340) where that is faithful."
  },
  {
   "property": "C02",
   "status": "proved",
   "theorems": [
    "Satyr.Distances.C02_cover_once_balanced"
   ],
   "note": ""
  },
  {
   "property": "C03",
   "status": "proved",
   "theorems": [
    "Satyr.Distances.C03_split_compute_merge"
   ],
   "note": ""
  },
  {
   "property": "C04",
   "status": "proved",
   "theorems": [
    "Satyr.Distances.C04_order_independent",
    "Satyr.Distances.C04_order_independent_computed",
    "Satyr.Distances.C04_rejects",
    "Satyr.Distances.C04_null_iff",
    "Satyr.Distances.C04_not_distance_type_checked"
   ],
   "note": "The distance type of parts is not compared by the code; C04_not_distance_type_checked proves that finding with a witness."
  },
  {
   "property": "C05",
   "status": "proved",
   "theorems": [
    "Satyr.Levenshtein.C05_levenshtein",
    "Satyr.Levenshtein.C05_damerau_levenshtein",
    "Satyr.Levenshtein.C05_not_damerau_for_wildcards",
    "Satyr.Levenshtein.C05_levenshtein_edit_steps"
   ],
   "note": "Levenshtein: every comparison function. Damerau-Levenshtein: symmetric and transitive comparison functions (stated in the property); C05_not_damerau_for_wildcards shows the restriction is needed."
  },
  {
   "property": "C06",
   "status": "proved",
   "theorems": [
    "Satyr.Levenshtein.C06_range_and_zero",
    "Satyr.Levenshtein.C06_symmetric",
    "Satyr.Levenshtein.C06_triangle",
    "Satyr.Metrics.C06_float",
    "Satyr.Metrics.C06_float_error",
    "Satyr.Metrics.C06_float_symmetric"
   ],
   "note": ""
  },
  {
   "property": "C07",
   "status": "partial",
   "theorems": [
    "Satyr.Metrics.C07_float_range",
    "Satyr.Metrics.C07_float_exact_partial",
    "Satyr.Metrics.C07_float_order",
    "Satyr.Metrics.C07_not_float_zero",
    "Satyr.Metrics.C07_jaccard_formula",
    "Satyr.Metrics.C07_range",
    "Satyr.Metrics.C07_symmetric",
    "Satyr.Metrics.C07_zero_iff",
    "Satyr.Metrics.C07_one_iff"
   ],
   "note": "Proved for exact arithmetic, and for float in every rounding mode with up to 2^24 different frames. Beyond that the float is 0 for different threads (C07_not_float_zero)."
  },
  {
   "property": "C08",
   "status": "partial",
   "theorems": [
    "Satyr.Metrics.C08_float_range_partial",
    "Satyr.Metrics.C08_float_zero_if_nothing_equal",
    "Satyr.Metrics.C08_float_one_if_identical_partial",
    "Satyr.Metrics.C08_float_error_partial",
    "Satyr.Metrics.C08_not_float_at_most_one",
    "Satyr.Metrics.C08_nonneg",
    "Satyr.Metrics.C08_range_partial",
    "Satyr.Metrics.C08_not_at_most_one",
    "Satyr.Metrics.C08_zero_if_nothing_equal",
    "Satyr.Metrics.C08_one_if_identical_partial",
    "Satyr.Metrics.C08_not_one_for_identical"
   ],
   "note": "The full claim is false of the code: C08_not_at_most_one (value above 1) and C08_not_one_for_identical. Proved: nonnegativity and the zero case for all threads, range and identity for threads whose frames are pairwise different, for exact arithmetic and for float in every rounding mode; the error of the float is bounded."
  },
  {
   "property": "C09",
   "status": "proved",
   "theorems": [
    "Satyr.Metrics.C09_dispatch",
    "Satyr.Metrics.C09_unknown_metric"
   ],
   "note": ""
  },
  {
   "property": "C10",
   "status": "proved",
   "theorems": [
    "Satyr.Cluster.C10_cluster_permutation"
   ],
   "note": ""
  },
  {
   "property": "C11",
   "status": "proved",
   "theorems": [
    "Satyr.Cluster.C11_cut"
   ],
   "note": ""
  },
  {
   "property": "C12",
   "status": "proved",
   "theorems": [
    "Satyr.Cluster.C12_refines"
   ],
   "note": ""
  },
  {
   "property": "C13",
   "status": "proved",
   "theorems": [
    "Satyr.Threads.C13_remove_frame",
    "Satyr.Threads.C13_remove_frames_above",
    "Satyr.Threads.C13_remove_frames_below",
    "Satyr.Threads.C13_frame_count"
   ],
   "note": ""
  },
  {
   "property": "C14",
   "status": "proved",
   "theorems": [
    "Satyr.Normalize.C14_gdb",
    "Satyr.Normalize.C14_core"
   ],
   "note": ""
  },
  {
   "property": "C15",
   "status": "proved",
   "theorems": [
    "Satyr.Normalize.C15_gdb",
    "Satyr.Normalize.C15_core",
    "Satyr.Normalize.C15_gdb_keeps"
   ],
   "note": ""
  },
  {
   "property": "C16",
   "status": "partial",
   "theorems": [
    "Satyr.Normalize.C16_gdb_partial",
    "Satyr.Normalize.C16_core_partial",
    "Satyr.Normalize.C16_not_idempotent_null",
    "Satyr.Normalize.C16_not_idempotent_prefix"
   ],
   "note": "Idempotence is proved when no name carries a doubled prefix and at most one frame is at address 0; both restrictions are necessary, as the two C16_not_idempotent theorems show."
  },
  {
   "property": "C17",
   "status": "proved",
   "theorems": [
    "Satyr.Koops.C17_filter",
    "Satyr.Koops.C17_search",
    "Satyr.Koops.C17_idempotent"
   ],
   "note": ""
  },
  {
   "property": "C18",
   "status": "proved",
   "theorems": [
    "Satyr.Normalize.C18_first_fit",
    "Satyr.Normalize.C18_determined",
    "Satyr.Normalize.C18_paired",
    "Satyr.Normalize.C18_names_distinct",
    "Satyr.Normalize.C18_progress"
   ],
   "note": ""
  },
  {
   "property": "C19",
   "status": "proved",
   "theorems": [
    "Satyr.Hash.C19_plain",
    "Satyr.Hash.C19_normalized",
    "Satyr.Hash.C19_depends_only",
    "Satyr.Hash.C19_removed_frames",
    "Satyr.Hash.C19_beyond_limit",
    "Satyr.Hash.C19_gdb_attributes",
    "Satyr.Hash.C19_core_attributes",
    "Satyr.Hash.C19_koops_attributes",
    "Satyr.Hash.C19_python_attributes",
    "Satyr.Hash.C19_ruby_attributes",
    "Satyr.Hash.C19_js_attributes",
    "Satyr.Hash.C19_java_attributes",
    "Satyr.Hash.C19_absent",
    "Satyr.Hash.C19_text"
   ],
   "note": ""
  },
  {
   "property": "C20",
   "status": "partial",
   "theorems": [
    "Satyr.Hash.C20_gdb_partial",
    "Satyr.Hash.C20_core_partial",
    "Satyr.Hash.C20_koops_partial",
    "Satyr.Hash.C20_python_partial",
    "Satyr.Hash.C20_ruby_partial",
    "Satyr.Hash.C20_js_partial",
    "Satyr.Hash.C20_java_partial",
    "Satyr.Hash.C20_not_separators",
    "Satyr.Hash.C20_not_unknown",
    "Satyr.Hash.C20_not_koops_flags",
    "Satyr.Hash.C20_gdb_text",
    "Satyr.Hash.C20_core_text",
    "Satyr.Hash.C20_koops_text",
    "Satyr.Hash.C20_python_text",
    "Satyr.Hash.C20_java_text",
    "Satyr.Hash.C20_ruby_text",
    "Satyr.Hash.C20_js_text",
    "Satyr.Hash.C20_hash"
   ],
   "note": "Exact characterisation for every type when no attribute contains a comma, a newline or the literal <unknown>; without that the claim is false (C20_not theorems). Kernel oops taint flags, JavaScript column and platform are missing from the text."
  },
  {
   "property": "C21",
   "status": "proved",
   "theorems": [
    "Satyr.Crash.C21_single",
    "Satyr.Crash.C21_tid",
    "Satyr.Crash.C21_only_match",
    "Satyr.Crash.C21_only_abort",
    "Satyr.Crash.C21_some_match",
    "Satyr.Crash.C21_none",
    "Satyr.Crash.C21_in_trace"
   ],
   "note": "Identity of threads is their position. The last heuristic's minimality needs line and frame numbers below 2^31 (see C23)."
  },
  {
   "property": "C22",
   "status": "proved",
   "theorems": [
    "Satyr.Crash.C22_float_gdb_thread",
    "Satyr.Crash.C22_float_java_thread",
    "Satyr.Crash.C22_float_simple",
    "Satyr.Crash.C22_float_complex",
    "Satyr.Crash.C22_gdb_thread",
    "Satyr.Crash.C22_java_thread",
    "Satyr.Crash.C22_simple",
    "Satyr.Crash.C22_complex",
    "Satyr.Crash.C22_complex_value"
   ],
   "note": "Exact fractions and their roundings to float."
  },
  {
   "property": "C23",
   "status": "partial",
   "theorems": [
    "Satyr.Frames.C23_gdb_partial",
    "Satyr.Frames.C23_core_partial",
    "Satyr.Frames.C23_koops_partial",
    "Satyr.Frames.C23_python_partial",
    "Satyr.Frames.C23_java_partial",
    "Satyr.Frames.C23_ruby_partial",
    "Satyr.Frames.C23_js_partial",
    "Satyr.Frames.C23_not_gdb",
    "Satyr.Frames.C23_not_core",
    "Satyr.Frames.C23_not_koops",
    "Satyr.Frames.C23_not_koops_zero",
    "Satyr.Frames.C23_not_python",
    "Satyr.Frames.C23_not_java",
    "Satyr.Frames.C23_not_ruby",
    "Satyr.Frames.C23_not_js"
   ],
   "note": "The orders are proved for every frame type when the compared numbers stay below 2^31; without that bound the claim is false of the code, as the C23_not theorems show with witnesses."
  },
  {
   "property": "C24",
   "status": "partial",
   "theorems": [
    "Satyr.Frames.C24_koops",
    "Satyr.Frames.C24_python",
    "Satyr.Frames.C24_java",
    "Satyr.Frames.C24_ruby",
    "Satyr.Frames.C24_js",
    "Satyr.Frames.C24_gdb_partial",
    "Satyr.Frames.C24_gdb_symm",
    "Satyr.Frames.C24_not_gdb_refl",
    "Satyr.Frames.C24_not_gdb_trans",
    "Satyr.Frames.C24_core_partial",
    "Satyr.Frames.C24_core_refl",
    "Satyr.Frames.C24_core_symm",
    "Satyr.Frames.C24_not_core_trans"
   ],
   "note": "Full for kernel oops, Python, Java, Ruby and JavaScript frames. For GDB and core frames the claim is false (C24_not theorems); the part that holds is proved."
  },
  {
   "property": "C25",
   "status": "partial",
   "theorems": [
    "Satyr.CStr.C25_round_trip",
    "Satyr.CStr.C25_uint32",
    "Satyr.CStr.C25_uint64_partial",
    "Satyr.CStr.C25_not_uint64_max"
   ],
   "note": "32-bit scanner: full claim. 64-bit scanner: full claim except that the value 2^64-1 is rejected although it fits (C25_not_uint64_max proves that finding)."
  },
  {
   "property": "C26",
   "status": "proved",
   "theorems": [
    "Satyr.CStr.C26_round_trip",
    "Satyr.CStr.C26_hex",
    "Satyr.CStr.C26_hex0x"
   ],
   "note": ""
  },
  {
   "property": "C27",
   "status": "partial",
   "theorems": [
    "Satyr.CStr.C27_span",
    "Satyr.CStr.C27_cspan",
    "Satyr.CStr.C27_string",
    "Satyr.CStr.C27_char",
    "Satyr.CStr.C27_char_sequence",
    "Satyr.CStr.C27_parse_char",
    "Satyr.CStr.C27_skip_char_limited_partial",
    "Satyr.CStr.C27_not_skip_char_limited"
   ],
   "note": "All primitives proved; sr_skip_char_limited only inside the input, because at the end of the input it moves past the terminator (C27_not_skip_char_limited proves that finding)."
  },
  {
   "property": "C28",
   "status": "proved",
   "theorems": [
    "Satyr.CStr.C28_add",
    "Satyr.CStr.C28_strchr",
    "Satyr.CStr.C28_strstr",
    "Satyr.CStr.C28_strspn",
    "Satyr.CStr.C28_next_line",
    "Satyr.CStr.C28_order",
    "Satyr.CStr.C28_order_lt"
   ],
   "note": ""
  },
  {
   "property": "C29",
   "status": "proved",
   "theorems": [
    "Satyr.CStr.C29_except_first",
    "Satyr.CStr.C29_indent",
    "Satyr.CStr.C29_removable"
   ],
   "note": ""
  },
  {
   "property": "C30",
   "status": "proved",
   "theorems": [
    "Satyr.CStr.C30_bin2hex",
    "Satyr.CStr.C30_injective"
   ],
   "note": ""
  },
  {
   "property": "C31",
   "status": "proved",
   "theorems": [
    "Satyr.CStr.C31_replaces",
    "Satyr.CStr.C31_keeps",
    "Satyr.CStr.C31_idempotent",
    "Satyr.CStr.C31_hides_user"
   ],
   "note": ""
  },
  {
   "property": "C32",
   "status": "proved",
   "theorems": [
    "Satyr.Os.C32_lines",
    "Satyr.Os.C32_all_texts",
    "Satyr.Os.C32_value"
   ],
   "note": ""
  },
  {
   "property": "C33",
   "status": "proved",
   "theorems": [
    "Satyr.Os.C33_order",
    "Satyr.Os.C33_order_of_lines",
    "Satyr.Os.C33_values"
   ],
   "note": ""
  },
  {
   "property": "C34",
   "status": "proved",
   "theorems": [
    "Satyr.CStr.C34_struniq"
   ],
   "note": ""
  },
  {
   "property": "C35",
   "status": "proved",
   "theorems": [
    "Satyr.Rpm.C35_nvr",
    "Satyr.Rpm.C35_nevra",
    "Satyr.Rpm.C35_nevra_print",
    "Satyr.Rpm.C35_nevra_dangling",
    "Satyr.Rpm.C35_not_clean"
   ],
   "note": "Both functions characterised by iff for every text. C35_not_clean/C35_nevra_dangling describe an extra finding: refusal for a bad epoch leaves freed pointers in the outputs."
  },
  {
   "property": "C36",
   "status": "partial",
   "theorems": [
    "Satyr.Rpm.C36_sort_partial",
    "Satyr.Rpm.C36_not_empty",
    "Satyr.Rpm.C36_not_sortable",
    "Satyr.Rpm.C36_uniq",
    "Satyr.Rpm.C36_uniq_id",
    "Satyr.Rpm.C36_uniq_idempotent",
    "Satyr.Rpm.C36_sort_uniq_partial"
   ],
   "note": "Sorting is proved for non-empty lists with epochs below 2^31 and any qsort meeting the C contract; C36_not_empty and C36_not_sortable show the rest is false of the code. Merging (uniq) is proved for every list."
  },
  {
   "property": "C37",
   "status": "partial",
   "theorems": [
    "Satyr.Rpm.C37_nvr",
    "Satyr.Rpm.C37_nevra_partial",
    "Satyr.Rpm.C37_nevra_zero",
    "Satyr.Rpm.C37_cmp_partial",
    "Satyr.Rpm.C37_not_epoch",
    "Satyr.Rpm.C37_not_install_time"
   ],
   "note": "Total order for epochs and install times below 2^31 (NVR: for all packages); false beyond, see C37_not_epoch and C37_not_install_time. Zero exactly on equal identity for all 32-bit epochs."
  },
  {
   "property": "C38",
   "status": "proved",
   "theorems": [
    "Satyr.Rpm.C38_lines",
    "Satyr.Rpm.C38_no_colon",
    "Satyr.Rpm.C38_records",
    "Satyr.Rpm.C38_not_safe"
   ],
   "note": "C38_records covers every list of well-formed records; C38_lines covers every text not refused for a bad epoch; C38_not_safe shows that such a text makes the code free memory twice."
  },
  {
   "property": "C39",
   "status": "proved",
   "theorems": [
    "Satyr.Json.C39_round_trip",
    "Satyr.Json.C39_embedded",
    "Satyr.Json.C39_no_newline",
    "Satyr.Json.C39_injective",
    "Satyr.Json.C39_strict_partial",
    "Satyr.Json.C39_not_strict"
   ],
   "note": "Under json-c's reading of strings, which accepts raw control characters. RFC 8259 forbids them: C39_strict_partial and C39_not_strict."
  },
  {
   "property": "C40",
   "status": "partial",
   "theorems": [
    "Satyr.Json.Core.C40_read_back",
    "Satyr.Json.Core.C40_round_trip_partial",
    "Satyr.Json.Core.C40_not_without_threads",
    "Satyr.Json.Core.C40_not_unknown_crash_thread",
    "Satyr.Json.Core.C40_not_empty_crash_thread",
    "Satyr.Json.Core.C40_not_high_address"
   ],
   "note": "False as stated: C40_not_* (no threads gives invalid JSON, unknown crash thread becomes the first one, crash thread without frames is lost, addresses from 2^63 on saturate). C40_read_back says exactly what is read back for every trace with threads."
  },
  {
   "property": "C41",
   "status": "partial",
   "theorems": [
    "Satyr.Json.Koops.C41_read_back",
    "Satyr.Json.Koops.C41_round_trip_partial",
    "Satyr.Json.Koops.C41_not_reason",
    "Satyr.Json.Koops.C41_not_high_address",
    "Satyr.Json.Koops.C41_not_many_modules"
   ],
   "note": "False as stated: C41_not_* (reason lost, addresses saturate, 128 modules overflow the array). C41_read_back says exactly what is read back otherwise."
  },
  {
   "property": "C42",
   "status": "partial",
   "theorems": [
    "Satyr.Json.Python.C42_read_back",
    "Satyr.Json.Python.C42_round_trip_partial",
    "Satyr.Json.Python.C42_not_empty_frame",
    "Satyr.Json.Python.C42_not_high_line"
   ],
   "note": "Exact characterisation of what is read back (C42_read_back); the round trip is proved under explicit conditions, and concrete stack traces that do not survive are exhibited (C42_not_*)."
  },
  {
   "property": "C43",
   "status": "partial",
   "theorems": [
    "Satyr.Json.Ruby.C43_read_back",
    "Satyr.Json.Ruby.C43_round_trip_partial",
    "Satyr.Json.Ruby.C43_not_empty_frame",
    "Satyr.Json.Ruby.C43_not_high_line"
   ],
   "note": "Exact characterisation of what is read back (C43_read_back); the round trip is proved under explicit conditions, and concrete stack traces that do not survive are exhibited (C43_not_*)."
  },
  {
   "property": "C44",
   "status": "partial",
   "theorems": [
    "Satyr.Json.Js.C44_read_back",
    "Satyr.Json.Js.C44_round_trip_partial",
    "Satyr.Json.Js.C44_not_empty_frame",
    "Satyr.Json.Js.C44_not_high_line",
    "Satyr.Json.Js.C44_not_partial_platform"
   ],
   "note": "Exact characterisation of what is read back (C44_read_back); the round trip is proved under explicit conditions, and concrete stack traces that do not survive are exhibited (C44_not_*)."
  },
  {
   "property": "C45",
   "status": "partial",
   "theorems": [
    "Satyr.Json.Java.C45_read_back",
    "Satyr.Json.Java.C45_round_trip_partial",
    "Satyr.Json.Java.C45_not_high_line",
    "Satyr.Json.Java.C45_not_line_without_file"
   ],
   "note": "Exact characterisation of what is read back (C45_read_back); the round trip is proved under explicit conditions, and concrete stack traces that do not survive are exhibited (C45_not_*)."
  },
  {
   "property": "C46",
   "status": "partial",
   "theorems": [
    "Satyr.Json.Rpm.C46_read_back",
    "Satyr.Json.Rpm.C46_read_back_one",
    "Satyr.Json.Rpm.C46_round_trip_partial",
    "Satyr.Json.Rpm.C46_not_empty",
    "Satyr.Json.Rpm.C46_not_high_epoch",
    "Satyr.Json.Rpm.C46_not_consistency"
   ],
   "note": "Read back is characterised exactly for all non-empty lists (C46_read_back): epochs of at least 2^31 saturate, the consistency of the installation is not written, and an empty list is not written as JSON; equality is proved for the lists without these (C46_round_trip_partial), and each exception has a witness."
  },
  {
   "property": "C47",
   "status": "partial",
   "theorems": [
    "Satyr.Json.Os.C47_read_back",
    "Satyr.Json.Os.C47_round_trip_partial",
    "Satyr.Json.Os.C47_not_cpe"
   ],
   "note": "The CPE name is written but never read (C47_not_cpe) and uptimes of at least 2^63 saturate; C47_read_back gives exactly what is read from every record, and C47_round_trip_partial equality for the others."
  },
  {
   "property": "C48",
   "status": "partial",
   "theorems": [
    "Satyr.Report.C48_read_back",
    "Satyr.Report.C48_round_trip_partial",
    "Satyr.Report.C48_not_user",
    "Satyr.Report.C48_not_remote_user",
    "Satyr.Report.C48_not_javascript",
    "Satyr.Report.C48_not_reporter",
    "Satyr.Report.C48_not_empty_stacktrace",
    "Satyr.Report.C48_not_missing_stacktrace",
    "Satyr.Report.C48_not_gdb",
    "Satyr.Report.C48_not_auth"
   ],
   "note": "C48_read_back gives exactly what is read for every report with a plain reporter name, distinct authentication keys and a writable stack trace of its type. False in general: the user is lost, JavaScript stack traces are dropped, an unescaped reporter name breaks the JSON, an empty stack trace gives a comma before a brace (read by json-c but not JSON), a missing stack trace is a null dereference, gdb stack traces abort, repeated authentication keys are lost (C48_not_*)."
  },
  {
   "property": "C49",
   "status": "partial",
   "theorems": [
    "Satyr.Report.C49_round_trip",
    "Satyr.Report.C49_names_differ",
    "Satyr.Report.C49_from_string",
    "Satyr.Report.C49_out_of_range",
    "Satyr.Report.C49_abrt_partial",
    "Satyr.Report.C49_abrt_only",
    "Satyr.Report.C49_not_javascript"
   ],
   "note": "Proved for names of report types and for ABRT types, except that ABRT's JavaScript is not recognised (C49_not_javascript)."
  },
  {
   "property": "C50",
   "status": "proved",
   "theorems": [
    "Satyr.Gdb.C50_round_trip",
    "Satyr.Gdb.C50_text",
    "Satyr.Gdb.C50_lines",
    "Satyr.Gdb.C50_every_text",
    "Satyr.Gdb.C50_not_space",
    "Satyr.Gdb.C50_not_empty"
   ],
   "note": "For frames whose names are non-empty and free of the separators, as the property says; C50_not_space and C50_not_empty show that the conditions are needed."
  },
  {
   "property": "C51",
   "status": "partial",
   "theorems": [
    "Satyr.Text.Js.C51_read_back",
    "Satyr.Text.Js.C51_round_trip_partial",
    "Satyr.Text.Js.C51_not_new",
    "Satyr.Text.Js.C51_not_home",
    "Satyr.Text.Js.C51_lines"
   ],
   "note": "Proved for function names without blanks and file names without newlines; missing: names with blanks, e.g. constructor calls (refuted, C51_not_new), and the user name below /home (refuted, C51_not_home)."
  },
  {
   "property": "C52",
   "status": "partial",
   "theorems": [
    "Satyr.Text.Python.C52_read_partial",
    "Satyr.Text.Python.C52_not_repeated",
    "Satyr.Text.Python.C52_not_truncated",
    "Satyr.Text.Python.C52_frame",
    "Satyr.Text.Python.C52_texts"
   ],
   "note": "Proved for complete tracebacks. Refuted for the line that replaces repeated calls (C52_not_repeated) and for text that ends after the calls, which is over-read (C52_not_truncated)."
  },
  {
   "property": "C53",
   "status": "partial",
   "theorems": [
    "Satyr.Text.Ruby.C53_frame",
    "Satyr.Text.Ruby.C53_read_partial",
    "Satyr.Text.Ruby.C53_not_operator",
    "Satyr.Text.Ruby.C53_not_multiline",
    "Satyr.Text.Ruby.C53_exact_frame",
    "Satyr.Text.Ruby.C53_exact"
   ],
   "note": "Proved for well-formed places and messages without tabulators. Refuted for comparison operators (C53_not_operator) and messages of several lines (C53_not_multiline)."
  },
  {
   "property": "C54",
   "status": "partial",
   "theorems": [
    "Satyr.Text.Java.C54_read_back",
    "Satyr.Text.Java.C54_round_trip_partial",
    "Satyr.Text.Java.C54_not_plain_path",
    "Satyr.Text.Java.C54_not_jar"
   ],
   "note": "Proved for frames whose text is not ambiguous. Refuted for class paths without colon and slash, which are lost (C54_not_plain_path), and for class paths starting with jar: (C54_not_jar); user names below /home are replaced."
  },
  {
   "property": "C55",
   "status": "partial",
   "theorems": [
    "Satyr.Gdb.C55_sharedlib_partial",
    "Satyr.Gdb.C55_not_last_address",
    "Satyr.Unstrip.C55_unstrip_partial",
    "Satyr.Unstrip.C55_not_unstrip_end"
   ],
   "note": "Holds except at the end of the address space: the last address is treated as unknown (C55_not_last_address), and start + length wraps for a mapping that ends there (C55_not_unstrip_end)."
  },
  {
   "property": "C56",
   "status": "partial",
   "theorems": [
    "Satyr.Gdb.C56_gdb_frame_partial",
    "Satyr.Gdb.C56_not_gdb_arguments",
    "Satyr.Gdb.C56_not_gdb_operator",
    "Satyr.Gdb.C56_not_gdb_const",
    "Satyr.Gdb.C56_not_sharedlib",
    "Satyr.Gdb.C56_not_sharedlib_unnamed",
    "Satyr.Gdb.C56_gdb_thread_partial",
    "Satyr.Gdb.C56_gdb_trace_partial",
    "Satyr.Text.Java.C56_java_frame",
    "Satyr.Text.Java.C56_java_trace",
    "Satyr.Text.Js.C56_js_frame",
    "Satyr.Text.Js.C56_js_trace",
    "Satyr.Text.Koops.C56_koops_trace",
    "Satyr.Text.Koops.C56_koops_frame",
    "Satyr.Text.Python.C56_python_frame",
    "Satyr.Text.Python.C56_python_ends",
    "Satyr.Text.Ruby.C56_ruby_frame",
    "Satyr.Text.Ruby.C56_ruby_trace"
   ],
   "note": "Proved for JavaScript, Ruby and Java frames and traces and for kernel oopses (C56_koops_frame, C56_koops_trace: all texts, including the bounds of the module array); for Python frames the over-reading texts are characterised exactly (C56_python_frame); for gdb frames, threads and traces for texts that end with a newline, and refuted without (C56_not_gdb_*). Refuted for the list of shared libraries (C56_not_sharedlib, C56_not_sharedlib_unnamed)."
  },
  {
   "property": "C57",
   "status": "partial",
   "theorems": [
    "Satyr.Json.Koops.C57_flags_json",
    "Satyr.Json.Koops.C57_flags_round_trip",
    "Satyr.Json.Koops.C57_modules_json_partial",
    "Satyr.Json.Koops.C57_not_many_modules",
    "Satyr.Text.Koops.C57_modules_text_partial",
    "Satyr.Text.Koops.C57_not_list_end",
    "Satyr.Text.Koops.C57_taint_text"
   ],
   "note": "Text: the taint flags are characterised for all texts (C57_taint_text); the module list is read exactly for any number of modules (C57_modules_text_partial), but a following line that does not begin with a known word is swallowed (C57_not_list_end). JSON: the reader overflows its array from 128 modules on (C57_not_many_modules)."
  },
  {
   "property": "C58",
   "status": "partial",
   "theorems": [
    "Satyr.Disasm.C58_target",
    "Satyr.Disasm.C58_not_mnemonic",
    "Satyr.Disasm.C58_addresses_partial",
    "Satyr.Disasm.C58_not_distinct",
    "Satyr.Disasm.C58_present",
    "Satyr.Disasm.C58_text"
   ],
   "note": "Exact characterization: the result is right if some target is called twice (C58_addresses_partial), otherwise the terminator is written outside of the array (C58_not_distinct)."
  },
  {
   "property": "C59",
   "status": "partial",
   "theorems": [
    "Satyr.Cluster.C59_float_range",
    "Satyr.Cluster.C59_not_float_monotone",
    "Satyr.Cluster.C59_not_float_joined",
    "Satyr.Cluster.C59_float_mean",
    "Satyr.Cluster.C59_average_linkage"
   ],
   "note": "Proved for exact arithmetic. With float arithmetic the averages round: levels can decrease towards the root and cuts join or separate objects wrongly by one unit in the last place (C59_not_float_monotone, C59_not_float_joined); with rounding the levels are proved to be in [0, 1] and within n*7/2^24 of the mean distances (C59_float_mean)."
  },
  {
   "property": "C60",
   "status": "partial",
   "theorems": [
    "Satyr.Frames.C60_gdb_partial",
    "Satyr.Frames.C60_core_partial",
    "Satyr.Frames.C60_java_partial",
    "Satyr.Frames.C60_java_stacktrace_partial",
    "Satyr.Frames.C60_not_java",
    "Satyr.Frames.C60_not_gdb"
   ],
   "note": "GDB/core: total order for numbers below 2^31 (fails beyond, C60_not_gdb). Java: only the first frame is compared, so threads that differ further down compare equal (C60_not_java)."
  },
  {
   "property": "C61",
   "status": "partial",
   "theorems": [
    "Satyr.Crash.C61_remembered_partial",
    "Satyr.Crash.C61_known_partial",
    "Satyr.Crash.C61_not_unknown_tid",
    "Satyr.Crash.C61_not_missing_tid"
   ],
   "note": "Holds if the recorded thread id belongs to a thread, or none is recorded and the thread ids are known and distinct. Fails otherwise: C61_not_unknown_tid, C61_not_missing_tid."
  },
  {
   "property": "C62",
   "status": "proved",
   "theorems": [
    "Satyr.Normalize.C62_main",
    "Satyr.Normalize.C62_idempotent"
   ],
   "note": ""
  },
  {
   "property": "C63",
   "status": "proved",
   "theorems": [
    "Satyr.Os.C63_success",
    "Satyr.Os.C63_failure"
   ],
   "note": ""
  },
  {
   "property": "C64",
   "status": "partial",
   "theorems": [
    "Satyr.Report.C64_core",
    "Satyr.Report.C64_python",
    "Satyr.Report.C64_ruby",
    "Satyr.Report.C64_js",
    "Satyr.Report.C64_java",
    "Satyr.Report.C64_koops",
    "Satyr.Report.C64_not_defined",
    "Satyr.Report.C64_not_defined_js"
   ],
   "note": "Proved for every type; for Python, Ruby and JavaScript under the hypothesis that the crash frame has a file name. False without it: printf's %s is given a null pointer, for stack traces that are read from JSON (C64_not_defined, C64_not_defined_js)."
  },
  {
   "property": "C65",
   "status": "proved",
   "theorems": [
    "Satyr.Gdb.C65_libnames",
    "Satyr.Gdb.C65_not_unnamed"
   ],
   "note": "For named libraries (the list parser only yields named ones); an unnamed library is a null dereference (C65_not_unnamed)."
  },
  {
   "property": "C66",
   "status": "proved",
   "theorems": [
    "Satyr.Unstrip.C66_lines",
    "Satyr.Unstrip.C66_not_truncated"
   ],
   "note": "For lines of the expected form; a line cut off after the build id swallows the next one (C66_not_truncated)."
  },
  {
   "property": "C67",
   "status": "proved",
   "theorems": [
    "Satyr.Gdb.C67_lines"
   ],
   "note": ""
  },
  {
   "property": "C68",
   "status": "partial",
   "theorems": [
    "Satyr.Unstrip.C68_not_any",
    "Satyr.Unstrip.C68_no_frames_partial",
    "Satyr.Unstrip.C68_frame_partial"
   ],
   "note": "False: the loop steps to the next frame before using the current one, so any thread with frames makes it dereference a null pointer (C68_not_any); only traces without frames are converted (C68_no_frames_partial)."
  },
  {
   "property": "C69",
   "status": "partial",
   "theorems": [
    "Satyr.Text.Js.C69_read_partial",
    "Satyr.Text.Js.C69_names_partial",
    "Satyr.Text.Js.C69_not_empty_message",
    "Satyr.Text.Js.C69_not_lines",
    "Satyr.Text.Js.C69_not_new"
   ],
   "note": "Proved for messages of one line and function names of any number of words (the first word is kept), and with complete names for function names of one word; file names below /home come out with the user name replaced. False otherwise: a stack trace of an exception without a message is never read (C69_not_empty_message), nor one with a message of several lines (C69_not_lines); of longer function names only the first word is kept (C69_not_new)."
  },
  {
   "property": "C70",
   "status": "partial",
   "theorems": [
    "Satyr.Text.Java.C70_frame",
    "Satyr.Text.Java.C70_read_partial",
    "Satyr.Text.Java.C70_not_suppressed",
    "Satyr.Text.Java.C70_not_empty_message",
    "Satyr.Text.Java.C70_not_multiline",
    "Satyr.Text.Java.C70_not_empty_line",
    "Satyr.Text.Java.C70_print_partial",
    "Satyr.Text.Java.C70_not_printed_cause",
    "Satyr.Text.Java.C70_unique",
    "Satyr.Text.Java.C70_exact_frame",
    "Satyr.Text.Java.C70_exact",
    "Satyr.Text.Java.C70_rejects"
   ],
   "note": "C70_exact and C70_rejects: for every text, what is read, or that it is rejected, is what a grammar without cursors says (TraceText). From it as printed by the JVM: proved for chains of causes with one-line messages and suppressed exceptions after the calls in common. Refuted: exceptions suppressed in the first exception hide the cause (C70_not_suppressed), empty messages (C70_not_empty_message), messages of several lines (C70_not_multiline), an empty last line (C70_not_empty_line), printed threads with a cause (C70_not_printed_cause)."
  },
  {
   "property": "C71",
   "status": "partial",
   "theorems": [
    "Satyr.Gdb.C71_read_partial",
    "Satyr.Gdb.C71_frame_read_partial",
    "Satyr.Gdb.C71_last_frame_read_partial",
    "Satyr.Gdb.C71_chars",
    "Satyr.Gdb.C71_not_construct",
    "Satyr.Gdb.C71_not_two_words",
    "Satyr.Gdb.C71_not_const_pointer",
    "Satyr.Gdb.C71_not_vtable",
    "Satyr.Gdb.C71_not_operator_word",
    "Satyr.Gdb.C71_not_conversion",
    "Satyr.Gdb.C71_not_char_argument",
    "Satyr.Gdb.C71_not_file_space",
    "Satyr.Gdb.C71_sound",
    "Satyr.Gdb.C71_frame_sound"
   ],
   "note": "Reading is proved for the grammar FrameText (C71_read_partial, C71_frame_read_partial); soundness for all texts (C71_sound). False of some frames gdb prints: names after a type beginning with const, types of two words, conversions, vtable... names, characters as arguments, files with spaces (C71_not_*)."
  },
  {
   "property": "C72",
   "status": "partial",
   "theorems": [
    "Satyr.Gdb.C72_read_partial",
    "Satyr.Gdb.C72_headerless_partial",
    "Satyr.Gdb.C72_sound",
    "Satyr.Gdb.C72_not_named",
    "Satyr.Gdb.C72_not_process"
   ],
   "note": "Proved for the header lines and frame texts described by ThreadHeader and FrameText (the header grammar is exactly what is accepted). Missing: header lines with a thread name or with 'process', which are rejected (C72_not_named, C72_not_process), and the frame texts of C71_not_*."
  },
  {
   "property": "C73",
   "status": "partial",
   "theorems": [
    "Satyr.Gdb.C73_read_partial",
    "Satyr.Gdb.C73_threads_partial",
    "Satyr.Gdb.C73_headerless_partial",
    "Satyr.Gdb.C73_sound",
    "Satyr.Gdb.C73_not_first_frame",
    "Satyr.Gdb.C73_not_single_frame",
    "Satyr.Gdb.C73_not_first_line",
    "Satyr.Gdb.C73_not_all_threads"
   ],
   "note": "Proved for texts whose threads have the form of C72. False in general: without thread headers the first frame is in no thread (C73_not_first_frame), a single frame is rejected (C73_not_single_frame), a thread on the first line is not seen (C73_not_first_line), and one frame that is not understood silently drops all that follows (C73_not_all_threads)."
  },
  {
   "property": "C74",
   "status": "partial",
   "theorems": [
    "Satyr.Text.Koops.C74_read_partial",
    "Satyr.Text.Koops.C74_arm_read_partial",
    "Satyr.Text.Koops.C74_not_bracket",
    "Satyr.Text.Koops.C74_not_arm_address",
    "Satyr.Text.Koops.C74_not_marked",
    "Satyr.Text.Koops.C74_sound"
   ],
   "note": "Both directions. Read direction (C74_read_partial, C74_arm_read_partial) for lines whose function name does not begin with a bracket, a parenthesis, a question mark or 0x; soundness (C74_sound) for all texts. False otherwise: an unclosed bracket is read twice (C74_not_bracket), an address in the ARM form becomes a function name (C74_not_arm_address), a bare address is not reliable (C74_not_marked)."
  },
  {
   "property": "C75",
   "status": "partial",
   "theorems": [
    "Satyr.Text.Koops.C75_sound",
    "Satyr.Text.Koops.C75_read_partial",
    "Satyr.Text.Koops.C75_not_after_ip",
    "Satyr.Text.Koops.C75_not_new_ip"
   ],
   "note": "Read direction (C75_read_partial) for every sequence of frame lines, marks of special stacks, module list, instruction pointer, s390 end and other lines; soundness of the frames for all texts (C75_sound). False in general: the line after RIP is skipped even if it is a frame (C75_not_after_ip); the RIP line of newer kernels is lost and a later frame takes its place (C75_not_new_ip)."
  },
  {
   "property": "C76",
   "status": "proved",
   "theorems": [
    "Satyr.Short.C76_koops_frame",
    "Satyr.Short.C76_python_frame",
    "Satyr.Short.C76_ruby_frame",
    "Satyr.Short.C76_lines",
    "Satyr.Short.C76_prefix",
    "Satyr.Short.C76_none",
    "Satyr.Short.C76_core_frame",
    "Satyr.Short.C76_not_core",
    "Satyr.Short.C76_core",
    "Satyr.Short.C76_total",
    "Satyr.Short.C76_js",
    "Satyr.Short.C76_core_thread"
   ],
   "note": "Generic short text with every frame printer. C76_not_core is the witness that the condition on core frames is needed."
  },
  {
   "property": "C77",
   "status": "proved",
   "theorems": [
    "Satyr.Short.C77_optimized",
    "Satyr.Short.C77_frames",
    "Satyr.Short.C77_libs",
    "Satyr.Short.C77_text",
    "Satyr.Short.C77_frame",
    "Satyr.Short.C77_not_unnamed"
   ],
   "note": "gdb short text and optimized threads. C77_not_unnamed is the witness that libraries need names."
  },
  {
   "property": "C78",
   "status": "proved",
   "theorems": [
    "Satyr.Short.C78_frame",
    "Satyr.Short.C78_is_frame",
    "Satyr.Short.C78_not_found"
   ],
   "note": "Crash frame of gdb stack traces; C78_not_found shows a crash thread without a crash frame."
  },
  {
   "property": "C79",
   "status": "proved",
   "theorems": [
    "Satyr.Short.C79_koops_frame",
    "Satyr.Short.C79_koops",
    "Satyr.Short.C79_python_frame",
    "Satyr.Short.C79_python",
    "Satyr.Short.C79_ruby_frame",
    "Satyr.Short.C79_ruby",
    "Satyr.Short.C79_not_block",
    "Satyr.Short.C79_not_unknown",
    "Satyr.Short.C79_js_frame",
    "Satyr.Short.C79_js",
    "Satyr.Short.C79_java_frame",
    "Satyr.Short.C79_java"
   ],
   "note": "C79_not_block and C79_not_unknown are witnesses that the conditions on names are needed."
  },
  {
   "property": "C80",
   "status": "partial",
   "theorems": [
    "Satyr.Abrt.C80_report",
    "Satyr.Abrt.C80_python",
    "Satyr.Abrt.C80_ruby",
    "Satyr.Abrt.C80_java",
    "Satyr.Abrt.C80_koops",
    "Satyr.Abrt.C80_safe_partial",
    "Satyr.Abrt.C80_not_safe"
   ],
   "note": "C80_report is an equivalence with the specification IsReport, for every directory. C80_safe_partial excludes texts with a non-numeric epoch (C80_not_safe: memory is freed twice) and Python texts on which the Python parser leaves its input (C56). JavaScript problems are read as Java (C49_not_javascript)."
  },
  {
   "property": "C81",
   "status": "partial",
   "theorems": [
    "Satyr.Abrt.C81_count",
    "Satyr.Abrt.C81_digits",
    "Satyr.Abrt.C81_not_zero",
    "Satyr.Abrt.C81_not_newline"
   ],
   "note": "The exact condition is C81_count. False as stated for zero after a failed system call, because errno is not reset (C81_not_zero); a line break after the number is refused (C81_not_newline)."
  },
  {
   "property": "C82",
   "status": "partial",
   "theorems": [
    "Satyr.Abrt.C82_os",
    "Satyr.Abrt.C82_desktop_partial",
    "Satyr.Abrt.C82_not_prefix"
   ],
   "note": "C82_os is an equivalence. The variable is not found if an earlier line mentions its name (C82_not_prefix)."
  },
  {
   "property": "C83",
   "status": "partial",
   "theorems": [
    "Satyr.Abrt.C83_packages",
    "Satyr.Abrt.C83_epoch",
    "Satyr.Abrt.C83_not_epoch",
    "Satyr.Abrt.C83_merged_partial"
   ],
   "note": "C83_packages is an equivalence. Merging needs epochs below 2^31 (see C36, C37); texts that are no number or too large are accepted as epochs (C83_not_epoch)."
  },
  {
   "property": "C84",
   "status": "partial",
   "theorems": [
    "Satyr.Abrt.C84_message_partial",
    "Satyr.Abrt.C84_not_explained",
    "Satyr.Abrt.C84_not_only_failure"
   ],
   "note": "False in one case: unpackaged program whose list of libraries names no package (C84_not_explained). A message may also be left behind by a successful call (C84_not_only_failure)."
  },
  {
   "property": "C85",
   "status": "proved",
   "theorems": [
    "Satyr.Abrt.C85_fulfilled",
    "Satyr.Abrt.C85_read_back",
    "Satyr.Abrt.C85_written"
   ],
   "note": "File contents are as written; writing itself (short writes) is not modelled."
  },
  {
   "property": "C86",
   "status": "partial",
   "theorems": [
    "Satyr.Callgraph.C86_reached_partial",
    "Satyr.Callgraph.C86_failure_partial",
    "Satyr.Callgraph.C86_message",
    "Satyr.Callgraph.C86_not_distinct",
    "Satyr.Callgraph.C86_not_zero"
   ],
   "note": "Proved for programs in which every function calls some target twice and does not call address 0 (Usual), since otherwise the code is wrong: C86_not_distinct (the array of call targets is too short, out-of-bounds write) and C86_not_zero (0 ends the list of targets)."
  },
  {
   "property": "C87",
   "status": "partial",
   "theorems": [
    "Satyr.Callgraph.C87_all_partial",
    "Satyr.Callgraph.C87_failure",
    "Satyr.Callgraph.C87_not_relocated"
   ],
   "note": "Proved for functions that are not relocated; C87_not_relocated: otherwise the nodes have relative addresses. C87_failure is complete."
  },
  {
   "property": "C88",
   "status": "partial",
   "theorems": [
    "Satyr.Elf.C88_functions_partial",
    "Satyr.Elf.C88_not_other_segment",
    "Satyr.Elf.C88_shift",
    "Satyr.Elf.C88_not_long",
    "Satyr.Elf.C88_not_safe",
    "Satyr.Elf.C88_unknown_letter"
   ],
   "note": "Proved when .eh_frame lies in the same segment as the code and lengths have 4 bytes; negations: C88_not_other_segment, C88_shift, C88_not_long, C88_not_safe. Section data, CIE/FDE decoding by libdw are inputs."
  },
  {
   "property": "C89",
   "status": "partial",
   "theorems": [
    "Satyr.Elf.C89_offset_partial",
    "Satyr.Elf.C89_address_partial",
    "Satyr.Elf.C89_start_partial",
    "Satyr.Elf.C89_unique",
    "Satyr.Elf.C89_agree",
    "Satyr.Elf.C89_not_end"
   ],
   "note": "Proved for functions that do not end at the end of the address space; C89_not_end is the counterexample otherwise."
  },
  {
   "property": "C90",
   "status": "partial",
   "theorems": [
    "Satyr.Elf.C90_entries",
    "Satyr.Elf.C90_find",
    "Satyr.Elf.C90_safe_partial",
    "Satyr.Elf.C90_not_safe"
   ],
   "note": "Entries and lookup proved for all well-formed files; memory safety under the condition that .plt has contents made of 16 byte slots, C90_not_safe otherwise."
  },
  {
   "property": "C91",
   "status": "partial",
   "theorems": [
    "Satyr.Elf.C91_json_partial",
    "Satyr.Elf.C91_one",
    "Satyr.Elf.C91_not_empty"
   ],
   "note": "Proved for non-empty lists; C91_not_empty: the text for the empty list is not JSON."
  },
  {
   "property": "C92",
   "status": "partial",
   "theorems": [
    "Satyr.Unwind.C92_unknown",
    "Satyr.Unwind.C92_frame_partial",
    "Satyr.Unwind.C92_not_unnamed"
   ],
   "note": "Proved for modules with a name; C92_not_unnamed: without a name the frame has the build id with an absolute offset. What libdwfl delivers is the input."
  },
  {
   "property": "C93",
   "status": "proved",
   "theorems": [
    "Satyr.Unwind.C93_trace",
    "Satyr.Unwind.C93_message",
    "Satyr.Unwind.C93_limit"
   ],
   "note": "Exact: both directions. The libraries' answers are the input."
  },
  {
   "property": "C94",
   "status": "partial",
   "theorems": [
    "Satyr.Unwind.C94_trace_partial",
    "Satyr.Unwind.C94_message_partial",
    "Satyr.Unwind.C94_not_failure"
   ],
   "note": "Proved when attaching succeeds; C94_not_failure: otherwise there is an error message and also a stack trace."
  },
  {
   "property": "C95",
   "status": "partial",
   "theorems": [
    "Satyr.Unwind.C95_frames_partial",
    "Satyr.Unwind.C95_not_limit"
   ],
   "note": "Proved if no mark of a signal handler is among the frames left out; C95_not_limit gives the exact number of surplus frames otherwise. The ids of the threads are not set by the code (uninitialised memory) and are no part of the theorem."
  },
  {
   "property": "C96",
   "status": "proved",
   "theorems": [
    "Satyr.Unwind.C96_signal"
   ],
   "note": ""
  },
  {
   "property": "C97",
   "status": "partial",
   "theorems": [
    "Satyr.Unwind.C97_trace_partial",
    "Satyr.Unwind.C97_not_safe",
    "Satyr.Unwind.C97_not_only_failure"
   ],
   "note": "Proved if the unwinding of every thread can be started; C97_not_safe: otherwise the program writes through a NULL pointer; C97_not_only_failure: an error message may be set although there is a stack trace."
  },
  {
   "property": "C98",
   "status": "partial",
   "theorems": [
    "Satyr.Heap.C98_copy_partial",
    "Satyr.Heap.C98_not_crash_thread"
   ],
   "note": "Proved for all structures that can be copied and all behaviours of the allocator. Missing: pointers inside of the copy; the crash thread of a copied core stack trace is the thread of the original (C98_not_crash_thread), which may be freed before the copy is used."
  },
  {
   "property": "C99",
   "status": "partial",
   "theorems": [
    "Satyr.Heap.C99_free_partial",
    "Satyr.Heap.C99_not_reporter"
   ],
   "note": "Proved for all structures, reports with the reporter's name and version as constants. Missing: the name and version of a reporter that were read from JSON are never freed (C99_not_reporter)."
  },
  {
   "property": "C100",
   "status": "proved",
   "theorems": [
    "Satyr.Heap.C100_copy_free"
   ],
   "note": "For every list of structures that can be copied; the values of pointers to the crash thread are compared as they are (see C98)."
  },
  {
   "property": "C101",
   "status": "partial",
   "theorems": [
    "Satyr.Heap.C101_append_partial",
    "Satyr.Heap.C101_not_self"
   ],
   "note": "Proved for lists without memory in common. A list that is appended to itself becomes a cycle (C101_not_self)."
  },
  {
   "property": "C102",
   "status": "proved",
   "theorems": [
    "Satyr.Heap.C102_one_thread"
   ],
   "note": ""
  },
  {
   "property": "C103",
   "status": "partial",
   "theorems": [
    "Satyr.Py.C103_assign_partial",
    "Satyr.Py.C103_refused_partial",
    "Satyr.Py.C103_not_uint32",
    "Satyr.Py.C103_not_uint64",
    "Satyr.Py.C103_not_bool",
    "Satyr.Py.C103_not_nul",
    "Satyr.Py.C103_not_none",
    "Satyr.Py.C103_not_constant",
    "Satyr.Py.C103_every_value"
   ],
   "note": "C103_every_value says what every assignment of every value to every attribute does: it is refused with an exception, and nothing changes, or the attribute has a given value and no other attribute changes. For values of the right type this is the assigned value (C103_assign_partial), and texts and 16-bit numbers of wrong type or range are refused (C103_refused_partial). Negations proved: 32-bit overflow accepted, negative 64-bit accepted, failing truth value, texts with NUL, None for texts, constant reporter name."
  },
  {
   "property": "C104",
   "status": "partial",
   "theorems": [
    "Satyr.Py.C104_frames_partial",
    "Satyr.Py.C104_refs",
    "Satyr.Py.C104_two_threads_partial",
    "Satyr.Py.C104_not_repeated",
    "Satyr.Py.C104_not_empty",
    "Satyr.Py.C104_not_shared"
   ],
   "note": "Proved for nonempty lists without repeated frames; reference counts and the type check for all lists. Negations proved: repeated frame, empty list, frame shared by two threads."
  },
  {
   "property": "C105",
   "status": "partial",
   "theorems": [
    "Satyr.Py.C105_threads_partial",
    "Satyr.Py.C105_not_refs"
   ],
   "note": "Proved for nonempty lists without repeated objects. Negation proved: wrong reference counts after the exception."
  },
  {
   "property": "C106",
   "status": "partial",
   "theorems": [
    "Satyr.Py.C106_to_list_partial",
    "Satyr.Py.C106_not_refs",
    "Satyr.Py.C106_round_trip"
   ],
   "note": "Contents, order and round trip proved for all lists. Negation proved: each object has one reference too many."
  },
  {
   "property": "C107",
   "status": "proved",
   "theorems": [
    "Satyr.Py.C107_crash_thread"
   ],
   "note": "For all lists of threads and all results of the library."
  },
  {
   "property": "C108",
   "status": "partial",
   "theorems": [
    "Satyr.Py.C108_new",
    "Satyr.Py.C108_history_partial",
    "Satyr.Py.C108_not_unset",
    "Satyr.Py.C108_not_symmetric"
   ],
   "note": "Proved for all histories. Missing: pairs to which nothing was assigned (uninitialised memory, negation proved); the matrix is not symmetric for the user (negation proved)."
  },
  {
   "property": "C109",
   "status": "partial",
   "theorems": [
    "Satyr.Py.C109_threads",
    "Satyr.Py.C109_iff_partial",
    "Satyr.Py.C109_not_empty"
   ],
   "note": "Proved for all nonempty lists. Negation proved for empty lists (array of length zero)."
  },
  {
   "property": "C110",
   "status": "partial",
   "theorems": [
    "Satyr.Py.C110_pickle",
    "Satyr.Py.C110_distributed",
    "Satyr.Py.C110_wrong_number",
    "Satyr.Py.C110_not_zero",
    "Satyr.Py.C110_not_checked",
    "Satyr.Py.C110_linked_partial",
    "Satyr.Py.C110_not_repeated"
   ],
   "note": "Round trip of pickling and distributed computation proved for all lists of up to 46340 threads (see C01 for larger ones). Negations proved: zero parts divide by zero; the constructor does not check the number of distances; repeated parts are lost."
  },
  {
   "property": "C111",
   "status": "partial",
   "theorems": [
    "Satyr.Py.C111_objects",
    "Satyr.Py.C111_levels_partial",
    "Satyr.Py.C111_not_levels",
    "Satyr.Py.C111_cut"
   ],
   "note": "Objects and cut proved for all lists; levels for all positions but two, for which the negation is proved."
  },
  {
   "property": "C112",
   "status": "proved",
   "theorems": [
    "Satyr.Text.Js.C112_js_read",
    "Satyr.Text.Js.C112_js_error"
   ],
   "note": "Every text with lines separated by newlines; the grammar of frames is stated separately (FrameLine) and shown to be exactly what is read."
  },
  {
   "property": "C113",
   "status": "partial",
   "theorems": [
    "Satyr.GdbCompare.C113_symmetric",
    "Satyr.GdbCompare.C113_transitive_if_known",
    "Satyr.GdbCompare.C113_not_greater",
    "Satyr.GdbCompare.C113_known",
    "Satyr.GdbCompare.C113_zero_iff",
    "Satyr.GdbCompare.C113_identical",
    "Satyr.GdbCompare.C113_not_symmetric_jaro_winkler",
    "Satyr.GdbCompare.C113_not_symmetric_jaccard",
    "Satyr.GdbCompare.C113_not_zero_for_identical",
    "Satyr.GdbCompare.C113_not_symmetric_invented"
   ],
   "note": "Symmetry proved for Levenshtein (no invented names), Damerau-Levenshtein and Jaccard (also transitive frame comparison); false for Jaro-Winkler, for missing libraries with Jaccard and for functions with invented names (witnesses C113_not_...)."
  },
  {
   "property": "C114",
   "status": "partial",
   "theorems": [
    "Satyr.Generic.C114_frame_cmp_partial",
    "Satyr.Generic.C114_thread_cmp_partial",
    "Satyr.Generic.C114_not_thread_cmp",
    "Satyr.Generic.C114_not_gdb_text",
    "Satyr.Generic.C114_set_frames",
    "Satyr.Generic.C114_set_next",
    "Satyr.Generic.C114_set_threads",
    "Satyr.Generic.C114_crash_thread",
    "Satyr.Generic.C114_duphash",
    "Satyr.Generic.C114_cmp_distance",
    "Satyr.Generic.C114_dup",
    "Satyr.Generic.C114_reason",
    "Satyr.Generic.C114_walk",
    "Satyr.Generic.C114_type",
    "Satyr.Generic.C114_json",
    "Satyr.Generic.C114_short_text",
    "Satyr.Generic.C114_bthash"
   ],
   "note": "Proved for all seven types: walking threads and frames, counts, crash thread, short text, reason, JSON, both hashes, copies, setters with exact abort conditions, comparison of frames and threads (numbers below 2^31, as for C23 and C60). False: two threads of a type with one thread cannot be compared (C114_not_thread_cmp), the text of a gdb frame through the interface is undefined (C114_not_gdb_text). A core stack trace with its own crash thread is outside C114_set_threads (its pointer would dangle)."
  },
  {
   "property": "C115",
   "status": "proved",
   "theorems": [
    "Satyr.Cluster.C115_drawn",
    "Satyr.Cluster.C115_nearest",
    "Satyr.Cluster.C115_float"
   ],
   "note": "For any arithmetic with total, transitive comparison; C115_float for float with any rounding mode (no NaN)."
  },
  {
   "property": "C116",
   "status": "partial",
   "theorems": [
    "Satyr.Platform.C116_parts",
    "Satyr.Platform.C116_names",
    "Satyr.Platform.C116_from_string",
    "Satyr.Platform.C116_parse",
    "Satyr.Platform.C116_json_partial",
    "Satyr.Platform.C116_not_guessed"
   ],
   "note": "The JSON round trip is proved for stack traces read for a platform with numbers below 2^31 and frames with some attribute; it is false for stack traces read without a platform (C116_not_guessed): engine and runtime change places."
  },
  {
   "property": "C117",
   "status": "partial",
   "theorems": [
    "Satyr.Cli.C117_help",
    "Satyr.Cli.C117_version",
    "Satyr.Cli.C117_status",
    "Satyr.Cli.C117_report",
    "Satyr.Cli.C117_unknown",
    "Satyr.Cli.C117_not_defined"
   ],
   "note": "Status, messages and the printed report are proved for all arguments; that the behaviour is always defined is false (C117_not_defined): an unassigned message is printed for directories for which reading fails without message. Unwinding is a parameter of the model."
  },
  {
   "property": "C118",
   "status": "partial",
   "theorems": [
    "Satyr.Cli.C118_names_partial",
    "Satyr.Cli.C118_not_source",
    "Satyr.Cli.C118_not_lines"
   ],
   "note": "False (C118_not_source, C118_not_lines): white space is not skipped, so source files are never read. Proved: exactly what is printed for any file of lines with a function, a space and anything else."
  },
  {
   "property": "C119",
   "status": "partial",
   "theorems": [
    "Satyr.Cli.C119_refused",
    "Satyr.Cli.C119_duphash",
    "Satyr.Cli.C119_no_duphash",
    "Satyr.Cli.C119_hook_partial",
    "Satyr.Cli.C119_not_number"
   ],
   "note": "duphash proved for all files. unwind-from-hook: exactly which arguments are refused (C119_refused), and decimal numbers below 2^31 are passed on; that all other texts are refused is false (C119_not_number). Unwinding itself is a parameter."
  },
  {
   "property": "C120",
   "status": "partial",
   "theorems": [
    "Satyr.Abrt.C120_created",
    "Satyr.Abrt.C120_created_gdb",
    "Satyr.Abrt.C120_failed",
    "Satyr.Abrt.C120_report_partial",
    "Satyr.Abrt.C120_report_gdb_partial",
    "Satyr.Abrt.C120_not_empty"
   ],
   "note": "Success, failure and the file are characterized for all directories and failures of writing. The report is proved for core dumps and gdb outputs with threads; without threads the file is not JSON and no report can be read (C120_not_empty). What libdwfl sees in the core dump is a parameter."
  },
  {
   "property": "C121",
   "status": "partial",
   "theorems": [
    "Satyr.Py.C121_json_partial",
    "Satyr.Py.C121_refused",
    "Satyr.Py.C121_new_partial",
    "Satyr.Py.C121_type",
    "Satyr.Py.C121_auth",
    "Satyr.Py.C121_not_empty",
    "Satyr.Py.C121_not_repeated",
    "Satyr.Py.C121_not_lists",
    "Satyr.Py.C121_not_javascript",
    "Satyr.Py.C121_not_without_stacktrace",
    "Satyr.Py.C121_str"
   ],
   "note": "C121_json_partial asks for a non-empty list without repeated packages, C121_new_partial for a stack trace of a kind the class knows. The rest is false: C121_not_empty (an emptied list still writes the old packages), C121_not_repeated, C121_not_lists (changed lists of threads and frames are not written), C121_not_javascript, C121_not_without_stacktrace (null pointer)."
  },
  {
   "property": "C122",
   "status": "partial",
   "theorems": [
    "Satyr.Hash.C122_python_partial",
    "Satyr.Hash.C122_ruby_partial",
    "Satyr.Hash.C122_js_partial",
    "Satyr.Hash.C122_java_partial",
    "Satyr.Hash.C122_gdb_partial",
    "Satyr.Hash.C122_core_partial",
    "Satyr.Hash.C122_koops_partial",
    "Satyr.Hash.C122_not_gdb",
    "Satyr.Hash.C122_not_koops"
   ],
   "note": "Proved for attributes that do not contain the separators of the text (newlines, and blanks, plus signs, slashes or leading zeros where these separate) and without normalization; C122_not_gdb and C122_not_koops show that the full claim is false. The exact texts are in C19_text and C20_*_text."
  },
  {
   "property": "C123",
   "status": "proved",
   "theorems": [
    "Satyr.Json.C123_core",
    "Satyr.Json.C123_python",
    "Satyr.Json.C123_ruby",
    "Satyr.Json.C123_java",
    "Satyr.Json.C123_javascript",
    "Satyr.Json.C123_koops",
    "Satyr.Json.C123_packages",
    "Satyr.Json.C123_os",
    "Satyr.Report.C123_koops_undefined",
    "Satyr.Report.C123_report",
    "Satyr.Report.C123_report_read"
   ],
   "note": "Equivalences for all readers; for reports the order of the authentication entries is left open. JSON numbers with fractions are not in the model of values."
  },
  {
   "property": "C124",
   "status": "partial",
   "theorems": [
    "Satyr.Unwind.C124_parse_partial",
    "Satyr.Unwind.C124_cases",
    "Satyr.Unwind.C124_not_closed",
    "Satyr.Unwind.C124_not_freed",
    "Satyr.Unwind.C124_status",
    "Satyr.Unwind.C124_prepare_partial",
    "Satyr.Unwind.C124_hook",
    "Satyr.Unwind.C124_not_detached",
    "Satyr.Unwind.C124_hook_stdin"
   ],
   "note": "Proved for every outcome of the external calls, except that: a core dump opened as descriptor 0 is never closed (C124_not_closed; standard input is closed by the hook itself, C124_hook_stdin), the segments stay if dwfl_getmodules fails after a module (C124_not_freed), and a process stays traced if a step fails after it was seized (C124_not_detached). Memory of the stack trace itself is covered by the heap properties."
  },
  {
   "property": "C125",
   "status": "partial",
   "theorems": [
    "Satyr.Py.Gdb.C125_limit_partial",
    "Satyr.Py.Gdb.C125_libnames_partial",
    "Satyr.Py.Gdb.C125_normalize",
    "Satyr.Py.Gdb.C125_crash_frame_partial",
    "Satyr.Py.Gdb.C125_short_text",
    "Satyr.Py.Gdb.C125_new",
    "Satyr.Py.Gdb.C125_history_partial",
    "Satyr.Py.Gdb.C125_not_alive",
    "Satyr.Py.Gdb.C125_not_counted",
    "Satyr.Py.Gdb.C125_not_copied",
    "Satyr.Py.Gdb.C125_copy_partial",
    "Satyr.Py.Gdb.C125_not_hand_made",
    "Satyr.Py.Gdb.C125_not_empty",
    "Satyr.Py.Gdb.C125_not_zero",
    "Satyr.Py.Gdb.C125_address_partial",
    "Satyr.Py.Gdb.C125_not_high",
    "Satyr.Py.Gdb.C125_str"
   ],
   "note": "Proved for stack traces made by the parser or by these methods and for all histories of calls; the theorems named not show where it is false: frames kept by the caller after limit_frame_depth, the crash frame that is referenced only once, copies after find_crash_frame, hand-made threads, no threads, depth <= 0, addresses from 2^63 on. Type errors of the lists and the attributes of threads are in C104 and C106."
  },
  {
   "property": "C126",
   "status": "partial",
   "theorems": [
    "Satyr.Py.Base.C126_frame_equals_partial",
    "Satyr.Py.Base.C126_frame_equals_other",
    "Satyr.Py.Base.C126_thread_equals_partial",
    "Satyr.Py.Base.C126_thread_equals_types",
    "Satyr.Py.Base.C126_thread_equals_other",
    "Satyr.Py.Base.C126_not_single",
    "Satyr.Py.Base.C126_not_type_error",
    "Satyr.Py.Base.C126_distance",
    "Satyr.Py.Base.C126_distance_refused",
    "Satyr.Py.Base.C126_distance_matrix",
    "Satyr.Py.Base.C126_duphash",
    "Satyr.Py.Base.C126_bthash",
    "Satyr.Py.Base.C126_short_text",
    "Satyr.Py.Base.C126_from_json_partial",
    "Satyr.Py.Base.C126_not_platform",
    "Satyr.Py.Base.C126_not_emptied",
    "Satyr.Py.Base.C126_not_gdb_string"
   ],
   "note": "Proved for the methods listed, for all objects, arguments and flags. The claim is false, with witnesses, for equals of two stack traces with a single thread (aborts), equals with a list that holds something other than frames (result with an exception set), from_json of JavaScript documents with a platform (uninitialised variable), the short text of gdb frames, and lists of frames that were emptied (C126_not_emptied)."
  },
  {
   "property": "C127",
   "status": "partial",
   "theorems": [
    "Satyr.Py.Text.C127_ruby_partial",
    "Satyr.Py.Text.C127_not_ruby_line",
    "Satyr.Py.Text.C127_not_ruby_large",
    "Satyr.Py.Text.C127_not_ruby_block",
    "Satyr.Py.Text.C127_js_partial",
    "Satyr.Py.Text.C127_not_js_large",
    "Satyr.Py.Text.C127_java_partial",
    "Satyr.Py.Text.C127_not_java_unknown",
    "Satyr.Py.Text.C127_not_java_exception",
    "Satyr.Py.Text.C127_not_python",
    "Satyr.Py.Text.C127_koops_partial",
    "Satyr.Py.Text.C127_not_koops_address",
    "Satyr.Py.Text.C127_not_koops_zero",
    "Satyr.Py.Text.C127_not_koops_error"
   ],
   "note": "Proved for all Ruby and JavaScript texts apart from line 0, numbers above 2147483647 and a written block level 0, for Java calls with a source and for kernel oops frames without addresses; false, with witnesses, in the cases left out, and for every Python frame."
  },
  {
   "property": "C128",
   "status": "partial",
   "theorems": [
    "Satyr.Rpm.Db.C128_found_partial",
    "Satyr.Rpm.Db.C128_incomplete",
    "Satyr.Rpm.Db.C128_cases",
    "Satyr.Rpm.Db.C128_config",
    "Satyr.Rpm.Db.C128_nothing",
    "Satyr.Rpm.Db.C128_not_epoch"
   ],
   "note": "Proved for all databases whose headers have all attributes; otherwise exactly which message there is (C128_incomplete, C128_cases). False: one package without an epoch, as most are, hides all that were found (C128_not_epoch), and the container of a missing tag is not released (C128_incomplete)."
  },
  {
   "property": "C129",
   "status": "partial",
   "theorems": [
    "Satyr.Py.Objects.C129_package_partial",
    "Satyr.Py.Objects.C129_not_default_epoch",
    "Satyr.Py.Objects.C129_not_exact_epoch",
    "Satyr.Py.Objects.C129_os",
    "Satyr.Py.Objects.C129_text_partial",
    "Satyr.Py.Objects.C129_text_nvr_partial",
    "Satyr.Py.Objects.C129_not_text",
    "Satyr.Py.Objects.C129_role",
    "Satyr.Py.Objects.C129_symbols",
    "Satyr.Py.Objects.C129_os_text_partial",
    "Satyr.Py.Objects.C129_not_os_text",
    "Satyr.Py.Objects.C129_not_library",
    "Satyr.Py.Objects.C129_library_partial"
   ],
   "note": "False for an epoch that is not given (the variable is not initialized, C129_not_default_epoch), an epoch of more than 32 bits (C129_not_exact_epoch), parts that contain the separators or are missing (C129_not_text, C129_not_os_text) and libraries without name (C129_not_library); proved for all other objects."
  },
  {
   "property": "C130",
   "status": "partial",
   "theorems": [
    "Satyr.Py.Kerneloops.C130_made",
    "Satyr.Py.Kerneloops.C130_taints",
    "Satyr.Py.Kerneloops.C130_read_partial",
    "Satyr.Py.Kerneloops.C130_normalize_partial",
    "Satyr.Py.Kerneloops.C130_idempotent",
    "Satyr.Py.Kerneloops.C130_bad_item",
    "Satyr.Py.Kerneloops.C130_dup_partial",
    "Satyr.Py.Kerneloops.C130_not_emptied",
    "Satyr.Py.Kerneloops.C130_text"
   ],
   "note": "False for a list from which all frames were removed (C130_not_emptied: the old frames come back); modules and frames are proved for the texts of the grammar of C75."
  },
  {
   "property": "C131",
   "status": "partial",
   "theorems": [
    "Satyr.Py.Core.C131_short_text_partial",
    "Satyr.Py.Core.C131_crash_thread_partial",
    "Satyr.Py.Core.C131_bthash_partial",
    "Satyr.Py.Core.C131_bad_item",
    "Satyr.Py.Core.C131_made",
    "Satyr.Py.Core.C131_read_back",
    "Satyr.Py.Core.C131_dup_partial",
    "Satyr.Py.Core.C131_text",
    "Satyr.Py.Core.C131_not_dup_crash",
    "Satyr.Py.Core.C131_not_dup_freed",
    "Satyr.Py.Core.C131_not_removed",
    "Satyr.Py.Core.C131_not_emptied"
   ],
   "note": "False for copies of objects with a marked crash thread (C131_not_dup_crash, C131_not_dup_freed) and for lists from which the crash thread (C131_not_removed) or all threads (C131_not_emptied) were removed: the C stack trace keeps the pointers. A thread that is twice in a list is outside the model."
  },
  {
   "property": "C132",
   "status": "partial",
   "theorems": [
    "Satyr.Py.Threads.C132_gdb_made",
    "Satyr.Py.Threads.C132_java_made",
    "Satyr.Py.Threads.C132_gdb_quality_partial",
    "Satyr.Py.Threads.C132_java_quality_partial",
    "Satyr.Py.Threads.C132_dup_partial",
    "Satyr.Py.Threads.C132_format_partial",
    "Satyr.Py.Threads.C132_round_trip_partial",
    "Satyr.Py.Threads.C132_java_format_partial",
    "Satyr.Py.Threads.C132_java_lines",
    "Satyr.Py.Threads.C132_bad_item",
    "Satyr.Py.Threads.C132_text",
    "Satyr.Py.Threads.C132_core",
    "Satyr.Py.Threads.C132_not_format",
    "Satyr.Py.Threads.C132_not_format_freed",
    "Satyr.Py.Threads.C132_not_emptied"
   ],
   "note": "False for format_funs after the list was changed (C132_not_format; C132_not_format_freed: it reads released memory) and for a list from which all frames were removed (C132_not_emptied). A frame that is twice in a list or in two lists is outside the model."
  },
  {
   "property": "C133",
   "status": "partial",
   "theorems": [
    "Satyr.Py.FrameObjects.C133_number",
    "Satyr.Py.FrameObjects.C133_text_partial",
    "Satyr.Py.FrameObjects.C133_not_text",
    "Satyr.Py.FrameObjects.C133_not_signal",
    "Satyr.Py.FrameObjects.C133_made",
    "Satyr.Py.FrameObjects.C133_read_partial",
    "Satyr.Py.FrameObjects.C133_total_partial",
    "Satyr.Py.FrameObjects.C133_not_total",
    "Satyr.Py.FrameObjects.C133_in_file",
    "Satyr.Py.FrameObjects.C133_arguments",
    "Satyr.Py.FrameObjects.C133_not_calls_func",
    "Satyr.Py.FrameObjects.C133_not_same_file",
    "Satyr.Py.FrameObjects.C133_core_text_partial",
    "Satyr.Py.FrameObjects.C133_not_core_text",
    "Satyr.Py.FrameObjects.C133_not_core_unknown"
   ],
   "note": "False for calls_func, which is 0 for every frame and name (C133_not_calls_func); another file with the given name inside is taken too (C133_not_same_file). Texts are different only if names have no characters that begin another part (C133_not_text, C133_not_core_text); frames without a name are shown as signal handlers (C133_not_signal), unknown addresses of core frames as the largest address (C133_not_core_unknown). A text without a line feed at the end can make the parser leave it (C133_not_total)."
  },
  {
   "property": "C134",
   "status": "partial",
   "theorems": [
    "Satyr.Py.Lang.C134_made",
    "Satyr.Py.Lang.C134_total",
    "Satyr.Py.Lang.C134_not_python",
    "Satyr.Py.Lang.C134_python",
    "Satyr.Py.Lang.C134_ruby",
    "Satyr.Py.Lang.C134_short_partial",
    "Satyr.Py.Lang.C134_limit",
    "Satyr.Py.Lang.C134_dup_partial",
    "Satyr.Py.Lang.C134_text",
    "Satyr.Py.Lang.C134_bad_item",
    "Satyr.Py.Lang.C134_ruby_short",
    "Satyr.Py.Lang.C134_js_short",
    "Satyr.Py.Lang.C134_not_short",
    "Satyr.Py.Lang.C134_not_emptied"
   ],
   "note": "Proved: constructors (exactly which arguments and texts, what is shown), the argument of to_short_text, short texts, copies, str, TypeError, and from texts of Ruby and V8 to the short text. The assumption Shows excludes lists that were emptied (C134_not_emptied); a JavaScript frame without a file name is printed through a null pointer (C134_not_short); a Python text that ends within a stack trace is read beyond its end (C134_not_python)."
  },
  {
   "property": "C135",
   "status": "partial",
   "theorems": [
    "Satyr.Generic.C135_duphash_partial",
    "Satyr.Generic.C135_bthash_partial",
    "Satyr.Generic.C135_short_text_partial",
    "Satyr.Generic.C135_crash_thread",
    "Satyr.Generic.C135_reason_partial",
    "Satyr.Generic.C135_distance_partial",
    "Satyr.Generic.C135_duphash_frames",
    "Satyr.Generic.C135_sent",
    "Satyr.Generic.C135_not_crash_thread",
    "Satyr.Generic.C135_not_reason",
    "Satyr.Generic.C135_not_high_address"
   ],
   "note": "Proved for stack traces whose numbers that go into the result are small (less than 2^63, lines less than 2^31) and whose marks of special names come with names. For the hash for duplicates and the crash thread the conditions are shown to be exact (C135_duphash_frames, C135_crash_thread). False without them: a core stack trace with an unknown crash thread is read with the first thread marked (C135_not_crash_thread), an oops loses its reason (C135_not_reason), and addresses of the kernel, which have the highest bit, are cut (C135_not_high_address). gdb stack traces are not written as JSON."
  },
  {
   "property": "C136",
   "status": "partial",
   "theorems": [
    "Satyr.Gdb.C136_gdb_read",
    "Satyr.Gdb.C136_gdb_partial",
    "Satyr.Gdb.C136_not_gdb",
    "Satyr.Gdb.C136_not_gdb_column",
    "Satyr.Text.Java.C136_java_read",
    "Satyr.Text.Java.C136_java",
    "Satyr.Text.Java.C136_not_java",
    "Satyr.Text.Python.C136_python",
    "Satyr.Text.Python.C136_python_read",
    "Satyr.Text.Python.C136_not_python",
    "Satyr.Text.Python.C136_not_python_name",
    "Satyr.Text.Ruby.C136_ruby_read",
    "Satyr.Text.Ruby.C136_ruby",
    "Satyr.Text.Ruby.C136_not_ruby_column",
    "Satyr.Text.Ruby.C136_not_ruby_line"
   ],
   "note": "Ruby: a text is read exactly if reading does not stop (C136_ruby_read); the message names line k + 1 after k records, with a column between -3 and the length of the rest, and this is the true line if every record is one line (C136_ruby). Not proved because false: the true line after a message of several lines (C136_not_ruby_line) and a column that is not negative (C136_not_ruby_column). Python: C136_python_read, and the line that is named is always two after that of the header (C136_python), so it is wrong for every text whose first frame cannot be read and that does not begin with an empty line (C136_not_python), and does not depend on the frames that were read (C136_not_python_name). Java: C136_java_read; the message says why reading stopped and names exactly the line and column of the place if no line of the text is empty or ends with white space, a colon, a quotation mark or at, and otherwise no line after it (C136_java); false in general, because lines that are skipped as white space are not counted (C136_not_java). gdb: C136_gdb_read; the message says why reading stopped, names no line before the place (unless the file of a frame is missing), names the line of the place if no frame header is on two lines, and then also its column unless the text has ended there or a colon is missing (C136_gdb_partial). Not proved because false: the line after a crash frame whose header is on two lines, which is counted twice (C136_not_gdb), and the column at the end of the text (C136_not_gdb_column)."
  },
  {
   "property": "C137",
   "status": "partial",
   "theorems": [
    "Satyr.Text.Home.C137_paths",
    "Satyr.Text.Home.C137_js",
    "Satyr.Text.Home.C137_same_js",
    "Satyr.Text.Home.C137_ruby",
    "Satyr.Text.Home.C137_same_ruby",
    "Satyr.Text.Home.C137_python",
    "Satyr.Text.Home.C137_same_python",
    "Satyr.Text.Home.C137_java",
    "Satyr.Text.Home.C137_same_java",
    "Satyr.Text.Home.C137_core",
    "Satyr.Text.Home.C137_not_gdb",
    "Satyr.Text.Home.C137_not_url",
    "Satyr.Text.Home.C137_not_core"
   ],
   "note": "Proved for all texts of JavaScript, Ruby, Python and Java that are read (file names, class files) and for normalized core stack traces; C137_paths says which paths become equal. False, with witnesses: gdb source files keep the user name (C137_not_gdb); a class file read from a URL with slashes before the path keeps it (C137_not_url); the name of the user can be mistaken for a library during core normalization, so two users get different frames (C137_not_core). Core stack traces that are not normalized are not covered."
  },
  {
   "property": "C138",
   "status": "proved",
   "theorems": [
    "Satyr.Cluster.C138_order",
    "Satyr.Cluster.C138_clusters",
    "Satyr.Cluster.C138_float",
    "Satyr.Cluster.C138_exact",
    "Satyr.Cluster.C138_not_ties"
   ],
   "note": "C138_order and C138_clusters are for every arithmetic with a linear order and a symmetric average; C138_float and C138_exact are the float and exact cases. With ties the claim is false: C138_not_ties."
  },
  {
   "property": "C139",
   "status": "partial",
   "theorems": [
    "Satyr.Generic.C139_threads_partial",
    "Satyr.Generic.C139_not_gdb",
    "Satyr.Generic.C139_not_core",
    "Satyr.Metrics.C139_triangle",
    "Satyr.Metrics.C139_short_between",
    "Satyr.Metrics.C139_interchangeable",
    "Satyr.Metrics.C139_float_jaccard",
    "Satyr.Metrics.C139_float_edit",
    "Satyr.Metrics.C139_not_levenshtein",
    "Satyr.Metrics.C139_not_damerau",
    "Satyr.Metrics.C139_not_jaro_winkler"
   ],
   "note": "Without factor false for the edit distances (C139_not_levenshtein, C139_not_damerau), false for the Jaro-Winkler similarity, and false for GDB and core frames with unknown library or function (C139_not_gdb, C139_not_core). With the factors proved for every equivalence of frames and for all known frames of every type."
  },
  {
   "property": "C140",
   "status": "partial",
   "theorems": [
    "Satyr.Py.Java.C140_short_text_partial",
    "Satyr.Py.Java.C140_crash_thread_partial",
    "Satyr.Py.Java.C140_bthash_partial",
    "Satyr.Py.Java.C140_bad_item",
    "Satyr.Py.Java.C140_empty",
    "Satyr.Py.Java.C140_parsed",
    "Satyr.Py.Java.C140_from_json",
    "Satyr.Py.Java.C140_read_back",
    "Satyr.Py.Java.C140_gdb_from_json",
    "Satyr.Py.Java.C140_dup_partial",
    "Satyr.Py.Java.C140_free",
    "Satyr.Py.Java.C140_list",
    "Satyr.Py.Java.C140_text",
    "Satyr.Py.Java.C140_not_emptied"
   ],
   "note": "False for a list from which all threads were removed (C140_not_emptied): the C stack trace keeps the old ones; the theorems marked _partial exclude that. A thread that is twice in a list is outside the model."
  },
  {
   "property": "C141",
   "status": "partial",
   "theorems": [
    "Satyr.Text.Ruby.C141_ruby_partial",
    "Satyr.Text.Ruby.C141_not_ruby_class",
    "Satyr.Text.Js.C141_js",
    "Satyr.Text.C141_not_java",
    "Satyr.Text.C141_not_python",
    "Satyr.Text.Koops.C141_koops_partial",
    "Satyr.Text.Koops.C141_not_koops_ip",
    "Satyr.Text.Koops.C141_not_koops_blank"
   ],
   "note": "False of the code for Java (the frames of a cause come before those of the exception), Python (a traceback that ends after its calls is read beyond its end), for the class of a Ruby exception when the text is cut off within the message, and for oopses when the instruction pointer is in the missing part or its line is cut off. GDB backtraces are not covered."
  },
  {
   "property": "C142",
   "status": "partial",
   "theorems": [
    "Satyr.Generic.C142_duphash_partial",
    "Satyr.Generic.C142_crash_thread",
    "Satyr.Generic.C142_crash_position",
    "Satyr.Generic.C142_text_partial",
    "Satyr.Generic.C142_distance",
    "Satyr.Generic.C142_not_bthash",
    "Satyr.Generic.C142_not_unidentified",
    "Satyr.Unwind.C142_core_partial",
    "Satyr.Unwind.C142_core_duphash_partial",
    "Satyr.Unwind.C142_not_unnamed"
   ],
   "note": "Proved for core dumps (libdwfl) whose frames are in modules with a name and have a build id or a known function, and for all stack traces that are equal apart from addresses (and from which of these are zero): hash for duplicates if each frame of a core dump has a build id, function or fingerprint and each frame of an oops a function, crash thread, reason, distances, and the short text except for gdb stack traces, whose text depends on the libraries around the addresses. False for the hash of the whole stack trace (C142_not_bthash), for frames with nothing but an address (C142_not_unidentified), and for modules without a name (C142_not_unnamed)."
  },
  {
   "property": "C143",
   "status": "partial",
   "theorems": [
    "Satyr.Cluster.C143_clusters",
    "Satyr.Cluster.C143_exact",
    "Satyr.Cluster.C143_float",
    "Satyr.Cluster.C143_float_edit",
    "Satyr.Cluster.C143_float_jaccard",
    "Satyr.Generic.C143_threads_partial",
    "Satyr.Generic.C143_not_unknown",
    "Satyr.Generic.C143_not_jaro_winkler"
   ],
   "note": "Proved for any arithmetic whose averages of zeros are 0 and whose averages of distances of at least a bound are at least this bound (C143_clusters), for exact arithmetic (C143_exact), for floats with every rounding mode (C143_float), for the computed edit and Jaccard distances of up to 2^24 threads (C143_float_edit, C143_float_jaccard), and for threads of all types (C143_threads_partial). Missing, because false: threads with frames whose library or function is not known, where distance 0 is not transitive (C143_not_unknown), and the Jaro-Winkler metric, which is a similarity, so that 0 means that nothing is common (C143_not_jaro_winkler)."
  },
  {
   "property": "C144",
   "status": "partial",
   "theorems": [
    "Satyr.Heap.C144_core",
    "Satyr.Heap.C144_java",
    "Satyr.Heap.C144_python",
    "Satyr.Heap.C144_ruby",
    "Satyr.Heap.C144_js_partial",
    "Satyr.Heap.C144_koops_partial",
    "Satyr.Heap.C144_packages",
    "Satyr.Heap.C144_freed_partial",
    "Satyr.Heap.C144_not_modules",
    "Satyr.Heap.C144_not_js_null",
    "Satyr.Heap.C144_not_js_message"
   ],
   "note": "Proved for core, Java, Python and Ruby stack traces and for lists of packages, without any condition. For kernel oopses under the condition that the modules are fewer than 128 texts (otherwise undefined behaviour, C144_not_modules), for JavaScript under the condition that the caller passes a pointer to a NULL for the message (otherwise NULL is dereferenced or a good document refused, C144_not_js_null, C144_not_js_message)."
  },
  {
   "property": "C145",
   "status": "partial",
   "theorems": [
    "Satyr.Heap.C145_system_partial",
    "Satyr.Heap.C145_report_partial",
    "Satyr.Heap.C145_system_freed_partial",
    "Satyr.Heap.C145_report_freed_partial",
    "Satyr.Heap.C145_not_desktop",
    "Satyr.Heap.C145_not_two_messages",
    "Satyr.Heap.C145_not_reporter",
    "Satyr.Heap.C145_not_reporter_freed",
    "Satyr.Heap.C145_not_trace",
    "Satyr.Heap.C145_not_auth"
   ],
   "note": "The full claim is false of the code: a desktop or variant of the wrong type, a stack trace that cannot be read and authentication entries that are not texts give a message although the result is not NULL (C145_not_desktop, C145_not_trace), and if there are two such the first message is lost (C145_not_two_messages, C145_not_auth); the texts of the reporter are never freed (C145_not_reporter, C145_not_reporter_freed). Proved for all other documents."
  },
  {
   "property": "C146",
   "status": "partial",
   "theorems": [
    "Satyr.Heap.C146_message_partial",
    "Satyr.Heap.C146_packages",
    "Satyr.Heap.C146_not_js"
   ],
   "note": "C146_message_partial; missing: JavaScript stack traces with a message from before are refused without a fault (C146_not_js), and kernel oopses with 128 or more modules or modules that are not texts (undefined, C144_not_modules). C146_packages is complete."
  },
  {
   "property": "C147",
   "status": "partial",
   "theorems": [
    "Satyr.Heap.C147_js",
    "Satyr.Heap.C147_ruby_partial",
    "Satyr.Heap.C147_not_ruby",
    "Satyr.Heap.C147_python_partial",
    "Satyr.Heap.C147_not_python",
    "Satyr.Heap.C147_not_python_name",
    "Satyr.Heap.C147_not_owned"
   ],
   "note": "Proved for JavaScript for every text, for Ruby for every text that begins with a frame, and for Python for every text without frames. False otherwise: every Python stack trace that is read leaves the message about the frame after the last one behind (C147_not_python), so does a Python text with frames but without an exception name (C147_not_python_name), and a Ruby text that does not begin with a frame loses the message about the frame (C147_not_ruby). The caller cannot tell whether to free the message of a Python text (C147_not_owned)."
  },
  {
   "property": "C148",
   "status": "partial",
   "theorems": [
    "Satyr.Heap.C148_koops",
    "Satyr.Heap.C148_nothing_lost_partial",
    "Satyr.Heap.C148_plain_partial",
    "Satyr.Heap.C148_not_labels",
    "Satyr.Heap.C148_not_modules"
   ],
   "note": "False as stated. Proved for all texts: the texts that are lost are exactly those of lostTexts (the label of a stack that another label follows before the end of the stack, and the second part of a module name broken over two lines), and everything else belongs to the result or is freed; nothing is lost if the text has no label and no list of modules. C148_not_labels and C148_not_modules are the two ways to lose memory."
  },
  {
   "property": "C149",
   "status": "partial",
   "theorems": [
    "Satyr.Heap.C149_java",
    "Satyr.Heap.C149_freed_partial",
    "Satyr.Heap.C149_failure_partial",
    "Satyr.Heap.C149_not_failure"
   ],
   "note": "False if the text cannot be read (C149_not_failure): the structure of the exception is freed, but not the frames after it that had been read (lib/java_frame.c:350-354, 398-402). C149_java says for all texts what memory is at the end; C149_freed_partial and C149_failure_partial are the two cases: a text that can be read loses nothing, and one that cannot loses nothing if and only if no frame had been read."
  },
  {
   "property": "C150",
   "status": "proved",
   "theorems": [
    "Satyr.Heap.C150_frame",
    "Satyr.Heap.C150_thread",
    "Satyr.Heap.C150_trace",
    "Satyr.Heap.C150_defined"
   ],
   "note": "The property is about texts that the reader does not leave; C56 says which these are, and C150_defined states that all texts ending with a line break are among them if the list of shared libraries can be read. The freeing of a growing text that does not exist (lib/gdb_frame.c:778) is proved to be unreachable."
  },
  {
   "property": "C151",
   "status": "partial",
   "theorems": [
    "Satyr.Heap.C151_sort_partial",
    "Satyr.Heap.C151_uniq",
    "Satyr.Heap.C151_dso_partial",
    "Satyr.Heap.C151_throughout_partial",
    "Satyr.Heap.C151_not_dso",
    "Satyr.Heap.C151_not_sort"
   ],
   "note": "Proved for every list that is not empty and every text in which each epoch is a number. What is missing does not hold: after an epoch that is not a number the release and the architecture are freed twice (C151_not_dso), and sorting the empty list reads an array without elements (C151_not_sort)."
  },
  {
   "property": "C152",
   "status": "partial",
   "theorems": [
    "Satyr.Heap.C152_packages_partial",
    "Satyr.Heap.C152_clean_partial",
    "Satyr.Heap.C152_members",
    "Satyr.Heap.C152_not_epoch",
    "Satyr.Heap.C152_not_range"
   ],
   "note": "C152_packages_partial: if the package of the program can be read (or there is none), the list of libraries can be parsed and the epoch of the interpreter's package is not malformed, the packages are those of the files, and the memory added is their list and one message for each of the two other files that exists and cannot be read; C152_clean_partial: without such files nothing but the list is added; C152_members: the failures because of the four other files of the package free everything, and leave one message each. Not true: if the file of the epoch cannot be read (C152_not_epoch) the block of the package is lost, and if its number is too great (C152_not_range) also the text of the epoch."
  },
  {
   "property": "C153",
   "status": "partial",
   "theorems": [
    "Satyr.Heap.C153_system",
    "Satyr.Heap.C153_clean_partial",
    "Satyr.Heap.C153_not_repeated",
    "Satyr.Heap.C153_not_rawhide",
    "Satyr.Heap.C153_not_fallback",
    "Satyr.Heap.C153_count",
    "Satyr.Heap.C153_component"
   ],
   "note": "Proved in full: what is left in memory in every case (C153_system, C153_count, C153_component). That nothing is lost is proved for directories where no member is written twice (C153_clean_partial) and does not hold otherwise: a repeated key (C153_not_repeated), a development release (C153_not_rawhide) and name and version from os_release after os_info (C153_not_fallback) leave a text in memory to which nothing points."
  },
  {
   "property": "C154",
   "status": "partial",
   "theorems": [
    "Satyr.Heap.C154_report_partial",
    "Satyr.Heap.C154_freed_partial",
    "Satyr.Heap.C154_clean_partial",
    "Satyr.Heap.C154_not_epoch"
   ],
   "note": "Proved for every directory whose package epoch can be read if the package can, up to the stack trace: the stack traces of the types that have one are not read in this model. Without the epoch the block of the package is lost: C154_not_epoch."
  },
  {
   "property": "C155",
   "status": "partial",
   "theorems": [
    "Satyr.Heap.C155_report_partial",
    "Satyr.Heap.C155_no_file",
    "Satyr.Heap.C155_java",
    "Satyr.Heap.C155_ruby",
    "Satyr.Heap.C155_not_python",
    "Satyr.Heap.C155_python_none",
    "Satyr.Heap.C155_oops",
    "Satyr.Heap.C155_not_kernel"
   ],
   "note": "The condition of C154 on the epoch remains. The stack trace of a core dump, which is read from JSON text, is a parameter of the model. That something is lost is shown by C155_not_python and C155_not_kernel for every such directory."
  },
  {
   "property": "C156",
   "status": "proved",
   "theorems": [
    "Satyr.Heap.C156_core",
    "Satyr.Heap.C156_no_file"
   ],
   "note": "Together with C155_report_partial this covers the branch of sr_abrt_report_from_dir for core dumps. The memory of the JSON library is not modelled."
  },
  {
   "property": "C157",
   "status": "partial",
   "theorems": [
    "Satyr.Heap.C157_freed",
    "Satyr.Heap.C157_directory_partial",
    "Satyr.Heap.C157_clean_partial"
   ],
   "note": "Missing: directories without a readable epoch (false there, C154_not_epoch), and Python text on which the parser itself has undefined behaviour. For Python and kernel oopses reading loses texts (C155_not_python, C155_oops), so that the second sentence is about the other types. The memory of the JSON library is not modelled."
  },
  {
   "property": "C158",
   "status": "proved",
   "theorems": [
    "Satyr.Heap.C158_remove",
    "Satyr.Heap.C158_remove_none",
    "Satyr.Heap.C158_above",
    "Satyr.Heap.C158_below"
   ],
   "note": "Memory as in C98 and C99; C13 is the same on lists."
  },
  {
   "property": "C159",
   "status": "proved",
   "theorems": [
    "Satyr.Distances.Memory.C159_session",
    "Satyr.Distances.Memory.C159_clean",
    "Satyr.Distances.Memory.C159_one",
    "Satyr.Distances.Memory.C159_not_twice"
   ],
   "note": "C159_session counts the lost blocks for every sequence of calls; C159_clean: none if no part is computed twice; C159_not_twice: computing a part twice always loses a block; C159_one: freeing one part. The values of the distances are in C02-C04; the lengths of the parts are arbitrary here."
  },
  {
   "property": "C160",
   "status": "proved",
   "theorems": [
    "Satyr.Cluster.Array.C160_history",
    "Satyr.Cluster.Array.C160_cluster"
   ],
   "note": "C160_history: all sequences of merges on the arrays agree with the lists and use no undefined access; C160_cluster: the merges of the model of clustering (C10) are such a sequence, and at the end only the first array has memory. The arrays on the stack are in the model of C10."
  }
 ]
}