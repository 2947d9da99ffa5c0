{
 "claims": [
  {
   "property": "C01",
   "status": "proved",
   "theorems": [
    "Props.C01_md5_streaming"
   ],
   "note": "Any chunking, any length; length field is the bit length modulo 2^64 as RFC 1321 says."
  },
  {
   "property": "C02",
   "status": "proved",
   "theorems": [
    "Props.C02_sha1_streaming"
   ],
   "note": ""
  },
  {
   "property": "C03",
   "status": "proved",
   "theorems": [
    "Props.C03_sha224_streaming"
   ],
   "note": ""
  },
  {
   "property": "C04",
   "status": "proved",
   "theorems": [
    "Props.C04_sha256_streaming"
   ],
   "note": ""
  },
  {
   "property": "C05",
   "status": "partial",
   "theorems": [
    "Props.C05_sha512_streaming_partial",
    "Props.C05_sha512_long",
    "Props.C05_sha512_length_field_wrong"
   ],
   "note": "True below 2^61 bytes. The code keeps the bit length in 64 bits, so for 2^61 bytes and more the padded message differs from the standard's (C05_sha512_length_field_wrong); C05_sha512_long states what is computed."
  },
  {
   "property": "C06",
   "status": "proved",
   "theorems": [
    "Props.C06_cut_points_unobservable"
   ],
   "note": ""
  },
  {
   "property": "C07",
   "status": "proved",
   "theorems": [
    "Props.C07_ineffective_update_no_effect",
    "Props.C07_insert_ineffective"
   ],
   "note": ""
  },
  {
   "property": "C08",
   "status": "partial",
   "theorems": [
    "Props.C08_calculate",
    "Props.C08_calculate_standard_partial",
    "Props.C08_calculate_eq_streaming"
   ],
   "note": "Digest equals the streaming one for every buffer (C08_calculate, C08_calculate_eq_streaming). Equality with the standard holds for every buffer except SHA-512 buffers of 2^61 bytes and more, where the claim is false (C05)."
  },
  {
   "property": "C09",
   "status": "partial",
   "theorems": [
    "Props.C09_hmac",
    "Props.C09_hmac_standard_partial"
   ],
   "note": "RFC 2104 over the implemented hash for every key and message (C09_hmac). Over the standard hash except for SHA-512 with 2^61 bytes and more (C05)."
  },
  {
   "property": "C10",
   "status": "proved",
   "theorems": [
    "Props.C10_zero_padded_key",
    "Props.C10_long_key_is_its_digest"
   ],
   "note": ""
  },
  {
   "property": "C11",
   "status": "proved",
   "theorems": [
    "Props.C11_finalize_writes_digest_only",
    "Props.C11_hmac_writes_digest_only",
    "Props.C11_calculate_writes_digest_only"
   ],
   "note": "finalize, calculate and calculate_hmac."
  },
  {
   "property": "C12",
   "status": "proved",
   "theorems": [
    "Props.C12_finalize_result",
    "Props.C12_finalize_rejected_no_effect"
   ],
   "note": ""
  },
  {
   "property": "C13",
   "status": "proved",
   "theorems": [
    "Props.C13_no_undefined_behaviour",
    "Props.C13_indeterminate_values_unobservable"
   ],
   "note": "Model outcome ub covers out-of-bounds access, NULL dereference, use after free, and freeing twice; indeterminate values are arbitrary inputs that are shown not to influence any result."
  },
  {
   "property": "C14",
   "status": "proved",
   "theorems": [
    "Props.C14_context_invariant"
   ],
   "note": ""
  },
  {
   "property": "C15",
   "status": "proved",
   "theorems": [
    "Props.C15_finalize_wipes_context"
   ],
   "note": ""
  },
  {
   "property": "C16",
   "status": "proved",
   "theorems": [
    "Props.C16_reuse_after_finalize",
    "Props.C16_reuse_not_standard"
   ],
   "note": "With a counterexample to restart (C16_reuse_not_standard)."
  },
  {
   "property": "C17",
   "status": "proved",
   "theorems": [
    "Props.C17_life_cycle_steps",
    "Props.C17_no_leak"
   ],
   "note": ""
  },
  {
   "property": "C18",
   "status": "proved",
   "theorems": [
    "Props.C18_calculate_result"
   ],
   "note": ""
  },
  {
   "property": "C19",
   "status": "proved",
   "theorems": [
    "Props.C19_hmac_no_leak"
   ],
   "note": ""
  },
  {
   "property": "C20",
   "status": "proved",
   "theorems": [
    "Props.C20_hmac_result"
   ],
   "note": ""
  },
  {
   "property": "C21",
   "status": "proved",
   "theorems": [
    "Props.C21_aliasing_unobservable"
   ],
   "note": ""
  },
  {
   "property": "C22",
   "status": "proved",
   "theorems": [
    "Props.C22_failed_hmac_output"
   ],
   "note": ""
  },
  {
   "property": "C23",
   "status": "proved",
   "theorems": [
    "Props.C23_unrolled_eq_loop",
    "Props.C23_build_option_unobservable"
   ],
   "note": ""
  },
  {
   "property": "C24",
   "status": "proved",
   "theorems": [
    "Props.C24_transform_whole_blocks",
    "Props.C24_transform_tail_unread",
    "Props.C24_transform_rejects"
   ],
   "note": ""
  },
  {
   "property": "C25",
   "status": "partial",
   "theorems": [
    "Props.C25_scratch_wiped",
    "Props.C25_sha1_scratch_wiped_partial",
    "Props.C25_sha1_schedule_left",
    "Props.C25_sha1_block_recoverable"
   ],
   "note": "True for MD5, SHA-224, SHA-256 and SHA-512. False for SHA-1: only 16 of the 80 schedule words are cleared, and the message block can be computed from what is left (C25_sha1_schedule_left, C25_sha1_block_recoverable); the chaining value copy is cleared (C25_sha1_scratch_wiped_partial)."
  },
  {
   "property": "C26",
   "status": "partial",
   "theorems": [
    "Props.C26_heap_wiped_partial",
    "Props.C26_key_hash_left",
    "Props.C26_context_freed_unwiped",
    "Props.C26_key_hash_left_nonzero",
    "Props.C26_context_freed_nonzero"
   ],
   "note": "Violated by the code: key_hash is never wiped (C26_key_hash_left, _nonzero) and the context is freed with the key absorbed when message or output arguments are invalid (C26_context_freed_unwiped, _nonzero). All other freed blocks are shown zero."
  },
  {
   "property": "C27",
   "status": "partial",
   "theorems": [
    "Props.C27_load_big_endian",
    "Props.C27_load_little_endian_partial",
    "Props.C27_load48_little_endian",
    "Props.C27_load48_little_endian_wrong",
    "Props.C27_load1x64_little_endian",
    "Props.C27_load1x64_little_endian_wrong",
    "Props.C27_store_big_endian",
    "Props.C27_store_little_endian",
    "Props.C27_load_store_big_endian",
    "Props.C27_load_store_little_endian_partial",
    "Props.C27_store_load_big_endian",
    "Props.C27_store_load_little_endian_partial"
   ],
   "note": "All 32 macros covered. Two load macros are wrong, both unused by the library: 48-bit little endian and the 64-bit single step little endian one; exact results and counterexamples are proved (C27_load48_little_endian*, C27_load1x64_little_endian*)."
  },
  {
   "property": "C28",
   "status": "proved",
   "theorems": [
    "Props.C28_rotate_left",
    "Props.C28_rotate_right",
    "Props.C28_rotate_inverse",
    "Props.C28_rotate_undefined",
    "Props.C28_amounts_in_range"
   ],
   "note": ""
  },
  {
   "property": "C29",
   "status": "proved",
   "theorems": [
    "Props.C29_sha256_constants",
    "Props.C29_sha224_constants",
    "Props.C29_sha512_constants",
    "Props.C29_sha256_initial",
    "Props.C29_sha512_initial",
    "Props.C29_sha224_initial",
    "Props.C29_md5_sines",
    "Props.C29_sha1_standard",
    "Props.C29_sha1_macros",
    "Props.C29_md5_initial",
    "Props.C29_sha1_initial"
   ],
   "note": "Complete tables against Mathlib's real roots, sine and Nat.nth Nat.Prime. The constants of the loop variant of SHA-1 are covered through C29_sha1_standard and C23."
  },
  {
   "property": "C30",
   "status": "proved",
   "theorems": [
    "Props.C30_interleaving",
    "Props.C30_digest"
   ],
   "note": "Any number of contexts of any kinds in one memory, any interleaving."
  },
  {
   "property": "C31",
   "status": "proved",
   "theorems": [
    "Props.C31_functions",
    "Props.C31_mixed_histories",
    "Props.C31_mixed_histories_specified"
   ],
   "note": "The five deprecated functions of each algorithm, and histories that mix them with the current ones."
  },
  {
   "property": "C32",
   "status": "proved",
   "theorems": [
    "Props.C32_collision_located",
    "Props.C32_different_messages_different_blocks",
    "Props.C32_collision_gives_transform_collision"
   ],
   "note": "The collision theorem quantifies over clients, chunkings and builds; messages below 2^61 bytes."
  },
  {
   "property": "C33",
   "status": "proved",
   "theorems": [
    "Props.C33_blocks_processed",
    "Props.C33_blocks_processed_by_update",
    "Props.C33_number_of_blocks",
    "Props.C33_blocks_in_finalize",
    "Props.C33_padding_minimal"
   ],
   "note": "The block function of the model is replaced by an arbitrary one; the result is the fold over exactly the padded blocks."
  },
  {
   "property": "C34",
   "status": "proved",
   "theorems": [
    "Props.C34_same_transform",
    "Props.C34_same_update",
    "Props.C34_sha224_is_truncated"
   ],
   "note": ""
  },
  {
   "property": "C35",
   "status": "proved",
   "theorems": [
    "Props.C35_hex_string",
    "Props.C35_rejects",
    "Props.C35_readable"
   ],
   "note": ""
  },
  {
   "property": "C36",
   "status": "proved",
   "theorems": [
    "Props.C36_digest",
    "Props.C36_whole_file",
    "Props.C36_success"
   ],
   "note": "For every reachable handle; C36_success shows that success does occur. libcfile is a parameter (Input). SHA-512: less than 2^61 bytes (C05)."
  },
  {
   "property": "C37",
   "status": "proved",
   "theorems": [
    "Props.C37_read_failure",
    "Props.C37_premature_end"
   ],
   "note": "Failed, empty and missing reads; libcfile is a parameter (Input)."
  },
  {
   "property": "C38",
   "status": "proved",
   "theorems": [
    "Props.C38_tool",
    "Props.C38_stops"
   ],
   "note": "C38_stops for the processing function, C38_tool for the program: no digest line if the signal is seen before the test after processing, exit status failure in any case. Signals before the handler is attached or after it is detached take the default action and are not modelled."
  },
  {
   "property": "C39",
   "status": "proved",
   "theorems": [
    "Props.C39_own_data",
    "Props.C39_second_fails"
   ],
   "note": "Immediate second call after a success. After that failure the MD5 and SHA-1 contexts are gone and a third call may succeed, with the digest of its own data (C39_own_data)."
  },
  {
   "property": "C40",
   "status": "proved",
   "theorems": [
    "Props.C40_enabled",
    "Props.C40_names"
   ],
   "note": "Splitting at commas by libcsplit is assumed (source not in /repo). The successful result is 0 although documented as 1."
  },
  {
   "property": "C41",
   "status": "partial",
   "theorems": [
    "Props.C41_kilo_rejected",
    "Props.C41_statement_false",
    "Props.C41_value_partial",
    "Props.C41_fraction_partial",
    "Props.C41_too_large_accepted"
   ],
   "note": "False for the factor letter K, which is always rejected (C41_kilo_rejected, C41_statement_false). True for all other factors. Values of 2^64 and more wrap around instead of being rejected (C41_too_large_accepted)."
  },
  {
   "property": "C42",
   "status": "proved",
   "theorems": [
    "Props.C42_in_bounds",
    "Props.C42_rejects"
   ],
   "note": "For every terminated string and every length argument; the decimal point of the locale must not be NUL."
  },
  {
   "property": "C43",
   "status": "proved",
   "theorems": [
    "Props.C43_format",
    "Props.C43_rejects"
   ],
   "note": "Units other than 1000 and 1024 are outside the claim."
  },
  {
   "property": "C44",
   "status": "partial",
   "theorems": [
    "Props.C44_parses_back_partial",
    "Props.C44_kilo_not_parsed"
   ],
   "note": "False for sizes shown with K, which are rejected (C44_kilo_not_parsed); proved for all others."
  },
  {
   "property": "C45",
   "status": "partial",
   "theorems": [
    "Props.C45_bounds",
    "Props.C45_zero",
    "Props.C45_value_partial",
    "Props.C45_wraps",
    "Props.C45_statement_false"
   ],
   "note": "False for values of 2^64 and more, which wrap around (C45_wraps, C45_statement_false), and for the factor K (C41). The bounds of the stored size and the failure for size 0 hold for every string."
  },
  {
   "property": "C46",
   "status": "partial",
   "theorems": [
    "Props.C46_parse",
    "Props.C46_parse_dashes",
    "Props.C46_safe_partial",
    "Props.C46_dash_ub",
    "Props.C46_statement_false",
    "Props.C46_unknown_repeats"
   ],
   "note": "Well-formed command lines are parsed as documented (C46_parse, C46_parse_dashes) and no read is out of bounds if no argument is a lone '-' (C46_safe_partial). False for a lone '-': the string after its end is read (C46_dash_ub, C46_statement_false). An unknown option letter inside a group is reported forever if the caller goes on (C46_unknown_repeats); the tool stops at the first one."
  },
  {
   "property": "C47",
   "status": "partial",
   "theorems": [
    "Props.C47_refines",
    "Props.C47_digest",
    "Props.C47_digest_standard_partial",
    "Props.C47_update",
    "Props.C47_calculate",
    "Props.C47_calculate_standard_partial",
    "Props.C47_hmac",
    "Props.C47_hmac_standard_partial",
    "Props.C47_bad_argument",
    "Props.C47_released",
    "Props.C47_objects",
    "Props.C47_reinit_leaks",
    "Props.C47_raw_object_leaks",
    "Props.C47_failed_constructor",
    "Props.C47_none_reference"
   ],
   "note": "Standard digests and HMACs except SHA-512 data of 2^61 bytes and more (C05); update, calculate, calculate_hmac, bad arguments, memory. The full claim of release is false: calling __init__ again leaks a context (C47_reinit_leaks), an object without context is never released (C47_raw_object_leaks, C47_failed_constructor), a reference to None is lost per one-shot digest (C47_none_reference). Not modelled: other Python threads while the interpreter lock is released."
  },
  {
   "property": "C48",
   "status": "partial",
   "theorems": [
    "Props.C48_refines_partial",
    "Props.C48_no_wrong_digest",
    "Props.C48_released",
    "Props.C48_evp_size",
    "Props.C48_long_size",
    "Props.C48_statement_false"
   ],
   "note": "Same replies as the built-in implementation for every history with one message per context below 2^61 bytes, under a contract for the library. Missing, because the code differs there: the EVP builds reject output areas above UINT_MAX bytes (C48_evp_size, C48_statement_false), the direct build with a 32-bit long rejects updates above ULONG_MAX bytes (C48_long_size). With a library that fails: C48_no_wrong_digest; no undefined behaviour and no leak with any library: C48_released."
  },
  {
   "property": "C49",
   "status": "partial",
   "theorems": [
    "Props.C49_no_ub_partial",
    "Props.C49_print_after_success",
    "Props.C49_print_ub",
    "Props.C49_released_partial",
    "Props.C49_initialize_leak",
    "Props.C49_statement_false"
   ],
   "note": "Sequences without printing, or with an allocator that returns terminated strings: no undefined behaviour (C49_no_ub_partial); printing after a successful processing is safe and prints the digests (C49_print_after_success). False in general: printing before processing reads uninitialised memory (C49_print_ub), and a failing string allocation in initialise leaks the input handle (C49_initialize_leak, C49_statement_false); otherwise everything is released."
  },
  {
   "property": "C50",
   "status": "proved",
   "theorems": [
    "Props.C50_success",
    "Props.C50_no_wrong_digest",
    "Props.C50_completes",
    "Props.C50_any_command_line",
    "Props.C50_help",
    "Props.C50_missing_source",
    "Props.C50_invalid"
   ],
   "note": "With the bundled option parser. On a file that was opened; SHA-512 below 2^61 bytes (C05). Writing to standard output is assumed to succeed."
  },
  {
   "property": "C51",
   "status": "partial",
   "theorems": [
    "Props.C51_safe_partial",
    "Props.C51_dash_ub",
    "Props.C51_statement_false"
   ],
   "note": "For every command line without an argument '-' (C51_safe_partial); at most one block is left, only when an allocation failed. False for '-' (C51_dash_ub, C51_statement_false)."
  },
  {
   "property": "C52",
   "status": "proved",
   "theorems": [
    "Props.C52_calculate_result",
    "Props.C52_calculate_digest",
    "Props.C52_hmac_result",
    "Props.C52_hmac_value",
    "Props.C52_calculate_same",
    "Props.C52_hmac_same"
   ],
   "note": "Assumptions on the library: it writes only the digest area of the output (Tame), and for the values its contract (C48). Values for keys below 2^61 and messages below 2^61 - 128 bytes, of longer ones the contract says nothing. Which bytes the library leaves in its own freed contexts is not modelled."
  },
  {
   "property": "C53",
   "status": "proved",
   "theorems": [
    "Props.C53_md5_colliding_keys",
    "Props.C53_equal_hmacs",
    "Props.C53_equivalent_keys",
    "Props.C53_short_keys",
    "Props.C53_long_keys"
   ],
   "note": "Reduction to explicit collisions of the modelled hash function; that collisions are hard to find is not a statement about the code."
  },
  {
   "property": "C54",
   "status": "proved",
   "theorems": [
    "Props.C54_histories",
    "Props.C54_histories_exact",
    "Props.C54_calculate",
    "Props.C54_calculate_exact",
    "Props.C54_hmac",
    "Props.C54_hmac_exact",
    "Props.C54_hmac_cause"
   ],
   "note": "Domains and codes of the errors; the message texts, and what libcerror does with recorded errors, are not modelled."
  },
  {
   "property": "C55",
   "status": "partial",
   "theorems": [
    "Props.C55_same_behaviour",
    "Props.C55_defined",
    "Props.C55_explained",
    "Props.C55_failures_partial",
    "Props.C55_free_error_with_success",
    "Props.C55_statement_false",
    "Props.C55_small_output"
   ],
   "note": "Holds for every build and library except the build with an embedded EVP context and a library whose clean up fails; there free returns 1 with an error (C55_free_error_with_success, C55_statement_false). Which errors: C55_explained. The one-shot functions over a library are not modelled with error output."
  },
  {
   "property": "C56",
   "status": "proved",
   "theorems": [
    "Props.C56_histories_values",
    "Props.C56_calculate_values",
    "Props.C56_hmac_values",
    "Props.C56_histories",
    "Props.C56_calculate",
    "Props.C56_hmac"
   ],
   "note": "About the C text as modelled in Model/Trace and Model/TraceApi, which compute what the other models compute (C56_*_values). Not observed: duration of single instructions, caches, the inside of memcpy, memset and malloc, and what a compiler makes of the code. Built-in code only; the crypto library is outside."
  },
  {
   "property": "C57",
   "status": "partial",
   "theorems": [
    "Props.C57_failure_text",
    "Props.C57_failure_one_line",
    "Props.C57_no_message",
    "Props.C57_replaced_text_partial",
    "Props.C57_fetched_text_partial",
    "Props.C57_description_undefined",
    "Props.C57_references_lost",
    "Props.C57_no_replacement",
    "Props.C57_references_left"
   ],
   "note": "Texts and bounds for all messages and descriptions (C57_failure_text, C57_failure_one_line, C57_replaced_text_partial, C57_fetched_text_partial). False: if the repr of the exception met fails, NULL is handed on (C57_description_undefined); references to its type, value and traceback, and in pyhmac_error_fetch_and_raise to the encoded description, are lost (C57_references_lost)."
  },
  {
   "property": "C58",
   "status": "partial",
   "theorems": [
    "Props.C58_complete",
    "Props.C58_success",
    "Props.C58_lock",
    "Props.C58_released_partial",
    "Props.C58_module_lost",
    "Props.C58_returned_with_exception"
   ],
   "note": "Complete or not returned without exception, lock balanced: proved for all failures. False: the module is lost if PyType_Ready fails (C58_module_lost); the result of PyModule_AddObject is not tested, so a module may be returned with an exception set and a type missing (C58_returned_with_exception). Branches for Python 3; the debug notification setup and thread initialisation of old interpreters are left out."
  },
  {
   "property": "C59",
   "status": "proved",
   "theorems": [
    "Props.C59_same_program",
    "Props.C59_explained",
    "Props.C59_causes",
    "Props.C59_silent",
    "Props.C59_named",
    "Props.C59_cannot_open",
    "Props.C59_missing_source",
    "Props.C59_warned"
   ],
   "note": "Messages of the main program (exact warnings: C59_warned); not the error backtraces of libcnotify, nor messages of the signal handler. The option parser is the bundled one."
  },
  {
   "property": "C60",
   "status": "partial",
   "theorems": [
    "Props.C60_named_partial",
    "Props.C60_names_previous",
    "Props.C60_statement_false"
   ],
   "note": "Holds if the option is the last letter of its argument (C60_named_partial). False otherwise: the argument before it, or the program name, is named (C60_names_previous, C60_statement_false)."
  },
  {
   "property": "C61",
   "status": "partial",
   "theorems": [
    "Props.C61_calculate",
    "Props.C61_hmac",
    "Props.C61_defined",
    "Props.C61_failures_partial",
    "Props.C61_statement_false",
    "Props.C61_calculate_builtin",
    "Props.C61_hmac_builtin",
    "Props.C61_hmac_cause"
   ],
   "note": "The claim is false in the build with an embedded EVP context: if EVP_MD_CTX_cleanup fails, a one-shot call returns 1 with an error (C61_statement_false). Proved for every other build and library, and for that build if the clean up does not fail (C61_failures_partial); which errors are given is proved for all builds and libraries (C61_calculate, C61_hmac)."
  },
  {
   "property": "C62",
   "status": "proved",
   "theorems": [
    "Props.C62_call",
    "Props.C62_histories",
    "Props.C62_tidy",
    "Props.C62_linear",
    "Props.C62_calculate",
    "Props.C62_hmac"
   ],
   "note": "Work is the number of observations of the model with observations (Model/Trace, Model/TraceApi), copies and sets counted by their elements. Proved with numbers per algorithm for each call, all histories, calculate and calculate_hmac."
  },
  {
   "property": "C63",
   "status": "proved",
   "theorems": [
    "Props.C63_call",
    "Props.C63_calculate",
    "Props.C63_hmac",
    "Props.C63_race"
   ],
   "note": "What each call touches is proved of every observation (C63_call, C63_calculate, C63_hmac); freedom from races for two calls on contexts of any kinds (C63_race). At the level of objects: a context, an area and a stack are each one place."
  },
  {
   "property": "C64",
   "status": "proved",
   "theorems": [
    "Props.C64_extension",
    "Props.C64_collisions_extend",
    "Props.C64_md5_collisions"
   ],
   "note": "Length extension as an equation between runs of the API (C64_extension; SHA-224 is truncated and excluded by the statement), collisions extend (C64_collisions_extend), a concrete MD5 collision evaluated by the kernel (C64_md5_collisions)."
  },
  {
   "property": "C65",
   "status": "proved",
   "theorems": [
    "Props.C65_fuzz_target",
    "Props.C65_fuzz_hashes"
   ],
   "note": "The fuzz targets over the API model with an allocation oracle, by induction over the inputs."
  },
  {
   "property": "C66",
   "status": "partial",
   "theorems": [
    "Props.C66_own_objects",
    "Props.C66_one_after_the_other_partial",
    "Props.C66_bytes_lost",
    "Props.C66_overflow"
   ],
   "note": "Proved for threads with objects of their own, every interleaving (C66_own_objects), and for calls on shared objects that do not overlap (C66_one_after_the_other_partial). False for overlapping calls on one object: bytes are lost though both calls return None (C66_bytes_lost), and a copy can go past the end of the context (C66_overflow)."
  },
  {
   "property": "C67",
   "status": "proved",
   "theorems": [
    "Props.C67_same_as_64",
    "Props.C67_stream",
    "Props.C67_too_large",
    "Props.C67_calculate",
    "Props.C67_hmac"
   ],
   "note": "The built-in functions with size_t arithmetic modulo 2^hb; equal to the 64-bit models for sizes within the limit, refused above (SHA-512 total below 2^61 bytes as in C05)."
  },
  {
   "property": "C68",
   "status": "partial",
   "theorems": [
    "Props.C68_outcome",
    "Props.C68_success",
    "Props.C68_undisturbed",
    "Props.C68_killed",
    "Props.C68_standard_input",
    "Props.C68_no_wrong_digest",
    "Props.C68_without_signals",
    "Props.C68_not_killed",
    "Props.C68_interrupted",
    "Props.C68_use_after_free",
    "Props.C68_use_after_free_detach",
    "Props.C68_statement_false",
    "Props.C68_safe_partial",
    "Props.C68_unattached",
    "Props.C68_prompt",
    "Props.C68_error_partial",
    "Props.C68_error_left",
    "Props.C68_error_left_processing",
    "Props.C68_error_statement_false"
   ],
   "note": "Any number of signals at each of the points of the program; all clauses proved but two, which are false in the code: C68_use_after_free (the handler writes to the freed handle, defect 21; C68_safe_partial excludes the two stretches) and C68_error_left (the error object is not released after an abort, defect 22; C68_error_partial). C68_undisturbed and C68_interrupted bound the number of reads by the buffer size of the command line."
  },
  {
   "property": "C69",
   "status": "partial",
   "theorems": [
    "Props.C69_output",
    "Props.C69_read",
    "Props.C69_name",
    "Props.C69_trust",
    "Props.C69_lost",
    "Props.C69_statement_false",
    "Props.C69_status_partial",
    "Props.C69_help",
    "Props.C69_printing",
    "Props.C69_printed",
    "Props.C69_aborted",
    "Props.C69_version"
   ],
   "note": "All clauses proved but the last, which is false in the code: C69_lost and C69_statement_false (a full device, exit status 0, nothing written; defect 23). C69_status_partial is the last clause for a device that takes everything."
  },
  {
   "property": "C70",
   "status": "proved",
   "theorems": [
    "Props.C70_locked",
    "Props.C70_no_deadlock",
    "Props.C70_returns",
    "Props.C70_own_objects",
    "Props.C70_digests",
    "Props.C70_mixed",
    "Props.C70_zeros"
   ],
   "note": "C70_locked, C70_no_deadlock: with locks. C70_own_objects, C70_digests: with objects of their own. C70_returns: bounded steps. C70_mixed, C70_zeros: what overlapping calls on one object do (defect 19). Memory is sequentially consistent in the model; the locks are those of the program, not of pyhmac."
  },
  {
   "property": "C71",
   "status": "proved",
   "theorems": [
    "Props.C71_total",
    "Props.C71_one_sequence",
    "Props.C71_success",
    "Props.C71_hmacsum",
    "Props.C71_no_mixture",
    "Props.C71_file",
    "Props.C71_append_only",
    "Props.C71_truncated",
    "Props.C71_completes",
    "Props.C71_any_command_line",
    "Props.C71_fixed",
    "Props.C71_torn"
   ],
   "note": "A run over a changing source equals a run over the fixed file with the delivered bytes (Proofs/Changing), so C36 and C50 apply; C71_fixed: for a file that does not change it is the program of C50. C71_torn shows the limit. The size is determined once (sum_handle.c:1022); libcfile is assumed to deliver at most what is asked for and to go on where the last read ended."
  },
  {
   "property": "C72",
   "status": "proved",
   "theorems": [
    "Props.C72_posix",
    "Props.C72_gnu",
    "Props.C72_gnu_digests",
    "Props.C72_any_library",
    "Props.C72_stops",
    "Props.C72_missing_source",
    "Props.C72_order"
   ],
   "note": "The library's getopt is a structure with contracts (Spec/Library: Posix, Gnu, InBounds, Ends); the project's parser is proved to keep Posix (fallback_posix), and a permuting parser written for the purpose to keep Gnu, InBounds and Ends (gnu_gnu, gnu_inBounds, gnu_ends), so the hypotheses can be met. That the getopt of a given system keeps its contract is assumed. C72_order is the difference between builds."
  },
  {
   "property": "C73",
   "status": "proved",
   "theorems": [
    "Props.C73_builtin",
    "Props.C73_success",
    "Props.C73_no_wrong_digest",
    "Props.C73_completes",
    "Props.C73_same_output",
    "Props.C73_any_command_line"
   ],
   "note": "The tool's functions are written once over an abstract implementation of the context functions (Model/Builds) and proved to be those of C50 for the built-in one (C73_builtin). The proofs use only a law of the context functions (Proofs/BuildsTool: Law), which is proved for every mixture of builds (Proofs/BuildsMixed: mixed_law). The contract of the crypto library is assumed. Messages are below 2^61 bytes, where the contract ends. The limit of 4 GiB in C73_completes is that of the code when unsigned long has 32 bits; that a longer update fails there is in C48."
  },
  {
   "property": "C74",
   "status": "proved",
   "theorems": [
    "Props.C74_success",
    "Props.C74_no_wrong_digest",
    "Props.C74_buffer_size",
    "Props.C74_completes",
    "Props.C74_same_output",
    "Props.C74_any_command_line"
   ],
   "note": "The tool of C73 with the width of size_t as a parameter: limits are the SSIZE_MAX of the host, conversions to size_t are modulo 2^bits, and the context functions are those of C67. The law of the context functions used for C73 is transported to them (Proofs/BuildsHost: host_law). Built-in hash functions only. On a host of 16 bits the default buffer of 32768 bytes is above SSIZE_MAX, so 17 bits are needed. Strings of the command line are taken to be shorter than SSIZE_MAX."
  },
  {
   "property": "C75",
   "status": "proved",
   "theorems": [
    "Props.C75_no_wrong_digest",
    "Props.C75_interleaving",
    "Props.C75_digest",
    "Props.C75_released"
   ],
   "note": "Programs with any number of context variables over the mixed builds of C73. The relation of the memory to the variables (MixMulti: disjoint objects, each the contents of its own variable) is kept by every call. C75_interleaving and C75_digest need a library of that algorithm whose calls do not fail, since with a failing one the replies may be failures; C75_no_wrong_digest needs no such assumption."
  },
  {
   "property": "C76",
   "status": "proved",
   "theorems": [
    "Props.C76_builtin",
    "Props.C76_safe",
    "Props.C76_no_wrong_digest",
    "Props.C76_digest",
    "Props.C76_update",
    "Props.C76_calculate",
    "Props.C76_hmac",
    "Props.C76_same",
    "Props.C76_bad_argument",
    "Props.C76_released",
    "Props.C76_objects",
    "Props.C76_reinit_leaks"
   ],
   "note": "The module of C47 over the mixed builds of C73 and C75; C76_builtin: with the built-in functions it is the model of C47. Where the library may fail, each statement does what pyMay allows; the digests that are returned are standard. C76_reinit_leaks: the leak of C47 is there in every build."
  },
  {
   "property": "C77",
   "status": "partial",
   "theorems": [
    "Props.C77_results",
    "Props.C77_texts_partial",
    "Props.C77_hmac_names_calculate",
    "Props.C77_constructor",
    "Props.C77_tells_apart",
    "Props.C77_begins",
    "Props.C77_hmac_wrong_name",
    "Props.C77_cause_partial"
   ],
   "note": "True of every statement but two: the exceptions of calculate_hmac have the right reason in the name of calculate (C77_hmac_names_calculate, C77_hmac_wrong_name), and a constructor that fails for the library raises the exception of the release of the object instead (C77_constructor). C77_results: the outcomes are those of C76."
  },
  {
   "property": "C78",
   "status": "proved",
   "theorems": [
    "Props.C78_same_program",
    "Props.C78_builtin",
    "Props.C78_explained",
    "Props.C78_causes",
    "Props.C78_silent",
    "Props.C78_named",
    "Props.C78_library_failure",
    "Props.C78_cannot_open",
    "Props.C78_warned",
    "Props.C78_causes_host",
    "Props.C78_silent_host",
    "Props.C78_warned_host",
    "Props.C78_same_refusal"
   ],
   "note": "Builds with crypto libraries: C78_causes, C78_silent, C78_named, C78_library_failure, C78_cannot_open, C78_warned. Hosts of other widths with built-in functions: C78_causes_host, C78_silent_host, C78_warned_host. Any implementation of the context functions: C78_same_program, C78_explained, C78_same_refusal; C78_builtin: with the built-in functions it is the program of C59."
  },
  {
   "property": "C79",
   "status": "proved",
   "theorems": [
    "Props.C79_histories",
    "Props.C79_histories_exact",
    "Props.C79_no_internal",
    "Props.C79_tells",
    "Props.C79_calculate",
    "Props.C79_calculate_exact",
    "Props.C79_hmac",
    "Props.C79_hmac_exact",
    "Props.C79_hmac_cause"
   ],
   "note": "Any history or arguments, also invalid ones: C79_histories, C79_calculate, C79_hmac (same behaviour, domains and codes of C54, the last message names the called function). Exact messages: C79_histories_exact, C79_calculate_exact, C79_hmac_exact; C79_hmac_cause: the wrong argument by the text; C79_no_internal; C79_tells: texts are distinct."
  },
  {
   "property": "C80",
   "status": "proved",
   "theorems": [
    "Props.C80_histories",
    "Props.C80_defined",
    "Props.C80_errors",
    "Props.C80_calculate",
    "Props.C80_hmac",
    "Props.C80_one_shot_defined",
    "Props.C80_calculate_builtin",
    "Props.C80_hmac_builtin",
    "Props.C80_blames",
    "Props.C80_tells",
    "Props.C80_small_output",
    "Props.C80_large_output"
   ],
   "note": "C80_histories (all histories of both sets of functions), C80_defined, C80_errors (domain and code are those of C55), C80_calculate, C80_hmac, C80_one_shot_defined, C80_calculate_builtin, C80_hmac_builtin (the messages of C79), C80_blames (a message about a fault of the library is true), C80_tells, C80_small_output, C80_large_output (differences between the builds)."
  },
  {
   "property": "C81",
   "status": "partial",
   "theorems": [
    "Props.C81_builtin",
    "Props.C81_outcome",
    "Props.C81_success",
    "Props.C81_undisturbed",
    "Props.C81_killed",
    "Props.C81_standard_input",
    "Props.C81_without_signals",
    "Props.C81_not_killed",
    "Props.C81_unattached",
    "Props.C81_prompt",
    "Props.C81_error_partial",
    "Props.C81_no_wrong_digest",
    "Props.C81_no_wrong_digest_host",
    "Props.C81_interrupted",
    "Props.C81_interrupted_host",
    "Props.C81_safe_partial",
    "Props.C81_safe_host_partial",
    "Props.C81_use_after_free",
    "Props.C81_use_after_free_detach",
    "Props.C81_use_after_free_host",
    "Props.C81_statement_false",
    "Props.C81_error_left",
    "Props.C81_error_statement_false",
    "Props.C81_safe_mixed_host_partial",
    "Props.C81_safe_build_host_partial"
   ],
   "note": "For any build and any behaviour of the library: C81_outcome, C81_success, C81_undisturbed, C81_killed, C81_standard_input, C81_without_signals, C81_not_killed, C81_unattached, C81_prompt; C81_builtin: with built-in code it is the program of C68. With libraries that are right when they succeed, and on hosts of 17 to 64 bits: C81_no_wrong_digest(_host), C81_interrupted(_host). Violated by the code in every build: C81_use_after_free(_detach,_host), C81_statement_false (absence of undefined behaviour), C81_error_left, C81_error_statement_false (release of the error object). What holds: C81_safe_partial, C81_safe_host_partial, C81_error_partial."
  },
  {
   "property": "C82",
   "status": "proved",
   "theorems": [
    "Props.C82_fuzz_target",
    "Props.C82_fuzz_hashes",
    "Props.C82_fuzz_target_host"
   ],
   "note": "C82_fuzz_target (builds over a crypto library), C82_fuzz_target_host (host widths), C82_fuzz_hashes (the input is hashed completely)."
  },
  {
   "property": "C83",
   "status": "partial",
   "theorems": [
    "Props.C83_coherent",
    "Props.C83_without_openssl",
    "Props.C83_usual",
    "Props.C83_other_systems",
    "Props.C83_pc",
    "Props.C83_disable_evp_ignored",
    "Props.C83_enable_evp",
    "Props.C83_summary_partial",
    "Props.C83_links_partial",
    "Props.C83_declared_partial",
    "Props.C83_summary_false",
    "Props.C83_links_false",
    "Props.C83_declared_false",
    "Props.C83_disable_evp_false"
   ],
   "note": "Proved: C83_coherent, C83_without_openssl, C83_usual, C83_other_systems, C83_pc, C83_enable_evp. The code violates the rest: the summary may be wrong (C83_summary_false), functions may be called that were not found (C83_links_false), the code may not compile (C83_declared_false), the option to disable EVP has no effect (C83_disable_evp_ignored, C83_disable_evp_false). C83_summary_partial, C83_links_partial, C83_declared_partial hold for systems whose headers come with all their functions and whose EVP functions of the SHA algorithms are all there or all missing."
  },
  {
   "property": "C84",
   "status": "proved",
   "theorems": [
    "Props.C84_one_build",
    "Props.C84_hmacsum",
    "Props.C84_same_output",
    "Props.C84_completes",
    "Props.C84_contexts",
    "Props.C84_python",
    "Props.C84_interrupted",
    "Props.C84_large_updates_refused"
   ],
   "note": "Composition of C83 with C48, C73, C75, C76 and C81. For builds that compile and link; where they do not is the subject of C83."
  },
  {
   "property": "C85",
   "status": "proved",
   "theorems": [
    "Props.C85_same_as_64",
    "Props.C85_api_no_wrong_digest",
    "Props.C85_released",
    "Props.C85_refused",
    "Props.C85_accepted",
    "Props.C85_refines",
    "Props.C85_output_limit",
    "Props.C85_calculate_result",
    "Props.C85_calculate_digest",
    "Props.C85_hmac_result",
    "Props.C85_hmac_value",
    "Props.C85_success",
    "Props.C85_no_wrong_digest",
    "Props.C85_completes",
    "Props.C85_same_output",
    "Props.C85_any_command_line",
    "Props.C85_interrupted_no_wrong_digest",
    "Props.C85_interrupted",
    "Props.C85_configured"
   ],
   "note": "unsigned int has 32 bits; long is as wide as size_t or has 32 bits. Streams below 2^61 bytes. That an EVP build on a 32-bit host accepts output areas above SSIZE_MAX, which the built-in code refuses, is part of the claim (C85_output_limit)."
  },
  {
   "property": "C86",
   "status": "proved",
   "theorems": [
    "Props.C86_no_wrong_digest",
    "Props.C86_same_as_64",
    "Props.C86_interleaving",
    "Props.C86_digest",
    "Props.C86_released",
    "Props.C86_python",
    "Props.C86_python_safe",
    "Props.C86_python_digest",
    "Props.C86_python_calculate",
    "Props.C86_fuzz_target",
    "Props.C86_fuzz_hashes",
    "Props.C86_configured_contexts",
    "Props.C86_configured_python"
   ],
   "note": "Messages below 2^61 bytes. The library is right when its calls succeed. Py_ssize_t is as wide as size_t, so that no bytes object is larger than SSIZE_MAX; exception texts and threads are those of C57, C58, C66, C70 and C77."
  },
  {
   "property": "C87",
   "status": "proved",
   "theorems": [
    "Props.C87_call",
    "Props.C87_histories",
    "Props.C87_calculate",
    "Props.C87_hmac"
   ],
   "note": "Fetches and stores are those of the C statements (no compiler optimisation, which may repeat or merge them). Contexts in memory were used through the API only; built-in algorithms."
  },
  {
   "property": "C88",
   "status": "proved",
   "theorems": [
    "Props.C88_call",
    "Props.C88_crypto_call",
    "Props.C88_histories",
    "Props.C88_crypto_histories",
    "Props.C88_calculate",
    "Props.C88_crypto_calculate",
    "Props.C88_hmac",
    "Props.C88_crypto_hmac",
    "Props.C88_hmacsum",
    "Props.C88_hmacsum_builds"
   ],
   "note": "Counts requests made by the code of the library and of hmacsum (a failed request counts too). Not counted: memory taken inside the crypto library, by libcfile beyond its one object, by libcsplit for the list of digest types, by libcerror for errors, by the C library."
  },
  {
   "property": "C89",
   "status": "proved",
   "theorems": [
    "Props.C89_build_call",
    "Props.C89_build_kept",
    "Props.C89_build_stopping",
    "Props.C89_call",
    "Props.C89_kept",
    "Props.C89_stopping"
   ],
   "note": "For calls that return (printing a digest that was never computed is undefined, C49). C89_build_* hold in every build and on hosts of every width. 0 is the successful result of selecting digests, as in the code."
  },
  {
   "property": "C90",
   "status": "proved",
   "theorems": [
    "Props.C90_no_ub",
    "Props.C90_digest",
    "Props.C90_completes",
    "Props.C90_released"
   ],
   "note": "Printing is excluded from the sequences of C90_no_ub because printing a digest that was never computed is undefined (C49). Success of processing of more than 4 GiB needs a buffer below 4 GiB, as in C73."
  },
  {
   "property": "C91",
   "status": "proved",
   "theorems": [
    "Props.C91_causes",
    "Props.C91_silent",
    "Props.C91_named",
    "Props.C91_library_failure",
    "Props.C91_cannot_open",
    "Props.C91_warned"
   ],
   "note": "The characters of standard error are not modelled, only which messages are printed and in which order. With a branch that passes sizes of 32 bits to the library, a file of 4 GiB or more with a larger buffer is a reason for the message."
  },
  {
   "property": "C92",
   "status": "partial",
   "theorems": [
    "Props.C92_released_partial",
    "Props.C92_left",
    "Props.C92_not_released",
    "Props.C92_same",
    "Props.C92_histories_same",
    "Props.C92_histories_left",
    "Props.C92_histories_exact",
    "Props.C92_no_ub"
   ],
   "note": "The code violates the full claim: C92_not_released. If the number of segments cannot be retrieved or a segment is a NULL pointer, the function returns without freeing the split string (C92_left, sum_handle.c:1214, 1247). Otherwise all is released (C92_released_partial, C92_histories_left)."
  },
  {
   "property": "C93",
   "status": "proved",
   "theorems": [
    "Props.C93_equal_digests",
    "Props.C93_copies",
    "Props.C93_meets",
    "Props.C93_exception"
   ],
   "note": "From C85 (each digest printed is the standard one of the file), injectivity of the hexadecimal digits, and digest_meets (the place where two computations of one digest meet). C93_meets: where they meet the digests are equal if the rest is, so the exception is not too wide; C93_exception: it occurs."
  },
  {
   "property": "C94",
   "status": "partial",
   "theorems": [
    "Props.C94_same",
    "Props.C94_protocol_partial",
    "Props.C94_closed",
    "Props.C94_reads",
    "Props.C94_success",
    "Props.C94_success_source",
    "Props.C94_close_unopened",
    "Props.C94_object_left",
    "Props.C94_every_build",
    "Props.C94_signals_same",
    "Props.C94_signals_protocol_partial",
    "Props.C94_signals_closed",
    "Props.C94_signals_reads",
    "Props.C94_signals_success",
    "Props.C94_signals_success_source",
    "Props.C94_signals_prompt",
    "Props.C94_signals_close_unopened",
    "Props.C94_signals_every_build_partial"
   ],
   "note": "The code violates the full claim in two cases: interrupted while a file cannot be opened, it closes a file that is not open (C94_close_unopened, hmacsum.c:304-307 and 343-353), and if the third allocation of the handle fails the file object is not freed (C94_object_left, sum_handle.c:135-145). C94_protocol_partial is the rest; C94_closed, C94_reads, C94_success have no exception. The theorems C94_signals_* are the same with any number of signals at any moments."
  },
  {
   "property": "C95",
   "status": "proved",
   "theorems": [
    "Props.C95_standard",
    "Props.C95_agree",
    "Props.C95_equal",
    "Props.C95_hmac_standard",
    "Props.C95_hmac_agree",
    "Props.C95_given",
    "Props.C95_hmac_given"
   ],
   "note": "Reports and ReportsHmac are relations over runs of the models of all interfaces (hmacsum of Model/Builds with signals, contexts of Model/MultiBuilds on hosts, one-call functions, Python module); C95_given and C95_hmac_given show that each way occurs for every hash function and all bytes below 2^31."
  }
 ]
}