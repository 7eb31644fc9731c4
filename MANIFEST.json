{
 "claims": [
  {
   "property": "C01",
   "status": "proved",
   "theorems": [
    "Verif.Avl.avl_tree_refines",
    "Verif.Avl.avl_reachable_wf",
    "Verif.Avl.avl_map",
    "Verif.Avl.avl_get",
    "Verif.Avl.avl_put"
   ],
   "note": "Adaptive programs over any number of trees, any allocator, any comparator; the order claims for total preorders. The tree stores the pointers to its comparator and context; the comparator is a pure function."
  },
  {
   "property": "C02",
   "status": "proved",
   "theorems": [
    "Verif.Avl.avl_ordered_queries",
    "Verif.Avl.avl_tree_refines",
    "Verif.Avl.avl_reachable_wf"
   ],
   "note": ""
  },
  {
   "property": "C03",
   "status": "proved",
   "theorems": [
    "Verif.Avl.avl_iteration",
    "Verif.Avl.avl_tree_refines",
    "Verif.Avl.avl_reachable_wf"
   ],
   "note": "The user's loops are modelled as partial functions; termination is part of the refinement."
  },
  {
   "property": "C04",
   "status": "proved",
   "theorems": [
    "Verif.Avl.avl_balanced"
   ],
   "note": "Heights are read off the child pointers in memory; holds for every comparator. The balance field is an unbounded integer in the model; it stays in -1..1 between calls and -2..2 within."
  },
  {
   "property": "C05",
   "status": "proved",
   "theorems": [
    "Verif.Avl.avl_size",
    "Verif.Avl.avl_tree_refines",
    "Verif.Avl.avl_reachable_wf"
   ],
   "note": "avl_tree_size is claimed for trees of fewer than 2^64 elements (size_t), which every real tree is."
  },
  {
   "property": "C06",
   "status": "proved",
   "theorems": [
    "Verif.Avl.avl_tree_refines"
   ],
   "note": "For every comparator, even an inconsistent one."
  },
  {
   "property": "C07",
   "status": "proved",
   "theorems": [
    "Verif.Avl.avl_elements_stay",
    "Verif.Avl.avl_elements_in_memory",
    "Verif.Avl.avl_tree_refines"
   ],
   "note": ""
  },
  {
   "property": "C08",
   "status": "proved",
   "theorems": [
    "Verif.Avl.avl_copy",
    "Verif.Avl.avl_map"
   ],
   "note": "The copy holds the same pointers to comparator and context as the original, and every further program works with the original and the copy as with two trees."
  },
  {
   "property": "C09",
   "status": "proved",
   "theorems": [
    "Verif.Avl.avl_destroy",
    "Verif.Avl.avl_leak_free"
   ],
   "note": ""
  },
  {
   "property": "C10",
   "status": "partial",
   "theorems": [
    "Verif.Avl.avl_put_same_violated",
    "Verif.Avl.avl_put_same_witness",
    "Verif.Avl.avl_put_same_partial"
   ],
   "note": "The documented claim is false: the code replaces the element and returns the old one."
  },
  {
   "property": "C11",
   "status": "proved",
   "theorems": [
    "Verif.CList.list_sequence"
   ],
   "note": "any program on any number of lists, any allocator"
  },
  {
   "property": "C12",
   "status": "proved",
   "theorems": [
    "Verif.CList.list_sequence",
    "Verif.CList.list_leak_free"
   ],
   "note": ""
  },
  {
   "property": "C13",
   "status": "proved",
   "theorems": [
    "Verif.CList.list_sequence"
   ],
   "note": "navigation and queries are commands of the program"
  },
  {
   "property": "C14",
   "status": "proved",
   "theorems": [
    "Verif.CList.list_sequence",
    "Verif.CList.list_leak_free",
    "Verif.CList.list_foreach_calls"
   ],
   "note": "copy is a command of the program; foreach equals the calls in order"
  },
  {
   "property": "C15",
   "status": "proved",
   "theorems": [
    "Verif.Hash.hash_table_refines",
    "Verif.Hash.spec_map",
    "Verif.Hash.spec_get",
    "Verif.Hash.spec_put",
    "Verif.Hash.runs_distinct"
   ],
   "note": "every adaptive client program on a table refines the relational specification; spec_map/spec_get/spec_put read the specification as a finite map"
  },
  {
   "property": "C16",
   "status": "proved",
   "theorems": [
    "Verif.Hash.hash_put_same"
   ],
   "note": "memory is literally unchanged and NULL is returned"
  },
  {
   "property": "C17",
   "status": "proved",
   "theorems": [
    "Verif.Hash.hash_traversal"
   ],
   "note": "for every hash function and comparator"
  },
  {
   "property": "C18",
   "status": "proved",
   "theorems": [
    "Verif.Hash.hash_table_leak_free",
    "Verif.Hash.hash_capacity"
   ],
   "note": "for every hash function and comparator, also incompatible ones"
  },
  {
   "property": "C19",
   "status": "proved",
   "theorems": [
    "Verif.Hash.hash_string_value",
    "Verif.Hash.hash_blob_value",
    "Verif.Hash.hash_equal",
    "Verif.Hash.hash_string_blob",
    "Verif.Hash.hash_string_blob_eight_bit",
    "Verif.Hash.hash_integer_value"
   ],
   "note": "for 8-bit characters hash_string and hash_blob differ where char is signed: witness proved"
  },
  {
   "property": "C20",
   "status": "proved",
   "theorems": [
    "Verif.Prioq.priorq_refines"
   ],
   "note": "Simulation of the multiset specification along any admissible sequence of operations."
  },
  {
   "property": "C21",
   "status": "proved",
   "theorems": [
    "Verif.Prioq.priorq_refines",
    "Verif.Prioq.priorq_locators",
    "Verif.Prioq.priorq_conserves_any_cmp",
    "Verif.Prioq.priorq_remove_bad_cmp"
   ],
   "note": "For total preorders without restriction; for arbitrary comparators unless the last slot is removed by locator, where conservation fails (priorq_remove_bad_cmp)."
  },
  {
   "property": "C22",
   "status": "proved",
   "theorems": [
    "Verif.Prioq.priorq_locators",
    "Verif.Prioq.priorq_duplicate_stale_locator"
   ],
   "note": "Distinct elements; for an element enqueued twice the locator goes stale (priorq_duplicate_stale_locator)."
  },
  {
   "property": "C23",
   "status": "proved",
   "theorems": [
    "Verif.Prioq.priorq_drain_sorts"
   ],
   "note": ""
  },
  {
   "property": "C24",
   "status": "proved",
   "theorems": [
    "Verif.Prioq.priorq_safe"
   ],
   "note": "Queues of fewer than 2^60 elements (8-byte pointers in a 64-bit address space)."
  },
  {
   "property": "C25",
   "status": "proved",
   "theorems": [
    "Verif.IntSet.intset_membership"
   ],
   "note": ""
  },
  {
   "property": "C26",
   "status": "proved",
   "theorems": [
    "Verif.IntSet.intset_find_next_hit_least"
   ],
   "note": "sizes up to 2^31; larger sizes see C80"
  },
  {
   "property": "C27",
   "status": "proved",
   "theorems": [
    "Verif.IntSet.intset_find_next_miss_least"
   ],
   "note": "sizes up to 2^31; larger sizes see C80"
  },
  {
   "property": "C28",
   "status": "proved",
   "theorems": [
    "Verif.IntSet.intset_membership",
    "Verif.IntSet.intset_empty_iff"
   ],
   "note": "the model yields UB for an access outside the array; the theorem shows the calls return"
  },
  {
   "property": "C29",
   "status": "proved",
   "theorems": [
    "Verif.BA.byte_array_refines"
   ],
   "note": "all histories of all calls"
  },
  {
   "property": "C30",
   "status": "proved",
   "theorems": [
    "Verif.BA.byte_array_refines"
   ],
   "note": "callbacks that store bytes but report none are excluded here, see C31"
  },
  {
   "property": "C31",
   "status": "partial",
   "theorems": [
    "Verif.BA.byte_array_append_stream_partial",
    "Verif.BA.byte_array_append_stream_loses_nul"
   ],
   "note": "contents and count for every callback within its room; the terminator only when the callback stores nothing while reporting none (otherwise violated, witness proved)"
  },
  {
   "property": "C32",
   "status": "partial",
   "theorems": [
    "Verif.BA.make_byte_array_zero_ub",
    "Verif.BA.byte_array_refines"
   ],
   "note": "violated for max_size 0 (proved); holds for every max_size >= 1"
  },
  {
   "property": "C33",
   "status": "proved",
   "theorems": [
    "Verif.BA.byte_array_refcount"
   ],
   "note": ""
  },
  {
   "property": "C34",
   "status": "proved",
   "theorems": [
    "Verif.Base64.base64_encode_rfc4648",
    "Verif.Base64.base64_encode_simple_correct",
    "Verif.Base64.encode_length"
   ],
   "note": "Encoder output equals an independent bit-level RFC 4648 specification."
  },
  {
   "property": "C35",
   "status": "proved",
   "theorems": [
    "Verif.Base64.base64_encode_truncates"
   ],
   "note": "Holds for every destination size including zero."
  },
  {
   "property": "C36",
   "status": "proved",
   "theorems": [
    "Verif.Base64.base64_round_trip"
   ],
   "note": ""
  },
  {
   "property": "C37",
   "status": "partial",
   "theorems": [
    "Verif.Base64.base64_decode_accepts_exactly_partial",
    "Verif.Base64.base64_decode_complete",
    "Verif.Base64.base64_decode_accepts_del",
    "Verif.Base64.base64_decode_accepts_ff",
    "Verif.Base64.base64_decode_actual"
   ],
   "note": "The decoding table lacks a comma (base64.c:27), so bytes 0x7F and 0xFF are accepted. The exactness theorem excludes them; witnesses show the violation. base64_decode_actual says for all texts what is accepted: 127 is read as a space and 255 as A."
  },
  {
   "property": "C38",
   "status": "proved",
   "theorems": [
    "Verif.Base64.base64_decode_safe",
    "Verif.Base64.base64_decode_reads_text_only",
    "Verif.Base64.base64_decode_simple_correct",
    "Verif.Base64.base64_decode_simple_safe"
   ],
   "note": ""
  },
  {
   "property": "C39",
   "status": "partial",
   "theorems": [
    "Verif.Base64.base64_decoding_table_wrong",
    "Verif.Base64.base64_decoding_table_partial"
   ],
   "note": "Violated at index 127 and 255; right for all other bytes."
  },
  {
   "property": "C40",
   "status": "proved",
   "theorems": [
    "Verif.Base64.base64_encoding_size_exact"
   ],
   "note": ""
  },
  {
   "property": "C41",
   "status": "proved",
   "theorems": [
    "Verif.Float64.binary64_to_integer_exact"
   ],
   "note": ""
  },
  {
   "property": "C42",
   "status": "proved",
   "theorems": [
    "Verif.Float64.binary64_to_unsigned_exact"
   ],
   "note": ""
  },
  {
   "property": "C43",
   "status": "proved",
   "theorems": [
    "Verif.Date.epoch_to_utc_correct",
    "Verif.Date.calendar_dates_distinct",
    "Verif.Date.epoch_to_utc_overflow"
   ],
   "note": "epoch_to_utc_overflow: the bound on the day number is exact."
  },
  {
   "property": "C44",
   "status": "proved",
   "theorems": [
    "Verif.Date.epoch_to_utc_weekday"
   ],
   "note": ""
  },
  {
   "property": "C45",
   "status": "partial",
   "theorems": [
    "Verif.Date.epoch_to_utc_negative_wrong",
    "Verif.Date.epoch_to_utc_negative_weekday_wrong",
    "Verif.Date.epoch_to_utc_negative_partial",
    "Verif.Date.epoch_to_utc_before_1600_undefined"
   ],
   "note": "Violated (proved): fields are negative unless the time is a midnight, and before 1600-03-01 the code reads its table at a negative index. epoch_to_utc_negative_partial: back to 1600-03-01 the fields, read as offsets, denote the given second."
  },
  {
   "property": "C46",
   "status": "proved",
   "theorems": [
    "Verif.Utf8.utf8_round_trip"
   ],
   "note": ""
  },
  {
   "property": "C47",
   "status": "partial",
   "theorems": [
    "Verif.Utf8.utf8_decode_accepts_legal",
    "Verif.Utf8.utf8_decode_exact_partial",
    "Verif.Utf8.utf8_decode_legal_iff_shortest_partial",
    "Verif.Utf8.utf8_decode_accepts_overlong",
    "Verif.Utf8.utf8_decode_scalar"
   ],
   "note": "The decoder accepts overlong encodings (witness C0 AF). The exact accepted set is proved."
  },
  {
   "property": "C48",
   "status": "partial",
   "theorems": [
    "Verif.Utf8.utf8_valid_bounded_exact_partial",
    "Verif.Utf8.utf8_valid_exact_partial",
    "Verif.Utf8.utf8_valid_complete",
    "Verif.Utf8.utf8_valid_accepts_overlong"
   ],
   "note": "Same overlong exception as C47."
  },
  {
   "property": "C49",
   "status": "proved",
   "theorems": [
    "Verif.Utf8.utf8_sanitize_replaces",
    "Verif.Utf8.utf8_sanitize_valid",
    "Verif.Utf8.utf8_sanitize_identity"
   ],
   "note": "Accepted encoding means accepted by the decoder (see C47)."
  },
  {
   "property": "C50",
   "status": "proved",
   "theorems": [
    "Verif.Utf8.utf8_encode_bounded",
    "Verif.Utf8.utf8_encode_unbounded",
    "Verif.Utf8.utf8_encode_any_safe"
   ],
   "note": ""
  },
  {
   "property": "C51",
   "status": "proved",
   "theorems": [
    "Verif.Utf8.utf8_decode_no_overread_bounded",
    "Verif.Utf8.utf8_decode_no_overread_nul",
    "Verif.Utf8.utf8_decode_local"
   ],
   "note": ""
  },
  {
   "property": "C52",
   "status": "proved",
   "theorems": [
    "Verif.Charstr.case_cmp_lexicographic",
    "Verif.Charstr.ncase_cmp_lexicographic",
    "Verif.Charstr.ncase_cmp_fields",
    "Verif.Charstr.case_cmp_order"
   ],
   "note": "Sign of the lexicographic comparison of the lowercased strings; preorder laws."
  },
  {
   "property": "C53",
   "status": "proved",
   "theorems": [
    "Verif.Charstr.skip_prefix_iff",
    "Verif.Charstr.case_skip_prefix_iff",
    "Verif.Charstr.ends_with_iff"
   ],
   "note": ""
  },
  {
   "property": "C54",
   "status": "partial",
   "theorems": [
    "Verif.Charstr.char_class_partial",
    "Verif.Charstr.char_class_actual",
    "Verif.Charstr.char_class_wrong"
   ],
   "note": "The LF, FF and CR entries of the table contradict the documentation; the other classes are proved, the actual LF/FF/CR sets are stated and the violation is witnessed."
  },
  {
   "property": "C55",
   "status": "proved",
   "theorems": [
    "Verif.Charstr.case_char",
    "Verif.Charstr.case_str",
    "Verif.Charstr.case_substr",
    "Verif.Charstr.case_idempotent",
    "Verif.Charstr.digit_value_hex"
   ],
   "note": ""
  },
  {
   "property": "C56",
   "status": "proved",
   "theorems": [
    "Verif.Charstr.strip_spec",
    "Verif.Charstr.stripped_unique"
   ],
   "note": "Whitespace is what charstr_char_class reports (see C54)."
  },
  {
   "property": "C57",
   "status": "proved",
   "theorems": [
    "Verif.Charstr.split_correct",
    "Verif.Charstr.split_last",
    "Verif.Charstr.split_unique",
    "Verif.Charstr.split_nul_ub"
   ],
   "note": "For a delimiter other than NUL; with NUL the code reads past the string (split_nul_ub)."
  },
  {
   "property": "C58",
   "status": "proved",
   "theorems": [
    "Verif.Charstr.split_into_array_correct"
   ],
   "note": ""
  },
  {
   "property": "C59",
   "status": "proved",
   "theorems": [
    "Verif.Charstr.split_str_correct",
    "Verif.Charstr.split_str_unique"
   ],
   "note": ""
  },
  {
   "property": "C60",
   "status": "proved",
   "theorems": [
    "Verif.Charstr.split_atoms_correct",
    "Verif.Charstr.atoms_unique"
   ],
   "note": "Whitespace is what charstr_char_class reports (see C54)."
  },
  {
   "property": "C61",
   "status": "proved",
   "theorems": [
    "Verif.Charstr.dup_correct"
   ],
   "note": ""
  },
  {
   "property": "C62",
   "status": "proved",
   "theorems": [
    "Verif.Url.url_round_trip"
   ],
   "note": ""
  },
  {
   "property": "C63",
   "status": "partial",
   "theorems": [
    "Verif.Url.url_encode_byte_partial",
    "Verif.Url.url_byte_wrong",
    "Verif.Url.url_encode_bytes"
   ],
   "note": "The table contradicts the documentation for the bytes \" ] and }; all other bytes are proved."
  },
  {
   "property": "C64",
   "status": "proved",
   "theorems": [
    "Verif.Url.custom_encoder_table",
    "Verif.Url.custom_encode_bytes",
    "Verif.Url.custom_round_trip",
    "Verif.Url.custom_percent_no_round_trip",
    "Verif.Url.custom_unreserve_wins"
   ],
   "note": ""
  },
  {
   "property": "C65",
   "status": "proved",
   "theorems": [
    "Verif.Url.url_decode_correct",
    "Verif.Url.denote_none_iff"
   ],
   "note": ""
  },
  {
   "property": "C66",
   "status": "partial",
   "theorems": [
    "Verif.Fsalloc.fscalloc_zeroed_partial",
    "Verif.Fsalloc.fscalloc_overflow",
    "Verif.Fsalloc.fsalloc_uses_installed",
    "Verif.Fsalloc.fsalloc_fsfree",
    "Verif.Fsalloc.default_reallocator_not_null",
    "Verif.Fsalloc.skew_forwarded"
   ],
   "note": "violated when nmemb * size overflows (proved)"
  },
  {
   "property": "C67",
   "status": "proved",
   "theorems": [
    "Verif.Integer.integer_round_trip",
    "Verif.Integer.integer_cmp_sign",
    "Verif.Integer.unsigned_cmp_sign",
    "Verif.Integer.integer_cmps_total_orders"
   ],
   "note": ""
  },
  {
   "property": "C68",
   "status": "partial",
   "theorems": [
    "Verif.Categorize.categorize_succeeds",
    "Verif.Categorize.category_exact_assigned",
    "Verif.Categorize.category_unassigned",
    "Verif.Categorize.category_exact_partial",
    "Verif.Categorize.category_exact_violated",
    "Verif.Categorize.category13_succeeds",
    "Verif.Categorize.category13_exact_partial",
    "Verif.Categorize.category13_wrong_iff",
    "Verif.Categorize.category13_wrong_count",
    "Verif.Categorize.category13_violated"
   ],
   "note": "Assigned code points get exactly their category; an unassigned code point gets the category of the next assigned one when that begins a range later in the generated list (finding 14), proved as a full characterisation for any data. With the data of Unicode 13 (category13_*): exact for assigned code points; the wrong answers are for 716587 unassigned code points in 111 gaps."
  },
  {
   "property": "C69",
   "status": "proved",
   "theorems": [
    "Verif.Unicode.unicode_quick_check",
    "Verif.Unicode.unicode_scan"
   ],
   "note": "For all property tables. Decoding is that of charstr_decode_utf8_codepoint (C47: overlong forms are accepted)."
  },
  {
   "property": "C70",
   "status": "proved",
   "theorems": [
    "Verif.Unicode.unicode_decompose_correct",
    "Verif.Unicode.unicode_decompose_13"
   ],
   "note": "unicode_decompose_correct holds for all tables for which the canonical decomposition exists; unicode_decompose_13 shows that it exists for every text with the data files of the repository. Input and output do not overlap."
  },
  {
   "property": "C71",
   "status": "proved",
   "theorems": [
    "Verif.Unicode.unicode_decompose_room",
    "Verif.Unicode.unicode_decompose_safe"
   ],
   "note": "For the tables generated from the data files of the repository."
  },
  {
   "property": "C72",
   "status": "proved",
   "theorems": [
    "Verif.Unicode.unicode_recompose_correct",
    "Verif.Unicode.unicode_recompose_equivalent"
   ],
   "note": "unicode_recompose_correct states every outcome exactly: the composition of the standard, or NULL with EILSEQ, EOVERFLOW or ENOBUFS."
  },
  {
   "property": "C73",
   "status": "proved",
   "theorems": [
    "Verif.Unicode.unicode_hangul_round_trip"
   ],
   "note": ""
  },
  {
   "property": "C74",
   "status": "proved",
   "theorems": [
    "Verif.Puny.idna_encode_sound",
    "Verif.Puny.idna_encode_iff",
    "Verif.Puny.idna_ascii_form_unique"
   ],
   "note": "idna_encode_sound holds of every returned string; idna_encode_iff is for host names with room for decomposing (always the case with an ASCII character, idna_room) and few marks, see C129 for all. The ASCII form is defined by the RFC 3492 decoder."
  },
  {
   "property": "C75",
   "status": "proved",
   "theorems": [
    "Verif.Puny.punycode_encode_safe",
    "Verif.Puny.idna_terminates"
   ],
   "note": "int overflow is an outcome of the model; it is shown not to occur for the texts encode_filtered passes."
  },
  {
   "property": "C76",
   "status": "partial",
   "theorems": [
    "Verif.Puny.idna_ascii_partial",
    "Verif.Puny.idna_ascii_not_copied"
   ],
   "note": "Violated: capitals are replaced (witness idna_ascii_not_copied); otherwise an exact copy."
  },
  {
   "property": "C77",
   "status": "partial",
   "theorems": [
    "Verif.Puny.idna_safe_partial",
    "Verif.Puny.idna_failure_iff",
    "Verif.Puny.idna_aborts",
    "Verif.Puny.idna_undefined",
    "Verif.Puny.idna13_crashes"
   ],
   "note": "Violated: the assertion fails for an ASCII label of more than 63 characters in a host name that is not ASCII (idna_aborts); a host name of ignored characters only is undefined behaviour (idna_undefined). idna_failure_iff tells exactly when, for all UTF-8 strings."
  },
  {
   "property": "C78",
   "status": "partial",
   "theorems": [
    "Verif.IdnaGen.idna_test_exact_partial",
    "Verif.IdnaGen.idna_test_exact",
    "Verif.IdnaGen.idna_test_violated",
    "Verif.IdnaGen.idna_set_exact_partial",
    "Verif.IdnaGen.idna_set_violated",
    "Verif.IdnaGen.idna_set_reads_outside",
    "Verif.IdnaGen.idna_set_fails",
    "Verif.IdnaGen.idna_set_negative",
    "Verif.Puny.idna13_predicates_partial",
    "Verif.Puny.idna13_predicates_violated"
   ],
   "note": "Violated for the run reaching the last code point (generate_test) and the largest member (generate_set), finding 15; exact otherwise. idna13_*: with the data of Unicode 13."
  },
  {
   "property": "C79",
   "status": "proved",
   "theorems": [
    "Verif.IdnaGen.idna_mapping_exact",
    "Verif.IdnaGen.idna_mapping_none"
   ],
   "note": ""
  },
  {
   "property": "C80",
   "status": "partial",
   "theorems": [
    "Verif.IntSet.intset_find_next_large_partial",
    "Verif.IntSet.intset_large_element_negative",
    "Verif.IntSet.intset_find_next_hit_diverges"
   ],
   "note": "violated: above 2^32-64 the search never ends; the result is negative for members from 2^31 on"
  },
  {
   "property": "C81",
   "status": "partial",
   "theorems": [
    "Verif.BA.byte_array_refcount_wraps",
    "Verif.BA.byte_array_refcount"
   ],
   "note": "violated at 2^32 references (proved); holds below"
  },
  {
   "property": "C82",
   "status": "partial",
   "theorems": [
    "Verif.CList.list_get_by_index_overflow",
    "Verif.CList.list_any_length",
    "Verif.CList.list_sequence"
   ],
   "note": "violated: the int counter overflows on lists of 2^31 elements or more; list_sequence covers all smaller lists"
  },
  {
   "property": "C83",
   "status": "partial",
   "theorems": [
    "Verif.IdnaGen.idna_status_partial",
    "Verif.Puny.idna13_status_partial",
    "Verif.Puny.idna13_status_violated"
   ],
   "note": "charstr_idna_status on top of the emitted predicates; the lost code points of C78 are characterised exactly. idna13_*: with the data of Unicode 13; \"?\" for U+2FA1D, U+3134A and U+E01F0..U+10FFFF."
  },
  {
   "property": "C84",
   "status": "proved",
   "theorems": [
    "Verif.Unicode.unicode_tables_faithful"
   ],
   "note": "The division of the lines of the data files into fields is done by tools/gen_unidata.py and not modelled."
  },
  {
   "property": "C85",
   "status": "partial",
   "theorems": [
    "Verif.Unicode.unicode_decompose_complete_partial",
    "Verif.Unicode.unicode_decompose_incomplete"
   ],
   "note": "Violated: if the jamo of a Hangul syllable do not fit but the syllable does, it is copied undecomposed and the call succeeds (witness unicode_decompose_incomplete). Proved for texts without precomposed Hangul syllables."
  },
  {
   "property": "C86",
   "status": "partial",
   "theorems": [
    "Verif.Unicode.unicode_recompose_room_partial",
    "Verif.Unicode.unicode_recompose_enobufs"
   ],
   "note": "Violated: more than 100 marks after a starter give NULL with the undocumented ENOBUFS (witness unicode_recompose_enobufs). Proved for texts without a run of more than 100 non-starters."
  },
  {
   "property": "C87",
   "status": "proved",
   "theorems": [
    "Verif.Unicode.unicode_normalize",
    "Verif.Unicode.unicode_normal_idempotent"
   ],
   "note": ""
  },
  {
   "property": "C88",
   "status": "proved",
   "theorems": [
    "Verif.Unicode.unicode_decompose_equivalence"
   ],
   "note": ""
  },
  {
   "property": "C89",
   "status": "partial",
   "theorems": [
    "Verif.Unicode.unicode_decomposed_check_partial",
    "Verif.Unicode.unicode_composed_check_partial",
    "Verif.Unicode.unicode_composed_check_incomplete",
    "Verif.Unicode.unicode_checks_accept_overlong"
   ],
   "note": "Violated as far as valid UTF-8 goes: overlong encodings are accepted (witness unicode_checks_accept_overlong). The normal form part is proved; for form D it is exact."
  },
  {
   "property": "C90",
   "status": "partial",
   "theorems": [
    "Verif.Puny.idna_injective_partial",
    "Verif.Puny.idna_collision",
    "Verif.Puny.idna13_collision"
   ],
   "note": "Violated: ASCII labels beginning with xn-- are not checked (idna_collision). Proved for host names without such labels."
  },
  {
   "property": "C91",
   "status": "partial",
   "theorems": [
    "Verif.Puny.idna_complete_partial",
    "Verif.Puny.idna_limit_off_by_one",
    "Verif.Puny.idna_refuses_long_utf8",
    "Verif.Puny.idna_spurious_overflow",
    "Verif.Puny.idna13_refuses"
   ],
   "note": "Violated in three ways (witnesses). Proved within the narrower limits of the code; C129 says exactly which host names are encoded."
  },
  {
   "property": "C92",
   "status": "partial",
   "theorems": [
    "Verif.Puny.idna_malformed_partial",
    "Verif.Puny.idna_accepts_overlong",
    "Verif.Puny.idna_truncates",
    "Verif.Puny.idna13_malformed",
    "Verif.Puny.idna_bytes_exact"
   ],
   "note": "Violated: overlong encodings are accepted, and C0 80 can truncate the host name silently (witnesses). Proved for everything the decoder does not accept; idna_bytes_exact gives the outcome for all strings."
  },
  {
   "property": "C93",
   "status": "partial",
   "theorems": [
    "Verif.Puny.idna_labels_partial",
    "Verif.Puny.idna_accepts_empty_label",
    "Verif.Puny.idna_accepts_hyphen",
    "Verif.Puny.idna13_accepts"
   ],
   "note": "Violated: empty labels and labels ending with a hyphen are accepted inside the host name (witnesses). The rest is proved. idna13_accepts also shows that labels beginning with a mark of category Mn are accepted."
  },
  {
   "property": "C94",
   "status": "proved",
   "theorems": [
    "Verif.Puny.idna_equivalent",
    "Verif.Puny.idna_equivalent_any"
   ],
   "note": "idna_equivalent: for host names with room and without more than 100 pending marks (C86); idna_equivalent_any: for all, NULL for one of them being the only possible difference."
  },
  {
   "property": "C95",
   "status": "partial",
   "theorems": [
    "Verif.Puny.idna_normalized_partial",
    "Verif.Puny.idna_not_normalized",
    "Verif.Puny.idna13_not_normalized"
   ],
   "note": "Violated: the text is normalized before but not after mapping (witness). Proved if no character is changed by the mapping."
  },
  {
   "property": "C96",
   "status": "proved",
   "theorems": [
    "Verif.Puny.idna_output"
   ],
   "note": ""
  },
  {
   "property": "C97",
   "status": "proved",
   "theorems": [
    "Verif.Puny.idna_idempotent"
   ],
   "note": ""
  },
  {
   "property": "C98",
   "status": "proved",
   "theorems": [
    "Verif.IdnaGen.idna_read_exact",
    "Verif.IdnaGen.idna_read_rejects",
    "Verif.IdnaGen.idna_read_lenient"
   ],
   "note": "For any layout of the file. idna_read_lenient: what a line outside the format does."
  },
  {
   "property": "C99",
   "status": "partial",
   "theorems": [
    "Verif.Puny.idna13_succeeds",
    "Verif.Puny.idna13_encode_iff_partial",
    "Verif.Puny.idna13_failure_iff",
    "Verif.Puny.idna13_labels",
    "Verif.Puny.idna13_mapping",
    "Verif.Puny.idna13_refuses_valid",
    "Verif.Puny.idna13_sample"
   ],
   "note": "End to end with the real data: generator program, generated tables, encoder. Violated for U+3134A (finding 15), which is valid and refused, and for host names that do not fit (C86, C91, C129)."
  },
  {
   "property": "C100",
   "status": "proved",
   "theorems": [
    "Verif.Categorize.case13_succeeds",
    "Verif.Categorize.lcase13_exact",
    "Verif.Categorize.ucase13_exact",
    "Verif.Categorize.case13_not_simple"
   ],
   "note": "With the real data. case13_not_simple shows that mappings of other categories are not used."
  },
  {
   "property": "C101",
   "status": "proved",
   "theorems": [
    "Verif.Categorize.case13_idempotent",
    "Verif.Categorize.case13_round_trip",
    "Verif.Categorize.case13_width",
    "Verif.Categorize.case13_ascii"
   ],
   "note": "With the real data."
  },
  {
   "property": "C102",
   "status": "proved",
   "theorems": [
    "Verif.Owned.split_owned",
    "Verif.Owned.split_atoms_owned",
    "Verif.Owned.split_str_owned",
    "Verif.Owned.split_into_array_owned",
    "Verif.Owned.split_into_array_short"
   ],
   "note": "On pointer memory with any allocator; the pieces satisfy the specifications of C57-C59."
  },
  {
   "property": "C103",
   "status": "proved",
   "theorems": [
    "Verif.Owned.idna_encode_owned",
    "Verif.Owned.idna_encode_freed",
    "Verif.Owned.idna_owned_sample",
    "Verif.Owned.idna_owned_refused"
   ],
   "note": "Both directions: the memory-level encoder returns exactly when the functional one does."
  },
  {
   "property": "C104",
   "status": "proved",
   "theorems": [
    "Verif.Owned.printf_owned"
   ],
   "note": "The C library formatter is a parameter; %n is excluded; errno is not modelled."
  },
  {
   "property": "C105",
   "status": "proved",
   "theorems": [
    "Verif.Objects.objects_refine",
    "Verif.Objects.sample_legal"
   ],
   "note": "sample_legal is the case that meets the hypotheses"
  },
  {
   "property": "C106",
   "status": "partial",
   "theorems": [
    "Verif.Objects.append_within_partial",
    "Verif.Objects.copy_within_partial",
    "Verif.Objects.append_within_freed",
    "Verif.Objects.copy_within_freed"
   ],
   "note": "Holds if the array does not have to grow. If it grows and the allocator moves the block, the source is read after it was freed (append_within_freed, copy_within_freed)."
  },
  {
   "property": "C107",
   "status": "proved",
   "theorems": [
    "Verif.Whole.library_refines"
   ],
   "note": "For any family of parts: trees of a comparator, lists, a hash table, objects. Hash tables need a compatible hash function, queues an ordering; a tree's claims about order need an ordering. sampleProg, sample_legal and an example show a program that uses all parts. Parts with different comparators may be used side by side."
  },
  {
   "property": "C108",
   "status": "proved",
   "theorems": [
    "Verif.Prioq.priorq_cost",
    "Verif.Avl.avl_cost",
    "Verif.Hash.hash_cost"
   ],
   "note": "Cost is stated semantically: a set of pairs of at most that many settles the outcome of the call, whatever the comparator says about all other pairs. Calls of reloc are counted in the trace of the queue."
  },
  {
   "property": "C109",
   "status": "proved",
   "theorems": [
    "Verif.Utf8.utf8_encode_run",
    "Verif.Utf8.utf8_decode_run",
    "Verif.Utf8.utf8_decode_run_safe",
    "Verif.Utf8.utf8_runs_round_trip"
   ],
   "note": "charstr_encode_utf8_codepoint and charstr_decode_utf8_codepoint with pointers that may be NULL (Model/Utf8Null.lean)."
  },
  {
   "property": "C110",
   "status": "proved",
   "theorems": [
    "Verif.Err.byte_array_errno",
    "Verif.Err.byte_array_refusal_errno",
    "Verif.Err.url_decode_errno",
    "Verif.Err.vprintf_errno"
   ],
   "note": "errno as a state (Model/Errno.lean), related to the models without it. Assumes that a successful allocation leaves errno alone."
  },
  {
   "property": "C111",
   "status": "proved",
   "theorems": [
    "Verif.Strings.strings_refine",
    "Verif.Whole.library_refines"
   ],
   "note": "strings_refine: programs on strings alone, with the contents of memory at the end; library_refines: the same beside the other parts of the library."
  },
  {
   "property": "C112",
   "status": "partial",
   "theorems": [
    "Verif.PyGen.datafile_category_partial",
    "Verif.PyGen.datafile_category_other",
    "Verif.PyGen.datafile_category_violated",
    "Verif.PyGen.datafile_lower",
    "Verif.PyGen.datafile_upper",
    "Verif.PyGen.datafile_ccc",
    "Verif.PyGen.datafile_decomposition",
    "Verif.PyGen.datafile_composite",
    "Verif.PyGen.datafile_quick",
    "Verif.PyGen.datafile13_sound",
    "Verif.PyGen.datafile13_category",
    "Verif.PyGen.datafile13_case",
    "Verif.PyGen.datafile13_functions",
    "Verif.PyGen.datafile13_exists"
   ],
   "note": "Everything but the category of unassigned code points, which is wrong before a code point that stands alone (C68); datafile_category_other says exactly what the result is there. recomposition.py needs mappings of at most two code points; the datafile13 theorems are for any text that says what the tables of the development record."
  },
  {
   "property": "C113",
   "status": "proved",
   "theorems": [
    "Verif.CList.foreach_refines",
    "Verif.CList.foreach_freed",
    "Verif.CList.foreach_pop_violated",
    "Verif.CList.foreach_countdown"
   ],
   "note": "foreach_refines takes any program of list calls whose callbacks keep the rules (Fair). foreach_countdown is a case with appended elements being visited. foreach_pop_violated shows that the one forbidden thing is undefined behaviour for every non-empty list."
  },
  {
   "property": "C114",
   "status": "proved",
   "theorems": [
    "Verif.Callbacks.avl_callbacks",
    "Verif.Callbacks.hash_callbacks",
    "Verif.Callbacks.queue_callbacks",
    "Verif.Avl.avl_copy",
    "Verif.Whole.library_refines"
   ],
   "note": "Callbacks are numbers (pointers) stored in the object; Funs says what function each pointer is. library_refines lets each part have its own callbacks, so several comparators in one program are covered."
  },
  {
   "property": "C115",
   "status": "proved",
   "theorems": [
    "Verif.BA.byte_array_growth",
    "Verif.Prioq.priorq_growth"
   ],
   "note": "Sizes of the blocks before and after every call; changes/moved are defined in Spec/Growth.lean, the room a call asks for in Op.reach from its arguments. A reallocation is a change of the block's size: ensure_space and priorq_enqueue call fsrealloc only with a size above the present one. A stream call asks for the room it offers the callback, also if the callback stores less."
  },
  {
   "property": "C116",
   "status": "proved",
   "theorems": [
    "Verif.Whole.library_out_of_memory",
    "Verif.Owned.idna_out_of_memory",
    "Verif.null_reallocator_undefined"
   ],
   "note": "Every allocating function of the model is compared with itself under the allocator that picks the same addresses and has room for everything: it does the same or aborts; the loops by fixed point induction. A program that stops after some calls is a program too, so all results before an abort are right as well."
  },
  {
   "property": "C117",
   "status": "proved",
   "theorems": [
    "Verif.Avl.avl_stack",
    "Verif.Avl.avl_stack_needed",
    "Verif.Unicode.decompose_stack",
    "Verif.Unicode.decompose_stack_needed"
   ],
   "note": "The recursive functions are modelled a second time with the number of calls that the stack still has room for (Model/Stack.lean); each does the same as the function without that number, or aborts, and the functional correctness proofs show that it returns when there is room for two calls for each level of the tree. Only calls of the recursive functions are counted, not bytes; the other functions nest to a fixed depth. charstr_dupstr and charstr_dupsubstr call each other, but at most once."
  },
  {
   "property": "C118",
   "status": "proved",
   "theorems": [
    "Verif.Whole.library_blocks",
    "Verif.Whole.library_total"
   ],
   "note": "The numbers are the field `size` of the parts in Spec/Whole.lean. The lists in the buckets of a hash table stay when they become empty, until the table is destroyed; the statement bounds their number by the number of buckets and gives no exact number. Sizes of blocks in bytes are in C115."
  },
  {
   "property": "C119",
   "status": "proved",
   "theorems": [
    "Verif.Avl.avl_sweep",
    "Verif.CList.list_sweep",
    "Verif.Hash.hash_sweep"
   ],
   "note": "The loops are the user's code and are written down as such in Proofs/AvlSweep.lean, Proofs/ListSweep.lean and Proofs/HashSweep.lean. What is left is Spec.kept; kept_filter shows that it is a filter when only the element counts."
  },
  {
   "property": "C120",
   "status": "proved",
   "theorems": [
    "Verif.Avl.avl_drain",
    "Verif.CList.list_drain",
    "Verif.Hash.hash_drain"
   ],
   "note": "list_drain covers both ways to end the loop over a list."
  },
  {
   "property": "C121",
   "status": "proved",
   "theorems": [
    "Verif.Base64.base64_decode_in_place_same",
    "Verif.Base64.base64_decode_in_place",
    "Verif.Unicode.unicode_recompose_in_place_same",
    "Verif.Unicode.unicode_normalize_in_place",
    "Verif.Unicode.unicode_decompose_in_place_fails"
   ],
   "note": "Model/InPlace.lean is the same code with one memory for source and destination. unicode_decompose_in_place_fails is the witness for decomposition."
  },
  {
   "property": "C122",
   "status": "proved",
   "theorems": [
    "Verif.Unicode.unicode_decompose_pieces",
    "Verif.Unicode.unicode_normalize_pieces",
    "Verif.Unicode.unicode_checks_substring",
    "Verif.Unicode.unicode_checks_pieces",
    "Verif.Unicode.unicode_pieces_condition"
   ],
   "note": "Begins is the condition on the character after the cut, in terms of the data files. unicode_pieces_condition shows that it is needed."
  },
  {
   "property": "C123",
   "status": "proved",
   "theorems": [
    "Verif.Base64.base64_encode_pieces",
    "Verif.Base64.base64_decode_pieces",
    "Verif.Base64.base64_decode_cut"
   ],
   "note": "The loops over the pieces are the user's code and are written down as encodeChunks and decodeChunks."
  },
  {
   "property": "C124",
   "status": "proved",
   "theorems": [
    "Verif.queries_change_nothing",
    "Verif.queries_commute"
   ],
   "note": "Queries lists the functions. Integer sets and priority queues are left out: their queries are functions of the set or queue in the model and have no memory to change."
  },
  {
   "property": "C125",
   "status": "proved",
   "theorems": [
    "Verif.Date.epoch_to_utc_order",
    "Verif.Date.epoch_to_utc_onto"
   ],
   "note": "Valid and after are the calendar specification of C43. The year limit is not sharp: the int day number overflows only near the year 5881000 (epoch_to_utc_overflow)."
  },
  {
   "property": "C126",
   "status": "proved",
   "theorems": [
    "Verif.Utf8.charstr_valid_text",
    "Verif.Utf8.utf8_split_pieces",
    "Verif.Utf8.utf8_split_str_pieces",
    "Verif.Utf8.utf8_strip_text",
    "Verif.Utf8.utf8_split_atoms_pieces",
    "Verif.Utf8.utf8_case_text",
    "Verif.Utf8.utf8_skip_prefix_text",
    "Verif.Utf8.utf8_case_cmp_order",
    "Verif.Utf8.utf8_split_condition"
   ],
   "note": "Enc A says that A is Legal (UTF-8) or Loose (what charstr_valid_utf8 accepts, charstr_valid_text). utf8_split_condition shows that the delimiter must be ASCII."
  },
  {
   "property": "C127",
   "status": "proved",
   "theorems": [
    "Verif.IntSet.intset_sweep",
    "Verif.IntSet.intset_sweep_empties",
    "Verif.IntSet.intset_sweep_overflow"
   ],
   "note": "The loop is the user's code, written down as sweep. Upto m says that a call of the body concerns a number up to m."
  },
  {
   "property": "C128",
   "status": "proved",
   "theorems": [
    "Verif.Unicode.unicode_decompose_exact",
    "Verif.Unicode.unicode_squeezed_unique",
    "Verif.Unicode.unicode_decompose_equivalent",
    "Verif.Unicode.unicode_normalize_any_room"
   ],
   "note": "Says exactly what happens where C85 is violated. Squeezed, Exchanges and Ordered do not mention the model. The example shows that two syllables can be left. unicode_normalize_any_room excludes the overlong encoding of NUL."
  },
  {
   "property": "C129",
   "status": "proved",
   "theorems": [
    "Verif.Puny.idna_encode_exact",
    "Verif.Puny.idna_failure_iff",
    "Verif.Puny.idna_bytes_exact",
    "Verif.Puny.idna_equivalent_any"
   ],
   "note": "Fits, Checked and Reach are stated with the quick check values, the canonical decomposition and composition of the specification. Examples: U+0390 fits by the quick check only, U+1D160 does not fit."
  },
  {
   "property": "C130",
   "status": "proved",
   "theorems": [
    "Verif.Sorts.sorts_agree",
    "Verif.Sorts.sorts_numbers"
   ],
   "note": "The tree lives in the heap model, the queue and the set in models of their own (C107 has them all in one memory)."
  },
  {
   "property": "C131",
   "status": "proved",
   "theorems": [
    "Verif.Url.form_round_trip"
   ],
   "note": "The separators are all characters but letters, digits, NUL and %+-./<>\\^_`{|}~\" ."
  },
  {
   "property": "C132",
   "status": "proved",
   "theorems": [
    "Verif.Avl.avl_walk"
   ],
   "note": "A call looks at k objects if k objects settle its outcome: in any other memory that has the same objects at these addresses it returns the same."
  },
  {
   "property": "C133",
   "status": "partial",
   "theorems": [
    "Verif.Emit.emitted_lower",
    "Verif.Emit.emitted_upper",
    "Verif.Emit.emitted_ccc",
    "Verif.Emit.emitted_decomposition",
    "Verif.Emit.emitted_composite",
    "Verif.Emit.emitted_quick",
    "Verif.Emit.emitted_category_partial",
    "Verif.Emit.emitted_category_violated"
   ],
   "note": "The meaning of C text is a lexer, parser and semantics of the part of C in question, independent of the generators (Spec/CText.lean). Six scripts are proved in full. The partial part is categorize.py, whose function has a defect for code points without a category (C68, C112), here shown on the emitted text; for them the theorem gives the constant that is returned."
  },
  {
   "property": "C134",
   "status": "partial",
   "theorems": [
    "Verif.Emit.emitted_idna_mapping",
    "Verif.Emit.emitted_idna_test_partial",
    "Verif.Emit.emitted_idna_set_partial",
    "Verif.Emit.emitted_idna_violated"
   ],
   "note": "The mapping function is proved in full, for files with a nonempty mapping. The predicates are partial because of the defects of C78, here shown on the emitted text: those of generate_test are false in the run that reaches U+10FFFF, those of generate_set for the greatest code point with the status (outside the array if it is a multiple of 64) and they are undefined for negative arguments."
  },
  {
   "property": "C135",
   "status": "partial",
   "theorems": [
    "Verif.Emit.emitted13_marks",
    "Verif.Emit.emitted13_composite",
    "Verif.Emit.emitted13_quick",
    "Verif.Emit.emitted13_case",
    "Verif.Emit.emitted13_idna_partial"
   ],
   "note": "Composition of C133 and C134 with the tables of Verif/Data. Partial because of the defects of the generators: the category of some unassigned code points (category13_wrong_iff says which) and the IDNA status of U+3134A, U+2FA1D and U+E01F0..U+10FFFF; for these the theorems say what the text means instead."
  },
  {
   "property": "C136",
   "status": "proved",
   "theorems": [
    "Verif.Hash.hash_order",
    "Verif.Hash.tour_order",
    "Verif.Hash.hash_puts_order"
   ],
   "note": "Refinement of a specification whose state is the list of items by age; step_forget shows that it refines that of C15."
  },
  {
   "property": "C137",
   "status": "proved",
   "theorems": [
    "Verif.Puny.idna_same_iff",
    "Verif.Puny.form_unique"
   ],
   "note": "The exact version of C90: a host name that is ASCII is not normalized or mapped, and its labels can be the ASCII form of others."
  },
  {
   "property": "C138",
   "status": "proved",
   "theorems": [
    "Verif.BA.byte_array_any_callback",
    "Verif.BA.end_byte_lost",
    "Verif.BA.byte_array_terminated_again"
   ],
   "note": "The exact version of C31: C29 and C30 without the demand that a callback that reports nothing stores nothing."
  },
  {
   "property": "C139",
   "status": "proved",
   "theorems": [
    "Verif.Shipped.shipped_unicode_data",
    "Verif.Shipped.shipped_unicode_ascii",
    "Verif.Shipped.shipped_category",
    "Verif.Shipped.shipped_case"
   ],
   "note": "The bytes are in Verif/Data/Text as numbers (tools/gen_text.py). A checker written with recursors is proved sound and evaluated by the kernel over the whole file; a line that does not fit the tables fails the build."
  },
  {
   "property": "C140",
   "status": "proved",
   "theorems": [
    "Verif.Shipped.shipped_idna",
    "Verif.Shipped.shipped_idna_emitted",
    "Verif.Shipped.shipped_props",
    "Verif.Shipped.shipped_exclusions",
    "Verif.Shipped.shipped_functions",
    "Verif.Shipped.shipped_functions_utf8",
    "Verif.Shipped.shipped_utf8"
   ],
   "note": "The bytes are in Verif/Data/Text as numbers (tools/gen_text.py). Checkers written with recursors are proved sound and evaluated by the kernel over the whole files."
  },
  {
   "property": "C141",
   "status": "partial",
   "theorems": [
    "Verif.Shipped.shipped_emitted_lines",
    "Verif.Shipped.shipped_emitted_category_partial",
    "Verif.Shipped.shipped_emitted_category_violated",
    "Verif.Shipped.shipped_emitted_normalization",
    "Verif.Shipped.shipped_emitted_idna_partial",
    "Verif.Shipped.shipped_emitted_idna_violated"
   ],
   "note": "All of it but two defects of the code, for which the theorems say what is returned instead: the category of unassigned code points (C68, exactly where in category13_wrong_iff) and the IDNA status of U+3134A, U+2FA1D and of code points from U+E01F0 on (C78, C83)."
  },
  {
   "property": "C142",
   "status": "proved",
   "theorems": [
    "Verif.Shipped.shipped_files",
    "Verif.Shipped.shipped_emitted_functions",
    "Verif.Shipped.shipped_decompose",
    "Verif.Shipped.shipped_recompose",
    "Verif.Shipped.shipped_normalize",
    "Verif.Shipped.shipped_checks"
   ],
   "note": "Neither side of the statements mentions the tables of the model: `Emitted` is about the meaning of the emitted source and `Files` about the lines of the files. The check for form C is sound only (C89 says why), and texts are read as the decoder of the library reads them (C47)."
  },
  {
   "property": "C143",
   "status": "partial",
   "theorems": [
    "Verif.Shipped.shipped_readings",
    "Verif.Shipped.shipped_host_functions",
    "Verif.Shipped.shipped_host_partial",
    "Verif.Shipped.shipped_host_violated"
   ],
   "note": "Missing: texts with U+3134A, which the lines call valid and the function refuses (`shipped_host_violated`). The files can be read in just one way (`shipped_readings`), and neither side of the statement mentions the tables of the model. Names that do not fit the buffers are refused, which `Short` states exactly (C91, C129)."
  },
  {
   "property": "C144",
   "status": "proved",
   "theorems": [
    "Verif.Source.source_integer",
    "Verif.Source.source_unsigned",
    "Verif.Source.source_date"
   ],
   "note": "The statements do not mention the model of these files; the text is in Verif/Data/Source, its meaning in Verif/Spec/CSource.lean. That the text means the model, also outside the domain of C43, is `run_integer`, `run_unsigned` and `run_date` in Proofs/SourceRun.lean."
  },
  {
   "property": "C145",
   "status": "proved",
   "theorems": [
    "Verif.Source.source_case_cmp",
    "Verif.Source.source_ncase_cmp",
    "Verif.Source.source_skip_prefix",
    "Verif.Source.source_case_skip_prefix",
    "Verif.Source.source_chars"
   ],
   "note": "charstr_ends_with is in the text but calls strlen and strcmp of the C library; it is covered by C53 on the model only. For the class the statement is what the table contains (C54: the flags of line feed, form feed and carriage return are not as documented). That the text means the model, also for strings without NUL, is `run_cmp`, `run_ncmp`, `run_skip`, `run_caseSkip` and `run_chars` in Proofs/SourceCalls.lean."
  },
  {
   "property": "C146",
   "status": "proved",
   "theorems": [
    "Verif.Source.source_decode",
    "Verif.Source.source_valid_bounded",
    "Verif.Source.source_valid",
    "Verif.Source.source_encode",
    "Verif.Source.source_encode_unbounded",
    "Verif.Source.source_encode_any",
    "Verif.Source.source_encode_memory",
    "Verif.Source.source_utf8_null"
   ],
   "note": "What is accepted is `Loose`: overlong forms too, as C47 and C48 (partial) record. charstr_sanitize_utf8, between the two parts of the text, allocates; it is covered by C49 on the model only. That the text means the model on any input is `run_decode`, `run_bounded`, `run_valid` and `run_encode` in Proofs/SourceUtf8.lean and Proofs/SourceEncode.lean."
  },
  {
   "property": "C147",
   "status": "proved",
   "theorems": [
    "Verif.Source.source_case_str",
    "Verif.Source.source_case_substr",
    "Verif.Source.source_encode_memory"
   ],
   "note": "`end` must not be in front of `s`. That the text means the model on any input, those without a NUL included, is `run_lcase_str`, `run_ucase_str`, `run_lcase_substr` and `run_ucase_substr` in Proofs/SourceCase.lean."
  },
  {
   "property": "C148",
   "status": "proved",
   "theorems": [
    "Verif.Source.source_encoding_size",
    "Verif.Source.source_base64_tables"
   ],
   "note": "The two wrong elements are part of the statement; C39 (partial) is the property they violate. `source_base64_tables` speaks of the memory after any call that returns."
  },
  {
   "property": "C149",
   "status": "proved",
   "theorems": [
    "Verif.Source.source_integer_boxes",
    "Verif.Source.source_unsigned_boxes"
   ],
   "note": "The model of C67 is not part of the statements. Conversion between integers and pointers is implementation-defined; the reading keeps the 64-bit number, with 0 for NULL."
  },
  {
   "property": "C150",
   "status": "proved",
   "theorems": [
    "Verif.Source.source_list_get",
    "Verif.Source.source_list_members"
   ],
   "note": "The comparison of a pointer to an object with a pointer made of an integer is excluded: its result depends on addresses. `list_get_by_index` is C151; the functions that allocate are not among those read from the text and are modelled by hand as before."
  },
  {
   "property": "C151",
   "status": "proved",
   "theorems": [
    "Verif.Source.source_list_get_by_index",
    "Verif.Source.source_list_index_overflow"
   ],
   "note": "The overflow is the one of C82 (partial); here it is proved of the text, with a list of 2^31 elements beside it."
  }
 ]
}
