{
 "claims": [
  {
   "property": "C01",
   "status": "proved",
   "theorems": [
    "Mammon.C01_round_trip",
    "Mammon.C01_serialize_ub_iff",
    "Mammon.objects_wf",
    "Mammon.C01_classes"
   ],
   "note": "Bit lists of 2^31 bits and more are undefined behaviour in serialize (exactly characterised)."
  },
  {
   "property": "C02",
   "status": "proved",
   "theorems": [
    "Mammon.C02_encoding",
    "Mammon.C02_classes",
    "Mammon.C44_schemas"
   ],
   "note": ""
  },
  {
   "property": "C03",
   "status": "proved",
   "theorems": [
    "Mammon.C03_fixed_sizes",
    "Mammon.C03_variable_sizes",
    "Mammon.C03_classes"
   ],
   "note": ""
  },
  {
   "property": "C04",
   "status": "proved",
   "theorems": [
    "Mammon.C04_independent",
    "Mammon.C04_classes"
   ],
   "note": ""
  },
  {
   "property": "C05",
   "status": "proved",
   "theorems": [
    "Mammon.C05_history",
    "Mammon.C05_classes"
   ],
   "note": ""
  },
  {
   "property": "C06",
   "status": "proved",
   "theorems": [
    "Mammon.C06_canonical",
    "Mammon.C06_covered",
    "Mammon.C06_not_canonical",
    "Mammon.C06_classes",
    "Mammon.C06_exact",
    "Mammon.C06_length"
   ],
   "note": "For all types without partial-byte bit vectors; the failure for the others (BeaconState) is proved, and which encodings they accept: exactly those with arbitrary padding bits."
  },
  {
   "property": "C07",
   "status": "proved",
   "theorems": [
    "Mammon.C07_safe",
    "Mammon.C07_covered",
    "Mammon.C07_classes"
   ],
   "note": ""
  },
  {
   "property": "C08",
   "status": "partial",
   "theorems": [
    "Mammon.C08_bitlist_partial",
    "Mammon.C08_only_bitlists_partial",
    "Mammon.C08_not_rejected",
    "Mammon.C08_classes_partial",
    "Mammon.C08_attestation_partial",
    "Mammon.C08_pending_partial"
   ],
   "note": "Claim is false for the code: negation proved; the exact set of inputs with undefined behaviour is proved."
  },
  {
   "property": "C09",
   "status": "proved",
   "theorems": [
    "Mammon.C09_bits_to_bytes",
    "Mammon.C09_bytes_to_bits"
   ],
   "note": ""
  },
  {
   "property": "C10",
   "status": "partial",
   "theorems": [
    "Mammon.C10_round_trip",
    "Mammon.C10_accepted_partial",
    "Mammon.C10_encodings_partial",
    "Mammon.C10_padding_ignored"
   ],
   "note": "Round trip and rejection of wrong lengths proved; rejection of padding bits is false for the code (proved)."
  },
  {
   "property": "C11",
   "status": "partial",
   "theorems": [
    "Mammon.C11_exact_partial",
    "Mammon.C11_container_partial",
    "Mammon.C11_trailing_bytes"
   ],
   "note": "False for containers (proved for every fixed-size container); holds for the other fixed-size types."
  },
  {
   "property": "C12",
   "status": "partial",
   "theorems": [
    "Mammon.C12_bounded_by_input_partial",
    "Mammon.C12_limits_not_enforced"
   ],
   "note": "False for the code (proved); element count is bounded by the input only."
  },
  {
   "property": "C13",
   "status": "proved",
   "theorems": [
    "Mammon.C13_merkle_root"
   ],
   "note": ""
  },
  {
   "property": "C14",
   "status": "proved",
   "theorems": [
    "Mammon.C14_within_buffer",
    "Mammon.C14_limit_needed"
   ],
   "note": ""
  },
  {
   "property": "C15",
   "status": "partial",
   "theorems": [
    "Mammon.C15_safe_partial",
    "Mammon.C15_over_limit",
    "Mammon.C15_overflow",
    "Mammon.C15_exact",
    "Mammon.C15_accepted",
    "Mammon.C15_within",
    "Mammon.C15_full"
   ],
   "note": "False for over-long lists: any block body with three attester slashings overflows (C15_overflow). C15_exact and C15_accepted say exactly for which objects hashing is undefined, and what the root is otherwise."
  },
  {
   "property": "C16",
   "status": "proved",
   "theorems": [
    "Mammon.C16_hash_tree_root",
    "Mammon.C16_covered",
    "Mammon.C16_classes"
   ],
   "note": "For bit lists below 2^31 bits (beyond, hash_tree has undefined behaviour)."
  },
  {
   "property": "C17",
   "status": "proved",
   "theorems": [
    "Mammon.C17_binding",
    "Mammon.C17_classes"
   ],
   "note": "For bit lists below 2^31 bits."
  },
  {
   "property": "C18",
   "status": "proved",
   "theorems": [
    "Mammon.C18_layout",
    "Mammon.C18_size"
   ],
   "note": ""
  },
  {
   "property": "C19",
   "status": "proved",
   "theorems": [
    "Mammon.C19_mix_in",
    "Mammon.C19_lengths"
   ],
   "note": ""
  },
  {
   "property": "C20",
   "status": "proved",
   "theorems": [
    "Mammon.C20_pack"
   ],
   "note": ""
  },
  {
   "property": "C21",
   "status": "proved",
   "theorems": [
    "Mammon.C21_zero_hashes",
    "Mammon.C21_size",
    "Mammon.C21_empty_list"
   ],
   "note": ""
  },
  {
   "property": "C22",
   "status": "proved",
   "theorems": [
    "Mammon.C22_one_block"
   ],
   "note": "Instruction-level model; every initial content of registers, output and stack."
  },
  {
   "property": "C23",
   "status": "proved",
   "theorems": [
    "Mammon.C23_four_lanes"
   ],
   "note": ""
  },
  {
   "property": "C24",
   "status": "proved",
   "theorems": [
    "Mammon.C24_eight_lanes"
   ],
   "note": ""
  },
  {
   "property": "C25",
   "status": "proved",
   "theorems": [
    "Mammon.C25_sha_instructions"
   ],
   "note": ""
  },
  {
   "property": "C26",
   "status": "proved",
   "theorems": [
    "Mammon.C26_digests",
    "Mammon.C26_same_output",
    "Mammon.C26_same_root",
    "Mammon.C26_root",
    "Mammon.C26_blocks",
    "Mammon.C16_classes"
   ],
   "note": ""
  },
  {
   "property": "C27",
   "status": "partial",
   "theorems": [
    "Mammon.C27_preferred",
    "Mammon.C27_supported_partial",
    "Mammon.C27_needs",
    "Mammon.C27_supported_iff",
    "Mammon.C27_usable_iff",
    "Mammon.C27_os_support",
    "Mammon.C27_fallback_unsupported",
    "Mammon.C27_uninitialised",
    "Mammon.C27_explicit"
   ],
   "note": "Preference proved, and the exact set of extensions each routine executes for each number of blocks. The set of processors on which the claim holds is characterised exactly. False on processors without AVX and SHA (proved: the fallback executes AVX code), where the operating system has not enabled AVX (proved), and without cpuid leaf 7 (uninitialised read)."
  },
  {
   "property": "C28",
   "status": "partial",
   "theorems": [
    "Mammon.C28_concurrent_partial",
    "Mammon.C28_store_buffers_partial",
    "Mammon.C28_race",
    "Mammon.C28_race_store_buffers",
    "Mammon.C28_race_witness"
   ],
   "note": "Proved for any number of threads, all routines, block counts and schedules, under sequential consistency and with store buffers (x86-TSO), provided at most one thread is in sha256_shani with two or more blocks; for two such threads, with any block counts, a wrong digest is proved reachable."
  },
  {
   "property": "C29",
   "status": "proved",
   "theorems": [
    "Mammon.C29_integer_squareroot",
    "Mammon.C29_ct_sqrt"
   ],
   "note": "The floating point estimate is an arbitrary input of the model."
  },
  {
   "property": "C30",
   "status": "proved",
   "theorems": [
    "Mammon.C30_log2ceil"
   ],
   "note": ""
  },
  {
   "property": "C31",
   "status": "proved",
   "theorems": [
    "Mammon.C31_from_int",
    "Mammon.C31_round_trip",
    "Mammon.C31_injective",
    "Mammon.C31_round_trip_bytes"
   ],
   "note": ""
  },
  {
   "property": "C32",
   "status": "partial",
   "theorems": [
    "Mammon.C32_parse_partial",
    "Mammon.C32_undefined_iff",
    "Mammon.C32_accepts_non_digits"
   ],
   "note": "Rejection of non-digits is false for the code: full description of the outcome for every string is proved."
  },
  {
   "property": "C33",
   "status": "proved",
   "theorems": [
    "Mammon.C33_xor",
    "Mammon.C33_xor_laws",
    "Mammon.C33_concat",
    "Mammon.C33_equality"
   ],
   "note": ""
  },
  {
   "property": "C34",
   "status": "partial",
   "theorems": [
    "Mammon.C34_equality_partial",
    "Mammon.C34_covered",
    "Mammon.C34_reflexive",
    "Mammon.C34_always_true",
    "Mammon.C34_state_equality",
    "Mammon.C34_state_differs"
   ],
   "note": "False for the code except for four containers and the basic types; what == compares is proved for every type."
  },
  {
   "property": "C35",
   "status": "partial",
   "theorems": [
    "Mammon.C35_members",
    "Mammon.C35_surround_partial",
    "Mammon.C35_not_double_partial",
    "Mammon.C35_double_vote_missed"
   ],
   "note": "Surround votes are recognised exactly; double votes never are (proved)."
  },
  {
   "property": "C36",
   "status": "proved",
   "theorems": [
    "Mammon.C36_is_valid"
   ],
   "note": ""
  },
  {
   "property": "C37",
   "status": "proved",
   "theorems": [
    "Mammon.C37_members",
    "Mammon.C37_predicates",
    "Mammon.C37_intervals"
   ],
   "note": ""
  },
  {
   "property": "C38",
   "status": "proved",
   "theorems": [
    "Mammon.C38_round_trip_iff",
    "Mammon.C38_round_trip",
    "Mammon.C38_classes"
   ],
   "note": "Relative to the model of yaml-cpp trees and to the contract of the missing helpers::bytes_to_string."
  },
  {
   "property": "C39",
   "status": "partial",
   "theorems": [
    "Mammon.C39_bitlist_never",
    "Mammon.C39_bitvector_iff",
    "Mammon.C39_bitlist_undefined_iff",
    "Mammon.C39_attestation_never",
    "Mammon.C39_hex_partial"
   ],
   "note": "False for the code: no bit list and only the zero bit vectors survive; decoding from proper hexadecimal text is correct."
  },
  {
   "property": "C40",
   "status": "proved",
   "theorems": [
    "Mammon.C40_injective",
    "Mammon.C40_classes"
   ],
   "note": ""
  },
  {
   "property": "C41",
   "status": "proved",
   "theorems": [
    "Mammon.C41_accepted",
    "Mammon.C41_classes"
   ],
   "note": ""
  },
  {
   "property": "C42",
   "status": "partial",
   "theorems": [
    "Mammon.C42_container_partial",
    "Mammon.C42_container_iff_partial",
    "Mammon.C42_list_partial",
    "Mammon.C42_list_iff_partial",
    "Mammon.C42_offsets_partial",
    "Mammon.C42_offsets_wrap"
   ],
   "note": "Exact for objects of any size: the parts lie one behind the other, and the offsets written are their positions modulo 2^32; they are the positions exactly when every part starts below 2^32. A witness at 2^32 shows that the claim as stated fails."
  },
  {
   "property": "C43",
   "status": "proved",
   "theorems": [
    "Mammon.C43_container_offsets",
    "Mammon.C43_list_offsets"
   ],
   "note": ""
  },
  {
   "property": "C44",
   "status": "proved",
   "theorems": [
    "Mammon.C44_schemas",
    "Mammon.C44_sizes"
   ],
   "note": ""
  },
  {
   "property": "C45",
   "status": "partial",
   "theorems": [
    "Mammon.C45_leftover_partial",
    "Mammon.C45_classes_partial",
    "Mammon.C45_first_partial",
    "Mammon.C45_unchanged_partial",
    "Mammon.C45_modified"
   ],
   "note": "False for containers, vectors and lists (witnesses); holds for the basic types and for errors in the first part. What every failed decode leaves is said exactly (Spec.leftover)."
  },
  {
   "property": "C46",
   "status": "proved",
   "theorems": [
    "Mammon.C46_calling_convention",
    "Mammon.C46_one_block_preserves"
   ],
   "note": ""
  },
  {
   "property": "C47",
   "status": "proved",
   "theorems": [
    "Mammon.C47_independent"
   ],
   "note": ""
  },
  {
   "property": "C48",
   "status": "proved",
   "theorems": [
    "Mammon.C48_defined",
    "Mammon.C48_bitlist_undefined_iff"
   ],
   "note": ""
  },
  {
   "property": "C49",
   "status": "proved",
   "theorems": [
    "Mammon.C49_keys",
    "Mammon.C49_order",
    "Mammon.C49_required",
    "Mammon.C49_missing"
   ],
   "note": ""
  },
  {
   "property": "C50",
   "status": "proved",
   "theorems": [
    "Mammon.C50_same_type",
    "Mammon.C50_all_classes",
    "Mammon.C50_all_members",
    "Mammon.C50_keys"
   ],
   "note": ""
  },
  {
   "property": "C51",
   "status": "proved",
   "theorems": [
    "Mammon.C51_decodes",
    "Mammon.C51_classes",
    "Mammon.C51_exists",
    "Mammon.C51_unique"
   ],
   "note": ""
  },
  {
   "property": "C52",
   "status": "proved",
   "theorems": [
    "Mammon.C52_passes",
    "Mammon.C52_all_directories",
    "Mammon.C52_every_class"
   ],
   "note": ""
  },
  {
   "property": "C53",
   "status": "proved",
   "theorems": [
    "Mammon.C53_meaning",
    "Mammon.C53_trailing_zeros",
    "Mammon.C53_overflow",
    "Mammon.C53_blind",
    "Mammon.C53_blind_classes"
   ],
   "note": ""
  },
  {
   "property": "C54",
   "status": "proved",
   "theorems": [
    "Mammon.C54_getters",
    "Mammon.C54_all_members"
   ],
   "note": ""
  },
  {
   "property": "C55",
   "status": "proved",
   "theorems": [
    "Mammon.C55_selects",
    "Mammon.C55_passes",
    "Mammon.C55_detects",
    "Mammon.C55_uninitialised",
    "Mammon.C55_first_test_unsupported"
   ],
   "note": ""
  },
  {
   "property": "C56",
   "status": "proved",
   "theorems": [
    "Mammon.C56_encoding",
    "Mammon.C56_failure",
    "Mammon.C56_success"
   ],
   "note": ""
  },
  {
   "property": "C57",
   "status": "proved",
   "theorems": [
    "Mammon.C57_constant_time",
    "Mammon.C57_writes",
    "Mammon.C57_reads",
    "Mammon.C57_jump_writes",
    "Mammon.C57_jump_reads"
   ],
   "note": ""
  },
  {
   "property": "C58",
   "status": "proved",
   "theorems": [
    "Mammon.C58_path",
    "Mammon.C58_instructions"
   ],
   "note": ""
  },
  {
   "property": "C59",
   "status": "proved",
   "theorems": [
    "Mammon.C59_accepts",
    "Mammon.C59_classes",
    "Mammon.C59_unique",
    "Mammon.C59_overwrites",
    "Mammon.C59_short",
    "Mammon.C59_leading_zero",
    "Mammon.C59_no_limit"
   ],
   "note": ""
  },
  {
   "property": "C60",
   "status": "proved",
   "theorems": [
    "Mammon.C60_exact",
    "Mammon.C60_classes",
    "Mammon.C60_inverse"
   ],
   "note": ""
  },
  {
   "property": "C61",
   "status": "proved",
   "theorems": [
    "Mammon.C61_fails",
    "Mammon.C61_one",
    "Mammon.C61_one_alignment",
    "Mammon.C61_four_alignment",
    "Mammon.C61_eight_unaligned",
    "Mammon.C61_shani_scratch"
   ],
   "note": ""
  },
  {
   "property": "C62",
   "status": "partial",
   "theorems": [
    "Mammon.C62_constants_partial",
    "Mammon.C62_fork_version_reversed",
    "Mammon.C62_versions",
    "Mammon.C62_no_other",
    "Mammon.C62_expressions"
   ],
   "note": "False for GENESIS_FORK_VERSION of the minimal configuration, whose bytes are reversed (C62_fork_version_reversed); true for all other constants (C62_constants_partial)."
  },
  {
   "property": "C63",
   "status": "proved",
   "theorems": [
    "Mammon.C63_same",
    "Mammon.C63_reads_once",
    "Mammon.C63_linear",
    "Mammon.C63_outside"
   ],
   "note": ""
  },
  {
   "property": "C64",
   "status": "partial",
   "theorems": [
    "Mammon.C64_aligned_partial",
    "Mammon.C64_misaligned",
    "Mammon.C64_bodies",
    "Mammon.C64_classes"
   ],
   "note": "False for eight classes, every accepted encoding of which is read at a misaligned address (C64_misaligned), and for some block bodies (C64_bodies); true for the other fourteen (C64_aligned_partial)."
  },
  {
   "property": "C65",
   "status": "partial",
   "theorems": [
    "Mammon.C65_exact",
    "Mammon.C65_root_partial",
    "Mammon.C65_whole",
    "Mammon.C65_broken",
    "Mammon.C65_mixed",
    "Mammon.C65_classes"
   ],
   "note": "False for every object of seven classes (C65_broken) and for some of seven others (C65_mixed); true for the other nine (C65_whole). C65_exact gives the exact condition."
  },
  {
   "property": "C66",
   "status": "proved",
   "theorems": [
    "Mammon.C66_slot",
    "Mammon.C66_boolean",
    "Mammon.C66_vector",
    "Mammon.C66_read",
    "Mammon.C66_write",
    "Mammon.C66_print",
    "Mammon.C66_print_injective",
    "Mammon.C66_bitlist_equal",
    "Mammon.C66_limit",
    "Mammon.C66_bytes_test",
    "Mammon.C66_bytes_test_any"
   ],
   "note": ""
  },
  {
   "property": "C67",
   "status": "proved",
   "theorems": [
    "Mammon.C67_succeeds_iff",
    "Mammon.C67_files",
    "Mammon.C67_rounds",
    "Mammon.C67_conforming",
    "Mammon.C67_vacuous",
    "Mammon.C67_stray"
   ],
   "note": ""
  },
  {
   "property": "C68",
   "status": "proved",
   "theorems": [
    "Mammon.C68_same",
    "Mammon.C68_tree",
    "Mammon.C68_calls",
    "Mammon.C68_once",
    "Mammon.C68_hashes",
    "Mammon.C68_linear",
    "Mammon.C68_received"
   ],
   "note": ""
  },
  {
   "property": "C69",
   "status": "proved",
   "theorems": [
    "Mammon.C69_fails",
    "Mammon.C69_classes",
    "Mammon.C69_complete"
   ],
   "note": ""
  },
  {
   "property": "C70",
   "status": "proved",
   "theorems": [
    "Mammon.C70_call",
    "Mammon.C70_blocks",
    "Mammon.C70_linear",
    "Mammon.C70_shani",
    "Mammon.C70_shape",
    "Mammon.C70_values"
   ],
   "note": "Instructions of the C++ code around the routines are not counted."
  },
  {
   "property": "C71",
   "status": "proved",
   "theorems": [
    "Mammon.C71_left",
    "Mammon.C71_classes",
    "Mammon.C71_unique",
    "Mammon.C71_unchanged",
    "Mammon.C71_overwrites"
   ],
   "note": "Contents after an exception are not modelled."
  },
  {
   "property": "C72",
   "status": "proved",
   "theorems": [
    "Mammon.C72_count",
    "Mammon.C72_one",
    "Mammon.C72_classes"
   ],
   "note": ""
  },
  {
   "property": "C73",
   "status": "proved",
   "theorems": [
    "Mammon.Nasm.C73_one",
    "Mammon.Nasm.C73_four",
    "Mammon.Nasm.C73_eight",
    "Mammon.Nasm.C73_shani",
    "Mammon.Nasm.C73_code",
    "Mammon.Nasm.C73_hash"
   ],
   "note": "The text is compared with the repository by tools/compare_text.py."
  },
  {
   "property": "C74",
   "status": "proved",
   "theorems": [
    "Mammon.Cpp.C74_classes",
    "Mammon.Cpp.C74_names",
    "Mammon.Cpp.C74_constants",
    "Mammon.Cpp.C74_types"
   ],
   "note": "The text is compared with the repository by tools/compare_text.py."
  },
  {
   "property": "C75",
   "status": "proved",
   "theorems": [
    "Mammon.Cpp.C75_serialize",
    "Mammon.Cpp.C75_deserialize",
    "Mammon.Cpp.C75_classes"
   ],
   "note": "Calls on parts are resolved by the model, class by class. Sizes are hypotheses (SizeFits, CountFits) that C75_classes proves for all classes of the repository."
  },
  {
   "property": "C76",
   "status": "proved",
   "theorems": [
    "Mammon.Cpp.C76_integer_squareroot",
    "Mammon.Cpp.C76_integer_squareroot_32",
    "Mammon.Cpp.C76_ct_sqrt",
    "Mammon.Cpp.C76_log2ceil"
   ],
   "note": "The value of (T)std::sqrt((double)x) is an arbitrary value of T. Types narrower than 32 bits are not covered here (C29 covers them in the model)."
  },
  {
   "property": "C77",
   "status": "proved",
   "theorems": [
    "Mammon.Cpp.C77_constants",
    "Mammon.Cpp.C77_hash_2_chunks",
    "Mammon.Cpp.C77_zero_hashes",
    "Mammon.Cpp.C77_pack_and_pad",
    "Mammon.Cpp.C77_tree_of_chunks",
    "Mammon.Cpp.C77_outside",
    "Mammon.Cpp.C77_tree_of_bytes",
    "Mammon.Cpp.C77_hash_tree_root",
    "Mammon.Cpp.C77_mix_in"
   ],
   "note": "hasher.hash_64b_blocks with one block is an arbitrary function of 64 bytes here (C22 to C27 are about the code behind it). That the delegating constructor calls the constructor of chunks is read off the argument type by hand."
  },
  {
   "property": "C78",
   "status": "proved",
   "theorems": [
    "Mammon.Cpp.C78_hash_tree",
    "Mammon.Cpp.C78_hash_tree_root",
    "Mammon.Cpp.C78_root"
   ],
   "note": "Virtual calls on elements and parts, serialize and the HashTree object are the ones of the model, whose own texts are the subject of C75, C77 and (one level down) of this property."
  },
  {
   "property": "C79",
   "status": "proved",
   "theorems": [
    "Mammon.Cpp.C79_validator",
    "Mammon.Cpp.C79_slashable_pair",
    "Mammon.Cpp.C79_is_valid",
    "Mammon.Cpp.C79_implemented",
    "Mammon.Cpp.C79_best",
    "Mammon.Cpp.C79_sha256_sse",
    "Mammon.Cpp.C79_sha256_sse_outside"
   ],
   "note": "std::is_sorted, std::adjacent_find, __get_cpuid, __get_cpuid_count and the assembly routine sha256_1_avx (C22, C73) are library functions of the interpreter."
  },
  {
   "property": "C80",
   "status": "proved",
   "theorems": [
    "Mammon.Cpp.C80_xor",
    "Mammon.Cpp.C80_equal",
    "Mammon.Cpp.C80_concat",
    "Mammon.Cpp.C80_from_int",
    "Mammon.Cpp.C80_table",
    "Mammon.Cpp.C80_from_str",
    "Mammon.Cpp.C80_parse"
   ],
   "note": "std::copy, std::bit_cast, starts_with and substr of std::string_view are library functions of the interpreter; an element of the global table is read as the text of Table::operator[] does (C80_table)."
  },
  {
   "property": "C81",
   "status": "proved",
   "theorems": [
    "Mammon.Cpp.C81_bitlist",
    "Mammon.Cpp.C81_bitvector"
   ],
   "note": "deserialize of the bit list is the modelled function, which C75 proves to be what its text does; starts_with, length, push_back and fill are library functions of the interpreter."
  },
  {
   "property": "C82",
   "status": "proved",
   "theorems": [
    "Mammon.Cpp.C82_bitlist",
    "Mammon.Cpp.C82_bitvector",
    "Mammon.Cpp.C82_bitlist_never",
    "Mammon.Cpp.C82_bitvector_iff"
   ],
   "note": "serialize is the modelled virtual function, which C75 proves to be what its text does. std::stringstream is modelled by fill character, width, base and the characters written; that a std::uint8_t is inserted as a character is the rule of the library."
  },
  {
   "property": "C83",
   "status": "proved",
   "theorems": [
    "Mammon.Cpp.C83_constructor",
    "Mammon.Cpp.C83_default",
    "Mammon.Cpp.C83_operators",
    "Mammon.Cpp.C83_enumerators"
   ],
   "note": "That an implementation that was asked for may not be supported by the processor is part of the statement (and of C27)."
  },
  {
   "property": "C84",
   "status": "proved",
   "theorems": [
    "Mammon.Cpp.C84_constants",
    "Mammon.Cpp.C84_tree_variables",
    "Mammon.Cpp.C84_zero_hash_array",
    "Mammon.Cpp.C84_hasher",
    "Mammon.Cpp.C84_parameters",
    "Mammon.Cpp.C84_config",
    "Mammon.Cpp.C84_sizes",
    "Mammon.Cpp.C84_bitvector_size",
    "Mammon.Cpp.C84_bitvector_size_wraps"
   ],
   "note": "The bits of <cpuid.h> and CHAR_BIT are of the compiler and the C library and stay assumptions."
  },
  {
   "property": "C85",
   "status": "proved",
   "theorems": [
    "Mammon.Cpp.C85_conversions",
    "Mammon.Cpp.C85_bytes",
    "Mammon.Cpp.C85_size",
    "Mammon.Cpp.C85_inherited"
   ],
   "note": "Conversions that return references (common/slot.hpp:45, common/boolean.hpp:39) are not read."
  },
  {
   "property": "C86",
   "status": "proved",
   "theorems": [
    "Mammon.Cpp.C86_slot",
    "Mammon.Cpp.C86_boolean",
    "Mammon.Cpp.C86_lists",
    "Mammon.Cpp.C86_limit"
   ],
   "note": "The constructors of Bytes are C80, that of Bitlist is C87."
  },
  {
   "property": "C87",
   "status": "proved",
   "theorems": [
    "Mammon.Cpp.C87_constructor",
    "Mammon.Cpp.C87_limit",
    "Mammon.Cpp.C87_size",
    "Mammon.Cpp.C87_inherited"
   ],
   "note": "Stream output (common/bitlist.hpp:39-42) is C66."
  },
  {
   "property": "C88",
   "status": "proved",
   "theorems": [
    "Mammon.Cpp.C88_defaults",
    "Mammon.Cpp.C88_hash_tree"
   ],
   "note": "hash_tree_root of the same class is C77."
  },
  {
   "property": "C89",
   "status": "proved",
   "theorems": [
    "Mammon.Cpp.C89_slot",
    "Mammon.Cpp.C89_boolean",
    "Mammon.Cpp.C89_bitvector",
    "Mammon.Cpp.C89_bitlist",
    "Mammon.Cpp.C89_inherited"
   ],
   "note": "The consequences of the inherited operator== are C34 and C35; which structs default it is read from the text in C74; the written ones of Bytes are C80."
  },
  {
   "property": "C90",
   "status": "proved",
   "theorems": [
    "Mammon.Cpp.C90_bytes",
    "Mammon.Cpp.C90_references"
   ],
   "note": "The copying conversions of Slot and Boolean are C85, the constructors and operators of Bytes C80."
  },
  {
   "property": "C91",
   "status": "proved",
   "theorems": [
    "Mammon.Cpp.C91_bytes",
    "Mammon.Cpp.C91_vector",
    "Mammon.Cpp.C91_lists",
    "Mammon.Cpp.C91_data"
   ],
   "note": "Range loops and algorithms over m_arr in the codec and the hash trees are C75 and C78."
  },
  {
   "property": "C92",
   "status": "proved",
   "theorems": [
    "Mammon.Cpp.C92_forwards"
   ],
   "note": "Which routine the object holds is C79 and C83, what the routines compute C22 to C25 and C73."
  }
 ]
}