# Formal model of mammon: design

Subject: `/repo` (potuz/mammon at the pinned commit), an Ethereum phase 0 SSZ library in C++20 with
hand-written x86-64 SHA-256 routines. The code was read, never built or run.

## Layout

| Lean modules | content |
|---|---|
| `Verif/Spec/*` | independent specifications: SSZ encoding and hash tree root, Merkle trees, FIPS 180-4 SHA-256, phase 0 schemas, predicates of the consensus specification, hexadecimal text, reference YAML, members by name, calling convention, what is seen of an execution, accepted YAML trees, outcomes of decoding, what an instruction is allowed to access, the constants of phase 0, positions of integers in encodings, objects that fill whole chunks, objects whose over-long lists overflow, the number of hashes. Of the model they use only the value types (and, for the calling convention, the machine state). |
| `Verif/Model/*` | the code, function by function, each definition citing file and lines. |
| `Verif/Proofs/*` | helper lemmas. |
| `Verif/Props/*` | the property theorems (named after C01..), each with a concrete example next to it. |
| `tools/*` | compare the tables of the model with the text of `/repo` (see "Checks of the transcription"). |
| `seeded/LOG.jsonl` | wrong programs the theorems were tested against. `failed` lists the claimed theorems whose proof, or a lemma it uses, no longer checks after the edit; this shows that the theorem depends on the edited text, not by itself that its statement became false. An empty list means that every theorem still proves: `tightened` then names what was strengthened, or `breaks` says why the edit does no harm. |

## Modelling decisions

* **Outcomes.** `Out α = ok a | throws e | ub`. Everything the C++ standard leaves undefined and that
  the code can reach (reading before or after a range, shifting by 32 or more, signed overflow of an `int` loop
  counter, indexing outside a `std::array`, `back()` of an empty vector, `%` by zero, reading indeterminate values) is the
  outcome `ub`, never assumed away. Compound operations propagate it.
* **Objects.** The class hierarchy under `ssz::Container` is a universe `Ty` of types: 64-bit integers (`Slot` and its
  aliases), booleans, byte arrays, bit vectors, bit lists, `VectorFixedSizedParts`, `ListFixedSizedParts`,
  `ListVariableSizedParts` and containers (a *declared* `ssz_size`, a flag telling whether the class defines its own
  `operator==`, and the named parts). Each C++ class of the repository is a term of `Ty`. In the sources every class has five
  part lists besides its data members; that they agree, so that one list per class is enough, is C50.
* **Machine arithmetic.** `uint32_t` offsets are reduced modulo 2^32, `size_t` limits modulo 2^64, exactly where the code does so.
* **Mutation.** `deserialize` and `decode` take the previous contents of the object and return the contents afterwards, also
  when they return false, following the order in which the code writes.
* **Hashing.** The tree code is parametric in the 64-byte hash `H`; the SHA-256 part proves that each assembly routine
  computes SHA-256 of each 64-byte block, and instantiates `H`.
* **Assembly.** Each routine is a list of instructions of a small x86-64 subset, produced by Lean functions that mirror the
  assembler macros, run by an interpreter with 64-bit general registers, 128/256-bit vector registers, flags and memory in
  regions (input, output, stack, read-only data, the global scratch of `sha256_shani.asm`). An access outside the regions or a
  write to a read-only one, a misaligned aligned access and a jump to nowhere stop the machine in an error state, which the theorems exclude; C61 says exactly when it is entered.
* **Threads.** Any number of machine threads with a shared global scratch area, each with its own registers, stack, input and
  output; a schedule interleaves whole instructions (sequential consistency), or instructions and the arrival of single bytes from the store
  buffers of the threads (x86-TSO, Model/Tso). Two calls for different data have disjoint outputs.
* **YAML.** A `YAML::Node` is a tree of scalars (byte strings), sequences and maps (association lists, first match wins on lookup). The
  conversions of yaml-cpp used by the code (integers through `stringstream` with base detection, subscripting, `as<T>` throwing, `InvalidNode`)
  are modelled after the yaml-cpp sources as remembered; parsing of text and emission are outside. `Bytes::to_string` calls the
  missing `helpers::bytes_to_string`; theorems about it take the contract `IsHexText` ("0x" and the two hexadecimal digits of every
  byte) as a hypothesis on a function parameter, never as an axiom.
* **Test driver.** `test_ssz<T>` as a function of the contents of the three files, parametric in the four operations under test and in
  the uninitialised bits of the new objects; snappy decompression is the identity on the decompressed contents.

## Properties

`MANIFEST.json` has the fully qualified names. Where the code violates a property the status is "partial": the
negation is proved with a concrete witness, and a `_partial` theorem states what does hold.

| id | status | modelled by | how proved | theorems |
|---|---|---|---|---|
| C01 | proved | `serialize`, `deserialize` on the type universe | mutual induction on types and part lists | `C01_round_trip` `C01_serialize_ub_iff` `objects_wf` `C01_classes` |
| C02 | proved | same, against `Spec.encode` | mutual induction; the specification uses unbounded naturals and a two-pass definition | `C02_encoding` `C02_classes` `C44_schemas` |
| C03 | proved | `Ty.sszSize` (declared constants) | induction, and the class terms | `C03_fixed_sizes` `C03_variable_sizes` `C03_classes` |
| C04 | proved | `deserialize` with explicit prior contents | induction on types | `C04_independent` `C04_classes` |
| C05 | proved | same | induction on histories | `C05_history` `C05_classes` |
| C06 | proved | `deserialize`, `serialize` | induction on types; negation for a bit vector of 4 bits and `BeaconState` | `C06_canonical` `C06_covered` `C06_not_canonical` `C06_classes` `C06_exact` `C06_length` |
| C07 | proved | reads are checked in the model, out of range is `ub` | induction on types | `C07_safe` `C07_covered` `C07_classes` |
| C08 | partial | `Bitlist::deserialize` | exact condition for `ub`; negation witnesses | `C08_bitlist_partial` `C08_only_bitlists_partial` `C08_not_rejected` `C08_classes_partial` `C08_attestation_partial` `C08_pending_partial` |
| C09 | proved | bit loops as folds over the C++ index ranges | bit-level extensionality | `C09_bits_to_bytes` `C09_bytes_to_bits` |
| C10 | partial | same | same; negation | `C10_round_trip` `C10_accepted_partial` `C10_encodings_partial` `C10_padding_ignored` |
| C11 | partial | `deserialize` | induction; negation for every fixed-size container | `C11_exact_partial` `C11_container_partial` `C11_trailing_bytes` |
| C12 | partial | `deserialize` | negation for every list type; bound by the input length | `C12_bounded_by_input_partial` `C12_limits_not_enforced` |
| C13 | proved | `HashTree` constructor and `merkleize` on an explicit buffer with bounds-checked accesses | loop invariants | `C13_merkle_root` |
| C14 | proved | same | same | `C14_within_buffer` `C14_limit_needed` |
| C15 | partial | same, through `deserialize` and `hash_tree` | exact overflow condition; witness through `deserialize` | `C15_safe_partial` `C15_over_limit` `C15_overflow` `C15_exact` `C15_accepted` `C15_within` `C15_full` |
| C16 | proved | `hash_tree` of every class | induction on types against `Spec.root` | `C16_hash_tree_root` `C16_covered` `C16_classes` |
| C17 | proved | same | induction; collision exhibited among the queries made | `C17_binding` `C17_classes` |
| C18 | proved | buffer contents | loop invariant | `C18_layout` `C18_size` |
| C19 | proved | `mix_in` | induction | `C19_mix_in` `C19_lengths` |
| C20 | proved | `pack_and_pad` | induction | `C20_pack` |
| C21 | proved | `zero_hash_array` | induction | `C21_zero_hashes` `C21_size` `C21_empty_list` |
| C22 | proved | instruction-level model of the routine | symbolic execution per macro, induction on rounds | `C22_one_block` |
| C23 | proved | same, with loop and tail calls of the one-block routine | induction on blocks | `C23_four_lanes` |
| C24 | proved | same | same | `C24_eight_lanes` |
| C25 | proved | same, SHA instructions and global scratch | same | `C25_sha_instructions` |
| C26 | proved | `Hasher`, machine runs (`HashFn.Call`) | C22-C25 | `C26_digests` `C26_same_output` `C26_same_root` `C26_root` `C26_blocks` `C16_classes` |
| C27 | partial | `cpuid` answers as arbitrary inputs | case analysis; reachable code by a closure argument | `C27_preferred` `C27_supported_partial` `C27_needs` `C27_supported_iff` `C27_usable_iff` `C27_os_support` `C27_fallback_unsupported` `C27_uninitialised` `C27_explicit` |
| C28 | partial | interleavings of instruction-level threads | commutation of steps; witness schedule | `C28_concurrent_partial` `C28_store_buffers_partial` `C28_race` `C28_race_store_buffers` `C28_race_witness` |
| C29 | proved | `helpers/math.hpp` on bit vectors of any width | loop invariants; the floating point estimate is arbitrary | `C29_integer_squareroot` `C29_ct_sqrt` |
| C30 | proved | same | induction | `C30_log2ceil` |
| C31 | proved | `eth::Bytes` | induction | `C31_from_int` `C31_round_trip` `C31_injective` `C31_round_trip_bytes` |
| C32 | partial | same | full description of the outcome; negation | `C32_parse_partial` `C32_undefined_iff` `C32_accepts_non_digits` |
| C33 | proved | same | induction | `C33_xor` `C33_xor_laws` `C33_concat` `C33_equality` |
| C34 | partial | `operator==` per class | characterisation of what is compared; negations | `C34_equality_partial` `C34_covered` `C34_reflexive` `C34_always_true` `C34_state_equality` `C34_state_differs` |
| C35 | partial | predicates | against `Spec.Predicates`, members read by name; negation | `C35_members` `C35_surround_partial` `C35_not_double_partial` `C35_double_vote_missed` |
| C36 | proved | predicates | same | `C36_is_valid` |
| C37 | proved | predicates | same | `C37_members` `C37_predicates` `C37_intervals` |
| C38 | proved | YAML trees (see below) | induction | `C38_round_trip_iff` `C38_round_trip` `C38_classes` |
| C39 | partial | same | negation; exact condition | `C39_bitlist_never` `C39_bitvector_iff` `C39_bitlist_undefined_iff` `C39_attestation_never` `C39_hex_partial` |
| C40 | proved | `serialize` | corollary of C01 | `C40_injective` `C40_classes` |
| C41 | proved | `deserialize` | corollary of C01, C06 | `C41_accepted` `C41_classes` |
| C42 | partial | `serialize` modulo 2^32 | induction over the parts and over list elements; negation by a parametric witness | `C42_container_partial` `C42_container_iff_partial` `C42_list_partial` `C42_list_iff_partial` `C42_offsets_partial` `C42_offsets_wrap` |
| C43 | proved | `deserialize` | induction over the loop | `C43_container_offsets` `C43_list_offsets` |
| C44 | proved | class terms | equality with a separately transcribed specification | `C44_schemas` `C44_sizes` |
| C45 | partial | `deserialize` | negation witnesses; what holds | `C45_leftover_partial` `C45_classes_partial` `C45_first_partial` `C45_unchanged_partial` `C45_modified` |
| C46 | proved | register file of the interpreter | frame lemmas | `C46_calling_convention` `C46_one_block_preserves` |
| C47 | proved | YAML decoding | induction | `C47_independent` |
| C48 | proved | YAML decoding | induction; exact condition for bit lists | `C48_defined` `C48_bitlist_undefined_iff` |
| C49 | proved | YAML decoding | induction over part lists | `C49_keys` `C49_order` `C49_required` `C49_missing` |
| C50 | proved | tables of the class declarations as written | evaluation over the complete tables | `C50_same_type` `C50_all_classes` `C50_all_members` `C50_keys` |
| C51 | proved | YAML decoding against `Spec.Denotes` | mutual induction | `C51_decodes` `C51_classes` `C51_exists` `C51_unique` |
| C52 | proved | test driver | composition of C51, C01, C02, C16, C26 | `C52_passes` `C52_all_directories` `C52_every_class` |
| C53 | proved | test driver, parametric in the operations tested | case analysis; negations | `C53_meaning` `C53_trailing_zeros` `C53_overflow` `C53_blind` `C53_blind_classes` |
| C54 | proved | `Source.ClassDecl.get` (returned member found by its place in the table of declarations) | first place of the name in the parts = member by name, for all types; places compared in the tables (decided) | `C54_getters` `C54_all_members` |
| C55 | proved | `ShaTest.cases`, `Case.select`, `Case.Check` over the model of `Hasher` and of the routines | digests of the stored blocks evaluated with the specification of SHA-256 (decided), for calls by C26 | `C55_selects` `C55_passes` `C55_detects` `C55_uninitialised` `C55_first_test_unsupported` |
| C56 | proved | `Bench.run` | composition of C01, C02, C16; case analysis | `C56_encoding` `C56_failure` `C56_success` |
| C57 | proved | `trace`, `seen`, `Instr.access` over the interpreter | dependency analysis of registers, proved sound and decided for each piece of code; two runs in step by induction on the numbers of batches | `C57_constant_time` `C57_writes` `C57_reads` `C57_jump_writes` `C57_jump_reads` |
| C58 | proved | `path`, `fourPath`, `eightPath`, `shaniPath` | the invariants of the loops, with the way through the code; lengths of the pieces decided | `C58_path` `C58_instructions` |
| C59 | proved | `Yaml.decode` against the relation `Spec.Accepts` | mutual induction on types and part lists; parsing of numbers by splitting at the first character that is not a digit; words decided over all spellings | `C59_accepts` `C59_classes` `C59_unique` `C59_overwrites` `C59_short` `C59_leading_zero` `C59_no_limit` |
| C60 | proved | `deserialize` against `Spec.decode` | mutual induction on types and part lists; invariants of the element loops | `C60_exact` `C60_classes` `C60_inverse` |
| C61 | proved | the instructions of the four routines, `step`, `finish` against `Access.Allowed` | case analysis of the instructions; addresses tracked symbolically through straight-line code, the list of accesses of `sha256_1_avx` by kernel computation | `C61_fails` `C61_one` `C61_one_alignment` `C61_four_alignment` `C61_eight_unaligned` `C61_shani_scratch` |
| C62 | partial | `Decl.value` of all declarations against the tables of `Spec/Config.lean`; `Config.eval` against `CExpr.eval` | kernel computation over the tables; `C62_versions` by arithmetic | `C62_constants_partial` `C62_fork_version_reversed` `C62_versions` `C62_no_other` `C62_expressions` |
| C63 | proved | `deserializeR` (the decoder with the record of its reads) | mutual induction on types and part lists; the reads of the parts lie in disjoint ranges | `C63_same` `C63_reads_once` `C63_linear` `C63_outside` |
| C64 | partial | `deserializeR` against the positions `Spec.integersAt` | the reads of fixed-size types are among the positions, those of accepted objects contain them (mutual inductions); alignment of the positions decided per class | `C64_aligned_partial` `C64_misaligned` `C64_bodies` `C64_classes` |
| C65 | partial | `hashTreeStrict` against `hashTree` | mutual inductions on types and part lists; classes decided by a static analysis proved sound | `C65_exact` `C65_root_partial` `C65_whole` `C65_broken` `C65_mixed` `C65_classes` |
| C66 | proved | `slotBytes8`, `booleanBytes1`, `bytesAt`, `bytesAssign`, `printBits`, `BitlistObj`, `BytesTest.run` | from C01, C02, C16, C31; case analysis; induction on the bits | `C66_slot` `C66_boolean` `C66_vector` `C66_read` `C66_write` `C66_print` `C66_print_injective` `C66_bitlist_equal` `C66_limit` `C66_bytes_test` `C66_bytes_test_any` |
| C67 | proved | `testSsz`, `runCase`, `reported` on directory trees | induction on the entries of the three nested loops; C52 for the body | `C67_succeeds_iff` `C67_files` `C67_rounds` `C67_conforming` `C67_vacuous` `C67_stray` |
| C68 | proved | `hashTreeE` (`hashTree` with a record of calls and buffers) | projection to `hashTree`; the events of a run that ends well depend on lengths only; induction on layers and types; 12·size − 3 for fixed-size types | `C68_same` `C68_tree` `C68_calls` `C68_once` `C68_hashes` `C68_linear` `C68_received` |
| C69 | proved | `Yaml.decode` | equivalence of the outcome of the decoder with the inductively defined `Spec.Fails`, by induction on types and lists | `C69_fails` `C69_classes` `C69_complete` |
| C70 | proved | `hashTreeE`, `code` | simulation between the hashing of two objects of the same shape by induction on types; sums over the recorded calls with the paths of C58 | `C70_call` `C70_blocks` `C70_linear` `C70_shani` `C70_shape` `C70_values` |
| C71 | proved | `Yaml.decode` | equivalence with the inductively defined `Spec.Left`, by induction on types; numbers by the longest run of digits | `C71_left` `C71_classes` `C71_unique` `C71_unchanged` `C71_overwrites` |
| C72 | proved | `deserialize` | bijection with the ways to fill the padding bits (C06_exact), counted by induction on types | `C72_count` `C72_one` `C72_classes` |
| C73 | proved | text of the `.asm` files, the assembler's preprocessor and front end | evaluated by the kernel on the packed text; combined with C22 to C25 | `Nasm.C73_one` `Nasm.C73_four` `Nasm.C73_eight` `Nasm.C73_shani` `Nasm.C73_code` `Nasm.C73_hash` |
| C74 | proved | text of the headers, tokens and declarations of C++ | evaluated by the kernel on the packed text; combined with C50 and C62 | `Cpp.C74_classes` `Cpp.C74_names` `Cpp.C74_constants` `Cpp.C74_types` |
| C75 | proved | parser and interpreter of C++ function bodies on the text of the files | symbolic execution by rewriting, with loop invariants by induction; refinement to the modelled codec | `Cpp.C75_serialize` `Cpp.C75_deserialize` `Cpp.C75_classes` |
| C76 | proved | parser and interpreter of C++ function bodies on the text of helpers/math.hpp | symbolic execution, induction on the recursion and on the loops; refinement to the model of C29 and C30 | `Cpp.C76_integer_squareroot` `Cpp.C76_integer_squareroot_32` `Cpp.C76_ct_sqrt` `Cpp.C76_log2ceil` |
| C77 | proved | parser and interpreter of C++ function bodies on the text of ssz/hashtree.cpp | symbolic execution, induction on the loops over layers; refinement to the model of C13 to C21 | `Cpp.C77_constants` `Cpp.C77_hash_2_chunks` `Cpp.C77_zero_hashes` `Cpp.C77_pack_and_pad` `Cpp.C77_tree_of_chunks` `Cpp.C77_outside` `Cpp.C77_tree_of_bytes` `Cpp.C77_hash_tree_root` `Cpp.C77_mix_in` |
| C78 | proved | parser and interpreter of C++ function bodies on the texts of the classes | symbolic execution, induction on elements and parts; refinement to the model of C16 | `Cpp.C78_hash_tree` `Cpp.C78_hash_tree_root` `Cpp.C78_root` |
| C79 | proved | parser and interpreter of C++ function bodies on the texts of validator.cpp, attestation.cpp and hasher.cpp | symbolic execution, induction on blocks; the specifications of C27, C35, C36, C37 and SHA-256 | `Cpp.C79_validator` `Cpp.C79_slashable_pair` `Cpp.C79_is_valid` `Cpp.C79_implemented` `Cpp.C79_best` `Cpp.C79_sha256_sse` `Cpp.C79_sha256_sse_outside` |
| C80 | proved | parser and interpreter of C++ function bodies on the texts of bytes.hpp and bytes_to_int.hpp | symbolic execution, induction on the loops; the specifications of C31, C32 and C33 | `Cpp.C80_xor` `Cpp.C80_equal` `Cpp.C80_concat` `Cpp.C80_from_int` `Cpp.C80_table` `Cpp.C80_from_str` `Cpp.C80_parse` |
| C81 | proved | parser and interpreter of C++ function bodies on the texts of bitlist.cpp, bitvector.hpp and bytes_to_int.hpp | symbolic execution, induction on the loops; the characterisation of accepted and failing texts of C51 and C71 | `Cpp.C81_bitlist` `Cpp.C81_bitvector` |
| C82 | proved | parser and interpreter of C++ function bodies on the texts of bitlist.cpp and bitvector.hpp, with string streams, setfill, setw, hex and flags as library functions | symbolic execution, induction on the loop; the run of from_hexstring of C81 | `Cpp.C82_bitlist` `Cpp.C82_bitvector` `Cpp.C82_bitlist_never` `Cpp.C82_bitvector_iff` |
| C83 | proved | parser and interpreter of C++ function bodies on the texts of hasher.cpp and hasher.hpp; switch read as a chain of comparisons when each group ends with break | symbolic execution; the choice of the best implementation of C79 and C27 | `Cpp.C83_constructor` `Cpp.C83_default` `Cpp.C83_operators` `Cpp.C83_enumerators` |
| C84 | proved | declarations of variables read from the texts and run by the interpreter of C++; type alias and template parameters read from the texts | evaluation in the kernel with the template arguments as variables, then linear arithmetic modulo powers of two | `Cpp.C84_constants` `Cpp.C84_tree_variables` `Cpp.C84_zero_hash_array` `Cpp.C84_hasher` `Cpp.C84_parameters` `Cpp.C84_config` `Cpp.C84_sizes` `Cpp.C84_bitvector_size` `Cpp.C84_bitvector_size_wraps` |
| C85 | proved | conversion operators and member functions read from the texts and run by the interpreter of C++ | evaluation in the kernel with the object as a variable | `Cpp.C85_conversions` `Cpp.C85_bytes` `Cpp.C85_size` `Cpp.C85_inherited` |
| C86 | proved | constructors with default arguments read from the texts and run by the interpreter of C++ | evaluation in the kernel with arguments and previous contents as variables | `Cpp.C86_slot` `Cpp.C86_boolean` `Cpp.C86_lists` `Cpp.C86_limit` |
| C87 | proved | constructor and member functions read from the text and run by the interpreter of C++ | evaluation in the kernel with arguments, bits and previous contents as variables | `Cpp.C87_constructor` `Cpp.C87_limit` `Cpp.C87_size` `Cpp.C87_inherited` |
| C88 | proved | declarations of constructors with default arguments read from the text | evaluation in the kernel with the tree and the hash function as variables | `Cpp.C88_defaults` `Cpp.C88_hash_tree` |
| C89 | proved | declarations of operator== and data members read from the text; C++'s rule for a defaulted operator== | evaluation in the kernel with the objects as variables | `Cpp.C89_slot` `Cpp.C89_boolean` `Cpp.C89_bitvector` `Cpp.C89_bitlist` `Cpp.C89_inherited` |
| C90 | proved | functions found in the text by their exact head | evaluation in the kernel with the objects as variables; symbolic run for the copy of the array | `Cpp.C90_bytes` `Cpp.C90_references` |
| C91 | proved | functions of the classes found in the text by name, or by their exact head | evaluation in the kernel with element type, length and contents as variables | `Cpp.C91_bytes` `Cpp.C91_vector` `Cpp.C91_lists` `Cpp.C91_data` |
| C92 | proved | the routine as a function that notes its arguments and the number of calls | evaluation in the kernel with the arguments as variables | `Cpp.C92_forwards` |

## Findings: where the code does not do what one would want

Each is proved (theorem in parentheses) unless marked *read*, which means: seen in the source while transcribing it.

Decoding
* Bit lists: the empty string is read before its beginning, and a last byte of zero makes the shift count wrap; both are undefined behaviour on
  attacker-controlled input, also inside `Attestation`, `PendingAttestation` and everything containing them (`C08_not_rejected`; exactly which inputs: `C08_attestation_partial`, `C08_pending_partial`, and `C60_exact` for everything else).
* Fixed-size containers accept any number of trailing bytes at top level (`C11_trailing_bytes`).
* Padding bits of bit vectors are ignored, so `BeaconState` has several accepted encodings per object (`C06_not_canonical`, `C10_padding_ignored`).
* Limits of lists are not looked at (`C12_limits_not_enforced`).
* A failed `deserialize` leaves a half-overwritten object (`C45_modified`); exactly which parts are new is `Spec.leftover` (`C45_leftover_partial`).
* Integers are read through `reinterpret_cast` at misaligned addresses, for eight classes in every accepted encoding (`C64_misaligned`), for block bodies
  in some (`C64_bodies`).

Serialization
* Offsets wrap silently at 4 GiB (`C42_offsets_wrap`); bit lists of 2^31 bits and more are undefined behaviour (`C01_serialize_ub_iff`).

Hashing
* A list longer than its limit can overflow the node buffer: any `BeaconBlockBody` with three attester slashings (limit 2) that was just accepted by
  `deserialize` (`C15_overflow`); not every excess does, 17 of 16 deposits do not, 32 do. For which objects it happens, and which root the others get:
  `C15_exact`, `C15_accepted`.
* Limits above 2^42 index past `zero_hash_array` (`C14_limit_needed`).
* `sha256_shani` keeps its state in global memory: two concurrent calls with two or more blocks each give a wrong digest under some schedule (`C28_race`). One such call beside any number of other calls is safe.
* The fallback `sha256_sse` executes AVX instructions on processors without AVX (`C27_fallback_unsupported`); so does the first
  of the SHA-256 tests, which asks for SSE3 (`C55_first_test_unsupported`); without cpuid leaf 7 an
  uninitialised variable is read (`C27_uninitialised`); support of the operating system for AVX state
  is not tested (`C27_os_support`); the processors on which the choice is sound are exactly those of `C27_usable_iff`.
* `sha256_4_avx` and `sha256_8_avx2` rely on `sha256_1_avx` preserving `rdi`, `rsi`, `rdx`, which the calling convention does not promise; it
  does (`C46_one_block_preserves`). The block count is compared as a signed number (harmless below 2^63).
* `pack_and_pad` advances an iterator beyond the end of the vector unless the number of bytes is a multiple of 32: always for `Fork`, `ForkData`,
  `DepositMessage`, `DepositData`, `Deposit`, `Validator`, `BeaconState`, for some objects of seven other classes (`C65_exact`, `C65_broken`, `C65_mixed`). All other
  theorems take the meaning compilers give it.
* `Container::hash_tree_` of no parts would throw, `back()` of an empty tree is undefined; no class of the repository gets there.
* Vectors and lists of `Boolean` would not be packed as specified; no class has one (`Spec.hashable` excludes them).

Comparison and predicates
* `Container::operator==` always returns true, and 18 of 23 classes inherit it (`C34_always_true`). Hence double votes are never slashable
  (`C35_double_vote_missed`), and `BeaconState == BeaconState` compares seven members only (`C34_state_equality`).
* `IndexedAttestation::is_valid` ignores the state and the signature (its parameters are unused; *read*, C36 states what it decides).

Text
* Any 7-bit character is a hexadecimal digit, mostly of value 0; other characters index outside a table (`C32_accepts_non_digits`, `C32_undefined_iff`).
* Bit lists and bit vectors write raw characters instead of digits: no bit list survives a YAML round trip, bit vectors only if zero
  (`C39_bitlist_never`, `C39_bitvector_iff`).
* Integers with a leading 0 are read as octal (`C59_leading_zero`), limits of lists are not looked at (`C59_no_limit`); a failed conversion overwrites the object; malformed elements of sequences throw instead of
  returning false; missing keys throw `InvalidNode` (Model/Yaml, C49_missing).

Tests of the repository
* `TEST_CHECK(obj == ssz_type)` is blind for the classes inheriting `operator==`; the result of `deserialize` is not looked at
  (`C53_blind`, `C53_blind_classes`); zero bytes appended by `serialize` are not noticed, shorter serializations overflow the driver's buffer
  (`C53_trailing_zeros`, `C53_overflow`). Every directory is tested once per file in it
  (`C67_rounds`), and not at all if it is empty: without test vectors the tests succeed (`C67_vacuous`).

Configuration
* `GENESIS_FORK_VERSION{0x00000001}` of the minimal configuration is `01 00 00 00` instead of `00 00 00 01`: integers are stored little endian
  (`C62_fork_version_reversed`, `C62_versions`). No other constant differs from the specification (`C62_constants_partial`).

Other
* `helpers/bytes_to_string.hpp` and `beacon-chain/transaction.hpp` do not exist; setters of `BeaconBlockBody` and `BeaconBlock` are
  declared but their definitions are commented out; `main.cpp` inserts into a copy of the transaction's data (*read*).

## Trusted base

* The Lean 4.33.0 kernel and at most the axioms `propext`, `Classical.choice`, `Quot.sound`. No axioms of its own, no `sorry`, no `native_decide`.
* That the definitions in `Verif/Model` describe the code (each cites its source lines) and that `Verif/Spec` states the
  specifications.
* The semantics given to C++ library facilities (`std::vector`, `std::countl_zero`, `std::bit_ceil`, iostream insertion of an
  `unsigned char`, ...), to yaml-cpp trees and to the x86 instructions used.
* Memory allocation succeeds; `BytesVector` iterators handed to `deserialize` form a valid range; access through `reinterpret_cast` to bytes
  as an integer, unaligned or not, behaves as a load on x86-64 (C++ does not allow it: for the alignment see C64, and a `uint8_t` array must not be read as another
  type at all), and so does an iterator beyond the end of a vector (C65). Vector lengths `N` are below 2^31 (`int i < N`); all in the repository are.
* For C28: the x86-TSO memory model, with stores that are not atomic but loads that are.
* For C57: that the time of none of the instructions used depends on the values of its operands other than addresses (there is no division, no shift by
  a register).

### Checks of the transcription

* The lines of the assembly files are in `Model/AsmText.lean`, and that assembling them gives the instructions and data the model runs is a theorem
  (C73). The trusted part is that `Model/Nasm.lean` does with them what yasm does (macros, expressions, sections; anything else it meets is an error) and
  that the lines are those of the repository (`tools/compare_text.py`). Not modelled: the encoding of instructions in bytes, linking, and the
  instructions without effect that `align` inserts in code.
* `tools/compare_asm.py` does the same independently: it expands the assembler macros of the four `.asm` files and compares the instruction sequence
  with the one the model runs, instruction by instruction.
* The lines of the headers and of the files with definitions are in `Model/CppText.lean`, and that reading them gives the declarations of `Model/Source.lean`
  and the constants of `Model/Config.lean` is a theorem (C74). The trusted part is that `Model/Cpp.lean` reads declarations as a C++ compiler does;
  anything outside the part of the language it knows is an error. Templates are skipped, and the preprocessor only includes.
* The bodies of `serialize` and `deserialize` are read from the same text by `Model/CppSyntax.lean` and run by `Model/CppRun.lean`; that this computes
  the functions of `Model/Codec.lean` is a theorem (C75), and so is it for the functions of helpers/math.hpp (C76) those of ssz/hashtree.cpp (C77; memory
  that is not initialised holds arbitrary bytes), `hash_tree` and `hash_tree_root` (C78), the predicates of validators and attestations and the functions of ssz/hasher.cpp (C79), and the operators and constructors of `Bytes`
  and the reading of hexadecimal digits (C80), `from_hexstring` and `to_string` of the bit fields (C81, C82), and the constructors of `Hasher` and the operators of `IMPL` (C83). That the constants, aliases, template parameters and sizes these runs use are those the texts declare is C84; the conversions, `size` and the inherited `get_ssz_size` are C85, the constructors with a default argument and `limit` C86, and the same for `common/bitlist.hpp` C87; the default limit of the constructors of `HashTree` is C88. What the defaulted and the inherited `operator==` compare is C89 (the rule of C++ for a defaulted one, base first and then the members in order, is written in `Model/CppEquality.lean` and trusted), the conversions to references and of `Bytes` to a vector are C90, iterators and `data` C91, the call of the routine in `Hasher` C92. A `switch` is only read if each group ends with `break` and `default` is last. Trusted is that the parser and the interpreter do what the C++ standard says for the part of the language they know (`stuck` is the outcome for everything else), and what they take from the library: `std::vector`, `std::array`, `std::distance`,
  `std::copy`, `std::for_each`, `std::countl_zero`, `std::is_sorted`, `std::adjacent_find`, `std::bit_cast`, `starts_with`, `length` and `substr` of strings, `push_back` and `fill`, string streams with `setfill`, `setw` and `hex`, `flags` of `std::cout`, `__get_cpuid` and `__get_cpuid_count`, and `to_integer_little_endian` and the constructors of `Bytes` (C31). Virtual calls on parts go to the
  modelled function of the class of the part, so that the theorem is to be read class by class, from the inner classes to the outer ones.
* `tools/compare_classes.py` does the same independently with regular expressions, `tools/compare_config.py` for the constants.
* `tools/compare_tests.py` compares the blocks, digests and lists of the test programs with `Model/Programs.lean` and `Model/TestDriver.lean`.
* The test vectors in `ssz/test_sha256.cpp` and `common/bytes_test.cpp` agree with the specifications and the model (`C55_passes`, examples in
  `Props/Helpers.lean`).
* The tools are run by hand from `/verif/lean`; the proofs do not depend on them.

## Not modelled

* `main.cpp` (uses the missing `Transaction`), the clock of the benchmark, the file system beyond trees of directories and files (a file is its contents).
* Parsing and emitting of YAML text, snappy, acutest, stream output of numbers.
* Commented-out code in `beacon_block.cpp`, `beacon_state.cpp` (not compiled).
* Copying and moving of objects; iterators of the class templates are in C91; `operator[]`, `data()`, `limit()` and the conversions are in Model/Access (C66).
* Order of static initialisation between translation units (`zero_hash_array`, `HashTree::hasher`): taken to be complete before the first use. Both
  are initialised in `hashtree.cpp` before `main`, and nothing hashes during static initialisation.
