{"id": "C01", "title": "Serialization round trip", "statement": "For every consensus object type defined in the repository and every value of it whose encoding is shorter than 2^32 bytes, calling deserialize on the bytes produced by serialize returns true and leaves the target object equal, field by field, to the original value, whatever the target object contained before.", "quantifier": "all object types (basic types, bit types, vectors, lists, containers, arbitrarily nested; both presets), all values whose bit lists have fewer than 2^31 bits, all prior contents of the target", "why_tests_cant": "The value space is unbounded (nested lists of any length); the YAML test vectors only sample a few hundred objects.", "anchors": ["ssz/ssz_container.cpp:Container::serialize_", "ssz/ssz_container.cpp:Container::deserialize_", "common/containers.hpp:ListFixedSizedParts", "common/containers.hpp:ListVariableSizedParts", "common/containers.hpp:VectorFixedSizedParts", "common/bitlist.cpp", "common/bitvector.hpp"]}
{"id": "C02", "title": "Encoding conforms to the SSZ specification", "statement": "For every object type and value (encoding below 2^32 bytes) the bytes returned by serialize are exactly the SSZ encoding of the value as written in the Ethereum SSZ specification: fixed parts in order with a 4-byte little-endian offset in place of each variable part, then the variable parts in order.", "quantifier": "all object types and all values whose bit lists have fewer than 2^31 bits", "why_tests_cant": "Conformance is an equality of two functions on an infinite domain; sampled vectors do not cover all lengths, nestings and offsets.", "anchors": ["ssz/ssz_container.cpp:Container::serialize_", "common/containers.hpp", "common/bytes.hpp", "common/slot.hpp", "common/boolean.hpp", "common/bitlist.cpp:Bitlist::serialize"]}
{"id": "C03", "title": "Declared fixed sizes are the real sizes", "statement": "For every type whose get_ssz_size() is nonzero, every value of it serializes to exactly that many bytes, and a type reports 0 only if its encoding length depends on the value.", "quantifier": "all fixed-size types of the repository (both presets) and all their values", "why_tests_cant": "The declared constant steers how enclosing containers cut the input; a wrong constant is only visible for enclosing types and specific inputs.", "anchors": ["common/containers.hpp:ssz_size", "beacon-chain/attestation.hpp", "beacon-chain/beacon_block.hpp", "beacon-chain/deposits.hpp", "beacon-chain/validator.hpp", "beacon-chain/eth1data.hpp"]}
{"id": "C04", "title": "Decoding is independent of the object's previous contents", "statement": "The outcome of deserialize (true, false or undefined behaviour), and on success every field of the resulting object, depends only on the input bytes and the type, not on what the object held before the call.", "quantifier": "all types, all byte strings, all pairs of prior contents", "why_tests_cant": "Tests decode into fresh objects; stale data left over from any of infinitely many previous contents is not observed.", "anchors": ["ssz/ssz_container.cpp:Container::deserialize_", "common/containers.hpp", "common/bitvector.hpp:Bitvector::deserialize", "common/bitlist.cpp:Bitlist::deserialize"]}
{"id": "C05", "title": "Decoding history does not matter", "statement": "After any sequence of deserialize calls on one object, some of which may have failed half way, a successful deserialize of bytes b leaves the object in the same state as decoding b into any other object.", "quantifier": "all types, all finite histories of decode attempts, all final inputs", "why_tests_cant": "Ranges over all histories; failing calls leave the object partially overwritten, so the set of intermediate states is unbounded.", "anchors": ["ssz/ssz_container.cpp:Container::deserialize_", "common/containers.hpp:ListFixedSizedParts::deserialize", "common/containers.hpp:ListVariableSizedParts::deserialize"]}
{"id": "C06", "title": "Accepted encodings are canonical", "statement": "If deserialize accepts a byte string (of the exact declared length, for fixed-size types), serializing the resulting object gives back the same byte string, so no object has two accepted encodings. (Expected to fail for types containing a bit vector whose length is not a multiple of 8.)", "quantifier": "all types without partial-byte bit vectors, all byte strings", "why_tests_cant": "Non-malleability is a statement about every adversarial byte string.", "anchors": ["ssz/ssz_container.cpp:Container::deserialize_", "common/containers.hpp", "common/bitlist.cpp:Bitlist::deserialize", "common/bitvector.hpp:Bitvector::deserialize"]}
{"id": "C07", "title": "Decoding never reads outside the input", "statement": "deserialize never reads a byte outside the given range and never executes undefined behaviour, for any byte string, for every type that does not contain a bit list; it always terminates with true or false.", "quantifier": "all types without a bit list, all byte strings, all prior contents", "why_tests_cant": "Memory safety must hold for every malformed input; fuzzing covers a sample.", "anchors": ["ssz/ssz_container.cpp:Container::deserialize_", "common/containers.hpp:ListVariableSizedParts::deserialize", "helpers/bytes_to_int.hpp:to_integer_little_endian"]}
{"id": "C08", "title": "Malformed bit lists are rejected without undefined behaviour", "statement": "Decoding a bit list from any byte string terminates with true or false; in particular an empty range or a missing delimiter bit (last byte zero) is rejected. (Expected to fail: the code reads before the range, respectively runs a wrapped-around loop.) The exact set of inputs with undefined behaviour is the empty string and the strings whose last byte is zero.", "quantifier": "all byte strings, and all malformed encodings of attestations, blocks and states that embed a bit list", "why_tests_cant": "The claim is about all malformed inputs; tests only feed valid ones.", "anchors": ["common/bitlist.cpp:Bitlist::deserialize", "beacon-chain/attestation.cpp:Attestation::deserialize"]}
{"id": "C09", "title": "Bit list encoding is a bijection onto well-formed strings", "statement": "serialize and deserialize of a bit list are mutually inverse between all finite bit sequences and all nonempty byte strings with a nonzero last byte.", "quantifier": "all bit sequences of any length below 2^31 and all byte strings", "why_tests_cant": "Unbounded length; off-by-one errors in the delimiter bit depend on the length modulo 8 and on the data.", "anchors": ["common/bitlist.cpp:Bitlist::serialize", "common/bitlist.cpp:Bitlist::deserialize"]}
{"id": "C10", "title": "Bit vectors: round trip and padding bits", "statement": "A bit vector of any length N round-trips through serialize/deserialize; deserialize rejects every string of the wrong length, and rejects strings with a nonzero padding bit. (The last part is expected to fail: padding bits are ignored.)", "quantifier": "all N, all bit vectors, all byte strings", "why_tests_cant": "All lengths and all padding patterns.", "anchors": ["common/bitvector.hpp:Bitvector::serialize", "common/bitvector.hpp:Bitvector::deserialize"]}
{"id": "C11", "title": "Fixed-size containers reject trailing bytes", "statement": "deserialize of a fixed-size container accepts a byte string only if its length is exactly the declared size. (Expected to fail for containers: extra bytes at the end are ignored at top level; holds for basic types and vectors, and for every fixed-size part inside another object.)", "quantifier": "all fixed-size container types and all byte strings", "why_tests_cant": "All lengths and contents of the suffix.", "anchors": ["ssz/ssz_container.cpp:Container::deserialize_"]}
{"id": "C12", "title": "List limits are enforced when decoding", "statement": "deserialize rejects an encoding in which a list or bit list holds more elements than its declared limit. (Expected to fail: limits are not looked at.)", "quantifier": "all list types, all limits, all encodings", "why_tests_cant": "All over-long encodings.", "anchors": ["common/containers.hpp:ListFixedSizedParts::deserialize", "common/containers.hpp:ListVariableSizedParts::deserialize", "common/bitlist.cpp:Bitlist::deserialize"]}
{"id": "C13", "title": "Merkle root of chunks is the SSZ Merkle root", "statement": "For every nonempty sequence of n chunks and every limit with n <= limit <= 2^42 (or limit 0, meaning no limit), the last element of the tree built from them is the root of the perfect binary hash tree of the least sufficient depth over the chunks followed by zero chunks.", "quantifier": "all chunk sequences of any length, all limits", "why_tests_cant": "Loop with data-dependent layer sizes; odd tails occur at different heights for each n.", "anchors": ["ssz/hashtree.cpp:merkleize", "ssz/hashtree.cpp:HashTree::HashTree"]}
{"id": "C14", "title": "Building a hash tree stays inside its buffer", "statement": "Constructing a hash tree from n >= 1 chunks with a limit that is 0 or between n and 2^42 never writes outside the allocated node buffer and never indexes outside the table of precomputed zero hashes.", "quantifier": "all chunk counts and limits in range", "why_tests_cant": "The buffer size formula uses mixed signed/unsigned arithmetic; whether it suffices depends on n and limit.", "anchors": ["ssz/hashtree.cpp:HashTree::HashTree", "ssz/hashtree.cpp:merkleize", "ssz/hashtree.cpp:ZERO_HASH_DEPTH"]}
{"id": "C15", "title": "Hashing a list over its limit is safe", "statement": "Calling hash_tree_root on any object that deserialize accepted has no undefined behaviour. (Expected to fail: a list decoded with more elements than its limit overflows the node buffer; limits above 2^42 read past the zero-hash table.)", "quantifier": "all accepted objects, in particular over-long lists", "why_tests_cant": "Needs the combination of an unchecked decode and a particular pair (count, limit).", "anchors": ["ssz/hashtree.cpp:HashTree::HashTree", "common/containers.hpp:ListFixedSizedParts::hash_tree_x", "common/containers.hpp:ListVariableSizedParts::hash_tree"]}
{"id": "C16", "title": "hash_tree_root conforms to the SSZ specification", "statement": "For every type of the repository and every value whose lists respect their limits, hash_tree_root() is the SSZ hash tree root of the value as defined by the specification (pack / merkleize / mix_in_length, recursively).", "quantifier": "all types, all values within limits", "why_tests_cant": "Equality of two recursive functions over an infinite domain.", "anchors": ["ssz/ssz_container.cpp:Container::hash_tree", "ssz/ssz_container.cpp:Container::hash_tree_", "common/containers.hpp", "common/bitlist.cpp:Bitlist::hash_tree", "common/slot.hpp:Slot::hash_tree"]}
{"id": "C17", "title": "The root commits to the whole object", "statement": "If two objects of the same type (lists within limits) have the same hash_tree_root, then they are equal, or the two root computations contain two different 64-byte inputs to the compression of two chunks with the same output (an explicit SHA-256 collision among the inputs actually hashed).", "quantifier": "all types, all pairs of values", "why_tests_cant": "Quantifies over all pairs of values; collisions cannot be searched by testing.", "anchors": ["ssz/hashtree.cpp:merkleize", "ssz/hashtree.cpp:HashTree::mix_in", "ssz/hashtree.cpp:pack_and_pad"]}
{"id": "C18", "title": "Layout of the hash tree cache", "statement": "The vector returned by hash_tree() of a tree over n chunks holds first the parents of the chunks, then their parents, and so on up to a single node, followed by the extension of that node with zero subtrees up to the depth of the limit; it contains exactly the expected number of nodes.", "quantifier": "all chunk sequences and limits", "why_tests_cant": "Layer sizes depend on n at every level.", "anchors": ["ssz/hashtree.cpp:merkleize", "ssz/hashtree.hpp:HashTree::hash_tree"]}
{"id": "C19", "title": "Length mix-in", "statement": "mix_in(length) appends hash(root || length as 32-byte little-endian) as the new root; roots of lists with different lengths never coincide unless a hash collision is exhibited.", "quantifier": "all trees and all lengths below 2^64", "why_tests_cant": "All lengths and trees.", "anchors": ["ssz/hashtree.cpp:HashTree::mix_in", "common/bytes.hpp:bytes_from_int"]}
{"id": "C20", "title": "Packing bytes into chunks", "statement": "Packing a byte sequence into 32-byte chunks preserves the bytes in order, pads only the last chunk with zero bytes, yields ceil(n/32) chunks (one zero chunk for the empty sequence), and reads nothing outside the input.", "quantifier": "all byte sequences", "why_tests_cant": "All lengths.", "anchors": ["ssz/hashtree.cpp:pack_and_pad"]}
{"id": "C21", "title": "Precomputed zero hashes", "statement": "The k-th precomputed zero hash is the root of a perfect tree of depth k with all-zero leaves, for every k in the table; empty lists therefore get the specified root for every limit up to 2^42.", "quantifier": "all depths in the table, all list limits", "why_tests_cant": "Depends on the whole chain of hashes and on every limit.", "anchors": ["ssz/hashtree.cpp:zero_hash_array_helper"]}
{"id": "C22", "title": "One-block AVX SHA-256 is SHA-256", "statement": "sha256_1_avx writes the FIPS 180-4 SHA-256 digest of the 64 input bytes to the 32 output bytes, for every input.", "quantifier": "all 2^512 inputs", "why_tests_cant": "Input space too large; the assembly interleaves scheduling and rounds.", "anchors": ["ssz/sha256_avx_one_block.asm:sha256_1_avx", "ssz/sha256_avx_one_block.asm:FOUR_ROUNDS_AND_SCHED", "ssz/sha256_avx_one_block.asm:DO_ROUND"]}
{"id": "C23", "title": "Four-lane AVX SHA-256 is SHA-256 on every block", "statement": "sha256_4_avx writes, for every block count k and every input, the SHA-256 digest of the i-th 64-byte block to the i-th 32-byte output slot for all i < k, and nothing else.", "quantifier": "all block counts and inputs", "why_tests_cant": "Lane transposition and remainder handling depend on k; inputs unbounded.", "anchors": ["ssz/sha256_avx.asm:sha256_4_avx"]}
{"id": "C24", "title": "Eight-lane AVX2 SHA-256 is SHA-256 on every block", "statement": "sha256_8_avx2 writes, for every block count k and every input, the SHA-256 digest of the i-th 64-byte block to the i-th 32-byte output slot for all i < k, and nothing else.", "quantifier": "all block counts and inputs", "why_tests_cant": "Lane transposition and the two-level remainder handling depend on k; inputs unbounded.", "anchors": ["ssz/sha256_avx2.asm:sha256_8_avx2", "ssz/transpose_avx2.asm"]}
{"id": "C25", "title": "SHA-NI SHA-256 is SHA-256 on every block", "statement": "sha256_shani writes, for every block count k and every input, the SHA-256 digest of the i-th 64-byte block to the i-th 32-byte output slot for all i < k (single thread).", "quantifier": "all block counts and inputs", "why_tests_cant": "Input space too large; the two-block path interleaves two computations.", "anchors": ["ssz/sha256_shani.asm:sha256_shani"]}
{"id": "C26", "title": "Roots do not depend on the CPU", "statement": "hash_tree_root of any object is the same whichever of the four SHA-256 implementations is selected.", "quantifier": "all implementations, all objects", "why_tests_cant": "One machine only exercises one implementation; agreement must hold for every input.", "anchors": ["ssz/hasher.cpp:Hasher::best_sha256_implementation", "ssz/hasher.cpp:Hasher::Hasher"]}
{"id": "C27", "title": "Implementation selection", "statement": "The implementation selected by default uses only instruction set extensions the processor reports and the operating system has enabled, and is the preferred one (SHA extensions, then AVX2, then AVX, then SSE). Which extensions a call executes is determined by the routine and the number of blocks. (The first half is expected to fail on processors without AVX: the fallback executes AVX code; and where AVX is not enabled: the code does not test it.)", "quantifier": "all processor feature sets", "why_tests_cant": "A test machine has one feature set.", "anchors": ["ssz/hasher.cpp:Hasher::implemented", "ssz/hasher.cpp:Hasher::best_sha256_implementation"]}
{"id": "C28", "title": "Concurrent hashing is safe", "statement": "Two threads hashing different data at the same time obtain the same results as when run one after the other, for every interleaving. (Expected to fail for the SHA-NI implementation with two or more blocks per call, which keeps intermediate state in global memory.)", "quantifier": "all interleavings of two (or more) concurrent calls, all inputs", "why_tests_cant": "Schedules cannot be enumerated by tests and the race window is a few instructions.", "anchors": ["ssz/sha256_shani.asm:ABEF_SAVEa", "ssz/sha256_shani.asm:sha256_shani"]}
{"id": "C29", "title": "Integer square root", "statement": "integer_squareroot(x) returns the largest r with r*r <= x, without arithmetic overflow, for every x and whatever value the floating point square root returned as a starting point.", "quantifier": "all x of every unsigned width, all rounding behaviours of the floating point estimate", "why_tests_cant": "2^64 inputs and a compiler flag (-ffast-math) that makes the estimate unspecified.", "anchors": ["helpers/math.hpp:integer_squareroot", "helpers/math.hpp:ct_sqrt", "helpers/math.hpp:sqrt_helper"]}
{"id": "C30", "title": "Ceiling logarithm", "statement": "log2ceil(n) is the least d with n <= 2^d for every n >= 1 (and 0 for n = 0).", "quantifier": "all n of 32 and 64 bit width", "why_tests_cant": "2^64 inputs.", "anchors": ["helpers/math.hpp:log2ceil"]}
{"id": "C31", "title": "Integers and bytes", "statement": "Constructing a byte array from an unsigned integer stores it in little-endian order padded with zeros, reading it back as an integer of the same width returns the original, and distinct integers give distinct arrays.", "quantifier": "all integers of all widths, all sufficiently large array sizes", "why_tests_cant": "2^64 inputs.", "anchors": ["common/bytes.hpp:bytes_from_int", "common/bytes.hpp:to_integer_little_endian", "helpers/bytes_to_int.hpp:to_integer_little_endian"]}
{"id": "C32", "title": "Parsing hexadecimal byte strings", "statement": "Building a byte array of size N from a string accepts exactly the strings 0x followed by at most 2N hexadecimal digits and yields the bytes they denote; every other string raises an exception. (Expected to fail: any 7-bit character is taken as a digit, mostly with value 0; characters with the high bit set index outside a table.)", "quantifier": "all strings and all N", "why_tests_cant": "All malformed strings.", "anchors": ["common/bytes.hpp:bytes_from_str", "helpers/bytes_to_int.hpp:hextoint", "helpers/bytes_to_int.hpp:strhex2int"]}
{"id": "C33", "title": "Byte array operators", "statement": "xor-assignment is an involution and commutative in effect, concatenation is length-additive and its parts can be recovered, and == holds exactly when all bytes agree.", "quantifier": "all byte arrays of all sizes", "why_tests_cant": "All contents and sizes.", "anchors": ["common/bytes.hpp:operator^=", "common/bytes.hpp:operator+", "common/bytes.hpp:operator=="]}
{"id": "C34", "title": "Equality of objects", "statement": "a == b returns true exactly when the two objects are equal field by field. (Expected to fail for every type that inherits the comparison of the common base class, which always returns true; holds for Fork, BeaconBlockHeader, VoluntaryExit, SignedVoluntaryExit and the basic and bit types.)", "quantifier": "all types and all pairs of values", "why_tests_cant": "All pairs; tests compare an object with its own decoding, for which a constant true passes.", "anchors": ["ssz/ssz_container.hpp:Container::operator==", "beacon-chain/beacon_state.hpp:BeaconState::operator==", "common/containers.hpp"]}
{"id": "C35", "title": "Slashable attestation pairs are recognised", "statement": "is_slashable(a, b) returns true exactly for double votes (different data, same target epoch) and surround votes (a's source before b's source and b's target before a's target). (Expected to fail for double votes.)", "quantifier": "all pairs of attestation data", "why_tests_cant": "All pairs of 128-byte records.", "anchors": ["beacon-chain/attestation.cpp:AttestationData::is_slashable", "ssz/ssz_container.hpp:Container::operator=="]}
{"id": "C36", "title": "Valid indexed attestations have strictly increasing indices", "statement": "is_valid returns true exactly if the attesting indices are nonempty and strictly increasing (sorted without duplicates).", "quantifier": "all index lists of any length", "why_tests_cant": "Unbounded lists.", "anchors": ["beacon-chain/attestation.cpp:IndexedAttestation::is_valid"]}
{"id": "C37", "title": "Validator life-cycle predicates", "statement": "is_active, is_slashable and is_eligible_for_activation_queue decide the specification predicates for every validator record and epoch: the active epochs form the interval [activation, exit); a validator is slashable exactly when not slashed and in [activation, withdrawable).", "quantifier": "all validator records and epochs", "why_tests_cant": "2^64 epochs, all records, boundary values such as FAR_FUTURE_EPOCH.", "anchors": ["beacon-chain/validator.cpp:Validator::is_active", "beacon-chain/validator.cpp:Validator::is_slashable", "beacon-chain/validator.cpp:Validator::is_eligible_for_activation_queue"]}
{"id": "C38", "title": "YAML round trip", "statement": "For every type without bit fields, decode(encode(v)) succeeds and yields v, whatever the target held before.", "quantifier": "all such types and values", "why_tests_cant": "Unbounded values.", "anchors": ["ssz/ssz_container.cpp:Container::encode_", "ssz/ssz_container.cpp:Container::decode_", "common/bytes.hpp:Bytes::decode"]}
{"id": "C39", "title": "YAML round trip of bit fields", "statement": "decode(encode(v)) yields v for bit lists and bit vectors. (Expected to fail: the textual form contains raw bytes instead of hexadecimal digits.)", "quantifier": "all bit lists and bit vectors", "why_tests_cant": "All values; the tests only decode.", "anchors": ["common/bitlist.cpp:Bitlist::to_string", "common/bitlist.cpp:Bitlist::from_hexstring", "common/bitvector.hpp:Bitvector::to_string", "common/bitvector.hpp:Bitvector::from_hexstring"]}
{"id": "C40", "title": "Distinct objects have distinct encodings", "statement": "Two different values of the same type (encodings below 2^32 bytes) never serialize to the same bytes.", "quantifier": "all types, all pairs of values", "why_tests_cant": "All pairs of values.", "anchors": ["ssz/ssz_container.cpp:Container::serialize_", "common/containers.hpp"]}
{"id": "C41", "title": "Set of accepted encodings", "statement": "For types without partial-byte bit vectors, deserialize accepts a byte string below 2^32 bytes (of exact length, for fixed-size types) if and only if it is the serialization of some value of the type.", "quantifier": "all types, all byte strings", "why_tests_cant": "Both directions range over infinite sets.", "anchors": ["ssz/ssz_container.cpp:Container::deserialize_", "common/containers.hpp"]}
{"id": "C42", "title": "Objects of 4 GiB and more", "statement": "serialize never produces an encoding whose offsets do not point at the parts. (Expected to fail when the encoding reaches 2^32 bytes: 32-bit offsets wrap around silently.)", "quantifier": "all values, of any size", "why_tests_cant": "Needs objects of more than 4 GiB.", "anchors": ["ssz/ssz_container.cpp:Container::serialize_", "common/containers.hpp:ListVariableSizedParts::serialize"]}
{"id": "C43", "title": "Offsets of accepted input are ordered and in range", "statement": "Whenever deserialize accepts the encoding of a container or of a list of variable-size parts, the offsets stored in it start at the length of the fixed part, never decrease, and never exceed the length of the input.", "quantifier": "all variable-size container types, all byte strings", "why_tests_cant": "All adversarial offset tables.", "anchors": ["ssz/ssz_container.cpp:Container::deserialize_", "common/containers.hpp:ListVariableSizedParts::deserialize"]}
{"id": "C44", "title": "Containers have the fields of the specification", "statement": "Each consensus container has exactly the fields, in the order and with the types and limits, that the phase 0 specification gives, in both presets (mainnet and minimal); the sizes of the fixed-size ones follow.", "quantifier": "all container types and both presets", "why_tests_cant": "A swapped pair of same-typed fields round-trips and compares equal; only comparison with the specification shows it.", "anchors": ["beacon-chain/beacon_state.hpp", "beacon-chain/beacon_block.hpp", "beacon-chain/attestation.hpp", "beacon-chain/deposits.hpp", "config/constants.hpp", "config/mainnet.hpp.in", "config/minimal.hpp.in"]}
{"id": "C45", "title": "Failed decoding leaves the object unchanged", "statement": "If deserialize returns false the target object is unchanged. (Expected to fail: parts decoded before the error are overwritten and lists are cleared.)", "quantifier": "all types, all malformed inputs, all prior contents", "why_tests_cant": "All malformed inputs and prior contents.", "anchors": ["ssz/ssz_container.cpp:Container::deserialize_", "common/containers.hpp:ListFixedSizedParts::deserialize"]}
{"id": "C46", "title": "Assembly routines respect the calling convention", "statement": "Each SHA-256 routine returns with the callee-saved registers and the stack pointer restored, and the one-block routine also preserves the pointer and count registers its assembly callers rely on, for every input and block count.", "quantifier": "all inputs, all block counts, all register contents", "why_tests_cant": "Violations show only in some callers under some optimisation levels.", "anchors": ["ssz/sha256_avx_one_block.asm:sha256_1_avx", "ssz/sha256_avx.asm:sha256_4_avx", "ssz/sha256_avx2.asm:sha256_8_avx2"]}
{"id": "C47", "title": "YAML decoding does not depend on previous contents", "statement": "Whether decode(node) returns true or false, throws or is undefined, and the contents after it returned true, are the same for any two previous contents of the object.", "quantifier": "all types, all trees, all pairs of previous contents", "why_tests_cant": "Tests decode into fresh objects only; stale state needs all previous contents.", "anchors": ["ssz/ssz_container.cpp:Container::decode_", "common/containers.hpp:ListFixedSizedParts::decode", "common/bitlist.cpp:Bitlist::from_hexstring", "common/bitvector.hpp:Bitvector::from_hexstring"]}
{"id": "C48", "title": "YAML decoding of untrusted trees is defined", "statement": "Decoding any tree has undefined behaviour only if one of its scalars has 2^31 or more characters, a character with the high bit set, or (for types with bit lists) is a hexadecimal text without a nonzero last byte; for the text of a bit list the exact condition is given.", "quantifier": "all types, all trees, all previous contents", "why_tests_cant": "Arbitrary trees and texts; undefined behaviour is not observable by tests.", "anchors": ["helpers/bytes_to_int.hpp:hextoint", "common/bitlist.cpp:Bitlist::from_hexstring", "common/bitlist.cpp:Bitlist::deserialize", "common/bytes.hpp:Bytes::decode"]}
{"id": "C49", "title": "Keys of YAML maps", "statement": "Decoding a container depends only on the values of the keys that are names of its members: the order of the entries and additional keys do not matter. Every member's key must be present; a missing first key makes decoding throw YAML::InvalidNode.", "quantifier": "all containers, all maps", "why_tests_cant": "All orders and all additional entries.", "anchors": ["ssz/ssz_container.cpp:Container::decode_"]}
{"id": "C50", "title": "All operations of a class work on the same members", "statement": "For each of the 23 classes under ssz::Container the argument lists of serialize, deserialize, hash_tree, encode and decode name all data members in the order of declaration, none twice, with the same YAML keys; seen through any of these lists (and those of the member classes) the class is the type the other properties speak of, with the declared size.", "quantifier": "all classes, both presets, all operations", "why_tests_cant": "A list that leaves out or exchanges members of equal type in one operation only may pass a round trip; tests look at a few objects.", "anchors": ["beacon-chain/attestation.hpp", "beacon-chain/beacon_block.hpp", "beacon-chain/beacon_state.hpp", "beacon-chain/deposits.hpp", "beacon-chain/validator.hpp", "beacon-chain/eth1data.hpp", "ssz/ssz_container.hpp"]}
{"id": "C51", "title": "Reference YAML is decoded correctly", "statement": "A YAML tree in the form of the consensus specification's value.yaml files (decimal integers, true/false, 0x hexadecimal for byte arrays and bit fields, sequences, maps by member name with any order of keys and extra keys) that denotes a value is decoded to exactly this value, whatever the object held before; every value has such a tree, and a tree denotes at most one value.", "quantifier": "all types, all values with bit lists under 2^31 bits, all trees denoting them", "why_tests_cant": "Tests decode a finite set of files.", "anchors": ["ssz/ssz_container.cpp:Container::decode_", "common/bitlist.cpp:Bitlist::from_hexstring", "common/bitvector.hpp:Bitvector::from_hexstring", "common/bytes.hpp:Bytes::decode", "common/slot.hpp", "common/containers.hpp"]}
{"id": "C52", "title": "Conformance tests pass on all correct vectors", "statement": "The test driver test_ssz<T>, on any directory whose value.yaml denotes a value, whose roots.yaml holds its hash tree root and whose serialized.ssz_snappy holds its encoding, runs without undefined behaviour or exception and all three checks succeed, for every class, every SHA-256 implementation and any contents of the uninitialised bits of new objects. The loops over any number of such directories report success for each of them; the list of tests has every container class exactly once, with the directory of its own name.", "quantifier": "all 23 classes, both presets, all values within limits with encodings under 4 GiB", "why_tests_cant": "The statement is about all possible test vectors.", "anchors": ["beacon-chain/test/test_ssz.cpp:test_ssz"]}
{"id": "C53", "title": "What the conformance tests cannot see", "statement": "Passing means: root equal to the file's, serialization equal to the file's contents possibly followed by zero bytes. For the 18 classes with the inherited operator== the result is independent of what deserialize stores. Zero bytes appended by a wrong serialize are not noticed; a serialization shorter than the file makes the driver write past its buffer.", "quantifier": "all programs under test (arbitrary operations), all vectors", "why_tests_cant": "It is a statement about the power of the tests themselves.", "anchors": ["beacon-chain/test/test_ssz.cpp:test_ssz", "ssz/ssz_container.hpp:operator=="]}
{"id": "C54", "title": "Accessors return the member they are named after", "statement": "Every accessor of BeaconBlockBody, BeaconBlock and BeaconState, called on any object, returns the data member of its name (the one the encoding, the hash tree and YAML treat under this name); every private data member has exactly one accessor.", "quantifier": "all classes, all accessors, all presets, all objects", "why_tests_cant": "No test calls the accessors; exchanged members of equal type compile.", "anchors": ["beacon-chain/beacon_block.hpp:128-135", "beacon-chain/beacon_block.hpp:192-196", "beacon-chain/beacon_state.hpp:54-74"]}
{"id": "C55", "title": "The tests of the SHA-256 routines", "statement": "On a processor with cpuid leaf 7 each of the four tests runs exactly if its extension (SSE3, AVX, AVX2, SHA) is reported, with the routine it is for; its check succeeds for every possible run of the routine, since the stored digests are the SHA-256 digests of the stored blocks, and would fail for any other output. Without leaf 7 every test reads uninitialised variables; with SSE3 but without AVX the first test executes instructions the processor does not report.", "quantifier": "all processors (cpuid answers), all tests, all memory layouts and machine states of the calls", "why_tests_cant": "It is a statement about the tests on all processors; a test run sees one.", "anchors": ["ssz/test_sha256.cpp:106-155", "ssz/hasher.cpp:implemented"]}
{"id": "C56", "title": "What the benchmark computes", "statement": "On a file with the encoding of a state within its limits (shorter than 2^32 bytes) the benchmark returns 0 after computing ten times the root of the SSZ specification of that state; it returns 1, without hashing, if and only if the file cannot be read or is rejected; when it returns 0 the file was accepted and all roots are that of the decoded object.", "quantifier": "all files, both presets, all states", "why_tests_cant": "The benchmark discards the roots and has no tests.", "anchors": ["bench/bench_sha256_impl.cpp:37-73", "bench/bench_sha256.cpp.in:27-39"]}
{"id": "C57", "title": "The SHA-256 routines run in constant time", "statement": "Two calls of one of the four routines with the same pointers, the same stack and the same number of blocks execute the same instructions in the same order and access the same addresses, whatever the input, the rest of memory and the other registers contain. The accesses meant are all there are: an instruction changes no byte outside those it writes and its effect depends on no byte outside its accesses; the same holds for calls and returns.", "quantifier": "all numbers of blocks, all inputs, all memory contents, all layouts and machine states, all four routines", "why_tests_cant": "Comparing timings or traces covers a few inputs; a branch or an address that depends on a secret shows only for inputs that take the other way.", "anchors": ["ssz/sha256_avx_one_block.asm:sha256_1_avx", "ssz/sha256_avx.asm:sha256_4_avx", "ssz/sha256_avx2.asm:sha256_8_avx2", "ssz/sha256_shani.asm:sha256_shani"]}
{"id": "C58", "title": "Way through the SHA-256 routines and number of instructions", "statement": "The pieces of code a call executes, and their order, are those of the loops written out for the number of blocks: n/4 batches then n%4 single blocks, n/8 batches then the routine for four lanes, n/2 pairs then at most one block. Without jumps a call executes 4053 instructions (one block), 6146*(n/4)+4057*(n%4)+7 (four lanes), 6192*(n/8)+6146*(n%8/4)+4057*(n%8%4)+23 (eight lanes), 430*(n/2)+231*(n%2)+5 (SHA extensions).", "quantifier": "all numbers of blocks, all machine states at the entry", "why_tests_cant": "A test sees digests and not how often a loop runs: a batch hashed twice or a detour gives the same output.", "anchors": ["ssz/sha256_avx.asm:sha256_4_avx", "ssz/sha256_avx2.asm:sha256_8_avx2", "ssz/sha256_shani.asm:sha256_shani"]}
{"id": "C59", "title": "Which YAML trees are decoded, and to which value", "statement": "Decoding a YAML tree succeeds with a value if and only if the tree is one of a list given independently of the code: integers in decimal, octal (leading 0) or hexadecimal with an optional plus sign and white space behind, eleven words each for true and false, 0x and 7-bit characters (others than hexadecimal digits counting as 0, missing ones filled with zeros) for bytes and bit fields, sequences of any length for lists, maps with every member for containers. A decimal number with a superfluous leading 0 is read as octal or rejected. In the text of a bit vector, digits after the first 2^30 are stored over the first bits (the text of a bit field has fewer than 2^31 characters).", "quantifier": "all types without empty containers, hence all classes; all trees; all values; all previous contents", "why_tests_cant": "The reference files contain only well-formed text; what else is accepted, and as what, no test shows.", "anchors": ["ssz/ssz_container.cpp:Container::decode_", "common/slot.hpp:decode", "common/boolean.hpp:decode", "common/bytes.hpp:bytes_from_str", "common/bitvector.hpp:from_hexstring", "common/bitlist.cpp:from_hexstring", "common/containers.hpp:decode"]}
{"id": "C60", "title": "What a decoder does with every byte string", "statement": "For every type, byte string and previous contents, deserialize returns true with a value, returns false, or runs into undefined behaviour exactly as a decoder says that is defined over whole byte strings and unbounded numbers, with no iterators, machine integers, overwritten objects or loops with early exits. That decoder takes every SSZ encoding of less than 2^32 bytes back to its value, and what it accepts is the encoding of the value except for padding bits of bit vectors and bytes after fixed-size containers.", "quantifier": "all well-formed types, hence all classes; all byte strings, well-formed or not; all previous contents", "why_tests_cant": "Tests feed a few valid encodings; the claim fixes the outcome for every malformed input too, including which of several defects is met first.", "anchors": ["ssz/ssz_container.cpp:Container::deserialize_", "common/containers.hpp:deserialize", "common/slot.hpp:deserialize", "common/boolean.hpp:deserialize", "common/bytes.hpp:deserialize", "common/bitvector.hpp:deserialize", "common/bitlist.cpp:deserialize"]}
{"id": "C61", "title": "What the SHA-256 routines need, exactly", "statement": "A piece of code fails exactly if it makes an access outside the regions, a store to memory that must not be written, a misaligned access by an instruction that demands alignment, or returns to a wrong address. sha256_1_avx makes only allowed accesses exactly if 28 given accesses relative to rsp, rsi and rdi are allowed, and returns exactly if the stack is 8 below a multiple of 16; sha256_4_avx returns exactly if the stack is so aligned or there are no blocks; sha256_8_avx2 needs no alignment at all; sha256_shani needs no alignment, and returns exactly if its scratch section can be written or there are fewer than two blocks.", "quantifier": "all programs and states of the machine for the first claim; all address spaces, states, block counts and alignments for the routines", "why_tests_cant": "The stack is always aligned when the routines are called from compiled code and the data section is always writable, so tests never see a call that fails.", "anchors": ["ssz/sha256_avx_one_block.asm:sha256_1_avx", "ssz/sha256_avx.asm:sha256_4_avx", "ssz/sha256_avx2.asm:sha256_8_avx2", "ssz/sha256_shani.asm:sha256_shani", "ssz/hasher.hpp:27-29"]}
{"id": "C62", "title": "The constants are those of the specification", "statement": "In both configurations every constant of the consensus specification (phase 0) and of SSZ that the code declares is declared once and has the value that the specification gives it, and the code declares no others (except one of a later fork); the arithmetic on them in the declarations of the classes neither overflows nor wraps around. A fork version written as a hexadecimal number comes out with its bytes reversed.", "quantifier": "all constants of the two configurations; all constant expressions in all class declarations; all fork versions", "why_tests_cant": "A test that uses a constant takes its expected value from the same header; wrong constants show up only when talking to other clients.", "anchors": ["config/mainnet.hpp.in:30-91", "config/minimal.hpp.in:31-90", "config/constants.hpp:27-36", "ssz/ssz.hpp:27-29", "common/bytes.hpp:bytes_from_int"]}
{"id": "C63", "title": "Which bytes of the buffer decoding reads", "statement": "deserialize reads every byte of the buffer at most once and no byte outside the buffer, whether it returns true or false; hence the sizes of its reads add up to at most the length of the buffer, and decoding is linear in it. On an empty bit list (undefined behaviour) it does read before the buffer.", "quantifier": "all well-formed types, hence all classes; all byte strings on which the behaviour is defined; all previous contents; all addresses of the buffer", "why_tests_cant": "A read beyond the buffer or a second pass over it has no visible result in a test.", "anchors": ["ssz/ssz_container.cpp:Container::deserialize_", "common/containers.hpp:deserialize", "common/slot.hpp:deserialize", "common/bytes.hpp:deserialize", "common/bitlist.cpp:deserialize"]}
{"id": "C64", "title": "Integers are read from aligned addresses", "statement": "If the buffer is aligned to eight bytes, deserialize reads every 64-bit integer and every 32-bit offset through reinterpret_cast at an address that is a multiple of its size, as C++ requires.", "quantifier": "all classes, all byte strings", "why_tests_cant": "x86-64 reads misaligned integers without complaint; only a sanitizer or another processor shows the undefined behaviour.", "anchors": ["common/slot.hpp:deserialize", "ssz/ssz_container.cpp:Container::deserialize_", "common/containers.hpp:deserialize", "beacon-chain/validator.hpp:Validator", "beacon-chain/attestation.hpp:IndexedAttestation"]}
{"id": "C65", "title": "Hashing keeps its iterators within the vector", "statement": "Computing the hash tree root of a valid object never advances an iterator beyond the end of a vector (in pack_and_pad, it + 32 and it += 32).", "quantifier": "all hashable types, hence all classes; all objects within their limits", "why_tests_cant": "Compilers give the arithmetic beyond the end a harmless meaning; it shows only under a checked standard library.", "anchors": ["ssz/hashtree.cpp:pack_and_pad", "ssz/ssz_container.cpp:hash_tree", "common/bitlist.cpp:hash_tree", "common/containers.hpp:hash_tree"]}
{"id": "C66", "title": "Conversions, element access and printing agree with the encoding", "statement": "Converting an integer object to Bytes8, a Boolean to Bytes1 or a Bytes<N> to a vector gives its encoding, from which the object is decoded again. Reading or assigning element i of a Bytes<N> reads or changes byte i of the encoding and no other, and is undefined exactly if i >= N. Printing a bit vector or bit list writes the character 0 or 1 per bit, in order. Setting the limit of a bit list changes its root to the one for the new limit and its comparison, but neither encoding nor decoding. The checks of common/bytes_test.cpp succeed, as they would for any other integer.", "quantifier": "all values, sizes, indices and limits", "why_tests_cant": "The test program has five checks of fixed values; conversions, indexing, printing and the limit setter are not tested.", "anchors": ["common/slot.hpp:operator Bytes8", "common/boolean.hpp:operator Bytes1", "common/bytes.hpp:operator[]", "common/bytes.hpp:operator std::vector", "common/bitvector.hpp:operator<<", "common/bitlist.hpp:limit", "common/bytes_test.cpp"]}
{"id": "C67", "title": "Which cases the conformance tests run", "statement": "The test of a class is reported as success exactly if its directory exists, holds only directories (suites) that hold only directories (cases), and every case that has at least one entry passes. A case is checked only if its three files are there and can be read. Every case is run once per entry, hence at least three times if it has its three files. If all cases agree with the specification the test of every class succeeds. Without suites, without cases or with empty cases the test succeeds without a single check, whatever the program under test.", "quantifier": "all programs under test (arbitrary operations), all directory trees", "why_tests_cant": "Tests do not test which tests are run; a checkout without the vectors in its directories looks like success.", "anchors": ["beacon-chain/test/test_ssz.cpp:test_ssz", "include/acutest.h:acutest_do_run_"]}
{"id": "C68", "title": "Number of hashes and size of the node buffers", "statement": "Building a hash tree hashes every node of its layers exactly once, in at most two calls of the hasher per layer (all pairs of the layer in one call, the left-over last node in another), none of them with zero blocks, and allocates one node buffer of at most twice the number of chunks plus 41 nodes. hash_tree of an object hashes exactly the number of 64-byte blocks the specification needs without sharing and without subtrees of padding; this is at most 12 times the size of its encoding plus 43, whatever the limits of its lists. Hence hashing an object accepted by deserialize takes a number of hashes linear in the bytes received.", "quantifier": "all chunk sequences up to 2^42 chunks and limits up to 2^42, all types, all values including lists over their limits that hash without undefined behaviour", "why_tests_cant": "Tests measure some objects; a layer hashed twice, node by node or to the depth of the limit times the number of elements gives the same roots.", "anchors": ["ssz/hashtree.cpp:merkleize", "ssz/hashtree.cpp:HashTree::HashTree", "ssz/hashtree.cpp:HashTree::mix_in", "ssz/hasher.hpp:hash_64b_blocks"]}
{"id": "C69", "title": "What YAML decoding does with trees it does not accept", "statement": "Decoding a YAML tree as an object either stores a value, returns false, throws one certain exception, or is undefined behaviour, and which of these happens is decided by the first place of the tree, in reading order, that is not as it should be: scalars of the wrong kind return false; hexadecimal text without 0x, of odd length (bit fields) or too long (byte vectors) throws; a character above 127 in it, a bit list without its delimiting bit in the last byte, or a bit field written in 2^31 or more characters is undefined; a missing member throws InvalidNode, a scalar in place of a mapping throws BadSubscript; a sequence of the wrong kind or number returns false; an element that would return false throws TypedBadConversion. No tree fails in two ways.", "quantifier": "all types without empty containers, in particular every class of the repository, all trees of any size, all previous contents of the object", "why_tests_cant": "Test vectors only contain well-formed files; the ways of failing differ by position and nesting and there are infinitely many malformed trees.", "anchors": ["ssz/ssz_container.cpp:decode_", "common/slot.hpp:decode", "common/boolean.hpp:decode", "common/bytes.hpp:decode", "common/bitvector.hpp:from_hexstring", "common/bitlist.cpp:from_hexstring", "common/containers.hpp:decode"]}
{"id": "C70", "title": "What hashing an object costs, and what its calls reveal", "statement": "A call of each SHA-256 implementation for n blocks executes a number of instructions (jumps not counted) that is a certain function of n. The calls made while an object is hashed are never for zero blocks, so that the instructions executed in the SHA-256 routines are at most 236 (SHA extensions), 4080 (AVX2), 4064 (AVX) or 4053 (SSE) per block hashed and, if hashing ends normally, at most that number times 12 per byte of the encoding and 43; for no object does another implementation execute fewer instructions than the one with the SHA extensions. Which calls of the hasher are made, for how many blocks and in which order, how large the node buffers are, and whether hashing ends normally, throws or is undefined, depends on the lengths of the lists in the object only: two objects that differ in the values of integers, booleans, bytes and bits cannot be told apart by the calls or by the number of instructions in the SHA-256 routines.", "quantifier": "all four implementations, all numbers of blocks, all calls that meet the calling convention, all types and objects (for the bound by the size of the encoding: well-formed hashable types with lists up to the size of C68), all hash functions", "why_tests_cant": "A measurement shows the time of one object on one machine; that no value of any object changes the sequence of calls is a statement about pairs of objects.", "anchors": ["ssz/hashtree.cpp:merkleize", "ssz/hashtree.cpp:HashTree::HashTree", "ssz/hasher.hpp:hash_64b_blocks", "ssz/hasher.cpp:sha256_sse", "ssz/ssz_container.cpp:hash_tree_", "common/containers.hpp:hash_tree", "common/bitlist.cpp:hash_tree"]}
{"id": "C71", "title": "What an object holds after YAML decoding returned false", "statement": "When decoding a YAML tree returns false, the contents of the object afterwards are determined by the tree and the contents before: an integer is unchanged if the node is not a scalar or its text begins with '-', becomes 0 if the text has no number, the greatest 64-bit integer if the number is too large, and the number at the beginning of the text if something other than white space follows it; booleans, byte vectors, bit fields, vectors and lists are unchanged; in a container the members before the first one that fails have their new values, that member holds what its own failed decoding leaves, and those after it are unchanged. There are such contents exactly for the trees for which decoding returns false (C69).", "quantifier": "all types without empty containers, in particular every class of the repository, all trees of any size, all previous contents of the object", "why_tests_cant": "The conformance tests decode well-formed files only, into fresh objects; what remains after a failure depends on the text, the position and the previous contents.", "anchors": ["ssz/ssz_container.cpp:decode_", "common/slot.hpp:decode", "common/boolean.hpp:decode", "common/bytes.hpp:decode", "common/bitvector.hpp:decode", "common/bitlist.cpp:decode", "common/containers.hpp:decode"]}
{"id": "C72", "title": "How many encodings of an object are accepted", "statement": "The number of byte strings (of the declared length, for fixed-size types) that deserialize accepts as a given object is 2 to the number of padding bits in its bit vectors: a beacon state, whose only bit vector has four bits, has exactly 16 accepted encodings, an object of any other class of the repository exactly one, and an object whose type contains no bit vector with a broken last byte exactly one.", "quantifier": "all well-formed types, all objects with encodings below 2^32 bytes, all previous contents of the object decoded into", "why_tests_cant": "Counting the strings accepted as one object needs all strings of its length.", "anchors": ["common/bitvector.hpp:deserialize", "ssz/ssz_container.cpp:deserialize_", "beacon-chain/beacon_state.hpp:justification_bits_"]}
{"id": "C73", "title": "The text of the assembly files is the code proved correct", "statement": "Assembling the text of ssz/sha256_avx_one_block.asm, sha256_avx.asm, sha256_avx2.asm (with the included transpose_avx2.asm and reg_sizes.asm) and sha256_shani.asm - reading the lines, running the preprocessor (definitions, macros, repetitions, conditionals, inclusions), resolving symbols and structures, laying out the data sections, decoding instructions and operands - gives at every label exactly the instructions, jumps and data of the model of the routines, and nothing that the assembler model does not know. Hence whatever code the files assemble to computes SHA-256.", "quantifier": "all lines of the six files, all labels; for the digests all memories, register contents and numbers of blocks", "why_tests_cant": "A test of the binary says nothing about which lines of the source it executed; a comparison by a script is not a proof that the verified instructions are those in the text.", "anchors": ["ssz/sha256_avx.asm:sha256_4_avx", "ssz/sha256_avx2.asm:sha256_8_avx2", "ssz/sha256_avx_one_block.asm:sha256_1_avx", "ssz/sha256_shani.asm:sha256_shani", "ssz/transpose_avx2.asm:TRANSPOSE8_U32", "ssz/reg_sizes.asm:XWORD"]}
{"id": "C74", "title": "The text of the headers declares the classes and constants proved about", "statement": "Reading the text of the C++ files that declare the container classes - tokens and comments, namespaces, class bodies, data members with their template arguments and initialisers, ssz_size, defaulted comparison, accessors, and the lists of members handed to serialize_, deserialize_, hash_tree_, encode_ and decode_ in the class or outside of it - gives exactly the 23 declarations of the model; reading common/slot.hpp and common/bytes.hpp gives the names of basic types of the model; reading the two configurations, config/constants.hpp and ssz/ssz.hpp gives the constants of the model. Resolved from the text alone, every class is, for each of its six operations and in both configurations, the type that the other properties are about.", "quantifier": "all lines of the seventeen files; all classes, operations and configurations", "why_tests_cant": "A wrong transcription of a member, a limit or a constant would make every theorem be about another class; a comparison by regular expressions is not a proof.", "anchors": ["beacon-chain/beacon_state.hpp:BeaconState", "beacon-chain/beacon_block.hpp:BeaconBlockBody", "common/containers.hpp:Fork", "beacon-chain/attestation.cpp:AttestationData::serialize", "config/mainnet.hpp.in:MAX_VALIDATORS_PER_COMMITTEE", "common/bytes.hpp:Root"]}
{"id": "C75", "title": "The text of the codec functions, run as C++, computes the modelled codec", "statement": "Reading the bodies of serialize and deserialize from the text of common/slot.hpp, boolean.hpp, bytes.hpp, bitvector.hpp, bitlist.cpp, containers.hpp and of serialize_, deserialize_ and compute_fixed_length from ssz/ssz_container.cpp, and running them statement by statement with the arithmetic of C++ (integer promotions, conversions modulo 2^32 and 2^64, signed overflow, shifts, iterators, pointers to parts, references, loops, early returns) gives for every class and every object the bytes of the modelled serialize, and for every class, every previous contents and every sequence of bytes the returned value and the contents afterwards of the modelled deserialize, with undefined behaviour exactly where the model says so. The size conditions hold for every class of the repository and every class within it. A call of serialize, deserialize or get_ssz_size on a part is the modelled function of the class of the part.", "quantifier": "all classes, all objects, all previous contents, all byte sequences shorter than 2^63", "why_tests_cant": "The theorems about the codec are about a model; a slip in the transcription of one comparison, conversion or loop bound would make all of them be about another program, and would only show for rare inputs.", "anchors": ["ssz/ssz_container.cpp:Container::deserialize_", "ssz/ssz_container.cpp:Container::serialize_", "ssz/ssz_container.cpp:compute_fixed_length", "common/bitlist.cpp:Bitlist::deserialize", "common/bitvector.hpp:Bitvector::deserialize", "common/containers.hpp:ListVariableSizedParts::deserialize", "common/slot.hpp:Slot::deserialize", "common/bytes.hpp:Bytes::deserialize"]}
{"id": "C76", "title": "The text of the integer functions, run as C++, computes square roots and logarithms", "statement": "Reading sqrt_helper, ct_sqrt, integer_squareroot and log2ceil from the text of helpers/math.hpp and running them with the arithmetic of C++: integer_squareroot on 64-bit and on 32-bit unsigned types ends for every argument and every value of the floating point estimate and returns the largest integer whose square is at most the argument; ct_sqrt does the same; log2ceil on 64-bit and 32-bit unsigned types returns the least exponent of a power of two that is not less than the argument. No intermediate result wraps around in a way that matters, and the recursion is at most 66 calls deep.", "quantifier": "all arguments, all floating point estimates", "why_tests_cant": "The wrap-around of r * r and the estimates that are off by one appear only near the ends of the 64-bit range, and floating point rounding differs between machines.", "anchors": ["helpers/math.hpp:integer_squareroot", "helpers/math.hpp:ct_sqrt", "helpers/math.hpp:sqrt_helper", "helpers/math.hpp:log2ceil"]}
{"id": "C77", "title": "The text of ssz/hashtree.cpp, run as C++, computes Merkle trees", "statement": "Reading hash_2_chunks, zero_hash_array_helper, pack_and_pad, merkleize, the two constructors of HashTree, mix_in and hash_tree_root from the texts of ssz/hashtree.cpp and ssz/hashtree.hpp (and log2ceil from that of helpers/math.hpp) and running them as C++ on any input, with arbitrary contents of memory that is not initialised: the table of zero hashes holds the 42 roots of trees of zeros; packing gives the specified chunks; the constructors never leave their buffers for up to 2 ^ 42 chunks within the limit, lay the tree out as specified, and the last chunk is the root of the specification; mix_in appends the specified hash of root and length. Limits above 2 ^ 42 make the text read past the table of zero hashes.", "quantifier": "all hash functions, chunks, byte strings, limits, lengths, and contents of uninitialised memory", "why_tests_cant": "Trees near the limits have 2 ^ 42 chunks; the iterator arithmetic of the layers can only be followed for all sizes by a proof, and reading uninitialised memory may go unnoticed in a test.", "anchors": ["ssz/hashtree.cpp:hash_2_chunks", "ssz/hashtree.cpp:zero_hash_array_helper", "ssz/hashtree.cpp:pack_and_pad", "ssz/hashtree.cpp:merkleize", "ssz/hashtree.cpp:HashTree::HashTree", "ssz/hashtree.cpp:HashTree::mix_in", "ssz/hashtree.hpp:hash_tree_root"]}
{"id": "C78", "title": "The text of hash_tree and hash_tree_root of every class, run as C++, computes the specified root", "statement": "Reading hash_tree of Slot, Bitlist, the vectors and the two kinds of lists, hash_tree_x with the overload that the concept BasicObject selects for the element type, Container::hash_tree, Container::hash_tree_ and Container::hash_tree_root from their texts and running them as C++ on any object: the tree that the text returns is the one of the model, exceptions and undefined behaviour included, and the object is not changed; for objects within their limits its last chunk, which the text of hash_tree_root returns, is the hash tree root of the specification.", "quantifier": "all classes, objects, hash functions, limits and contents of uninitialised memory", "why_tests_cant": "The limits are computed in 64 bits from arbitrary limits of lists, the bit loop overflows its int counter only from 2 ^ 31 bits on, and each template is instantiated with arbitrary element types.", "anchors": ["common/slot.hpp:hash_tree", "common/bitlist.cpp:Bitlist::hash_tree", "common/containers.hpp:hash_tree_x", "common/containers.hpp:ListVariableSizedParts::hash_tree", "ssz/ssz_container.cpp:Container::hash_tree", "ssz/ssz_container.cpp:Container::hash_tree_", "ssz/ssz_container.hpp:hash_tree_root"]}
{"id": "C79", "title": "The text of the predicates and of the choice of a SHA-256 implementation, run as C++, decides what the specification says", "statement": "Reading Validator::is_active, is_eligible_for_activation_queue and is_slashable, AttestationData::is_slashable, IndexedAttestation::is_valid, Hasher::implemented, Hasher::best_sha256_implementation and Hasher::sha256_sse from their texts and running them as C++: the predicates of a validator are those of the specification; two votes are called slashable exactly if the first surrounds the second (double votes are missed, as C35 says); an indexed attestation is valid exactly if its indices are nonempty and strictly increasing; the implementation chosen is the first in the order of preference whose extension the processor reports, and the behaviour is undefined on processors without leaf 7 of cpuid; sha256_sse stores the SHA-256 digest of each block of 64 bytes in its place, changes nothing else, and has undefined behaviour if the buffers are too short.", "quantifier": "all validators, epochs, votes, lists of indices, processors, buffers and numbers of blocks", "why_tests_cant": "Epochs are 64-bit numbers with off-by-one boundaries, a test machine is one processor, and the pointers of the loop are checked for every length.", "anchors": ["beacon-chain/validator.cpp:Validator::is_active", "beacon-chain/validator.cpp:Validator::is_eligible_for_activation_queue", "beacon-chain/validator.cpp:Validator::is_slashable", "beacon-chain/attestation.cpp:AttestationData::is_slashable", "beacon-chain/attestation.cpp:IndexedAttestation::is_valid", "ssz/hasher.cpp:Hasher::implemented", "ssz/hasher.cpp:Hasher::best_sha256_implementation", "ssz/hasher.cpp:Hasher::sha256_sse"]}
{"id": "C80", "title": "The text of the operators and constructors of Bytes and of the reading of hexadecimal digits, run as C++, does what the specification says", "statement": "Reading operator^=, both operator==, operator+, bytes_from_int, chars_to_byte and bytes_from_str of Bytes, the constructor and operator[] of Table, hextoint and strhex2int from their texts and running them as C++: ^= replaces every byte by the exclusive or of the two bytes at its place (and clears an array combined with itself), == holds exactly if all bytes agree, + concatenates whatever the uninitialised array holds, bytes_from_int stores the base 256 digits of the value from the least significant one on and has undefined behaviour if its type is too wide, the table holds the value of each digit, and bytes_from_str returns the bytes that 0x and at most 2N hexadecimal digits denote, raises an exception without the prefix or if there are more characters, and has undefined behaviour exactly if one of the characters has its high bit set.", "quantifier": "all N with 2N+2 < 2^64 (N < 2^31 for ^= and ==), all contents, all values of all integer types, all strings of less than 2 GiB", "why_tests_cant": "There are 2^8N arrays of each length, aliasing of the operands and uninitialised memory are invisible to a test that passes, and the overflow of int and the reads outside the table depend on the characters.", "anchors": ["common/bytes.hpp:Bytes::operator^=", "common/bytes.hpp:Bytes::operator==", "common/bytes.hpp:Bytes::operator+", "common/bytes.hpp:Bytes::bytes_from_int", "common/bytes.hpp:Bytes::bytes_from_str", "common/bytes.hpp:Bytes::chars_to_byte", "helpers/bytes_to_int.hpp:Table", "helpers/bytes_to_int.hpp:hextoint", "helpers/bytes_to_int.hpp:strhex2int"]}
{"id": "C81", "title": "The text of from_hexstring of Bitlist and Bitvector, run as C++, reads the bit field that the digits denote", "statement": "Reading Bitlist::from_hexstring and Bitvector<N>::from_hexstring, with hextoint, from their texts and running them as C++ on a string, whatever the object held before: the bit list becomes w exactly if the string is 0x and an even number of 7-bit characters denoting the SSZ encoding of w; the bit vector gets bit i mod 8 of byte i / 8 at place i and false where there are no more bytes (the 32-bit index starts again from 0 beyond 2^29 bytes); std::invalid_argument is raised exactly if the prefix is missing or the length odd; the behaviour is undefined exactly if, prefix and length being right, a character has its high bit set or, for a bit list, the last byte is zero or missing; nothing else can happen.", "quantifier": "all strings of less than 2 GiB, all N < 2^32, all previous contents, all limits", "why_tests_cant": "The strings are unbounded, the undefined behaviour depends on single characters and on the last byte, and the wrap of the index needs strings of more than 1 GiB.", "anchors": ["common/bitlist.cpp:Bitlist::from_hexstring", "common/bitvector.hpp:Bitvector::from_hexstring", "helpers/bytes_to_int.hpp:hextoint"]}
{"id": "C82", "title": "The text of to_string of Bitlist and Bitvector, run as C++, writes raw characters, which from_hexstring does not read back", "statement": "Reading Bitlist::to_string and Bitvector<N>::to_string from their texts and running them as C++: the result is 0x followed, for each byte of the SSZ encoding, by the character 0 and the character whose code is that byte (not its two hexadecimal digits); the object and the format of std::cout stay the same; for a bit list of 2^31 bits or more the behaviour is undefined. Consequently, running the text of from_hexstring on that result never gives a bit list back, and gives a bit vector back exactly if all its bits are false.", "quantifier": "all bit lists and limits, all N and bit vectors (N < 2^31 for reading back), all formats of std::cout, all previous contents of the object read into", "why_tests_cant": "The tests of the repository only decode bit fields from reference files and never write one; sizes and contents are unbounded, so no set of cases shows that none of them is read back.", "anchors": ["common/bitlist.cpp:Bitlist::to_string", "common/bitvector.hpp:Bitvector::to_string", "common/bitlist.cpp:Bitlist::from_hexstring", "common/bitvector.hpp:Bitvector::from_hexstring"]}
{"id": "C83", "title": "The text of the constructors of Hasher and of the enumeration IMPL, run as C++, chooses the implementation that was asked for", "statement": "Reading Hasher::Hasher(IMPL), with its switch statement, Hasher::Hasher(), the enumerators of IMPL and its operators |, & and ! from the texts of ssz/hasher.cpp and ssz/hasher.hpp and running them as C++: the first constructor sets the member to the implementation for the SHA extensions, AVX2, AVX or SSE for the values 8, 4, 2 and 1, whatever the processor reports, and for every other int, like the second constructor, to the best implementation for the processor; without cpuid leaf 7 the behaviour is undefined in the latter cases. The operators compute union, intersection and emptiness of the set of extensions for all values. The enumerators are zero and four different powers of two, and a name is an enumerator for the interpreter exactly if the text says so.", "quantifier": "all processors, all values of an int as IMPL, all previous values of the member, all names", "why_tests_cant": "A test runs on one processor; the choice depends on the registers of cpuid, and values that are no enumerators are never passed.", "anchors": ["ssz/hasher.cpp:Hasher::Hasher(IMPL)", "ssz/hasher.hpp:Hasher::Hasher()", "ssz/hasher.hpp:IMPL"]}
{"id": "C84", "title": "The constants, template parameters and sizes that the runs of the texts use are those that the texts declare", "statement": "Reading the declarations of the constants of ssz/ssz.hpp, of zero_hash, ZERO_HASH_DEPTH, zero_hash_array and HashTree::hasher in ssz/hashtree.cpp, of CPUID_LEAF in ssz/hasher.cpp, of the static members of Hasher in ssz/hasher.hpp, of FAR_FUTURE_EPOCH and MAX_EFFECTIVE_BALANCE in config/constants.hpp and of the template parameters of Bytes, Bitvector, VectorFixedSizedParts and zero_hash_array_helper from the texts, and running them as C++, gives exactly the values and types that the functions are run with in C75 to C83. The texts of ssz_size and get_ssz_size of Slot, Boolean, Bytes, Bitvector and VectorFixedSizedParts compute the sizes of the model for all template arguments: for Bitvector if N + 8 is at most 2^32, beyond which the size is 0, and for a vector modulo 2^64.", "quantifier": "all hash functions, trees, processors, objects and template arguments", "why_tests_cant": "A constant or alias that is declared differently makes every run differ at once, or only on processors and for sizes that no test uses; the type of a constant decides where arithmetic wraps.", "anchors": ["ssz/ssz.hpp:27-33", "ssz/hashtree.cpp:42-55", "ssz/hasher.cpp:30", "ssz/hasher.hpp:70-72", "common/bitvector.hpp:41", "common/containers.hpp:62"]}
{"id": "C85", "title": "The texts of the conversions of Slot and Boolean, of size and of the inherited get_ssz_size, run as C++, give the value, the encoding, the number of elements and zero", "statement": "Reading the const conversion operators of Slot and Boolean, size of Bytes, VectorFixedSizedParts, ListFixedSizedParts and ListVariableSizedParts, and the get_ssz_size that the lists inherit from ssz::Container from the texts and running them as C++: the conversions to uint64_t and bool give the value and those to Bytes8 and Bytes1 the SSZ encoding; size gives the number of elements (modulo 2^64); the lists do not declare get_ssz_size, and the one of ssz::Container returns 0, the mark of objects of variable size.", "quantifier": "all numbers, booleans, byte strings, vectors and lists of any element type", "why_tests_cant": "These functions are used implicitly everywhere; tests meet a few values, and an override that is missing or added changes the layout of every container with a list.", "anchors": ["common/slot.hpp:44-46", "common/boolean.hpp:38-40", "common/containers.hpp:65,126,169", "common/bytes.hpp:141", "ssz/ssz_container.hpp:53"]}
{"id": "C86", "title": "The texts of the constructors with a default argument and of limit, run as C++, set exactly the member they are for", "statement": "Reading the constructors Slot(uint64_t = 0), Boolean(bool = false), ListFixedSizedParts(size_t = 0) and ListVariableSizedParts(size_t = 0), with their member initialisers and default arguments, and ListFixedSizedParts::limit from the texts and running them as C++: the number, the truth value or the limit becomes the argument, whatever was in memory before, and the elements of a list stay as they are; without an argument a Slot and a Boolean are the default objects that decoding starts from, and the limit of a list is 0.", "quantifier": "all arguments, all previous contents of the memory, all element types and lists", "why_tests_cant": "What was in memory before is not under the control of a test, and a test uses a few limits.", "anchors": ["common/slot.hpp:37", "common/boolean.hpp:37", "common/containers.hpp:125,134,167"]}
{"id": "C87", "title": "The text of common/bitlist.hpp, run as C++: the constructor and limit set the limit only, size counts the bits, get_ssz_size is the inherited zero", "statement": "Reading the constructor Bitlist(size_t = 0), limit and size from the text of common/bitlist.hpp and running them as C++: the constructor and limit make the argument (by default 0) the limit, whatever was in memory before, and leave the bits alone; size is the number of bits modulo 2^64; the class does not declare get_ssz_size, and the one it inherits from ssz::Container returns 0.", "quantifier": "all bit lists, limits and previous contents of the memory", "why_tests_cant": "What was in memory before is not under the control of a test, and a test uses a few limits and lists.", "anchors": ["common/bitlist.hpp:44-48", "ssz/ssz_container.hpp:53"]}
{"id": "C88", "title": "The text of ssz/hashtree.hpp: leaving out the limit means the declared default, and hash_tree returns all nodes unchanged", "statement": "The text of ssz/hashtree.hpp declares exactly two constructors of HashTree, each with a default for the limit; evaluating the default as C++ and calling the constructor with it is what the runs of the other texts do when the limit is left out. Running the text of HashTree::hash_tree returns exactly the nodes of the object and changes nothing.", "quantifier": "all hash functions, all chunks, bytes and trees", "why_tests_cant": "The default is used for every container, so that a wrong one would change all roots, but only for trees whose limit matters; no test varies it.", "anchors": ["ssz/hashtree.hpp:42-46"]}
{"id": "C89", "title": "The text of operator== where it is defaulted or inherited: basic and bit classes compare their contents, vectors and lists compare nothing", "statement": "Reading the text as C++, == of two Slot, Boolean or Bitvector is equality of the contents; == of two Bitlist is equality of the bits and of the limits; VectorFixedSizedParts, ListFixedSizedParts and ListVariableSizedParts declare no ==, so that the one of ssz::Container is used, whose body, run as C++, returns true for any two objects.", "quantifier": "all objects, element types, lengths and limits", "why_tests_cant": "Tests compare round trips with ==; an == that is always true makes them pass for any contents, so only the text tells what == compares.", "anchors": ["ssz/ssz_container.hpp:61", "common/slot.hpp:62", "common/boolean.hpp:50", "common/bitvector.hpp:91", "common/bitlist.hpp:52", "common/containers.hpp:40-233"]}
{"id": "C90", "title": "The text of the conversion of Bytes to a vector, of to_array and of the conversions to a reference, run as C++", "statement": "Running the text of Bytes<N>::operator std::vector<uint8_t> and of to_array gives the encoding of the object, for every N. Assigning a value to what the text of Slot::operator uint64_t& or Boolean::operator bool& returns turns the object into the one with that value, whatever it held before.", "quantifier": "all N, all byte arrays, all 64-bit values and booleans, before and after", "why_tests_cant": "The conversions to references are how YAML values and test data are written into objects; a reference to a copy or a loss of high bits shows only for some values, and the conversion is written once for all N.", "anchors": ["common/bytes.hpp:89-96", "common/slot.hpp:45", "common/boolean.hpp:39"]}
{"id": "C91", "title": "The text of the iterators of Bytes, the vector and the lists, and of data, run as C++", "statement": "Running the text of begin, cbegin, end and cend of Bytes<N>, VectorFixedSizedParts, ListFixedSizedParts and ListVariableSizedParts gives the positions 0, 0, length and length of the very place that holds the contents of the object. data of Bytes points to the first byte; assigning to what data of ListFixedSizedParts returns replaces all elements and nothing else.", "quantifier": "all element types, all lengths, all contents, before and after", "why_tests_cant": "The functions are templates, one text for all element types and lengths; a test sees the ranges of a few instances.", "anchors": ["common/bytes.hpp:94", "common/bytes.hpp:144-150", "common/containers.hpp:67-73", "common/containers.hpp:128-132", "common/containers.hpp:170-173"]}
{"id": "C92", "title": "The text of Hasher::hash_64b_blocks calls the chosen routine once, with its own arguments", "statement": "Running the text of Hasher::hash_64b_blocks with any output and input pointers and any number of blocks calls the routine that the object holds exactly once, with the same output, the same input and the same number of blocks, in this order.", "quantifier": "all pointers, offsets and 64-bit numbers of blocks", "why_tests_cant": "Tests call it with a few buffers and at most eight blocks; a truncated number of blocks would show only for huge trees.", "anchors": ["ssz/hasher.hpp:57-59", "ssz/hasher.hpp:66-67"]}
