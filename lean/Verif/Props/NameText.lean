import Verif.Model.CppNames
import Verif.Props.SwitchText
import Verif.Props.TreeText
import Verif.Props.Declared
/-!
# C84: the values of the constants that the runs of C75 to C83 use are those of the texts
-/

namespace Mammon.Cpp
open Nasm

/-- **C84** The constants of ssz/ssz.hpp: running their declarations gives the values, with the types, that the functions are run with. -/
theorem C84_constants (E : Env) (H : Chunk → Chunk → Chunk) (tree : List Chunk) (inp out : List Byte) : ∀ n ∈ sszNames, ∃ v,
    initialised E none [] n (sszVariable n) = .ok v ∧ valueOf n (treeGlobals H tree) = some v ∧ valueOf n zeroGlobals = some v ∧
    (∀ w, valueOf n consts = some w → w = v) ∧ (∀ w, valueOf n (sseGlobals inp out) = some w → w = v) := by
  have e : ∀ n, sszVariable n = variableIn sszD n := fun n => by rw [sszVariable, ssz_read]; rfl
  have h1 : (fun E => initialised E none [] (name% "BYTES_PER_LENGTH_OFFSET") (variableIn sszD (name% "BYTES_PER_LENGTH_OFFSET"))) =
      fun _ => .ok (.int .u32 4) := by kernel_refl
  have h2 : (fun E => initialised E none [] (name% "BYTES_PER_CHUNK") (variableIn sszD (name% "BYTES_PER_CHUNK"))) = fun _ => .ok (.int .u32 32) := by kernel_refl
  have h3 : (fun E => initialised E none [] (name% "BITS_PER_BYTE") (variableIn sszD (name% "BITS_PER_BYTE"))) = fun _ => .ok (.int .u32 8) := by kernel_refl
  intro n hn
  rw [e]
  simp only [sszNames, List.mem_cons, List.not_mem_nil, or_false] at hn
  rcases hn with rfl | rfl | rfl
  · exact ⟨_, congrFun h1 E, rfl, rfl, fun w h => (Option.some.inj h).symm, fun w h => (nomatch (show none = some w from h))⟩
  · exact ⟨_, congrFun h2 E, rfl, rfl, fun w h => (nomatch (show none = some w from h)), fun w h => (Option.some.inj h).symm⟩
  · exact ⟨_, congrFun h3 E, rfl, rfl, fun w h => (Option.some.inj h).symm, fun w h => (nomatch (show none = some w from h))⟩

example : valueOf (name% "BYTES_PER_CHUNK") (treeGlobals (fun a _ => a) []) = some (.int .u32 32) := rfl

/-- **C84** `zero_hash` of ssz/hashtree.cpp, with the type that ssz/ssz.hpp gives the name `Chunk` to, is 32 zero bytes; `HashTree::hasher` is a hasher. -/
theorem C84_tree_variables (E : Env) (H : Chunk → Chunk → Chunk) (tree : List Chunk) :
    (∃ ts v, chunkAlias = some ts ∧
      initialised E none (treeGlobals H tree) (name% "zero_hash") ((treeVariable (name% "zero_hash")).map (unalias (name% "Chunk") ts)) = .ok v ∧
      v = .bytes (List.replicate 32 0#8) ∧ valueOf (name% "zero_hash") (treeGlobals H tree) = some v ∧ valueOf (name% "zero_hash") zeroGlobals = some v) ∧
    ∃ v, initialised E none [] (name% "hasher") ((treeVariable (name% "hasher")).map fun ts => elided (unqualified (name% "HashTree") ts)) = .ok v ∧
      valueOf (name% "hasher") (treeGlobals H tree) = some v := by
  have e : ∀ n, treeVariable n = variableIn hashtreeCppD n := fun n => by rw [treeVariable, hashtreeCpp_read]; rfl
  have a : chunkAlias = aliasIn sszD (name% "Chunk") := by rw [chunkAlias, ssz_read]; rfl
  have h1 : (fun E H tree => initialised E none (treeGlobals H tree) (name% "zero_hash")
      ((variableIn hashtreeCppD (name% "zero_hash")).map (unalias (name% "Chunk") ((aliasIn sszD (name% "Chunk")).getD [])))) =
      fun _ _ _ => .ok (.bytes (List.replicate 32 0#8)) := by kernel_refl
  have h2 : (fun E => initialised E none [] (name% "hasher") ((variableIn hashtreeCppD (name% "hasher")).map fun ts => elided (unqualified (name% "HashTree") ts))) =
      fun _ => .ok .hasher := by kernel_refl
  have h3 : (aliasIn sszD (name% "Chunk")).isSome = true := by kernel_refl
  rw [a, e, e]
  obtain ⟨ts, ht⟩ := Option.isSome_iff_exists.mp h3
  rw [ht] at h1 ⊢
  exact ⟨⟨ts, _, rfl, congrFun (congrFun (congrFun h1 E) H) tree, rfl, rfl, rfl⟩, _, congrFun h2 E, rfl⟩

/-- The array of zeros that a chunk is, from a declaration written out. -/
example : initialised ⟨0, fun a _ => a, fun _ => 7#8⟩ none [(name% "BYTES_PER_CHUNK", .int .u32 2)] (name% "z")
    (some [.id (name% "std"), .sym (name% "::"), .id (name% "array"), .sym (name% "<"), .id (name% "std"), .sym (name% "::"), .id (name% "uint8_t"), .sym (name% ","),
      .id (name% "constants"), .sym (name% "::"), .id (name% "BYTES_PER_CHUNK"), .sym (name% ">"), .id (name% "z"), .sym (name% "{"), .sym (name% "}")]) =
    .ok (.bytes [0#8, 0#8]) := by kernel_refl

/-- **C84** `zero_hash_array` is what `zero_hash_array_helper` computes when its template parameter is `ZERO_HASH_DEPTH`: the initialiser in the text is that call,
the declaration of `ZERO_HASH_DEPTH`, converted to the type of the template parameter, gives the value of `N` that the function is run with, and the result is the
array that the functions of ssz/hashtree.cpp are run with. -/
theorem C84_zero_hash_array (E : Env) (tree : List Chunk) : ∃ f k x t n v,
    templateCall (treeVariable (name% "zero_hash_array")) = some (n, k) ∧ treeFunction 0 n = some f ∧
    initialised E none [] k (treeVariable k) = .ok (.int .i32 x) ∧ treeParameter n = some t ∧
    valueOf (name% "N") zeroGlobals = some (.int t (t.conv x)) ∧
    (∀ fuel depth, 42 ≤ fuel → 1 ≤ depth → run treeText none none E fuel depth f [] zeroGlobals [] = .ok (v, zeroGlobals, [])) ∧
    valueOf (name% "zero_hash_array") (treeGlobals E.hash tree) = some v := by
  have e : ∀ n, treeVariable n = variableIn hashtreeCppD n := fun n => by rw [treeVariable, hashtreeCpp_read]; rfl
  have p : treeParameter (name% "zero_hash_array_helper") = parameterType ((functionHead (name% "zero_hash_array_helper") hashtreeCppD).bind fun h =>
      lastParameter (name% "N") h) := by rw [treeParameter, hashtreeCpp_read]; rfl
  have h1 : templateCall (variableIn hashtreeCppD (name% "zero_hash_array")) = some (name% "zero_hash_array_helper", name% "ZERO_HASH_DEPTH") := by kernel_refl
  have h2 : (fun E => initialised E none [] (name% "ZERO_HASH_DEPTH") (variableIn hashtreeCppD (name% "ZERO_HASH_DEPTH"))) = fun _ => .ok (.int .i32 42) := by
    kernel_refl
  have h3 : parameterType ((functionHead (name% "zero_hash_array_helper") hashtreeCppD).bind fun h => lastParameter (name% "N") h) = some .u64 := by kernel_refl
  refine ⟨_, name% "ZERO_HASH_DEPTH", 42, .u64, name% "zero_hash_array_helper", .chunks (zeroHashArray E.hash), (by rw [e]; exact h1), zeroHashesF_read,
    (by rw [e]; exact congrFun h2 E), p.trans h3, rfl, fun fuel depth hf hd => ?_, rfl⟩
  obtain ⟨d, rfl⟩ := Nat.exists_eq_add_of_le' hd
  rw [run_eq, zero_hashes treeText none E fuel d hashCalled (d + 1) rfl hf]
  rfl

/-- The bounds hold for a run. -/
example : 42 ≤ 50 ∧ 1 ≤ 3 ∧ valueOf (name% "N") zeroGlobals = some (.int .u64 42) := ⟨by omega, by omega, rfl⟩

/-- **C84** The constant of ssz/hasher.cpp and the static members of `Hasher` that stand for functions in assembly: running their declarations gives the values
that the functions of `Hasher` are run with. -/
theorem C84_hasher (E : Env) (cpu : Cpu) (m : Val) :
    (∃ v, initialised E none [] (name% "CPUID_LEAF") (hasherVariable (name% "CPUID_LEAF")) = .ok v ∧ valueOf (name% "CPUID_LEAF") (hasherGlobals cpu m) = some v) ∧
    ∀ n ∈ [name% "sha256_4_avx", name% "sha256_8_avx2", name% "sha256_shani"], ∃ v,
      initialised E none externs n (hasherStatic n) = .ok v ∧ valueOf n (hasherGlobals cpu m) = some v := by
  have e : ∀ n, hasherVariable n = variableIn hasherCppD n := fun n => by rw [hasherVariable, hasherCpp_read]; rfl
  have s : ∀ n, hasherStatic n = staticIn hasherHppD (name% "Hasher") n := fun n => by rw [hasherStatic, hasherHpp_read]; rfl
  have h1 : (fun E => initialised E none [] (name% "CPUID_LEAF") (variableIn hasherCppD (name% "CPUID_LEAF"))) = fun _ => .ok (.int .i32 7) := by kernel_refl
  have h2 : (fun E => initialised E none externs (name% "sha256_4_avx") (staticIn hasherHppD (name% "Hasher") (name% "sha256_4_avx"))) =
      fun _ => .ok (.routine .avx) := by kernel_refl
  have h3 : (fun E => initialised E none externs (name% "sha256_8_avx2") (staticIn hasherHppD (name% "Hasher") (name% "sha256_8_avx2"))) =
      fun _ => .ok (.routine .avx2) := by kernel_refl
  have h4 : (fun E => initialised E none externs (name% "sha256_shani") (staticIn hasherHppD (name% "Hasher") (name% "sha256_shani"))) =
      fun _ => .ok (.routine .shani) := by kernel_refl
  rw [e]
  refine ⟨⟨_, congrFun h1 E, rfl⟩, fun n hn => ?_⟩
  rw [s]
  simp only [List.mem_cons, List.not_mem_nil, or_false] at hn
  rcases hn with rfl | rfl | rfl
  · exact ⟨_, congrFun h2 E, rfl⟩
  · exact ⟨_, congrFun h3 E, rfl⟩
  · exact ⟨_, congrFun h4 E, rfl⟩

/-- An alias that names another function is seen. -/
example : initialised ⟨0, fun a _ => a, fun _ => 7#8⟩ none externs (name% "sha256_4_avx")
    (some [.id (name% "static"), .id (name% "constexpr"), .id (name% "auto"), .id (name% "sha256_4_avx"), .sym (name% "="), .sym (name% "::"),
      .id (name% "sha256_shani")]) = .ok (.routine .shani) := by kernel_refl

/-- **C84** The template parameter `N` of `Bytes`, `Bitvector` and `VectorFixedSizedParts` has the type that the functions are run with. -/
theorem C84_parameters :
    (∃ t, parameterOf Text.bytes (name% "Bytes") = some t ∧ ∀ n (v : (Ty.bytes n).denote), valueOf (name% "N") (fields (.bytes n) v) = some (.int t n)) ∧
    (∃ t, parameterOf Text.bitvector (name% "Bitvector") = some t ∧
      ∀ n (v : (Ty.bitvector n).denote), valueOf (name% "N") (fields (.bitvector n) v) = some (.int t n)) ∧
    ∃ t, parameterOf Text.containers (name% "VectorFixedSizedParts") = some t ∧
      ∀ e n (v : (Ty.vector e n).denote), valueOf (name% "N") (fields (.vector e n) v) = some (.int t n) := by
  have h1 : parameterType ((classHead (name% "Bytes") bytesD).bind fun h => lastParameter (name% "N") h) = some .u64 := by kernel_refl
  have h2 : parameterType ((classHead (name% "Bitvector") bitvectorD).bind fun h => lastParameter (name% "N") h) = some .u32 := by kernel_refl
  have h3 : parameterType ((classHead (name% "VectorFixedSizedParts") containersD).bind fun h => lastParameter (name% "N") h) = some .u64 := by kernel_refl
  refine ⟨⟨.u64, ?_, fun _ _ => rfl⟩, ⟨.u32, ?_, fun _ _ => rfl⟩, .u64, ?_, fun _ _ _ => rfl⟩
  · rw [parameterOf, bytes_read]; exact h1
  · rw [parameterOf, bitvector_read]; exact h2
  · rw [parameterOf, containers_read]; exact h3

/-- The type of the parameter of `template <unsigned N> class Bitvector`. -/
example : parameterType (lastParameter (name% "N") [.id (name% "template"), .sym (name% "<"), .id (name% "unsigned"), .id (name% "N"), .sym (name% ">"),
    .id (name% "class"), .id (name% "Bitvector")]) = some .u32 := by kernel_refl

/-- **C84** The constants of config/constants.hpp that the predicates on validators use: the text declares them with the values that the functions are run with. -/
theorem C84_config (v : Objects.validator.denote) : ∃ ds, declared Text.constants = some ds ∧ ∀ n ∈ ["FAR_FUTURE_EPOCH", "MAX_EFFECTIVE_BALANCE"],
    ∃ x : BitVec 64, Config.lookup ds n = some (.ok (.int x.toNat)) ∧ valueOf (numberOf n) (structGlobals Objects.validator v) = some (.obj ⟨.uint64, x⟩) := by
  refine ⟨_, C74_constants.2.2.1, fun n hn => ?_⟩
  rw [validator_globals]
  simp only [List.mem_cons, List.not_mem_nil, or_false] at hn
  rcases hn with rfl | rfl
  · exact ⟨FAR_FUTURE_EPOCH, by decide +kernel, rfl⟩
  · exact ⟨MAX_EFFECTIVE_BALANCE, by decide +kernel, rfl⟩

/-- The second constant is 32 ETH. -/
example : MAX_EFFECTIVE_BALANCE.toNat = 32 * 10 ^ 9 := by decide

private theorem product (m a b : Nat) : ((a : Int) % m * ((b : Int) % m)) % m % m % m = ((a * b % m : Nat) : Int) := by
  push_cast
  rw [Int.emod_emod_of_dvd _ (Int.dvd_refl _), Int.emod_emod_of_dvd _ (Int.dvd_refl _), ← Int.mul_emod]

/-- **C84** What the texts of `get_ssz_size` and `ssz_size` of the classes that are not structs say: 8 for `Slot`, 1 for `Boolean`, `N` for `Bytes<N>`, and for a
vector `N` times the size of the elements modulo `2 ^ 64`, which is the size of the model if the product is a number of 64 bits. -/
theorem C84_sizes (E : Env) :
    sizeFrom E none [] (name% "Slot") Text.slot = .ok (.int .u64 Ty.uint64.sszSize) ∧
    sizeFrom E none [] (name% "Boolean") Text.boolean = .ok (.int .u64 Ty.boolean.sszSize) ∧
    (∀ n : Nat, n < 2 ^ 64 → sizeFrom E none [(name% "N", .int .u64 n)] (name% "Bytes") Text.bytes = .ok (.int .u64 (Ty.bytes n).sszSize)) ∧
    ∀ (t : Ty) (n : Nat), sizeFrom E (some t) [(name% "N", .int .u64 n)] (name% "VectorFixedSizedParts") Text.containers =
      .ok (.int .u64 ((Ty.vector t n).sszSize % 18446744073709551616 : Nat)) := by
  have h1 : (fun E => sizeIn E none [] (name% "Slot") slotD) = fun _ => .ok (.int .u64 8) := by kernel_refl
  have h2 : (fun E => sizeIn E none [] (name% "Boolean") booleanD) = fun _ => .ok (.int .u64 1) := by kernel_refl
  have h3 : (fun E n => sizeIn E none [(name% "N", .int .u64 n)] (name% "Bytes") bytesD) = fun _ n => .ok (.int .u64 (n % 18446744073709551616)) := by kernel_refl
  have h4 : (fun E t n => sizeIn E (some t) [(name% "N", .int .u64 n)] (name% "VectorFixedSizedParts") containersD) =
      fun _ t n => .ok (.int .u64 ((n % 18446744073709551616 * ((t.sszSize : Int) % 18446744073709551616)) % 18446744073709551616 % 18446744073709551616 %
        18446744073709551616)) := by kernel_refl
  refine ⟨?_, ?_, fun n hn => ?_, fun t n => ?_⟩
  · rw [sizeFrom, slot_read]; exact congrFun h1 E
  · rw [sizeFrom, boolean_read]; exact congrFun h2 E
  · rw [sizeFrom, bytes_read]
    refine (congrFun (congrFun h3 E) (n : Int)).trans ?_
    rw [Int.emod_eq_of_lt (by omega) (by omega)]
    rfl
  · rw [sizeFrom, containers_read]
    refine (congrFun (congrFun (congrFun h4 E) t) (n : Int)).trans ?_
    rw [show (Ty.vector t n).sszSize = n * t.sszSize from rfl, ← product]
    rfl

/-- The size of a vector of 64 roots. -/
example : (Ty.vector (.bytes 32) 64).sszSize % 18446744073709551616 = 2048 := rfl

/-- What `ssz_size` of a bit vector computes. -/
theorem bitvector_size (E : Env) (n : Int) : sizeFrom E none ([(name% "N", .int .u32 n)] ++ consts) (name% "Bitvector") Text.bitvector =
    .ok (.int .u64 ((((((n % 4294967296 + 8) % 4294967296) % 4294967296 - 1) % 4294967296) % 4294967296).tdiv 8 % 4294967296 %
      18446744073709551616 % 18446744073709551616)) := by
  have h : (fun E n => sizeIn E none ([(name% "N", .int .u32 n)] ++ consts) (name% "Bitvector") bitvectorD) =
      fun _ n => .ok (.int .u64 ((((((n % 4294967296 + 8) % 4294967296) % 4294967296 - 1) % 4294967296) % 4294967296).tdiv 8 % 4294967296 %
        18446744073709551616 % 18446744073709551616)) := by
    kernel_refl
  have h' := congrFun (congrFun h E) n
  beta_reduce at h'
  rw [← h', sizeFrom, bitvector_read, orStuck, bind_ok]

/-- **C84** `ssz_size` of `Bitvector<N>` is computed with `unsigned int`: it is the number of bytes that hold `N` bits if `N + 8` is at most `2 ^ 32`. -/
theorem C84_bitvector_size (E : Env) (n : Nat) (hn : n + 8 ≤ 2 ^ 32) :
    sizeFrom E none ([(name% "N", .int .u32 n)] ++ consts) (name% "Bitvector") Text.bitvector = .ok (.int .u64 (Ty.bitvector n).sszSize) := by
  rw [bitvector_size]
  have e : (((((n : Int) % 4294967296 + 8) % 4294967296) % 4294967296 - 1) % 4294967296) % 4294967296 = if n + 8 = 4294967296 then 4294967295 else n + 7 := by
    split <;> omega
  have : (Ty.bitvector n).sszSize = (n + 7) / 8 := rfl
  rw [e, this, Int.tdiv_eq_ediv_of_nonneg (by split <;> omega)]
  congr 2
  split <;> omega

/-- A field of 64 bits. -/
example : 64 + 8 ≤ 2 ^ 32 ∧ (Ty.bitvector 64).sszSize = 8 := ⟨by omega, rfl⟩

/-- **C84** Beyond that the addition wraps, and the size is 0. -/
theorem C84_bitvector_size_wraps (E : Env) (n : Nat) (hn : 2 ^ 32 < n + 8) (h32 : n < 2 ^ 32) :
    sizeFrom E none ([(name% "N", .int .u32 n)] ++ consts) (name% "Bitvector") Text.bitvector = .ok (.int .u64 0) := by
  rw [bitvector_size]
  have e : (((((n : Int) % 4294967296 + 8) % 4294967296) % 4294967296 - 1) % 4294967296) % 4294967296 = n + 7 - 4294967296 := by omega
  rw [e, Int.tdiv_eq_ediv_of_nonneg (by omega)]
  congr 2
  omega

/-- A number of bits for which the addition wraps. -/
example : 2 ^ 32 < 4294967290 + 8 ∧ 4294967290 < 2 ^ 32 := ⟨by omega, by omega⟩

end Mammon.Cpp
