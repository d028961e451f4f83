import Verif.Proofs.CppTreeOf
import Verif.Props.Merkle
/-!
# C77: the text of ssz/hashtree.cpp, run as C++, computes Merkle trees
-/

namespace Mammon.Cpp
open Nasm

/-- The text of one of the functions of ssz/hashtree.cpp, of the class `cls` (0: none). -/
def treeFunction (cls n : Nat) : Option Func := (read (codes Text.hashtreeCpp)).bind fun l => freeFunction l cls n

/-- The text of the two constructors of `HashTree`, of chunks and of bytes, in ssz/hashtree.cpp. -/
def treeConstructors : List Func := ((read (codes Text.hashtreeCpp)).bind fun l => constructors l (name% "HashTree")).getD []

/-- The functions that these functions call, from the texts of ssz/hashtree.cpp, ssz/hashtree.hpp and helpers/math.hpp. The only constructor that is called is
that of chunks, which the constructor of bytes delegates to; it is the first in the text. -/
def treeText : List Func :=
  (treeFunction 0 (name% "hash_2_chunks")).toList ++ (treeFunction 0 (name% "pack_and_pad")).toList ++ (treeFunction 0 (name% "merkleize")).toList ++
    ((read (codes Text.hashtreeHpp)).bind fun l => memberFunction l (name% "HashTree") (name% "hash_tree_root")).toList ++
    ((read (codes Text.math)).bind fun l => freeFunction l 0 (name% "log2ceil")).toList ++ treeConstructors.take 1

theorem treeConstructors_eq : treeConstructors = [treeOfChunksF, treeOfBytesF] := by
  rw [treeConstructors, treeF_read]
  rfl

theorem treeText_eq : treeText = [hash2F, packAndPadF, merkleizeF, hashTreeRootF, log2ceilF, treeOfChunksF] := by
  rw [treeText, treeFunction, treeFunction, treeFunction, hash2F_read, packAndPadF_read, merkleizeF_read, hashTreeRootF_read, log2ceilF_read, treeConstructors_eq]
  rfl

theorem hashCalled : find (name% "hash_2_chunks") treeText = some hash2F := by rw [treeText_eq]; kernel_refl
theorem packCalled : find (name% "pack_and_pad") treeText = some packAndPadF := by rw [treeText_eq]; kernel_refl
theorem merkleizeCalled : find (name% "merkleize") treeText = some merkleizeF := by rw [treeText_eq]; kernel_refl
theorem rootCalled : find (name% "hash_tree_root") treeText = some hashTreeRootF := by rw [treeText_eq]; kernel_refl
theorem logCalled : find (name% "log2ceil") treeText = some log2ceilF := by rw [treeText_eq]; kernel_refl
theorem treeCalled : find (name% "HashTree") treeText = some treeOfChunksF := by rw [treeText_eq]; kernel_refl

/-- Whether a list of tokens occurs in another one without gaps. -/
def occurs (p l : List Tok) : Bool := l.tails.any fun t => t.take p.length == p

/-- The constants that the runs below start from: `zero_hash` is a zero chunk, the table of zero hashes is what `zero_hash_array_helper` returns for 42 entries. -/
def constantLines : List String :=
  ["const auto ZERO_HASH_DEPTH{42};", "constexpr Chunk zero_hash{};", "const auto zero_hash_array = zero_hash_array_helper<ZERO_HASH_DEPTH>();"]

def constantLinesP : List Nat := packed% constantLines
theorem constantLines_packed : constantLines = ofPacked constantLinesP := by kernel_refl

/-- **C77** These declarations occur in the text. -/
theorem C77_constants : ∀ l ∈ codes constantLines, occurs (tokens [l]) (tokens (codes Text.hashtreeCpp)) = true := by
  rw [constantLines_packed, codes_ofPacked, hashtreeCpp_packed, codes_ofPacked, hashtreeCpp_lexed]
  decide +kernel

/-- **C77** The text of `hash_2_chunks` hashes the first chunk followed by the second, whatever the memory that it does not initialise contains. -/
theorem C77_hash_2_chunks (E : Env) (a b : Chunk) (tree : List Chunk) : ∃ f, treeFunction 0 (name% "hash_2_chunks") = some f ∧ ∀ fuel depth,
    run treeText none none E fuel depth f [.bytes a.1, .bytes b.1, .hasher] (treeGlobals E.hash tree) [] =
      .ok (.bytes (E.hash a b).1, treeGlobals E.hash tree, []) := by
  refine ⟨_, hash2F_read, fun fuel depth => ?_⟩
  rw [run_eq, hash_2 treeText none E fuel depth a b [] [] (treeGlobals E.hash tree) 3 rfl rfl]
  rfl

/-- **C77** The text of `zero_hash_array_helper` computes the roots of the trees of zeros of the depths 0 to 41. -/
theorem C77_zero_hashes (E : Env) : ∃ f l, treeFunction 0 (name% "zero_hash_array_helper") = some f ∧
    (∀ fuel depth, 42 ≤ fuel → 1 ≤ depth → run treeText none none E fuel depth f [] zeroGlobals [] = .ok (.chunks l, zeroGlobals, [])) ∧
    l = (List.range 42).map fun k => Spec.perfect E.hash k fun _ => Spec.zeroChunk := by
  refine ⟨_, zeroHashArray E.hash, zeroHashesF_read, fun fuel depth hf hd => ?_, ?_⟩
  · obtain ⟨d, rfl⟩ := Nat.exists_eq_add_of_le' hd
    rw [run_eq, zero_hashes treeText none E fuel d hashCalled (d + 1) rfl hf]
    rfl
  · refine List.ext_getElem? fun k => ?_
    by_cases h : k < 42
    · rw [C21_zero_hashes E.hash k h, List.getElem?_map, List.getElem?_range h]
      rfl
    · rw [List.getElem?_eq_none (by rw [C21_size]; omega), List.getElem?_eq_none (by simp; omega)]

/-- **C77** The text of `pack_and_pad` packs bytes in chunks: those of the specification, but one zero chunk for no bytes. -/
theorem C77_pack_and_pad (E : Env) (bs : List Byte) (tree : List Chunk) : ∃ f, treeFunction 0 (name% "pack_and_pad") = some f ∧
    ∀ fuel depth, bs.length < fuel → run treeText none none E fuel depth f [.bytes bs] (treeGlobals E.hash tree) [] =
      .ok (.chunks (if bs = [] then [Spec.zeroChunk] else Spec.pack bs), treeGlobals E.hash tree, []) := by
  refine ⟨_, packAndPadF_read, fun fuel depth hf => ?_⟩
  rw [run_eq, pack_and_pad treeText none E fuel depth bs hf [] [] (treeGlobals E.hash tree) 3 4 rfl rfl rfl rfl, packAndPad_eq]
  rw [show orZeroChunk (Spec.pack bs) = if bs = [] then [Spec.zeroChunk] else Spec.pack bs by
    by_cases h : bs = []
    · subst h; rfl
    · have h1 : Spec.pack bs ≠ [] := by
        have := List.length_pos_iff.2 h
        intro e
        have h2 := length_pack bs
        rw [e, List.length_nil] at h2
        omega
      rw [if_neg h, orZeroChunk]
      simp [h1]]
  rfl

/-- A `HashTree` whose root is asked for: the member function is that of the text of ssz/hashtree.hpp. -/
def rootText : Option Func := (read (codes Text.hashtreeHpp)).bind fun l => memberFunction l (name% "HashTree") (name% "hash_tree_root")

/-- **C77** The text of the constructor of `HashTree` from chunks: it does not leave its buffers, and fills the tree with the layers of the tree of the chunks up
to the root of the specification. -/
theorem C77_tree_of_chunks (E : Env) (chunks : List Chunk) (limit : Nat) (hpos : 0 < chunks.length) (hn : chunks.length ≤ 2 ^ 42)
    (hl : limit = 0 ∨ chunks.length ≤ limit ∧ limit ≤ 2 ^ 42) : ∃ f tree, treeConstructors[0]? = some f ∧
    (∀ fuel depth, 65 ≤ fuel → 2 ≤ depth → run treeText none none E fuel depth f [.chunks chunks, .int .u64 limit] (treeGlobals E.hash []) [] =
      .ok (.void, treeGlobals E.hash tree, [])) ∧
    tree = (if chunks.length = 1 ∧ limit ≤ 1 then chunks else Spec.layers E.hash chunks (Spec.depthFor (if limit = 0 then chunks.length else limit))) ∧
    tree.getLast? = some (Spec.merkleize E.hash chunks (if limit = 0 then chunks.length else limit)) := by
  have hb : (BitVec.ofNat 64 limit).toNat = limit := by rw [BitVec.toNat_ofNat]; omega
  obtain ⟨tree, h1, h2, -⟩ := C13_merkle_root E.hash chunks (BitVec.ofNat 64 limit) hpos hn (by rw [hb]; exact hl)
  have h3 := C18_layout E.hash chunks (BitVec.ofNat 64 limit) hpos hn (by rw [hb]; exact hl)
  rw [hb] at h2 h3
  rw [h1, Out.ok.injEq] at h3
  refine ⟨treeOfChunksF, tree, by rw [treeConstructors_eq]; rfl, fun fuel depth hf hd => ?_, h3, h2⟩
  obtain ⟨d, rfl⟩ := Nat.exists_eq_add_of_le' hd
  rw [run_eq, tree_of_chunks treeText none E fuel d hashCalled logCalled merkleizeCalled (d + 1) (d + 2) rfl rfl chunks (by omega) limit (by omega) hf, h1]
  rfl

/-- **C77** The same for limits beyond 2 ^ 42 and for no chunks: the text reads the table of zero hashes past its end, and throws. -/
theorem C77_outside (E : Env) (chunks : List Chunk) (limit : Nat) : ∃ f, treeConstructors[0]? = some f ∧ ∀ fuel depth, 65 ≤ fuel → 2 ≤ depth →
    (0 < chunks.length → chunks.length ≤ 2 ^ 42 → 2 ^ 42 < limit → limit < 2 ^ 64 →
      run treeText none none E fuel depth f [.chunks chunks, .int .u64 limit] (treeGlobals E.hash []) [] = .ub) ∧
    (chunks = [] → limit < 2 ^ 64 →
      run treeText none none E fuel depth f [.chunks chunks, .int .u64 limit] (treeGlobals E.hash []) [] = .throws .outOfRange) := by
  refine ⟨treeOfChunksF, by rw [treeConstructors_eq]; rfl, fun fuel depth hf hd => ?_⟩
  obtain ⟨d, rfl⟩ := Nat.exists_eq_add_of_le' hd
  refine ⟨fun hpos hn h1 h2 => ?_, fun h0 h2 => ?_⟩
  · have hb : (BitVec.ofNat 64 limit).toNat = limit := by rw [BitVec.toNat_ofNat]; omega
    rw [run_eq, tree_of_chunks treeText none E fuel d hashCalled logCalled merkleizeCalled (d + 1) (d + 2) rfl rfl chunks (by omega) limit h2 hf,
      C14_limit_needed E.hash chunks _ hpos hn (by rw [hb]; exact h1)]
    rfl
  · subst h0
    rw [run_eq, tree_of_chunks treeText none E fuel d hashCalled logCalled merkleizeCalled (d + 1) (d + 2) rfl rfl [] (by decide) limit h2 hf,
      hashTreeOfChunks, if_neg (by simp), if_pos rfl]
    rfl

/-- **C77** The text of the constructor of `HashTree` from bytes: the root is that of the packed bytes. -/
theorem C77_tree_of_bytes (E : Env) (bs : List Byte) (limit k : Nat) (hn : (bs.length + 31) / 32 ≤ k) (hk : k ≤ 2 ^ 42)
    (hl : limit = 0 ∧ k = (bs.length + 31) / 32 ∨ limit = k) : ∃ f tree, treeConstructors[1]? = some f ∧
    (∀ fuel depth, 65 ≤ fuel → bs.length < fuel → 3 ≤ depth → run treeText none none E fuel depth f [.bytes bs, .int .u64 limit] (treeGlobals E.hash []) [] =
      .ok (.void, treeGlobals E.hash tree, [])) ∧
    tree.getLast? = some (Spec.merkleize E.hash (Spec.pack bs) k) := by
  have hb : (BitVec.ofNat 64 limit).toNat = limit := by rw [BitVec.toNat_ofNat]; omega
  obtain ⟨tree, h1, h2⟩ := bytes_root E.hash bs (BitVec.ofNat 64 limit) k hn hk (by rw [hb]; exact hl)
  refine ⟨treeOfBytesF, tree, by rw [treeConstructors_eq]; rfl, fun fuel depth hf hf' hd => ?_, h2⟩
  obtain ⟨d, rfl⟩ := Nat.exists_eq_add_of_le' hd
  rw [run_eq, tree_of_bytes treeText none E fuel d hashCalled logCalled merkleizeCalled packCalled treeCalled (d + 1) (d + 2) (d + 3) rfl rfl rfl bs (by omega)
    limit (by omega) hf hf', h1]
  rfl

/-- **C77** The text of `hash_tree_root` returns the last chunk of the tree; without one, its behaviour is undefined. -/
theorem C77_hash_tree_root (E : Env) (tree : List Chunk) : ∃ f, rootText = some f ∧ ∀ fuel depth,
    (∀ r, tree.getLast? = some r → run treeText none none E fuel depth f [] (treeGlobals E.hash tree) [] = .ok (.bytes r.1, treeGlobals E.hash tree, [])) ∧
    (tree = [] → run treeText none none E fuel depth f [] (treeGlobals E.hash tree) [] = .ub) := by
  refine ⟨_, hashTreeRootF_read, fun fuel depth => ⟨fun r h => ?_, fun h => ?_⟩⟩
  · rw [run_eq, hash_tree_root, treeRoot, h]
    rfl
  · subst h
    rw [run_eq, hash_tree_root]
    rfl

/-- **C77** The text of `mix_in` appends the hash of the root and the length. -/
theorem C77_mix_in (E : Env) (tree : List Chunk) (r : Chunk) (n : Nat) (hr : tree.getLast? = some r) (hn : n < 2 ^ 64) :
    ∃ f, treeFunction (name% "HashTree") (name% "mix_in") = some f ∧ ∀ fuel depth, 1 ≤ depth →
    run treeText none none E fuel depth f [.int .u64 n] (treeGlobals E.hash tree) [] =
      .ok (.void, treeGlobals E.hash (tree ++ [Spec.mixInLength E.hash r n]), []) := by
  refine ⟨_, mixInF_read, fun fuel depth hd => ?_⟩
  obtain ⟨d, rfl⟩ := Nat.exists_eq_add_of_le' hd
  rw [run_eq, mix_in treeText none E fuel d hashCalled rootCalled (d + 1) rfl tree n hn, C19_mix_in E.hash tree r n hr hn]
  rfl

-- three chunks with limit 9, and memory full of 0xaa
example : ∃ f tree, treeConstructors[0]? = some f ∧
    run treeText none none ⟨0, Samples.toyHash, fun _ => 0xaa#8⟩ 65 2 f [.chunks threeChunks, .int .u64 9] (treeGlobals Samples.toyHash []) [] =
      .ok (.void, treeGlobals Samples.toyHash tree, []) ∧ tree.getLast? = some (Spec.merkleize Samples.toyHash threeChunks 9) := by
  obtain ⟨f, tree, h1, h2, -, h3⟩ := C77_tree_of_chunks ⟨0, Samples.toyHash, fun _ => 0xaa#8⟩ threeChunks 9 (by decide) (by decide) (by decide)
  exact ⟨f, tree, h1, h2 _ _ (Nat.le_refl _) (Nat.le_refl _), h3⟩

-- 40 bytes with a limit of four chunks
example : ∃ f tree, treeConstructors[1]? = some f ∧
    run treeText none none ⟨0, Samples.toyHash, fun _ => 0xaa#8⟩ 65 3 f [.bytes (List.replicate 40 7#8), .int .u64 4] (treeGlobals Samples.toyHash []) [] =
      .ok (.void, treeGlobals Samples.toyHash tree, []) ∧ tree.getLast? = some (Spec.merkleize Samples.toyHash (Spec.pack (List.replicate 40 7#8)) 4) := by
  obtain ⟨f, tree, h1, h2, h3⟩ := C77_tree_of_bytes ⟨0, Samples.toyHash, fun _ => 0xaa#8⟩ (List.replicate 40 7#8) 4 4 (by decide) (by decide) (Or.inr rfl)
  exact ⟨f, tree, h1, h2 _ _ (Nat.le_refl _) (by decide) (Nat.le_refl _), h3⟩

example : threeChunks.getLast? = some (Samples.root 3) ∧ 2 ^ 33 + 7 < 2 ^ 64 := by decide +kernel

end Mammon.Cpp
