import Verif.Proofs.Binding
import Verif.Props.Encoding
import Verif.Spec.Members
/-!
# Properties of hash trees: C13 to C21

`H` is an arbitrary function on pairs of chunks; SHA-256 of the 64 bytes is one instance.
-/

namespace Mammon

open Spec (depthFor)

variable (H : Chunk → Chunk → Chunk)

/-- Three chunks. -/
def threeChunks : List Chunk := [Samples.root 1, Samples.root 2, Samples.root 3]

/-! ## C13, C14, C18 -/

/-- **C13** The last element of the tree over at least one chunk, which is what `hash_tree_root` returns, is the Merkle root of the
specification. -/
theorem C13_merkle_root (chunks : List Chunk) (limit : BitVec 64) (hpos : 0 < chunks.length) (hn : chunks.length ≤ 2 ^ 42)
    (hl : limit.toNat = 0 ∨ chunks.length ≤ limit.toNat ∧ limit.toNat ≤ 2 ^ 42) :
    ∃ tree, hashTreeOfChunks H chunks limit = .ok tree ∧
      tree.getLast? = some (Spec.merkleize H chunks (if limit.toNat = 0 then chunks.length else limit.toNat)) ∧
      treeRoot tree = .ok (Spec.merkleize H chunks (if limit.toNat = 0 then chunks.length else limit.toNat)) := by
  obtain ⟨tree, h1, h2⟩ := hashTreeOfChunks_root H chunks limit hpos hn hl
  have h3 : tree.getLast? = some (Spec.merkleize H chunks (if limit.toNat = 0 then chunks.length else limit.toNat)) := by
    rw [h2]
    congr 2
    split <;> omega
  exact ⟨tree, h1, h3, by rw [treeRoot, h3]⟩

example : 0 < threeChunks.length ∧ threeChunks.length ≤ 2 ^ 42 ∧
    ((9#64).toNat = 0 ∨ threeChunks.length ≤ (9#64).toNat ∧ (9#64).toNat ≤ 2 ^ 42) ∧ depthFor 9 = 4 := by decide +kernel

/-- **C14** Within the same bounds, building the tree never accesses anything outside the chunks, the node buffer and the table of zero
hashes (and does not throw). -/
theorem C14_within_buffer (chunks : List Chunk) (limit : BitVec 64) (hpos : 0 < chunks.length) (hn : chunks.length ≤ 2 ^ 42)
    (hl : limit.toNat = 0 ∨ chunks.length ≤ limit.toNat ∧ limit.toNat ≤ 2 ^ 42) :
    hashTreeOfChunks H chunks limit ≠ .ub ∧ ∀ e, hashTreeOfChunks H chunks limit ≠ .throws e := by
  rw [hashTreeOfChunks_ok H chunks limit hpos hn hl]
  exact ⟨fun h => (by cases h), fun e h => (by cases h)⟩

example : 0 < threeChunks.length ∧ threeChunks.length ≤ 2 ^ 42 ∧ (BitVec.ofNat 64 (2 ^ 42)).toNat = 2 ^ 42 := by decide +kernel

/-- The upper bound on the limit in C13 and C14 is needed: more than `2 ^ 42` is read past the table of zero hashes. -/
theorem C14_limit_needed (chunks : List Chunk) (limit : BitVec 64) (hpos : 0 < chunks.length) (hn : chunks.length ≤ 2 ^ 42)
    (hl : 2 ^ 42 < limit.toNat) : hashTreeOfChunks H chunks limit = .ub := by
  have h1 : depthFor chunks.length ≤ 42 := (depthFor_le_iff _ _).2 hn
  have h2 : ¬ depthFor limit.toNat ≤ 42 := fun h => by have := (depthFor_le_iff _ _).1 h; omega
  rw [hashTreeOfChunks_spec H chunks limit hn, if_neg (by omega), if_neg (List.length_pos_iff.1 hpos), if_neg]
  rintro ⟨-, h⟩
  exact h2 (h (by omega))

example : 0 < threeChunks.length ∧ threeChunks.length ≤ 2 ^ 42 ∧ 2 ^ 42 < (BitVec.ofNat 64 (2 ^ 42 + 1)).toNat := by decide +kernel

/-- **C18** The tree contains the layers above the chunks, bottom up, to the depth of the limit (or of the number of chunks); a single chunk with
limit at most 1 is its own tree. -/
theorem C18_layout (chunks : List Chunk) (limit : BitVec 64) (hpos : 0 < chunks.length) (hn : chunks.length ≤ 2 ^ 42)
    (hl : limit.toNat = 0 ∨ chunks.length ≤ limit.toNat ∧ limit.toNat ≤ 2 ^ 42) :
    hashTreeOfChunks H chunks limit =
      .ok (if chunks.length = 1 ∧ limit.toNat ≤ 1 then chunks
        else Spec.layers H chunks (depthFor (if limit.toNat = 0 then chunks.length else limit.toNat))) := by
  rw [hashTreeOfChunks_ok H chunks limit hpos hn hl, levels_eq]
  have hm : max chunks.length limit.toNat = if limit.toNat = 0 then chunks.length else limit.toNat := by split <;> omega
  simp only [hm, And.comm]

/-- **C18**, number of nodes. -/
theorem C18_size (chunks : List Chunk) (d : Nat) : (Spec.layers H chunks d).length = Spec.treeSize chunks.length d := length_layers H chunks d

-- three chunks with limit 9: two parents, then one node at each of the heights 2, 3 and 4
example : hashTreeOfChunks H threeChunks 9#64 =
    (let c := threeChunks.getD 0 Spec.zeroChunk
     let d := threeChunks.getD 1 Spec.zeroChunk
     let e := threeChunks.getD 2 Spec.zeroChunk
     let z := Spec.zeroChunk
     let top := H (H c d) (H e z)
     .ok [H c d, H e z, top, H top (H (H z z) (H z z)), H (H top (H (H z z) (H z z))) (H (H (H z z) (H z z)) (H (H z z) (H z z)))]) := by
  rw [C18_layout H threeChunks 9#64 (by decide) (by decide) (by decide), if_neg (by decide), if_neg (by decide),
    show depthFor (9#64).toNat = 4 by decide +kernel]
  rfl

/-! ## C15 -/

/-- **C15**, what holds: hashing an object of the repository, or any other object of a `hashable` type, within its limits has no
undefined behaviour. Missing: objects over their limits, which `deserialize` accepts, see `C15_overflow`. -/
theorem C15_safe_partial (t : Ty) (ht : Spec.hashable t = true) (v : t.denote) (hl : Spec.withinLimits t v = true) (hb : Spec.bitlistsShort t v = true) :
    hashTreeRoot H t v ≠ .ub := by
  rw [hashTreeRoot, (hashTree_root H t ht v hl hb).root]
  exact fun h => (by cases h)

example : Spec.hashable (Objects.beaconBlockBody mainnet) = true ∧ Spec.withinLimits (Objects.beaconBlockBody mainnet) (Samples.body mainnet 2) = true ∧
    Spec.bitlistsShort (Objects.beaconBlockBody mainnet) (Samples.body mainnet 2) = true := by decide +kernel

/-- **C15**, exactly when a tree over more chunks than the limit overflows its buffer; otherwise it is built to the depth of the chunks. -/
theorem C15_over_limit (chunks : List Chunk) (limit : BitVec 64) (h0 : 0 < limit.toNat) (hl : limit.toNat < chunks.length) (hn : chunks.length ≤ 2 ^ 42) :
    hashTreeOfChunks H chunks limit =
      if Spec.treeSize chunks.length (depthFor chunks.length) ≤
        max (2 ^ depthFor chunks.length - 1 - (depthFor chunks.length - depthFor limit.toNat)) 1 then
        .ok (Spec.layers H chunks (depthFor chunks.length))
      else .ub := by
  have hm := depthFor_mono (Nat.le_of_lt hl)
  have hd0 : depthFor chunks.length ≠ 0 := fun h => by have := one_lt_of_depth h; omega
  have hh : heights chunks.length limit.toNat = depthFor chunks.length := by rw [heights]; omega
  have hb : bufferSize chunks.length limit.toNat = max (2 ^ depthFor chunks.length - 1 - (depthFor chunks.length - depthFor limit.toNat)) 1 := by
    have hif : (if limit.toNat = 0 then depthFor chunks.length else depthFor limit.toNat) = depthFor limit.toNat := if_neg (by omega)
    rw [bufferSize, hif, if_neg (by omega)]
  rw [hashTreeOfChunks_spec H chunks limit hn, if_neg (by omega), if_neg (List.length_pos_iff.1 (by omega)), hh, levels_eq, ← nodeCount_eq, hb]
  exact ite_congr (propext ⟨And.left, fun h => ⟨h, fun h => by omega⟩⟩) (fun _ => rfl) fun _ => rfl

-- 17 chunks with limit 16 just fit, 32 chunks with limit 16 or 3 chunks with limit 2 do not
example : Spec.treeSize 17 (depthFor 17) ≤ max (2 ^ depthFor 17 - 1 - (depthFor 17 - depthFor 16)) 1 ∧
    ¬ Spec.treeSize 32 (depthFor 32) ≤ max (2 ^ depthFor 32 - 1 - (depthFor 32 - depthFor 16)) 1 ∧
    ¬ Spec.treeSize 3 (depthFor 3) ≤ max (2 ^ depthFor 3 - 1 - (depthFor 3 - depthFor 2)) 1 := by decide +kernel

/-- Three elements in a list of limit 2 overflow. -/
theorem listV_overflow (t : Ty) (ht : Spec.hashable t = true) (l : List t.denote) (hl : ∀ x ∈ l, Spec.withinLimits t x = true)
    (hb : ∀ x ∈ l, Spec.bitlistsShort t x = true) (h3 : l.length = 3) : hashTree H (.listV t 2) l = .ub := by
  rw [hashTree, rootsLoop_eq _ (fun x => Spec.root H t x) l (fun x hx => hashTree_root H t ht x (hl x hx) (hb x hx)), Out.bind, listTree, orZeroChunk,
    if_neg (by rw [List.map_eq_nil_iff]; intro h; rw [h] at h3; cases h3),
    C15_over_limit H _ _ (by decide) (by rw [List.length_map, h3]; decide) (by rw [List.length_map, h3]; decide), List.length_map, h3,
    if_neg (by decide +kernel)]
  rfl

mutual
theorem short_of_noBitlist : (t : Ty) → Spec.noBitlist t = true → (v : t.denote) → Spec.bitlistsShort t v = true
  | .uint64, _, _ => rfl
  | .boolean, _, _ => rfl
  | .bytes _, _, _ => rfl
  | .bitvector _, _, _ => rfl
  | .bitlist _, h, _ => by cases h
  | .vector t _, h, v => by rw [Spec.bitlistsShort, List.all_eq_true]; exact fun x _ => short_of_noBitlist t h x
  | .listF t _, h, v => by rw [Spec.bitlistsShort, List.all_eq_true]; exact fun x _ => short_of_noBitlist t h x
  | .listV t _, h, v => by rw [Spec.bitlistsShort, List.all_eq_true]; exact fun x _ => short_of_noBitlist t h x
  | .container _ _ ps, h, v => by rw [Spec.bitlistsShort]; exact shortParts_of_noBitlist ps h v

theorem shortParts_of_noBitlist : (ps : Parts) → Spec.noBitlistParts ps = true → (v : ps.denote) → Spec.bitlistsShortParts ps v = true
  | .nil, _, _ => rfl
  | .cons _ t ps, h, v => by
    rw [Spec.noBitlistParts, Bool.and_eq_true] at h
    rw [Spec.bitlistsShortParts, short_of_noBitlist t h.1, shortParts_of_noBitlist ps h.2]
    rfl
end

/-- The parts of a block body. -/
theorem body_parts (p : Preset) (v : (Objects.beaconBlockBody p).denote) (h : hashTree H (.listV (Objects.attesterSlashing p) p.MAX_ATTESTER_SLASHINGS) v.2.2.2.2.1 = .ub)
    (hp : v.2.2.2.1.length ≤ p.MAX_PROPOSER_SLASHINGS) (hmax : p.MAX_PROPOSER_SLASHINGS ≤ 2 ^ 42) : hashTreeRoot H (Objects.beaconBlockBody p) v = .ub := by
  obtain ⟨v1, v2, v3, v4, v5, v6⟩ := v
  obtain ⟨t1, h1, r1⟩ := hashTree_root H Objects.blsSignature (by decide) v1 rfl rfl
  obtain ⟨t2, h2, r2⟩ := hashTree_root H Objects.eth1Data (by decide) v2 rfl rfl
  obtain ⟨t3, h3, r3⟩ := hashTree_root H Objects.root (by decide) v3 rfl rfl
  have w4 : Spec.withinLimits (.listF Objects.proposerSlashing p.MAX_PROPOSER_SLASHINGS) v4 = true := by
    simp only [Spec.withinLimits, Bool.and_eq_true, decide_eq_true_eq, List.all_eq_true]
    exact ⟨hp, fun x _ => rfl⟩
  have b4 : Spec.bitlistsShort (.listF Objects.proposerSlashing p.MAX_PROPOSER_SLASHINGS) v4 = true := by
    simp only [Spec.bitlistsShort, List.all_eq_true]
    exact fun x _ => rfl
  have k4 : Spec.hashable (.listF Objects.proposerSlashing p.MAX_PROPOSER_SLASHINGS) = true := by
    simp only [Spec.hashable, Bool.and_eq_true, decide_eq_true_eq]
    exact ⟨⟨by decide +kernel, rfl⟩, hmax⟩
  obtain ⟨t4, h4, r4⟩ := hashTree_root H (.listF Objects.proposerSlashing p.MAX_PROPOSER_SLASHINGS) k4 v4 w4 b4
  have hu : hashTree H (Objects.beaconBlockBody p) (v1, v2, v3, v4, v5, v6) =
      (hashTreeParts H (.cons "randao_reveal" Objects.blsSignature (.cons "eth1_data" Objects.eth1Data (.cons "graffiti" Objects.root
        (.cons "proposer_slashings" (.listF Objects.proposerSlashing p.MAX_PROPOSER_SLASHINGS)
        (.cons "attester_slashings" (.listV (Objects.attesterSlashing p) p.MAX_ATTESTER_SLASHINGS) (mkParts
          [("attestations", .listV (Objects.attestation p) p.MAX_ATTESTATIONS),
           ("deposits", .listF Objects.deposit p.MAX_DEPOSITS),
           ("voluntary_exits", .listF Objects.signedVoluntaryExit p.MAX_VOLUNTARY_EXITS)])))))) (v1, v2, v3, v4, v5, v6)).bind
        fun chunks => hashTreeOfChunks H chunks 0#64 := rfl
  show (hashTree H (Objects.beaconBlockBody p) (v1, v2, v3, v4, v5, v6)).bind treeRoot = .ub
  rw [hu]
  simp only [hashTreeParts]
  rw [h1, h2, h3, h4, h]
  simp only [Out.bind, treeRoot, r1, r2, r3, r4]
  rfl

theorem body_overflow (p : Preset) (hp : p ∈ [mainnet, minimal]) :
    (∀ (v : (Objects.beaconBlockBody p).denote), v.2.2.2.2.1.length = 3 → v.2.2.2.1.length ≤ 16 →
      (∀ x ∈ v.2.2.2.2.1, Spec.withinLimits (Objects.attesterSlashing p) x = true) → hashTreeRoot H (Objects.beaconBlockBody p) v = .ub) ∧
    ∃ bs v, deserialize (Objects.beaconBlockBody p) (Objects.beaconBlockBody p).dflt bs = .ok (true, v) ∧ v.2.2.2.2.1.length = 3 ∧
      hashTreeRoot H (Objects.beaconBlockBody p) v = .ub := by
  have hpre : p.MAX_ATTESTER_SLASHINGS = 2 ∧ p.MAX_PROPOSER_SLASHINGS = 16 ∧ Spec.hashable (Objects.attesterSlashing p) = true := by
    revert p; decide +kernel
  have hnb : ∀ p, Spec.noBitlist (Objects.attesterSlashing p) = true := fun p => rfl
  have main : ∀ (v : (Objects.beaconBlockBody p).denote), v.2.2.2.2.1.length = 3 → v.2.2.2.1.length ≤ 16 →
      (∀ x ∈ v.2.2.2.2.1, Spec.withinLimits (Objects.attesterSlashing p) x = true) → hashTreeRoot H (Objects.beaconBlockBody p) v = .ub := by
    intro v h3 h16 hw
    refine body_parts H p v ?_ (by rw [hpre.2.1]; exact h16) (by rw [hpre.2.1]; decide)
    rw [hpre.1]
    exact listV_overflow H _ hpre.2.2 _ hw (fun x _ => short_of_noBitlist _ (hnb p) x) h3
  refine ⟨main, Spec.encode _ (Samples.body p 3), Samples.body p 3, ?_, rfl, main _ rfl (Nat.zero_le _) ?_⟩
  · have hs : Spec.wf (Objects.beaconBlockBody p) = true ∧ (Spec.encode (Objects.beaconBlockBody p) (Samples.body p 3)).length < 2 ^ 32 := by
      clear main hpre
      revert p; decide +kernel
    rw [← serializeBytes_eq_encode _ hs.1] at *
    exact deserialize_serializeBytes _ hs.1 _ _ hs.2
  · intro x hx
    rw [List.eq_of_mem_replicate hx]
    rfl

/-- **C15**, negation: `deserialize` accepts block bodies with three attester slashings (the limit is 2), and hashing any such body (with its other
lists within their limits) writes past the end of the node buffer. -/
theorem C15_overflow (p : Preset) (hp : p ∈ [mainnet, minimal]) :
    (∀ (v : (Objects.beaconBlockBody p).denote) (k : Nat) (l : List (Objects.attesterSlashing p).denote),
      Spec.countAt (t := Objects.beaconBlockBody p) v ["proposer_slashings"] = some k → k ≤ 16 →
      Spec.member ⟨Objects.beaconBlockBody p, v⟩ "attester_slashings" = some ⟨.listV (Objects.attesterSlashing p) p.MAX_ATTESTER_SLASHINGS, l⟩ →
      l.length = 3 → (∀ x ∈ l, Spec.withinLimits (Objects.attesterSlashing p) x = true) → hashTreeRoot H (Objects.beaconBlockBody p) v = .ub) ∧
    ∃ bs v, deserialize (Objects.beaconBlockBody p) (Objects.beaconBlockBody p).dflt bs = .ok (true, v) ∧
      Spec.countAt (t := Objects.beaconBlockBody p) v ["attester_slashings"] = some 3 ∧ hashTreeRoot H (Objects.beaconBlockBody p) v = .ub := by
  obtain ⟨h1, bs, v, h2, h3, h4⟩ := body_overflow H p hp
  refine ⟨fun v k l hk h16 hl h3 hw => ?_, bs, v, h2, congrArg some h3, h4⟩
  have hk : some v.2.2.2.1.length = some k := hk
  have hl : some (⟨.listV (Objects.attesterSlashing p) p.MAX_ATTESTER_SLASHINGS, v.2.2.2.2.1⟩ : (t : Ty) × t.denote) =
    some ⟨.listV (Objects.attesterSlashing p) p.MAX_ATTESTER_SLASHINGS, l⟩ := hl
  rw [Option.some.injEq, Sigma.mk.injEq] at hl
  obtain rfl := eq_of_heq hl.2
  exact h1 v h3 (by rw [Option.some.injEq] at hk; omega) hw

/-! ## C16 -/

/-- **C16** `hash_tree_root()` is the root of the specification. -/
theorem C16_hash_tree_root (t : Ty) (ht : Spec.hashable t = true) (v : t.denote) (hl : Spec.withinLimits t v = true)
    (hb : Spec.bitlistsShort t v = true) : hashTreeRoot H t v = .ok (Spec.root H t v) := (hashTree_root H t ht v hl hb).root

/-- **C16** All classes of the repository are covered, in both presets. -/
theorem C16_covered : ∀ p ∈ [mainnet, minimal], ∀ x ∈ Objects.all p, Spec.hashable x.2 = true := by decide +kernel

example : Spec.hashable (Objects.attestation mainnet) = true ∧
    Spec.withinLimits (Objects.attestation mainnet) (Samples.attestation [true, false, true]) = true ∧
    Spec.bitlistsShort (Objects.attestation mainnet) (Samples.attestation [true, false, true]) = true := by decide +kernel

-- the restriction on sequences of Boolean in `hashable` is needed: the code does not pack them
example : hashTreeRoot Samples.toyHash (.vector .boolean 2) ⟨[true, true], rfl⟩ ≠ .ok (Spec.root Samples.toyHash (.vector .boolean 2) ⟨[true, true], rfl⟩) := by
  have h : (match hashTreeRoot Samples.toyHash (.vector .boolean 2) ⟨[true, true], rfl⟩ with | .ok c => c.1.take 2 | _ => []) ≠
    (Spec.root Samples.toyHash (.vector .boolean 2) ⟨[true, true], rfl⟩).1.take 2 := by decide +kernel
  intro h'
  rw [h'] at h
  exact h rfl

/-! ## C17 -/

/-- **C17** Two values with the same root are equal, or two different inputs hashed in computing the two roots have the same hash. -/
theorem C17_binding (t : Ty) (ht : Spec.hashable t = true) (v w : t.denote) (hv : Spec.withinLimits t v = true) (hw : Spec.withinLimits t w = true)
    (hbv : Spec.bitlistsShort t v = true) (hbw : Spec.bitlistsShort t w = true) (h : hashTreeRoot H t v = hashTreeRoot H t w) :
    v = w ∨ Spec.Collision H (Spec.rootHashes H t v) (Spec.rootHashes H t w) := by
  rw [C16_hash_tree_root H t ht v hv hbv, C16_hash_tree_root H t ht w hw hbw, Out.ok.injEq] at h
  exact root_binding H t ht v w hv hw h

/-- A checkpoint that differs from `Samples.checkpoint 5` in its root. -/
def otherCheckpoint : Objects.checkpoint.denote := (5#64, Samples.root 6, ())

-- with a bad hash function there are different values with equal roots (and a collision)
example : hashTreeRoot (fun a _ => a) Objects.checkpoint (Samples.checkpoint 5) = hashTreeRoot (fun a _ => a) Objects.checkpoint otherCheckpoint ∧
    Samples.checkpoint 5 ≠ otherCheckpoint := by
  constructor
  · rw [C16_hash_tree_root _ _ (by decide +kernel) (Samples.checkpoint 5) rfl rfl, C16_hash_tree_root _ _ (by decide +kernel) otherCheckpoint rfl rfl]
    congr 1
    show Spec.merkleize _ [_, _] 2 = Spec.merkleize _ [_, _] 2
    rw [Spec.merkleize, Spec.merkleize, show depthFor 2 = 1 by decide +kernel]
    rfl
  · intro h
    have := congrArg (fun x : Objects.checkpoint.denote => x.2.1.1.head?) h
    revert this
    decide +kernel

/-! ## C19 -/

/-- **C19** `mix_in` appends the hash of the root and the length as a 256-bit little-endian integer. -/
theorem C19_mix_in (tree : List Chunk) (r : Chunk) (n : Nat) (hr : tree.getLast? = some r) (hn : n < 2 ^ 64) :
    mixIn H tree n = .ok (tree ++ [Spec.mixInLength H r n]) := by
  rw [mixIn, treeRoot, hr, lengthChunk_eq n hn]; rfl

/-- **C19** Mixing in different lengths gives different roots, unless there is a collision of the two inputs. -/
theorem C19_lengths (r r' : Chunk) (m n : Nat) (hm : m < 2 ^ 64) (hn : n < 2 ^ 64) (hne : m ≠ n) :
    Spec.mixInLength H r m ≠ Spec.mixInLength H r' n ∨ Spec.Collision H (Spec.mixHashes r m) (Spec.mixHashes r' n) := by
  by_cases h : Spec.mixInLength H r m = Spec.mixInLength H r' n
  · exact Or.inr ((mix_binding H (by omega) (by omega) h).resolve_left fun h => hne h.2)
  · exact Or.inl h

example : threeChunks.getLast? = some (Samples.root 3) ∧ 2 ^ 33 + 7 < 2 ^ 64 ∧ 255 ≠ 2 ^ 33 + 7 := by decide +kernel

/-! ## C20 -/

theorem flatten_packLoop (bs : List Byte) : ∃ k, k < 32 ∧ (packLoop bs).flatMap (fun c => c.1) = bs ++ List.replicate k 0#8 := by
  fun_induction packLoop bs with
  | case1 => exact ⟨0, by decide, rfl⟩
  | case2 bs h ih =>
    have hpos := List.length_pos_iff.2 h
    obtain ⟨k, hk, hf⟩ := ih
    rw [List.flatMap_cons, hf, packChunk]
    simp only [List.length_take, BYTES_PER_CHUNK]
    rcases Nat.lt_or_ge bs.length 32 with h' | h'
    · rw [packLoop, BYTES_PER_CHUNK, List.drop_eq_nil_of_le (by omega), if_pos rfl] at hf
      have hk0 : k = 0 := by
        have := congrArg List.length hf
        simp at this
        omega
      refine ⟨32 - bs.length, by omega, ?_⟩
      rw [List.drop_eq_nil_of_le (by omega), hk0, List.take_of_length_le (by omega), show min 32 bs.length = bs.length by omega]
      simp
    · refine ⟨k, hk, ?_⟩
      rw [show 32 - min 32 bs.length = 0 by omega, List.replicate_zero, List.append_nil, ← List.append_assoc, List.take_append_drop]

/-- **C20** Packing preserves the bytes in order and pads the last chunk with zeros; the number of chunks is the length divided by 32, rounded up, but one
zero chunk for no bytes. -/
theorem C20_pack (bs : List Byte) : ∃ k, (packAndPad bs).flatMap (fun c => c.1) = bs ++ List.replicate k 0#8 ∧
    (packAndPad bs).length = max ((bs.length + 31) / 32) 1 ∧ (bs ≠ [] → k < 32) := by
  have hlen : (packAndPad bs).length = max ((bs.length + 31) / 32) 1 := by rw [packAndPad_eq, length_orZero, length_pack]
  by_cases h : bs = []
  · subst h
    exact ⟨32, rfl, hlen, fun h => absurd rfl h⟩
  · obtain ⟨k, hk, hf⟩ := flatten_packLoop bs
    exact ⟨k, by rw [packAndPad, if_neg h]; exact hf, hlen, fun _ => hk⟩

example : packAndPad (List.replicate 33 7#8) = [⟨List.replicate 32 7#8, rfl⟩, ⟨7#8 :: List.replicate 31 0#8, rfl⟩] := by
  rw [packAndPad_eq]; rfl

/-! ## C21 -/

/-- **C21** The table of zero hashes. -/
theorem C21_zero_hashes (k : Nat) (hk : k < ZERO_HASH_DEPTH) :
    (zeroHashArray H)[k]? = some (Spec.perfect H k fun _ => Spec.zeroChunk) := by
  have := zeroHashAt_lt H hk
  rw [zeroHashAt] at this
  split at this
  · rename_i c hc
    rw [hc]
    cases this
    rfl
  · cases this

/-- **C21** The table has exactly 42 entries. -/
theorem C21_size : (zeroHashArray H).length = 42 := length_zeroHashesFrom H _ _

example : (41 : Nat) < ZERO_HASH_DEPTH := by decide

/-- **C21** Roots of empty lists: the zero subtree of the depth of the limit, with length 0. -/
theorem C21_empty_list (t : Ty) (limit : Nat) (ht : Spec.hashable (.listF t limit) = true) :
    hashTreeRoot H (.listF t limit) [] =
      .ok (Spec.mixInLength H (Spec.perfect H (depthFor (Spec.chunkCount (.listF t limit))) fun _ => Spec.zeroChunk) 0) := by
  rw [C16_hash_tree_root H _ ht [] (by simp [Spec.withinLimits]) (by simp [Spec.bitlistsShort])]
  have hz : Spec.padded ([] : List Chunk) = fun _ => Spec.zeroChunk := by funext i; rfl
  rw [Spec.root]
  split
  · rw [Spec.merkleize, show Spec.pack (List.map (fun x => Spec.encode t x) ([] : List t.denote)).flatten = [] by simp [Spec.pack], hz]; rfl
  · rw [Spec.merkleize, show List.map (fun x => Spec.root H t x) ([] : List t.denote) = [] from rfl, hz]; rfl

example : Spec.hashable (.listF Objects.validator mainnet.VALIDATOR_REGISTRY_LIMIT) = true ∧
    depthFor (Spec.chunkCount (.listF Objects.validator mainnet.VALIDATOR_REGISTRY_LIMIT)) = 40 := by decide +kernel

end Mammon
