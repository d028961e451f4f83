import Verif.Proofs.CppTree
/-!
# Trees of bytes, roots and mix-ins

What the remaining functions in the text of ssz/hashtree.cpp and ssz/hashtree.hpp do.
-/

namespace Mammon.Cpp
open Nasm

variable (fs : List Func) (int : Option IT) (E : Env) (fuel d : Nat)

theorem sub_range {a b : Nat} (h : a ≤ 64) (h' : b ≤ 64) : (-2147483648 : Int) ≤ a - b ∧ (a - b : Int) < 2147483648 := by omega

theorem tree_of_chunks (hfind : find (name% "hash_2_chunks") fs = some hash2F) (hlog : find (name% "log2ceil") fs = some log2ceilF)
    (hmer : find (name% "merkleize") fs = some merkleizeF) (D D' : Nat) (hD : D = d + 1) (hD' : D' = D + 1)
    (vec : List Chunk) (hv : vec.length < 2 ^ 62) (limit : Nat) (hl : limit < 2 ^ 64) (hf : 65 ≤ fuel) (c : Frame) (b : List Frame) (p : List Obj) :
    (ctx fs int none E fuel D').enter treeOfChunksF [.chunks vec, .int .u64 limit] ⟨c, b, treeGlobals E.hash [], p⟩ =
      (Res.of (hashTreeOfChunks E.hash vec (BitVec.ofNat 64 limit))).bind fun t => .ok (.void, ⟨c, b, treeGlobals E.hash t, p⟩) := by
  have hg1 := fun buf u => log2_call fs int E fuel D hlog D' hD' (treeGlobals E.hash buf) 2 rfl rfl u vec.length (by omega)
  have hg2 := fun buf u => log2_call fs int E fuel D hlog D' hD' (treeGlobals E.hash buf) 2 rfl rfl u limit hl
  have he1 := log2ceil_le vec.length (by omega)
  have he2 := log2ceil_le limit hl
  obtain ⟨bc, hbc, hb1, hb2⟩ := bitCeil_pos vec.length hv
  have hu : IT.u64.conv (limit : Int) = limit := conv_u64 (by omega) (by omega)
  have hn : IT.u64.conv (vec.length : Int) = vec.length := conv_u64 (by omega) (by omega)
  have hl1 : BitVec.ofNat 64 limit ≤ 1#64 ↔ limit ≤ 1 := by
    rw [BitVec.le_def, BitVec.toNat_ofNat, Nat.mod_eq_of_lt hl]; rfl
  have hl0 : BitVec.ofNat 64 limit = 0#64 ↔ limit = 0 := by
    rw [← BitVec.toNat_inj, BitVec.toNat_ofNat, Nat.mod_eq_of_lt hl]; rfl
  rw [hashTreeOfChunks]
  simp only [hl1, hl0]
  generalize log2ceil 64 (BitVec.ofNat 64 vec.length) = eff at *
  have hi : IT.i32.conv (eff : Int) = eff := conv_i32 (by omega) (by omega)
  have hb : IT.u64.conv (bc : Int) = bc := conv_u64 (by omega) (by omega)
  by_cases hz : limit = 0
  · subst hz
    have hm := fun u v w x buf h0 => merkleize_call fs int E fuel d hfind hlog hmer D D' hD hD' u v w x vec buf h0 hv bc (by omega) hf
    simp only [treeGlobals, consts, List.cons_append, List.nil_append] at hm hg1 hg2
    cpp_tree [treeOfChunksF, treeGlobals, library_merkleize, library_log2, hg1, hg2, hu, hn, hi, hb, cond_twice, Int.toNat_natCast, hbc, of_ok, conv_idem, cache_base, excOf_empty]
    by_cases h1 : vec.length = 1
    · rw [cond_of_true (by omega), if_pos (by omega), of_ok, bind_ok]
    · rw [cond_of_false (by omega), if_neg (by omega)]
      by_cases h0 : vec.length = 0
      · obtain rfl : vec = [] := by simpa using h0
        rw [cond_of_true h0, if_pos rfl]
        rfl
      · have h0' : vec ≠ [] := by rintro rfl; exact h0 rfl
        simp only [if_true] 
        rw [cond_of_false h0, if_neg h0', cond_of_true (by omega), cond_of_false (by omega), out_ok_then, cache_size, if_neg (by omega)]
        have hq := cache_less eff eff bc
        generalize cacheBase eff eff bc = q at hq ⊢
        simp only [cache_max _ hq, Int.toNat_natCast, List.take_nil, List.nil_append, List.length_nil, Nat.sub_zero]
        rw [hm _ _ _ _ _ h0', bind_assoc]
        simp only [bind_ok]
        congr 1
  · have hm := fun u v w x buf h0 => merkleize_call fs int E fuel d hfind hlog hmer D D' hD hD' u v w x vec buf h0 hv limit (by omega) hf
    simp only [treeGlobals, consts, List.cons_append, List.nil_append] at hm hg1 hg2
    generalize hdp : log2ceil 64 (BitVec.ofNat 64 limit) = dp at hg2 he2 ⊢
    have hj : IT.i32.conv (dp : Int) = dp := conv_i32 (by omega) (by omega)
    have hz' : ¬((limit : Int) = 0) := by omega
    have hr : (-2147483648 : Int) ≤ dp - eff ∧ (dp - eff : Int) < 2147483648 := sub_range he2 he1
    cpp_tree [treeOfChunksF, treeGlobals, library_merkleize, library_log2, hg1, hg2, hu, hn, hi, hj, cond_twice, Int.toNat_natCast, hbc, of_ok, conv_idem, hb, cache_base, excOf_empty]
    simp only [if_neg hz]
    clear hg1 hg2 hu hn hi hj hb hl0 hl1
    by_cases h1 : limit ≤ 1 ∧ vec.length = 1
    · rw [cond_of_true (by omega), if_pos h1, of_ok, bind_ok]
    · rw [cond_of_false (by omega), if_neg h1]
      by_cases h0 : vec.length = 0
      · obtain rfl : vec = [] := by simpa using h0
        rw [cond_of_true h0, if_pos rfl]
        rfl
      · have h0' : vec ≠ [] := by rintro rfl; exact h0 rfl
        rw [cond_of_false h0, if_neg h0', cond_of_false hz', cond_of_true hr, out_ok_then, cache_size]
        simp only [cond_of_false hz', cache_conv]
        have hq := cache_less dp eff bc
        generalize cacheBase dp eff bc = q at hq ⊢
        by_cases hgt : dp > eff
        · rw [cond_of_true (by omega), if_pos hgt]
          simp only [cache_more]
          have hq : (q + 1) % 2 ^ 64 < 2 ^ 64 := by omega
          generalize (q + 1) % 2 ^ 64 = q at hq ⊢
          simp only [cache_max _ hq, Int.toNat_natCast, List.take_nil, List.nil_append, List.length_nil, Nat.sub_zero]
          rw [hm _ _ _ _ _ h0', bind_assoc]
          simp only [bind_ok]
          congr 1
        · rw [cond_of_false (by omega), if_neg hgt]
          simp only [cache_max _ hq, Int.toNat_natCast, List.take_nil, List.nil_append, List.length_nil, Nat.sub_zero]
          rw [hm _ _ _ _ _ h0', bind_assoc]
          simp only [bind_ok]
          congr 1

theorem library_tree (C : Ctx) (t : Option IT) (l : List Val) (s : Mem) : C.library (name% "HashTree") t l s = none := rfl

theorem pick_tree (a b x y : Val) : pick treeOfChunksF.params [a, b] [x, y] = [x, y] := rfl

theorem library_pack (C : Ctx) (t : Option IT) (l : List Val) (s : Mem) : C.library (name% "pack_and_pad") t l s = none := rfl

theorem pick_pack (a x : Val) : pick packAndPadF.params [a] [x] = [x] := rfl

theorem packLoop_size (bs : List Byte) : (packLoop bs).length ≤ bs.length := by
  suffices ∀ n (bs : List Byte), bs.length ≤ n → (packLoop bs).length ≤ bs.length from this _ bs (Nat.le_refl _)
  intro n
  induction n with
  | zero =>
    intro bs h
    obtain rfl : bs = [] := List.length_eq_zero_iff.1 (by omega)
    rw [packLoop, if_pos rfl]
    simp
  | succ n ih =>
    intro bs h
    rw [packLoop]
    split
    · simp
    · rename_i h'
      have := List.length_pos_iff.2 h'
      have ih := ih (bs.drop BYTES_PER_CHUNK) (by simp only [List.length_drop, BYTES_PER_CHUNK]; omega)
      simp only [List.length_drop, BYTES_PER_CHUNK, List.length_cons] at ih ⊢
      omega

theorem pack_size (bs : List Byte) (h : bs.length < 2 ^ 62) : (packAndPad bs).length < 2 ^ 62 := by
  rw [packAndPad]
  split
  · decide
  · exact Nat.lt_of_le_of_lt (packLoop_size bs) h

theorem tree_of_bytes (hfind : find (name% "hash_2_chunks") fs = some hash2F) (hlog : find (name% "log2ceil") fs = some log2ceilF)
    (hmer : find (name% "merkleize") fs = some merkleizeF) (hpack : find (name% "pack_and_pad") fs = some packAndPadF)
    (htree : find (name% "HashTree") fs = some treeOfChunksF) (D D' D'' : Nat) (hD : D = d + 1) (hD' : D' = D + 1) (hD'' : D'' = D' + 1)
    (bs : List Byte) (hv : bs.length < 2 ^ 62) (limit : Nat) (hl : limit < 2 ^ 64) (hf : 65 ≤ fuel) (hf' : bs.length < fuel) (c : Frame) (b : List Frame) (p : List Obj) :
    (ctx fs int none E fuel D'').enter treeOfBytesF [.bytes bs, .int .u64 limit] ⟨c, b, treeGlobals E.hash [], p⟩ =
      (Res.of (hashTreeOfBytes E.hash bs (BitVec.ofNat 64 limit))).bind fun t => .ok (.void, ⟨c, b, treeGlobals E.hash t, p⟩) := by
  have hc : ∀ u c b, (ctx fs int none E fuel D'').call (name% "pack_and_pad") [u] [.bytes bs] ⟨c, b, treeGlobals E.hash [], p⟩ = .ok (.chunks (packAndPad bs), ⟨c, b, treeGlobals E.hash [], p⟩) := by
    intro u c b
    rw [hD'', ctx_call, hpack]
    dsimp only
    rw [pick_pack, pack_and_pad fs int E fuel D' bs hf' c b _ 3 4 rfl rfl rfl rfl p]
  have ht : ∀ u v c b, (ctx fs int none E fuel D'').call (name% "HashTree") [u, v] [.chunks (packAndPad bs), .int .u64 limit] ⟨c, b, treeGlobals E.hash [], p⟩ =
      (Res.of (hashTreeOfBytes E.hash bs (BitVec.ofNat 64 limit))).bind fun t => .ok (.void, ⟨c, b, treeGlobals E.hash t, p⟩) := by
    intro u v c b
    rw [hD'', ctx_call, htree]
    dsimp only
    rw [pick_tree, tree_of_chunks fs int E fuel d hfind hlog hmer D D' hD hD' _ (pack_size bs hv) limit hl hf c b p]
    rfl
  simp only [treeGlobals, consts, List.cons_append, List.nil_append] at hc ht
  have hu : IT.u64.conv (limit : Int) = limit := conv_u64 (by omega) (by omega)
  cpp_tree [treeOfBytesF, treeGlobals, library_tree, library_pack, hc, ht, hu]

theorem at_back (tree : List Chunk) : at? tree ((tree.length : Int) - 1) = Res.of (treeRoot tree) := by
  by_cases h : tree = []
  · subst h; rfl
  · have := List.length_pos_iff.2 h
    rw [at?, cond_of_true (by omega), show ((tree.length : Int) - 1).toNat = tree.length - 1 by omega, ← List.getLast?_eq_getElem?, treeRoot]
    cases tree.getLast? <;> rfl

theorem hash_tree_root (tree : List Chunk) (c : Frame) (b : List Frame) (p : List Obj) :
    (ctx fs int none E fuel d).enter hashTreeRootF [] ⟨c, b, treeGlobals E.hash tree, p⟩ =
      (Res.of (treeRoot tree)).bind fun r => .ok (.bytes r.1, ⟨c, b, treeGlobals E.hash tree, p⟩) := by
  cpp_tree [hashTreeRootF, treeGlobals]
  rw [at_back]

theorem mix_in (hfind : find (name% "hash_2_chunks") fs = some hash2F) (hroot : find (name% "hash_tree_root") fs = some hashTreeRootF) (D : Nat) (hD : D = d + 1)
    (tree : List Chunk) (n : Nat) (hn : n < 2 ^ 64) (c : Frame) (b : List Frame) (p : List Obj) :
    (ctx fs int none E fuel D).enter mixInF [.int .u64 n] ⟨c, b, treeGlobals E.hash tree, p⟩ =
      (Res.of (mixIn E.hash tree n)).bind fun t => .ok (.void, ⟨c, b, treeGlobals E.hash t, p⟩) := by
  have hc := fun buf => hash_2_call fs int E fuel d hfind D hD (treeGlobals E.hash buf) 3 rfl rfl
  have hr : ∀ c b, (ctx fs int none E fuel D).call (name% "hash_tree_root") [] [] ⟨c, b, treeGlobals E.hash tree, p⟩ =
      (Res.of (treeRoot tree)).bind fun r => .ok (.bytes r.1, ⟨c, b, treeGlobals E.hash tree, p⟩) := by
    intro c b
    rw [hD, ctx_call, hroot]
    exact hash_tree_root fs int E fuel d tree c b p
  have hu : IT.u64.conv (n : Int) = n := conv_u64 (by omega) (by omega)
  have hl : leBytes 8 n ++ List.replicate 24 0#8 = (lengthChunk n).1 := rfl
  simp only [treeGlobals, consts, List.cons_append, List.nil_append] at hc hr
  cpp_tree [mixInF, treeGlobals, hc, hr, library_hash2, hu, hl, Int.toNat_natCast]
  rw [mixIn]
  cases treeRoot tree with
  | ub => rfl
  | throws e => rfl
  | ok r =>
    cpp_tree [of_ok, hc]
    rfl

end Mammon.Cpp
