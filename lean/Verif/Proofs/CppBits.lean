import Verif.Proofs.CppScalar
/-!
# Bit vectors and bit lists

What the functions in the text of common/bitvector.hpp and common/bitlist.cpp do.
-/

namespace Mammon.Cpp
open Nasm

variable (fs : List Func) (int : Option IT) (est : Env) (fuel d : Nat)

theorem or_byte_all : ∀ x : Fin 256, ∀ b : Bool, ∀ k : Fin 8,
    BitVec.ofInt 8 (bitwise .bor .i32 (x.val : Int) (IT.i32.conv (IT.i32.conv ((bif b then 1 else 0) * 2 ^ k.val)))) =
      BitVec.ofNat 8 x.val ||| ((if b then 1#8 else 0#8) <<< k.val) := by decide +kernel

theorem or_byte (x : Byte) (b : Bool) (k : Nat) (hk : k < 8) :
    BitVec.ofInt 8 (bitwise .bor .i32 (x.toNat : Int) (IT.i32.conv (IT.i32.conv ((bif b then 1 else 0) * 2 ^ k)))) =
      x ||| ((if b then 1#8 else 0#8) <<< k) := by
  have := or_byte_all ⟨x.toNat, x.isLt⟩ b ⟨k, hk⟩
  simpa using this

theorem modify_set {α : Type} (l : List α) (i : Nat) (h : i < l.length) (f : α → α) : l.modify i f = l.set i (f l[i]) := by
  refine List.ext_getElem? fun j => ?_
  by_cases e : i = j
  · subst e
    simp [h]
  · simp [List.getElem?_modify, e]

theorem orBits_step (r : List Byte) (i : Nat) (v : List Bool) (h : i < v.length) (hr : i / 8 < r.length) :
    orBitsFrom (r.set (i / 8) (BitVec.ofInt 8 (bitwise .bor .i32 (r[i / 8].toNat : Int)
      (IT.i32.conv (IT.i32.conv ((bif v[i] then 1 else 0) * 2 ^ (i % 8))))))) (i + 1) (v.drop (i + 1)) = orBitsFrom r i (v.drop i) := by
  rw [or_byte _ _ _ (by omega), List.drop_eq_getElem_cons h, orBitsFrom, orBit, modify_set _ _ hr]

theorem bitvector_loop (n : Nat) (hn : n < 2 ^ 31) (v : Vec Bool n) (i : Nat) (hi : i ≤ n) (r : List Byte) (hr : r.length = (n + 7) / 8)
    (k : Nat) (hk : n - i < k) :
    (ctx fs int none est fuel d).forLoop (bitvectorSerializeF.body.nth 1).cond (bitvectorSerializeF.body.nth 1).step
      (bitvectorSerializeF.body.nth 1).inner k
      ⟨[(name% "i", .int .i32 i), (name% "ret", .bytes r)], [[]], fields (.bitvector n) v ++ consts, []⟩ =
    .ok (none, ⟨[(name% "i", .int .i32 n), (name% "ret", .bytes (orBitsFrom r i (v.1.drop i)))], [[]], fields (.bitvector n) v ++ consts, []⟩) := by
  induction k generalizing i r with
  | zero => omega
  | succ k ih =>
    rw [forLoop_succ]
    cpp_run [bitvectorSerializeF]
    have hv := v.2
    by_cases h : i < n
    · replace ih := ih (i + 1) (by omega)
      cpp_run [bitvectorSerializeF] at ih
      cpp_arith [at_int, set_int]
      rw [ih _ (by simp [hr]) (by omega)]
      have := orBits_step r i v.1 (by omega) (by omega)
      simp only [Int.toNat_natCast, this]
    · have : i = n := by omega
      subst this
      cpp_arith []
      rw [List.drop_of_length_le (by omega)]
      rfl

theorem bitvector_serialize (n : Nat) (hn : n < 2 ^ 31) (v : Vec Bool n) (hf : n < fuel) :
    run fs int none est fuel d bitvectorSerializeF [] (fields (.bitvector n) v ++ consts) [] =
      (Res.of (serialize (.bitvector n) v)).bind fun l => .ok (.bytes l, fields (.bitvector n) v ++ consts, []) := by
  have h := bitvector_loop fs int est fuel d n hn v 0 (by omega) (List.replicate ((n + 7) / 8) 0#8) (by simp) fuel (by omega)
  cpp_run [bitvectorSerializeF] at h
  cpp_run [bitvectorSerializeF]
  have e : ((n : Int) + 8 - 1).tdiv 8 = ((n + 7) / 8 : Nat) := by rw [← tdiv_eight]; congr 1; omega
  cpp_arith [e]
  rw [h]
  cpp_run []
  simp [serialize, serializeUB, serializeBytes, bitvectorSerialize, of_ok, bind_ok]

theorem and_byte_all : ∀ x : Fin 256, ∀ k : Fin 8,
    (!decide (bitwise .band .i32 (x.val : Int) (IT.i32.conv (IT.i32.conv (1 * 2 ^ k.val))) = 0)) =
      (BitVec.ofNat 8 x.val &&& (1#8 <<< k.val) != 0#8) := by decide +kernel

theorem and_byte (x : Byte) (k : Nat) (hk : k < 8) :
    (!decide (bitwise .band .i32 (x.toNat : Int) (IT.i32.conv (IT.i32.conv (1 * 2 ^ k))) = 0)) = (x &&& (1#8 <<< k) != 0#8) := by
  have := and_byte_all ⟨x.toNat, x.isLt⟩ ⟨k, hk⟩
  simpa using this

/-- Storing the bits of a byte from bit `j` on. -/
def storeFrom (n x : Nat) (b : Byte) (j : Nat) (arr : List Bool) : List Bool :=
  (List.range' j (8 - j)).foldl (fun arr j => if 8 * x + j < n then arr.set (8 * x + j) (b &&& (1#8 <<< j) != 0#8) else arr) arr

theorem storeFrom_step (n x : Nat) (b : Byte) (j : Nat) (arr : List Bool) (hj : j < 8) (h : 8 * x + j < n) :
    storeFrom n x b j arr = storeFrom n x b (j + 1) (arr.set (8 * x + j) (b &&& (1#8 <<< j) != 0#8)) := by
  have e : 8 - j = (8 - (j + 1)) + 1 := by omega
  rw [storeFrom, e, List.range'_succ, List.foldl_cons, if_pos h]
  rfl

theorem storeFrom_end (n x : Nat) (b : Byte) (j : Nat) (arr : List Bool) (h : 8 ≤ j ∨ n ≤ 8 * x + j) : storeFrom n x b j arr = arr := by
  unfold storeFrom
  rcases h with h | h
  · rw [show 8 - j = 0 by omega]
    rfl
  · generalize 8 - j = k
    induction k generalizing j with
    | zero => rfl
    | succ k ih => rw [List.range'_succ, List.foldl_cons, if_neg (by omega), ih (j + 1) (by omega)]

theorem bitvector_inner (n : Nat) (hn : n < 2 ^ 31) (bs : List Byte) (hb : bs.length = (n + 7) / 8) (x : Nat) (hx : x < bs.length) (arr : List Bool)
    (ha : arr.length = n) (j : Nat) (hj : j ≤ 8) (k : Nat) (hk : 8 - j < k) : ∃ j',
    (ctx fs int none est fuel d).forLoop (bitvectorDeserializeF.body.nth 1).inner.cond (bitvectorDeserializeF.body.nth 1).inner.step
      (bitvectorDeserializeF.body.nth 1).inner.inner k
      ⟨[(name% "j", .int .i32 j), (name% "i", .iter (.glob 0) x), (name% "end", .iter (.glob 0) bs.length), (name% "it", .iter (.glob 0) 0)], [[]],
        (name% "m_arr", .bools arr) :: (name% "N", .int .u32 n) :: (consts ++ input bs), []⟩ =
    .ok (none, ⟨[(name% "j", .int .i32 j'), (name% "i", .iter (.glob 0) x), (name% "end", .iter (.glob 0) bs.length), (name% "it", .iter (.glob 0) 0)], [[]],
        (name% "m_arr", .bools (storeFrom n x bs[x] j arr)) :: (name% "N", .int .u32 n) :: (consts ++ input bs), []⟩) := by
  induction k generalizing j arr with
  | zero => omega
  | succ k ih =>
    rw [forLoop_succ]
    cpp_run [bitvectorDeserializeF]
    by_cases h8 : j < 8
    · by_cases hn8 : 8 * x + j < n
      · cpp_arith [at_int, set_int]
        have e : (8 * (x : Int) + j).toNat = 8 * x + j := by omega
        rw [storeFrom_step _ _ _ _ _ h8 hn8, e, and_byte _ _ h8]
        replace ih := ih (arr.set (8 * x + j) (bs[x] &&& (1#8 <<< j) != 0#8)) (by simp [ha]) (j + 1) (by omega) (by omega)
        cpp_run [bitvectorDeserializeF] at ih
        exact ih
      · cpp_arith []
        exact ⟨j, by rw [storeFrom_end _ _ _ _ _ (Or.inr (by omega))]⟩
    · cpp_arith []
      exact ⟨j, by rw [storeFrom_end _ _ _ _ _ (Or.inl (by omega))]⟩

theorem storeFrom_zero (n x : Nat) (b : Byte) (arr : List Bool) : storeFrom n x b 0 arr = bitvectorStoreByte n x b arr := by
  rw [storeFrom, bitvectorStoreByte, List.range_eq_range']

theorem bitvector_outer (n : Nat) (hn : n < 2 ^ 31) (hf : 8 < fuel) (bs : List Byte) (hb : bs.length = (n + 7) / 8) (x : Nat) (hx : x ≤ bs.length)
    (arr : List Bool) (ha : arr.length = n) (k : Nat) (hk : bs.length - x < k) : ∃ x',
    (ctx fs int none est fuel d).forLoop (bitvectorDeserializeF.body.nth 1).cond (bitvectorDeserializeF.body.nth 1).step
      (bitvectorDeserializeF.body.nth 1).inner k
      ⟨[(name% "i", .iter (.glob 0) x), (name% "end", .iter (.glob 0) bs.length), (name% "it", .iter (.glob 0) 0)], [[]],
        (name% "m_arr", .bools arr) :: (name% "N", .int .u32 n) :: (consts ++ input bs), []⟩ =
    .ok (none, ⟨[(name% "i", .iter (.glob 0) x'), (name% "end", .iter (.glob 0) bs.length), (name% "it", .iter (.glob 0) 0)], [[]],
        (name% "m_arr", .bools (bitvectorStoreFrom n x (bs.drop x) arr)) :: (name% "N", .int .u32 n) :: (consts ++ input bs), []⟩) := by
  induction k generalizing x arr with
  | zero => omega
  | succ k ih =>
    rw [forLoop_succ]
    cpp_run [bitvectorDeserializeF]
    by_cases h : x < bs.length
    · obtain ⟨j', hj⟩ := bitvector_inner fs int est fuel d n hn bs hb x h arr ha 0 (by omega) fuel (by omega)
      cpp_run [bitvectorDeserializeF] at hj
      cpp_arith []
      rw [hj]
      cpp_run []
      rw [List.drop_eq_getElem_cons h, bitvectorStoreFrom, storeFrom_zero]
      replace ih := ih (x + 1) (by omega) (bitvectorStoreByte n x bs[x] arr) (by rw [length_bitvectorStoreByte, ha]) (by omega)
      cpp_run [bitvectorDeserializeF] at ih
      exact ih
    · cpp_arith []
      exact ⟨x, by rw [List.drop_of_length_le (by omega)]; rfl⟩

theorem bitvector_deserialize (n : Nat) (hn : n < 2 ^ 31) (v : Vec Bool n) (bs : List Byte) (hb : bs.length < 2 ^ 63) (hf : n + 9 < fuel) :
    run fs int none est fuel d bitvectorDeserializeF (ends bs) (fields (.bitvector n) v ++ (consts ++ input bs)) [] =
      (Res.of (deserialize (.bitvector n) v bs)).bind fun r => .ok (.bool r.1, fields (.bitvector n) r.2 ++ (consts ++ input bs), []) := by
  cpp_run [bitvectorDeserializeF]
  have e : ((n : Int) + 8 - 1).tdiv 8 = ((n + 7) / 8 : Nat) := by rw [← tdiv_eight]; congr 1; omega
  by_cases h : bs.length = (n + 7) / 8
  · obtain ⟨x', hx⟩ := bitvector_outer fs int est fuel d n hn (by omega) bs h 0 (by omega) v.1 v.2 fuel (by omega)
    cpp_run [bitvectorDeserializeF] at hx
    cpp_arith [e]
    rw [hx]
    cpp_run []
    rw [deserialize.eq_def]
    simp [bitvectorDeserialize, h, of_ok, bind_ok]
  · cpp_arith [e]
    rw [deserialize.eq_def]
    simp [bitvectorDeserialize, h, of_ok, bind_ok]

end Mammon.Cpp
