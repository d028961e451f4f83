import Verif.Proofs.CppBits
/-!
# Bit lists

What the functions in the text of common/bitlist.cpp do.
-/

namespace Mammon.Cpp
open Nasm

variable (fs : List Func) (int : Option IT) (est : Env) (fuel d : Nat)

theorem bitlist_loop (v : List Bool) (hv : v.length < 2 ^ 31) (i : Nat) (hi : i ≤ v.length) (r : List Byte) (hr : r.length = v.length / 8 + 1)
    (k : Nat) (hk : v.length - i < k) :
    (ctx fs int none est fuel d).forLoop (bitlistSerializeF.body.nth 1).cond (bitlistSerializeF.body.nth 1).step
      (bitlistSerializeF.body.nth 1).inner k
      ⟨[(name% "i", .int .i32 i), (name% "ret", .bytes r)], [[]], (name% "m_arr", .bools v) :: consts, []⟩ =
    .ok (none, ⟨[(name% "i", .int .i32 v.length), (name% "ret", .bytes (orBitsFrom r i (v.drop i)))], [[]], (name% "m_arr", .bools v) :: consts, []⟩) := by
  induction k generalizing i r with
  | zero => omega
  | succ k ih =>
    rw [forLoop_succ]
    cpp_run [bitlistSerializeF]
    by_cases h : i < v.length
    · replace ih := ih (i + 1) (by omega)
      cpp_run [bitlistSerializeF] at ih
      cpp_arith [at_int, set_int]
      rw [ih _ (by simp [hr]) (by omega)]
      have := orBits_step r i v (by omega) (by omega)
      simp only [this]
    · have e : i = v.length := by omega
      subst e
      cpp_arith []
      rw [List.drop_of_length_le (by omega)]
      rfl

theorem bitlist_loop_ub (v : List Bool) (hv : 2 ^ 31 ≤ v.length) (hv' : v.length < 2 ^ 64) (i : Nat) (hi : i < 2 ^ 31) (r : List Byte)
    (hr : r.length = v.length / 8 + 1) (k : Nat) (hk : 2 ^ 31 - i < k) :
    (ctx fs int none est fuel d).forLoop (bitlistSerializeF.body.nth 1).cond (bitlistSerializeF.body.nth 1).step
      (bitlistSerializeF.body.nth 1).inner k
      ⟨[(name% "i", .int .i32 i), (name% "ret", .bytes r)], [[]], (name% "m_arr", .bools v) :: consts, []⟩ = .ub := by
  induction k generalizing i r with
  | zero => omega
  | succ k ih =>
    rw [forLoop_succ]
    cpp_run [bitlistSerializeF]
    by_cases h : i + 1 < 2 ^ 31
    · replace ih := ih (i + 1) (by omega)
      cpp_run [bitlistSerializeF] at ih
      cpp_arith [at_int, set_int]
      rw [ih _ (by simp [hr]) (by omega)]
    · cpp_arith [at_int, set_int]

theorem or_end_all : ∀ x : Fin 256, ∀ k : Fin 8,
    BitVec.ofInt 8 (bitwise .bor .i32 (x.val : Int) (IT.i32.conv (IT.i32.conv (1 * 2 ^ k.val)))) =
      BitVec.ofNat 8 x.val ||| (1#8 <<< k.val) := by decide +kernel

theorem or_end (x : Byte) (k : Nat) (hk : k < 8) :
    BitVec.ofInt 8 (bitwise .bor .i32 (x.toNat : Int) (IT.i32.conv (IT.i32.conv (1 * 2 ^ k)))) = x ||| (1#8 <<< k) := by
  have := or_end_all ⟨x.toNat, x.isLt⟩ ⟨k, hk⟩
  simpa using this

theorem length_orBitsFrom' (r : List Byte) (i : Nat) (v : List Bool) : (orBitsFrom r i v).length = r.length := by
  induction v generalizing r i with
  | nil => rfl
  | cons b v ih => rw [orBitsFrom, ih, orBit, List.length_modify]

theorem bitlist_serialize (l : Nat) (v : List Bool) (hv : v.length < 2 ^ 64) (hf : v.length < fuel) :
    run fs int none est fuel d bitlistSerializeF [] (fields (.bitlist l) v ++ consts) [] =
      (Res.of (serialize (.bitlist l) v)).bind fun b => .ok (.bytes b, fields (.bitlist l) v ++ consts, []) := by
  by_cases h : v.length < 2 ^ 31
  · have hl := bitlist_loop fs int est fuel d v h 0 (by omega) (List.replicate (v.length / 8 + 1) 0#8) (by simp) fuel (by omega)
    cpp_run [bitlistSerializeF] at hl
    cpp_run [bitlistSerializeF]
    cpp_arith []
    have e : ((v.length / 8 : Nat) + 1 : Int).toNat = v.length / 8 + 1 := by omega
    have e0 : BitVec.ofInt 8 0 = 0#8 := rfl
    rw [e, e0, hl]
    cpp_run []
    have hlen : (orBitsFrom (List.replicate (v.length / 8 + 1) 0#8) 0 v).length = v.length / 8 + 1 := by
      rw [length_orBitsFrom', List.length_replicate]
    cpp_arith [at_int, set_int]
    rw [or_end _ _ (by omega)]
    have : ¬2 ^ 31 ≤ v.length := by omega
    simp only [serialize, serializeUB, this, decide_false, Bool.false_eq_true, if_false, of_ok, bind_ok, serializeBytes, bitlistSerialize]
    rw [modify_set (orBitsFrom (List.replicate (v.length / BITS_PER_BYTE + 1) 0#8) 0 v) _ (by rw [length_orBitsFrom', List.length_replicate]; exact Nat.lt_succ_self _)]
    have e1 : ((orBitsFrom (List.replicate (v.length / 8 + 1) 0#8) 0 v).length - 1 : Int).toNat =
      (orBitsFrom (List.replicate (v.length / 8 + 1) 0#8) 0 v).length - 1 := by omega
    simp only [e1, BITS_PER_BYTE]
  · have hl := bitlist_loop_ub fs int est fuel d v (by omega) hv 0 (by omega) (List.replicate (v.length / 8 + 1) 0#8) (by simp) fuel (by omega)
    cpp_run [bitlistSerializeF] at hl
    cpp_run [bitlistSerializeF]
    cpp_arith []
    have e : ((v.length / 8 : Nat) + 1 : Int).toNat = v.length / 8 + 1 := by omega
    have e0 : BitVec.ofInt 8 0 = 0#8 := rfl
    rw [e, e0, hl]
    have : 2 ^ 31 ≤ v.length := by omega
    simp [serialize, serializeUB, this, of_ub, bind_ub]

theorem bit_all : ∀ x : Fin 256, ∀ k : Fin 32, (!decide (bitwise .band .i32 (IT.i32.conv (x.val / 2 ^ k.val)) 1 = 0)) =
      (BitVec.ofNat 8 x.val >>> k.val &&& 1#8 == 1#8) := by decide +kernel

theorem bit_of (x : Byte) (k : Nat) (hk : k < 32) : (!decide (bitwise .band .i32 (IT.i32.conv (x.toNat / 2 ^ k)) 1 = 0)) = (x >>> k &&& 1#8 == 1#8) := by
  have := bit_all ⟨x.toNat, x.isLt⟩ ⟨k, hk⟩
  simpa using this

/-- Appending the bits `j` to `m - 1` of a byte. -/
def pushFrom (b : Byte) (j m : Nat) (arr : List Bool) : List Bool :=
  (List.range' j (m - j)).foldl (fun arr j => arr ++ [(b >>> j) &&& 1#8 == 1#8]) arr

theorem pushFrom_step (b : Byte) (j m : Nat) (arr : List Bool) (h : j < m) :
    pushFrom b j m arr = pushFrom b (j + 1) m (arr ++ [(b >>> j) &&& 1#8 == 1#8]) := by
  rw [pushFrom, show m - j = (m - (j + 1)) + 1 by omega, List.range'_succ, List.foldl_cons]
  rfl

theorem pushFrom_end (b : Byte) (m : Nat) (arr : List Bool) : pushFrom b m m arr = arr := by
  rw [pushFrom, Nat.sub_self]; rfl

theorem pushFrom_zero (b : Byte) (m : Nat) (arr : List Bool) : pushFrom b 0 m arr = pushBits b m arr := by
  rw [pushFrom, pushBits, List.range_eq_range', Nat.sub_zero]

theorem bitlist_inner (bs : List Byte) (x : Nat) (hx : x < bs.length) (msb : Val) (arr : List Bool) (j : Nat) (hj : j ≤ 8) (k : Nat) (hk : 8 - j < k) :
    (ctx fs int none est fuel d).forLoop (bitlistDeserializeF.body.nth 4).inner.cond (bitlistDeserializeF.body.nth 4).inner.step
      (bitlistDeserializeF.body.nth 4).inner.inner k
      ⟨[(name% "j", .int .i32 j), (name% "i", .iter (.glob 0) x), (name% "msb", msb), (name% "last", .iter (.glob 0) (bs.length - 1)),
        (name% "end", .iter (.glob 0) bs.length), (name% "it", .iter (.glob 0) 0)], [[]],
        (name% "m_arr", .bools arr) :: (consts ++ input bs), []⟩ =
    .ok (none, ⟨[(name% "j", .int .i32 8), (name% "i", .iter (.glob 0) x), (name% "msb", msb), (name% "last", .iter (.glob 0) (bs.length - 1)),
        (name% "end", .iter (.glob 0) bs.length), (name% "it", .iter (.glob 0) 0)], [[]],
        (name% "m_arr", .bools (pushFrom bs[x] j 8 arr)) :: (consts ++ input bs), []⟩) := by
  induction k generalizing j arr with
  | zero => omega
  | succ k ih =>
    rw [forLoop_succ]
    cpp_run [bitlistDeserializeF]
    by_cases h8 : j < 8
    · cpp_arith [at_int]
      rw [bit_of _ _ (by omega), pushFrom_step _ _ _ _ h8]
      replace ih := ih (arr ++ [bs[x] >>> j &&& 1#8 == 1#8]) (j + 1) (by omega) (by omega)
      cpp_run [bitlistDeserializeF] at ih
      exact ih
    · have : j = 8 := by omega
      subst this
      cpp_arith []
      rw [pushFrom_end]
      rfl

theorem bitlist_outer (hf : 8 < fuel) (bs : List Byte) (msb : Val) (arr : List Bool) (x : Nat) (hx : x < bs.length) (k : Nat) (hk : bs.length - x < k) :
    (ctx fs int none est fuel d).forLoop (bitlistDeserializeF.body.nth 4).cond (bitlistDeserializeF.body.nth 4).step
      (bitlistDeserializeF.body.nth 4).inner k
      ⟨[(name% "i", .iter (.glob 0) x), (name% "msb", msb), (name% "last", .iter (.glob 0) (bs.length - 1)),
        (name% "end", .iter (.glob 0) bs.length), (name% "it", .iter (.glob 0) 0)], [[]],
        (name% "m_arr", .bools arr) :: (consts ++ input bs), []⟩ =
    .ok (none, ⟨[(name% "i", .iter (.glob 0) (bs.length - 1)), (name% "msb", msb), (name% "last", .iter (.glob 0) (bs.length - 1)),
        (name% "end", .iter (.glob 0) bs.length), (name% "it", .iter (.glob 0) 0)], [[]],
        (name% "m_arr", .bools ((bs.dropLast.drop x).foldl (fun arr b => pushBits b 8 arr) arr)) :: (consts ++ input bs), []⟩) := by
  induction k generalizing x arr with
  | zero => omega
  | succ k ih =>
    rw [forLoop_succ]
    cpp_run [bitlistDeserializeF]
    by_cases h : x < bs.length - 1
    · have hj := bitlist_inner fs int est fuel d bs x hx msb arr 0 (by omega) fuel (by omega)
      cpp_run [bitlistDeserializeF] at hj
      cpp_arith []
      rw [hj]
      cpp_run []
      have hd : x < bs.dropLast.length := by rw [List.length_dropLast]; omega
      rw [List.drop_eq_getElem_cons hd, List.foldl_cons, pushFrom_zero, List.getElem_dropLast]
      replace ih := ih (pushBits bs[x] 8 arr) (x + 1) (by omega) (by omega)
      cpp_run [bitlistDeserializeF] at ih
      exact ih
    · have e : (x : Int) = bs.length - 1 := by omega
      cpp_arith []
      rw [List.drop_of_length_le (by rw [List.length_dropLast]; omega), e]
      rfl

theorem tailBound_all : ∀ m : Fin 9, IT.u32.conv (IT.u32.conv (7 - (m.val : Int))) = ((bitlistTailBound m.val).toNat : Int) := by decide +kernel

theorem bitlist_tail (bs : List Byte) (hb : bs ≠ []) (msb : Nat) (hm : msb ≤ 8) (arr : List Bool) (i : Nat) (hi : i ≤ 32)
    (hi' : i ≤ (bitlistTailBound msb).toNat) (k : Nat) (hk : 32 - i < k) :
    (ctx fs int none est fuel d).forLoop (bitlistDeserializeF.body.nth 5).cond (bitlistDeserializeF.body.nth 5).step
      (bitlistDeserializeF.body.nth 5).inner k
      ⟨[(name% "i", .int .i32 i), (name% "msb", .int .i32 msb), (name% "last", .iter (.glob 0) (bs.length - 1)),
        (name% "end", .iter (.glob 0) bs.length), (name% "it", .iter (.glob 0) 0)], [[]],
        (name% "m_arr", .bools arr) :: (consts ++ input bs), []⟩ =
    bif decide (32 < (bitlistTailBound msb).toNat) then .ub else
    .ok (none, ⟨[(name% "i", .int .i32 (bitlistTailBound msb).toNat), (name% "msb", .int .i32 msb), (name% "last", .iter (.glob 0) (bs.length - 1)),
        (name% "end", .iter (.glob 0) bs.length), (name% "it", .iter (.glob 0) 0)], [[]],
        (name% "m_arr", .bools (pushFrom (bs.getLast hb) i (bitlistTailBound msb).toNat arr)) :: (consts ++ input bs), []⟩) := by
  have hc : IT.u32.conv (IT.u32.conv (7 - (msb : Int))) = ((bitlistTailBound msb).toNat : Int) := tailBound_all ⟨msb, by omega⟩
  have hB := (bitlistTailBound msb).isLt
  generalize (bitlistTailBound msb).toNat = B at *
  have hlen : 0 < bs.length := List.length_pos_iff.2 hb
  have hlast : bs[bs.length - 1] = bs.getLast hb := (List.getLast_eq_getElem hb).symm
  have e1 : ((bs.length : Int) - 1).toNat = bs.length - 1 := by omega
  have hat : ((bs.length : Int) - 1 : Int) = ((bs.length - 1 : Nat) : Int) := by omega
  rw [hat] at *
  induction k generalizing i arr with
  | zero => omega
  | succ k ih =>
    rw [forLoop_succ]
    cpp_run [bitlistDeserializeF]
    by_cases h : i < B
    · by_cases h32 : i = 32
      · subst h32
        cpp_arith [hc, at_int]
      · cpp_arith [hc, at_int]
        rw [hlast, bit_of _ _ (by omega), pushFrom_step _ _ _ _ h]
        replace ih := ih (arr ++ [bs.getLast hb >>> i &&& 1#8 == 1#8]) (i + 1) (by omega) (by omega) (by omega)
        cpp_run [bitlistDeserializeF] at ih
        exact ih hlast
    · have : i = B := by omega
      subst this
      cpp_arith [hc]
      rw [pushFrom_end]

theorem clz_all : ∀ x : Fin 256, countlZeroFrom x.val 8 = countlZero8 (BitVec.ofNat 8 x.val) := by decide +kernel

theorem clz_of (x : Byte) : countlZeroFrom x.toNat 8 = countlZero8 x := by
  have := clz_all ⟨x.toNat, x.isLt⟩
  simpa using this

theorem clz_le_all : ∀ x : Fin 256, countlZero8 (BitVec.ofNat 8 x.val) ≤ 8 := by decide +kernel

theorem clz_le (x : Byte) : countlZero8 x ≤ 8 := by
  have := clz_le_all ⟨x.toNat, x.isLt⟩
  simpa using this

theorem bitlist_deserialize (l : Nat) (v : List Bool) (bs : List Byte) (hf : bs.length + 32 < fuel) :
    run fs int none est fuel d bitlistDeserializeF (ends bs) (fields (.bitlist l) v ++ (consts ++ input bs)) [] =
      (Res.of (deserialize (.bitlist l) v bs)).bind fun r => .ok (.bool r.1, fields (.bitlist l) r.2 ++ (consts ++ input bs), []) := by
  rw [deserialize.eq_def]
  simp only [bitlistDeserialize]
  by_cases hb : bs = []
  · subst hb
    cpp_run [bitlistDeserializeF]
    have e : at? ([] : List Byte) (([] : List Byte).length - 1 : Int) = .ub := rfl
    rw [e]
    rfl
  · have hlen : 0 < bs.length := List.length_pos_iff.2 hb
    have hlast : bs[bs.length - 1] = bs.getLast hb := (List.getLast_eq_getElem hb).symm
    have h1 := bitlist_outer fs int est fuel d (by omega) bs (.int .i32 (countlZero8 (bs.getLast hb))) [] 0 hlen fuel (by omega)
    have h2 := bitlist_tail fs int est fuel d bs hb _ (clz_le (bs.getLast hb)) (bs.dropLast.foldl (fun arr b => pushBits b 8 arr) []) 0 (by omega) (by omega) fuel (by omega)
    have hat : ((bs.length : Int) - 1 : Int) = ((bs.length - 1 : Nat) : Int) := by omega
    rw [hat] at h1 h2
    cpp_run [bitlistDeserializeF] at h1
    cpp_run [bitlistDeserializeF] at h2
    cpp_run [bitlistDeserializeF]
    rw [hat]
    have hz := clz_le (bs.getLast hb)
    cpp_arith [at_int, hlast, clz_of]
    rw [h1]
    cpp_run []
    rw [h2, List.getLast?_eq_some_getLast hb]
    simp only [BITS_PER_BYTE]
    by_cases h : 32 < (bitlistTailBound (countlZero8 (bs.getLast hb))).toNat
    · rw [if_pos h, decide_eq_true h]
      rfl
    · rw [if_neg h, decide_eq_false h, ← pushFrom_zero]
      rfl

end Mammon.Cpp
