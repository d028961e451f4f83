import Verif.Proofs.CppSim
/-!
# Integers, `Boolean`, `Bytes<N>`

What the functions in the text of common/slot.hpp, common/boolean.hpp and common/bytes.hpp do.
-/

namespace Mammon.Cpp
open Nasm

variable (fs : List Func) (int : Option IT) (est : Env) (fuel d : Nat)

theorem leBytes_fromLE_lt (l : List Byte) : fromLE l < 256 ^ l.length := by
  induction l with
  | nil => simp [fromLE]
  | cons b l ih =>
    rw [fromLE, List.length_cons, Nat.pow_succ]
    have := b.isLt
    omega

theorem slot_serialize (v : BitVec 64) :
    run fs int none est fuel d slotSerializeF [] (fields .uint64 v ++ consts) [] =
      (Res.of (serialize .uint64 v)).bind fun l => .ok (.bytes l, fields .uint64 v ++ consts, []) := by
  cpp_run [slotSerializeF]
  simp [serialize, serializeUB, serializeBytes, of_ok, bind_ok]

theorem slot_deserialize (v : BitVec 64) (bs : List Byte) (hb : bs.length < 2 ^ 63) :
    run fs int none est fuel d slotDeserializeF (ends bs) (fields .uint64 v ++ (consts ++ input bs)) [] =
      (Res.of (deserialize .uint64 v bs)).bind fun r => .ok (.bool r.1, fields .uint64 r.2 ++ (consts ++ input bs), []) := by
  cpp_run [slotDeserializeF]
  rw [conv_u64 (by omega) (by omega), deserialize.eq_def]
  by_cases h : bs.length = 8
  · have hl := leBytes_fromLE_lt bs
    rw [h] at hl
    rw [cond_of_not_false (by omega), cond_of_true (by omega), List.take_of_length_le (by omega), conv_u64 (by omega) (by omega)]
    simp [h, of_ok, bind_ok, Nat.mod_eq_of_lt (show fromLE bs < 18446744073709551616 from hl)]
  · rw [cond_of_not_true (by omega)]
    simp [h, of_ok, bind_ok]

theorem boolean_serialize (v : Bool) :
    run fs int none est fuel d booleanSerializeF [] (fields .boolean v ++ consts) [] =
      (Res.of (serialize .boolean v)).bind fun l => .ok (.bytes l, fields .boolean v ++ consts, []) := by
  cpp_run [booleanSerializeF]
  cases v <;> simp [serialize, serializeUB, serializeBytes, of_ok, bind_ok]

theorem boolean_deserialize (v : Bool) (bs : List Byte) (hb : bs.length < 2 ^ 63) :
    run fs int none est fuel d booleanDeserializeF (ends bs) (fields .boolean v ++ (consts ++ input bs)) [] =
      (Res.of (deserialize .boolean v bs)).bind fun r => .ok (.bool r.1, fields .boolean r.2 ++ (consts ++ input bs), []) := by
  cpp_run [booleanDeserializeF]
  rw [conv_i64 (by omega) (by omega), deserialize.eq_def]
  by_cases h : bs.length = 1
  · have hl := leBytes_fromLE_lt bs
    rw [h] at hl
    rw [cond_of_not_false (by omega), cond_of_true (by omega), List.take_of_length_le (by omega), conv_i32 (by omega) (by omega)]
    by_cases h1 : 1 < fromLE bs
    · rw [cond_of_true (by omega)]
      simp [h, h1, of_ok, bind_ok]
    · rw [cond_of_false (by omega)]
      by_cases h0 : fromLE bs = 0
      · simp [h, h0, of_ok, bind_ok]
      · have : (fromLE bs != 0) = true := by simp [h0]
        simp [h, h1, h0, of_ok, bind_ok]
  · rw [cond_of_not_true (by omega)]
    simp [h, of_ok, bind_ok]

theorem bytes_serialize (n : Nat) (v : BytesN n) :
    run fs int none est fuel d bytesSerializeF [] (fields (.bytes n) v ++ consts) [] =
      (Res.of (serialize (.bytes n) v)).bind fun l => .ok (.bytes l, fields (.bytes n) v ++ consts, []) := by
  cpp_run [bytesSerializeF]
  simp [serialize, serializeUB, serializeBytes, of_ok, bind_ok]

theorem bytes_deserialize (n : Nat) (hn : n < 2 ^ 64) (v : BytesN n) (bs : List Byte) (hb : bs.length < 2 ^ 63) :
    run fs int none est fuel d bytesDeserializeF (ends bs) (fields (.bytes n) v ++ (consts ++ input bs)) [] =
      (Res.of (deserialize (.bytes n) v bs)).bind fun r => .ok (.bool r.1, fields (.bytes n) r.2 ++ (consts ++ input bs), []) := by
  cpp_run [bytesDeserializeF]
  simp only [conv_u64 (n := bs.length) (by omega) (by omega), conv_u64 (n := n) (by omega) (by omega)]
  rw [deserialize.eq_def]
  have hv := v.2
  by_cases h : bs.length = n
  · rw [cond_of_not_false (by omega), cond_of_true (by omega), cond_of_true (by omega)]
    simp [h, hv, of_ok, bind_ok]
  · rw [cond_of_not_true (by omega)]
    simp [h, of_ok, bind_ok]

end Mammon.Cpp
