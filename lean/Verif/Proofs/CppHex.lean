import Verif.Proofs.CppBytes
import Verif.Proofs.CppBitlist
import Verif.Model.Yaml
/-!
# Bit fields from hexadecimal digits

What the text of `from_hexstring` in common/bitlist.cpp and common/bitvector.hpp does.
-/

namespace Mammon.Cpp
open Nasm Yaml

section
variable (C : Ctx) (s : Mem)
theorem method_length (p : Place) (l : List Byte) (as : List Val) : method (name% "length") (some p) (.chars l) as s = .ok (.int .u64 l.length, s) := rfl
theorem method_push_byte (p : Place) (l : List Byte) (t : IT) (x : Int) : method (name% "push_back") (some p) (.bytes l) [.int t x] s =
    (write? p (.bytes (l ++ [BitVec.ofInt 8 x])) s).bind fun s => .ok (.void, s) := rfl
theorem method_fill (p : Place) (l : List Bool) (t : IT) (x : Int) : method (name% "fill") (some p) (.bools l) [.int t x] s =
    (orStuck (truth (.int t x))).bind fun b => (write? p (.bools (List.replicate l.length b)) s).bind fun s => .ok (.void, s) := rfl
theorem library_deserialize (o : Option IT) (a b : Val) : C.library (name% "deserialize") o [a, b] s = some (match slotOf (name% "this") s.glob with
    | some k => (range? a b s).bind fun l => (read? (.glob k) s).bind fun v => match v with
      | .obj o => (Res.of (deserialize o.1 o.2 l)).bind fun r => (write? (.glob k) (.obj ⟨o.1, r.2⟩) s).bind fun s => .ok (.bool r.1, s)
      | _ => .stuck
    | _ => .stuck) := by kernel_refl
end

/-- `cpp_bytes` with what `from_hexstring` uses in addition. -/
macro "cpp_hex" "[" ts:Lean.Parser.Tactic.simpLemma,* "]" l:(Lean.Parser.Tactic.location)? : tactic => `(tactic| cpp_bytes [
  method_length, method_push_byte, method_fill, library_deserialize, library_hextoint, $ts,*] $[$l]?)

variable (fs : List Func) (int : Option IT) (elem : Option Ty) (E : Env) (fuel d : Nat)

/-- The table is found among the names. -/
def HasTable (g : Frame) : Prop := ∃ k, slotOf (name% "table") g = some k ∧ getSlot k g = some (.table (hexTable.map Int.ofNat))

theorem hextoint_enter_in (g : Frame) (hg : HasTable g) (x : Byte) (c : Frame) (b : List Frame) (h : List Obj) :
    (ctx fs int elem E fuel d).enter hextointF [.int .i8 x.toInt] ⟨c, b, g, h⟩ =
    (Res.of (hextoint x)).bind fun n => .ok (.int .i32 n, ⟨c, b, g, h⟩) := by
  obtain ⟨k, hk, hg⟩ := hg
  cpp_bytes [hextointF, hk, hg]
  rw [table_at, bind_assoc]
  obtain hx | ⟨n, hn, hx⟩ := hextoint_cases x
  · rw [hx, of_ub, bind_ub, bind_ub]
  · rw [hx, of_ok, bind_ok, bind_ok, bind_ok]
    cpp_arith []

theorem hextoint_call_in (hfind : find (name% "hextoint") fs = some hextointF) (D : Nat) (hD : D = d + 1) (g : Frame) (hg : HasTable g) (u : Val) (x : Byte) (c : Frame)
    (b : List Frame) (h : List Obj) : (ctx fs int elem E fuel D).call (name% "hextoint") [u] [.int .i8 x.toInt] ⟨c, b, g, h⟩ =
      (Res.of (hextoint x)).bind fun n => .ok (.int .i32 n, ⟨c, b, g, h⟩) := by
  rw [hD, ctx_call, hfind]
  dsimp only
  rw [pick_hextoint, hextoint_enter_in _ _ _ _ _ _ g hg]

theorem same_loop : bitlistHexF.body.nth 4 = bitvectorHexF.body.nth 4 := by rfl

theorem hex_loop (hfind : find (name% "hextoint") fs = some hextointF) (D : Nat) (hD : D = d + 1) (g : Frame) (hg : HasTable g) (str : List Byte) (hl : str.length < 2 ^ 31)
    (he : str.length % 2 = 0) (b : List Frame) (h : List Obj) (n : Nat) : ∀ (i : Nat) (hex : List Byte) (y : Int), i % 2 = 0 → i ≤ str.length → str.length < n + i → ∃ z : Int,
    (ctx fs int elem E fuel D).forLoop (bitlistHexF.body.nth 4).cond (bitlistHexF.body.nth 4).step (bitlistHexF.body.nth 4).inner n
      ⟨[(name% "offset", .int .i32 i), (name% "hex", .bytes hex), (name% "buffer", .int .u8 y), (name% "str", .chars str)], b, g, h⟩ =
    (Res.of (hexPairs (str.drop i))).bind fun r =>
      .ok (none, ⟨[(name% "offset", .int .i32 str.length), (name% "hex", .bytes (hex ++ r)), (name% "buffer", .int .u8 z), (name% "str", .chars str)], b, g, h⟩) := by
  have hc := hextoint_call_in fs int elem E fuel d hfind D hD g hg
  clear hD
  induction n with
  | zero => intro i hex y _ hi hn; omega
  | succ n ih =>
    intro i hex y h2 hi hn
    rw [forLoop_succ]
    by_cases hi : i < str.length
    · rw [List.drop_eq_getElem_cons (by omega), List.drop_eq_getElem_cons (by omega), hexPairs]
      cpp_hex [bitlistHexF]
      cpp_arith [at_int]
      cpp_hex [hc]
      obtain hx | ⟨v, hv, hx⟩ := hextoint_cases str[i]
      · exact ⟨0, by rw [hx, of_ub, bind_ub, out_ub, of_ub, bind_ub]⟩
      rw [hx, of_ok, bind_ok, out_ok]
      cpp_arith [at_int]
      have hq : str[((i : Int) + 1).toNat]'(by omega) = str[i + 1]'(by omega) := rfl
      rw [hq]
      obtain hw | ⟨w, hw', hw⟩ := hextoint_cases str[i + 1]
      · exact ⟨0, by rw [hw, of_ub, bind_ub, out_ub, of_ub, bind_ub]⟩
      rw [hw, of_ok, bind_ok, out_ok]
      obtain ⟨z, ih⟩ := ih (i + 2) (hex ++ [BitVec.ofNat 8 (v * 16 + w)]) (v * 16 + w : Nat) (by omega) (by omega) (by omega)
      refine ⟨z, ?_⟩
      cpp_hex [bitlistHexF] at ih
      cpp_arith []
      have eb : BitVec.ofInt 8 ((v : Int) * 16 + w) = BitVec.ofNat 8 (v * 16 + w) := by rw [← BitVec.ofInt_natCast]; push_cast; rfl
      push_cast at ih
      rw [eb, ih]
      rw [show i + 1 + 1 = i + 2 from rfl]
      cases hexPairs (str.drop (i + 2)) with
      | ok r => simp only [Out.map, of_ok, bind_ok, List.append_assoc, List.singleton_append]
      | throws e => rfl
      | ub => rfl
    · obtain rfl : i = str.length := by omega
      refine ⟨y, ?_⟩
      rw [List.drop_length, hexPairs.eq_2 _ (by simp), of_ok, bind_ok, List.append_nil]
      cpp_hex [bitlistHexF]
      cpp_arith []

theorem bitlist_table (L : Nat) (v : List Bool) : HasTable (bitlistHexGlobals L v) := ⟨0, rfl, rfl⟩
theorem bitvector_table (N : Nat) (v : List Bool) : HasTable (bitvectorHexGlobals N v) := ⟨_, rfl, rfl⟩

theorem parity (n : Nat) : Int.tmod (n : Int) 2 = (n % 2 : Nat) := (Int.ofNat_tmod n 2).symm
theorem out_throws {α β : Type} (e : Exc) (f : α → Out β) : (Out.throws e : Out α).bind f = .throws e := rfl

theorem bitlist_run (hfind : find (name% "hextoint") fs = some hextointF) (L : Nat) (v : List Bool) (str : List Byte) (hl : str.length < 2 ^ 31)
    (hf : str.length < fuel) : run fs int elem E fuel (d + 1) bitlistHexF [.chars str] (bitlistHexGlobals L v) [] =
      (Res.of (bitlistFromHex str)).bind fun l => .ok (.void, bitlistHexGlobals L l, []) := by
  rw [bitlistFromHex, hexString]
  by_cases h1 : str.take 2 = [0x30#8, 0x78#8]
  swap
  · rw [if_pos h1]
    cpp_hex [bitlistHexF, prefix_0x, decide_eq_false h1]
    rw [exec_invalid, bind_throws, out_throws, of_throws, bind_throws]
  rw [if_neg (fun h => h h1)]
  by_cases h2 : str.length % 2 = 0
  swap
  · rw [if_pos h2]
    cpp_hex [bitlistHexF, prefix_0x, decide_eq_true h1]
    rw [out_throws, of_throws, bind_throws]
    cpp_arith [parity]
    rw [exec_invalid, bind_throws]
  have h3 : 2 ≤ str.length := by have := congrArg List.length h1; simp at this; omega
  rw [if_neg (fun h => h h2), if_neg (by omega)]
  obtain ⟨z, hw⟩ := hex_loop fs int elem E fuel d hfind (d + 1) rfl (bitlistHexGlobals L v) (bitlist_table L v) str hl h2 [[]] [] fuel 2 [] 0 rfl h3 (by omega)
  generalize d + 1 = D at hw ⊢
  cpp_hex [bitlistHexF, bitlistHexGlobals] at hw
  cpp_hex [bitlistHexF, bitlistHexGlobals, prefix_0x, decide_eq_true h1]
  cpp_arith [parity]
  rw [hw]
  cases hexPairs (str.drop 2) with
  | ub => rw [of_ub, bind_ub, bind_ub, out_ub, of_ub, bind_ub]
  | throws e => rw [of_throws, bind_throws, bind_throws, out_throws, of_throws, bind_throws]
  | ok r =>
    rw [of_ok, bind_ok, bind_ok, out_ok]
    cpp_hex []
    rw [decide_eq_true (by omega), cond_true, deserialize]
    cases bitlistDeserialize r <;> rfl

/-- One bit of `hexStoreByte`. -/
def hexStoreBit (n i : Nat) (x : Byte) (arr : List Bool) (j : Nat) : List Bool :=
  if (8 * i + j) % 2 ^ 32 < n then arr.set ((8 * i + j) % 2 ^ 32) ((x >>> j) &&& 1#8 == 1#8) else arr

theorem store_index (i j : Nat) : IT.u32.conv (IT.u32.conv (IT.u32.conv (8 * (i : Int))) + j) = ((8 * i + j) % 2 ^ 32 : Nat) := by
  show ((8 * (i : Int)) % 2 ^ 32 % 2 ^ 32 + j) % 2 ^ 32 = _
  omega

theorem store_index_again (i j : Nat) : IT.u32.conv (IT.u32.conv (IT.u32.conv (IT.u32.conv (8 * (i : Int))) + j)) = ((8 * i + j) % 2 ^ 32 : Nat) := by
  show ((8 * (i : Int)) % 2 ^ 32 % 2 ^ 32 + j) % 2 ^ 32 % 2 ^ 32 = _
  omega

theorem store_rest (n i : Nat) (x : Byte) (arr : List Bool) (m : Nat) : ∀ j, j + m ≤ 8 → n ≤ (8 * i + j) % 2 ^ 32 →
    (List.range' j m).foldl (hexStoreBit n i x) arr = arr := by
  induction m with
  | zero => intro j _ _; rfl
  | succ m ih =>
    intro j hj h
    rw [List.range'_succ, List.foldl_cons, hexStoreBit, if_neg (by omega)]
    cases m with
    | zero => rfl
    | succ m => exact ih (j + 1) (by omega) (by omega)

theorem bit_loop (N : Nat) (hN : N < 2 ^ 32) (hex str : List Byte) (y : Int) (i : Nat) (hi : i < hex.length) (hi' : i < 2 ^ 31) (b : List Frame) (h : List Obj) (m : Nat) :
    ∀ (j : Nat) (arr : List Bool), arr.length = N → j + m = 8 → ∀ n, m < n → ∃ z : Nat,
    (ctx fs int elem E fuel d).forLoop (bitvectorHexF.body.nth 6).inner.cond (bitvectorHexF.body.nth 6).inner.step (bitvectorHexF.body.nth 6).inner.inner n
      ⟨[(name% "j", .int .i32 j), (name% "i", .int .i32 i), (name% "hex", .bytes hex), (name% "buffer", .int .u8 y), (name% "str", .chars str)], b,
        bitvectorHexGlobals N arr, h⟩ =
    .ok (none, ⟨[(name% "j", .int .i32 z), (name% "i", .int .i32 i), (name% "hex", .bytes hex), (name% "buffer", .int .u8 y), (name% "str", .chars str)], b,
        bitvectorHexGlobals N ((List.range' j m).foldl (hexStoreBit N i hex[i]) arr), h⟩) := by
  induction m with
  | zero =>
    intro j arr ha hj n hn
    obtain ⟨n, rfl⟩ : ∃ m, n = m + 1 := ⟨n - 1, by omega⟩
    obtain rfl : j = 8 := hj
    rw [forLoop_succ]
    refine ⟨8, ?_⟩
    cpp_hex [bitvectorHexF, bitvectorHexGlobals, consts]
    rfl
  | succ m ih =>
    intro j arr ha hj n hn
    obtain ⟨n, rfl⟩ : ∃ m, n = m + 1 := ⟨n - 1, by omega⟩
    rw [forLoop_succ]
    cpp_hex [bitvectorHexF, bitvectorHexGlobals, consts]
    cpp_arith [at_int]
    rw [store_index_again, store_index, bit_of _ _ (by omega)]
    by_cases hk : (8 * i + j) % 2 ^ 32 < N
    · rw [cond_of_true (by omega), set_int _ _ _ (by omega) (by omega), bind_ok, Int.toNat_natCast]
      obtain ⟨z, ih⟩ := ih (j + 1) (hexStoreBit N i hex[i] arr j) (by rw [hexStoreBit, if_pos hk, List.length_set, ha]) (by omega) n (by omega)
      refine ⟨z, ?_⟩
      cpp_hex [bitvectorHexF, bitvectorHexGlobals, consts] at ih
      push_cast at ih
      rw [List.range'_succ, List.foldl_cons, ← ih, hexStoreBit, if_pos hk]
    · refine ⟨j, ?_⟩
      rw [cond_of_false (by omega), store_rest _ _ _ _ _ _ (by omega) (by omega)]

theorem hexStoreByte_eq (n i : Nat) (x : Byte) (arr : List Bool) : hexStoreByte n i x arr = (List.range' 0 8).foldl (hexStoreBit n i x) arr := rfl

theorem length_store (n i : Nat) (x : Byte) (l : List Nat) : ∀ arr : List Bool, (l.foldl (hexStoreBit n i x) arr).length = arr.length := by
  induction l with
  | nil => intro arr; rfl
  | cons j l ih => intro arr; rw [List.foldl_cons, ih, hexStoreBit]; split <;> simp

theorem store_loop (N : Nat) (hN : N < 2 ^ 32) (hf : 8 < fuel) (hex str : List Byte) (hx : hex.length < 2 ^ 31) (y : Int) (b : List Frame) (h : List Obj) (m : Nat) :
    ∀ (i : Nat) (arr : List Bool), arr.length = N → i + m = hex.length → ∀ n, m < n →
    (ctx fs int elem E fuel d).forLoop (bitvectorHexF.body.nth 6).cond (bitvectorHexF.body.nth 6).step (bitvectorHexF.body.nth 6).inner n
      ⟨[(name% "i", .int .i32 i), (name% "hex", .bytes hex), (name% "buffer", .int .u8 y), (name% "str", .chars str)], b, bitvectorHexGlobals N arr, h⟩ =
    .ok (none, ⟨[(name% "i", .int .i32 hex.length), (name% "hex", .bytes hex), (name% "buffer", .int .u8 y), (name% "str", .chars str)], b,
        bitvectorHexGlobals N (hexStoreFrom N i (hex.drop i) arr), h⟩) := by
  induction m with
  | zero =>
    intro i arr ha hi n hn
    obtain ⟨n, rfl⟩ : ∃ m, n = m + 1 := ⟨n - 1, by omega⟩
    obtain rfl : i = hex.length := hi
    rw [forLoop_succ, List.drop_length, hexStoreFrom]
    cpp_hex [bitvectorHexF, bitvectorHexGlobals, consts]
    cpp_arith []
  | succ m ih =>
    intro i arr ha hi n hn
    obtain ⟨n, rfl⟩ : ∃ m, n = m + 1 := ⟨n - 1, by omega⟩
    obtain ⟨z, hw⟩ := bit_loop fs int elem E fuel d N hN hex str y i (by omega) (by omega) b h 8 0 arr ha rfl fuel hf
    have ih := ih (i + 1) (hexStoreByte N i (hex[i]'(by omega)) arr) (by rw [hexStoreByte_eq, length_store, ha]) (by omega) n (by omega)
    rw [forLoop_succ, List.drop_eq_getElem_cons (by omega), hexStoreFrom]
    rw [← hexStoreByte_eq] at hw
    cpp_hex [bitvectorHexF, bitvectorHexGlobals, consts] at hw ih
    push_cast at hw ih
    cpp_hex [bitvectorHexF, bitvectorHexGlobals, consts]
    cpp_arith []
    rw [hw, bind_ok]
    cpp_hex []
    cpp_arith []
    rw [ih]

theorem length_hexPairs (n : Nat) : ∀ (s r : List Byte), s.length ≤ n → hexPairs s = .ok r → r.length ≤ s.length := by
  induction n with
  | zero => intro s r hs h; obtain rfl := List.eq_nil_of_length_eq_zero (Nat.le_zero.mp hs); cases h; simp
  | succ n ih =>
    intro s r hs h
    match s, hs, h with
    | [], _, h => cases h; simp
    | [_], _, h => cases h; simp
    | c :: e :: s, hs, h =>
      rw [hexPairs] at h
      obtain hx | ⟨v, hv, hx⟩ := hextoint_cases c
      · rw [hx, out_ub] at h; cases h
      rw [hx, out_ok] at h
      obtain hx | ⟨v, hv, hx⟩ := hextoint_cases e
      · rw [hx, out_ub] at h; cases h
      rw [hx, out_ok] at h
      cases hp : hexPairs s with
      | ub => rw [hp] at h; cases h
      | throws e => rw [hp] at h; cases h
      | ok l =>
        rw [hp] at h
        cases h
        have := ih s l (by simp only [List.length_cons] at hs; omega) hp
        simp only [List.length_cons]
        omega

theorem bitvector_run (hfind : find (name% "hextoint") fs = some hextointF) (N : Nat) (hN : N < 2 ^ 32) (v : List Bool) (hv : v.length = N) (str : List Byte)
    (hl : str.length < 2 ^ 31) (hf : str.length + 8 < fuel) : run fs int elem E fuel (d + 1) bitvectorHexF [.chars str] (bitvectorHexGlobals N v) [] =
      (Res.of (bitvectorFromHex N str)).bind fun l => .ok (.void, bitvectorHexGlobals N l.1, []) := by
  rw [bitvectorFromHex, hexString]
  by_cases h1 : str.take 2 = [0x30#8, 0x78#8]
  swap
  · rw [if_pos h1]
    cpp_hex [bitvectorHexF, prefix_0x, decide_eq_false h1]
    rw [exec_invalid, bind_throws]
    rfl
  rw [if_neg (fun h => h h1)]
  by_cases h2 : str.length % 2 = 0
  swap
  · rw [if_pos h2]
    cpp_hex [bitvectorHexF, prefix_0x, decide_eq_true h1]
    cpp_arith [parity]
    rw [exec_invalid, bind_throws]
    rfl
  have h3 : 2 ≤ str.length := by have := congrArg List.length h1; simp at this; omega
  rw [if_neg (fun h => h h2), if_neg (by omega)]
  obtain ⟨z, hw⟩ := hex_loop fs int elem E fuel d hfind (d + 1) rfl (bitvectorHexGlobals N v) (bitvector_table N v) str hl h2 [[]] [] fuel 2 [] 0 rfl h3 (by omega)
  rw [same_loop] at hw
  generalize d + 1 = D at hw ⊢
  cpp_hex [bitvectorHexF, bitvectorHexGlobals, consts] at hw
  cpp_hex [bitvectorHexF, bitvectorHexGlobals, consts, prefix_0x, decide_eq_true h1]
  cpp_arith [parity]
  rw [hw]
  cases hp : hexPairs (str.drop 2) with
  | ub => rw [of_ub, bind_ub, bind_ub]; rfl
  | throws e => rw [of_throws, bind_throws, bind_throws]; rfl
  | ok r =>
    have hr : r.length ≤ str.length := by
      have := length_hexPairs _ _ _ (Nat.le_refl _) hp
      rw [List.length_drop] at this
      omega
    have hs := store_loop fs int elem E fuel D N hN (by omega) r str (by omega) z [[]] [] r.length 0 (List.replicate N false) List.length_replicate (by omega) fuel (by omega)
    cpp_hex [bitvectorHexF, bitvectorHexGlobals, consts] at hs
    push_cast at hs
    rw [of_ok, bind_ok, bind_ok]
    cpp_hex []
    rw [hv, hs, bind_ok]
    cpp_hex []
    rfl

end Mammon.Cpp
