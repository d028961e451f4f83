import Verif.Proofs.CppHex
/-!
# Bit fields as strings

What the text of `to_string` in common/bitlist.cpp and common/bitvector.hpp does.
-/

namespace Mammon.Cpp
open Nasm Yaml

section
variable (C : Ctx) (s : Mem)
theorem operate_insert (f : Byte) (k b : Nat) (l m : List Byte) : operate .shl (.stream f k b l) (.chars m) = .ok (.stream f 0 b (l ++ padded f k m)) := rfl
theorem operate_insert_char (f : Byte) (k b : Nat) (l : List Byte) (x : Int) : operate .shl (.stream f k b l) (.int .u8 x) =
    .ok (.stream f 0 b (l ++ padded f k [BitVec.ofInt 8 x])) := rfl
theorem operate_fill (f : Byte) (k b : Nat) (l : List Byte) (x : Nat) : operate .shl (.stream f k b l) (.manip 0 x) = .ok (.stream (BitVec.ofNat 8 x) k b l) := rfl
theorem operate_width (f : Byte) (k b : Nat) (l : List Byte) (x : Nat) : operate .shl (.stream f k b l) (.manip 1 x) = .ok (.stream f x b l) := rfl
theorem operate_base (f : Byte) (k b : Nat) (l : List Byte) (x : Nat) : operate .shl (.stream f k b l) (.manip 2 x) = .ok (.stream f k x l) := rfl
theorem load_stream (f : Byte) (k b : Nat) (l : List Byte) : load (.stream f k b l) s = .ok (.stream f k b l) := rfl
theorem load_manip (k x : Nat) : load (.manip k x) s = .ok (.manip k x) := rfl
theorem like_stream (f g : Byte) (k j b c : Nat) (l m : List Byte) : like (.stream f k b l) (.stream g j c m) = .ok (.stream g j c m) := rfl
theorem library_setfill (o : Option IT) (t : IT) (x : Int) : C.library (name% "setfill") o [.int t x] s = some (.ok (.manip 0 x.toNat, s)) := by kernel_refl
theorem library_setw (o : Option IT) (t : IT) (x : Int) : C.library (name% "setw") o [.int t x] s = some (.ok (.manip 1 x.toNat, s)) := by kernel_refl
theorem invoke_stream (n : Nat) (p : Option Place) (f : Byte) (k b : Nat) (l : List Byte) (raws as : List Val) : C.invoke n p (.stream f k b l) raws as s =
    method n p (.stream f k b l) as s := rfl
theorem method_str (p : Option Place) (f : Byte) (k b : Nat) (l : List Byte) (as : List Val) : method (name% "str") p (.stream f k b l) as s = .ok (.chars l, s) := rfl
theorem method_flags (p : Place) (f : Byte) (k b : Nat) (l : List Byte) : method (name% "flags") (some p) (.stream f k b l) [] s = .ok (.int .i32 b, s) := rfl
theorem method_set_flags (p : Place) (f : Byte) (k b : Nat) (l : List Byte) (t : IT) (x : Int) : method (name% "flags") (some p) (.stream f k b l) [.int t x] s =
    (write? p (.stream f k x.toNat l) s).bind fun s => .ok (.int .i32 b, s) := rfl
theorem default_stream (int : Option IT) (E : Env) (fuel : Nat) (a b) : Ctx.default ⟨int, none, E, fuel, a, b⟩ (.var (name% "stringstream")) none =
    .ok (.stream 32#8 0 10 []) := rfl
end

/-- `cpp_hex` with what `to_string` uses in addition. -/
macro "cpp_stream" "[" ts:Lean.Parser.Tactic.simpLemma,* "]" l:(Lean.Parser.Tactic.location)? : tactic => `(tactic| cpp_hex [
  operate_insert, operate_insert_char, operate_fill, operate_width, operate_base, load_stream, load_manip, like_stream, library_setfill, library_setw,
  invoke_stream, method_str, method_flags, method_set_flags, default_stream, streamGlobals, $ts,*] $[$l]?)

variable (fs : List Func) (int : Option IT) (E : Env) (fuel d : Nat)

theorem string_loop (t : Ty) (v : t.denote) (flags : Nat) (bs : List Byte) (save : Val) (b : List Frame) (h : List Obj) (m : Nat) :
    ∀ (i : Nat) (f : Byte) (base : Nat) (out : List Byte), i + m = bs.length → ∀ n, m < n → ∃ (f' : Byte) (base' : Nat),
    (ctx fs int none E fuel d).forLoop (bitlistStringF.body.nth 4).cond (bitlistStringF.body.nth 4).step (bitlistStringF.body.nth 4).inner n
      ⟨[(name% "i", .iter (.here 2) i), (name% "serial", .bytes bs), (name% "save", save), (name% "os", .stream f 0 base out)], b, streamGlobals t v flags, h⟩ =
    .ok (none, ⟨[(name% "i", .iter (.here 2) bs.length), (name% "serial", .bytes bs), (name% "save", save),
      (name% "os", .stream f' 0 base' (out ++ (bs.drop i).flatMap fun x => [0x30#8, x]))], b, streamGlobals t v flags, h⟩) := by
  induction m with
  | zero =>
    intro i f base out hi n hn
    obtain ⟨n, rfl⟩ : ∃ m, n = m + 1 := ⟨n - 1, by omega⟩
    obtain rfl : i = bs.length := hi
    refine ⟨f, base, ?_⟩
    rw [forLoop_succ, List.drop_length, List.flatMap_nil, List.append_nil]
    cpp_stream [bitlistStringF]
  | succ m ih =>
    intro i f base out hi n hn
    obtain ⟨n, rfl⟩ : ∃ m, n = m + 1 := ⟨n - 1, by omega⟩
    rw [forLoop_succ, List.drop_eq_getElem_cons (by omega)]
    cpp_stream [bitlistStringF]
    cpp_arith [at_int]
    obtain ⟨f', base', ih⟩ := ih (i + 1) 0x30#8 16 (out ++ [0x30#8, bs[i]]) (by omega) n (by omega)
    refine ⟨f', base', ?_⟩
    cpp_stream [bitlistStringF] at ih
    push_cast at ih
    have ep : padded 48#8 2 [BitVec.ofInt 8 ((bs[i]'(by omega)).toNat : Int)] = [0x30#8, bs[i]'(by omega)] := by
      rw [BitVec.ofInt_natCast, BitVec.ofNat_toNat, BitVec.setWidth_eq]; rfl
    rw [ep, ih, List.flatMap_cons, List.append_assoc]

theorem same_string_loop : bitlistStringF.body.nth 4 = bitvectorStringF.body.nth 4 := by rfl

theorem bitlist_string_run (t : Ty) (v : t.denote) (flags : Nat) (hf : ∀ bs, serialize t v = .ok bs → bs.length < fuel) :
    run fs int none E fuel d bitlistStringF [] (streamGlobals t v flags) [] =
      (Res.of (serialize t v)).bind fun bs => .ok (.chars (rawString bs), streamGlobals t v flags, []) := by
  cpp_stream [bitlistStringF]
  cases hs : serialize t v with
  | throws e => rw [of_throws, bind_throws, bind_throws]
  | ub => rw [of_ub, bind_ub, bind_ub]
  | ok bs =>
    obtain ⟨f', base', hw⟩ := string_loop fs int E fuel d t v flags bs (.int .i32 flags) [[]] [] bs.length 0 32#8 10 [0x30#8, 0x78#8] (by omega) fuel (hf bs hs)
    cpp_stream [bitlistStringF] at hw
    rw [of_ok, bind_ok, bind_ok]
    have ep : padded 32#8 0 ((spell 64 (name% "0x") []).map (BitVec.ofNat 8)) = [0x30#8, 0x78#8] := by decide +kernel
    rw [ep, hw, bind_ok]
    cpp_stream []
    rfl

theorem bitvector_string_run (t : Ty) (v : t.denote) (flags : Nat) (hf : ∀ bs, serialize t v = .ok bs → bs.length < fuel) :
    run fs int none E fuel d bitvectorStringF [] (streamGlobals t v flags) [] =
      (Res.of (serialize t v)).bind fun bs => .ok (.chars (rawString bs), streamGlobals t v flags, []) := by
  cpp_stream [bitvectorStringF]
  cases hs : serialize t v with
  | throws e => rw [of_throws, bind_throws, bind_throws]
  | ub => rw [of_ub, bind_ub, bind_ub]
  | ok bs =>
    obtain ⟨f', base', hw⟩ := string_loop fs int E fuel d t v flags bs (.int .i32 flags) [[]] [] bs.length 0 32#8 10 [0x30#8, 0x78#8] (by omega) fuel (hf bs hs)
    rw [same_string_loop] at hw
    cpp_stream [bitvectorStringF] at hw
    rw [of_ok, bind_ok, bind_ok]
    have ep : padded 32#8 0 ((spell 64 (name% "0x") []).map (BitVec.ofNat 8)) = [0x30#8, 0x78#8] := by decide +kernel
    rw [ep, hw, bind_ok]
    cpp_stream []
    rfl

end Mammon.Cpp
