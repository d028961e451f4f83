import Verif.Proofs.CppSim
import Verif.Model.CppObject
import Verif.Proofs.LE
/-!
# Operators and constructors of `Bytes`

What the text of the operators of common/bytes.hpp, of the functions there that make arrays from integers and from strings, and of
helpers/bytes_to_int.hpp does.
-/

namespace Mammon.Cpp
open Nasm

section
variable (C : Ctx) (s : Mem)
theorem eval_str (n : Nat) : C.eval (.str n) s = .ok (.chars ((Nasm.spell 64 n []).map (BitVec.ofNat 8)), s) := rfl
theorem eval_comma (a b : Ex) : C.eval (.comma a b) s = (C.eval a s).bind fun r => C.eval b r.2 := rfl
theorem load_chars (l : List Byte) : load (.chars l) s = .ok (.chars l) := rfl
theorem invoke_chars (n : Nat) (p : Option Place) (l : List Byte) (raws as : List Val) : C.invoke n p (.chars l) raws as s = method n p (.chars l) as s := rfl
theorem method_to_array (p : Place) (l : List Byte) (as : List Val) : method (name% "to_array") (some p) (.bytes l) as s = .ok (.ref p, s) := rfl
theorem method_starts (p : Place) (l m : List Byte) : method (name% "starts_with") (some p) (.chars l) [.chars m] s = .ok (.bool (m.isPrefixOf l), s) := rfl
theorem method_substr (p : Place) (l : List Byte) (t u : IT) (i k : Int) : method (name% "substr") (some p) (.chars l) [.int t i, .int u k] s =
    bif decide (IT.u64.conv i ≤ l.length) then .ok (.chars ((l.drop (IT.u64.conv i).toNat).take (IT.u64.conv k).toNat), s) else .throws .outOfRange := by kernel_refl
theorem operate_bytes (a b : List Byte) : operate .eq (.bytes a) (.bytes b) = .ok (.bool (a == b)) := rfl
theorem intOp_xor (t u : IT) (m n : Int) : intOp .xor (t, m) (u, n) =
    .ok (.int (t.common u) (bitwise .xor (t.common u) ((t.common u).conv m) ((t.common u).conv n))) := rfl
theorem library_bit_cast (o : Option IT) (t : IT) (x : Int) : C.library (name% "bit_cast") o [.int t x] s =
    some (.ok (.bytes (leBytes (t.bits / 8) (BitVec.ofInt t.bits x).toNat), s)) := rfl
theorem library_bytes (o : Option IT) (l : List Byte) : C.library (name% "Bytes") o [.bytes l] s = some (.ok (.bytes l, s)) := rfl
theorem make_array (k : Int) (e : Ex) : C.make (.tmpl (name% "array") (.cons (.var (name% "uint8_t")) (.cons e .nil))) (some k) [] s =
    .ok (.bytes (List.replicate k.toNat 0#8)) := rfl
theorem sizeArg_array (n m : Nat) (e : Ex) : C.sizeArg (.tmpl n (.cons (.var m) (.cons e .nil))) s = match C.value e s with
    | .ok (.int _ n, _) => some n
    | _ => none := rfl
theorem params_value (k : Nat) (t : Ex) (n : Nat) (ps : List Param) (l : List Byte) (vs : List Val) (f : Frame) :
    C.params k (⟨t, true, n⟩ :: ps) (.chars l :: vs) f = (C.coerce t (.chars l)).bind fun v => C.params k ps vs ((n, v) :: f) := rfl
theorem read_there (f k : Nat) (c : Frame) (b : List Frame) (g : Frame) (h : List Obj) :
    read? (.there f k) ⟨c, b, g, h⟩ = orStuck ((getFrame f b).bind (getSlot k)) := rfl
end

/-- `cpp_run` with what the functions of `Bytes` use in addition. -/
macro "cpp_bytes" "[" ts:Lean.Parser.Tactic.simpLemma,* "]" l:(Lean.Parser.Tactic.location)? : tactic => `(tactic| cpp_run [
  eval_str, eval_comma, load_chars, invoke_chars, method_to_array, method_starts, method_substr, operate_bytes, intOp_xor, library_bit_cast, library_bytes,
  make_array, sizeArg_array, params_value, read_there, Place.outer, bytesGlobals, hexGlobals, $ts,*] $[$l]?)

variable (fs : List Func) (int : Option IT) (elem : Option Ty) (E : Env) (fuel d : Nat)

theorem xor_byte (x y : Byte) : BitVec.ofInt 8 (bitwise .xor .i32 x.toNat y.toNat) = x ^^^ y := by
  have hx := x.isLt
  have hy := y.isLt
  have h : x.toNat ^^^ y.toNat < 2 ^ 8 := Nat.xor_lt_two_pow hx hy
  have : bitwise .xor .i32 x.toNat y.toNat = ((x.toNat ^^^ y.toNat : Nat) : Int) := by
    have h32 : (BitVec.ofNat 32 x.toNat ^^^ BitVec.ofNat 32 y.toNat) = BitVec.ofNat 32 (x.toNat ^^^ y.toNat) := by
      apply BitVec.eq_of_toNat_eq
      rw [BitVec.toNat_xor, BitVec.toNat_ofNat, BitVec.toNat_ofNat, BitVec.toNat_ofNat,
        Nat.mod_eq_of_lt (by omega), Nat.mod_eq_of_lt (by omega), Nat.mod_eq_of_lt (by omega)]
    rw [show bitwise .xor .i32 x.toNat y.toNat = (BitVec.ofNat 32 x.toNat ^^^ BitVec.ofNat 32 y.toNat).toInt from rfl, h32,
      BitVec.toInt_eq_toNat_of_lt (by rw [BitVec.toNat_ofNat, Nat.mod_eq_of_lt (by omega)]; omega), BitVec.toNat_ofNat, Nat.mod_eq_of_lt (by omega)]
  rw [this]
  apply BitVec.eq_of_toNat_eq
  rw [BitVec.toNat_xor, show BitVec.ofInt 8 ((x.toNat ^^^ y.toNat : Nat) : Int) = BitVec.ofNat 8 (x.toNat ^^^ y.toNat) from rfl, BitVec.toNat_ofNat, Nat.mod_eq_of_lt h]

theorem conv_byte (x : Byte) : IT.i32.conv (x.toNat : Int) = x.toNat := conv_i32 (by omega) (by have := x.isLt; omega)

theorem xor_loop (N M : Nat) (b : List Byte) (hN : N < 2 ^ 31) (m : Nat) : ∀ (i : Nat) (l : List Byte), i + m = N → l.length = N → b.length = N → ∀ k, m < k →
    (ctx fs int elem E fuel d).forLoop (xorF.body.nth 0).cond (xorF.body.nth 0).step (xorF.body.nth 0).inner k
      ⟨[(name% "i", .int .i32 i), (name% "b", .ref (.glob 1))], [[]], bytesGlobals N M (.bytes l) (.bytes b), []⟩ =
    (Res.of (xorLoop b (List.range' i m) l)).bind fun l =>
      .ok (none, ⟨[(name% "i", .int .i32 N), (name% "b", .ref (.glob 1))], [[]], bytesGlobals N M (.bytes l) (.bytes b), []⟩) := by
  induction m with
  | zero =>
    intro i l h hl hb k hk
    obtain ⟨k, rfl⟩ : ∃ m, k = m + 1 := ⟨k - 1, by omega⟩
    obtain rfl : i = N := by omega
    rw [forLoop_succ]
    cpp_bytes [xorF]
    cpp_arith []
    rfl
  | succ m ih =>
    intro i l h hl hb k hk
    obtain ⟨k, rfl⟩ : ∃ m, k = m + 1 := ⟨k - 1, by omega⟩
    replace ih := ih (i + 1) (l.set i (l[i]'(by omega) ^^^ b[i]'(by omega))) (by omega) (by rw [List.length_set]; exact hl) hb k (by omega)
    rw [List.range'_succ, xorLoop, List.getElem?_eq_getElem (by omega), List.getElem?_eq_getElem (by omega)]
    simp only
    rw [forLoop_succ]
    cpp_bytes [xorF] at ih
    cpp_bytes [xorF]
    cpp_arith [at_int, set_int, conv_byte, xor_byte]
    rw [ih]

theorem xor_run (N M : Nat) (a b : List Byte) (hN : N < 2 ^ 31) (ha : a.length = N) (hb : b.length = N) (hf : N < fuel) :
    run fs int elem E fuel d xorF [.ref (.glob 1)] (bytesGlobals N M (.bytes a) (.bytes b)) [] =
      (Res.of (xorLoop b (List.range N) a)).bind fun l => .ok (.void, bytesGlobals N M (.bytes l) (.bytes b), []) := by
  have h := xor_loop fs int elem E fuel d N M b hN N 0 a (by omega) ha hb fuel hf
  rw [List.range_eq_range']
  cpp_bytes [xorF] at h
  cpp_bytes [xorF]
  rw [h]
  cases xorLoop b (List.range' 0 N) a <;> rfl

/-- What `a ^= a` has done when it comes to the index `i`. -/
theorem xor_self_loop (N M : Nat) (b : Val) (hN : N < 2 ^ 31) (m : Nat) : ∀ (i : Nat) (l : List Byte), i + m = N → l.length = N → ∀ k, m < k →
    (ctx fs int elem E fuel d).forLoop (xorF.body.nth 0).cond (xorF.body.nth 0).step (xorF.body.nth 0).inner k
      ⟨[(name% "i", .int .i32 i), (name% "b", .ref (.glob 0))], [[]], bytesGlobals N M (.bytes l) b, []⟩ =
    .ok (none, ⟨[(name% "i", .int .i32 N), (name% "b", .ref (.glob 0))], [[]], bytesGlobals N M (.bytes (l.take i ++ List.replicate m 0#8)) b, []⟩) := by
  induction m with
  | zero =>
    intro i l h hl k hk
    obtain ⟨k, rfl⟩ : ∃ m, k = m + 1 := ⟨k - 1, by omega⟩
    obtain rfl : i = N := by omega
    rw [forLoop_succ]
    cpp_bytes [xorF]
    cpp_arith []
    rw [List.take_of_length_le (by omega)]
  | succ m ih =>
    intro i l h hl k hk
    obtain ⟨k, rfl⟩ : ∃ m, k = m + 1 := ⟨k - 1, by omega⟩
    replace ih := ih (i + 1) (l.set i 0#8) (by omega) (by rw [List.length_set]; exact hl) k (by omega)
    rw [forLoop_succ]
    cpp_bytes [xorF] at ih
    cpp_bytes [xorF]
    cpp_arith [at_int, set_int, conv_byte, xor_byte, BitVec.xor_self]
    rw [ih]
    have : (l.set i 0#8).take (i + 1) = l.take i ++ [0#8] := by
      rw [List.take_add_one, List.take_set_of_le (by omega), List.getElem?_set_self (by omega)]; rfl
    rw [this, List.append_assoc, List.replicate_succ]
    rfl

theorem xor_self_run (N M : Nat) (a : List Byte) (b : Val) (hN : N < 2 ^ 31) (ha : a.length = N) (hf : N < fuel) :
    run fs int elem E fuel d xorF [.ref (.glob 0)] (bytesGlobals N M (.bytes a) b) [] =
      .ok (.void, bytesGlobals N M (.bytes (List.replicate N 0#8)) b, []) := by
  have h := xor_self_loop fs int elem E fuel d N M b hN N 0 a (by omega) ha fuel hf
  cpp_bytes [xorF] at h
  cpp_bytes [xorF]
  rw [h]
  rfl

theorem drop_eq_iff {a r : List Byte} {i : Nat} (ha : i < a.length) (hr : i < r.length) : a.drop i = r.drop i ↔ a[i] = r[i] ∧ a.drop (i + 1) = r.drop (i + 1) := by
  rw [List.drop_eq_getElem_cons ha, List.drop_eq_getElem_cons hr, List.cons.injEq]

theorem byte_eq_iff (x y : Byte) : ((x.toNat : Int) = y.toNat) ↔ x = y := ⟨fun h => BitVec.eq_of_toNat_eq (by omega), fun h => by rw [h]⟩

theorem equal_vector_loop (N M : Nat) (a r : List Byte) (hN : N < 2 ^ 31) (ha : a.length = N) (hr : r.length = N) (m : Nat) : ∀ (i : Nat), i + m = N → ∀ k, m < k →
    ∃ j : Nat, (ctx fs int elem E fuel d).forLoop (equalVectorF.body.nth 1).cond (equalVectorF.body.nth 1).step (equalVectorF.body.nth 1).inner k
      ⟨[(name% "i", .int .i32 i), (name% "r", .ref (.glob 1))], [[]], bytesGlobals N M (.bytes a) (.bytes r), []⟩ =
    .ok (bif decide (a.drop i = r.drop i) then none else some (.bool false),
      ⟨[(name% "i", .int .i32 j), (name% "r", .ref (.glob 1))], [[]], bytesGlobals N M (.bytes a) (.bytes r), []⟩) := by
  induction m with
  | zero =>
    intro i h k hk
    obtain ⟨k, rfl⟩ : ∃ m, k = m + 1 := ⟨k - 1, by omega⟩
    obtain rfl : i = N := by omega
    refine ⟨i, ?_⟩
    rw [forLoop_succ, decide_eq_true (by rw [List.drop_of_length_le (by omega), List.drop_of_length_le (by omega)])]
    cpp_bytes [equalVectorF]
    cpp_arith []
  | succ m ih =>
    intro i h k hk
    obtain ⟨k, rfl⟩ : ∃ m, k = m + 1 := ⟨k - 1, by omega⟩
    obtain ⟨j, ih⟩ := ih (i + 1) (by omega) k (by omega)
    have e := drop_eq_iff (a := a) (r := r) (i := i) (by omega) (by omega)
    by_cases hx : a[i]'(by omega) = r[i]'(by omega)
    · refine ⟨j, ?_⟩
      have ed : decide (a.drop i = r.drop i) = decide (a.drop (i + 1) = r.drop (i + 1)) := decide_eq_decide.mpr (e.trans (and_iff_right hx))
      rw [forLoop_succ, ed]
      cpp_bytes [equalVectorF] at ih
      cpp_bytes [equalVectorF]
      cpp_arith [at_int, conv_byte, byte_eq_iff, hx, decide_true, Bool.not_true, cond_false]
      rw [ih]
    · refine ⟨i, ?_⟩
      rw [forLoop_succ, decide_eq_false (fun h => hx (e.1 h).1)]
      cpp_bytes [equalVectorF]
      cpp_arith [at_int, conv_byte, byte_eq_iff, hx, decide_false, Bool.not_false, cond_true]

theorem equal_vector_run (N M : Nat) (a r : List Byte) (hN : N < 2 ^ 31) (ha : a.length = N) (hr : r.length < 2 ^ 64) (hf : N < fuel) :
    run fs int elem E fuel d equalVectorF [.ref (.glob 1)] (bytesGlobals N M (.bytes a) (.bytes r)) [] =
      .ok (.bool (decide (a = r)), bytesGlobals N M (.bytes a) (.bytes r), []) := by
  by_cases h : r.length = N
  · obtain ⟨j, hl⟩ := equal_vector_loop fs int elem E fuel d N M a r hN ha h N 0 (by omega) fuel hf
    cpp_bytes [equalVectorF] at hl
    cpp_bytes [equalVectorF]
    cpp_arith []
    rw [hl]
    cases decide (a = r) <;> rfl
  · rw [decide_eq_false (fun e => h (by rw [← e, ha]))]
    cpp_bytes [equalVectorF]
    cpp_arith []

theorem equal_run (N : Nat) (a b : List Byte) :
    run fs int elem E fuel d equalF [.ref (.glob 1)] (bytesGlobals N N (.bytes a) (.bytes b)) [] =
      .ok (.bool (a == b), bytesGlobals N N (.bytes a) (.bytes b), []) := by
  cpp_bytes [equalF]

theorem concat_run (N M : Nat) (a b : List Byte) (hN : N + M < 2 ^ 64) (ha : a.length = N) (hb : b.length = M) :
    run fs int elem E fuel d concatF [.ref (.glob 1)] (bytesGlobals N M (.bytes a) (.bytes b)) [] =
      .ok (.bytes (a ++ b), bytesGlobals N M (.bytes a) (.bytes b), []) := by
  have hj : (E.bytes ((N : Int) + M).toNat).length = N + M := by simp [Env.bytes]; omega
  cpp_bytes [concatF]
  cpp_arith [hj]
  generalize E.bytes ((N : Int) + M).toNat = J at hj
  have e : List.take 0 J ++ (a ++ List.drop (0 + a.length) J) = a ++ J.drop N := by rw [List.take_zero, List.nil_append, Nat.zero_add, ha]
  have el : (a ++ J.drop N).length = N + M := by rw [List.length_append, List.length_drop]; omega
  rw [e, el]
  cpp_arith []
  rw [List.take_left' ha, List.drop_of_length_le (by omega), List.append_nil]

theorem from_int_copy (k n N : Nat) (g : Frame) :
    (bif decide ((0 : Int) ≤ ((leBytes k n).length : Nat)) then
      bif decide (((leBytes k n).length : Int) ≤ ((List.replicate N 0#8).length : Nat)) then
        Res.ok (Val.bytes (List.take 0 (List.replicate N 0#8) ++ (leBytes k n ++ List.drop (0 + (leBytes k n).length) (List.replicate N 0#8))), g, ([] : List Obj))
      else .ub
    else .ub) = (Res.of (bytesFromInt N k n)).bind fun l => .ok (.bytes l, g, []) := by
  rw [length_leBytes, List.length_replicate, bytesFromInt, cond_of_true (by omega)]
  by_cases h : k ≤ N
  · rw [if_pos h, cond_of_true (by omega), List.take_zero, List.nil_append, Nat.zero_add, List.drop_replicate, of_ok, bind_ok]
  · rw [if_neg h, cond_of_false (by omega), of_ub, bind_ub]

theorem from_int_run (N : Nat) (t : IT) (x : Int) (hN : N < 2 ^ 64) :
    run fs int elem E fuel d fromIntF [.int t x] (hexGlobals N) [] =
      (Res.of (bytesFromInt N (t.bits / 8) (BitVec.ofInt t.bits x).toNat)).bind fun l => .ok (.bytes l, hexGlobals N, []) := by
  cpp_bytes [fromIntF]
  exact from_int_copy _ _ _ _

theorem table_zero : run fs int elem E fuel d tableF [] [(name% "tab", .longs (List.replicate 128 0))] [] =
    .ok (.void, [(name% "tab", .longs (hexTable.map Int.ofNat))], []) := by
  kernel_refl

theorem table_clear (ss : Sts) (l : List Int) (b : List Frame) :
    (ctx fs int elem E fuel d).execs (.cons (.expr (.assign (.var (name% "tab")) (.brace (.var (name% "auto")) .nil))) ss) ⟨[], b, [(name% "tab", .longs l)], []⟩ =
      (ctx fs int elem E fuel d).execs ss ⟨[], b, [(name% "tab", .longs (List.replicate l.length 0))], []⟩ := by
  cpp_bytes []
  rw [show like (.longs l) .braces = .ok (.longs (List.replicate l.length 0)) from rfl, bind_ok]

theorem table_run (l : List Int) (hl : l.length = 128) : run fs int elem E fuel d tableF [] [(name% "tab", .longs l)] [] =
    .ok (.void, [(name% "tab", .longs (hexTable.map Int.ofNat))], []) := by
  have h : run fs int elem E fuel d tableF [] [(name% "tab", .longs l)] [] = run fs int elem E fuel d tableF [] [(name% "tab", .longs (List.replicate l.length 0))] [] := by
    obtain ⟨ss, hs⟩ : ∃ ss, tableF.body = .cons (.expr (.assign (.var (name% "tab")) (.brace (.var (name% "auto")) .nil))) ss := ⟨_, rfl⟩
    rw [run_eq, run_eq, enter_mk, enter_mk, hs, show tableF.params = [] from rfl, params_nil, bind_ok, bind_ok, table_clear, table_clear, List.length_replicate]
  rw [h, hl, table_zero]

theorem at_beyond {α : Type} (l : List α) (i : Int) (h : (l.length : Int) ≤ i) : at? l i = .ub := by
  rw [at?, cond_of_true (by omega), List.getElem?_eq_none (by omega)]

theorem conv_char : ∀ c : Fin 256, IT.u64.conv (IT.i8.conv (IT.u64.conv (IT.i8.conv (BitVec.ofFin (w := 8) c).toInt))) =
    if c.val < 128 then (c.val : Int) else 2 ^ 64 - 256 + c.val := by decide +kernel

theorem hexTable_length : hexTable.length = 128 := by decide +kernel
theorem hexTable_small : ∀ x ∈ hexTable, x < 16 := by decide +kernel

theorem table_at (c : Byte) : at? (hexTable.map Int.ofNat) (IT.u64.conv (IT.i8.conv (IT.u64.conv (IT.i8.conv c.toInt)))) =
    (Res.of (hextoint c)).bind fun n => .ok (n : Int) := by
  have h := conv_char c.toFin
  rw [show BitVec.ofFin (w := 8) c.toFin = c from rfl, show (c.toFin : Nat) = c.toNat from rfl] at h
  rw [h, hextoint]
  have hl := hexTable_length
  by_cases hc : c.toNat < 128
  · rw [if_pos hc, at_int _ _ (by omega) (by rw [List.length_map]; omega), List.getElem?_eq_getElem (by omega)]
    simp only [List.getElem_map, Int.toNat_natCast]
    rfl
  · rw [if_neg hc, at_beyond _ _ (by rw [List.length_map, hl]; omega), List.getElem?_eq_none (by omega)]
    rfl

theorem conv_char_once : ∀ c : Fin 256, IT.u64.conv (IT.i8.conv (BitVec.ofFin (w := 8) c).toInt) =
    if c.val < 128 then (c.val : Int) else 2 ^ 64 - 256 + c.val := by decide +kernel

theorem conv_once (c : Byte) : IT.u64.conv (IT.i8.conv c.toInt) = IT.u64.conv (IT.i8.conv (IT.u64.conv (IT.i8.conv c.toInt))) :=
  (conv_char_once c.toFin).trans (conv_char c.toFin).symm

theorem table_at_run (c : Byte) (g : Frame) (hg : g = [(name% "tab", .longs (hexTable.map Int.ofNat))]) :
    run fs int elem E fuel d tableAtF [.int .i8 c.toInt] g [] = (Res.of (hextoint c)).bind fun n => .ok (.int .i64 n, g, []) := by
  have : run fs int elem E fuel d tableAtF [.int .i8 c.toInt] g [] =
      (at? (hexTable.map Int.ofNat) (IT.u64.conv (IT.i8.conv c.toInt))).bind fun n => .ok (.int .i64 n, g, []) := by
    subst hg
    cpp_bytes [tableAtF]
  rw [this, conv_once, table_at, bind_assoc]
  rfl

theorem hextoint_cases (x : Byte) : hextoint x = .ub ∨ ∃ n < 16, hextoint x = .ok n := by
  rw [hextoint]
  cases e : hexTable[x.toNat]? with
  | none => exact .inl rfl
  | some n => exact .inr ⟨n, hexTable_small _ (List.mem_of_getElem? e), rfl⟩

theorem hextoint_enter (N : Nat) (x : Byte) (c : Frame) (b : List Frame) (h : List Obj) :
    (ctx fs int elem E fuel d).enter hextointF [.int .i8 x.toInt] ⟨c, b, hexGlobals N, h⟩ =
    (Res.of (hextoint x)).bind fun n => .ok (.int .i32 n, ⟨c, b, hexGlobals N, h⟩) := by
  cpp_bytes [hextointF]
  rw [table_at, bind_assoc]
  obtain hx | ⟨n, hn, hx⟩ := hextoint_cases x
  · rw [hx, of_ub, bind_ub, bind_ub]
  · rw [hx, of_ok, bind_ok, bind_ok, bind_ok]
    cpp_arith []

theorem out_ok {α β : Type} (a : α) (f : α → Out β) : (Out.ok a).bind f = f a := rfl
theorem out_ub {α β : Type} (f : α → Out β) : (Out.ub : Out α).bind f = .ub := rfl

theorem pick_hextoint (a x : Val) : pick hextointF.params [a] [x] = [x] := rfl
theorem library_hextoint (C : Ctx) (s : Mem) (t : Option IT) (as : List Val) : C.library (name% "hextoint") t as s = none := by kernel_refl
theorem library_strhex (C : Ctx) (s : Mem) (t : Option IT) (as : List Val) : C.library (name% "strhex2int") t as s = none := by kernel_refl
theorem library_chars (C : Ctx) (s : Mem) (t : Option IT) (as : List Val) : C.library (name% "chars_to_byte") t as s = none := by kernel_refl

theorem hextoint_call (hfind : find (name% "hextoint") fs = some hextointF) (D : Nat) (hD : D = d + 1) (N : Nat) (u : Val) (x : Byte) (c : Frame) (b : List Frame) (h : List Obj) :
    (ctx fs int elem E fuel D).call (name% "hextoint") [u] [.int .i8 x.toInt] ⟨c, b, hexGlobals N, h⟩ =
      (Res.of (hextoint x)).bind fun n => .ok (.int .i32 n, ⟨c, b, hexGlobals N, h⟩) := by
  rw [hD, ctx_call, hfind]
  dsimp only
  rw [pick_hextoint, hextoint_enter]

theorem strhex_loop (hfind : find (name% "hextoint") fs = some hextointF) (D : Nat) (hD : D = d + 1) (N : Nat) (l : List Byte) (hl : l.length < 2 ^ 31)
    (f k : Nat) (b : List Frame) (hp : (getFrame f b).bind (getSlot k) = some (.chars l)) (h : List Obj) (m : Nat) : m ≤ l.length → ∀ (J R : Nat), J < 2 ^ 31 → R < 2 ^ 31 → ∀ n, m < n →
    (ctx fs int elem E fuel D).forLoop (strhexF.body.nth 1).cond (strhexF.body.nth 1).step (strhexF.body.nth 1).inner n
      ⟨[(name% "j", .int .i32 J), (name% "i", .int .i32 ((m : Int) - 1)), (name% "ret", .int .i32 R), (name% "str", .ref (.there f k))], b, hexGlobals N, h⟩ =
    (Res.of (strhexLoop (l.take m).reverse J R)).bind fun r =>
      .ok (none, ⟨[(name% "j", .int .i32 (J * 16 ^ m : Nat)), (name% "i", .int .i32 (-1)), (name% "ret", .int .i32 r), (name% "str", .ref (.there f k))], b, hexGlobals N, h⟩) := by
  have hc := hextoint_call fs int elem E fuel d hfind D hD N
  simp only [hexGlobals] at hc
  induction m with
  | zero =>
    intro _ J R hJ hR n hn
    obtain ⟨n, rfl⟩ : ∃ m, n = m + 1 := ⟨n - 1, by omega⟩
    rw [forLoop_succ, List.take_zero, List.reverse_nil, strhexLoop, of_ok, bind_ok, Nat.pow_zero, Nat.mul_one]
    cpp_bytes [strhexF, library_hextoint]
  | succ m ih =>
    intro hm J R hJ hR n hn
    obtain ⟨n, rfl⟩ : ∃ m, n = m + 1 := ⟨n - 1, by omega⟩
    rw [forLoop_succ, List.take_succ_eq_append_getElem (by omega), List.reverse_append, List.reverse_singleton, List.singleton_append, strhexLoop]
    cpp_bytes [strhexF, library_hextoint, hp]
    have ih := fun J R hJ hR => ih (by omega) J R hJ hR n (by omega)
    cpp_bytes [strhexF, library_hextoint] at ih
    rw [show (m : Int) + 1 - 1 = m by omega]
    cpp_arith [at_int]
    cpp_bytes [hc]
    obtain hx | ⟨v, hv, hx⟩ := hextoint_cases l[m]
    · rw [hx, of_ub, bind_ub, out_ub, of_ub, bind_ub]
    · rw [hx, of_ok, out_ok]
      cpp_bytes [bind_ok]
      have hp : 0 ≤ (v : Int) * J := Int.mul_nonneg (by omega) (by omega)
      have hq : ((v * J : Nat) : Int) = (v : Int) * J := by push_cast; rfl
      by_cases h1 : v * J < 2 ^ 31
      · cpp_arith []
        by_cases h2 : R + v * J < 2 ^ 31
        · cpp_arith []
          by_cases h3 : J * 16 < 2 ^ 31
          · rw [if_pos ⟨h1, h2, h3⟩]
            cpp_arith []
            have ih := ih (J * 16) (R + v * J) h3 h2
            rw [show J * 16 * 16 ^ m = J * 16 ^ (m + 1) by rw [Nat.pow_succ']; ac_rfl] at ih
            rw [show (J : Int) * 16 = (J * 16 : Nat) by push_cast; rfl, show (R : Int) + v * J = (R + v * J : Nat) by push_cast; rfl, ih]
          · cpp_arith []
            rw [if_neg (by omega), of_ub, bind_ub]
        · cpp_arith []
          rw [if_neg (by omega), of_ub, bind_ub]
      · cpp_arith []
        rw [if_neg (by omega), of_ub, bind_ub]

theorem strhexLoop_lt (l : List Byte) : ∀ (J R r : Nat), R < 2 ^ 31 → strhexLoop l J R = .ok r → r < 2 ^ 31 := by
  induction l with
  | nil =>
    intro J R r hR h
    rw [strhexLoop] at h
    cases h
    exact hR
  | cons x l ih =>
    intro J R r hR h
    rw [strhexLoop] at h
    obtain hx | ⟨v, hv, hx⟩ := hextoint_cases x
    · rw [hx, out_ub] at h; cases h
    · rw [hx, out_ok] at h
      by_cases hc : v * J < 2 ^ 31 ∧ R + v * J < 2 ^ 31 ∧ J * 16 < 2 ^ 31
      · rw [if_pos hc] at h; exact ih _ _ _ hc.2.1 h
      · rw [if_neg hc] at h; cases h

theorem conv_last (n : Nat) (h : n < 2 ^ 31) : IT.i32.conv (IT.u64.conv (IT.u64.conv (n : Int) - 1)) = (n : Int) - 1 := by
  rw [conv_u64 (n := (n : Int)) (by omega) (by omega)]
  cases n with
  | zero => decide
  | succ n => rw [conv_u64 (by omega) (by omega), conv_i32 (by omega) (by omega)]

theorem frame_top (c : Frame) (b : List Frame) : getFrame b.length (c :: b) = some c := by
  rw [getFrame, show Nat.beq b.length b.length = true from Nat.beq_refl _]; rfl

theorem strhex_enter (hfind : find (name% "hextoint") fs = some hextointF) (D : Nat) (hD : D = d + 1) (N : Nat) (l : List Byte) (hl : l.length < 2 ^ 31) (hf : l.length < fuel)
    (k : Nat) (c : Frame) (b : List Frame) (hp : getSlot k c = some (.chars l)) (h : List Obj) :
    (ctx fs int elem E fuel D).enter strhexF [.ref (.here k)] ⟨c, b, hexGlobals N, h⟩ =
      (Res.of (strhex2int l)).bind fun n => .ok (.int .i32 n, ⟨c, b, hexGlobals N, h⟩) := by
  have hp : (getFrame b.length (c :: b)).bind (getSlot k) = some (.chars l) := by rw [frame_top]; exact hp
  have hw := strhex_loop fs int elem E fuel d hfind D hD N l hl b.length k (c :: b) hp h l.length (by omega) 1 0 (by omega) (by omega) fuel hf
  rw [List.take_length, ← strhex2int, ← conv_last _ hl] at hw
  cpp_bytes [strhexF, library_hextoint] at hw
  cpp_bytes [strhexF, library_hextoint, hp]
  rw [hw]
  cases hs : strhex2int l with
  | throws e => rw [of_throws, bind_throws, bind_throws, bind_throws]
  | ub => rw [of_ub, bind_ub, bind_ub, bind_ub]
  | ok r =>
    have := strhexLoop_lt _ _ _ _ (by omega) hs
    rw [of_ok, bind_ok, bind_ok]
    cpp_bytes []
    cpp_arith []

theorem pick_strhex (a x : Val) : pick strhexF.params [a] [x] = [a] := rfl

theorem strhex_call (hfind : find (name% "hextoint") fs = some hextointF) (hfind' : find (name% "strhex2int") fs = some strhexF) (D : Nat) (hD : D = d + 2) (N : Nat)
    (l : List Byte) (hl : l.length < 2 ^ 31) (hf : l.length < fuel) (k : Nat) (x : Val) (c : Frame) (b : List Frame) (hp : getSlot k c = some (.chars l)) (h : List Obj) :
    (ctx fs int elem E fuel D).call (name% "strhex2int") [.ref (.here k)] [x] ⟨c, b, hexGlobals N, h⟩ =
      (Res.of (strhex2int l)).bind fun n => .ok (.int .i32 n, ⟨c, b, hexGlobals N, h⟩) := by
  rw [hD, ctx_call, hfind']
  dsimp only
  rw [pick_strhex, strhex_enter fs int elem E fuel d hfind (d + 1) rfl N l hl hf k c b hp]

theorem byte_of_int (n : Nat) : IT.u8.conv (n : Int) = ((BitVec.ofNat 8 n).toNat : Nat) := by
  rw [BitVec.toNat_ofNat]
  show (n : Int) % 2 ^ 8 = _
  omega

theorem chars_enter (hfind : find (name% "hextoint") fs = some hextointF) (hfind' : find (name% "strhex2int") fs = some strhexF) (D : Nat) (hD : D = d + 2) (N : Nat)
    (l : List Byte) (hl : l.length < 2 ^ 31) (hf : l.length < fuel) (c : Frame) (b : List Frame) (h : List Obj) :
    (ctx fs int elem E fuel D).enter charsF [.chars l] ⟨c, b, hexGlobals N, h⟩ =
      (Res.of (charsToByte l)).bind fun n => .ok (.int .u8 n.toNat, ⟨c, b, hexGlobals N, h⟩) := by
  have hc := fun x => strhex_call fs int elem E fuel d hfind hfind' D hD N l hl hf 0 x [(name% "c", .chars l)] (c :: b) rfl h
  simp only [hexGlobals] at hc
  clear hD
  cpp_bytes [charsF, library_strhex, hc]
  rw [charsToByte]
  cases hs : strhex2int l with
  | throws e => rw [of_throws, bind_throws]; rfl
  | ub => rw [of_ub, bind_ub]; rfl
  | ok r => rw [of_ok, bind_ok, byte_of_int]; rfl

theorem pick_chars (a x : Val) : pick charsF.params [a] [x] = [a] := rfl

theorem chars_call (hfind : find (name% "hextoint") fs = some hextointF) (hfind' : find (name% "strhex2int") fs = some strhexF)
    (hfind'' : find (name% "chars_to_byte") fs = some charsF) (D : Nat) (hD : D = d + 3) (N : Nat)
    (l : List Byte) (hl : l.length < 2 ^ 31) (hf : l.length < fuel) (x : Val) (c : Frame) (b : List Frame) (h : List Obj) :
    (ctx fs int elem E fuel D).call (name% "chars_to_byte") [.chars l] [x] ⟨c, b, hexGlobals N, h⟩ =
      (Res.of (charsToByte l)).bind fun n => .ok (.int .u8 n.toNat, ⟨c, b, hexGlobals N, h⟩) := by
  rw [hD, ctx_call, hfind'']
  dsimp only
  rw [pick_chars, chars_enter fs int elem E fuel d hfind hfind' (d + 2) rfl N l hl hf c b]

theorem from_str_loop (hfind : find (name% "hextoint") fs = some hextointF) (hfind' : find (name% "strhex2int") fs = some strhexF)
    (hfind'' : find (name% "chars_to_byte") fs = some charsF) (D : Nat) (hD : D = d + 3) (N : Nat)
    (str : List Byte) (hl : str.length + 2 < 2 ^ 31) (hf : 2 < fuel) (b : List Frame) (h : List Obj) (n : Nat) : ∀ (i : Nat) (ret : List Byte), 2 ≤ i → i < 2 ^ 31 →
    n ≠ 0 → str.length < n + i → ∃ j : Nat,
    (ctx fs int elem E fuel D).forLoop (fromStrF.body.nth 3).cond (fromStrF.body.nth 3).step (fromStrF.body.nth 3).inner n
      ⟨[(name% "i", .int .i32 i), (name% "ret_arr", .bytes ret), (name% "str", .chars str)], b, hexGlobals N, h⟩ =
    (Res.of (fromStrLoop str i ret)).bind fun r =>
      .ok (none, ⟨[(name% "i", .int .i32 j), (name% "ret_arr", .bytes r), (name% "str", .chars str)], b, hexGlobals N, h⟩) := by
  have hc := fun i => chars_call fs int elem E fuel d hfind hfind' hfind'' D hD N ((str.drop i).take 2) (by simp) (by simp; omega)
  simp only [hexGlobals] at hc
  clear hD
  induction n with
  | zero =>
    intro i ret h2 h31 hn
    exact absurd rfl hn
  | succ n ih =>
    intro i ret h2 h31 _ hn
    rw [forLoop_succ, fromStrLoop]
    by_cases hi : i < str.length
    · rw [if_pos hi]
      cpp_bytes [fromStrF, library_chars]
      cpp_arith []
      simp only [hc]
      cases charsToByte ((str.drop i).take 2) with
      | throws e => exact ⟨0, by rw [of_throws, bind_throws, bind_throws]; rfl⟩
      | ub => exact ⟨0, by rw [of_ub, bind_ub, bind_ub]; rfl⟩
      | ok x =>
        obtain ⟨j, ih⟩ := ih (i + 2) (ret.set (i / 2 - 1) x) (by omega) (by omega) (by omega) (by omega)
        refine ⟨j, ?_⟩
        cpp_bytes [fromStrF, library_chars] at ih
        rw [of_ok, bind_ok, out_ok]
        have ed : Int.tdiv (i : Int) 2 = (i / 2 : Nat) := (Int.ofNat_tdiv i 2).symm
        cpp_bytes [ed]
        cpp_arith [ed]
        by_cases hr : i / 2 - 1 < ret.length
        · rw [if_pos hr, set_int _ _ _ (by omega) (by omega), bind_ok, show ((i / 2 : Nat) - 1 : Int).toNat = i / 2 - 1 by omega,
            show BitVec.ofInt 8 (x.toNat : Nat) = x by rw [BitVec.ofInt_natCast, BitVec.ofNat_toNat, BitVec.setWidth_eq]]
          exact ih
        · rw [if_neg hr, set?, cond_of_false (by omega), bind_ub, of_ub, bind_ub]
    · refine ⟨i, ?_⟩
      rw [if_neg hi, of_ok, bind_ok]
      cpp_bytes [fromStrF, library_chars]
      cpp_arith []

theorem prefix_0x (str : List Byte) : ((Nasm.spell 64 (name% "0x") []).map (BitVec.ofNat 8)).isPrefixOf str = decide (str.take 2 = [0x30#8, 0x78#8]) := by
  rw [show (Nasm.spell 64 (name% "0x") []).map (BitVec.ofNat 8) = [0x30#8, 0x78#8] by decide]
  match str with
  | [] => rfl
  | [a] => simp [List.isPrefixOf]
  | a :: b :: l => simp [List.isPrefixOf, Bool.beq_eq_decide_eq, eq_comm]

theorem exec_invalid (C : Ctx) (s : Mem) (e : Exs) : C.exec (.throw (.call (.var (name% "invalid_argument")) e)) s = .throws .invalidArgument := rfl
theorem exec_outside (C : Ctx) (s : Mem) (e : Exs) : C.exec (.throw (.call (.var (name% "out_of_range")) e)) s = .throws .outOfRange := rfl

theorem from_str_run (hfind : find (name% "hextoint") fs = some hextointF) (hfind' : find (name% "strhex2int") fs = some strhexF)
    (hfind'' : find (name% "chars_to_byte") fs = some charsF) (N : Nat) (hN : 2 * N + 2 < 2 ^ 64)
    (str : List Byte) (hl : str.length + 2 < 2 ^ 31) (hf : str.length + 3 < fuel) :
    run fs int elem E fuel (d + 3) fromStrF [.chars str] (hexGlobals N) [] = (Res.of (bytesFromStr N str)).bind fun l => .ok (.bytes l, hexGlobals N, []) := by
  obtain ⟨j, hw⟩ := from_str_loop fs int elem E fuel d hfind hfind' hfind'' (d + 3) rfl N str hl (by omega) [[]] [] fuel 2 (List.replicate N 0#8) (by omega) (by omega) (by omega) (by omega)
  generalize d + 3 = D at hw ⊢
  rw [bytesFromStr]
  cpp_bytes [fromStrF, library_chars] at hw
  cpp_bytes [fromStrF, library_chars, prefix_0x]
  by_cases h1 : str.take 2 = [0x30#8, 0x78#8]
  · rw [if_neg (fun h => h h1), decide_eq_true h1, Bool.not_true, cond_false]
    by_cases h2 : str.length > 2 * N + 2
    · rw [if_pos h2]
      cpp_arith []
      rw [exec_outside, bind_throws, of_throws, bind_throws]
    · rw [if_neg h2]
      cpp_arith []
      rw [hw, bind_assoc]
      cases fromStrLoop str 2 (List.replicate N 0#8) with
      | throws e => rw [of_throws, bind_throws, bind_throws]
      | ub => rw [of_ub, bind_ub, bind_ub]
      | ok r => rw [of_ok, bind_ok, bind_ok]; cpp_bytes []
  · rw [if_pos h1, decide_eq_false h1, Bool.not_false, cond_true, exec_invalid, bind_throws, of_throws, bind_throws]

end Mammon.Cpp
