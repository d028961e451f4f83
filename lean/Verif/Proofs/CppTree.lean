import Verif.Proofs.CppMath
import Verif.Proofs.HashTree
/-!
# Hash trees

What the functions in the text of ssz/hashtree.cpp do.
-/

namespace Mammon.Cpp
open Nasm

section
variable (C : Ctx) (s : Mem) (p : Place) (as : List Val)
theorem method_begin_chunks (l : List Chunk) : method (name% "begin") (some p) (.chunks l) as s = .ok (.iter p 0, s) := rfl
theorem method_end_chunks (l : List Chunk) : method (name% "end") (some p) (.chunks l) as s = .ok (.iter p l.length, s) := rfl
theorem method_data_bytes (l : List Byte) : method (name% "data") (some p) (.bytes l) as s = .ok (.iter p 0, s) := rfl
theorem method_back_chunks (l : List Chunk) : method (name% "back") (some p) (.chunks l) as s = .ok (.ref (.elem p ((l.length : Int) - 1)), s) := rfl
theorem method_array_place (l : List Byte) : method (name% "to_array") (some p) (.bytes l) as s = .ok (.ref p, s) := rfl
theorem method_array_value (l : List Byte) : method (name% "to_array") none (.bytes l) as s = .ok (.bytes l, s) := rfl
theorem method_push_chunks (l : List Chunk) (b : List Byte) : method (name% "push_back") (some p) (.chunks l) [.bytes b] s =
    (orStuck (chunkOf b)).bind fun c => (write? p (.chunks (l ++ [c])) s).bind fun s => .ok (.void, s) := rfl
theorem method_reserve (l : List Chunk) : method (name% "reserve") (some p) (.chunks l) as s = .ok (.void, s) := rfl
theorem method_resize_chunks (l : List Chunk) (t : IT) (k : Int) : method (name% "resize") (some p) (.chunks l) [.int t k] s =
    (write? p (.chunks (l.take (IT.u64.conv k).toNat ++ List.replicate ((IT.u64.conv k).toNat - l.length) zeroHash)) s).bind fun s => .ok (.void, s) := rfl
theorem library_prev (t : Option IT) (i : Int) : C.library (name% "prev") t [.iter p i] s = some (.ok (.iter p (i - 1), s)) := rfl
theorem library_min (t : Option IT) (i j : Int) : C.library (name% "min") t [.iter p i, .iter p j] s =
    some (.ok (.iter p (bif decide (j < i) then j else i), s)) := by
  have : C.library (name% "min") t [.iter p i, .iter p j] s =
    some (bif decide (p = p) then .ok (.iter p (bif decide (j < i) then j else i), s) else .stuck) := rfl
  rw [this]; simp
theorem library_max (t : Option IT) (u : IT) (x y : Int) : C.library (name% "max") t [.int u x, .int u y] s =
    some (.ok (.int u (bif decide (x < y) then y else x), s)) := by
  have : C.library (name% "max") t [.int u x, .int u y] s =
    some (bif decide (u = u) then .ok (.int u (bif decide (x < y) then y else x), s) else .stuck) := rfl
  rw [this]; simp
theorem library_bit_ceil (t : Option IT) (x : Int) : C.library (name% "bit_ceil") t [.int .u64 x] s =
    some ((Res.of (bitCeil x.toNat)).bind fun k => .ok (.int .u64 k, s)) := rfl
theorem operate_iter_lt (i j : Int) : operate .lt (.iter p i) (.iter p j) = .ok (.bool (decide (i < j))) := by simp [operate]
theorem like_chunks (l : List Chunk) (v : Val) : like (.chunks l) v = .ok v := rfl
theorem make_chunks (z : Option Int) : C.make (.tmpl (name% "vector") (.cons (.var (name% "Chunk")) .nil)) z [] s = .ok (.chunks []) := by kernel_refl
theorem sizeArg_two (n m : Nat) (e : Ex) : C.sizeArg (.tmpl n (.cons (.var m) (.cons e .nil))) s = match C.value e s with
    | .ok (.int _ n, _) => some n
    | _ => none := rfl
theorem exec_throw (e : Ex) : C.exec (.throw e) s = (excOf e).bind fun e => .throws e := rfl
end

theorem chunkOf_val (c : Chunk) : chunkOf c.1 = some c := by
  rw [chunkOf, dif_pos c.2]

theorem hashCall_same (H : Chunk → Chunk → Chunk) (p : Place) (i j : Int) (n : Nat) (s : Mem) (hi : 0 ≤ i) (hj : 0 ≤ j) :
    hashCall H (.iter (.elem p i) 0) (.iter (.elem p j) 0) n s = (read? p s).bind fun v => match v with
      | .chunks d => (Res.of (hashBlocksInPlace H n i.toNat j.toNat d)).bind fun d => write? p (.chunks d) s
      | _ => .stuck := by
  simp only [hashCall, hi, hj, and_self, cond_true, decide_true]
  cases read? p s with
  | ok v => cases v <;> rfl
  | _ => rfl

theorem hashCall_diff (H : Chunk → Chunk → Chunk) (k m : Nat) (i j : Int) (n : Nat) (s : Mem) (hi : 0 ≤ i) (hj : 0 ≤ j) :
    hashCall H (.iter (.elem (.glob k) i) 0) (.iter (.elem (.here m) j) 0) n s = (read? (.glob k) s).bind fun v => (read? (.here m) s).bind fun w => match v, w with
      | .chunks d, .chunks e => (Res.of (hashBlocks H e n i.toNat j.toNat d)).bind fun d => write? (.glob k) (.chunks d) s
      | _, _ => .stuck := by
  have h' : decide (Place.glob k = Place.here m) = false := decide_eq_false (by simp)
  simp only [hashCall, hi, hj, and_self, decide_true, cond_true, h', cond_false]
  rfl

theorem hashCall_bytes (H : Chunk → Chunk → Chunk) (k m : Nat) (s : Mem) :
    hashCall H (.iter (.here k) 0) (.iter (.here m) 0) 1 s = (read? (.here k) s).bind fun v => (read? (.here m) s).bind fun w => match v, w with
      | .bytes d, .bytes e => match chunkOf d, chunkOf (e.take 32), chunkOf (e.drop 32) with
        | some _, some a, some b => write? (.here k) (.bytes (H a b).1) s
        | _, _, _ => .stuck
      | _, _ => .stuck := by
  simp only [hashCall, decide_true, cond_true, and_self]
  rfl

/-- What is done if a condition does not hold. -/
def Stmt.other : Stmt → Stmt
  | .ite _ _ b => b
  | _ => .decls .nil

/-- `cpp_run` with what ssz/hashtree.cpp uses in addition. -/
macro "cpp_tree" "[" ts:Lean.Parser.Tactic.simpLemma,* "]" l:(Lean.Parser.Tactic.location)? : tactic => `(tactic| cpp_run [
  method_begin_chunks, method_end_chunks, method_data_bytes, method_back_chunks, method_array_place, method_array_value, method_push_chunks, method_reserve,
  method_resize_chunks, library_prev, library_min, library_max, library_bit_ceil, operate_iter_lt, like_chunks, make_chunks, sizeArg_two, exec_throw,
  hashCall_bytes, chunkOf_val, Stmt.other, $ts,*] $[$l]?)

variable (fs : List Func) (int : Option IT) (E : Env) (fuel d : Nat)

theorem junk_length (n : Nat) : (E.bytes n).length = n := by simp [Env.bytes]

theorem hash_2 (x y : Chunk) (c : Frame) (b : List Frame) (g : Frame) (k : Nat) (h1 : slotOf (name% "BYTES_PER_CHUNK") g = some k)
    (h2 : getSlot k g = some (.int .u32 32)) (p : List Obj) :
    (ctx fs int none E fuel d).enter hash2F [.bytes x.1, .bytes y.1, .hasher] ⟨c, b, g, p⟩ = .ok (.bytes (E.hash x y).1, ⟨c, b, g, p⟩) := by
  cpp_tree [hash2F, h1, h2]
  rw [show IT.u32.conv (2 * 32) = 64 from rfl]
  have hx := x.2
  have hy := y.2
  have hl := junk_length E 64
  have hr := junk_length E 32
  have e : List.take 32 (List.take 0 (E.bytes 64) ++ (x.1 ++ List.drop (0 + x.1.length) (E.bytes 64))) ++
      (y.1 ++ List.drop (32 + y.1.length) (List.take 0 (E.bytes 64) ++ (x.1 ++ List.drop (0 + x.1.length) (E.bytes 64)))) = x.1 ++ y.1 := by
    simp [hx, hy, hl]
  simp only [Int.reduceToNat, e]
  simp only [hx, hy, hl, List.length_append, List.length_take, List.length_drop]
  rw [List.take_left' hx, List.drop_left' hx, chunkOf_val, chunkOf_val, chunkOf, dif_pos hr]
  cpp_tree []
  cpp_arith []

theorem pack_chunk (l : List Byte) (n : Nat) (h : l.take n = l.take 32) :
    chunkOf ([] ++ (l.take n ++ (List.replicate 32 0#8).drop (l.take n).length)) = some (packChunk l) := by
  have hl : (l.take 32).length ≤ 32 := by rw [List.length_take]; omega
  have : (l.take n ++ (List.replicate 32 0#8).drop (l.take n).length) = (packChunk l).1 := by
    rw [h, List.drop_replicate]; rfl
  rw [List.nil_append, this, chunkOf_val]

theorem pack_loop (bs : List Byte) (acc : List Chunk) (i k : Nat) (hk : bs.length - i < k) (b : List Frame) (g : Frame) (n : Nat)
    (h1 : slotOf (name% "BYTES_PER_CHUNK") g = some n) (h2 : getSlot n g = some (.int .u32 32)) (p : List Obj) :
    ∃ j : Nat, (ctx fs int none E fuel d).forLoop ((packAndPadF.body.nth 1).other.sts.nth 1).cond ((packAndPadF.body.nth 1).other.sts.nth 1).step
      ((packAndPadF.body.nth 1).other.sts.nth 1).inner k
      ⟨[(name% "it", .iter (.here 0) i), (name% "ret", .chunks acc), (name% "vec", .bytes bs)], b, g, p⟩ =
    .ok (none, ⟨[(name% "it", .iter (.here 0) j), (name% "ret", .chunks (acc ++ packLoop (bs.drop i))), (name% "vec", .bytes bs)], b, g, p⟩) := by
  induction k generalizing i acc with
  | zero => omega
  | succ k ih =>
    rw [forLoop_succ]
    by_cases h : i < bs.length
    · obtain ⟨j, ih⟩ := ih (acc ++ [packChunk (bs.drop i)]) (i + 32) (by omega)
      refine ⟨j, ?_⟩
      cpp_tree [packAndPadF] at ih
      cpp_tree [packAndPadF, h1, h2]
      have hm : ∃ n : Nat, (bif decide ((bs.length : Int) < (i : Int) + 32) then (bs.length : Int) else (i : Int) + 32) = (i + n : Nat) ∧
          i + n ≤ bs.length ∧ (bs.drop i).take n = (bs.drop i).take 32 := by
        by_cases h' : bs.length < i + 32
        · refine ⟨bs.length - i, ?_, by omega, ?_⟩
          · rw [cond_of_true (by omega)]; omega
          · rw [List.take_of_length_le (Nat.le_of_eq List.length_drop), List.take_of_length_le (by rw [List.length_drop]; omega)]
        · refine ⟨32, ?_, by omega, rfl⟩
          rw [cond_of_false (by omega)]; omega
      obtain ⟨q, e, hq, ht⟩ := hm
      rw [e, Int.toNat_natCast, show i + q - i = q by omega]
      have hl : ((bs.drop i).take q).length ≤ 32 := by rw [ht, List.length_take]; omega
      have hr : (List.replicate 32 0#8).length = 32 := List.length_replicate
      rw [List.take_zero, Nat.zero_add, pack_chunk _ _ ht, hr]
      cpp_arith []
      rw [orStuck_some, bind_ok, ih, packLoop.eq_1 (bs.drop i), if_neg (by simp; omega), List.drop_drop]
      simp [BYTES_PER_CHUNK]
    · refine ⟨i, ?_⟩
      cpp_tree [packAndPadF, h1, h2]
      cpp_arith []
      rw [packLoop, if_pos (by simp; omega), List.append_nil]

theorem pack_and_pad (bs : List Byte) (hf : bs.length < fuel) (c : Frame) (b : List Frame) (g : Frame) (n m : Nat)
    (h1 : slotOf (name% "BYTES_PER_CHUNK") g = some n) (h2 : getSlot n g = some (.int .u32 32))
    (h3 : slotOf (name% "zero_hash") g = some m) (h4 : getSlot m g = some (.bytes zeroHash.1)) (p : List Obj) :
    (ctx fs int none E fuel d).enter packAndPadF [.bytes bs] ⟨c, b, g, p⟩ = .ok (.chunks (packAndPad bs), ⟨c, b, g, p⟩) := by
  obtain ⟨j, h⟩ := pack_loop fs int E fuel d bs [] 0 fuel (by omega) (c :: b) g n h1 h2 p
  cpp_tree [packAndPadF] at h
  cpp_tree [packAndPadF, h1, h2, h3, h4]
  by_cases e : bs = []
  · subst e
    rfl
  · have : bs.length ≠ 0 := by simpa using e
    cpp_arith []
    rw [h, packAndPad, if_neg e]
    cpp_tree []

theorem library_hash2 (C : Ctx) (t : Option IT) (l : List Val) (s : Mem) : C.library (name% "hash_2_chunks") t l s = none := rfl

theorem pick_hash2 (a b c x y z : Val) : pick hash2F.params [a, b, c] [x, y, z] = [x, y, z] := rfl

theorem at_getAt (buf : List Chunk) (i : Nat) : at? buf i = Res.of (getAt buf i) := by
  rw [at?, cond_of_true (by omega), getAt, Int.toNat_natCast]
  cases buf[i]? <;> rfl

theorem set_setAt (buf : List Chunk) (i : Nat) (c : Chunk) : set? buf i c = Res.of (setAt buf i c) := by
  by_cases h : i < buf.length
  · rw [set_int _ _ _ (by omega) (by omega), setAt, if_pos h]; rfl
  · rw [set?, cond_of_false (by omega), setAt, if_neg h]; rfl

theorem at_zero (H : Chunk → Chunk → Chunk) (i : Nat) : at? (zeroHashArray H) i = Res.of (zeroHashAt H i) := by
  rw [at?, cond_of_true (by omega), zeroHashAt, Int.toNat_natCast]
  cases (zeroHashArray H)[i]? <;> rfl

theorem zero_get (H : Chunk → Chunk → Chunk) (i : Nat) (h : i < 42) : (zeroHashArray H)[i]? = some (zeroRoot H i) := by
  have := zeroHashAt_lt H h
  rw [zeroHashAt] at this
  cases e : (zeroHashArray H)[i]? with
  | none => rw [e] at this; simp at this
  | some c => rw [e] at this; simpa using this

theorem zero_length (H : Chunk → Chunk → Chunk) : (zeroHashArray H).length = 42 := length_zeroHashesFrom H _ _

theorem zero_step (H : Chunk → Chunk → Chunk) (J : List Chunk) (hJ : J.length = 42) (i : Nat) (h0 : 0 < i) (h : i < 42) :
    at? ((zeroHashArray H).take i ++ J.drop i) ((i : Int) - 1) = .ok (zeroRoot H (i - 1)) ∧
    ((zeroHashArray H).take i ++ J.drop i).set i (H (zeroRoot H (i - 1)) (zeroRoot H (i - 1))) = (zeroHashArray H).take (i + 1) ++ J.drop (i + 1) := by
  have hz := zero_length H
  constructor
  · rw [at?, cond_of_true (by omega), show ((i : Int) - 1).toNat = i - 1 by omega,
      List.getElem?_append_left (by rw [List.length_take]; omega), List.getElem?_take_of_lt (by omega), zero_get H _ (by omega)]
  · rw [← zeroRoot_succ H, show i - 1 + 1 = i by omega]
    refine List.ext_getElem? fun j => ?_
    have hi := zero_get H i h
    by_cases e : i = j
    · subst e
      rw [List.getElem?_set_self (by simp; omega), List.getElem?_append_left (by rw [List.length_take]; omega), List.getElem?_take_of_lt (by omega), hi]
    · rw [List.getElem?_set_ne e]
      by_cases hj : j < i
      · rw [List.getElem?_append_left (by rw [List.length_take]; omega), List.getElem?_append_left (by rw [List.length_take]; omega),
          List.getElem?_take_of_lt (by omega), List.getElem?_take_of_lt (by omega)]
      · rw [List.getElem?_append_right (by rw [List.length_take]; omega), List.getElem?_append_right (by rw [List.length_take]; omega),
          List.getElem?_drop, List.getElem?_drop, List.length_take, List.length_take]
        congr 1
        omega

theorem hash_2_call (hfind : find (name% "hash_2_chunks") fs = some hash2F) (D : Nat) (hD : D = d + 1) (g : Frame) (k : Nat)
    (h1 : slotOf (name% "BYTES_PER_CHUNK") g = some k) (h2 : getSlot k g = some (.int .u32 32)) (u v w : Val) (x y : Chunk) (c : Frame) (b : List Frame) (p : List Obj) :
    (ctx fs int none E fuel D).call (name% "hash_2_chunks") [u, v, w] [.bytes x.1, .bytes y.1, .hasher] ⟨c, b, g, p⟩ =
      .ok (.bytes (E.hash x y).1, ⟨c, b, g, p⟩) := by
  rw [hD, ctx_call, hfind]
  dsimp only
  rw [pick_hash2, hash_2 fs int E fuel d x y c b g k h1 h2 p]

theorem zero_loop (hfind : find (name% "hash_2_chunks") fs = some hash2F) (D : Nat) (hD : D = d + 1) (J : List Chunk) (hJ : J.length = 42) (i : Nat) (h0 : 0 < i) (hi : i ≤ 42) (k : Nat)
    (hk : 42 - i < k) (b : List Frame) (p : List Obj) :
    (ctx fs int none E fuel D).forLoop (zeroHashesF.body.nth 3).cond (zeroHashesF.body.nth 3).step (zeroHashesF.body.nth 3).inner k
      ⟨[(name% "it", .iter (.here 0) i), (name% "hasher", .hasher), (name% "ret", .chunks ((zeroHashArray E.hash).take i ++ J.drop i))], b, zeroGlobals, p⟩ =
    .ok (none, ⟨[(name% "it", .iter (.here 0) 42), (name% "hasher", .hasher), (name% "ret", .chunks (zeroHashArray E.hash))], b, zeroGlobals, p⟩) := by
  have hz := zero_length E.hash
  have hc := hash_2_call fs int E fuel d hfind D hD zeroGlobals 3 rfl rfl
  simp only [zeroGlobals, consts, List.cons_append, List.nil_append] at hc
  induction k generalizing i with
  | zero => omega
  | succ k ih =>
    rw [forLoop_succ]
    have hl : ((zeroHashArray E.hash).take i ++ J.drop i).length = 42 := by rw [List.length_append, List.length_take, List.length_drop]; omega
    by_cases h : i < 42
    · obtain ⟨h1, h2⟩ := zero_step E.hash J hJ i h0 h
      replace ih := ih (i + 1) (by omega) (by omega) (by omega)
      cpp_tree [zeroHashesF, zeroGlobals, hl] at ih
      cpp_tree [zeroHashesF, zeroGlobals, hl, h1, library_hash2, hc]
      cpp_arith [set_int]
      rw [h2]
      exact ih
    · obtain rfl : i = 42 := by omega
      cpp_tree [zeroHashesF, zeroGlobals, hl]
      rw [List.take_of_length_le (by omega), List.drop_of_length_le (by omega), List.append_nil]

theorem zero_hashes (hfind : find (name% "hash_2_chunks") fs = some hash2F) (D : Nat) (hD : D = d + 1) (hf : 42 ≤ fuel) (c : Frame) (b : List Frame) (p : List Obj) :
    (ctx fs int none E fuel D).enter zeroHashesF [] ⟨c, b, zeroGlobals, p⟩ = .ok (.chunks (zeroHashArray E.hash), ⟨c, b, zeroGlobals, p⟩) := by
  have hJ : (E.chunks 42).length = 42 := by simp [Env.chunks]
  have h := zero_loop fs int E fuel d hfind D hD (E.chunks 42) hJ 1 (by omega) (by omega) fuel (by omega) (c :: b) p
  cpp_tree [zeroHashesF, zeroGlobals] at h
  cpp_tree [zeroHashesF, zeroGlobals]
  have hs : set? (E.chunks 42) 0 zeroHash = .ok ((zeroHashArray E.hash).take 1 ++ (E.chunks 42).drop 1) := by
    rw [set_int _ _ _ (by omega) (by omega)]
    cases e : E.chunks 42 with
    | nil => rw [e] at hJ; simp at hJ
    | cons a l => rfl
  rw [hs, bind_ok, h]
  cpp_tree []

theorem at_over {α : Type} (l : List α) (i : Int) (h : (l.length : Int) ≤ i) : at? l i = .ub := by
  rw [at?, cond_of_true (by omega), List.getElem?_eq_none (by omega)]

theorem of_then {α β : Type} (a : Out α) (f : α → Out β) : Res.of (a.bind f) = (Res.of a).bind fun x => Res.of (f x) := by cases a <;> rfl

theorem tdiv_pair (x : Int) (h : 0 ≤ x) : x.tdiv 2 = x / 2 := Int.tdiv_eq_ediv_of_nonneg h
theorem tmod_pair (x : Int) (h : 0 ≤ x) : x.tmod 2 = x % 2 := Int.tmod_eq_emod_of_nonneg h

theorem merkle_step (H : Chunk → Chunk → Chunk) (buf : List Chunk) (first dist h : Nat) (hd : 1 < dist) :
    merkleLoop H buf first (first + dist) h = (hashBlocksInPlace H (dist / 2) (first + dist) first buf).bind fun buf =>
      (if dist % 2 = 1 then
        (zeroHashAt H h).bind fun z => (getAt buf (first + dist - 1)).bind fun c => setAt buf (first + dist + (dist + 1) / 2 - 1) (H c z)
      else .ok buf).bind fun buf => merkleLoop H buf (first + dist) (first + dist + (dist + 1) / 2) (h + 1) := by
  rw [merkleLoop]
  simp only [Nat.add_sub_cancel_left, if_pos hd]

theorem inPlace_ub (H : Chunk → Chunk → Chunk) (buf : List Chunk) (k di si : Nat) (hk : 0 < k) (h : buf.length ≤ di) : hashBlocksInPlace H k di si buf = .ub := by
  rw [hashBlocksInPlace]
  split
  · obtain ⟨k, rfl⟩ : ∃ m, k = m + 1 := ⟨k - 1, by omega⟩
    rw [hashBlocks]
    split
    · rw [if_neg (by omega)]
    · rfl
  · rfl

theorem merkle_loop (hfind : find (name% "hash_2_chunks") fs = some hash2F) (D : Nat) (hD : D = d + 1) (vec : List Chunk) (limit depth : Int)
    (j : Nat) (hj : j ≤ 62) (buf : List Chunk) (first dist : Nat) (h : Nat) (h0 : 1 ≤ dist) (h1 : dist ≤ 2 ^ j) (h2 : h + j < 2 ^ 31) (k : Nat)
    (hk : j < k) (b : List Frame) (p : List Obj) :
    (ctx fs int none E fuel D).whileLoop (merkleizeF.body.nth 7).cond (merkleizeF.body.nth 7).inner k
      ⟨[(name% "height", .int .i32 h), (name% "dist", .int .i64 dist), (name% "last", .iter (.glob 7) (first + dist : Nat)), (name% "first", .iter (.glob 7) first),
        (name% "depth", .int .i32 depth), (name% "hasher", .hasher), (name% "limit", .int .u64 limit), (name% "hash_tree", .ref (.glob 7)), (name% "vec", .chunks vec)],
        b, treeGlobals E.hash buf, p⟩ =
    (Res.of (merkleLoop E.hash buf first (first + dist) h)).bind fun r =>
    .ok (none, ⟨[(name% "height", .int .i32 r.2.2), (name% "dist", .int .i64 1), (name% "last", .iter (.glob 7) r.2.1), (name% "first", .iter (.glob 7) ((r.2.1 : Int) - 1)),
        (name% "depth", .int .i32 depth), (name% "hasher", .hasher), (name% "limit", .int .u64 limit), (name% "hash_tree", .ref (.glob 7)), (name% "vec", .chunks vec)],
        b, treeGlobals E.hash r.1, p⟩) := by
  have hc := fun buf => hash_2_call fs int E fuel d hfind D hD (treeGlobals E.hash buf) 3 rfl rfl
  simp only [treeGlobals, consts, List.cons_append, List.nil_append] at hc
  induction k generalizing j buf first dist h with
  | zero => omega
  | succ k ih =>
    rw [whileLoop_succ]
    by_cases hd : 1 < dist
    · have hp : 2 ^ j ≤ 2 ^ 62 := Nat.pow_le_pow_right (by omega) hj
      rw [merkle_step _ _ _ _ _ hd, of_then, bind_assoc]
      cpp_tree [merkleizeF, treeGlobals, library_hash2, hc]
      by_cases hl : first + dist < buf.length
      · cpp_arith [at_int, tdiv_pair, tmod_pair]
        rw [hashCall_same _ _ _ _ _ _ (by omega) (by omega)]
        rw [show ((dist : Int) / 2).toNat = dist / 2 by omega, show ((first : Int) + dist).toNat = first + dist by omega]
        cpp_tree []
        cases hashBlocksInPlace E.hash (dist / 2) (first + dist) first buf with
        | ub => simp only [of_ok, of_ub, of_throws, bind_ub]
        | throws e => simp only [of_ok, of_ub, of_throws, bind_throws]
        | ok buf' =>
          obtain ⟨m, hm, hm'⟩ : ∃ m : Nat, ((dist : Int) + 1) / 2 = m ∧ (dist + 1) / 2 = m := ⟨(dist + 1) / 2, by omega, rfl⟩
          have hj0 : j ≠ 0 := by rintro rfl; simp at h1; omega
          have hpj : 2 ^ j = 2 * 2 ^ (j - 1) := by rw [← Nat.pow_succ']; congr 1; omega
          replace ih := fun buf => ih (j - 1) (by omega) buf (first + dist) m (h + 1) (by omega) (by omega) (by omega) (by omega)
          cpp_tree [merkleizeF, treeGlobals] at ih
          cpp_tree [of_ok, of_ub, of_throws, hc]
          cpp_arith [tdiv_pair, tmod_pair, hm, hm']
          have hs : (first : Int) + dist + m - (first + dist) = m := by omega
          by_cases ho : dist % 2 = 1
          · rw [if_pos ho, cond_of_not_true (by omega), show (first : Int) + dist - 1 = (first + dist - 1 : Nat) by omega,
              show (first : Int) + dist + m - 1 = (first + dist + m - 1 : Nat) by omega, at_zero, at_getAt, zeroHashAt, getAt]
            simp only [of_then, bind_assoc, set_setAt]
            cases (zeroHashArray E.hash)[h]? with
            | none => cases buf'[first + dist - 1]? <;> simp only [of_ok, of_ub, of_throws, bind_ok, bind_ub]
            | some z =>
              cases buf'[first + dist - 1]? with
              | none => simp only [of_ok, of_ub, of_throws, bind_ok, bind_ub]
              | some c =>
                simp only [of_ok, of_ub, of_throws, bind_ok]
                cases setAt buf' (first + dist + m - 1) (E.hash c z) with
                | ub => simp only [of_ok, of_ub, of_throws, bind_ub]
                | throws e => simp only [of_ok, of_ub, of_throws, bind_throws]
                | ok b' =>
                  simp only [of_ok, of_ub, of_throws, bind_ok, hs]
                  exact ih _
          · rw [if_neg ho, cond_of_not_false (by omega), hs]
            exact ih _
      · rw [inPlace_ub _ _ _ _ _ (by omega) (by omega), cond_of_true (by rw [conv_i64 (by omega) (by omega)]; omega), at_over _ _ (by omega)]
        simp only [of_ub, bind_ub]
    · obtain rfl : dist = 1 := by omega
      rw [merkleLoop, if_neg (by omega)]
      cpp_tree [merkleizeF, treeGlobals, of_ok]
      rw [Int.add_sub_cancel]

theorem extend_step (H : Chunk → Chunk → Chunk) (depth : Nat) (buf : List Chunk) (last height : Nat) (h : height < depth) :
    extendLoop H depth buf last height = (zeroHashAt H height).bind fun z => (getAt buf (last - 1)).bind fun c => (setAt buf last (H c z)).bind fun buf =>
      extendLoop H depth buf (last + 1) (height + 1) := by
  rw [extendLoop, if_pos h]

theorem extend_loop (hfind : find (name% "hash_2_chunks") fs = some hash2F) (D : Nat) (hD : D = d + 1) (vec : List Chunk) (limit : Int) (depth : Nat) (hd : depth < 2 ^ 31)
    (buf : List Chunk) (first dist : Int) (last : Nat) (h0 : 1 ≤ last) (h : Nat) (hh : h < 2 ^ 31) (k : Nat)
    (hk : depth - h < k) (b : List Frame) (p : List Obj) :
    (ctx fs int none E fuel D).whileLoop (merkleizeF.body.nth 8).cond (merkleizeF.body.nth 8).inner k
      ⟨[(name% "height", .int .i32 h), (name% "dist", .int .i64 dist), (name% "last", .iter (.glob 7) last), (name% "first", .iter (.glob 7) first),
        (name% "depth", .int .i32 depth), (name% "hasher", .hasher), (name% "limit", .int .u64 limit), (name% "hash_tree", .ref (.glob 7)), (name% "vec", .chunks vec)],
        b, treeGlobals E.hash buf, p⟩ =
    (Res.of (extendLoop E.hash depth buf last h)).bind fun r =>
    .ok (none, ⟨[(name% "height", .int .i32 (max h depth : Nat)), (name% "dist", .int .i64 dist), (name% "last", .iter (.glob 7) r.2), (name% "first", .iter (.glob 7) first),
        (name% "depth", .int .i32 depth), (name% "hasher", .hasher), (name% "limit", .int .u64 limit), (name% "hash_tree", .ref (.glob 7)), (name% "vec", .chunks vec)],
        b, treeGlobals E.hash r.1, p⟩) := by
  have hc := fun buf => hash_2_call fs int E fuel d hfind D hD (treeGlobals E.hash buf) 3 rfl rfl
  simp only [treeGlobals, consts, List.cons_append, List.nil_append] at hc
  induction k generalizing buf last h with
  | zero => omega
  | succ k ih =>
    rw [whileLoop_succ]
    by_cases hl : h < depth
    · rw [extend_step _ _ _ _ _ hl]
      replace ih := fun buf => ih buf (last + 1) (by omega) (h + 1) (by omega) (by omega)
      rw [show max (h + 1) depth = max h depth by omega] at ih
      generalize max h depth = top at ih ⊢
      cpp_tree [merkleizeF, treeGlobals] at ih
      cpp_tree [merkleizeF, treeGlobals, library_hash2, hc]
      cpp_arith []
      rw [show (last : Int) - 1 = (last - 1 : Nat) by omega, at_zero, at_getAt, zeroHashAt, getAt]
      simp only [of_then, bind_assoc, set_setAt]
      cases (zeroHashArray E.hash)[h]? with
      | none => cases buf[last - 1]? <;> simp only [of_ok, of_ub, bind_ok, bind_ub]
      | some z =>
        cases buf[last - 1]? with
        | none => simp only [of_ok, of_ub, bind_ok, bind_ub]
        | some c =>
          simp only [of_ok, bind_ok]
          cases setAt buf last (E.hash c z) with
          | ub => simp only [of_ub, bind_ub]
          | throws e => simp only [of_throws, bind_throws]
          | ok b' =>
            simp only [of_ok, bind_ok]
            exact ih _
    · rw [extendLoop, if_neg hl, show max h depth = h by omega]
      cpp_tree [merkleizeF, treeGlobals, of_ok]
      cpp_arith []

theorem merkle_bounds (H : Chunk → Chunk → Chunk) (j : Nat) (buf : List Chunk) (first dist h : Nat) (h0 : 1 ≤ dist) (h1 : dist ≤ 2 ^ j) (r : List Chunk × Nat × Nat)
    (e : merkleLoop H buf first (first + dist) h = .ok r) : first + dist ≤ r.2.1 ∧ r.2.1 ≤ first + 2 * dist + j ∧ h ≤ r.2.2 ∧ r.2.2 ≤ h + j := by
  induction j generalizing buf first dist h with
  | zero =>
    obtain rfl : dist = 1 := by simp at h1; omega
    rw [merkleLoop, if_neg (by omega)] at e
    cases e
    simp
  | succ j ih =>
    by_cases hd : 1 < dist
    · rw [merkle_step _ _ _ _ _ hd] at e
      cases e1 : hashBlocksInPlace H (dist / 2) (first + dist) first buf with
      | ub => rw [e1] at e; cases e
      | throws x => rw [e1] at e; cases e
      | ok b1 =>
        rw [e1] at e
        replace e : Out.bind (if dist % 2 = 1 then _ else _) _ = _ := e
        revert e
        generalize (if dist % 2 = 1 then (zeroHashAt H h).bind fun z => (getAt b1 (first + dist - 1)).bind fun c =>
          setAt b1 (first + dist + (dist + 1) / 2 - 1) (H c z) else Out.ok b1) = o
        intro e
        cases o with
        | ub => cases e
        | throws x => cases e
        | ok b2 =>
          have := ih b2 (first + dist) ((dist + 1) / 2) (h + 1) (by omega) (by rw [Nat.pow_succ] at h1; omega) e
          omega
    · obtain rfl : dist = 1 := by omega
      rw [merkleLoop, if_neg (by omega)] at e
      cases e
      simp
      omega

theorem out_ok_then {α β : Type} (a : α) (f : α → Out β) : (Out.ok a).bind f = f a := rfl

theorem extend_bounds (H : Chunk → Chunk → Chunk) (depth : Nat) (n : Nat) (buf : List Chunk) (last h : Nat) (hn : depth - h = n) (r : List Chunk × Nat)
    (e : extendLoop H depth buf last h = .ok r) : r.2 = last + (depth - h) := by
  induction n generalizing buf last h with
  | zero =>
    rw [extendLoop, if_neg (by omega)] at e
    cases e
    dsimp only
    omega
  | succ n ih =>
    rw [extend_step _ _ _ _ _ (by omega)] at e
    cases e1 : zeroHashAt H h with
    | ub => rw [e1] at e; cases e
    | throws x => rw [e1] at e; cases e
    | ok z =>
      rw [e1, out_ok_then] at e
      cases e2 : getAt buf (last - 1) with
      | ub => rw [e2] at e; cases e
      | throws x => rw [e2] at e; cases e
      | ok c =>
        rw [e2, out_ok_then] at e
        cases e3 : setAt buf last (H c z) with
        | ub => rw [e3] at e; cases e
        | throws x => rw [e3] at e; cases e
        | ok b =>
          rw [e3, out_ok_then] at e
          have := ih b (last + 1) (h + 1) (by omega) e
          omega

theorem library_log2 (C : Ctx) (t : Option IT) (l : List Val) (s : Mem) : C.library (name% "log2ceil") t l s = none := rfl

theorem pick_log2 (a x : Val) : pick log2ceilF.params [a] [x] = [x] := rfl

theorem log2_call (hfind : find (name% "log2ceil") fs = some log2ceilF) (D : Nat) (hD : D = d + 1) (g : Frame) (k : Nat)
    (h1 : slotOf (name% "CHAR_BIT") g = some k) (h2 : getSlot k g = some (.int .i32 8)) (u : Val) (n : Nat) (hn : n < 2 ^ 64) (c : Frame) (b : List Frame) (p : List Obj) :
    (ctx fs int none E fuel D).call (name% "log2ceil") [u] [.int .u64 n] ⟨c, b, g, p⟩ = .ok (.int .i32 (log2ceil 64 (BitVec.ofNat 64 n)), ⟨c, b, g, p⟩) := by
  rw [hD, ctx_call, hfind]
  dsimp only
  rw [pick_log2, log2ceil_64 fs none E fuel (d := d) n hn c b g k h1 h2 p]

/-- The statements from the `n`-th on. -/
def Sts.drop : Nat → Sts → Sts
  | 0, l => l
  | _ + 1, .nil => .nil
  | n + 1, .cons _ l => drop n l

/-- The end of a call: the value that the function returns, and the frame of the caller. -/
def Ctx.leaving (C : Ctx) (t : Ex) (q : Option Val × Mem) : Res (Val × Mem) := match q with
  | (v, ⟨_, b, g, h⟩) => match b with
    | c :: b => (match v with | some v => C.coerce t v | none => .ok .void).bind fun v => .ok (v, ⟨c, b, g, h⟩)
    | [] => .stuck

theorem log2ceil_le (n : Nat) (hn : n < 2 ^ 64) : log2ceil 64 (BitVec.ofNat 64 n) ≤ 64 := by
  by_cases h : n = 0
  · subst h; rw [log2ceil_zero]; omega
  · rw [log2ceil_nat 64 n h hn]; omega

theorem merkle_tail (hfind : find (name% "hash_2_chunks") fs = some hash2F) (D : Nat) (hD : D = d + 1)
    (vec buf : List Chunk) (m : Nat) (h0 : 1 ≤ m) (hv : m ≤ 2 ^ 61) (depth : Nat) (limit : Int) (hd : depth ≤ 64) (hf : 65 ≤ fuel) (c : Frame) (b : List Frame) (p : List Obj) :
    (((ctx fs int none E fuel D).execs (merkleizeF.body.drop 5) ⟨[(name% "last", .iter (.glob 7) m), (name% "first", .iter (.glob 7) 0),
        (name% "depth", .int .i32 depth), (name% "hasher", .hasher), (name% "limit", .int .u64 limit), (name% "hash_tree", .ref (.glob 7)), (name% "vec", .chunks vec)],
        c :: b, treeGlobals E.hash buf, p⟩).bind ((ctx fs int none E fuel D).leaving merkleizeF.type)) =
      (Res.of ((merkleLoop E.hash buf 0 m 1).bind fun r => (extendLoop E.hash depth r.1 r.2.1 r.2.2).bind fun q =>
        .ok (q.1.take q.2 ++ List.replicate (q.2 - q.1.length) zeroHash) : Out (List Chunk))).bind fun t => .ok (.void, ⟨c, b, treeGlobals E.hash t, p⟩) := by
  have hm := merkle_loop fs int E fuel d hfind D hD vec limit depth 61 (by omega) buf 0 m 1 h0 hv (by omega) fuel (by omega) (c :: b) p
  simp only [Nat.zero_add] at hm
  have he := fun (buf : List Chunk) (last : Nat) h0 height hh => extend_loop fs int E fuel d hfind D hD vec limit depth (by omega) buf ((last : Int) - 1) 1 last h0 height hh fuel (by omega) (c :: b) p
  cpp_tree [merkleizeF, treeGlobals] at hm
  cpp_tree [merkleizeF, treeGlobals] at he
  cpp_tree [merkleizeF, treeGlobals, Sts.drop, Ctx.leaving]
  rw [hm, bind_assoc, of_then, bind_assoc]
  cases e : merkleLoop E.hash buf 0 m 1 with
  | ub => simp only [of_ub, bind_ub]
  | throws x => simp only [of_throws, bind_throws]
  | ok r =>
    have hb := merkle_bounds E.hash 61 buf 0 m 1 h0 hv r (by rw [Nat.zero_add]; exact e)
    simp only [of_ok, bind_ok]
    rw [he _ _ (by omega) _ (by omega), bind_assoc, of_then, bind_assoc]
    cases e : extendLoop E.hash depth r.1 r.2.1 r.2.2 with
    | ub => simp only [of_ub, bind_ub]
    | throws x => simp only [of_throws, bind_throws]
    | ok q =>
      have hq := extend_bounds E.hash depth _ _ _ _ rfl _ e
      cpp_tree [of_ok]
      cpp_arith []
      rfl

theorem merkleize_text (hfind : find (name% "hash_2_chunks") fs = some hash2F) (hlog : find (name% "log2ceil") fs = some log2ceilF) (D : Nat) (hD : D = d + 1)
    (vec buf : List Chunk) (h0 : vec ≠ []) (hv : vec.length < 2 ^ 62) (limit : Nat) (hl : limit < 2 ^ 64) (hf : 65 ≤ fuel) (c : Frame) (b : List Frame) (p : List Obj) :
    (ctx fs int none E fuel D).enter merkleizeF [.chunks vec, .ref (.glob 7), .int .u64 limit, .hasher] ⟨c, b, treeGlobals E.hash buf, p⟩ =
      (Res.of (merkleize E.hash vec buf (BitVec.ofNat 64 limit))).bind fun t => .ok (.void, ⟨c, b, treeGlobals E.hash t, p⟩) := by
  have hc := fun buf => hash_2_call fs int E fuel d hfind D hD (treeGlobals E.hash buf) 3 rfl rfl
  have hg := fun buf u => log2_call fs int E fuel d hlog D hD (treeGlobals E.hash buf) 2 rfl rfl u limit hl
  simp only [treeGlobals, consts, List.cons_append, List.nil_append] at hc hg
  have hu : IT.u64.conv (limit : Int) = limit := conv_u64 (by omega) (by omega)
  have hn : vec.length ≠ 0 := by simpa using h0
  obtain ⟨m, hm, hm'⟩ : ∃ m : Nat, ((vec.length : Int) + 1).tdiv 2 = m ∧ (vec.length + 1) / 2 = m := ⟨(vec.length + 1) / 2, by rw [tdiv_pair _ (by omega)]; omega, rfl⟩
  have ht := fun buf => merkle_tail fs int E fuel d hfind D hD vec buf m (by omega) (by omega) (log2ceil 64 (BitVec.ofNat 64 limit)) limit (log2ceil_le limit hl) hf c b p
  cpp_tree [merkleizeF, treeGlobals, Sts.drop, Ctx.leaving] at ht
  cpp_tree [merkleizeF, treeGlobals, library_hash2, hc, library_log2, hg, hu, Place.outer]
  cpp_arith [hm, tmod_pair]
  rw [merkleize]
  simp only [hm']
  by_cases h1 : 1 < vec.length
  · rw [if_pos h1, cond_of_true (by omega)]
    have hv0 : at? vec 0 = .ok vec[0] := at_int vec 0 (by omega) (by omega)
    by_cases hb : 0 < buf.length
    · rw [at_int buf 0 (by omega) (by omega), hv0, bind_ok, bind_ok, hashCall_diff _ _ _ _ _ _ _ (by omega) (by omega)]
      cpp_tree []
      rw [tdiv_pair _ (by omega), conv_u64 (n := (vec.length : Int) / 2) (by omega) (by omega), conv_u64 (n := (vec.length : Int) / 2) (by omega) (by omega),
        show ((vec.length : Int) / 2).toNat = vec.length / 2 by omega]
      cases hashBlocks E.hash vec (vec.length / 2) 0 0 buf with
      | ub => simp only [of_ub, bind_ub, Out.bind]
      | throws x => simp only [of_throws, bind_throws, Out.bind]
      | ok b1 =>
        cpp_tree [of_ok, hc, out_ok_then]
        cpp_arith [tmod_pair]
        by_cases ho : vec.length % 2 = 1
        · rw [cond_of_not_true (by omega), if_pos ho,
            show (vec.length : Int) - 1 = (vec.length - 1 : Nat) by omega, show (m : Int) - 1 = (m - 1 : Nat) by omega, at_getAt]
          cases getAt vec (vec.length - 1) with
          | ub => simp only [of_ub, bind_ub, Out.bind]
          | throws x => simp only [of_throws, bind_throws, Out.bind]
          | ok z =>
            simp only [of_ok, bind_ok, out_ok_then, set_setAt]
            cases setAt b1 (m - 1) (E.hash z zeroHash) with
            | ub => simp only [of_ub, bind_ub, Out.bind]
            | throws x => simp only [of_throws, bind_throws, Out.bind]
            | ok b' =>
              simp only [of_ok, bind_ok, out_ok_then]
              exact ht _
        · rw [cond_of_not_false (by omega), if_neg ho, out_ok_then]
          exact ht _
    · obtain rfl : buf = [] := by cases buf with
        | nil => rfl
        | cons a l => simp at hb
      obtain ⟨k, e⟩ : ∃ k, vec.length / 2 = k + 1 := ⟨vec.length / 2 - 1, by omega⟩
      have hu : hashBlocks E.hash vec (vec.length / 2) 0 0 [] = .ub := by
        rw [e, hashBlocks]
        split <;> rfl
      rw [at_over _ _ (by simp), hu]
      simp only [of_ub, bind_ub, Out.bind]
  · rw [if_neg h1, out_ok_then, cond_of_false (by omega), cond_of_not_true (by omega), if_pos (by omega),
      show (vec.length : Int) - 1 = (vec.length - 1 : Nat) by omega, show (m : Int) - 1 = (m - 1 : Nat) by omega, at_getAt]
    cases getAt vec (vec.length - 1) with
    | ub => simp only [of_ub, bind_ub, Out.bind]
    | throws x => simp only [of_throws, bind_throws, Out.bind]
    | ok z =>
      simp only [of_ok, bind_ok, out_ok_then, set_setAt]
      cases setAt buf (m - 1) (E.hash z zeroHash) with
      | ub => simp only [of_ub, bind_ub, Out.bind]
      | throws x => simp only [of_throws, bind_throws, Out.bind]
      | ok b' =>
        simp only [of_ok, bind_ok, out_ok_then]
        exact ht _

theorem library_merkleize (C : Ctx) (t : Option IT) (l : List Val) (s : Mem) : C.library (name% "merkleize") t l s = none := rfl

theorem pick_merkleize (a b c d x y z w : Val) : pick merkleizeF.params [a, b, c, d] [x, y, z, w] = [x, b, z, w] := rfl

theorem merkleize_call (hfind : find (name% "hash_2_chunks") fs = some hash2F) (hlog : find (name% "log2ceil") fs = some log2ceilF)
    (hmer : find (name% "merkleize") fs = some merkleizeF) (D D' : Nat) (hD : D = d + 1) (hD' : D' = D + 1) (u v w x : Val)
    (vec buf : List Chunk) (h0 : vec ≠ []) (hv : vec.length < 2 ^ 62) (limit : Nat) (hl : limit < 2 ^ 64) (hf : 65 ≤ fuel) (c : Frame) (b : List Frame) (p : List Obj) :
    (ctx fs int none E fuel D').call (name% "merkleize") [u, .ref (.glob 7), w, x] [.chunks vec, v, .int .u64 limit, .hasher] ⟨c, b, treeGlobals E.hash buf, p⟩ =
      (Res.of (merkleize E.hash vec buf (BitVec.ofNat 64 limit))).bind fun t => .ok (.void, ⟨c, b, treeGlobals E.hash t, p⟩) := by
  rw [hD', ctx_call, hmer]
  dsimp only
  rw [pick_merkleize, merkleize_text fs int E fuel d hfind hlog D hD vec buf h0 hv limit hl hf c b p]

theorem cond_twice {α : Type} (a b : Prop) [Decidable a] [Decidable b] (x y : α) :
    (bif decide a then bif decide b then x else y else y) = bif decide (a ∧ b) then x else y := by
  by_cases a <;> by_cases b <;> simp [*]

theorem bitCeil_pos (n : Nat) (h : n < 2 ^ 62) : ∃ k : Nat, bitCeil n = .ok k ∧ 1 ≤ k ∧ k ≤ 2 ^ 62 := by
  refine ⟨_, bitCeil_spec (by omega), Nat.one_le_two_pow, Nat.pow_le_pow_right (by omega) ?_⟩
  exact (depthFor_le_iff _ _).2 (by omega)

theorem conv_idem (x : Int) : IT.u64.conv (IT.u64.conv x) = IT.u64.conv x := Int.emod_emod_of_dvd x (Int.dvd_refl _)

theorem excOf_empty : excOf ((Ex.var (name% "out_of_range")).call (.cons (.str (name% "empty chunks is not allowed")) .nil)) = .ok .outOfRange := by kernel_refl

/-- The value of `cache_size` before it may be incremented (ssz/hashtree.cpp:116). -/
def cacheBase (dp eff bc : Nat) : Nat := (((dp : Int) - eff + bc - 1) % 2 ^ 64).toNat

theorem cache_base (dp eff bc : Nat) : IT.u64.conv (IT.u64.conv (IT.u64.conv ((dp : Int) - eff) + bc) - 1) = cacheBase dp eff bc := by
  show (((dp - eff : Int) % 2 ^ 64 + bc) % 2 ^ 64 - 1) % 2 ^ 64 = ((((dp : Int) - eff + bc - 1) % 2 ^ 64).toNat : Nat)
  omega

theorem cache_less (dp eff bc : Nat) : cacheBase dp eff bc < 2 ^ 64 := by
  rw [cacheBase]
  omega

theorem cache_conv (dp eff bc : Nat) : IT.u64.conv (cacheBase dp eff bc : Int) = cacheBase dp eff bc := by
  have h := cache_less dp eff bc
  generalize cacheBase dp eff bc = q at h ⊢
  exact conv_u64 (by omega) (by omega)

theorem cache_size (dp eff bc : Nat) : cacheSize dp eff bc = if dp > eff then (cacheBase dp eff bc + 1) % 2 ^ 64 else cacheBase dp eff bc := rfl

theorem cache_more (q : Nat) : IT.u64.conv ((q : Int) + 1) = ((q + 1) % 2 ^ 64 : Nat) := by
  show ((q : Int) + 1) % 2 ^ 64 = _
  omega

theorem cache_max (q : Nat) (h : q < 2 ^ 64) : IT.u64.conv (bif decide ((q : Int) < 1) then 1 else (q : Int)) = (max q 1 : Nat) := by
  by_cases h' : q < 1
  · rw [cond_of_true (by omega), show max q 1 = 1 by omega]
    rfl
  · rw [cond_of_false (by omega), conv_u64 (by omega) (by omega), show max q 1 = q by omega]

end Mammon.Cpp
