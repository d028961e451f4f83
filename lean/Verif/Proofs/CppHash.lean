import Verif.Proofs.CppBitlist
import Verif.Proofs.CppContainer
import Verif.Proofs.CppTree
/-!
# `hash_tree()` and `hash_tree_root()`

What the functions `hash_tree` in the text of the classes do.
-/

namespace Mammon.Cpp
open Nasm

section
variable (C : Ctx) (s : Mem)
theorem library_transform (t : Option IT) (p d : Place) (i j : Int) (ps : List Nat) (b : Sts) :
    C.library (name% "transform") t [.iter p i, .iter p j, .sink d, .lam ps b] s = some ((read? p s).bind fun v => (elements v).bind fun l =>
        bif decide (0 ≤ i ∧ i ≤ j ∧ j ≤ l.length) then
          (transform (C.apply ps b) d ((l.drop i.toNat).take (j.toNat - i.toNat)) s).bind fun s => .ok (.sink d, s)
        else .ub) := by
  have : C.library (name% "transform") t [.iter p i, .iter p j, .sink d, .lam ps b] s = some (bif decide (p = p) then (read? p s).bind fun v =>
      (elements v).bind fun l =>
        bif decide (0 ≤ i ∧ i ≤ j ∧ j ≤ l.length) then
          (transform (C.apply ps b) d ((l.drop i.toNat).take (j.toNat - i.toNat)) s).bind fun s => .ok (.sink d, s)
        else .ub else .stuck) := rfl
  rw [this]; simp
theorem library_memcpy (t : Option IT) (p q : Place) (i j : Int) (u : IT) (k : Int) :
    C.library (name% "memcpy") t [.iter p i, .iter q j, .int u k] s = some ((read? q s).bind fun w => (read? p s).bind fun v => match w, v with
      | .int t x, .bytes l =>
        bif decide (j = 0 ∧ 0 ≤ k ∧ k ≤ (t.bits / 8 : Nat) ∧ 0 ≤ i ∧ i + k ≤ l.length) then
          (write? p (.bytes (l.take i.toNat ++ ((leBytes (t.bits / 8) x.toNat).take k.toNat ++ l.drop (i.toNat + k.toNat)))) s).bind fun s => .ok (.iter p i, s)
        else .ub
      | _, _ => .stuck) := rfl
theorem method_back_value (l : List Chunk) (as : List Val) : method (name% "back") none (.chunks l) as s =
    (at? l ((l.length : Int) - 1)).bind fun c => .ok (.bytes c.1, s) := rfl
theorem method_begin_objs (p : Place) (l : List Obj) (as : List Val) : method (name% "begin") (some p) (.objs l) as s = .ok (.iter p 0, s) := rfl
theorem method_end_objs (p : Place) (l : List Obj) (as : List Val) : method (name% "end") (some p) (.objs l) as s = .ok (.iter p l.length, s) := rfl
theorem method_begin_ptrs (p : Place) (l : List Nat) (as : List Val) : method (name% "begin") (some p) (.ptrs l) as s = .ok (.iter p 0, s) := rfl
theorem method_end_ptrs (p : Place) (l : List Nat) (as : List Val) : method (name% "end") (some p) (.ptrs l) as s = .ok (.iter p l.length, s) := rfl
theorem transform_nil (f : List Val → Mem → Res (Option Val × Mem)) (d : Place) : transform f d [] s = .ok s := rfl
theorem transform_cons (f : List Val → Mem → Res (Option Val × Mem)) (d : Place) (v : Val) (vs : List Val) : transform f d (v :: vs) s =
    (f [v] s).bind fun q => match q.1 with
    | some (.bytes b) => (orStuck (chunkOf b)).bind fun c => (read? d q.2).bind fun w => match w with
      | .chunks l => (write? d (.chunks (l ++ [c])) q.2).bind fun s => transform f d vs s
      | _ => .stuck
    | _ => .stuck := rfl
end
theorem placeOf_chunks (l : List Chunk) : placeOf (.chunks l) = none := rfl
theorem placeOf_self : placeOf .self = none := rfl

/-- `cpp_tree` with what the functions `hash_tree` use in addition. -/
macro "cpp_hash" "[" ts:Lean.Parser.Tactic.simpLemma,* "]" l:(Lean.Parser.Tactic.location)? : tactic => `(tactic| cpp_tree [
  library_transform, library_memcpy, method_back_value, method_begin_objs, method_end_objs, method_begin_ptrs, method_end_ptrs, placeOf_chunks, placeOf_self,
  treeFields, limits, lambda_one, $ts,*] $[$l]?)

variable (fs : List Func) (int : Option IT) (E : Env) (fuel d : Nat)

theorem of_map {α β : Type} (f : α → β) (a : Out α) : Res.of (a.map f) = (Res.of a).bind fun x => .ok (f x) := by cases a <;> rfl
theorem beq_same (n : Nat) : Nat.beq n n = true := Nat.beq_refl n

theorem slot_bytes (v : BitVec 64) : (List.take 0 (List.replicate 32 0#8) ++ (List.take 8 (leBytes 8 v.toNat) ++ List.drop 8 (List.replicate 32 0#8))) =
    (slotChunk v).1 := by
  rw [List.take_of_length_le (l := leBytes 8 v.toNat) (by rw [length_leBytes])]
  rfl

theorem slot_tree (v : BitVec 64) : run fs int none E fuel d slotTreeF [] (treeFields .uint64 v) [] =
    .ok (.chunks [slotChunk v], treeFields .uint64 v, []) := by
  cpp_hash [slotTreeF]
  rw [List.length_replicate, slot_bytes, chunkOf_val]
  rfl

/-- `Container::hash_tree` of an object. -/
theorem object_tree_enter (t : Ty) (v : t.denote) (g c : Frame) (b : List Frame) (h : List Obj) (elem : Option Ty) :
    (ctx fs int elem E fuel d).enter objectTreeF [] ⟨c, b, (name% "this", .obj ⟨t, v⟩) :: g, h⟩ =
      (Res.of (serialize t v)).bind fun l => (Res.of (hashTreeOfBytes E.hash l 0#64)).bind fun tr =>
        .ok (.chunks tr, ⟨c, b, (name% "this", .obj ⟨t, v⟩) :: g, h⟩) := by
  cpp_hash [objectTreeF, beq_same]

/-- `Container::hash_tree` of the classes without a function of their own. -/
theorem plain_tree (t : Ty) (v : t.denote) (g : Frame) (h : List Obj) (ht : ∀ (H : Chunk → Chunk → Chunk) v, hashTree H t v =
      (serialize t v).bind fun bs => hashTreeOfBytes H bs 0#64) :
    run fs int none E fuel d objectTreeF [] ((name% "this", .obj ⟨t, v⟩) :: g) h =
      (Res.of (hashTree E.hash t v)).bind fun tr => .ok (.chunks tr, (name% "this", .obj ⟨t, v⟩) :: g, h) := by
  rw [run_eq, object_tree_enter, ht]
  simp only [of_then, bind_assoc, bind_ok]

theorem bitlist_hash_loop (l : Nat) (v : List Bool) (hv : v.length < 2 ^ 31) (i : Nat) (hi : i ≤ v.length) (r : List Byte) (hr : r.length = (v.length + 7) / 8)
    (k : Nat) (hk : v.length - i < k) :
    (ctx fs int none E fuel d).forLoop (bitlistTreeF.body.nth 2).cond (bitlistTreeF.body.nth 2).step
      (bitlistTreeF.body.nth 2).inner k
      ⟨[(name% "i", .int .i32 i), (name% "ret", .bytes r)], [[]], treeFields (.bitlist l) v, []⟩ =
    .ok (none, ⟨[(name% "i", .int .i32 v.length), (name% "ret", .bytes (orBitsFrom r i (v.drop i)))], [[]], treeFields (.bitlist l) v, []⟩) := by
  induction k generalizing i r with
  | zero => omega
  | succ k ih =>
    rw [forLoop_succ]
    cpp_hash [bitlistTreeF]
    by_cases h : i < v.length
    · replace ih := ih (i + 1) (by omega)
      cpp_hash [bitlistTreeF] at ih
      cpp_arith [at_int, set_int]
      rw [ih _ (by simp [hr]) (by omega)]
      have := orBits_step r i v (by omega) (by omega)
      simp only [this]
    · have e : i = v.length := by omega
      subst e
      cpp_arith []
      rw [List.drop_of_length_le (by omega)]
      rfl

theorem at_out {α : Type} (l : List α) (i : Nat) (h : l.length ≤ i) : at? l i = .ub := by
  simp only [at?, Int.toNat_natCast, List.getElem?_eq_none h]
  cases decide (0 ≤ (i : Int)) <;> rfl

theorem bitlist_hash_ub (l : Nat) (v : List Bool) (hv : 2 ^ 31 ≤ v.length) (hv' : v.length < 2 ^ 64) (i : Nat) (hi : i < 2 ^ 31) (r : List Byte)
    (k : Nat) (hk : 2 ^ 31 - i < k) :
    (ctx fs int none E fuel d).forLoop (bitlistTreeF.body.nth 2).cond (bitlistTreeF.body.nth 2).step
      (bitlistTreeF.body.nth 2).inner k
      ⟨[(name% "i", .int .i32 i), (name% "ret", .bytes r)], [[]], treeFields (.bitlist l) v, []⟩ = .ub := by
  induction k generalizing i r with
  | zero => omega
  | succ k ih =>
    rw [forLoop_succ]
    cpp_hash [bitlistTreeF]
    by_cases hr : i / 8 < r.length
    · by_cases h : i + 1 < 2 ^ 31
      · replace ih := ih (i + 1) (by omega)
        cpp_hash [bitlistTreeF] at ih
        cpp_arith [at_int, set_int]
        rw [ih _ (by omega)]
      · cpp_arith [at_int, set_int]
    · cpp_arith [at_int v]
      rw [at_out r (i / 8) (by omega)]
      rfl

theorem u64_conv (n : Int) : IT.u64.conv n = n % 2 ^ 64 := rfl

theorem bits_limit (l : Nat) : BitVec.ofInt 64 (IT.u64.conv (Int.tdiv (IT.u64.conv (IT.u64.conv (IT.u64.conv (IT.u64.conv (IT.u64.conv (l : Int) + 256)) - 1))) 256)) =
    (BitVec.ofNat 64 l + 256#64 - 1#64) / 256#64 := by
  apply BitVec.eq_of_toNat_eq
  simp only [u64_conv, BitVec.toNat_ofInt, BitVec.toNat_udiv, BitVec.toNat_sub, BitVec.toNat_add, BitVec.toNat_ofNat]
  rw [Int.tdiv_eq_ediv_of_nonneg (by omega), show 256 % 2 ^ 64 = 256 from rfl, show 1 % 2 ^ 64 = 1 from rfl]
  omega

theorem bitlist_tree (l : Nat) (v : List Bool) (hv : v.length < 2 ^ 64) (hf : v.length < fuel) :
    run fs int none E fuel d bitlistTreeF [] (treeFields (.bitlist l) v) [] =
      (Res.of (hashTree E.hash (.bitlist l) v)).bind fun tr => .ok (.chunks tr, treeFields (.bitlist l) v, []) := by
  by_cases h : v.length < 2 ^ 31
  · have hl := bitlist_hash_loop fs int E fuel d l v h 0 (by omega) (List.replicate ((v.length + 7) / 8) 0#8) (by simp) fuel (by omega)
    cpp_hash [bitlistTreeF] at hl
    cpp_hash [bitlistTreeF]
    have e : (IT.u64.conv ((IT.u64.conv (IT.u64.conv (IT.u64.conv (IT.u64.conv (IT.u64.conv ↑v.length + 8)) - 1))).tdiv 8)).toNat = (v.length + 7) / 8 := by
      simp only [u64_conv]
      rw [Int.tdiv_eq_ediv_of_nonneg (by omega)]
      omega
    have e0 : BitVec.ofInt 8 0 = 0#8 := rfl
    rw [e, e0, hl]
    cpp_hash []
    have e1 : IT.u64.conv (IT.u32.conv (8 * 32)) = 256 := rfl
    have e2 : (IT.u64.conv (v.length : Int)).toNat = v.length := by rw [u64_conv]; omega
    have : ¬2 ^ 31 ≤ v.length := by omega
    simp only [e1, e2, bits_limit, Int.reduceEq, decide_false, cond_false]
    simp only [hashTree, bitlistHashTree, this, if_false, of_then, bind_assoc, BITS_PER_BYTE]
    rfl
  · have hl := fun r => bitlist_hash_ub fs int E fuel d l v (by omega) hv 0 (by omega) r fuel (by omega)
    cpp_hash [bitlistTreeF] at hl
    cpp_hash [bitlistTreeF]
    rw [hl]
    have : 2 ^ 31 ≤ v.length := by omega
    simp only [hashTree, bitlistHashTree, this, if_true, of_ub, bind_ub]

/-! ## Vectors -/

theorem chunk_roots (t : Ty) (elem : Option Ty) (xs : List t.denote) (acc : List Chunk) (bl : List Frame) (g : Frame) (h : List Obj) :
    (ctx fs int elem E fuel d).rangeLoop (name% "part") (vectorOtherF.body.nth 2).inner (xs.map fun x => .obj ⟨t, x⟩) ⟨[(name% "chunks", .chunks acc)], bl, g, h⟩ =
      (Res.of (rootsLoop (fun x => hashTree E.hash t x) xs)).bind fun rs => .ok (none, ⟨[(name% "chunks", .chunks (acc ++ rs))], bl, g, h⟩) := by
  induction xs generalizing acc with
  | nil =>
    rw [List.map_nil, rangeLoop_nil, rootsLoop, of_ok, bind_ok, List.append_nil]
  | cons x xs ih =>
    rw [List.map_cons, rangeLoop_cons, rootsLoop]
    cpp_hash [vectorOtherF, hashTreeRoot, of_then]
    cpp_hash [vectorOtherF] at ih
    simp only [ih, of_map, bind_assoc, bind_ok, List.append_assoc, List.singleton_append]

theorem library_tree_x (C : Ctx) (t : Option IT) (l : List Val) (s : Mem) : C.library (name% "hash_tree_x") t l s = none := rfl

theorem vector_basic (t : Ty) (n : Nat) (v : (Ty.vector t n).denote) (h1 : find (name% "hash_tree_x") fs = some vectorBasicF)
    (h2 : find (name% "hash_tree") fs = some objectTreeF) (ht : isBasicObject t = true) :
    run fs int (some t) E fuel (d + 2) vectorTreeF [] (treeFields (.vector t n) v) [] =
      (Res.of (hashTree E.hash (.vector t n) v)).bind fun tr => .ok (.chunks tr, treeFields (.vector t n) v, []) := by
  cpp_hash [vectorTreeF, library_tree_x, h1, vectorBasicF, h2, objectTreeF]
  simp only [hashTree, ht, if_true, of_then, bind_assoc]

theorem vector_other (t : Ty) (n : Nat) (hn : n < 2 ^ 64) (v : (Ty.vector t n).denote) (h1 : find (name% "hash_tree_x") fs = some vectorOtherF)
    (ht : isBasicObject t = false) :
    run fs int (some t) E fuel (d + 1) vectorTreeF [] (treeFields (.vector t n) v) [] =
      (Res.of (hashTree E.hash (.vector t n) v)).bind fun tr => .ok (.chunks tr, treeFields (.vector t n) v, []) := by
  have hl := chunk_roots fs int E fuel d t (some t) v.1 [] [[], []] (treeFields (.vector t n) v) []
  cpp_hash [vectorOtherF] at hl
  cpp_hash [vectorTreeF, library_tree_x, h1, vectorOtherF, List.map_map, Function.comp_def]
  rw [hl]
  cpp_hash []
  simp only [hashTree, ht, Bool.false_eq_true, if_false, of_then, bind_assoc]
  refine congrArg _ (funext fun rs => ?_)
  by_cases h : n = 1
  · subst h
    cpp_arith []
    rfl
  · cpp_arith []
    rw [if_neg h]

/-! ## Lists -/

theorem size_limit (l : Nat) (z : Nat) : BitVec.ofInt 64 (IT.u64.conv (Int.tdiv (IT.u64.conv (IT.u64.conv (IT.u64.conv (IT.u64.conv (IT.u64.conv
      (IT.u64.conv (IT.u64.conv (l : Int) * IT.u64.conv (z : Int))) + 32)) - 1))) 32)) =
    (BitVec.ofNat 64 l * BitVec.ofNat 64 z + 32#64 - 1#64) / 32#64 := by
  apply BitVec.eq_of_toNat_eq
  simp only [u64_conv, BitVec.toNat_ofInt, BitVec.toNat_udiv, BitVec.toNat_sub, BitVec.toNat_add, BitVec.toNat_mul, BitVec.toNat_ofNat]
  have e : ((l : Int) % 2 ^ 64 * ((z : Int) % 2 ^ 64)) % 2 ^ 64 = ((l % 2 ^ 64 * (z % 2 ^ 64) % 2 ^ 64 : Nat) : Int) := by
    rw [Int.natCast_emod, Int.natCast_mul, Int.natCast_emod, Int.natCast_emod]; rfl
  rw [e, Int.tdiv_eq_ediv_of_nonneg (by omega), show 32 % 2 ^ 64 = 32 from rfl, show 1 % 2 ^ 64 = 1 from rfl]
  generalize l % 2 ^ 64 * (z % 2 ^ 64) % 2 ^ 64 = m
  omega

theorem length_conv (n : Nat) (h : n < 2 ^ 64) : (IT.u64.conv (n : Int)).toNat = n := by rw [u64_conv]; omega

theorem list_basic (t : Ty) (l : Nat) (v : (Ty.listF t l).denote) (hv : (v : List t.denote).length < 2 ^ 64) (h1 : find (name% "hash_tree_x") fs = some listFBasicF)
    (ht : isBasicObject t = true) :
    run fs int (some t) E fuel (d + 1) listFTreeF [] (treeFields (.listF t l) v) [] =
      (Res.of (hashTree E.hash (.listF t l) v)).bind fun tr => .ok (.chunks tr, treeFields (.listF t l) v, []) := by
  cpp_hash [listFTreeF, library_tree_x, h1, listFBasicF, List.length_map]
  simp only [hashTree, ht, if_true, of_then, bind_assoc, size_limit, length_conv _ hv]

theorem zero_chunk : chunkOf (List.replicate 32 0#8) = some zeroHash := rfl

/-- What the functions of the lists do with the roots of the elements. -/
theorem list_tail (l n : Nat) (hn : n < 2 ^ 64) (rs : List Chunk) (α : Type) (k : List Chunk → Res α) :
    (bif decide (rs.length = 0) then
        (Res.of (hashTreeOfChunks E.hash (rs ++ [zeroHash]) (BitVec.ofInt 64 l))).bind fun x => (Res.of (mixIn E.hash x (IT.u64.conv n).toNat)).bind k
      else (Res.of (hashTreeOfChunks E.hash rs (BitVec.ofInt 64 l))).bind fun x => (Res.of (mixIn E.hash x (IT.u64.conv n).toNat)).bind k) =
    (Res.of (listTree E.hash l rs n)).bind k := by
  rw [length_conv n hn]
  simp only [listTree, of_then, bind_assoc, BitVec.ofInt_natCast]
  cases rs <;> rfl

theorem list_other (t : Ty) (l : Nat) (v : (Ty.listF t l).denote) (hv : (v : List t.denote).length < 2 ^ 64) (h1 : find (name% "hash_tree_x") fs = some listFOtherF)
    (ht : isBasicObject t = false) :
    run fs int (some t) E fuel (d + 1) listFTreeF [] (treeFields (.listF t l) v) [] =
      (Res.of (hashTree E.hash (.listF t l) v)).bind fun tr => .ok (.chunks tr, treeFields (.listF t l) v, []) := by
  have hl := chunk_roots fs int E fuel d t (some t) v [] [[], []] (treeFields (.listF t l) v) []
  cpp_hash [vectorOtherF] at hl
  cpp_hash [listFTreeF, library_tree_x, h1, listFOtherF, List.map_map, Function.comp_def]
  rw [hl]
  cpp_hash [zero_chunk, List.length_map]
  simp only [hashTree, ht, Bool.false_eq_true, if_false, of_then, bind_assoc]
  refine congrArg _ (funext fun rs => ?_)
  exact list_tail E l _ hv rs _ _

/-- The statements of the last argument of a call, a function object. -/
def Ex.lambda : Ex → Sts
  | .call _ (.cons _ (.cons _ (.cons _ (.cons (.lam _ b) .nil)))) => b
  | _ => .nil
/-- The expression of a statement. -/
def Stmt.ex : Stmt → Ex
  | .expr e => e
  | _ => .var 0

theorem chunk_transform (t : Ty) (elem : Option Ty) (xs : List t.denote) (acc : List Chunk) (bl : List Frame) (g : Frame) (h : List Obj) :
    transform ((ctx fs int elem E fuel (d + 1)).apply [name% "part"] (listVTreeF.body.nth 2).ex.lambda) (.here 0) (xs.map fun x => .obj ⟨t, x⟩)
        ⟨[(name% "chunks", .chunks acc)], bl, g, h⟩ =
      (Res.of (rootsLoop (fun x => hashTree E.hash t x) xs)).bind fun rs => .ok ⟨[(name% "chunks", .chunks (acc ++ rs))], bl, g, h⟩ := by
  induction xs generalizing acc with
  | nil =>
    rw [List.map_nil, transform_nil, rootsLoop, of_ok, bind_ok, List.append_nil]
  | cons x xs ih =>
    rw [List.map_cons, transform_cons, rootsLoop]
    cpp_hash [listVTreeF, Stmt.ex, Ex.lambda] at ih
    cpp_hash [listVTreeF, Stmt.ex, Ex.lambda, hashTreeRoot, of_then]
    simp only [ih, of_map, bind_assoc, bind_ok, List.append_assoc, List.singleton_append]

theorem list_variable (t : Ty) (l : Nat) (v : (Ty.listV t l).denote) (hv : (v : List t.denote).length < 2 ^ 64) :
    run fs int (some t) E fuel (d + 1) listVTreeF [] (treeFields (.listV t l) v) [] =
      (Res.of (hashTree E.hash (.listV t l) v)).bind fun tr => .ok (.chunks tr, treeFields (.listV t l) v, []) := by
  have hl := chunk_transform fs int E fuel d t (some t) v [] [[]] (treeFields (.listV t l) v) []
  cpp_hash [listVTreeF, Stmt.ex, Ex.lambda] at hl
  cpp_hash [listVTreeF, List.map_map, Function.comp_def]
  have e : List.take (List.map (fun x => (⟨t, x⟩ : Obj)) v).length (List.map (fun x => Val.obj ⟨t, x⟩) v) = List.map (fun x => Val.obj ⟨t, x⟩) v :=
    List.take_of_length_le (by rw [List.length_map, List.length_map])
  rw [e, hl, cond_of_true (by rw [List.length_map, List.length_map]; omega)]
  cpp_hash [zero_chunk, List.length_map]
  simp only [hashTree, of_then, bind_assoc]
  refine congrArg _ (funext fun rs => ?_)
  exact list_tail E l _ hv rs _ _

/-! ## Structs -/

theorem part_transform : (ps : Parts) → (v : ps.denote) → (elem : Option Ty) → (pre : List Obj) → (acc : List Chunk) → (p : Val) → (bl : List Frame) → (g : Frame) →
    transform ((ctx fs int elem E fuel (d + 1)).apply [name% "part"] (partsTreeF.body.nth 3).ex.lambda) (.here 1) (partPtrs ps pre.length)
        ⟨[(name% "chunks", .chunks acc), (name% "parts", p)], bl, g, pre ++ partsOf ps v⟩ =
      (Res.of (hashTreeParts E.hash ps v)).bind fun rs => .ok ⟨[(name% "chunks", .chunks (acc ++ rs)), (name% "parts", p)], bl, g, pre ++ partsOf ps v⟩
  | .nil, _, _, pre, acc, p, bl, g => by
    rw [partPtrs, transform_nil, hashTreeParts, of_ok, bind_ok, List.append_nil]
  | .cons _ t ps, v, elem, pre, acc, p, bl, g => by
    have ih := fun acc => part_transform ps v.2 elem (pre ++ [⟨t, v.1⟩]) acc p bl g
    rw [partPtrs, transform_cons, partsOf, hashTreeParts]
    cpp_hash [partsTreeF, Stmt.ex, Ex.lambda, List.append_assoc, List.length_append, List.length_singleton] at ih
    cpp_hash [partsTreeF, Stmt.ex, Ex.lambda, read_part, at_part, hashTreeRoot, of_then]
    simp only [ih, of_map, bind_assoc, bind_ok, List.append_assoc, List.singleton_append]

theorem struct_tree (z : Nat) (o : Bool) (ps : Parts) (v : (Ty.container z o ps).denote) (hp : (indices ps 0).length < 2 ^ 64) :
    run fs int none E fuel (d + 1) partsTreeF [.ptrs (indices ps 0)] (treeFields (.container z o ps) v) (partsOf ps v) =
      (Res.of (hashTree E.hash (.container z o ps) v)).bind fun tr => .ok (.chunks tr, treeFields (.container z o ps) v, partsOf ps v) := by
  have hl := part_transform fs int E fuel d ps v none [] [] (.ptrs (indices ps 0)) [[]] (treeFields (.container z o ps) v)
  cpp_hash [partsTreeF, Stmt.ex, Ex.lambda] at hl
  cpp_hash [partsTreeF, map_indices]
  cases ps with
  | nil => rfl
  | cons s t ps =>
    rw [cond_of_false (by rw [indices, List.length_cons] at *; rw [u64_conv]; omega)]
    have e : List.take (indices (.cons s t ps) 0).length (partPtrs (.cons s t ps) 0) = partPtrs (.cons s t ps) 0 :=
      List.take_of_length_le (by rw [partPtrs_length _ 0 0])
    rw [show partPtrs (.cons s t ps) (List.length ([] : List Obj)) = partPtrs (.cons s t ps) 0 from rfl] at hl
    rw [e, hl, cond_of_true (by rw [partPtrs_length _ 0 0]; omega)]
    cpp_hash []
    simp only [hashTree, of_then, bind_assoc]

theorem back_root (l : List Chunk) : at? l ((l.length : Int) - 1) = Res.of (treeRoot l) := by
  cases l with
  | nil => rfl
  | cons a l =>
    rw [at_int _ _ (by rw [List.length_cons]; omega) (by rw [List.length_cons]; omega), treeRoot, List.getLast?_eq_getElem?]
    have e : (((a :: l).length : Int) - 1).toNat = (a :: l).length - 1 := by omega
    simp only [e]
    rw [List.getElem?_eq_getElem (by rw [List.length_cons]; omega)]
    rfl

/-- `Container::hash_tree_root` of an object. -/
theorem object_root (t : Ty) (v : t.denote) (g : Frame) (parts : List Obj) (elem : Option Ty) :
    run fs int elem E fuel d objectRootF [] ((name% "this", .obj ⟨t, v⟩) :: g) parts =
      (Res.of (hashTreeRoot E.hash t v)).bind fun r => .ok (.bytes r.1, (name% "this", .obj ⟨t, v⟩) :: g, parts) := by
  cpp_hash [objectRootF, beq_same, back_root, hashTreeRoot, of_then]

end Mammon.Cpp
