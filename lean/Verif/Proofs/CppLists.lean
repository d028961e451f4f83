import Verif.Proofs.CppScalar
/-!
# Vectors and lists of objects

What the functions in the text of common/containers.hpp do.
-/

namespace Mammon.Cpp
open Nasm

variable (fs : List Func) (int : Option IT) (est : Env) (fuel d : Nat)

/-- The objects of an array. -/
def objsOf (t : Ty) (l : List t.denote) : List Obj := l.map fun x => ⟨t, x⟩

theorem fields_vector (t : Ty) (n : Nat) (v : Vec t.denote n) : fields (.vector t n) v =
    [(name% "m_arr", .objs (objsOf t v.1)), (name% "N", .int .u64 n), (name% "ssz_size", .int .u64 (n * t.sszSize : Nat))] := by rw [fields]; rfl
theorem fields_listF (t : Ty) (l : Nat) (v : List t.denote) : fields (.listF t l) v = [(name% "m_arr", .objs (objsOf t v))] := by rw [fields]; rfl
theorem fields_listV (t : Ty) (l : Nat) (v : List t.denote) : fields (.listV t l) v = [(name% "m_arr", .objs (objsOf t v))] := by rw [fields]; rfl

/-- The values of the objects of an array. -/
def valsOf (t : Ty) (l : List t.denote) : List Val := l.map fun x => .obj ⟨t, x⟩

theorem map_objsOf (t : Ty) (l : List t.denote) : (objsOf t l).map Val.obj = valsOf t l := by
  rw [objsOf, valsOf, List.map_map]; rfl
theorem valsOf_cons (t : Ty) (x : t.denote) (l : List t.denote) : valsOf t (x :: l) = .obj ⟨t, x⟩ :: valsOf t l := rfl
theorem valsOf_nil (t : Ty) : valsOf t [] = [] := rfl

theorem of_serialize (t : Ty) (v : t.denote) : Res.of (serialize t v) = bif serializeUB t v then .ub else .ok (serializeBytes t v) := by
  rw [serialize]; cases serializeUB t v <;> rfl

theorem vector_loop (t : Ty) (vs : List t.denote) (r : List Byte) (g : Frame) :
    (ctx fs int (some t) est fuel d).rangeLoop (name% "part") (vectorSerializeF.body.nth 1).inner (valsOf t vs)
      ⟨[(name% "ret", .bytes r)], [[]], g, []⟩ =
    bif vs.any (fun p => serializeUB t p) then .ub
    else .ok (none, ⟨[(name% "ret", .bytes (vs.foldl (fun ret p => ret ++ serializeBytes t p) r))], [[]], g, []⟩) := by
  induction vs generalizing r with
  | nil => rfl
  | cons x vs ih =>
    rw [valsOf_cons, rangeLoop_cons, List.any_cons, List.foldl_cons]
    cpp_run [vectorSerializeF, of_serialize]
    cpp_run [vectorSerializeF] at ih
    cases h : serializeUB t x
    · cpp_arith [cond_false, cond_true]
      cpp_run []
      rw [ih]
    · rfl

theorem vector_serialize (t : Ty) (n : Nat) (v : Vec t.denote n) :
    run fs int (some t) est fuel d vectorSerializeF [] (fields (.vector t n) v ++ consts) [] =
      (Res.of (serialize (.vector t n) v)).bind fun b => .ok (.bytes b, fields (.vector t n) v ++ consts, []) := by
  rw [fields_vector, of_serialize, serializeUB, serializeBytes]
  have h := vector_loop fs int est fuel d t v.1 [] ([(name% "m_arr", .objs (objsOf t v.1)), (name% "N", .int .u64 n), (name% "ssz_size", .int .u64 (n * t.sszSize : Nat))] ++ consts)
  cpp_run [vectorSerializeF] at h
  cpp_run [vectorSerializeF, map_objsOf]
  rw [h]
  cases v.1.any (fun p => serializeUB t p)
  · rfl
  · rfl

theorem listF_loop (t : Ty) (vs : List t.denote) (r : List Byte) (g : Frame) :
    (ctx fs int (some t) est fuel d).rangeLoop (name% "part") (listFSerializeF.body.nth 1).inner (valsOf t vs)
      ⟨[(name% "ret", .bytes r)], [[]], g, []⟩ =
    bif vs.any (fun p => serializeUB t p) then .ub
    else .ok (none, ⟨[(name% "ret", .bytes (vs.foldl (fun ret p => ret ++ serializeBytes t p) r))], [[]], g, []⟩) := by
  induction vs generalizing r with
  | nil => rfl
  | cons x vs ih =>
    rw [valsOf_cons, rangeLoop_cons, List.any_cons, List.foldl_cons]
    cpp_run [listFSerializeF, of_serialize]
    cpp_run [listFSerializeF] at ih
    cases h : serializeUB t x
    · cpp_arith [cond_false, cond_true]
      cpp_run []
      rw [ih]
    · rfl

theorem listF_serialize (t : Ty) (n : Nat) (v : List t.denote) :
    run fs int (some t) est fuel d listFSerializeF [] (fields (.listF t n) v ++ consts) [] =
      (Res.of (serialize (.listF t n) v)).bind fun b => .ok (.bytes b, fields (.listF t n) v ++ consts, []) := by
  rw [fields_listF, of_serialize, serializeUB, serializeBytes]
  have h := listF_loop fs int est fuel d t v [] ([(name% "m_arr", .objs (objsOf t v))] ++ consts)
  cpp_run [listFSerializeF] at h
  cpp_run [listFSerializeF, map_objsOf]
  rw [h]
  cases v.any (fun p => serializeUB t p)
  · rfl
  · rfl

theorem slice_nat (bs : List Byte) (a b : Nat) : Res.of (slice bs a b) = bif decide (a ≤ b ∧ b ≤ bs.length) then .ok ((bs.drop a).take (b - a)) else .ub := by
  rw [slice]
  by_cases h : a ≤ b ∧ b ≤ bs.length
  · rw [if_pos h, cond_of_true h]; rfl
  · rw [if_neg h, cond_of_false h]; rfl

theorem at_objs (t : Ty) (pre : List t.denote) (x : t.denote) (xs : List t.denote) :
    at? (objsOf t (pre ++ x :: xs)) (pre.length : Int) = .ok ⟨t, x⟩ := by
  simp [at?, objsOf]
theorem set_objs (t : Ty) (pre : List t.denote) (x y : t.denote) (xs : List t.denote) :
    set? (objsOf t (pre ++ x :: xs)) (pre.length : Int) ⟨t, y⟩ = .ok (objsOf t (pre ++ y :: xs)) := by
  rw [set_int _ _ _ (by omega) (by simp [objsOf]; omega)]
  simp [objsOf]

theorem vectorLoop_cons {α : Type} (elem : α → List Byte → Out (Bool × α)) (size : Nat) (bs : List Byte) (i : Nat) (x : α) (xs : List α) :
    vectorLoop elem size bs i (x :: xs) = ((slice bs (i * size) ((i + 1) * size)).bind fun s => (elem x s).bind fun r =>
      if r.1 then (vectorLoop elem size bs (i + 1) xs).bind fun q => .ok (q.1, ⟨r.2 :: q.2.1, congrArg (· + 1) q.2.2⟩)
      else .ok (false, ⟨r.2 :: xs, rfl⟩)) := rfl

theorem vector_decode (t : Ty) (n : Nat) (hn : n < 2 ^ 31) (bs : List Byte) (hb : bs.length = n * t.sszSize) (hl : bs.length < 2 ^ 63)
    (pre old : List t.denote) (hlen : pre.length + old.length = n) (k : Nat) (hk : old.length < k) :
    ∃ j : Int, (ctx fs int (some t) est fuel d).forLoop (vectorDeserializeF.body.nth 1).cond (vectorDeserializeF.body.nth 1).step
      (vectorDeserializeF.body.nth 1).inner k
      ⟨[(name% "i", .int .i32 pre.length), (name% "end", .iter (.glob 0) bs.length), (name% "it", .iter (.glob 0) 0)], [[]],
        [(name% "m_arr", .objs (objsOf t (pre ++ old))), (name% "N", .int .u64 n), (name% "ssz_size", .int .u64 (n * t.sszSize : Nat))] ++ (consts ++ input bs), []⟩ =
    (Res.of (vectorLoop (fun x s => deserialize t x s) t.sszSize bs pre.length old)).bind fun r =>
      .ok (bif r.1 then none else some (.bool false),
        ⟨[(name% "i", .int .i32 j), (name% "end", .iter (.glob 0) bs.length), (name% "it", .iter (.glob 0) 0)], [[]],
          [(name% "m_arr", .objs (objsOf t (pre ++ r.2.1))), (name% "N", .int .u64 n), (name% "ssz_size", .int .u64 (n * t.sszSize : Nat))] ++ (consts ++ input bs), []⟩) := by
  induction k generalizing pre old with
  | zero => omega
  | succ k ih =>
    rw [forLoop_succ]
    cpp_run [vectorDeserializeF]
    cases old with
    | nil =>
      rw [List.length_nil] at hlen
      refine ⟨n, ?_⟩
      cpp_arith []
      rw [vectorLoop, ← hlen]
      rfl
    | cons x xs =>
      rw [List.length_cons] at hlen hk
      have hs : ((pre.length + 1) * t.sszSize : Nat) ≤ bs.length := by rw [hb]; exact Nat.mul_le_mul_right _ (by omega)
      have h1 : (pre.length : Int) * t.sszSize ≤ (pre.length + 1) * t.sszSize := by exact_mod_cast Nat.mul_le_mul_right t.sszSize (Nat.le_succ pre.length)
      have h0 : 0 ≤ (pre.length : Int) * t.sszSize := by exact_mod_cast Nat.zero_le _
      have h2 : ((pre.length : Int) + 1) * t.sszSize ≤ bs.length := by exact_mod_cast hs
      have h3 : (t.sszSize : Int) < 2 ^ 63 := by
        have : 1 * t.sszSize ≤ (pre.length + 1) * t.sszSize := Nat.mul_le_mul_right _ (by omega)
        omega
      have e1 : ((pre.length : Int) * t.sszSize).toNat = pre.length * t.sszSize := by omega
      have e2 : (((pre.length : Int) + 1) * t.sszSize).toNat = (pre.length + 1) * t.sszSize := by
        have : ((pre.length : Int) + 1) * t.sszSize = ((pre.length + 1) * t.sszSize : Nat) := by exact_mod_cast rfl
        omega
      rw [vectorLoop_cons]
      cpp_arith [at_objs, e1, e2]
      have hsl : slice bs (pre.length * t.sszSize) ((pre.length + 1) * t.sszSize) = .ok ((bs.drop (pre.length * t.sszSize)).take ((pre.length + 1) * t.sszSize - pre.length * t.sszSize)) :=
        if_pos ⟨Nat.mul_le_mul_right _ (Nat.le_succ _), hs⟩
      rw [hsl]
      simp only [set_objs, bind_ok, Out.bind]
      cases deserialize t x ((bs.drop (pre.length * t.sszSize)).take ((pre.length + 1) * t.sszSize - pre.length * t.sszSize)) with
      | ub => exact ⟨0, rfl⟩
      | throws e => exact ⟨0, rfl⟩
      | ok r =>
        rcases r with ⟨_ | _, y⟩
        · exact ⟨_, rfl⟩
        · obtain ⟨j, hj⟩ := ih (pre ++ [y]) xs (by simp; omega) (by omega)
          cpp_run [vectorDeserializeF] at hj
          refine ⟨j, ?_⟩
          simp only [List.append_assoc, List.length_append, List.length_singleton, List.cons_append, List.nil_append, Int.natCast_add, Int.natCast_one] at hj
          simp only [of_ok, bind_ok, Bool.not_true, cond_false, if_true]
          rw [hj]
          cases vectorLoop (fun x s => deserialize t x s) t.sszSize bs (pre.length + 1) xs <;> rfl

theorem vector_deserialize (t : Ty) (n : Nat) (v : Vec t.denote n) (bs : List Byte) (hn : n < 2 ^ 31) (hs : n * t.sszSize < 2 ^ 64)
    (hl : bs.length < 2 ^ 63) (hf : n < fuel) :
    run fs int (some t) est fuel d vectorDeserializeF (ends bs) (fields (.vector t n) v ++ (consts ++ input bs)) [] =
      (Res.of (deserialize (.vector t n) v bs)).bind fun r => .ok (.bool r.1, fields (.vector t n) r.2 ++ (consts ++ input bs), []) := by
  rw [deserialize.eq_def]
  simp only [fields_vector]
  cpp_run [vectorDeserializeF]
  by_cases h : bs.length = n * t.sszSize
  · obtain ⟨j, hj⟩ := vector_decode fs int est fuel d t n hn bs h hl [] v.1 (by rw [v.2]; simp) fuel (by rw [v.2]; exact hf)
    cpp_run [vectorDeserializeF] at hj
    cpp_arith []
    simp only [List.length_nil, Int.natCast_zero] at hj
    rw [hj, if_neg (fun hn => hn h)]
    cases vectorLoop (fun x s => deserialize t x s) t.sszSize bs 0 v.1 with
    | ub => rfl
    | throws e => rfl
    | ok r => rcases r with ⟨_ | _, y⟩ <;> rfl
  · rw [if_pos h]
    cpp_arith []
    rfl

theorem of_obind {α β : Type} (a : Out α) (f : α → Out β) : Res.of (a.bind f) = (Res.of a).bind fun x => Res.of (f x) := by cases a <;> rfl

theorem objsOf_snoc (t : Ty) (l : List t.denote) (x : t.denote) : objsOf t l ++ [⟨t, x⟩] = objsOf t (l ++ [x]) := by simp [objsOf]

theorem objsOf_nil (t : Ty) : objsOf t [] = [] := rfl

theorem listF_decode (t : Ty) (bs : List Byte) (hl : bs.length < 2 ^ 63) (hs : 0 < t.sszSize) (i : Nat) (hi : i ≤ bs.length)
    (hd : (bs.length - i) % t.sszSize = 0)
    (acc : List t.denote) (k : Nat) (hk : bs.length - i < k) :
    ∃ j : Int, (ctx fs int (some t) est fuel d).forLoop (listFDeserializeF.body.nth 2).cond (listFDeserializeF.body.nth 2).step
      (listFDeserializeF.body.nth 2).inner k
      ⟨[(name% "i", .iter (.glob 0) i), (name% "end", .iter (.glob 0) bs.length), (name% "it", .iter (.glob 0) 0)], [[]],
        [(name% "m_arr", .objs (objsOf t acc))] ++ (consts ++ input bs), []⟩ =
    (Res.of (listFLoop (fun s => deserialize t t.dflt s) t.sszSize acc (bs.drop i))).bind fun r =>
      .ok (bif r.1 then none else some (.bool false),
        ⟨[(name% "i", .iter (.glob 0) j), (name% "end", .iter (.glob 0) bs.length), (name% "it", .iter (.glob 0) 0)], [[]],
          [(name% "m_arr", .objs (objsOf t r.2))] ++ (consts ++ input bs), []⟩) := by
  induction k generalizing i acc with
  | zero => omega
  | succ k ih =>
    rw [forLoop_succ, listFLoop]
    cpp_run [listFDeserializeF]
    by_cases h : i = bs.length
    · subst h
      refine ⟨bs.length, ?_⟩
      cpp_arith []
      rw [if_pos (by simp)]
      rfl
    · have hle : t.sszSize ≤ bs.length - i := Nat.le_of_dvd (by omega) (Nat.dvd_of_mod_eq_zero hd)
      have e1 : ((i : Int) + t.sszSize).toNat = i + t.sszSize := by omega
      cpp_arith [e1]
      rw [if_neg (by simp; omega), dif_neg (by rw [List.length_drop]; omega)]
      rw [Nat.add_sub_cancel_left]
      show ∃ j, _ = (Res.of (Out.bind _ _)).bind _
      cases deserialize t t.dflt ((bs.drop i).take t.sszSize) with
      | ub => exact ⟨0, rfl⟩
      | throws e => exact ⟨0, rfl⟩
      | ok r =>
        rcases r with ⟨_ | _, y⟩
        · exact ⟨_, rfl⟩
        · obtain ⟨j, hj⟩ := ih (i + t.sszSize) (by omega)
            (by rw [show bs.length - i = (bs.length - (i + t.sszSize)) + t.sszSize by omega, Nat.add_mod_right] at hd; exact hd) (acc ++ [y]) (by omega)
          cpp_run [listFDeserializeF] at hj
          refine ⟨j, ?_⟩
          cpp_run [objsOf_snoc]
          rw [hj, List.drop_drop]
          rfl

theorem listF_deserialize (t : Ty) (n : Nat) (v : List t.denote) (bs : List Byte) (hs : t.sszSize < 2 ^ 64)
    (hl : bs.length < 2 ^ 63) (hf : bs.length < fuel) :
    run fs int (some t) est fuel d listFDeserializeF (ends bs) (fields (.listF t n) v ++ (consts ++ input bs)) [] =
      (Res.of (deserialize (.listF t n) v bs)).bind fun r => .ok (.bool r.1, fields (.listF t n) r.2 ++ (consts ++ input bs), []) := by
  rw [deserialize.eq_def]
  simp only [fields_listF]
  cpp_run [listFDeserializeF]
  by_cases h0 : t.sszSize = 0
  · cpp_arith []
    rw [if_pos h0]
    rfl
  · rw [if_neg h0]
    have hm : bs.length % t.sszSize < 2 ^ 63 := Nat.lt_of_le_of_lt (Nat.mod_le _ _) hl
    cpp_arith [tmod_nat]
    by_cases h : bs.length % t.sszSize = 0
    · obtain ⟨j, hj⟩ := listF_decode fs int est fuel d t bs hl (by omega) 0 (by omega) (by simpa using h) [] fuel (by omega)
      cpp_run [listFDeserializeF] at hj
      cpp_arith []
      rw [if_neg (fun hn => hn h)]
      rw [objsOf_nil] at hj
      rw [hj]
      cases listFLoop (fun s => deserialize t t.dflt s) t.sszSize [] bs with
      | ub => rfl
      | throws e => rfl
      | ok r => rcases r with ⟨_ | _, y⟩ <;> rfl
    · rw [if_pos h]
      cpp_arith []
      rfl


theorem offset_add (o : BitVec 32) (len : Nat) :
    IT.u32.conv (IT.u64.conv (IT.u64.conv (o.toNat : Int) + IT.u64.conv (len : Int))) = ((o + BitVec.ofNat 32 len).toNat : Int) := by
  show ((((o.toNat : Int) % 2 ^ 64 + (len : Int) % 2 ^ 64) % 2 ^ 64) % 2 ^ 32) = _
  rw [BitVec.toNat_add, BitVec.toNat_ofNat]
  omega

theorem offset_start (len : Nat) :
    IT.u32.conv (IT.u64.conv (IT.u64.conv (IT.u64.conv (len : Int)) * 4)) = ((BitVec.ofNat 32 (len * BYTES_PER_LENGTH_OFFSET)).toNat : Int) := by
  show ((((len : Int) % 2 ^ 64 % 2 ^ 64 * 4) % 2 ^ 64) % 2 ^ 32) = _
  rw [BitVec.toNat_ofNat, show BYTES_PER_LENGTH_OFFSET = 4 from rfl]
  omega

theorem listV_loop (t : Ty) (vs : List t.denote) (o r : List Byte) (x : BitVec 32) (g : Frame) :
    (ctx fs int (some t) est fuel d).rangeLoop (name% "part") (listVSerializeF.body.nth 2).inner (valsOf t vs)
      ⟨[(name% "offset", .int .u32 x.toNat), (name% "ret", .bytes r), (name% "offsets", .bytes o)], [[]], g, []⟩ =
    bif vs.any (fun p => serializeUB t p) then .ub
    else .ok (none, ⟨[
      (name% "offset", .int .u32 (vs.foldl (fun (s : List Byte × List Byte × BitVec 32) p =>
        (s.1 ++ bytes4 s.2.2, s.2.1 ++ serializeBytes t p, s.2.2 + BitVec.ofNat 32 (serializeBytes t p).length)) (o, r, x)).2.2.toNat),
      (name% "ret", .bytes (vs.foldl (fun (s : List Byte × List Byte × BitVec 32) p =>
        (s.1 ++ bytes4 s.2.2, s.2.1 ++ serializeBytes t p, s.2.2 + BitVec.ofNat 32 (serializeBytes t p).length)) (o, r, x)).2.1),
      (name% "offsets", .bytes (vs.foldl (fun (s : List Byte × List Byte × BitVec 32) p =>
        (s.1 ++ bytes4 s.2.2, s.2.1 ++ serializeBytes t p, s.2.2 + BitVec.ofNat 32 (serializeBytes t p).length)) (o, r, x)).1)], [[]], g, []⟩) := by
  induction vs generalizing o r x with
  | nil => rfl
  | cons y vs ih =>
    rw [valsOf_cons, rangeLoop_cons, List.any_cons]
    simp only [List.foldl_cons]
    cpp_run [listVSerializeF, of_serialize]
    cpp_run [listVSerializeF] at ih
    cases h : serializeUB t y
    · simp only [offset_add, cond_false]
      cpp_run []
      exact ih (o ++ bytes4 x) (r ++ serializeBytes t y) (x + BitVec.ofNat 32 (serializeBytes t y).length)
    · cpp_arith [cond_false, cond_true]
      rfl


theorem library_size (C : Ctx) (t : Option IT) (s : Mem) : C.library (name% "size") t [] s = none := rfl

theorem objsOf_length (t : Ty) (l : List t.denote) : (objsOf t l).length = l.length := List.length_map _

theorem listV_serialize (t : Ty) (n : Nat) (v : List t.denote) (hsize : find (name% "size") fs = some listVSizeF) :
    run fs int (some t) est fuel (d + 1) listVSerializeF [] (fields (.listV t n) v ++ consts) [] =
      (Res.of (serialize (.listV t n) v)).bind fun b => .ok (.bytes b, fields (.listV t n) v ++ consts, []) := by
  rw [fields_listV, of_serialize, serializeUB, serializeBytes]
  have h := listV_loop fs int est fuel (d + 1) t v [] [] (BitVec.ofNat 32 (v.length * BYTES_PER_LENGTH_OFFSET)) ([(name% "m_arr", .objs (objsOf t v))] ++ consts)
  cpp_run [listVSerializeF] at h
  cpp_run [listVSerializeF, listVSizeF, map_objsOf, library_size, hsize, objsOf_length, offset_start]
  rw [h]
  cases v.any (fun p => serializeUB t p)
  · cpp_run []
    generalize v.foldl _ _ = R
    rcases R with ⟨_ | ⟨x, l⟩, r, y⟩
    · rfl
    · rw [cond_of_not_true (by simp only [List.length_cons]; omega), cond_of_true (by omega)]
  · rfl


theorem read_offset (bs : List Byte) (i : Nat) : fromLE ((bs.drop i).take 4) = (BitVec.ofNat 32 (fromLE ((bs.drop i).take 4))).toNat := by
  have h := leBytes_fromLE_lt ((bs.drop i).take 4)
  have h2 : 256 ^ ((bs.drop i).take 4).length ≤ 256 ^ 4 := Nat.pow_le_pow_right (by omega) (by rw [List.length_take]; omega)
  rw [BitVec.toNat_ofNat, Nat.mod_eq_of_lt (by omega)]

/-- The statements after the first ones. -/
def Sts.after : Nat → Sts → Sts
  | 0, s => s
  | _, .nil => .nil
  | n + 1, .cons _ b => after n b

theorem bind_of_bind {α β γ : Type} {a : Res α} {f : α → Res β} {r : Res β} (h : a.bind f = r) (K : β → Res γ) :
    a.bind (fun q => (f q).bind K) = r.bind K := by rw [← h, bind_assoc]

theorem listVLoop_end {α : Type} (elem : List Byte → Out (Bool × α)) (bs : List Byte) (first : BitVec 32) (it : Nat) (last : BitVec 32) (acc : List α)
    (h : it = first.toNat) : listVLoop elem bs first it last acc = (slice bs last.toNat bs.length).bind fun s => (elem s).bind fun r =>
      .ok (r.1, if r.1 then acc ++ [r.2] else acc) := by
  rw [listVLoop, if_pos h]; rfl

theorem listVLoop_bad {α : Type} (elem : List Byte → Out (Bool × α)) (bs : List Byte) (first : BitVec 32) (it : Nat) (last : BitVec 32) (acc : List α)
    (h : it ≠ first.toNat) (h2 : it + 4 > first.toNat) : listVLoop elem bs first it last acc = .ok (false, acc) := by
  rw [listVLoop, if_neg h, dif_pos h2]

theorem listVLoop_step {α : Type} (elem : List Byte → Out (Bool × α)) (bs : List Byte) (first : BitVec 32) (it : Nat) (last : BitVec 32) (acc : List α)
    (h : it ≠ first.toNat) (h2 : ¬it + 4 > first.toNat) : listVLoop elem bs first it last acc =
      (read32 bs it).bind fun cur =>
        if cur < last then .ok (false, acc)
        else if bs.length < cur.toNat then .ok (false, acc)
        else (slice bs last.toNat cur.toNat).bind fun s => (elem s).bind fun r =>
          if r.1 then listVLoop elem bs first (it + BYTES_PER_LENGTH_OFFSET) cur (acc ++ [r.2]) else .ok (false, acc) := by
  rw [listVLoop, if_neg h, dif_neg h2]; rfl

theorem listV_decode (t : Ty) (bs : List Byte) (hl : bs.length < 2 ^ 63) (first : BitVec 32) (hfirst : first.toNat ≤ bs.length) (it : Nat)
    (hit : it ≤ first.toNat) (last : BitVec 32) (hlast : last.toNat ≤ bs.length)
    (acc : List t.denote) (k : Nat) (hk : first.toNat - it < k) :
    ∃ f : Frame, ((ctx fs int (some t) est fuel d).whileLoop (listVDeserializeF.body.nth 9).cond (listVDeserializeF.body.nth 9).inner k
      ⟨[(name% "last_offset", .int .u32 last.toNat), (name% "first_offset", .int .u32 first.toNat), (name% "start", .iter (.glob 0) 0),
        (name% "end", .iter (.glob 0) bs.length), (name% "it", .iter (.glob 0) it)], [[]],
        [(name% "m_arr", .objs (objsOf t acc))] ++ (consts ++ input bs), []⟩).bind (fun q => match q.1 with
          | some v => .ok (some v, q.2)
          | none => (ctx fs int (some t) est fuel d).execs (listVDeserializeF.body.after 10) q.2) =
    (Res.of (listVLoop (fun s => deserialize t t.dflt s) bs first it last acc)).bind fun r =>
      .ok (some (.bool r.1), ⟨f, [[]], [(name% "m_arr", .objs (objsOf t r.2))] ++ (consts ++ input bs), []⟩) := by
  induction k generalizing it last acc with
  | zero => omega
  | succ k ih =>
    rw [whileLoop_succ]
    cpp_run [listVDeserializeF, Sts.after]
    by_cases h : it = first.toNat
    · rw [listVLoop_end _ _ _ _ _ _ h]
      cpp_arith []
      have hsl : slice bs last.toNat bs.length = .ok ((bs.drop last.toNat).take (bs.length - last.toNat)) :=
        if_pos ⟨hlast, Nat.le_refl _⟩
      rw [hsl]
      simp only [Out.bind]
      cases deserialize t t.dflt ((bs.drop last.toNat).take (bs.length - last.toNat)) with
      | ub => exact ⟨[], rfl⟩
      | throws e => exact ⟨[], rfl⟩
      | ok r =>
        rcases r with ⟨_ | _, y⟩
        · exact ⟨_, rfl⟩
        · cpp_run [objsOf_snoc]
          exact ⟨_, rfl⟩
    · by_cases h2 : it + 4 > first.toNat
      · rw [listVLoop_bad _ _ _ _ _ _ h h2]
        cpp_arith []
        exact ⟨_, rfl⟩
      · rw [listVLoop_step _ _ _ _ _ _ h h2]
        have hr32 : read32 bs it = .ok (BitVec.ofNat 32 (fromLE ((bs.drop it).take 4))) := if_pos (by omega)
        have e1 : ((it : Int) + 4).toNat = it + 4 := by omega
        have hr := read_offset bs it
        rw [hr32]
        simp only [Out.bind]
        generalize BitVec.ofNat 32 (fromLE ((bs.drop it).take 4)) = cur at hr
        cpp_arith [e1, Nat.add_sub_cancel_left, hr]
        by_cases h3 : cur < last
        · have : cur.toNat < last.toNat := h3
          rw [if_pos h3]
          cpp_arith []
          exact ⟨_, rfl⟩
        · have : ¬cur.toNat < last.toNat := h3
          rw [if_neg h3]
          cpp_arith []
          by_cases h4 : bs.length < cur.toNat
          · rw [if_pos h4]
            cpp_arith []
            exact ⟨_, rfl⟩
          · rw [if_neg h4]
            cpp_arith []
            have hsl : slice bs last.toNat cur.toNat = .ok ((bs.drop last.toNat).take (cur.toNat - last.toNat)) :=
              if_pos ⟨by omega, by omega⟩
            rw [hsl]
            simp only [Out.bind]
            cases deserialize t t.dflt ((bs.drop last.toNat).take (cur.toNat - last.toNat)) with
            | ub => exact ⟨[], rfl⟩
            | throws e => exact ⟨[], rfl⟩
            | ok r =>
              rcases r with ⟨_ | _, y⟩
              · exact ⟨_, rfl⟩
              · obtain ⟨f, hf⟩ := ih (it + 4) (by omega) cur (by omega) (acc ++ [y]) (by omega)
                cpp_run [listVDeserializeF, Sts.after] at hf
                refine ⟨f, ?_⟩
                cpp_run [objsOf_snoc]
                exact hf

theorem listV_deserialize (t : Ty) (n : Nat) (v : List t.denote) (bs : List Byte)
    (hl : bs.length < 2 ^ 63) (hf : bs.length < fuel) :
    run fs int (some t) est fuel d listVDeserializeF (ends bs) (fields (.listV t n) v ++ (consts ++ input bs)) [] =
      (Res.of (deserialize (.listV t n) v bs)).bind fun r => .ok (.bool r.1, fields (.listV t n) r.2 ++ (consts ++ input bs), []) := by
  rw [deserialize.eq_def]
  simp only [fields_listV]
  cpp_run [listVDeserializeF]
  rw [listVDeserialize]
  by_cases h0 : bs.length = 0
  · rw [if_pos (by simpa using h0)]
    cpp_arith []
    rfl
  · rw [if_neg (by simpa using h0)]
    by_cases h1 : bs.length < 4
    · rw [if_pos h1]
      cpp_arith []
      rfl
    · rw [if_neg h1]
      cpp_arith []
      have hr32 : read32 bs 0 = .ok (BitVec.ofNat 32 (fromLE ((bs.drop 0).take 4))) := if_pos (by omega)
      have hr := read_offset bs 0
      rw [hr32]
      generalize BitVec.ofNat 32 (fromLE ((bs.drop 0).take 4)) = first at hr
      rw [List.drop_zero] at hr
      have hb := first.isLt
      simp only [hr]
      show _ = (Res.of (if first.toNat < 4 then _ else _)).bind _
      by_cases h2 : first.toNat < 4
      · rw [if_pos h2]
        cpp_arith []
        rfl
      · rw [if_neg h2]
        cpp_arith []
        by_cases h3 : bs.length < first.toNat
        · rw [if_pos h3]
          cpp_arith []
          rfl
        · rw [if_neg h3]
          cpp_arith []
          obtain ⟨f, hj⟩ := listV_decode fs int est fuel d t bs hl first (by omega) 4 (by omega) first (by omega) [] fuel (by omega)
          cpp_run [listVDeserializeF, Sts.after] at hj
          refine (bind_of_bind hj _).trans ?_
          show _ = (Res.of (listVLoop (fun s => deserialize t t.dflt s) bs first 4 first [])).bind _
          cases listVLoop (fun s => deserialize t t.dflt s) bs first 4 first [] <;> rfl


end Mammon.Cpp
