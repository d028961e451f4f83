import Verif.Proofs.CppLists
/-!
# Structs

What the functions in the text of ssz/ssz_container.cpp do.
-/

namespace Mammon.Cpp
open Nasm

variable (fs : List Func) (int : Option IT) (elem : Option Ty) (est : Env) (fuel d : Nat)

/-- Pointers to as many parts, from the given one on. -/
def partPtrs : Parts → Nat → List Val
  | .nil, _ => []
  | .cons _ _ ps, i => .ptr (some i) :: partPtrs ps (i + 1)

theorem map_indices : (ps : Parts) → (i : Nat) → (indices ps i).map (fun k => Val.ptr (some k)) = partPtrs ps i
  | .nil, _ => rfl
  | .cons _ _ ps, i => by rw [indices, partPtrs, List.map_cons, map_indices ps]

theorem at_part (pre : List Obj) (o : Obj) (l : List Obj) : (pre ++ o :: l)[pre.length]? = some o := by simp

theorem read_part (k : Nat) (c : Frame) (b : List Frame) (g : Frame) (h : List Obj) : read? (.part k) ⟨c, b, g, h⟩ = match h[k]? with
    | some o => .ok (.obj o)
    | none => .ub := rfl
theorem write_part (k : Nat) (o : Obj) (c : Frame) (b : List Frame) (g : Frame) (h : List Obj) : write? (.part k) (.obj o) ⟨c, b, g, h⟩ =
    (set? h k o).bind fun h => .ok ⟨c, b, g, h⟩ := rfl
theorem forEach_nil (f : List Val → Mem → Res (Option Val × Mem)) (s : Mem) : forEach f [] s = .ok s := rfl
theorem forEach_cons (f : List Val → Mem → Res (Option Val × Mem)) (k : Nat) (ks : List Nat) (s : Mem) :
    forEach f (k :: ks) s = (f [.ptr (some k)] s).bind fun q => forEach f ks q.2 := rfl
theorem lambda_one (C : Ctx) (n : Nat) (b : Sts) (v : Val) (c : Frame) (bl : List Frame) (g : Frame) (h : List Obj) :
    C.lambda [n] b [v] ⟨c, bl, g, h⟩ = (C.execs b ⟨(n, v) :: c, bl, g, h⟩).bind fun q => .ok (q.1, leave c.length q.2) := rfl

/-- The statements of a function object. -/
def Stmt.lambda : Stmt → Sts
  | .init _ _ (.lam _ b) => b
  | _ => .nil


theorem length_add (x : BitVec 32) (n : Nat) :
    IT.u32.conv (IT.u32.conv ((x.toNat : Int) + IT.u32.conv (IT.u32.conv (n : Int)))) = ((x + BitVec.ofNat 32 n).toNat : Int) := by
  show (((x.toNat : Int) + (n : Int) % 2 ^ 32 % 2 ^ 32) % 2 ^ 32 % 2 ^ 32) = _
  rw [BitVec.toNat_add, BitVec.toNat_ofNat]
  omega
theorem length_four (x : BitVec 32) :
    IT.u32.conv (IT.u32.conv ((x.toNat : Int) + 4)) = ((x + BitVec.ofNat 32 BYTES_PER_LENGTH_OFFSET).toNat : Int) := by
  show (((x.toNat : Int) + 4) % 2 ^ 32 % 2 ^ 32) = _
  rw [BitVec.toNat_add, BitVec.toNat_ofNat, show BYTES_PER_LENGTH_OFFSET = 4 from rfl]
  omega

theorem fixed_loop : (ps : Parts) → (v : ps.denote) → (hs : SizesFit ps) → (pre : List Obj) → (x : BitVec 32) → (l p : Val) → (g : Frame) →
    (hg : g = [] ∨ ∃ bs, g = input bs) → (b : List Frame) →
    forEach ((ctx fs int elem est fuel (d + 1)).apply [name% "part"] (computeFixedLengthF.body.nth 1).lambda) (indices ps pre.length)
      ⟨[(name% "sum_lengths", l), (name% "ret", .int .u32 x.toNat), (name% "parts", p)], b, consts ++ g, pre ++ partsOf ps v⟩ =
    .ok ⟨[(name% "sum_lengths", l), (name% "ret", .int .u32 (computeFixedLength ps x).toNat), (name% "parts", p)], b, consts ++ g, pre ++ partsOf ps v⟩
  | .nil, _, _, _, _, _, _, _, _, _ => rfl
  | .cons _ t ps, v, hs, pre, x, l, p, g, hg, b => by
    have ih := fixed_loop ps v.2 hs.2 (pre ++ [⟨t, v.1⟩])
    have h1 := hs.1
    rw [indices, forEach_cons, partsOf, computeFixedLength]
    cpp_run [computeFixedLengthF, Stmt.lambda, List.append_assoc, List.length_append, List.length_singleton] at ih
    rcases hg with rfl | ⟨bs, rfl⟩
    · have ih := fun x => ih x l p [] (.inl rfl) b
      cpp_run [computeFixedLengthF, lambda_one, Stmt.lambda, read_part, at_part]
      by_cases h : t.sszSize = 0
      · rw [if_pos h, ← ih]
        cpp_arith [length_four]
      · rw [if_neg h, ← ih]
        cpp_arith [length_add]
    · have ih := fun x => ih x l p (input bs) (.inr ⟨bs, rfl⟩) b
      cpp_run [] at ih
      cpp_run [computeFixedLengthF, lambda_one, Stmt.lambda, read_part, at_part]
      by_cases h : t.sszSize = 0
      · rw [if_pos h, ← ih]
        cpp_arith [length_four]
      · rw [if_neg h, ← ih]
        cpp_arith [length_add]

theorem partPtrs_length : (ps : Parts) → (i j : Nat) → (partPtrs ps i).length = (indices ps j).length
  | .nil, _, _ => rfl
  | .cons _ _ ps, i, j => by rw [partPtrs, indices, List.length_cons, List.length_cons, partPtrs_length ps]

theorem fixed_length (ps : Parts) (v : ps.denote) (hs : SizesFit ps) (g : Frame) (hg : g = [] ∨ ∃ bs, g = input bs) (c : Frame) (b : List Frame) :
    (ctx fs int elem est fuel (d + 1)).enter computeFixedLengthF [.ptrs (indices ps 0)] ⟨c, b, consts ++ g, partsOf ps v⟩ =
      .ok (.int .u32 (computeFixedLength ps 0#32).toNat, ⟨c, b, consts ++ g, partsOf ps v⟩) := by
  have h := fixed_loop fs int elem est fuel d ps v hs [] 0#32 (.lam [name% "part"] (computeFixedLengthF.body.nth 1).lambda) (.ptrs (indices ps 0)) g hg (c :: b)
  have hx := (computeFixedLength ps 0#32).isLt
  cpp_run [computeFixedLengthF, Stmt.lambda] at h
  rw [show ((0#32).toNat : Int) = 0 from rfl] at h
  cpp_run [computeFixedLengthF]
  have h0 : (0 : Int) ≤ (indices ps 0).length := by omega
  rw [show indices ps [].length = indices ps 0 from rfl] at h
  rw [h]
  rcases hg with rfl | ⟨bs, rfl⟩
  · cpp_run [computeFixedLengthF]
    cpp_arith []
  · cpp_run [computeFixedLengthF]
    cpp_arith []

theorem struct_serialize_loop : (ps : Parts) → (v : ps.denote) → (hs : SizesFit ps) → (pre : List Obj) → (x : BitVec 32) → (ret var : List Byte) → (p : Val) →
    ∃ f : Frame, ((ctx fs int elem est fuel d).rangeLoop (name% "part") (serializeF.body.nth 3).inner (partPtrs ps pre.length)
      ⟨[(name% "variable_part", .bytes var), (name% "ret", .bytes ret), (name% "fixed_length", .int .u32 x.toNat), (name% "parts", p)], [[]], consts,
        pre ++ partsOf ps v⟩).bind (fun q => match q.1 with
          | some v => .ok (some v, q.2)
          | none => (ctx fs int elem est fuel d).execs (serializeF.body.after 4) q.2) =
    bif serializeUBParts ps v then .ub else .ok (some (.bytes (serializeParts ps v x ret var)), ⟨f, [[]], consts, pre ++ partsOf ps v⟩)
  | .nil, _, _, pre, x, ret, var, p => by
    rw [partPtrs, rangeLoop_nil]
    cpp_run [serializeF, Sts.after]
    exact ⟨_, rfl⟩
  | .cons _ t ps, v, hs, pre, x, ret, var, p => by
    have ih := struct_serialize_loop ps v.2 hs.2 (pre ++ [⟨t, v.1⟩])
    have h1 := hs.1
    rw [partPtrs, rangeLoop_cons, partsOf, serializeUBParts, serializeParts]
    cpp_run [serializeF, Sts.after, List.append_assoc, List.length_append, List.length_singleton] at ih
    cpp_run [serializeF, Sts.after, read_part, at_part, of_serialize]
    cases serializeUB t v.1
    · by_cases h : t.sszSize = 0
      · obtain ⟨f, hf⟩ := ih (x + BitVec.ofNat 32 (serializeBytes t v.1).length) (ret ++ bytes4 x) (var ++ serializeBytes t v.1) p
        refine ⟨f, ?_⟩
        rw [if_pos h]
        refine Eq.trans ?_ hf
        cpp_arith [length_add, cond_false]
        rfl
      · obtain ⟨f, hf⟩ := ih x (ret ++ serializeBytes t v.1) var p
        refine ⟨f, ?_⟩
        rw [if_neg h]
        refine Eq.trans ?_ hf
        cpp_arith [cond_false]
    · exact ⟨[], rfl⟩

theorem library_length (C : Ctx) (t : Option IT) (l : List Val) (s : Mem) : C.library (name% "compute_fixed_length") t l s = none := rfl

theorem struct_serialize (z : Nat) (o : Bool) (ps : Parts) (v : ps.denote) (hs : SizesFit ps) (hn : (indices ps 0).length < 2 ^ 64)
    (hfind : find (name% "compute_fixed_length") fs = some computeFixedLengthF) :
    run fs int elem est fuel (d + 2) serializeF [.ptrs (indices ps 0)] consts (partsOf ps v) =
      (Res.of (serialize (.container z o ps) v)).bind fun b => .ok (.bytes b, consts, partsOf ps v) := by
  have hc := fixed_loop fs int elem est fuel d ps v hs [] 0#32 (.lam [name% "part"] (computeFixedLengthF.body.nth 1).lambda) (.ptrs (indices ps 0)) []
    (.inl rfl) [[(name% "parts", .ptrs (indices ps 0))], []]
  rw [show ((0#32).toNat : Int) = 0 from rfl, show indices ps [].length = indices ps 0 from rfl] at hc
  cpp_run [computeFixedLengthF, Stmt.lambda] at hc
  obtain ⟨f, h⟩ := struct_serialize_loop fs int elem est fuel (d + 2) ps v hs [] (computeFixedLength ps 0#32) [] [] (.ptrs (indices ps 0))
  rw [of_serialize, serializeUB, serializeBytes]
  cpp_run [serializeF, Sts.after, List.length_nil] at h
  cpp_run [serializeF, library_length, hfind, computeFixedLengthF]
  by_cases h0 : (indices ps 0).length = 0
  · rw [h0]
    cases ps with
    | nil => rfl
    | cons a t ps => simp [indices] at h0
  · cpp_arith []
    rw [hc]
    cpp_run [map_indices]
    have hx := (computeFixedLength ps 0#32).isLt
    cpp_arith []
    refine (bind_of_bind h _).trans ?_
    cases serializeUBParts ps v <;> rfl

/-- The earlier parts, with new contents of the one that the pointer points to. -/
def setPart (pre : List Obj) (lp : Option Nat) (o : Obj) : List Obj :=
  match lp with
  | none => pre
  | some j => pre.set j o

/-- What `last_variable_part` points to. -/
def PointsTo (pre : List Obj) (lp : Option Nat) (last : BitVec 32) (p : Ty) (prev : p.denote) (des : List Byte → Out (Bool × p.denote)) : Prop :=
  match lp with
  | none => last = 0#32
  | some j => pre[j]? = some ⟨p, prev⟩ ∧ des = fun s => deserialize p prev s

theorem set_part (pre : List Obj) (o o' : Obj) (l : List Obj) : set? (pre ++ o :: l) pre.length o' = .ok (pre ++ o' :: l) := by
  rw [set_int _ _ _ (by omega) (by simp; omega)]
  simp

theorem set_earlier (pre l : List Obj) (j : Nat) (o o' : Obj) (h : pre[j]? = some o) : set? (pre ++ l) j o' = .ok (pre.set j o' ++ l) := by
  have hj : j < pre.length := (List.getElem?_eq_some_iff.mp h).1
  rw [set_int _ _ _ (by omega) (by simp; omega), Int.toNat_natCast, List.set_append_left _ _ hj]

theorem at_earlier (pre l : List Obj) (j : Nat) (o : Obj) (h : pre[j]? = some o) : (pre ++ l)[j]? = some o := by
  rw [List.getElem?_append_left (List.getElem?_eq_some_iff.mp h).1, h]

theorem setPart_same (pre : List Obj) (lp : Option Nat) (last : BitVec 32) (p : Ty) (prev : p.denote) (des : List Byte → Out (Bool × p.denote))
    (h : PointsTo pre lp last p prev des) : setPart pre lp ⟨p, prev⟩ = pre := by
  cases lp with
  | none => rfl
  | some j =>
    apply List.ext_getElem?
    intro i
    rw [setPart, List.getElem?_set]
    split
    · subst i
      rw [if_pos (List.getElem?_eq_some_iff.mp h.1).1, h.1]
    · rfl

theorem setPart_length (pre : List Obj) (lp : Option Nat) (o : Obj) : (setPart pre lp o).length = pre.length := by
  cases lp with
  | none => rfl
  | some j => exact List.length_set

theorem setPart_snoc (pre : List Obj) (lp : Option Nat) (last : BitVec 32) (p : Ty) (prev : p.denote) (des : List Byte → Out (Bool × p.denote))
    (h : PointsTo pre lp last p prev des) (o o' : Obj) : setPart (pre ++ [o']) lp o = setPart pre lp o ++ [o'] := by
  cases lp with
  | none => rfl
  | some j => exact List.set_append_left _ _ (List.getElem?_eq_some_iff.mp h.1).1

theorem pointsTo_snoc (pre : List Obj) (lp : Option Nat) (last : BitVec 32) (p : Ty) (prev : p.denote) (des : List Byte → Out (Bool × p.denote))
    (h : PointsTo pre lp last p prev des) (o' : Obj) : PointsTo (pre ++ [o']) lp last p prev des := by
  cases lp with
  | none => exact h
  | some j => exact ⟨at_earlier _ _ _ _ h.1, h.2⟩

theorem setPart_last (pre : List Obj) (o o' : Obj) : setPart (pre ++ [o]) (some pre.length) o' = pre ++ [o'] := by
  rw [setPart, List.set_append_right _ _ (Nat.le_refl _), Nat.sub_self]
  rfl

theorem pointsTo_last (pre : List Obj) (last : BitVec 32) (t : Ty) (x : t.denote) :
    PointsTo (pre ++ [⟨t, x⟩]) (some pre.length) last t x (fun s => deserialize t x s) := ⟨at_part _ _ _, rfl⟩

theorem parts_nil (old : Parts.nil.denote) (bs : List Byte) (fl : BitVec 32) (it : Nat) (last : BitVec 32) {p : Ty} (prev : p.denote)
    (des : List Byte → Out (Bool × p.denote)) : deserializeParts .nil old bs fl it last prev des =
    if last ≠ 0#32 then (slice bs last.toNat bs.length).bind fun s => (des s).bind fun r => .ok (r.1, r.2, old) else .ok (true, prev, old) := by
  rw [deserializeParts]; rfl

theorem parts_fixed (a : String) (t : Ty) (ps : Parts) (old : (Parts.cons a t ps).denote) (bs : List Byte) (fl : BitVec 32) (it : Nat) (last : BitVec 32) {p : Ty}
    (prev : p.denote) (des : List Byte → Out (Bool × p.denote)) (h : t.sszSize ≠ 0) : deserializeParts (.cons a t ps) old bs fl it last prev des =
    if bs.length - it < t.sszSize then .ok (false, prev, old)
    else (slice bs it (it + t.sszSize)).bind fun s => (deserialize t old.1 s).bind fun r =>
      if r.1 then (deserializeParts ps old.2 bs fl (it + t.sszSize) last prev des).bind fun q => .ok (q.1, q.2.1, (r.2, q.2.2))
      else .ok (false, prev, (r.2, old.2)) := by
  rw [deserializeParts, if_pos h]; rfl

theorem parts_offset (a : String) (t : Ty) (ps : Parts) (old : (Parts.cons a t ps).denote) (bs : List Byte) (fl : BitVec 32) (it : Nat) (last : BitVec 32) {p : Ty}
    (prev : p.denote) (des : List Byte → Out (Bool × p.denote)) (h : t.sszSize = 0) : deserializeParts (.cons a t ps) old bs fl it last prev des =
    if bs.length - it < 4 then .ok (false, prev, old)
    else (read32 bs it).bind fun cur =>
      if bs.length < cur.toNat then .ok (false, prev, old)
      else if last ≠ 0#32 then
        if cur < last then .ok (false, prev, old)
        else (slice bs last.toNat cur.toNat).bind fun s => (des s).bind fun r =>
          if r.1 then (deserializeParts ps old.2 bs fl (it + 4) cur old.1 (fun s => deserialize t old.1 s)).bind fun q => .ok (q.1, r.2, (q.2.1, q.2.2))
          else .ok (false, r.2, old)
      else if cur ≠ fl then .ok (false, prev, old)
      else (deserializeParts ps old.2 bs fl (it + 4) cur old.1 (fun s => deserialize t old.1 s)).bind fun q => .ok (q.1, prev, (q.2.1, q.2.2)) := by
  rw [deserializeParts, if_neg (fun hn => hn h)]; rfl

theorem struct_decode : (ps : Parts) → (v : ps.denote) → (hs : SizesFit ps) → (bs : List Byte) → (hl : bs.length < 2 ^ 63) → (fl : BitVec 32) →
    (it : Nat) → (hit : it ≤ bs.length) → (last : BitVec 32) → (hlast : last.toNat ≤ bs.length) → (p : Ty) → (prev : p.denote) → (des : List Byte → Out (Bool × p.denote)) →
    (pre : List Obj) → (lp : Option Nat) → (hp : PointsTo pre lp last p prev des) → (q : Val) →
    ∃ f : Frame, ((ctx fs int elem est fuel d).rangeLoop (name% "part") (deserializeF.body.nth 4).inner (partPtrs ps pre.length)
      ⟨[(name% "last_variable_part", .ptr lp), (name% "last_offset", .int .u32 last.toNat), (name% "begin", .iter (.glob 0) 0),
        (name% "fixed_length", .int .u32 fl.toNat), (name% "parts", q), (name% "end", .iter (.glob 0) bs.length), (name% "it", .iter (.glob 0) it)], [[]],
        consts ++ input bs, pre ++ partsOf ps v⟩).bind (fun q => match q.1 with
          | some v => .ok (some v, q.2)
          | none => (ctx fs int elem est fuel d).execs (deserializeF.body.after 5) q.2) =
    (Res.of (deserializeParts ps v bs fl it last prev des)).bind fun r =>
      .ok (some (.bool r.1), ⟨f, [[]], consts ++ input bs, setPart pre lp ⟨p, r.2.1⟩ ++ partsOf ps r.2.2⟩)
  | .nil, v, hs, bs, hl, fl, it, hit, last, hlast, p, prev, des, pre, lp, hp, q => by
    rw [partPtrs, rangeLoop_nil, parts_nil]
    cpp_run [deserializeF, Sts.after]
    by_cases h : last = 0#32
    · subst h
      rw [if_neg (fun hn => hn rfl)]
      simp only [of_ok, bind_ok, setPart_same _ _ _ _ _ _ hp]
      exact ⟨_, rfl⟩
    · have h' : last.toNat ≠ 0 := fun hn => h (BitVec.eq_of_toNat_eq (by simpa using hn))
      rw [if_pos h]
      cases lp with
      | none => exact absurd hp h
      | some j =>
        have hsl : slice bs last.toNat bs.length = .ok ((bs.drop last.toNat).take (bs.length - last.toNat)) :=
          if_pos ⟨hlast, Nat.le_refl _⟩
        rw [hsl, hp.2]
        simp only [Out.bind]
        cpp_run [read_part, at_earlier _ _ _ _ hp.1]
        cpp_arith [write_part, set_earlier _ _ _ _ _ hp.1]
        cases deserialize p prev ((bs.drop last.toNat).take (bs.length - last.toNat)) with
        | ub => exact ⟨[], rfl⟩
        | throws e => exact ⟨[], rfl⟩
        | ok r =>
          rcases r with ⟨_ | _, y⟩
          · exact ⟨_, rfl⟩
          · exact ⟨_, rfl⟩
  | .cons a t ps, v, hs, bs, hl, fl, it, hit, last, hlast, p, prev, des, pre, lp, hp, q => by
    have ih := struct_decode ps v.2 hs.2 bs hl fl
    have h1 := hs.1
    rw [partPtrs, rangeLoop_cons, partsOf]
    by_cases h : t.sszSize = 0
    · rw [parts_offset _ _ _ _ _ _ _ _ _ _ h]
      cpp_run [deserializeF, Sts.after, read_part, at_part]
      by_cases h2 : bs.length - it < 4
      · rw [if_pos h2]
        cpp_arith []
        simp only [of_ok, bind_ok, setPart_same _ _ _ _ _ _ hp]
        exact ⟨_, rfl⟩
      · rw [if_neg h2]
        have hr32 : read32 bs it = .ok (BitVec.ofNat 32 (fromLE ((bs.drop it).take 4))) := if_pos (by omega)
        have e1 : ((it : Int) + 4).toNat = it + 4 := by omega
        have hr := read_offset bs it
        rw [hr32]
        simp only [Out.bind]
        generalize BitVec.ofNat 32 (fromLE ((bs.drop it).take 4)) = cur at hr
        have hcur := cur.isLt
        cpp_arith [e1, Nat.add_sub_cancel_left, hr]
        by_cases h3 : bs.length < cur.toNat
        · rw [if_pos h3]
          cpp_arith []
          simp only [of_ok, bind_ok, setPart_same _ _ _ _ _ _ hp]
          exact ⟨_, rfl⟩
        · rw [if_neg h3]
          cpp_arith []
          by_cases h4 : last = 0#32
          · rw [if_neg (fun hn => hn h4)]
            have h4' : last.toNat = 0 := by rw [h4]; rfl
            by_cases h5 : cur = fl
            · obtain ⟨f, hf⟩ := ih (it + 4) (by omega) cur (by omega) t v.1 (fun s => deserialize t v.1 s) (pre ++ [⟨t, v.1⟩]) (some pre.length) (pointsTo_last _ _ _ _) q
              cpp_run [deserializeF, Sts.after, List.append_assoc, List.length_append, List.length_singleton, setPart_last] at hf
              refine ⟨f, ?_⟩
              have h5' : cur.toNat = fl.toNat := by rw [h5]
              rw [if_neg (fun hn => hn h5)]
              cpp_arith []
              refine hf.trans ?_
              cases deserializeParts ps v.2 bs fl (it + 4) cur v.1 (fun s => deserialize t v.1 s) with
              | ub => rfl
              | throws e => rfl
              | ok r =>
                simp only [of_ok, bind_ok, setPart_same _ _ _ _ _ _ hp]
                rfl
            · rw [if_pos h5]
              have h5' : cur.toNat ≠ fl.toNat := fun hn => h5 (BitVec.eq_of_toNat_eq hn)
              cpp_arith []
              simp only [of_ok, bind_ok, setPart_same _ _ _ _ _ _ hp]
              exact ⟨_, rfl⟩
          · rw [if_pos h4]
            have h4' : last.toNat ≠ 0 := fun hn => h4 (BitVec.eq_of_toNat_eq (by simpa using hn))
            cases lp with
            | none => exact absurd hp h4
            | some j =>
              rw [hp.2]
              cpp_run [deserializeF, Sts.after, read_part, at_earlier _ _ _ _ hp.1]
              cpp_arith []
              by_cases h5 : cur < last
              · have : cur.toNat < last.toNat := h5
                rw [if_pos h5]
                cpp_arith []
                simp only [of_ok, bind_ok, setPart_same _ _ _ _ _ _ hp]
                exact ⟨_, rfl⟩
              · have : ¬cur.toNat < last.toNat := h5
                rw [if_neg h5]
                have hsl : slice bs last.toNat cur.toNat = .ok ((bs.drop last.toNat).take (cur.toNat - last.toNat)) :=
                  if_pos ⟨by omega, by omega⟩
                rw [hsl]
                cpp_arith [write_part, set_earlier _ _ _ _ _ hp.1]
                cases deserialize p prev ((bs.drop last.toNat).take (cur.toNat - last.toNat)) with
                | ub => exact ⟨[], rfl⟩
                | throws e => exact ⟨[], rfl⟩
                | ok r =>
                  rcases r with ⟨_ | _, y⟩
                  · exact ⟨_, rfl⟩
                  · obtain ⟨f, hf⟩ := ih (it + 4) (by omega) cur (by omega) t v.1 (fun s => deserialize t v.1 s) (pre.set j ⟨p, y⟩ ++ [⟨t, v.1⟩])
                      (some (pre.set j ⟨p, y⟩).length) (pointsTo_last _ _ _ _) q
                    simp only [setPart_last] at hf
                    cpp_run [deserializeF, Sts.after, List.append_assoc, List.length_append, List.length_singleton, List.length_set] at hf
                    refine ⟨f, ?_⟩
                    cpp_run []
                    cpp_arith []
                    rw [if_pos trivial]
                    refine hf.trans ?_
                    cases deserializeParts ps v.2 bs fl (it + 4) cur v.1 (fun s => deserialize t v.1 s) <;> rfl
    · rw [parts_fixed _ _ _ _ _ _ _ _ _ _ h]
      cpp_run [deserializeF, Sts.after, read_part, at_part, write_part, set_part]
      by_cases h2 : bs.length - it < t.sszSize
      · rw [if_pos h2]
        cpp_arith []
        simp only [of_ok, bind_ok, setPart_same _ _ _ _ _ _ hp]
        exact ⟨_, rfl⟩
      · rw [if_neg h2]
        have hsl : slice bs it (it + t.sszSize) = .ok ((bs.drop it).take (it + t.sszSize - it)) := if_pos ⟨by omega, by omega⟩
        rw [hsl]
        simp only [Out.bind]
        have e1 : ((it : Int) + t.sszSize).toNat = it + t.sszSize := by omega
        cpp_arith [e1]
        cases deserialize t v.1 ((bs.drop it).take (it + t.sszSize - it)) with
        | ub => exact ⟨[], rfl⟩
        | throws e => exact ⟨[], rfl⟩
        | ok r =>
          rcases r with ⟨_ | _, y⟩
          · simp only [Bool.false_eq_true, if_false, of_ok, bind_ok, setPart_same _ _ _ _ _ _ hp]
            exact ⟨_, rfl⟩
          · obtain ⟨f, hf⟩ := ih (it + t.sszSize) (by omega) last hlast p prev des (pre ++ [⟨t, y⟩]) lp (pointsTo_snoc _ _ _ _ _ _ hp _) q
            cpp_run [deserializeF, Sts.after, List.append_assoc, List.length_append, List.length_singleton, setPart_snoc _ _ _ _ _ _ hp] at hf
            cpp_run [write_part, set_part]
            refine ⟨f, ?_⟩
            refine hf.trans ?_
            cases deserializeParts ps v.2 bs fl (it + t.sszSize) last prev des <;> rfl

theorem struct_deserialize (z : Nat) (o : Bool) (ps : Parts) (v : ps.denote) (bs : List Byte) (hs : SizesFit ps) (hl : bs.length < 2 ^ 63)
    (hfind : find (name% "compute_fixed_length") fs = some computeFixedLengthF) :
    run fs int elem est fuel (d + 2) deserializeF (ends bs ++ [.ptrs (indices ps 0)]) (consts ++ input bs) (partsOf ps v) =
      (Res.of (deserialize (.container z o ps) v bs)).bind fun r => .ok (.bool r.1, consts ++ input bs, partsOf ps r.2) := by
  have hc := fixed_loop fs int elem est fuel d ps v hs [] 0#32 (.lam [name% "part"] (computeFixedLengthF.body.nth 1).lambda) (.ptrs (indices ps 0)) (input bs)
    (.inr ⟨bs, rfl⟩) [[(name% "parts", .ptrs (indices ps 0)), (name% "end", .iter (.glob 0) bs.length), (name% "it", .iter (.glob 0) 0)], []]
  rw [show ((0#32).toNat : Int) = 0 from rfl, show indices ps [].length = indices ps 0 from rfl] at hc
  cpp_run [computeFixedLengthF, Stmt.lambda] at hc
  obtain ⟨f, h⟩ := struct_decode fs int elem est fuel (d + 2) ps v hs bs hl (computeFixedLength ps 0#32) 0 (by omega) 0#32 (by simp) .boolean false (fun _ => .ub) [] none rfl
    (.ptrs (indices ps 0))
  rw [deserialize.eq_def]
  rw [show ((0#32).toNat : Int) = 0 from rfl] at h
  cpp_run [deserializeF, Sts.after, List.length_nil] at h
  cpp_run [deserializeF, library_length, hfind, computeFixedLengthF]
  cpp_arith []
  rw [hc]
  cpp_run [map_indices]
  have hx := (computeFixedLength ps 0#32).isLt
  cpp_arith []
  refine (bind_of_bind h _).trans ?_
  cases deserializeParts ps v bs (computeFixedLength ps 0#32) 0 0#32 (p := .boolean) false (fun _ => .ub) <;> rfl

end Mammon.Cpp
