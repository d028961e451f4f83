import Verif.Proofs.CppFuncs
import Verif.Model.CppObject
/-!
# Running functions step by step

What each kind of expression and statement does, as equations for `simp`; `cpp_run` runs the statements of a function as far as the values are
known. Loops stay as they are.
-/

namespace Mammon.Cpp
open Nasm Lean Meta Simp
set_option maxRecDepth 4000

/-- Decides equality of numbers. -/
dsimproc_decl reduceNatBeq (Nat.beq _ _) := fun e => do
  let some m ← Nat.fromExpr? e.appFn!.appArg! | return .continue
  let some n ← Nat.fromExpr? e.appArg! | return .continue
  return .done (toExpr (m == n))

/-- Compares numbers. -/
dsimproc_decl reduceNatBle (Nat.ble _ _) := fun e => do
  let some m ← Nat.fromExpr? e.appFn!.appArg! | return .continue
  let some n ← Nat.fromExpr? e.appArg! | return .continue
  return .done (toExpr (decide (m ≤ n)))

/-- Converts known integers. -/
simproc_decl reduceConv (IT.conv _ _) := fun e => do
  let n := e.appArg!
  let some n ← (match n.getAppFnArgs with
    | (``Nat.cast, #[_, _, k]) => do return (← Nat.fromExpr? k).map Int.ofNat
    | _ => Int.fromExpr? n) | return .continue
  let t ← whnf e.appFn!.appArg!
  let f (t : IT) : Step :=
    let r := toExpr (t.conv n)
    .done { expr := r, proof? := mkExpectedPropHint (mkApp2 (mkConst ``Eq.refl [1]) (mkConst ``Int) r) (mkApp3 (mkConst ``Eq [1]) (mkConst ``Int) e r) }
  match t.constName? with
  | some ``IT.u8 => return f .u8
  | some ``IT.i32 => return f .i32
  | some ``IT.u32 => return f .u32
  | some ``IT.i64 => return f .i64
  | some ``IT.u64 => return f .u64
  | _ => return .continue

theorem conv_u64 {n : Int} (h0 : 0 ≤ n) (h : n < 2 ^ 64) : IT.u64.conv n = n := Int.emod_eq_of_lt h0 h
theorem conv_u32 {n : Int} (h0 : 0 ≤ n) (h : n < 2 ^ 32) : IT.u32.conv n = n := Int.emod_eq_of_lt h0 h
theorem conv_u8 {n : Int} (h0 : 0 ≤ n) (h : n < 2 ^ 8) : IT.u8.conv n = n := Int.emod_eq_of_lt h0 h
theorem conv_i64 {n : Int} (h0 : -2 ^ 63 ≤ n) (h : n < 2 ^ 63) : IT.i64.conv n = n := by
  show (n + 2 ^ 63) % 2 ^ 64 - 2 ^ 63 = n
  omega
theorem conv_i32 {n : Int} (h0 : -2 ^ 31 ≤ n) (h : n < 2 ^ 31) : IT.i32.conv n = n := by
  show (n + 2 ^ 31) % 2 ^ 32 - 2 ^ 31 = n
  omega

theorem bind_ok {α β : Type} (a : α) (f : α → Res β) : (Res.ok a).bind f = f a := rfl
theorem bind_ub {α β : Type} (f : α → Res β) : (Res.ub).bind f = .ub := rfl
theorem bind_stuck {α β : Type} (f : α → Res β) : (Res.stuck).bind f = .stuck := rfl
theorem bind_throws {α β : Type} (e : Exc) (f : α → Res β) : (Res.throws e).bind f = .throws e := rfl
theorem bind_spent {α β : Type} (f : α → Res β) : (Res.spent).bind f = .spent := rfl
theorem bind_cond {α β : Type} (c : Bool) (a b : Res α) (f : α → Res β) :
    (bif c then a else b).bind f = bif c then a.bind f else b.bind f := by cases c <;> rfl
theorem bind_assoc {α β γ : Type} (a : Res α) (f : α → Res β) (g : β → Res γ) : (a.bind f).bind g = a.bind fun x => (f x).bind g := by
  cases a <;> rfl
theorem of_ok {α : Type} (a : α) : Res.of (.ok a) = .ok a := rfl
theorem of_ub {α : Type} : Res.of (.ub : Out α) = .ub := rfl
theorem of_throws {α : Type} (e : Exc) : Res.of (.throws e : Out α) = .throws e := rfl
theorem of_bind {α β : Type} (a : Out α) (f : α → Out β) : Res.of (a >>= f) = (Res.of a).bind fun x => Res.of (f x) := by cases a <;> rfl
theorem cond_of_true {α : Type} {p : Prop} {i : Decidable p} (h : p) (a b : α) : (bif @decide p i then a else b) = a := by
  rw [decide_eq_true h]; rfl
theorem cond_of_false {α : Type} {p : Prop} {i : Decidable p} (h : ¬p) (a b : α) : (bif @decide p i then a else b) = b := by
  rw [decide_eq_false h]; rfl
theorem cond_of_not_true {α : Type} {p : Prop} {i : Decidable p} (h : ¬p) (a b : α) : (bif !(@decide p i) then a else b) = a := by
  rw [decide_eq_false h]; rfl
theorem cond_of_not_false {α : Type} {p : Prop} {i : Decidable p} (h : p) (a b : α) : (bif !(@decide p i) then a else b) = b := by
  rw [decide_eq_true h]; rfl
theorem orStuck_some {α : Type} (a : α) : orStuck (some a) = .ok a := rfl
theorem orStuck_none {α : Type} : orStuck (none : Option α) = .stuck := rfl

section
variable (C : Ctx) (s : Mem)

/-! ## Names and places -/

theorem slotOf_nil (n : Nat) : slotOf n [] = none := rfl
theorem slotOf_cons (n m : Nat) (v : Val) (l : Frame) : slotOf n ((m, v) :: l) = bif Nat.beq m n then some l.length else slotOf n l := rfl
theorem getSlot_cons (k m : Nat) (v : Val) (l : Frame) : getSlot k ((m, v) :: l) = bif Nat.beq k l.length then some v else getSlot k l := rfl
theorem setSlot_cons (k m : Nat) (w v : Val) (l : Frame) :
    setSlot k v ((m, w) :: l) = bif Nat.beq k l.length then (m, v) :: l else (m, w) :: setSlot k v l := rfl
theorem length_nil : List.length ([] : Frame) = 0 := rfl
theorem length_cons (a : Nat × Val) (l : Frame) : List.length (a :: l) = l.length + 1 := rfl

theorem load_ref (p : Place) : load (.ref p) s = read? p s := rfl
theorem load_int (t : IT) (n : Int) : load (.int t n) s = .ok (.int t n) := rfl
theorem load_bool (b : Bool) : load (.bool b) s = .ok (.bool b) := rfl
theorem load_double : load .double s = .ok .double := rfl
theorem load_bytes (l : List Byte) : load (.bytes l) s = .ok (.bytes l) := rfl
theorem load_iter (p : Place) (i : Int) : load (.iter p i) s = .ok (.iter p i) := rfl
theorem load_ptr (p : Option Nat) : load (.ptr p) s = .ok (.ptr p) := rfl
theorem load_chunks (l : List Chunk) : load (.chunks l) s = .ok (.chunks l) := rfl
theorem load_hasher : load .hasher s = .ok .hasher := rfl
theorem load_self : load .self s = .ok .self := rfl
theorem load_lam (p : List Nat) (b : Sts) : load (.lam p b) s = .ok (.lam p b) := rfl
theorem load_braces : load .braces s = .ok .braces := rfl
theorem load_tree (l : List Chunk) : load (.tree l) s = .ok (.tree l) := rfl
theorem load_sink (p : Place) : load (.sink p) s = .ok (.sink p) := rfl
theorem load_listed (l : List Byte) : load (.listed l) s = .ok (.listed l) := rfl
theorem load_obj (o : Obj) : load (.obj o) s = .ok (.obj o) := rfl
theorem load_void : load .void s = .ok .void := rfl
theorem loads_nil : loads [] s = .ok [] := rfl
theorem loads_cons (v : Val) (vs : List Val) : loads (v :: vs) s = (load v s).bind fun v => (loads vs s).bind fun vs => .ok (v :: vs) := rfl

theorem read_here (k : Nat) (c : Frame) (b : List Frame) (g : Frame) (h : List Obj) : read? (.here k) ⟨c, b, g, h⟩ = orStuck (getSlot k c) := rfl
theorem read_glob (k : Nat) (c : Frame) (b : List Frame) (g : Frame) (h : List Obj) : read? (.glob k) ⟨c, b, g, h⟩ = orStuck (getSlot k g) := rfl
theorem read_elem (p : Place) (i : Int) : read? (.elem p i) s = (read? p s).bind fun v => match v with
    | .bytes l => (at? l i).bind fun b => .ok (.int .u8 b.toNat)
    | .bools l => (at? l i).bind fun b => .ok (.bool b)
    | .objs l => (at? l i).bind fun o => .ok (.obj o)
    | .ptrs l => (at? l i).bind fun k => .ok (.ptr (some k))
    | .chunks l => (at? l i).bind fun c => .ok (.bytes c.1)
    | .chars l => (at? l i).bind fun c => .ok (.int .i8 c.toInt)
    | .longs l => (at? l i).bind fun n => .ok (.int .i64 n)
    | .table l => (at? l (IT.u64.conv (IT.i8.conv i))).bind fun n => .ok (.int .i64 n)
    | _ => .stuck := rfl
theorem write_here (k : Nat) (v : Val) (c : Frame) (b : List Frame) (g : Frame) (h : List Obj) :
    write? (.here k) v ⟨c, b, g, h⟩ = (orStuck (getSlot k c)).bind fun w => (like w v).bind fun v => .ok ⟨setSlot k v c, b, g, h⟩ := rfl
theorem write_glob (k : Nat) (v : Val) (c : Frame) (b : List Frame) (g : Frame) (h : List Obj) :
    write? (.glob k) v ⟨c, b, g, h⟩ = (orStuck (getSlot k g)).bind fun w => (like w v).bind fun v => .ok ⟨c, b, setSlot k v g, h⟩ := rfl
theorem write_elem (p : Place) (i : Int) (v : Val) : write? (.elem p i) v s = (read? p s).bind fun a => match a with
    | .bytes l => (orStuck (intOf v)).bind fun n => (set? l i (BitVec.ofInt 8 n.2)).bind fun l => write? p (.bytes l) s
    | .bools l => (orStuck (truth v)).bind fun b => (set? l i b).bind fun l => write? p (.bools l) s
    | .objs l => match v with
      | .obj o => (set? l i o).bind fun l => write? p (.objs l) s
      | _ => .stuck
    | .chunks l => match v with
      | .bytes b => (orStuck (chunkOf b)).bind fun c => (set? l i c).bind fun l => write? p (.chunks l) s
      | _ => .stuck
    | .longs l => (orStuck (intOf v)).bind fun n => (set? l i (IT.i64.conv n.2)).bind fun l => write? p (.longs l) s
    | _ => .stuck := rfl
theorem lookup_mk (n : Nat) (c : Frame) (b : List Frame) (g : Frame) (h : List Obj) : lookup n ⟨c, b, g, h⟩ = match slotOf n c with
  | some k => match getSlot k c with
    | some (.ref p) => .ok (.ref p)
    | _ => .ok (.ref (.here k))
  | none => match slotOf n g with
    | some k => .ok (.ref (.glob k))
    | none => .stuck := rfl
theorem bindVar_mk (n : Nat) (v : Val) (c : Frame) (b : List Frame) (g : Frame) (h : List Obj) :
    bindVar n v ⟨c, b, g, h⟩ = ⟨(n, v) :: c, b, g, h⟩ := rfl
theorem leave_mk (k : Nat) (c : Frame) (b : List Frame) (g : Frame) (h : List Obj) :
    leave k ⟨c, b, g, h⟩ = ⟨c.drop (c.length - k), b, g, h⟩ := rfl
theorem drop_zero_frame (l : Frame) : List.drop 0 l = l := rfl
theorem drop_succ_frame (n : Nat) (a : Nat × Val) (l : Frame) : List.drop (n + 1) (a :: l) = List.drop n l := rfl

/-! ## Values -/

theorem truth_int (t : IT) (n : Int) : truth (.int t n) = some (!decide (n = 0)) := rfl
theorem truth_bool (b : Bool) : truth (.bool b) = some b := rfl
theorem truth_ptr (p : Option Nat) : truth (.ptr p) = some p.isSome := rfl
theorem intOf_int (t : IT) (n : Int) : intOf (.int t n) = some (t, n) := rfl
theorem intOf_bool (b : Bool) : intOf (.bool b) = some (.i32, bif b then 1 else 0) := rfl
theorem operate_int (o : Op) (t u : IT) (m n : Int) : operate o (.int t m) (.int u n) = intOp o (t, m) (u, n) := rfl
theorem operate_bool_int (o : Op) (b : Bool) (u : IT) (n : Int) : operate o (.bool b) (.int u n) = intOp o (.i32, bif b then 1 else 0) (u, n) := rfl
theorem operate_iter_add (p : Place) (i : Int) (t : IT) (n : Int) : operate .add (.iter p i) (.int t n) = .ok (.iter p (i + n)) := rfl
theorem operate_iter_sub (p : Place) (i : Int) (t : IT) (n : Int) : operate .sub (.iter p i) (.int t n) = .ok (.iter p (i - n)) := rfl
theorem operate_iter_eq (p : Place) (i j : Int) : operate .eq (.iter p i) (.iter p j) = .ok (.bool (decide (i = j))) := by simp [operate]
theorem operate_iter_ne (p : Place) (i j : Int) : operate .ne (.iter p i) (.iter p j) = .ok (.bool (!decide (i = j))) := by simp [operate]
theorem like_int (t : IT) (m : Int) (u : IT) (n : Int) : like (.int t m) (.int u n) = .ok (.int t (t.conv n)) := rfl
theorem like_bool_bool (b c : Bool) : like (.bool b) (.bool c) = .ok (.bool c) := rfl
theorem like_bool_int (b : Bool) (t : IT) (n : Int) : like (.bool b) (.int t n) = .ok (.bool (!decide (n = 0))) := rfl
theorem like_bytes (l : List Byte) (v : Val) : like (.bytes l) v = .ok v := rfl
theorem like_bools (l : List Bool) (v : Val) : like (.bools l) v = .ok v := rfl
theorem like_objs (l : List Obj) (v : Val) : like (.objs l) v = .ok v := rfl
theorem like_obj (o : Obj) (v : Val) : like (.obj o) v = .ok v := rfl
theorem like_tree (l : List Chunk) (v : Val) : like (.tree l) v = .ok v := rfl
theorem like_iter (p : Place) (i : Int) (v : Val) : like (.iter p i) v = .ok v := rfl
theorem like_ptr (p : Option Nat) (v : Val) : like (.ptr p) v = .ok v := rfl

theorem intOp_add (t u : IT) (m n : Int) : intOp .add (t, m) (u, n) = (t.common u).result ((t.common u).conv m + (t.common u).conv n) := rfl
theorem intOp_sub (t u : IT) (m n : Int) : intOp .sub (t, m) (u, n) = (t.common u).result ((t.common u).conv m - (t.common u).conv n) := rfl
theorem intOp_mul (t u : IT) (m n : Int) : intOp .mul (t, m) (u, n) = (t.common u).result ((t.common u).conv m * (t.common u).conv n) := rfl
theorem intOp_div (t u : IT) (m n : Int) : intOp .div (t, m) (u, n) =
    bif decide ((t.common u).conv n = 0) then .ub else (t.common u).result (((t.common u).conv m).tdiv ((t.common u).conv n)) := rfl
theorem intOp_mod (t u : IT) (m n : Int) : intOp .mod (t, m) (u, n) =
    bif decide ((t.common u).conv n = 0) then .ub else (t.common u).result (((t.common u).conv m).tmod ((t.common u).conv n)) := rfl
theorem intOp_eq (t u : IT) (m n : Int) : intOp .eq (t, m) (u, n) = .ok (.bool (decide ((t.common u).conv m = (t.common u).conv n))) := rfl
theorem intOp_ne (t u : IT) (m n : Int) : intOp .ne (t, m) (u, n) = .ok (.bool (!decide ((t.common u).conv m = (t.common u).conv n))) := rfl
theorem intOp_lt (t u : IT) (m n : Int) : intOp .lt (t, m) (u, n) = .ok (.bool (decide ((t.common u).conv m < (t.common u).conv n))) := rfl
theorem intOp_gt (t u : IT) (m n : Int) : intOp .gt (t, m) (u, n) = .ok (.bool (decide ((t.common u).conv n < (t.common u).conv m))) := rfl
theorem intOp_le (t u : IT) (m n : Int) : intOp .le (t, m) (u, n) = .ok (.bool (decide ((t.common u).conv m ≤ (t.common u).conv n))) := rfl
theorem intOp_ge (t u : IT) (m n : Int) : intOp .ge (t, m) (u, n) = .ok (.bool (decide ((t.common u).conv n ≤ (t.common u).conv m))) := rfl
theorem intOp_band (t u : IT) (m n : Int) :
    intOp .band (t, m) (u, n) = .ok (.int (t.common u) (bitwise .band (t.common u) ((t.common u).conv m) ((t.common u).conv n))) := rfl
theorem intOp_bor (t u : IT) (m n : Int) :
    intOp .bor (t, m) (u, n) = .ok (.int (t.common u) (bitwise .bor (t.common u) ((t.common u).conv m) ((t.common u).conv n))) := rfl
theorem intOp_shl (t u : IT) (m n : Int) : intOp .shl (t, m) (u, n) =
    bif decide (0 ≤ n ∧ n < t.promote.bits) then .ok (.int t.promote (t.promote.conv (m * 2 ^ n.toNat))) else .ub := rfl
theorem intOp_shr (t u : IT) (m n : Int) : intOp .shr (t, m) (u, n) =
    bif decide (0 ≤ n ∧ n < t.promote.bits) then .ok (.int t.promote (m / 2 ^ n.toNat)) else .ub := rfl

theorem result_u32 (n : Int) : IT.u32.result n = .ok (.int .u32 (IT.u32.conv n)) := rfl
theorem result_u64 (n : Int) : IT.u64.result n = .ok (.int .u64 (IT.u64.conv n)) := rfl
theorem result_i32 (n : Int) : IT.i32.result n = bif decide (-2 ^ 31 ≤ n ∧ n < 2 ^ 31) then .ok (.int .i32 n) else .ub := rfl
theorem result_i64 (n : Int) : IT.i64.result n = bif decide (-2 ^ 63 ≤ n ∧ n < 2 ^ 63) then .ok (.int .i64 n) else .ub := rfl

/-! ## Expressions -/

theorem eval_num (n k : Nat) : C.eval (.num n k) s = .ok (.int (bif Nat.beq k 0 then .i32 else .u64) n, s) := rfl
theorem eval_var (n : Nat) : C.eval (.var n) s =
    bif Nat.beq n (name% "nullptr") then .ok (.ptr none, s)
    else bif Nat.beq n (name% "true") then .ok (.bool true, s)
    else bif Nat.beq n (name% "false") then .ok (.bool false, s)
    else bif Nat.beq n (name% "this") then .ok (.self, s)
    else (lookup n s).bind fun v => .ok (v, s) := rfl
theorem eval_size : C.eval (.scope (name% "T") (name% "ssz_size")) s = match C.elem with
      | some t => .ok (.int .u64 t.sszSize, s)
      | none => .stuck := rfl
theorem eval_deref (e : Ex) : C.eval (.deref e) s = (C.eval e s).bind fun r => (load r.1 r.2).bind fun v => match v with
    | .iter p i => .ok (.ref (.elem p i), r.2)
    | .ptr (some k) => .ok (.ref (.part k), r.2)
    | .ptr none => .ub
    | .self => .ok (.self, r.2)
    | _ => .stuck := rfl
theorem eval_addr (e : Ex) : C.eval (.addr e) s = (C.eval e s).bind fun r => match r.1 with
    | .ref (.elem p i) => .ok (.iter p i, r.2)
    | .ref (.part k) => .ok (.ptr (some k), r.2)
    | .ref p => (read? p r.2).bind fun v => match v with
      | .int _ _ => .ok (.iter p 0, r.2)
      | .unset _ => .ok (.iter p 0, r.2)
      | .routine f => .ok (.routine f, r.2)
      | _ => .stuck
    | _ => .stuck := rfl
theorem eval_not (e : Ex) : C.eval (.not e) s = (C.eval e s).bind fun r => (load r.1 r.2).bind fun v => (orStuck (truth v)).bind fun b =>
    .ok (.bool (!b), r.2) := rfl
theorem eval_inc (d : Bool) (e : Ex) : C.eval (.inc d e) s = (C.eval e s).bind fun r => match r.1 with
    | .ref p => (read? p r.2).bind fun v => (operate (bif d then .sub else .add) v (.int .i32 1)).bind fun w =>
      (write? p w r.2).bind fun s => .ok (.ref p, s)
    | _ => .stuck := rfl
theorem eval_post (d : Bool) (e : Ex) : C.eval (.post d e) s = (C.eval e s).bind fun r => match r.1 with
    | .ref p => (read? p r.2).bind fun v => (operate (bif d then .sub else .add) v (.int .i32 1)).bind fun w =>
      (write? p w r.2).bind fun s => .ok (v, s)
    | _ => .stuck := rfl
theorem eval_sizeof (e : Ex) : C.eval (.sizeof e) s = match typeSize e with
    | some k => .ok (.int .u64 k, s)
    | none => (C.eval e s).bind fun r => (load r.1 r.2).bind fun v => match v with
      | .int t _ => .ok (.int .u64 (t.bits / 8 : Nat), s)
      | _ => .stuck := rfl
theorem eval_bin (o : Op) (a b : Ex) : C.eval (.bin o a b) s = (C.eval a s).bind fun r => (load r.1 r.2).bind fun v => (C.eval b r.2).bind fun q =>
    (load q.1 q.2).bind fun w => (operate o v w).bind fun x => .ok (x, q.2) := rfl
theorem eval_and (a b : Ex) : C.eval (.and a b) s = (C.eval a s).bind fun r => (load r.1 r.2).bind fun v => (orStuck (truth v)).bind fun t =>
    bif t then (C.eval b r.2).bind fun q => (load q.1 q.2).bind fun w => (orStuck (truth w)).bind fun u => .ok (.bool u, q.2)
    else .ok (.bool false, r.2) := rfl
theorem eval_or (a b : Ex) : C.eval (.or a b) s = (C.eval a s).bind fun r => (load r.1 r.2).bind fun v => (orStuck (truth v)).bind fun t =>
    bif t then .ok (.bool true, r.2)
    else (C.eval b r.2).bind fun q => (load q.1 q.2).bind fun w => (orStuck (truth w)).bind fun u => .ok (.bool u, q.2) := rfl
theorem eval_assign (a b : Ex) : C.eval (.assign a b) s = (C.eval b s).bind fun q => (load q.1 q.2).bind fun w => (C.eval a q.2).bind fun r =>
    match r.1 with
    | .ref p => (write? p w r.2).bind fun s => .ok (.ref p, s)
    | _ => .stuck := rfl
theorem eval_update (o : Op) (a b : Ex) : C.eval (.update o a b) s = (C.eval b s).bind fun q => (load q.1 q.2).bind fun w =>
    (C.eval a q.2).bind fun r => match r.1 with
    | .ref p => (read? p r.2).bind fun v => (operate o v w).bind fun x => (write? p x r.2).bind fun s => .ok (.ref p, s)
    | _ => .stuck := rfl
theorem eval_cond (c a b : Ex) : C.eval (.cond c a b) s = (C.eval c s).bind fun r => (load r.1 r.2).bind fun v => (orStuck (truth v)).bind fun t =>
    bif t then (C.eval a r.2).bind fun q => (load q.1 q.2).bind fun w => .ok (w, q.2)
    else (C.eval b r.2).bind fun q => (load q.1 q.2).bind fun w => .ok (w, q.2) := rfl
/-- The place of an object, if it has one. -/
def placeOf : Val → Option Place
  | .ref p => some p
  | _ => none
theorem placeOf_ref (p : Place) : placeOf (.ref p) = some p := rfl
theorem placeOf_bytes (l : List Byte) : placeOf (.bytes l) = none := rfl
theorem eval_method (e : Ex) (n : Nat) (as : Exs) : C.eval (.call (.mem e n) as) s = (C.eval e s).bind fun r => (load r.1 r.2).bind fun v =>
    (C.evals as r.2).bind fun q => (loads q.1 q.2).bind fun vs => C.invoke n (placeOf r.1) v q.1 vs q.2 := rfl
theorem invoke_self (n : Nat) (p : Option Place) (raws as : List Val) : C.invoke n p .self raws as s =
    bif Nat.beq n (name% "serialize") then match thisOf s with
      | some (.obj o) => (Res.of (serialize o.1 o.2)).bind fun l => .ok (.bytes l, s)
      | _ => .stuck
    else bif Nat.beq n (name% "hash_tree") then match thisOf s with
      | some (.obj o) => (Res.of (hashTree C.env.hash o.1 o.2)).bind fun l => .ok (.chunks l, s)
      | _ => .stuck
    else C.call n raws as s := rfl
theorem thisOf_mk (c : Frame) (b : List Frame) (g : Frame) (h : List Obj) : thisOf ⟨c, b, g, h⟩ =
    (slotOf (name% "this") g).bind fun k => getSlot k g := rfl
theorem invoke_hasher (p : Option Place) (raws : List Val) (d e : Val) (t : IT) (k : Int) : C.invoke (name% "hash_64b_blocks") p .hasher raws
    [d, e, .int t k] s = (hashCall C.env.hash d e (IT.u64.conv k).toNat s).bind fun s => .ok (.void, s) := rfl
theorem invoke_bytes (n : Nat) (p : Option Place) (l : List Byte) (raws as : List Val) : C.invoke n p (.bytes l) raws as s = method n p (.bytes l) as s := rfl
theorem invoke_bools (n : Nat) (p : Option Place) (l : List Bool) (raws as : List Val) : C.invoke n p (.bools l) raws as s = method n p (.bools l) as s := rfl
theorem invoke_obj (n : Nat) (p : Option Place) (o : Obj) (raws as : List Val) : C.invoke n p (.obj o) raws as s =
    bif Nat.beq n (name% "hash_tree_root") then (Res.of (hashTreeRoot C.env.hash o.1 o.2)).bind fun r => .ok (.bytes r.1, s)
    else method n p (.obj o) as s := rfl
theorem invoke_tree (p : Option Place) (l : List Chunk) (raws as : List Val) : C.invoke (name% "hash_tree") p (.tree l) raws as s = .ok (.chunks l, s) := rfl
theorem invoke_mix (p : Place) (l : List Chunk) (raws : List Val) (t : IT) (k : Int) : C.invoke (name% "mix_in") (some p) (.tree l) raws [.int t k] s =
    (Res.of (mixIn C.env.hash l (IT.u64.conv k).toNat)).bind fun l => (write? p (.tree l) s).bind fun s => .ok (.void, s) := rfl
theorem invoke_objs (n : Nat) (p : Option Place) (l : List Obj) (raws as : List Val) : C.invoke n p (.objs l) raws as s = method n p (.objs l) as s := rfl
theorem invoke_ptrs (n : Nat) (p : Option Place) (l : List Nat) (raws as : List Val) : C.invoke n p (.ptrs l) raws as s = method n p (.ptrs l) as s := rfl
theorem invoke_chunks (n : Nat) (p : Option Place) (l : List Chunk) (raws as : List Val) : C.invoke n p (.chunks l) raws as s = method n p (.chunks l) as s := rfl
theorem eval_call (n : Nat) (as : Exs) : C.eval (.call (.var n) as) s = (C.evals as s).bind fun q => (loads q.1 q.2).bind fun vs =>
    bif C.isType n then (C.make (.var n) none vs q.2).bind fun v => .ok (v, q.2)
    else bif Nat.beq n (name% "back_inserter") then match q.1 with
        | [.ref p] => .ok (.sink p, q.2)
        | _ => .stuck
    else match C.library n none vs q.2 with
      | some r => r
      | none => C.call n q.1 vs q.2 := rfl
theorem eval_call_base (n : Nat) (as : Exs) : C.eval (.call (.scope (name% "Container") n) as) s = (C.evals as s).bind fun q => (loads q.1 q.2).bind fun vs =>
    C.call n q.1 vs q.2 := rfl
theorem eval_native : C.eval (.scope (name% "endian") (name% "native")) s = .ok (.int .i32 1234, s) := rfl
theorem eval_big : C.eval (.scope (name% "endian") (name% "big")) s = .ok (.int .i32 4321, s) := rfl
theorem eval_listed (e : Ex) : C.eval (.brace (.var (name% "auto")) (.cons e .nil)) s = (C.eval e s).bind fun r => (load r.1 r.2).bind fun v => match v with
    | .bytes l => .ok (.listed l, r.2)
    | _ => .stuck := rfl
theorem eval_call_tmpl (n : Nat) (ts as : Exs) : C.eval (.call (.tmpl n ts) as) s = (C.evals as s).bind fun q => (loads q.1 q.2).bind fun vs =>
    match C.library n (match ts with | .cons t .nil => C.itype t | _ => none) vs q.2 with
      | some r => r
      | none => C.call n q.1 vs q.2 := rfl
theorem eval_max (as : Exs) : C.eval (.call (.scope (name% "numeric_limits") (name% "max")) as) s = match C.int with
    | some t => .ok (.int t (2 ^ (bif t.signed then t.bits - 1 else t.bits) - 1), s)
    | none => .stuck := rfl
theorem eval_braces : C.eval (.brace (.var (name% "auto")) .nil) s = .ok (.braces, s) := rfl
theorem eval_index (a i : Ex) : C.eval (.index a i) s = (C.eval a s).bind fun r => (C.eval i r.2).bind fun q => (load q.1 q.2).bind fun v =>
    match r.1, intOf v with
    | .ref p, some (_, n) => .ok (.ref (.elem p n), q.2)
    | _, _ => .stuck := rfl
theorem eval_cast (t e : Ex) : C.eval (.cast t e) s = (C.eval e s).bind fun r => (load r.1 r.2).bind fun v => (C.coerce t v).bind fun w =>
    .ok (w, r.2) := rfl
theorem eval_lam (ps : List Nat) (b : Sts) : C.eval (.lam ps b) s = .ok (.lam ps b, s) := rfl
theorem evals_nil : C.evals .nil s = .ok ([], s) := rfl
theorem evals_cons (e : Ex) (es : Exs) : C.evals (.cons e es) s = (C.eval e s).bind fun r => (C.evals es r.2).bind fun q => .ok (r.1 :: q.1, q.2) := rfl
theorem value_eq (e : Ex) : C.value e s = (C.eval e s).bind fun r => (load r.1 r.2).bind fun v => .ok (v, r.2) := rfl
theorem test_eq (e : Ex) : C.test e s = (C.value e s).bind fun r => (orStuck (truth r.1)).bind fun b => .ok (b, r.2) := rfl
theorem values_eq (es : Exs) : C.values es s = (C.evals es s).bind fun r => (loads r.1 r.2).bind fun vs => .ok (vs, r.2) := rfl

theorem range_glob (k : Nat) (i j : Int) (c : Frame) (b : List Frame) (g : Frame) (h : List Obj) :
    range? (.iter (.glob k) i) (.iter (.glob k) j) ⟨c, b, g, h⟩ = (orStuck (getSlot k g)).bind fun v => match v with
      | .bytes l => bif decide (0 ≤ i ∧ i ≤ j ∧ j ≤ l.length) then .ok ((l.drop i.toNat).take (j.toNat - i.toNat)) else .ub
      | _ => .stuck := by
  simp only [range?, decide_true, cond_true]; rfl
theorem range_here (k : Nat) (i j : Int) (c : Frame) (b : List Frame) (g : Frame) (h : List Obj) :
    range? (.iter (.here k) i) (.iter (.here k) j) ⟨c, b, g, h⟩ = (orStuck (getSlot k c)).bind fun v => match v with
      | .bytes l => bif decide (0 ≤ i ∧ i ≤ j ∧ j ≤ l.length) then .ok ((l.drop i.toNat).take (j.toNat - i.toNat)) else .ub
      | _ => .stuck := by
  simp only [range?, decide_true, cond_true]; rfl

theorem make_one (n : Nat) (z : Option Int) (v : Val) : C.make (.var n) z [v] s =
    bif Nat.beq n (name% "HashTree") then newTree C.env.hash [v] else match bytesName n with
    | some k => bytesOf k v
    | none => C.coerce (.var n) v := by
  delta Ctx.make; dsimp only; cases bytesName n <;> rfl
theorem make_two (z : Option Int) (v w : Val) : C.make (.var (name% "HashTree")) z [v, w] s = newTree C.env.hash [v, w] := by
  delta Ctx.make; rfl
theorem newTree_bytes (H : Chunk → Chunk → Chunk) (l : List Byte) : newTree H [.bytes l] =
    (Res.of (hashTreeOfBytes H l 0#64)).bind fun t => .ok (.tree t) := rfl
theorem newTree_chunks (H : Chunk → Chunk → Chunk) (l : List Chunk) : newTree H [.chunks l] =
    (Res.of (hashTreeOfChunks H l 0#64)).bind fun t => .ok (.tree t) := rfl
theorem newTree_bytes_limit (H : Chunk → Chunk → Chunk) (l : List Byte) (t : IT) (k : Int) : newTree H [.bytes l, .int t k] =
    (Res.of (hashTreeOfBytes H l (BitVec.ofInt 64 k))).bind fun t => .ok (.tree t) := rfl
theorem newTree_chunks_limit (H : Chunk → Chunk → Chunk) (l : List Chunk) (t : IT) (k : Int) : newTree H [.chunks l, .int t k] =
    (Res.of (hashTreeOfChunks H l (BitVec.ofInt 64 k))).bind fun t => .ok (.tree t) := rfl
theorem make_none (n : Nat) (z : Option Int) : C.make (.var n) z [] s =
    bif Nat.beq n (name% "HashTree") then newTree C.env.hash [] else match bytesName n with
    | some k => .ok (.bytes (List.replicate k 0#8))
    | none => bif Nat.beq n (name% "Hasher") then .ok .hasher else .stuck := by
  delta Ctx.make; dsimp only; cases bytesName n <;> rfl
theorem make_count (z : Option Int) (t u : IT) (k x : Int) : C.make (.tmpl (name% "vector") (.cons (.var (name% "uint8_t")) .nil)) z
    [.int t k, .int u x] s = .ok (.bytes (List.replicate k.toNat (BitVec.ofInt 8 x))) := by kernel_refl
theorem make_range (z : Option Int) (p q : Place) (i j : Int) : C.make (.tmpl (name% "vector") (.cons (.var (name% "uint8_t")) .nil)) z
    [.iter p i, .iter q j] s = (range? (.iter p i) (.iter q j) s).bind fun l => .ok (.bytes l) := by kernel_refl
theorem make_bytes (k : Int) (ts : Exs) : C.make (.tmpl (name% "Bytes") ts) (some k) [] s = .ok (.bytes (List.replicate k.toNat 0#8)) := by
  cases ts with
  | nil => kernel_refl
  | cons e es => cases es with
    | cons _ _ => cases e <;> kernel_refl
    | nil => cases e <;> kernel_refl
theorem sizeArg_var (n : Nat) : C.sizeArg (.var n) s = none := rfl
theorem sizeArg_vector (n : Nat) (e : Nat) : C.sizeArg (.tmpl n (.cons (.var e) .nil)) s = none := rfl
theorem sizeArg_bin (n : Nat) (o : Op) (a b : Ex) (es : Exs) : C.sizeArg (.tmpl n (.cons (.bin o a b) es)) s = match C.value (.bin o a b) s with
    | .ok (.int _ n, _) => some n
    | _ => none := rfl
theorem bytesOf_int (n : Nat) (t : IT) (x : Int) : bytesOf n (.int t x) =
    bif Nat.ble (t.bits / 8) n then .ok (.bytes (leBytes (t.bits / 8) x.toNat ++ List.replicate (n - t.bits / 8) 0#8)) else .stuck := rfl
theorem bytesOf_bool (n : Nat) (b : Bool) : bytesOf n (.bool b) =
    .ok (.bytes (leBytes 1 (bif b then 1 else 0) ++ List.replicate (n - 1) 0#8)) := rfl

/-! ## Statements -/

/-- A `while` loop that may run `n` times. -/
def Ctx.whileLoop (c : Ex) (b : Stmt) (n : Nat) (s : Mem) : Res (Option Val × Mem) := iterate (C.test c) (fun s => C.exec b s) n s
/-- A `for` loop, after its first part, that may run `n` times. -/
def Ctx.forLoop (c step : Ex) (b : Stmt) (n : Nat) (s : Mem) : Res (Option Val × Mem) :=
  iterate (C.test c) (fun s => (C.exec b s).bind fun q => match q.1 with
      | some v => .ok (some v, q.2)
      | none => (C.eval step q.2).bind fun q => .ok (none, q.2)) n s
/-- A loop over values. -/
def Ctx.rangeLoop (n : Nat) (b : Stmt) (vs : List Val) (s : Mem) : Res (Option Val × Mem) :=
  eachOf (fun v s => (C.exec b (bindVar n v s)).bind fun q => .ok (q.1, leave s.cur.length q.2)) vs s

theorem whileLoop_succ (c : Ex) (b : Stmt) (n : Nat) : C.whileLoop c b (n + 1) s = (C.test c s).bind fun r => bif r.1 then
    (C.exec b r.2).bind fun q => match q.1 with
      | some v => .ok (some v, q.2)
      | none => C.whileLoop c b n q.2
    else .ok (none, r.2) := rfl
theorem forLoop_succ (c step : Ex) (b : Stmt) (n : Nat) : C.forLoop c step b (n + 1) s = (C.test c s).bind fun r => bif r.1 then
    (C.exec b r.2).bind fun q => match q.1 with
      | some v => .ok (some v, q.2)
      | none => (C.eval step q.2).bind fun q => C.forLoop c step b n q.2
    else .ok (none, r.2) := by
  show Res.bind _ _ = _
  refine congrArg _ (funext fun r => ?_)
  cases r.1
  · rfl
  · show Res.bind (Res.bind _ _) _ = Res.bind _ _
    rw [bind_assoc]
    refine congrArg _ (funext fun q => ?_)
    rcases q with ⟨_ | v, q⟩
    · show Res.bind (Res.bind _ _) _ = _
      rw [bind_assoc]
      rfl
    · rfl
theorem rangeLoop_nil (n : Nat) (b : Stmt) : C.rangeLoop n b [] s = .ok (none, s) := rfl
theorem rangeLoop_cons (n : Nat) (b : Stmt) (v : Val) (vs : List Val) : C.rangeLoop n b (v :: vs) s =
    (C.exec b (bindVar n v s)).bind fun q => match q.1 with
      | some w => .ok (some w, leave s.cur.length q.2)
      | none => C.rangeLoop n b vs (leave s.cur.length q.2) := by
  show Res.bind (Res.bind _ _) _ = _
  rw [bind_assoc]
  refine congrArg _ (funext fun q => ?_)
  rcases q with ⟨_ | v, q⟩ <;> rfl

theorem exec_expr (e : Ex) : C.exec (.expr e) s = (C.eval e s).bind fun r => .ok (none, r.2) := rfl
theorem exec_declare (t : Ex) (n : Nat) : C.exec (.declare t n) s = (C.default t (C.sizeArg t s)).bind fun v => .ok (none, bindVar n v s) := rfl
theorem exec_init (t : Ex) (n : Nat) (e : Ex) : C.exec (.init t n e) s = (C.value e s).bind fun r => (C.coerce t r.1).bind fun v =>
    .ok (none, bindVar n v r.2) := rfl
theorem exec_construct (t : Ex) (n : Nat) (as : Exs) : C.exec (.construct t n as) s = (C.values as s).bind fun r =>
    (C.make t (C.sizeArg t s) r.1 r.2).bind fun v => .ok (none, bindVar n v r.2) := rfl
theorem exec_list (t : Ex) (n : Nat) (as : Exs) : C.exec (.list t n as) s = (C.values as s).bind fun r =>
    (C.make t (C.sizeArg t s) r.1 r.2).bind fun v => .ok (none, bindVar n v r.2) := rfl
theorem exec_ret (e : Ex) : C.exec (.ret e) s = (C.value e s).bind fun r => .ok (some r.1, r.2) := rfl
theorem exec_ite (c : Ex) (a b : Stmt) : C.exec (.ite c a b) s = (C.test c s).bind fun r => bif r.1 then C.exec a r.2 else C.exec b r.2 := rfl
theorem exec_while (c : Ex) (b : Stmt) : C.exec (.while c b) s = C.whileLoop c b C.fuel s := rfl
theorem exec_for (i : Stmt) (c step : Ex) (b : Stmt) (f : Frame) (bl : List Frame) (g : Frame) (h : List Obj) :
    C.exec (.for i c step b) ⟨f, bl, g, h⟩ = (C.exec i ⟨f, bl, g, h⟩).bind fun r =>
    (C.forLoop c step b C.fuel r.2).bind fun q => .ok (q.1, leave f.length q.2) := rfl
theorem exec_range (t : Ex) (r : Bool) (n : Nat) (e : Ex) (b : Stmt) : C.exec (.range t r n e b) s = (C.value e s).bind fun r =>
    (elements r.1).bind fun vs => C.rangeLoop n b vs r.2 := rfl
theorem exec_block (b : Sts) (f : Frame) (bl : List Frame) (g : Frame) (h : List Obj) :
    C.exec (.block b) ⟨f, bl, g, h⟩ = (C.execs b ⟨f, bl, g, h⟩).bind fun q => .ok (q.1, leave f.length q.2) := rfl
theorem exec_decls (b : Sts) : C.exec (.decls b) s = C.execs b s := rfl
theorem execs_nil : C.execs .nil s = .ok (none, s) := rfl
theorem execs_cons (a : Stmt) (b : Sts) : C.execs (.cons a b) s = (C.exec a s).bind fun q => match q.1 with
    | some v => .ok (some v, q.2)
    | none => C.execs b q.2 := rfl

/-! ## The library -/

section
variable (p : Place) (v : Val) (as : List Val)
theorem method_size : method (name% "size") (some p) v as s = (orStuck (count v)).bind fun k => .ok (.int .u64 k, s) := rfl
theorem method_empty : method (name% "empty") (some p) v as s = (orStuck (count v)).bind fun k => .ok (.bool (decide (k = 0)), s) := rfl
theorem method_ssz_size (o : Obj) : method (name% "get_ssz_size") (some p) (.obj o) as s = .ok (.int .u64 o.1.sszSize, s) := rfl
theorem method_serialize (o : Obj) : method (name% "serialize") (some p) (.obj o) as s = (Res.of (serialize o.1 o.2)).bind fun l => .ok (.bytes l, s) := rfl
theorem method_serialize_bytes (q : Option Place) (l : List Byte) : method (name% "serialize") q (.bytes l) as s = .ok (.bytes l, s) := rfl
theorem method_begin_bytes (l : List Byte) : method (name% "begin") (some p) (.bytes l) as s = .ok (.iter p 0, s) := rfl
theorem method_end_bytes (l : List Byte) : method (name% "end") (some p) (.bytes l) as s = .ok (.iter p l.length, s) := rfl
theorem method_cbegin_bytes (l : List Byte) : method (name% "cbegin") (some p) (.bytes l) as s = .ok (.iter p 0, s) := rfl
theorem method_cend_bytes (l : List Byte) : method (name% "cend") (some p) (.bytes l) as s = .ok (.iter p l.length, s) := rfl
theorem method_cbegin_ptrs (l : List Nat) : method (name% "cbegin") (some p) (.ptrs l) as s = .ok (.iter p 0, s) := rfl
theorem method_cend_ptrs (l : List Nat) : method (name% "cend") (some p) (.ptrs l) as s = .ok (.iter p l.length, s) := rfl
theorem method_back_bytes (l : List Byte) : method (name% "back") (some p) (.bytes l) as s = .ok (.ref (.elem p ((l.length : Int) - 1)), s) := rfl
theorem method_clear_bools (l : List Bool) : method (name% "clear") (some p) (.bools l) as s =
    (write? p (.bools []) s).bind fun s => .ok (.void, s) := rfl
theorem method_clear_objs (l : List Obj) : method (name% "clear") (some p) (.objs l) as s =
    (write? p (.objs []) s).bind fun s => .ok (.void, s) := rfl
theorem method_push_bools (l : List Bool) (x : Val) : method (name% "push_back") (some p) (.bools l) [x] s =
    (orStuck (truth x)).bind fun b => (write? p (.bools (l ++ [b])) s).bind fun s => .ok (.void, s) := rfl
theorem method_push_objs (l : List Obj) (o : Obj) : method (name% "push_back") (some p) (.objs l) [.obj o] s =
    (write? p (.objs (l ++ [o])) s).bind fun s => .ok (.void, s) := rfl
theorem method_insert_end (l : List Byte) (a b : Val) : method (name% "insert") (some p) (.bytes l) [.iter p l.length, a, b] s =
    (range? a b s).bind fun m => (write? p (.bytes (l ++ m)) s).bind fun s => .ok (.void, s) := by
  have : method (name% "insert") (some p) (.bytes l) [.iter p l.length, a, b] s =
      bif decide (p = p) then
          bif decide (0 ≤ (l.length : Int) ∧ (l.length : Int) ≤ l.length) then
            (range? a b s).bind fun m => (write? p (.bytes (l.take (l.length : Int).toNat ++ (m ++ l.drop (l.length : Int).toNat))) s).bind fun s => .ok (.void, s)
          else .ub
        else .stuck := by kernel_refl
  rw [this]
  simp
theorem method_insert_begin (l : List Byte) (a b : Val) : method (name% "insert") (some p) (.bytes l) [.iter p 0, a, b] s =
    (range? a b s).bind fun m => (write? p (.bytes (m ++ l)) s).bind fun s => .ok (.void, s) := by
  have : method (name% "insert") (some p) (.bytes l) [.iter p 0, a, b] s =
      bif decide (p = p) then
          bif decide (0 ≤ (0 : Int) ∧ (0 : Int) ≤ l.length) then
            (range? a b s).bind fun m => (write? p (.bytes (l.take (0 : Int).toNat ++ (m ++ l.drop (0 : Int).toNat))) s).bind fun s => .ok (.void, s)
          else .ub
        else .stuck := by kernel_refl
  rw [this]
  simp
theorem method_deserialize (o : Obj) (a b : Val) : method (name% "deserialize") (some p) (.obj o) [a, b] s =
    (range? a b s).bind fun l => (Res.of (deserialize o.1 o.2 l)).bind fun r =>
      (write? p (.obj ⟨o.1, r.2⟩) s).bind fun s => .ok (.bool r.1, s) := rfl
end

theorem library_distance (t : Option IT) (p : Place) (i j : Int) : C.library (name% "distance") t [.iter p i, .iter p j] s =
    some (.ok (.int .i64 (j - i), s)) := by
  have : C.library (name% "distance") t [.iter p i, .iter p j] s = some (bif decide (p = p) then .ok (.int .i64 (j - i), s) else .stuck) := rfl
  rw [this]; simp
theorem library_integer (t : IT) (p : Place) (i : Int) : C.library (name% "to_integer_little_endian") (some t) [.iter p i] s =
    some ((range? (.iter p i) (.iter p (i + (t.bits / 8 : Nat))) s).bind fun l => .ok (.int t (fromLE l), s)) := rfl
theorem library_countl (t : Option IT) (i : IT) (x : Int) : C.library (name% "countl_zero") t [.int i x] s =
    some (.ok (.int .i32 (countlZeroFrom x.toNat i.bits), s)) := rfl
theorem library_sqrt (t : Option IT) : C.library (name% "sqrt") t [.double] s = some (.ok (.double, s)) := rfl
theorem library_copy (t : Option IT) (a b : Val) (p : Place) (i : Int) : C.library (name% "copy") t [a, b, .iter p i] s =
    some ((range? a b s).bind fun m => (read? p s).bind fun v => match v with
      | .bytes l =>
        bif decide (0 ≤ i ∧ i + m.length ≤ l.length) then
          (write? p (.bytes (l.take i.toNat ++ (m ++ l.drop (i.toNat + m.length)))) s).bind fun s => .ok (.iter p (i + m.length), s)
        else .ub
      | _ => .stuck) := rfl
theorem library_for_each (t : Option IT) (p : Place) (i j : Int) (ps : List Nat) (b : Sts) :
    C.library (name% "for_each") t [.iter p i, .iter p j, .lam ps b] s = some ((read? p s).bind fun v => match v with
        | .ptrs l => bif decide (0 ≤ i ∧ i ≤ j ∧ j ≤ l.length) then
            (forEach (C.apply ps b) ((l.drop i.toNat).take (j.toNat - i.toNat)) s).bind fun s => .ok (.void, s)
          else .ub
        | _ => .stuck) := by
  have : C.library (name% "for_each") t [.iter p i, .iter p j, .lam ps b] s = some (bif decide (p = p) then (read? p s).bind fun v => match v with
        | .ptrs l => bif decide (0 ≤ i ∧ i ≤ j ∧ j ≤ l.length) then
            (forEach (C.apply ps b) ((l.drop i.toNat).take (j.toNat - i.toNat)) s).bind fun s => .ok (.void, s)
          else .ub
        | _ => .stuck else .stuck) := rfl
  rw [this]; simp

end

theorem ctx_int (fs i e x f d) : (ctx fs i e x f d).int = i := by cases d <;> rfl
theorem ctx_elem (fs i e x f d) : (ctx fs i e x f d).elem = e := by cases d <;> rfl
theorem ctx_fuel (fs i e x f d) : (ctx fs i e x f d).fuel = f := by cases d <;> rfl
theorem ctx_env (fs i e x f d) : (ctx fs i e x f d).env = x := by cases d <;> rfl
theorem ctx_call (fs i e x f d n raws args s) : (ctx fs i e x f (d + 1)).call n raws args s = match find n fs with
    | some g => (ctx fs i e x f d).enter g (pick g.params raws args) s
    | none => .stuck := rfl
theorem ctx_apply (fs i e x f d ps b args s) : (ctx fs i e x f (d + 1)).apply ps b args s = (ctx fs i e x f d).lambda ps b args s := rfl

theorem enter_mk (C : Ctx) (f : Func) (args : List Val) (c : Frame) (b : List Frame) (g : Frame) (h : List Obj) : C.enter f args ⟨c, b, g, h⟩ =
    (C.params b.length f.params args []).bind fun fr => (C.execs f.body ⟨fr, c :: b, g, h⟩).bind fun q => match q with
    | (v, ⟨_, b, g, h⟩) => match b with
      | c :: b => (match v with | some v => C.coerce f.type v | none => .ok .void).bind fun v => .ok (v, ⟨c, b, g, h⟩)
      | [] => .stuck := rfl
theorem run_eq (fs int elem estimate fuel depth f args glob parts) : run fs int elem estimate fuel depth f args glob parts =
    ((ctx fs int elem estimate fuel depth).enter f args ⟨[], [], glob, parts⟩).bind fun r => .ok (r.1, r.2.glob, r.2.parts) := rfl
theorem params_nil (C : Ctx) (k : Nat) (f : Frame) : C.params k [] [] f = .ok f := rfl
theorem params_cons (C : Ctx) (k : Nat) (t : Ex) (n : Nat) (ps : List Param) (v : Val) (vs : List Val) (f : Frame) :
    C.params k (⟨t, false, n⟩ :: ps) (v :: vs) f = (C.coerce t v).bind fun v => C.params k ps vs ((n, v) :: f) := rfl
theorem params_ref (C : Ctx) (k : Nat) (t : Ex) (n : Nat) (ps : List Param) (q : Place) (vs : List Val) (f : Frame) :
    C.params k (⟨t, true, n⟩ :: ps) (.ref q :: vs) f = C.params k ps vs ((n, .ref (q.outer k)) :: f) := rfl
theorem pick_cons (t : Ex) (r : Bool) (n : Nat) (ps : List Param) (x : Val) (rs : List Val) (v : Val) (vs : List Val) :
    pick (⟨t, r, n⟩ :: ps) (x :: rs) (v :: vs) = (bif r then x else v) :: pick ps rs vs := rfl
theorem pick_nil (rs vs : List Val) : pick [] rs vs = vs := rfl

theorem tmod_nat (i k : Nat) : (i : Int).tmod k = (i % k : Nat) := rfl
theorem tdiv_nat (i k : Nat) : (i : Int).tdiv k = (i / k : Nat) := rfl
theorem tmod_eight (i : Nat) : (i : Int).tmod 8 = (i % 8 : Nat) := rfl
theorem tdiv_eight (i : Nat) : (i : Int).tdiv 8 = (i / 8 : Nat) := rfl

theorem at_int {α : Type} (l : List α) (i : Int) (h0 : 0 ≤ i) (h : i.toNat < l.length) : at? l i = .ok l[i.toNat] := by
  simp [at?, h, h0]
theorem set_int {α : Type} (l : List α) (i : Int) (a : α) (h0 : 0 ≤ i) (h : i < l.length) : set? l i a = .ok (l.set i.toNat a) := by
  simp [set?, h, h0]

/-! ## Parts of functions -/

/-- One of the statements. -/
def Sts.nth : Nat → Sts → Stmt
  | _, .nil => .decls .nil
  | 0, .cons a _ => a
  | n + 1, .cons _ b => nth n b
/-- The condition of a loop or of an `if`. -/
def Stmt.cond : Stmt → Ex
  | .while c _ => c
  | .for _ c _ _ => c
  | .ite c _ _ => c
  | _ => .var 0
/-- The last part of the head of a `for` loop. -/
def Stmt.step : Stmt → Ex
  | .for _ _ s _ => s
  | _ => .var 0
/-- What a loop repeats. -/
def Stmt.inner : Stmt → Stmt
  | .while _ b => b
  | .for _ _ _ b => b
  | .range _ _ _ _ b => b
  | _ => .decls .nil
/-- The statements of a block. -/
def Stmt.sts : Stmt → Sts
  | .block b => b
  | .decls b => b
  | _ => .nil

/-- Runs statements and expressions as far as possible. -/
macro "cpp_run" "[" ts:Lean.Parser.Tactic.simpLemma,* "]" l:(Lean.Parser.Tactic.location)? : tactic => `(tactic| simp -implicitDefEqProofs only [
  reduceNatBeq, reduceNatBle, bind_ok, bind_ub, bind_stuck, bind_throws, bind_spent, bind_cond, bind_assoc, orStuck_some, orStuck_none, slotOf_nil, slotOf_cons, getSlot_cons, setSlot_cons,
  length_nil, length_cons, load_ref, load_int, load_bool, load_double, load_bytes, load_iter, load_ptr, load_lam, load_chunks, load_hasher, load_self, load_braces, load_void,
  loads_nil, loads_cons, read_here, read_glob, read_elem, write_here, write_glob, write_elem, lookup_mk, bindVar_mk, leave_mk, drop_zero_frame,
  drop_succ_frame, truth_int, truth_bool, truth_ptr, intOf_int, intOf_bool, operate_int, operate_bool_int, operate_iter_add, operate_iter_sub,
  operate_iter_eq, operate_iter_ne, like_int, like_bool_bool, like_bool_int, like_bytes, like_bools, like_objs, like_obj, like_iter, like_ptr,
  intOp_add, intOp_sub, intOp_mul, intOp_div, intOp_mod, intOp_eq, intOp_ne, intOp_lt, intOp_gt, intOp_le, intOp_ge, intOp_band, intOp_bor,
  intOp_shl, intOp_shr, result_u32, result_u64, result_i32, result_i64, IT.common, IT.promote,
  eval_num, eval_var, eval_size, eval_deref, eval_addr, eval_not, eval_inc, eval_post, eval_sizeof, eval_bin, eval_and, eval_or, eval_assign,
  eval_update, eval_cond, placeOf_ref, placeOf_bytes, eval_method, invoke_self, thisOf_mk, Option.bind_some, Option.bind_none, invoke_tree, invoke_mix, eval_call_base, eval_native, eval_big, eval_listed, make_two, newTree_bytes, newTree_chunks,
  newTree_bytes_limit, newTree_chunks_limit, load_tree, load_obj, load_sink, load_listed, like_tree, invoke_hasher, invoke_bytes, invoke_bools, invoke_obj, invoke_objs, invoke_ptrs, invoke_chunks, eval_call, eval_call_tmpl, eval_max, eval_braces, eval_index, eval_cast,
  eval_lam, evals_nil, evals_cons, value_eq, test_eq, values_eq, exec_expr, exec_declare, exec_init, exec_construct, exec_list, exec_ret, exec_ite,
  exec_while, exec_for, exec_range, exec_block, exec_decls, execs_nil, execs_cons, method_size, method_empty, method_ssz_size, method_serialize,
  method_serialize_bytes, method_begin_bytes, method_end_bytes, method_cbegin_bytes, method_cend_bytes, method_cbegin_ptrs, method_cend_ptrs,
  method_back_bytes, method_clear_bools, method_clear_objs, method_push_bools, method_push_objs, method_insert_end, method_insert_begin,
  method_deserialize, library_distance, library_integer, library_countl, library_sqrt, library_copy, library_for_each, ctx_int, ctx_elem, ctx_fuel,
  ctx_env, ctx_call, ctx_apply, enter_mk, run_eq, params_nil, params_cons, params_ref, pick_cons, pick_nil, Ctx.coerce, Ctx.itype, Ctx.isType, Ctx.default, range_glob, range_here, make_one, make_none, make_count, make_range,
  make_bytes, sizeArg_var, sizeArg_vector, sizeArg_bin, bytesOf_int, bytesOf_bool, reduceConv, Int.cast_ofNat_Int,
  bytesName, isByteVector, isChunkVector, arrayOf, typeSize, count, elements, of_ok, of_ub, of_throws, of_bind, Option.map_some, Option.map_none, cond_true, cond_false, Bool.or_false, Bool.false_or, Bool.true_or,
  Bool.or_true, Bool.and_true, Bool.true_and, Bool.false_and, Bool.and_false, Nat.reduceAdd, Nat.reduceSub, Nat.reduceDiv, Nat.reduceMul, IT.bits, IT.signed, Bool.not_not,
  Bool.not_true, Bool.not_false, Option.isSome_some, Option.isSome_none, Int.sub_zero, Int.zero_add, Int.toNat_zero, Int.toNat_natCast,
  List.drop_zero, Nat.sub_zero, List.take_length, consts, input, ends, fields, List.cons_append, List.nil_append, List.append_nil,
  Int.natCast_add, Int.natCast_one, true_and, and_true, Int.le_refl, List.replicate_zero, Int.reduceToNat, Int.reduceAdd, Int.reduceSub, Int.reduceLE, Int.reduceLT, Int.reduceEq, Int.reduceNeg, Int.reducePow, decide_true, decide_false,
  Sts.nth, Stmt.cond, Stmt.step, Stmt.inner, Stmt.sts, $ts,*] $[$l]?)

/-- Carries out conversions and decides conditions where the values are known to be in range. -/
macro "cpp_arith" "[" ts:Lean.Parser.Tactic.simpLemma,* "]" l:(Lean.Parser.Tactic.location)? : tactic => `(tactic|
  simp -implicitDefEqProofs (disch := omega) only [conv_u8, conv_i32, conv_u32, conv_i64, conv_u64, cond_of_true, cond_of_false, cond_of_not_true,
    cond_of_not_false, tmod_eight, tdiv_eight, Int.toNat_natCast, bind_ok, bind_ub, $ts,*] $[$l]?)

end Mammon.Cpp
