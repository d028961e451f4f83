import Verif.Proofs.CppSim
/-!
# Predicates, and the choice of a SHA-256 implementation

What the text of the predicates of beacon-chain/validator.cpp and beacon-chain/attestation.cpp and of the functions of ssz/hasher.cpp does.
-/

namespace Mammon.Cpp
open Nasm

section
variable (C : Ctx) (s : Mem)
theorem eval_member (e : Ex) (n : Nat) : C.eval (.mem e n) s = (C.eval e s).bind fun r => (load r.1 r.2).bind fun v => match v with
    | .obj o => (orStuck (memberOf n o)).bind fun o => .ok (.obj o, r.2)
    | _ => .stuck := rfl
theorem eval_enumerator (n : Nat) : C.eval (.scope (name% "IMPL") n) s = (orStuck (enumerator n)).bind fun k => .ok (.int .i32 k, s) := rfl
theorem operate_slots (o : Op) (a b : BitVec 64) : operate o (.obj ⟨.uint64, a⟩) (.obj ⟨.uint64, b⟩) = intOp o (.u64, a.toNat) (.u64, b.toNat) := rfl
theorem operate_structs_ne (z : Nat) (ps : Parts) (v : (Ty.container z false ps).denote) :
    operate .ne .self (.obj ⟨.container z false ps, v⟩) = .ok (.bool false) := rfl
theorem truth_boolean (b : Bool) : truth (.obj ⟨.boolean, b⟩) = some b := rfl
theorem load_routine (f : HashFn) : load (.routine f) s = .ok (.routine f) := rfl
theorem library_sorted (t : Option IT) (p : Place) (i j : Int) : C.library (name% "is_sorted") t [.iter p i, .iter p j] s = some (
    (read? p s).bind fun v => match v with
        | .obj ⟨.listF .uint64 _, l⟩ => bif decide (i = 0 ∧ j = ((l : List (BitVec 64)).length : Nat)) then .ok (.bool (isSorted l), s) else .stuck
        | _ => .stuck) := by
  have : C.library (name% "is_sorted") t [.iter p i, .iter p j] s = some (bif decide (p = p) then
    (read? p s).bind fun v => match v with
        | .obj ⟨.listF .uint64 _, l⟩ => bif decide (i = 0 ∧ j = ((l : List (BitVec 64)).length : Nat)) then .ok (.bool (isSorted l), s) else .stuck
        | _ => .stuck else .stuck) := rfl
  rw [this, decide_eq_true rfl]; rfl
theorem library_adjacent (t : Option IT) (p : Place) (i j : Int) : C.library (name% "adjacent_find") t [.iter p i, .iter p j] s = some (
    (read? p s).bind fun v => match v with
        | .obj ⟨.listF .uint64 _, l⟩ => bif decide (i = 0 ∧ j = ((l : List (BitVec 64)).length : Nat)) then .ok (.iter p (adjacentFind l : Nat), s) else .stuck
        | _ => .stuck) := by
  have : C.library (name% "adjacent_find") t [.iter p i, .iter p j] s = some (bif decide (p = p) then
    (read? p s).bind fun v => match v with
        | .obj ⟨.listF .uint64 _, l⟩ => bif decide (i = 0 ∧ j = ((l : List (BitVec 64)).length : Nat)) then .ok (.iter p (adjacentFind l : Nat), s) else .stuck
        | _ => .stuck else .stuck) := rfl
  rw [this, decide_eq_true rfl]; rfl
theorem method_size_obj (p : Place) (t : Ty) (n : Nat) (l : List t.denote) (as : List Val) : method (name% "size") (some p) (.obj ⟨.listF t n, l⟩) as s =
    .ok (.int .u64 l.length, s) := rfl
theorem method_cbegin_obj (p : Place) (t : Ty) (n : Nat) (l : List t.denote) (as : List Val) : method (name% "cbegin") (some p) (.obj ⟨.listF t n, l⟩) as s =
    .ok (.iter p 0, s) := rfl
theorem method_cend_obj (p : Place) (t : Ty) (n : Nat) (l : List t.denote) (as : List Val) : method (name% "cend") (some p) (.obj ⟨.listF t n, l⟩) as s =
    .ok (.iter p l.length, s) := rfl
end

/-- `cpp_run` with what the predicates use in addition. -/
macro "cpp_pred" "[" ts:Lean.Parser.Tactic.simpLemma,* "]" l:(Lean.Parser.Tactic.location)? : tactic => `(tactic| cpp_run [
  eval_member, eval_enumerator, operate_slots, operate_structs_ne, truth_boolean, load_routine, library_sorted, library_adjacent, method_size_obj,
  method_cbegin_obj, method_cend_obj, enumerator, $ts,*] $[$l]?)

variable (fs : List Func) (int : Option IT) (elem : Option Ty) (E : Env) (fuel d : Nat)

theorem validator_globals (v : Objects.validator.denote) : structGlobals Objects.validator v =
    [(name% "this", .obj ⟨Objects.validator, v⟩), (name% "pubkey", .obj ⟨Objects.blsPubkey, v.1⟩), (name% "withdrawal_credentials", .obj ⟨Objects.root, v.2.1⟩),
      (name% "effective_balance", .obj ⟨.uint64, validatorEffectiveBalance v⟩), (name% "slashed", .obj ⟨.boolean, validatorSlashed v⟩),
      (name% "activation_eligibility_epoch", .obj ⟨.uint64, validatorEligibility v⟩), (name% "activation_epoch", .obj ⟨.uint64, validatorActivation v⟩),
      (name% "exit_epoch", .obj ⟨.uint64, validatorExit v⟩), (name% "withdrawable_epoch", .obj ⟨.uint64, validatorWithdrawable v⟩),
      (name% "FAR_FUTURE_EPOCH", .obj ⟨.uint64, FAR_FUTURE_EPOCH⟩), (name% "MAX_EFFECTIVE_BALANCE", .obj ⟨.uint64, MAX_EFFECTIVE_BALANCE⟩)] := by
  kernel_refl

theorem conv_slot (v : BitVec 64) : IT.u64.conv (v.toNat : Int) = v.toNat := conv_u64 (by omega) (by have := v.isLt; omega)

theorem decide_slot_le (a b : BitVec 64) : decide ((a.toNat : Int) ≤ b.toNat) = decide (a ≤ b) := by
  exact decide_eq_decide.mpr (by rw [BitVec.le_def]; omega)
theorem decide_slot_lt (a b : BitVec 64) : decide ((a.toNat : Int) < b.toNat) = decide (a < b) := by
  exact decide_eq_decide.mpr (by rw [BitVec.lt_def]; omega)
theorem decide_slot_eq (a b : BitVec 64) : decide ((a.toNat : Int) = b.toNat) = (a == b) := by
  rw [show (a == b) = decide (a = b) from rfl]
  exact decide_eq_decide.mpr ⟨fun h => BitVec.eq_of_toNat_eq (by omega), fun h => by rw [h]⟩

theorem is_active (v : Objects.validator.denote) (e : BitVec 64) :
    run fs int elem E fuel d isActiveF [.obj ⟨.uint64, e⟩] (structGlobals Objects.validator v) [] =
      .ok (.bool (validatorIsActive v e), structGlobals Objects.validator v, []) := by
  rw [validator_globals]
  cpp_pred [isActiveF, conv_slot, decide_slot_le, decide_slot_lt]
  rw [validatorIsActive]
  cases decide (validatorActivation v ≤ e) <;> rfl

theorem is_eligible (v : Objects.validator.denote) :
    run fs int elem E fuel d isEligibleF [] (structGlobals Objects.validator v) [] =
      .ok (.bool (validatorIsEligible v), structGlobals Objects.validator v, []) := by
  rw [validator_globals]
  cpp_pred [isEligibleF, conv_slot, decide_slot_eq]
  rw [validatorIsEligible]
  cases validatorEligibility v == FAR_FUTURE_EPOCH <;> rfl

theorem is_slashable (v : Objects.validator.denote) (e : BitVec 64) :
    run fs int elem E fuel d isSlashableF [.obj ⟨.uint64, e⟩] (structGlobals Objects.validator v) [] =
      .ok (.bool (validatorIsSlashable v e), structGlobals Objects.validator v, []) := by
  rw [validator_globals]
  cpp_pred [isSlashableF, conv_slot, decide_slot_le, decide_slot_lt]
  rw [validatorIsSlashable]
  cases validatorSlashed v <;> cases decide (validatorActivation v ≤ e) <;> rfl

theorem data_globals (v : Objects.attestationData.denote) : structGlobals Objects.attestationData v =
    [(name% "this", .obj ⟨Objects.attestationData, v⟩), (name% "slot", .obj ⟨.uint64, v.1⟩), (name% "index", .obj ⟨.uint64, v.2.1⟩),
      (name% "beacon_block_root", .obj ⟨Objects.root, v.2.2.1⟩), (name% "source", .obj ⟨Objects.checkpoint, dataSource v⟩),
      (name% "target", .obj ⟨Objects.checkpoint, dataTarget v⟩),
      (name% "FAR_FUTURE_EPOCH", .obj ⟨.uint64, FAR_FUTURE_EPOCH⟩), (name% "MAX_EFFECTIVE_BALANCE", .obj ⟨.uint64, MAX_EFFECTIVE_BALANCE⟩)] := by
  kernel_refl

theorem member_source (v : Objects.attestationData.denote) : memberOf (name% "source") ⟨Objects.attestationData, v⟩ = some ⟨Objects.checkpoint, dataSource v⟩ := by
  kernel_refl
theorem member_target (v : Objects.attestationData.denote) : memberOf (name% "target") ⟨Objects.attestationData, v⟩ = some ⟨Objects.checkpoint, dataTarget v⟩ := by
  kernel_refl
theorem member_epoch (v : Objects.checkpoint.denote) : memberOf (name% "epoch") ⟨Objects.checkpoint, v⟩ = some ⟨.uint64, checkpointEpoch v⟩ := by
  kernel_refl
theorem operate_data_ne (v : Objects.attestationData.denote) : operate .ne .self (.obj ⟨Objects.attestationData, v⟩) = .ok (.bool false) := by kernel_refl

theorem is_slashable_pair (v w : Objects.attestationData.denote) :
    run fs int elem E fuel d isSlashablePairF [.obj ⟨Objects.attestationData, w⟩] (structGlobals Objects.attestationData v) [] =
      .ok (.bool (dataIsSlashable v w), structGlobals Objects.attestationData v, []) := by
  rw [data_globals]
  cpp_pred [isSlashablePairF, conv_slot, decide_slot_le, decide_slot_lt, member_source, member_target, member_epoch, operate_data_ne]
  rw [show dataIsSlashable v w = (decide (checkpointEpoch (dataSource v) < checkpointEpoch (dataSource w)) &&
      decide (checkpointEpoch (dataTarget v) > checkpointEpoch (dataTarget w))) from rfl]
  cases decide (checkpointEpoch (dataSource v) < checkpointEpoch (dataSource w)) <;> rfl

theorem indexed_globals (p : Preset) (v : (Objects.indexedAttestation p).denote) : structGlobals (Objects.indexedAttestation p) v =
    [(name% "this", .obj ⟨Objects.indexedAttestation p, v⟩), (name% "attesting_indices", .obj ⟨.listF .uint64 p.MAX_VALIDATORS_PER_COMMITTEE, v.1⟩),
      (name% "data", .obj ⟨Objects.attestationData, v.2.1⟩), (name% "signature", .obj ⟨Objects.blsSignature, v.2.2.1⟩),
      (name% "FAR_FUTURE_EPOCH", .obj ⟨.uint64, FAR_FUTURE_EPOCH⟩), (name% "MAX_EFFECTIVE_BALANCE", .obj ⟨.uint64, MAX_EFFECTIVE_BALANCE⟩)] := by
  kernel_refl

theorem is_valid (p : Preset) (v : (Objects.indexedAttestation p).denote) (state : Val) :
    run fs int elem E fuel d isValidF [state] (structGlobals (Objects.indexedAttestation p) v) [] =
      .ok (.bool (indexedIsValid p v), structGlobals (Objects.indexedAttestation p) v, []) := by
  rw [indexed_globals]
  cpp_pred [isValidF]
  rw [show indexedIsValid p v = (if (v.1 : List (BitVec 64)).length = 0 then false else if !(isSorted v.1) then false
      else adjacentFind v.1 == (v.1 : List (BitVec 64)).length) from rfl]
  by_cases h : (v.1 : List (BitVec 64)).length = 0
  · rw [if_pos h, decide_eq_true (by omega)]; rfl
  · rw [if_neg h, decide_eq_false (by omega)]
    cases isSorted v.1
    · rfl
    · rw [show decide ((adjacentFind v.1 : Int) = (List.length (v.1 : List (BitVec 64)) : Nat)) = (adjacentFind v.1 == (v.1 : List (BitVec 64)).length) from
        decide_eq_decide.mpr (by omega)]
      rfl

theorem like_unset (t u : IT) (n : Int) : like (.unset t) (.int u n) = .ok (.int t (t.conv n)) := rfl
theorem operate_unset (o : Op) (t u : IT) (n : Int) : operate o (.unset t) (.int u n) = .ub := by cases o <;> rfl
theorem conv_reg (b : BitVec 32) : IT.u32.conv (b.toNat : Int) = b.toNat := conv_u32 (by omega) (by have := b.isLt; omega)
theorem band_reg (b m : BitVec 32) : bitwise .band .u32 (b.toNat : Int) (m.toNat : Int) = ((b &&& m).toNat : Nat) := by
  have h : ∀ x : BitVec 32, BitVec.ofInt 32 (x.toNat : Int) = x := fun x => by simp
  show ((BitVec.ofInt 32 (b.toNat : Int) &&& BitVec.ofInt 32 (m.toNat : Int)).toNat : Int) = _
  rw [h, h]
theorem decide_reg (b : BitVec 32) : decide ((b.toNat : Int) = 0) = decide (b = 0) :=
  decide_eq_decide.mpr ⟨fun h => BitVec.eq_of_toNat_eq (by simpa using h), fun h => by rw [h]; rfl⟩
theorem band_sha (b : BitVec 32) : decide (bitwise .band .u32 (b.toNat : Int) 536870912 = 0) = decide (b &&& bit_SHA = 0) := by
  rw [← decide_reg, ← band_reg]; rfl
theorem band_avx2 (b : BitVec 32) : decide (bitwise .band .u32 (b.toNat : Int) 32 = 0) = decide (b &&& bit_AVX2 = 0) := by
  rw [← decide_reg, ← band_reg]; rfl
theorem band_avx (b : BitVec 32) : decide (bitwise .band .u32 (b.toNat : Int) 268435456 = 0) = decide (b &&& bit_AVX = 0) := by
  rw [← decide_reg, ← band_reg]; rfl
theorem band_sse3 (b : BitVec 32) : decide (bitwise .band .u32 (b.toNat : Int) 1 = 0) = decide (b &&& bit_SSE3 = 0) := by
  rw [← decide_reg, ← band_reg]; rfl

section
variable (C : Ctx) (c g : Frame) (b : List Frame) (h : List Obj) (cpu : Cpu) (p q r u : Place)
theorem cpuid7_some (x : CpuidRegs) (hx : cpu.get 7#32 cpu.leaf7 = some x) :
    C.library (name% "__get_cpuid_count") none [.int .i32 7, .int .i32 0, .iter p 0, .iter q 0, .iter r 0, .iter u 0] ⟨c, b, (name% "cpuid", .cpu cpu) :: g, h⟩ =
      some ((write? p (.int .u32 x.a.toNat) ⟨c, b, (name% "cpuid", .cpu cpu) :: g, h⟩).bind fun s => (write? q (.int .u32 x.b.toNat) s).bind fun s =>
        (write? r (.int .u32 x.c.toNat) s).bind fun s => (write? u (.int .u32 x.d.toNat) s).bind fun s => .ok (.int .i32 1, s)) := by
  have : C.library (name% "__get_cpuid_count") none [.int .i32 7, .int .i32 0, .iter p 0, .iter q 0, .iter r 0, .iter u 0]
      ⟨c, b, (name% "cpuid", .cpu cpu) :: g, h⟩ = some (askCpu 7#32 Cpu.leaf7 (.iter p 0) (.iter q 0) (.iter r 0) (.iter u 0) ⟨c, b, (name% "cpuid", .cpu cpu) :: g, h⟩) := rfl
  rw [this, askCpu]
  simp only [slotOf_cons, getSlot_cons, show Nat.beq (name% "cpuid") (name% "cpuid") = true from rfl, cond_true, Option.bind_some, Nat.beq_refl, hx]
theorem cpuid7_none (hx : cpu.get 7#32 cpu.leaf7 = none) :
    C.library (name% "__get_cpuid_count") none [.int .i32 7, .int .i32 0, .iter p 0, .iter q 0, .iter r 0, .iter u 0] ⟨c, b, (name% "cpuid", .cpu cpu) :: g, h⟩ =
      some (.ok (.int .i32 0, ⟨c, b, (name% "cpuid", .cpu cpu) :: g, h⟩)) := by
  have : C.library (name% "__get_cpuid_count") none [.int .i32 7, .int .i32 0, .iter p 0, .iter q 0, .iter r 0, .iter u 0]
      ⟨c, b, (name% "cpuid", .cpu cpu) :: g, h⟩ = some (askCpu 7#32 Cpu.leaf7 (.iter p 0) (.iter q 0) (.iter r 0) (.iter u 0) ⟨c, b, (name% "cpuid", .cpu cpu) :: g, h⟩) := rfl
  rw [this, askCpu]
  simp only [slotOf_cons, getSlot_cons, show Nat.beq (name% "cpuid") (name% "cpuid") = true from rfl, cond_true, Option.bind_some, Nat.beq_refl, hx]
theorem cpuid1_some (x : CpuidRegs) (hx : cpu.get 1#32 cpu.leaf1 = some x) :
    C.library (name% "__get_cpuid") none [.int .i32 1, .iter p 0, .iter q 0, .iter r 0, .iter u 0] ⟨c, b, (name% "cpuid", .cpu cpu) :: g, h⟩ =
      some ((write? p (.int .u32 x.a.toNat) ⟨c, b, (name% "cpuid", .cpu cpu) :: g, h⟩).bind fun s => (write? q (.int .u32 x.b.toNat) s).bind fun s =>
        (write? r (.int .u32 x.c.toNat) s).bind fun s => (write? u (.int .u32 x.d.toNat) s).bind fun s => .ok (.int .i32 1, s)) := by
  have : C.library (name% "__get_cpuid") none [.int .i32 1, .iter p 0, .iter q 0, .iter r 0, .iter u 0]
      ⟨c, b, (name% "cpuid", .cpu cpu) :: g, h⟩ = some (askCpu 1#32 Cpu.leaf1 (.iter p 0) (.iter q 0) (.iter r 0) (.iter u 0) ⟨c, b, (name% "cpuid", .cpu cpu) :: g, h⟩) := rfl
  rw [this, askCpu]
  simp only [slotOf_cons, getSlot_cons, show Nat.beq (name% "cpuid") (name% "cpuid") = true from rfl, cond_true, Option.bind_some, Nat.beq_refl, hx]
theorem cpuid1_none (hx : cpu.get 1#32 cpu.leaf1 = none) :
    C.library (name% "__get_cpuid") none [.int .i32 1, .iter p 0, .iter q 0, .iter r 0, .iter u 0] ⟨c, b, (name% "cpuid", .cpu cpu) :: g, h⟩ =
      some (.ok (.int .i32 0, ⟨c, b, (name% "cpuid", .cpu cpu) :: g, h⟩)) := by
  have : C.library (name% "__get_cpuid") none [.int .i32 1, .iter p 0, .iter q 0, .iter r 0, .iter u 0]
      ⟨c, b, (name% "cpuid", .cpu cpu) :: g, h⟩ = some (askCpu 1#32 Cpu.leaf1 (.iter p 0) (.iter q 0) (.iter r 0) (.iter u 0) ⟨c, b, (name% "cpuid", .cpu cpu) :: g, h⟩) := rfl
  rw [this, askCpu]
  simp only [slotOf_cons, getSlot_cons, show Nat.beq (name% "cpuid") (name% "cpuid") = true from rfl, cond_true, Option.bind_some, Nat.beq_refl, hx]
end

theorem implemented_some (cpu : Cpu) (x y : CpuidRegs) (h7 : cpu.get 7#32 cpu.leaf7 = some x) (h1 : cpu.get 1#32 cpu.leaf1 = some y) :
    implemented cpu = .ok (
      let ret := Impl.NONE
      let ret := bif !decide (x.b &&& bit_SHA = 0) then ret.or Impl.SHA else ret
      let ret := bif !decide (x.b &&& bit_AVX2 = 0) then ret.or Impl.AVX2 else ret
      let ret := bif !decide (y.c &&& bit_AVX = 0) then ret.or Impl.AVX else ret
      bif !decide (y.c &&& bit_SSE3 = 0) then ret.or Impl.SSE else ret) := by
  have h7' : cpu.get 7 cpu.leaf7 = some x := h7
  have h1' : cpu.get 1 cpu.leaf1 = some y := h1
  have hc : ∀ (p : Prop) [Decidable p] (a b : Impl), (if ¬ p then a else b) = bif !decide p then a else b := by
    intro p _ a b; by_cases h : p <;> simp [h]
  unfold implemented
  rw [h7', h1']
  simp only [ne_eq, hc]
  rfl

theorem implemented_none (cpu : Cpu) (h7 : cpu.get 7#32 cpu.leaf7 = none) : implemented cpu = .ub := by
  have h7' : cpu.get 7 cpu.leaf7 = none := h7
  unfold implemented
  rw [h7']
  rfl

theorem get_leaf_one (cpu : Cpu) (x : CpuidRegs) (h7 : cpu.get 7#32 cpu.leaf7 = some x) : cpu.get 1#32 cpu.leaf1 = some cpu.leaf1 := by
  rw [Cpu.get] at h7 ⊢
  by_cases h : cpu.maxLeaf = 0 ∨ cpu.maxLeaf < 7#32
  · rw [if_pos h] at h7; cases h7
  · refine if_neg fun h' => h ?_
    rcases h' with h' | h'
    · exact .inl h'
    · exact .inr (by rw [BitVec.lt_def] at h' ⊢; exact Nat.lt_trans h' (by decide))

theorem implemented_enter (cpu : Cpu) (m : Val) (c : Frame) (b : List Frame) (h : List Obj) :
    (ctx fs int none E fuel d).enter implementedF [] ⟨c, b, hasherGlobals cpu m, h⟩ =
      (Res.of (implemented cpu)).bind fun i => .ok (.int .i32 i.toNat, ⟨c, b, hasherGlobals cpu m, h⟩) := by
  cases h7 : cpu.get 7#32 cpu.leaf7 with
  | none =>
    rw [implemented_none cpu h7]
    cpp_pred [implementedF, hasherGlobals, cpuid7_none _ _ _ _ _ _ _ _ _ _ h7, operate_unset]
  | some x =>
    have h1 := get_leaf_one cpu x h7
    rw [implemented_some cpu x _ h7 h1]
    cpp_pred [implementedF, hasherGlobals, cpuid7_some _ _ _ _ _ _ _ _ _ _ x h7, cpuid1_some _ _ _ _ _ _ _ _ _ _ _ h1, like_unset, conv_reg, band_sha, band_avx2, band_avx, band_sse3]
    generalize decide (x.b &&& bit_SHA = 0) = b1
    generalize decide (x.b &&& bit_AVX2 = 0) = b2
    generalize decide (cpu.leaf1.c &&& bit_AVX = 0) = b3
    generalize decide (cpu.leaf1.c &&& bit_SSE3 = 0) = b4
    cases b1 <;> cases b2 <;> cases b3 <;> cases b4 <;> 
      exact congrArg (fun z => Res.ok (Val.int IT.i32 z, (⟨c, b, hasherGlobals cpu m, h⟩ : Mem))) (by decide +kernel)

theorem implemented_run (cpu : Cpu) (m : Val) :
    run fs int none E fuel d implementedF [] (hasherGlobals cpu m) [] =
      (Res.of (implemented cpu)).bind fun i => .ok (.int .i32 i.toNat, hasherGlobals cpu m, []) := by
  rw [run_eq, implemented_enter, bind_assoc]
  rfl

/-- The value of `implemented` is a set of four bits. -/
theorem implemented_lt (cpu : Cpu) : implemented cpu = .ub ∨ ∃ k : Fin 16, implemented cpu = .ok (BitVec.ofNat 32 k) := by
  cases h7 : cpu.get 7#32 cpu.leaf7 with
  | none => exact .inl (implemented_none cpu h7)
  | some x =>
    have h1 := get_leaf_one cpu x h7
    rw [implemented_some cpu x _ h7 h1]
    refine .inr ?_
    generalize decide (x.b &&& bit_SHA = 0) = b1
    generalize decide (x.b &&& bit_AVX2 = 0) = b2
    generalize decide (cpu.leaf1.c &&& bit_AVX = 0) = b3
    generalize decide (cpu.leaf1.c &&& bit_SSE3 = 0) = b4
    refine ⟨⟨(bif b1 then 0 else 8) + (bif b2 then 0 else 4) + (bif b3 then 0 else 2) + (bif b4 then 0 else 1), ?_⟩, ?_⟩ <;>
      cases b1 <;> cases b2 <;> cases b3 <;> cases b4 <;> first | decide | rfl

theorem band_impl : ∀ k : Fin 16, IT.i32.conv ((BitVec.ofNat 32 k.val).toNat : Int) = k.val ∧
    decide (bitwise .band .i32 k.val 8 = 0) = (Impl.and (BitVec.ofNat 32 k.val) Impl.SHA).not ∧
    decide (bitwise .band .i32 k.val 4 = 0) = (Impl.and (BitVec.ofNat 32 k.val) Impl.AVX2).not ∧
    decide (bitwise .band .i32 k.val 2 = 0) = (Impl.and (BitVec.ofNat 32 k.val) Impl.AVX).not := by decide +kernel

theorem best_enter (cpu : Cpu) (m : Val) (hf : find (name% "implemented") fs = some implementedF) (c : Frame) (b : List Frame) (h : List Obj) :
    (ctx fs int none E fuel (d + 1)).enter bestF [] ⟨c, b, hasherGlobals cpu m, h⟩ =
      (Res.of (bestImplementation cpu)).bind fun f => .ok (.routine f, ⟨c, b, hasherGlobals cpu m, h⟩) := by
  have hl : ∀ (C : Ctx) t as s, C.library (name% "implemented") t as s = none := fun _ _ _ _ => rfl
  have hc : ∀ c b h, (ctx fs int none E fuel (d + 1)).call (name% "implemented") [] [] ⟨c, b, hasherGlobals cpu m, h⟩ =
      (Res.of (implemented cpu)).bind fun i => .ok (.int .i32 i.toNat, ⟨c, b, hasherGlobals cpu m, h⟩) := by
    intro c b h
    rw [ctx_call, hf]
    exact implemented_enter _ _ _ _ _ _ _ _ _ _
  rw [bestImplementation]
  generalize d + 1 = n at hc ⊢
  rcases implemented_lt cpu with hi | ⟨k, hi⟩
  · rw [hi] at hc ⊢
    cpp_pred [bestF, hl, hc]
    rfl
  · rw [hi] at hc ⊢
    obtain ⟨h0, h1, h2, h3⟩ := band_impl k
    cpp_pred [bestF, hl, hc]
    cpp_pred [bestF, hasherGlobals, h0, h1, h2, h3]
    simp only [show ∀ (a : Impl) (f : Impl → Out HashFn), (Out.ok a).bind f = f a from fun _ _ => rfl]
    cases (Impl.and (BitVec.ofNat 32 k.val) Impl.SHA).not
    · rfl
    cases (Impl.and (BitVec.ofNat 32 k.val) Impl.AVX2).not
    · rfl
    cases (Impl.and (BitVec.ofNat 32 k.val) Impl.AVX).not <;> rfl

theorem best_run (cpu : Cpu) (m : Val) (hf : find (name% "implemented") fs = some implementedF) :
    run fs int none E fuel (d + 1) bestF [] (hasherGlobals cpu m) [] =
      (Res.of (bestImplementation cpu)).bind fun f => .ok (.routine f, hasherGlobals cpu m, []) := by
  rw [run_eq, best_enter _ _ _ _ _ _ _ hf, bind_assoc]
  rfl

/-- The hash of a block of two chunks. -/
def hashOf (H : Chunk → Chunk → Chunk) (m : List Byte) : List Byte :=
  match chunkOf (m.take 32), chunkOf (m.drop 32) with
  | some a, some b => (H a b).1
  | _, _ => []

/-- The hashes of the given number of blocks from an index on. -/
def hashesOf (H : Chunk → Chunk → Chunk) (inp : List Byte) : Nat → Nat → List Byte
  | 0, _ => []
  | n + 1, j => hashOf H ((inp.drop j).take 64) ++ hashesOf H inp n (j + 64)

theorem chunkOf_length {l : List Byte} (h : l.length = 32) : chunkOf l = some ⟨l, h⟩ := dif_pos h

theorem hashOf_eq (H : Chunk → Chunk → Chunk) (m : List Byte) (h : m.length = 64) :
    ∃ a b, chunkOf (m.take 32) = some a ∧ chunkOf (m.drop 32) = some b ∧ hashOf H m = (H a b).1 ∧ a.1 ++ b.1 = m := by
  have ha : (m.take 32).length = 32 := by rw [List.length_take]; omega
  have hb : (m.drop 32).length = 32 := by rw [List.length_drop]; omega
  refine ⟨_, _, chunkOf_length ha, chunkOf_length hb, ?_, List.take_append_drop 32 m⟩
  rw [hashOf, chunkOf_length ha, chunkOf_length hb]

theorem length_hashOf (H : Chunk → Chunk → Chunk) (m : List Byte) (h : m.length = 64) : (hashOf H m).length = 32 := by
  obtain ⟨a, b, _, _, e, _⟩ := hashOf_eq H m h
  rw [e]; exact (H a b).2

section
variable (C : Ctx) (c : Frame) (b : List Frame) (h : List Obj) (inp out : List Byte) (i j : Nat)
theorem library_block : C.library (name% "sha256_1_avx") none [.iter (.glob 1) i, .iter (.glob 0) j] ⟨c, b, sseGlobals inp out, h⟩ = some (
    (bif decide ((0 : Int) ≤ j ∧ (j : Int) ≤ (j : Int) + 64 ∧ (j : Int) + 64 ≤ inp.length) then Res.ok ((inp.drop (j : Int).toNat).take (((j : Int) + 64).toNat - (j : Int).toNat)) else .ub).bind
      fun m => match chunkOf (m.take 32), chunkOf (m.drop 32) with
        | some x, some y => bif decide ((0 : Int) ≤ i ∧ (i : Int) + 32 ≤ out.length) then
            .ok (.void, ⟨c, b, sseGlobals inp (out.take (i : Int).toNat ++ ((C.env.hash x y).1 ++ out.drop ((i : Int).toNat + 32))), h⟩)
          else .ub
        | _, _ => .stuck) := by
  have : C.library (name% "sha256_1_avx") none [.iter (.glob 1) i, .iter (.glob 0) j] ⟨c, b, sseGlobals inp out, h⟩ = some (
    (range? (.iter (.glob 0) j) (.iter (.glob 0) (j + 64)) ⟨c, b, sseGlobals inp out, h⟩).bind
      fun m => match chunkOf (m.take 32), chunkOf (m.drop 32) with
        | some x, some y => bif decide ((0 : Int) ≤ i ∧ (i : Int) + 32 ≤ out.length) then
            .ok (.void, ⟨c, b, sseGlobals inp (out.take (i : Int).toNat ++ ((C.env.hash x y).1 ++ out.drop ((i : Int).toNat + 32))), h⟩)
          else .ub
        | _, _ => .stuck) := rfl
  rw [this, range_glob]
  rfl

theorem library_block_ok (hj : j + 64 ≤ inp.length) (hi : i + 32 ≤ out.length) :
    C.library (name% "sha256_1_avx") none [.iter (.glob 1) i, .iter (.glob 0) j] ⟨c, b, sseGlobals inp out, h⟩ =
      some (.ok (.void, ⟨c, b, sseGlobals inp (out.take i ++ (hashOf C.env.hash ((inp.drop j).take 64) ++ out.drop (i + 32))), h⟩)) := by
  rw [library_block, decide_eq_true (by omega), cond_true, bind_ok]
  rw [show ((j : Int) + 64).toNat - (j : Int).toNat = 64 by omega, show (j : Int).toNat = j from rfl, show (i : Int).toNat = i from rfl]
  obtain ⟨x, y, hx, hy, e, _⟩ := hashOf_eq C.env.hash ((inp.drop j).take 64) (by rw [List.length_take, List.length_drop]; omega)
  rw [hx, hy, e, decide_eq_true (by omega)]
  rfl

theorem library_block_ub (hj : inp.length < j + 64 ∨ out.length < i + 32) :
    C.library (name% "sha256_1_avx") none [.iter (.glob 1) i, .iter (.glob 0) j] ⟨c, b, sseGlobals inp out, h⟩ = some .ub := by
  rw [library_block]
  by_cases hl : j + 64 ≤ inp.length
  · rw [decide_eq_true (by omega), cond_true, bind_ok]
    rw [show ((j : Int) + 64).toNat - (j : Int).toNat = 64 by omega, show (j : Int).toNat = j from rfl, show (i : Int).toNat = i from rfl]
    obtain ⟨x, y, hx, hy, e, _⟩ := hashOf_eq C.env.hash ((inp.drop j).take 64) (by rw [List.length_take, List.length_drop]; omega)
    rw [hx, hy, decide_eq_false (by omega)]
    rfl
  · rw [decide_eq_false (by omega)]
    rfl
end

theorem sse_const (inp out : List Byte) : slotOf (name% "BYTES_PER_CHUNK") (sseGlobals inp out) = some 2 := rfl
theorem sse_value (inp out : List Byte) : getSlot 2 (sseGlobals inp out) = some (.int .u32 32) := rfl

theorem sse_step {out x : List Byte} (i n : Nat) (hx : x.length = 32) (hi : i + 32 ≤ out.length) (y : List Byte) :
    (out.take i ++ (x ++ out.drop (i + 32))).take (i + 32) ++ (y ++ (out.take i ++ (x ++ out.drop (i + 32))).drop (i + 32 + 32 * n)) =
      out.take i ++ (x ++ (y ++ out.drop (i + 32 + 32 * n))) := by
  have ht : (out.take i).length = i := by rw [List.length_take]; omega
  have hl : (out.take i ++ x).length = i + 32 := by rw [List.length_append, ht, hx]
  rw [← List.append_assoc (out.take i), List.take_append_of_le_length (by omega), List.take_of_length_le (by omega),
    List.drop_append, hl, List.drop_of_length_le (by omega), List.nil_append, List.drop_drop, show i + 32 + (i + 32 + 32 * n - (i + 32)) = i + 32 + 32 * n by omega,
    List.append_assoc]

theorem sse_loop (inp : List Byte) (n : Nat) (hn : n < 2 ^ 64) (i j : Nat) (out : List Byte) (hj : j + 64 * n ≤ inp.length) (hi : i + 32 * n ≤ out.length)
    (k : Nat) (hk : n < k) :
    (ctx fs int elem E fuel d).whileLoop (sseF.body.nth 0).cond (sseF.body.nth 0).inner k
      ⟨[(name% "blocks", .int .u64 n), (name% "input", .iter (.glob 0) j), (name% "output", .iter (.glob 1) i)], [[]], sseGlobals inp out, []⟩ =
    .ok (none, ⟨[(name% "blocks", .int .u64 0), (name% "input", .iter (.glob 0) (j + 64 * n : Nat)), (name% "output", .iter (.glob 1) (i + 32 * n : Nat))], [[]],
      sseGlobals inp (out.take i ++ (hashesOf E.hash inp n j ++ out.drop (i + 32 * n))), []⟩) := by
  induction n generalizing i j out k with
  | zero =>
    obtain ⟨k, rfl⟩ : ∃ m, k = m + 1 := ⟨k - 1, by omega⟩
    rw [whileLoop_succ]
    cpp_pred [sseF]
    rw [hashesOf, List.nil_append, Nat.add_zero, List.take_append_drop, Int.add_zero, Int.add_zero]
  | succ n ih =>
    obtain ⟨k, rfl⟩ : ∃ m, k = m + 1 := ⟨k - 1, by omega⟩
    have hb := fun c b h => library_block_ok (ctx fs int elem E fuel d) c b h inp out i j (by omega) (by omega)
    have hlen := length_hashOf E.hash ((inp.drop j).take 64) (by rw [List.length_take, List.length_drop]; omega)
    replace ih := ih (by omega) (i + 32) (j + 64) (out.take i ++ (hashOf E.hash ((inp.drop j).take 64) ++ out.drop (i + 32))) (by omega)
      (by simp only [List.length_append, List.length_take, List.length_drop, hlen]; omega) k (by omega)
    rw [whileLoop_succ]
    cpp_pred [sseF, hb, sse_const, sse_value]
    cpp_pred [sseF] at ih
    cpp_arith []
    rw [show (n : Int) + 1 - 1 = n by omega, show (j : Int) + 2 * 32 = j + 64 by omega, ih, sse_step i n hlen (by omega), hashesOf]
    rw [show (j : Int) + 64 + (64 * n : Nat) = j + (64 * (n + 1) : Nat) by omega, show (i : Int) + 32 + (32 * n : Nat) = i + (32 * (n + 1) : Nat) by omega,
      List.append_assoc, show i + 32 + 32 * n = i + 32 * (n + 1) by omega]

theorem sse_loop_ub (inp : List Byte) (n : Nat) (hn : n < 2 ^ 64) (i j : Nat) (out : List Byte) (h : inp.length < j + 64 * n ∨ out.length < i + 32 * n)
    (hi : i ≤ out.length) (hj : j ≤ inp.length) (k : Nat) (hk : n < k) :
    (ctx fs int elem E fuel d).whileLoop (sseF.body.nth 0).cond (sseF.body.nth 0).inner k
      ⟨[(name% "blocks", .int .u64 n), (name% "input", .iter (.glob 0) j), (name% "output", .iter (.glob 1) i)], [[]], sseGlobals inp out, []⟩ = .ub := by
  induction n generalizing i j out k with
  | zero => omega
  | succ n ih =>
    obtain ⟨k, rfl⟩ : ∃ m, k = m + 1 := ⟨k - 1, by omega⟩
    rw [whileLoop_succ]
    by_cases h' : inp.length < j + 64 ∨ out.length < i + 32
    · have hb := fun c b h => library_block_ub (ctx fs int elem E fuel d) c b h inp out i j h'
      cpp_pred [sseF, hb]
      cpp_arith []
    · have hb := fun c b h => library_block_ok (ctx fs int elem E fuel d) c b h inp out i j (by omega) (by omega)
      have hlen := length_hashOf E.hash ((inp.drop j).take 64) (by rw [List.length_take, List.length_drop]; omega)
      have hl : (out.take i ++ (hashOf E.hash ((inp.drop j).take 64) ++ out.drop (i + 32))).length = out.length := by
        simp only [List.length_append, List.length_take, List.length_drop, hlen]; omega
      replace ih := ih (by omega) (i + 32) (j + 64) (out.take i ++ (hashOf E.hash ((inp.drop j).take 64) ++ out.drop (i + 32))) (by omega) (by omega) (by omega)
        k (by omega)
      cpp_pred [sseF, hb, sse_const, sse_value]
      cpp_pred [sseF] at ih
      cpp_arith []
      rw [show (n : Int) + 1 - 1 = n by omega, show (j : Int) + 2 * 32 = j + 64 by omega, ih]

/-- `Hasher::sha256_sse`. -/
theorem sse_run (inp out : List Byte) (n i j : Nat) (hn : n < 2 ^ 64) (hj : j + 64 * n ≤ inp.length) (hi : i + 32 * n ≤ out.length) (hf : n < fuel) :
    run fs int elem E fuel d sseF [.iter (.glob 1) i, .iter (.glob 0) j, .int .u64 n] (sseGlobals inp out) [] =
      .ok (.void, sseGlobals inp (out.take i ++ (hashesOf E.hash inp n j ++ out.drop (i + 32 * n))), []) := by
  have hl := sse_loop fs int elem E fuel d inp n hn i j out hj hi fuel hf
  cpp_pred [sseF] at hl
  cpp_pred [sseF]
  cpp_arith []
  rw [hl]
  rfl

theorem sse_run_ub (inp out : List Byte) (n i j : Nat) (hn : n < 2 ^ 64) (h : inp.length < j + 64 * n ∨ out.length < i + 32 * n)
    (hi : i ≤ out.length) (hj : j ≤ inp.length) (hf : n < fuel) :
    run fs int elem E fuel d sseF [.iter (.glob 1) i, .iter (.glob 0) j, .int .u64 n] (sseGlobals inp out) [] = .ub := by
  have hl := sse_loop_ub fs int elem E fuel d inp n hn i j out h hi hj fuel hf
  cpp_pred [sseF] at hl
  cpp_pred [sseF]
  cpp_arith []
  rw [hl]
  rfl

end Mammon.Cpp
