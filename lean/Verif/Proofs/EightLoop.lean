import Verif.Proofs.Eight
import Verif.Proofs.OneCall
/-!
# The loop of the eight-lane routine, the call of the four-lane routine, and the contract of `sha256_8_avx2`
-/

namespace Mammon.X86.Eight
open Lane Spec.SHA256

/-! ## Saving and restoring registers in the stack frame -/

/-- Store registers 64 bytes apart. -/
def saveSeq : Nat → List R → List Instr
  | _, [] => []
  | d, r :: rs => .movStore (.reg .rsp d) r :: saveSeq (d + 64) rs

/-- Load registers from places 64 bytes apart. -/
def restSeq : Nat → List R → List Instr
  | _, [] => []
  | d, r :: rs => .movLoad r (.reg .rsp d) :: restSeq (d + 64) rs

theorem saveSeq_spec {env : Env} (hv : env.Valid) {o : Nat} : ∀ (rs : List R) (d : Nat) {s : State}, s.r .rsp = env.ptr .stack o →
    o + d + 64 * rs.length ≤ env.size .stack →
    (exec env (saveSeq d rs) s).r = s.r ∧ (exec env (saveSeq d rs) s).fault = s.fault ∧
    (∀ q, q ≠ .stack → (exec env (saveSeq d rs) s).mem q = s.mem q) ∧
    (∀ i, i < o + d ∨ o + d + 64 * rs.length ≤ i → (exec env (saveSeq d rs) s).mem .stack i = s.mem .stack i) ∧
    ∀ i (h : i < rs.length), readQuad ((exec env (saveSeq d rs) s).mem .stack) (o + d + 64 * i) = s.r rs[i]
  | [], _, _, _, _ => ⟨rfl, rfl, fun _ _ => rfl, fun _ _ => rfl, fun _ h => absurd h (by simp)⟩
  | r :: rs, d, s, hsp, hroom => by
    rw [List.length_cons] at hroom
    rw [saveSeq, exec_cons, step_movStore hv r (r := .stack) (o := o + d) (ea_reg hsp _) (by omega) hv.stack]
    obtain ⟨s1, hs1⟩ : ∃ s1 : State, ({ s with mem := upd s.mem .stack (writeLanes 2 (s.mem .stack) (o + d) (lanes64 (s.r r))) } : State) = s1 :=
      ⟨_, rfl⟩
    have g1 : s1.r = s.r := by rw [← hs1]
    have g2 : s1.mem = upd s.mem .stack (writeLanes 2 (s.mem .stack) (o + d) (lanes64 (s.r r))) := by rw [← hs1]
    have g3 : s1.fault = s.fault := by rw [← hs1]
    rw [hs1]
    clear hs1
    obtain ⟨h1, h2, h3, h4, h5⟩ := saveSeq_spec hv rs (d + 64) (s := s1) (by rw [g1]; exact hsp) (by omega)
    refine ⟨h1.trans g1, h2.trans g3, fun q hq => (h3 q hq).trans (by rw [g2, upd_ne _ _ hq]), fun i hi => ?_, fun i hi => ?_⟩
    · rw [List.length_cons] at hi
      rw [h4 i (by omega), g2, upd_same, writeLanes_outside (by omega)]
    · cases i with
      | zero =>
        refine (readQuad_congr fun a _ _ => h4 a (by omega)).trans ?_
        rw [g2, upd_same]
        exact readQuad_writeLanes _ _ _
      | succ i =>
        have e := h5 i (by simpa using hi)
        rw [g1] at e
        refine Eq.trans ?_ e
        congr 1
        omega

theorem restSeq_spec {env : Env} (hv : env.Valid) {o : Nat} : ∀ (rs : List R) (d : Nat) {s : State}, s.r .rsp = env.ptr .stack o →
    o + d + 64 * rs.length ≤ env.size .stack → R.rsp ∉ rs → rs.Nodup →
    (exec env (restSeq d rs) s).mem = s.mem ∧ (exec env (restSeq d rs) s).fault = s.fault ∧
    (∀ r, r ∉ rs → (exec env (restSeq d rs) s).r r = s.r r) ∧
    ∀ i (h : i < rs.length), (exec env (restSeq d rs) s).r rs[i] = readQuad (s.mem .stack) (o + d + 64 * i)
  | [], _, _, _, _, _, _ => ⟨rfl, rfl, fun _ _ => rfl, fun _ h => absurd h (by simp)⟩
  | r :: rs, d, s, hsp, hroom, hn, hd => by
    rw [List.length_cons] at hroom
    have hn' := not_mem_cons hn
    have hd' := List.nodup_cons.mp hd
    rw [restSeq, exec_cons, step_movLoad hv r (r := .stack) (o := o + d) (ea_reg hsp _) (by omega)]
    obtain ⟨s1, hs1⟩ : ∃ s1 : State, s.setR r (of64 fun l => readWord (s.mem .stack) (o + d + 4 * l)) = s1 := ⟨_, rfl⟩
    have g1 : s1.r = upd s.r r (readQuad (s.mem .stack) (o + d)) := by rw [← hs1]; rfl
    have g2 : s1.mem = s.mem := by rw [← hs1]; rfl
    have g3 : s1.fault = s.fault := by rw [← hs1]; rfl
    rw [hs1]
    clear hs1
    obtain ⟨h1, h2, h3, h4⟩ := restSeq_spec hv rs (d + 64) (s := s1) (by rw [g1, upd_ne _ _ hn'.1]; exact hsp) (by omega) hn'.2 hd'.2
    refine ⟨h1.trans g2, h2.trans g3, fun q hq => ?_, fun i hi => ?_⟩
    · have hq' := not_mem_cons hq
      rw [h3 q hq'.2, g1, upd_ne _ _ hq'.1]
    · cases i with
      | zero => exact (h3 r hd'.1).trans (by rw [g1, upd_same]; rfl)
      | succ i =>
        refine (h4 i (by simpa using hi)).trans ?_
        rw [g2]
        congr 1
        omega

/-! ## The alignment of the stack frame -/

theorem and_mask (a : Nat) : BitVec.ofNat 64 a &&& 0xffffffffffffffe0#64 = BitVec.ofNat 64 (a / 32 * 32) := by
  have hm : ∀ i, i < 64 → (0xffffffffffffffe0#64).getLsbD i = decide (5 ≤ i) := by decide
  apply BitVec.eq_of_getLsbD_eq
  intro i hi
  rw [BitVec.getLsbD_and, hm i hi, BitVec.getLsbD_ofNat, BitVec.getLsbD_ofNat, show a / 32 * 32 = a / 2 ^ 5 * 2 ^ 5 from rfl, Nat.testBit_mul_two_pow,
    Nat.testBit_div_two_pow]
  by_cases h5 : 5 ≤ i
  · rw [Nat.sub_add_cancel h5, decide_eq_true h5]; simp
  · rw [decide_eq_false h5]; simp

theorem step_andLoad {env : Env} (hv : env.Valid) {s : State} (d : R) {a : Addr} {r : Region} {o : Nat}
    (ha : s.ea env a = env.ptr r o) (h : o + 8 ≤ env.size r) :
    step env s (.andLoad d a) = (s.setR d (s.r d &&& of64 fun l => readWord (s.mem r) (o + 4 * l))).clobber := by
  simp only [step, State.vread, ha, canRead_ptr hv (r := r) (o := o) (n := 2) (by decide) (by omega), aligned_dqu,
    read_ptr hv _ (r := r) (o := o) (n := 2) (by decide) (by omega), Bool.and_self, check_true]

theorem mask_eq {env : Env} {mem : Mem} (L : Loaded env mem) : (of64 fun l => readWord (mem .eight) (STACK_MASK + 4 * l)) = 0xffffffffffffffe0#64 := by
  rw [of64, word L (i := 1096) rfl (by decide), word L (i := 1097) rfl (by decide), data_mask.1, data_mask.2]
  rfl

/-- The registers saved in the frame. -/
def kept : List R := [.r12, .r13, .r14, .r15]

theorem entry_eq : entry = [.endbranch64, .push .rbp, .mov .rbp .rsp, .andLoad .rsp (.rel .eight STACK_MASK), .subImm .rsp FRAMESZ] ++
    saveSeq _RSAVE kept := rfl

theorem exit_eq : exit = restSeq _RSAVE kept ++ [.mov .rsp .rbp, .pop .rbp] := rfl

/-- The stack frame is at offset `o`, the return address at offset `t`. -/
structure Fits (env : Env) (t o : Nat) : Prop where
  align : (env.base .stack + o) % 32 = 0
  lo : o + 1160 ≤ t
  hi : t ≤ o + 1191
  top : t + 8 ≤ env.size .stack

theorem exists_frame {env : Env} {t : Nat} (h1 : (env.base .stack + t) % 16 = 8) (h2 : 1720 ≤ t) (h3 : t + 8 ≤ env.size .stack) :
    ∃ o, Fits env t o ∧ (env.base .stack + (t - 8)) / 32 * 32 = env.base .stack + (o + 1152) :=
  ⟨(env.base .stack + (t - 8)) / 32 * 32 - env.base .stack - 1152, ⟨by omega, by omega, by omega, h3⟩, by omega⟩

theorem frame_depth {env : Env} {t o : Nat} (h1 : (env.base .stack + t) % 16 = 8) (h2 : 1720 ≤ t)
    (ho : (env.base .stack + (t - 8)) / 32 * 32 = env.base .stack + (o + 1152)) : 544 ≤ o := by omega

/-- Without a demand on the alignment, 15 more bytes may be lost below the frame. -/
theorem exists_frame_any {env : Env} {t : Nat} (h2 : 1735 ≤ t) (h3 : t + 8 ≤ env.size .stack) :
    ∃ o, Fits env t o ∧ (env.base .stack + (t - 8)) / 32 * 32 = env.base .stack + (o + 1152) :=
  ⟨(env.base .stack + (t - 8)) / 32 * 32 - env.base .stack - 1152, ⟨by omega, by omega, by omega, h3⟩, by omega⟩

/-- The state of the stack frame during the loop; `s0` is the state at the entry of the routine. -/
structure Frame (env : Env) (t o : Nat) (s0 s : State) : Prop where
  rsp : s.r .rsp = env.ptr .stack o
  rbp : s.r .rbp = env.ptr .stack (t - 8)
  rbx : s.r .rbx = s0.r .rbx
  slots : ∀ i (h : i < kept.length), readQuad (s.mem .stack) (o + _RSAVE + 64 * i) = s0.r kept[i]
  slot : readQuad (s.mem .stack) (t - 8) = s0.r .rbp

theorem entry_spec {env : Env} {d t o ii oo n : Nat} {ret : BitVec 64} {s : State} (E : Called env d t ii oo n ret s) (F : Fits env t o)
    (ho : (env.base .stack + (t - 8)) / 32 * 32 = env.base .stack + (o + 1152)) :
    Frame env t o s (exec env entry s) ∧ (exec env entry s).fault = false ∧
    (∀ r, r ≠ .rsp → r ≠ .rbp → (exec env entry s).r r = s.r r) ∧ (∀ q, q ≠ .stack → (exec env entry s).mem q = s.mem q) ∧
    ∀ i, t ≤ i → (exec env entry s).mem .stack i = s.mem .stack i := by
  have hv := E.valid
  have h1 := F.lo
  have h2 := F.hi
  have h3 := F.top
  have hz := size_le E.loaded
  rw [entry_eq, exec_append]
  -- push rbp
  have e1 : exec env [.endbranch64, .push .rbp, .mov .rbp .rsp, .andLoad .rsp (.rel .eight STACK_MASK), .subImm .rsp FRAMESZ] s =
    step env (step env (step env (step env s (.push .rbp)) (.mov .rbp .rsp)) (.andLoad .rsp (.rel .eight STACK_MASK))) (.subImm .rsp FRAMESZ) := rfl
  rw [e1, step_push hv .rbp (o := t - 8) (by rw [Nat.sub_add_cancel (by omega)]; exact E.rsp) (by omega)]
  obtain ⟨s1, hs1⟩ : ∃ s1 : State, ({ s with mem := upd s.mem .stack (writeLanes 2 (s.mem .stack) (t - 8) (lanes64 (s.r .rbp))) } :
    State).setR .rsp (env.ptr .stack (t - 8)) = s1 := ⟨_, rfl⟩
  rw [hs1]
  have a1 : s1.r = upd s.r .rsp (env.ptr .stack (t - 8)) := by rw [← hs1]; rfl
  have a2 : s1.mem = upd s.mem .stack (writeLanes 2 (s.mem .stack) (t - 8) (lanes64 (s.r .rbp))) := by rw [← hs1]; rfl
  have a3 : s1.fault = s.fault := by rw [← hs1]; rfl
  clear hs1 e1
  -- mov rbp, rsp
  obtain ⟨s2, hs2⟩ : ∃ s2 : State, step env s1 (.mov .rbp .rsp) = s2 := ⟨_, rfl⟩
  rw [hs2]
  have b1 : s2.r = upd s1.r .rbp (s1.r .rsp) := by rw [← hs2]; rfl
  have b2 : s2.mem = s1.mem := by rw [← hs2]; rfl
  have b3 : s2.fault = s1.fault := by rw [← hs2]; rfl
  clear hs2
  have L2 : Loaded env s2.mem := E.loaded.congr fun r hr _ _ => by rw [b2, a2, upd_ne _ _ hr]
  have hsp2 : s2.r .rsp = env.ptr .stack (t - 8) := by rw [b1, upd_ne _ _ (by decide), a1, upd_same]
  -- and rsp, mask
  rw [step_andLoad hv .rsp (r := .eight) (o := STACK_MASK) (ea_rel _ _ _ _) (by simp only [STACK_MASK]; omega), mask_eq L2, hsp2]
  have hm : env.ptr .stack (t - 8) &&& 0xffffffffffffffe0#64 = env.ptr .stack (o + 1152) := by
    rw [Env.ptr, and_mask, ho]; rfl
  rw [hm]
  obtain ⟨s3, hs3⟩ : ∃ s3 : State, (s2.setR .rsp (env.ptr .stack (o + 1152))).clobber = s3 := ⟨_, rfl⟩
  rw [hs3]
  have c1 : s3.r = upd s2.r .rsp (env.ptr .stack (o + 1152)) := by rw [← hs3]; rfl
  have c2 : s3.mem = s2.mem := by rw [← hs3]; rfl
  have c3 : s3.fault = s2.fault := by rw [← hs3]; rfl
  clear hs3
  -- sub rsp, FRAMESZ
  obtain ⟨s4, hs4⟩ : ∃ s4 : State, step env s3 (.subImm .rsp FRAMESZ) = s4 := ⟨_, rfl⟩
  rw [hs4]
  have d1 : s4.r = upd s3.r .rsp (s3.r .rsp - BitVec.ofNat 64 1152) := by rw [← hs4]; rfl
  have d2 : s4.mem = s3.mem := by rw [← hs4]; rfl
  have d3 : s4.fault = s3.fault := by rw [← hs4]; rfl
  clear hs4
  have hsp4 : s4.r .rsp = env.ptr .stack o := by
    rw [d1, upd_same, c1, upd_same, ptr_sub env .stack _ _ (by omega), Nat.add_sub_cancel]
  have hr4 : ∀ r, r ≠ .rsp → r ≠ .rbp → s4.r r = s.r r := fun r hr hb => by
    rw [d1, upd_ne _ _ hr, c1, upd_ne _ _ hr, b1, upd_ne _ _ hb, a1, upd_ne _ _ hr]
  have hbp4 : s4.r .rbp = env.ptr .stack (t - 8) := by
    rw [d1, upd_ne _ _ (by decide), c1, upd_ne _ _ (by decide), b1, upd_same, a1, upd_same]
  have hm4 : s4.mem = upd s.mem .stack (writeLanes 2 (s.mem .stack) (t - 8) (lanes64 (s.r .rbp))) := by rw [d2, c2, b2, a2]
  -- the other registers
  have hlen : kept.length = 4 := rfl
  obtain ⟨k1, k2, k3, k4, k5⟩ := saveSeq_spec hv kept _RSAVE (s := s4) hsp4 (by rw [hlen]; simp only [_RSAVE]; omega)
  generalize exec env (saveSeq _RSAVE kept) s4 = s5 at k1 k2 k3 k4 k5 ⊢
  refine ⟨⟨by rw [k1]; exact hsp4, by rw [k1]; exact hbp4, by rw [k1]; exact hr4 _ (by decide) (by decide), fun i hi => ?_, ?_⟩,
    by rw [k2, d3, c3, b3, a3]; exact E.fault, fun r hr hb => by rw [k1]; exact hr4 r hr hb, fun q hq => ?_, fun i hi => ?_⟩
  · rw [k5 i hi]
    refine hr4 _ ?_ ?_
    · revert i; decide
    · revert i; decide
  · refine (readQuad_congr fun a _ _ => k4 a (by rw [hlen]; simp only [_RSAVE]; omega)).trans ?_
    rw [hm4, upd_same, readQuad_writeLanes]
  · rw [k3 q hq, hm4, upd_ne _ _ hq]
  · rw [k4 i (by rw [hlen]; simp only [_RSAVE]; omega), hm4, upd_same, writeLanes_outside (by omega)]

theorem exit_spec {env : Env} {t o : Nat} {s0 s : State} (hv : env.Valid) (F : Fits env t o) (h : Frame env t o s0 s) :
    (exec env exit s).mem = s.mem ∧ (exec env exit s).fault = s.fault ∧ (exec env exit s).r .rsp = env.ptr .stack t ∧
    ∀ r ∈ calleeSaved, (exec env exit s).r r = s0.r r := by
  have h1 := F.lo
  have h3 := F.top
  have hlen : kept.length = 4 := rfl
  rw [exit_eq, exec_append]
  obtain ⟨k1, k2, k3, k4⟩ := restSeq_spec hv kept _RSAVE (s := s) h.rsp (by rw [hlen]; simp only [_RSAVE]; omega) (by decide) (by decide)
  generalize exec env (restSeq _RSAVE kept) s = s1 at k1 k2 k3 k4 ⊢
  rw [exec_cons, exec_cons, exec_nil]
  obtain ⟨s2, hs2⟩ : ∃ s2 : State, step env s1 (.mov .rsp .rbp) = s2 := ⟨_, rfl⟩
  rw [hs2]
  have b1 : s2.r = upd s1.r .rsp (s1.r .rbp) := by rw [← hs2]; rfl
  have b2 : s2.mem = s1.mem := by rw [← hs2]; rfl
  have b3 : s2.fault = s1.fault := by rw [← hs2]; rfl
  clear hs2
  have hsp : s2.r .rsp = env.ptr .stack (t - 8) := by rw [b1, upd_same, k3 _ (by decide), h.rbp]
  rw [step_pop hv .rbp hsp (by omega)]
  obtain ⟨s3, hs3⟩ : ∃ s3 : State, (s2.setR .rsp (env.ptr .stack (t - 8 + 8))).setR .rbp (of64 fun l => readWord (s2.mem .stack) (t - 8 + 4 * l)) = s3 :=
    ⟨_, rfl⟩
  rw [hs3]
  have c1 : s3.r = upd (upd s2.r .rsp (env.ptr .stack (t - 8 + 8))) .rbp (readQuad (s2.mem .stack) (t - 8)) := by rw [← hs3]; rfl
  have c2 : s3.mem = s2.mem := by rw [← hs3]; rfl
  have c3 : s3.fault = s2.fault := by rw [← hs3]; rfl
  clear hs3
  refine ⟨by rw [c2, b2, k1], by rw [c3, b3, k2], by rw [c1, upd_ne _ _ (by decide), upd_same, Nat.sub_add_cancel (by omega)], fun r hr => ?_⟩
  have key : ∀ i (hi : i < kept.length), s1.r kept[i] = s0.r kept[i] := fun i hi => (k4 i hi).trans (h.slots i hi)
  have hne : r ≠ .rsp := by revert r; decide
  by_cases hb : r = .rbp
  · rw [hb, c1, upd_same, b2, k1]; exact h.slot
  · rw [c1, upd_ne _ _ hb, upd_ne _ _ hne, b1, upd_ne _ _ hne]
    simp only [calleeSaved, List.mem_cons, List.not_mem_nil, or_false] at hr
    rcases hr with e | e | e | e | e | e <;> subst e
    · rw [k3 _ (by decide), h.rbx]
    · exact absurd rfl hb
    · exact key 0 (by decide)
    · exact key 1 (by decide)
    · exact key 2 (by decide)
    · exact key 3 (by decide)

/-! ## The loop -/

/-- The invariant of the loop. -/
structure EInv (env : Env) (t o ii oo k n : Nat) (s0 s : State) : Prop extends Prog env .rax t ii oo k n s0 s, Frame env t o s0 s

theorem EInv.batch {env : Env} {t o ii oo k n m : Nat} {s0 s s' : State} (F : Fits env t o) (h : EInv env t o ii oo k n s0 s)
    (hb : Batch env m .rax o 896 (ii + 64 * k) (oo + 32 * k) s s') (hm : k + m ≤ n) : EInv env t o ii oo (k + m) n s0 s' := by
  have h1 := F.lo
  refine ⟨h.toProg.batch hb hm (by omega), ⟨(hb.regs .rsp (by decide) (by decide)).trans h.rsp, (hb.regs .rbp (by decide) (by decide)).trans h.rbp,
    (hb.regs .rbx (by decide) (by decide)).trans h.rbx, fun i hi => ?_, ?_⟩⟩
  · rw [← h.slots i hi]
    exact readQuad_congr fun a h1 h2 => hb.stack a (by simp only [_RSAVE] at h1; omega)
  · rw [← h.slot]
    exact readQuad_congr fun a h1 h2 => hb.stack a (by omega)

theorem EInv.congr {env : Env} {t o ii oo k n : Nat} {s0 s s' : State} (h : EInv env t o ii oo k n s0 s) (h1 : s'.r = s.r) (h2 : s'.mem = s.mem)
    (h3 : s'.fault = s.fault) : EInv env t o ii oo k n s0 s' := by
  refine ⟨⟨h3.trans h.fault, h.le, ?_, ?_, ?_, ?_, ?_, ?_, ?_⟩, ⟨?_, ?_, ?_, ?_, ?_⟩⟩ <;> simp only [h1, h2]
  · exact h.rsi
  · exact h.rdi
  · exact h.rdx
  · exact h.other
  · exact h.stack
  · exact h.output
  · exact h.hash
  · exact h.rsp
  · exact h.rbp
  · exact h.rbx
  · exact h.slots
  · exact h.slot

/-- The environment of a call, as far as it does not change. -/
structure Ctx (env : Env) (t o ii oo n : Nat) (s0 : State) : Prop extends Fits env t o where
  valid : env.Valid
  loaded : Loaded env s0.mem
  depth : 544 ≤ o
  input : ii + 64 * n ≤ env.size .input
  output : oo + 32 * n ≤ env.size .output
  small : n < 2 ^ 63

/-- The test at the head of the loop. -/
theorem loop_test {env : Env} {t o ii oo n k : Nat} {s0 s : State} (cs : List Label) (C : Ctx env t o ii oo n s0) (h : EInv env t o ii oo k n s0 s) :
    ∃ s1, Steps env X86.code [.eightLoop] (.run .eightLoop cs s) (.run (if n - k < 8 then .eightTail else .eightBlocks) cs s1) ∧ EInv env t o ii oo k n s0 s1 := by
  have r1 : Steps env X86.code [.eightLoop] (.run .eightLoop cs s) (finish env cs (step env s (.cmpImm .rdx 8)) (.jl .eightTail .eightBlocks)) :=
    Steps.one (advance_run (b := [.cmpImm .rdx 8]) (tm := .jl .eightTail .eightBlocks) rfl rfl h.fault)
  have hs := C.small
  rw [finish_jl_cmp, h.rdx, Four.slt_ofNat (by omega) (by decide)] at r1
  simp only [decide_eq_true_eq] at r1
  exact ⟨_, r1, h.congr rfl rfl rfl⟩

/-- Eight blocks. -/
theorem loop_batch {env : Env} {t o ii oo n k : Nat} {s0 s : State} (cs : List Label) (C : Ctx env t o ii oo n s0) (h : EInv env t o ii oo k n s0 s)
    (hk : ¬ n - k < 8) :
    ∃ s1, Steps env X86.code eightBatch.tail (.run .eightBlocks cs s) (.run .eightLoop cs s1) ∧ EInv env t o ii oo (k + 8) n s0 s1 := by
  have hle := h.le
  have hi := C.input
  have ho := C.output
  have ht := C.top
  have hlo := C.lo
  have hal := C.align
  obtain ⟨s2, r2, hb⟩ := Eight.batch (cs := cs) C.valid (C.loaded.congr fun r h2 h3 _ => h.other r h2 h3) h.fault h.rsp (by omega) hal
    h.rsi h.rdi (by omega) (by omega)
  exact ⟨s2, r2, h.batch C.toFits hb (by omega)⟩

theorem loop {env : Env} {t o ii oo n : Nat} {s0 : State} {cs : List Label} (C : Ctx env t o ii oo n s0) : ∀ (f k : Nat) {s : State},
    n - k < f → EInv env t o ii oo k n s0 s →
    ∃ s', Steps env X86.code (rep ((n - k) / 8) eightBatch ++ [.eightLoop]) (.run .eightLoop cs s) (.run .eightTail cs s') ∧ EInv env t o ii oo (k + 8 * ((n - k) / 8)) n s0 s'
  | 0, _, _, hf, _ => absurd hf (Nat.not_lt_zero _)
  | f + 1, k, s, hf, h => by
    obtain ⟨s1, r1, h1⟩ := loop_test cs C h
    by_cases hk : n - k < 8
    · rw [if_pos hk] at r1
      rw [Nat.div_eq_of_lt hk]
      exact ⟨s1, r1, h1⟩
    · rw [if_neg hk] at r1
      obtain ⟨s2, r2, h2⟩ := loop_batch cs C h1 hk
      obtain ⟨s', r3, h3⟩ := loop C f (k + 8) (s := s2) (by omega) h2
      have e : (n - k) / 8 = (n - (k + 8)) / 8 + 1 := by omega
      rw [e]
      exact ⟨s', ((r1.trans r2).trans r3).cast (by rw [rep_succ]; rfl), (by rw [show k + 8 * ((n - (k + 8)) / 8 + 1) = k + 8 + 8 * ((n - (k + 8)) / 8) by omega]; exact h3)⟩

/-- The call of the four-lane routine. -/
theorem tail_call {env : Env} {t u ii oo n k : Nat} {s0 s : State} {cs : List Label} (C : Ctx env t (u + 8) ii oo n s0)
    (h : EInv env t (u + 8) ii oo k n s0 s) :
    ∃ s1, Steps env X86.code [.eightTail] (.run .eightTail cs s) (.run .four (.eightBack :: cs) s1) ∧ (∀ r, r ≠ .rsp → s1.r r = s.r r) ∧
      (∀ r, r ≠ .stack → s1.mem r = s.mem r) ∧ (∀ i, u + 8 ≤ i → s1.mem .stack i = s.mem .stack i) ∧
      Entry env 536 u (ii + 64 * k) (oo + 32 * k) (n - k) (retTo env (.eightBack :: cs)) s1 := by
  have hd := C.depth
  have hlo := C.lo
  have htop := C.top
  have hal := C.align
  have hle := h.le
  have hin := C.input
  have hout := C.output
  have hsm := C.small
  have r1 : Steps env X86.code [.eightTail] (.run .eightTail cs s) (finish env cs s (.call .four .eightBack)) :=
    Steps.one (advance_run (b := []) (tm := .call .four .eightBack) rfl rfl h.fault)
  rw [finish_call C.valid h.fault h.rsp (by omega)] at r1
  obtain ⟨s1, hs1⟩ : ∃ s1 : State, ({ s with mem := upd s.mem .stack (writeLanes 2 (s.mem .stack) u (lanes64 (env.codeAddr .eightBack))) } :
    State).setR .rsp (env.ptr .stack u) = s1 := ⟨_, rfl⟩
  rw [hs1] at r1
  have g1 : s1.r = upd s.r .rsp (env.ptr .stack u) := by rw [← hs1]; rfl
  have g2 : s1.mem = upd s.mem .stack (writeLanes 2 (s.mem .stack) u (lanes64 (env.codeAddr .eightBack))) := by rw [← hs1]; rfl
  have g3 : s1.fault = s.fault := by rw [← hs1]; rfl
  clear hs1
  have gm : ∀ r, r ≠ .stack → s1.mem r = s.mem r := fun r h => by rw [g2, upd_ne _ _ h]
  have gs : ∀ i, u + 8 ≤ i → s1.mem .stack i = s.mem .stack i := fun i h => by rw [g2, upd_same, writeLanes_outside (by omega)]
  have gr : ∀ r, r ≠ .rsp → s1.r r = s.r r := fun r h => by rw [g1, upd_ne _ _ h]
  have hE : Entry env 536 u (ii + 64 * k) (oo + 32 * k) (n - k) (retTo env (.eightBack :: cs)) s1 := by
    refine ⟨⟨C.valid, C.loaded.congr fun r h2 h3 _ => (gm r h2).trans (h.other r h2 h3), g3.trans h.fault, by rw [g1, upd_same], by omega,
      by omega, ?_, (gr _ (by decide)).trans h.rdi, (gr _ (by decide)).trans h.rsi, by omega, by omega⟩, by omega⟩
    rw [g2, upd_same]
    exact readQuad_writeLanes _ _ _
  exact ⟨s1, r1, gr, gm, gs, hE⟩

/-- The call of the four-lane routine for the remaining blocks. -/
theorem tail {env : Env} {t o ii oo n k : Nat} {s0 s : State} {cs : List Label} (C : Ctx env t o ii oo n s0) (h : EInv env t o ii oo k n s0 s) :
    ∃ s', Steps env X86.code (.eightTail :: fourPath (n - k)) (.run .eightTail cs s) (.run .eightBack cs s') ∧ s'.fault = false ∧ Frame env t o s0 s' ∧
      (∀ r, r ≠ .stack → r ≠ .output → s'.mem r = s0.mem r) ∧ (∀ i, t ≤ i → s'.mem .stack i = s0.mem .stack i) ∧
      (∀ i, i < oo ∨ oo + 32 * n ≤ i → s'.mem .output i = s0.mem .output i) ∧
      ∀ l, l < n → bytesAt (s'.mem .output) (oo + 32 * l) 32 = sha256 (bytesAt (s0.mem .input) (ii + 64 * l) 64) := by
  have hd := C.depth
  have hlo := C.lo
  have htop := C.top
  have hal := C.align
  have hle := h.le
  have hin := C.input
  have hout := C.output
  have hsm := C.small
  obtain ⟨u, rfl⟩ : ∃ u, o = u + 8 := ⟨o - 8, by omega⟩
  obtain ⟨s1, r1, gr, gm, gs, hE⟩ := tail_call (cs := cs) C h
  obtain ⟨s2, r2, hX⟩ := four_spec hE ((gr _ (by decide)).trans h.rdx) (by omega)
  have hst : ∀ i, u + 8 ≤ i → s2.mem .stack i = s.mem .stack i := fun i hi => (hX.stack i (by omega)).trans (gs i hi)
  refine ⟨s2, r1.trans r2, hX.fault, ⟨hX.rsp, ?_, ?_, fun i hi => ?_, ?_⟩, fun r h1 h2 => ?_, fun i hi => ?_, fun i hi => ?_, fun l hl => ?_⟩
  · rw [hX.saved _ (by decide), gr _ (by decide)]; exact h.rbp
  · rw [hX.saved _ (by decide), gr _ (by decide)]; exact h.rbx
  · rw [← h.slots i hi]
    exact readQuad_congr fun a h1 _ => hst a (by omega)
  · rw [← h.slot]
    exact readQuad_congr fun a h1 _ => hst a (by omega)
  · rw [hX.other r h2 h1 (by simp), gm r h1]; exact h.other r h1 h2
  · rw [hst i (by omega)]; exact h.stack i hi
  · rw [hX.output i (by omega), gm _ (by decide)]; exact h.output i (by omega)
  · by_cases hlk : l < k
    · rw [← h.hash l hlk]
      refine bytesAt_congr fun i _ hi => ?_
      rw [hX.output i (by omega), gm _ (by decide)]
    · have e := hX.hash (l - k) (by omega)
      rw [gm .input (by decide), h.other .input (by decide) (by decide)] at e
      rw [show oo + 32 * l = oo + 32 * k + 32 * (l - k) by omega, show ii + 64 * l = ii + 64 * k + 64 * (l - k) by omega]
      exact e

end Mammon.X86.Eight

namespace Mammon.X86
open Eight

/-- The entry of `sha256_8_avx2`. -/
theorem eight_entry {env : Env} {cs : List Label} {s : State} {d t o ii oo n : Nat} (E : Called env d t ii oo n (retTo env cs) s)
    (hdx : s.r .rdx = BitVec.ofNat 64 n) (F : Fits env t o)
    (ho : (env.base .stack + (t - 8)) / 32 * 32 = env.base .stack + (o + 1152)) :
    Steps env code [.eight] (.run .eight cs s) (.run .eightLoop cs (exec env entry s)) ∧ EInv env t o ii oo 0 n s (exec env entry s) := by
  obtain ⟨p1, p2, p3, p4, p5⟩ := entry_spec E F ho
  exact ⟨Steps.one (advance_run (b := entry) (tm := .goto .eightLoop) rfl rfl p2),
    ⟨⟨p2, by omega, (p3 _ (by decide) (by decide)).trans E.rsi, (p3 _ (by decide) (by decide)).trans E.rdi, (p3 _ (by decide) (by decide)).trans hdx,
      fun r h _ => p4 r h, p5, fun i _ => congrFun (p4 .output (by decide)) i, fun l hl => absurd hl (by omega)⟩, p1⟩⟩

/-- The contract of `sha256_8_avx2`, for a given place of the frame. -/
theorem eight_at {env : Env} {cs : List Label} {s : State} {d t o ii oo n : Nat}
    (E : Called env d t ii oo n (retTo env cs) s) (hdx : s.r .rdx = BitVec.ofNat 64 n) (hn : n < 2 ^ 63) (F : Fits env t o)
    (ho : (env.base .stack + (t - 8)) / 32 * 32 = env.base .stack + (o + 1152)) (hb : 544 ≤ o) :
    ∃ s', Steps env code (eightPath n) (.run .eight cs s) (back s' cs) ∧ Exit env [] t ii oo n s s' := by
  have hlo := F.lo
  have C : Ctx env t o ii oo n s := ⟨F, E.valid, E.loaded, hb, E.input, E.output, hn⟩
  obtain ⟨r1, hI⟩ := eight_entry E hdx F ho
  obtain ⟨s2, r2, h2⟩ := loop (cs := cs) C (n + 1) 0 (by omega) hI
  obtain ⟨s3, r3, q1, q2, q3, q4, q5, q6⟩ := tail (cs := cs) C h2
  obtain ⟨m1, m2, m3, m4⟩ := exit_spec E.valid F q2
  obtain ⟨s4, e4⟩ : ∃ s4, exec env exit s3 = s4 := ⟨_, rfl⟩
  rw [e4] at m1 m2 m3 m4
  have hf4 : s4.fault = false := m2.trans q1
  have hret : of64 (fun l => readWord (s4.mem .stack) (t + 4 * l)) = retTo env cs := by
    rw [m1, ← E.ret]
    exact readQuad_congr fun i hi _ => q4 i hi
  have r4 : Steps env code [.eightBack] (.run .eightBack cs s3) (back (s4.setR .rsp (env.ptr .stack (t + 8))) cs) :=
    Steps.one ((advance_run (b := exit) (tm := .ret) rfl e4 hf4).trans (finish_ret E.valid hf4 m3 E.top hret))
  refine ⟨_, (((r1.trans r2).trans r3).trans r4).cast (by
    rw [show n - (0 + 8 * ((n - 0) / 8)) = n % 8 by omega, Nat.sub_zero, eightPath]; simp), hf4, upd_same s4.r .rsp (env.ptr .stack (t + 8)), fun r hr => ?_, fun i hi => ?_, fun p hp => ?_,
    fun p hp => ?_, fun r h1 h2 _ => ?_⟩
  · show upd s4.r .rsp _ r = _
    rw [upd_ne _ _ (by revert r; decide)]
    exact m4 r hr
  · show bytesAt (s4.mem .output) _ _ = _
    rw [m1]; exact q6 i hi
  · show s4.mem .output p = _
    rw [m1]; exact q5 p hp
  · show s4.mem .stack p = _
    rw [m1]; exact q4 p hp
  · show s4.mem r = _
    rw [m1]; exact q3 r h2 h1

/-- The contract of `sha256_8_avx2`. -/
theorem eight_spec {env : Env} {cs : List Label} {s : State} {t ii oo n : Nat}
    (E : Entry env 1720 t ii oo n (retTo env cs) s) (hdx : s.r .rdx = BitVec.ofNat 64 n) (hn : n < 2 ^ 63) :
    ∃ s', Steps env code (eightPath n) (.run .eight cs s) (back s' cs) ∧ Exit env [] t ii oo n s s' := by
  obtain ⟨o, F, ho⟩ := exists_frame E.align E.depth E.top
  exact eight_at E.toCalled hdx hn F ho (frame_depth E.align E.depth ho)

/-- The same without a demand on the alignment of the stack. -/
theorem eight_unaligned {env : Env} {cs : List Label} {s : State} {t ii oo n : Nat}
    (E : Called env 1735 t ii oo n (retTo env cs) s) (hdx : s.r .rdx = BitVec.ofNat 64 n) (hn : n < 2 ^ 63) :
    ∃ s', Steps env code (eightPath n) (.run .eight cs s) (back s' cs) ∧ Exit env [] t ii oo n s s' := by
  have hd := E.depth
  obtain ⟨o, F, ho⟩ := exists_frame_any hd E.top
  have := F.hi
  exact eight_at E hdx hn F ho (by omega)

end Mammon.X86
