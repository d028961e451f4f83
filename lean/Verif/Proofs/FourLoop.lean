import Verif.Proofs.Four
/-!
# The loops of the four-lane routine, the calls of the one-block routine, and the contract of `sha256_4_avx`
-/

namespace Mammon.X86
open Spec.SHA256

/-- `k` of `n` blocks have been hashed; `s0` is the state at the entry of the routine. -/
structure Prog (env : Env) (rd : R) (t ii oo k n : Nat) (s0 s : State) : Prop where
  fault : s.fault = false
  le : k ≤ n
  rsi : s.r .rsi = env.ptr .input (ii + 64 * k)
  rdi : s.r .rdi = env.ptr .output (oo + 32 * k)
  rdx : s.r .rdx = BitVec.ofNat 64 (n - k)
  other : ∀ r, r ≠ .stack → r ≠ .output → s.mem r = s0.mem r
  stack : ∀ i, t ≤ i → s.mem .stack i = s0.mem .stack i
  output : ∀ i, i < oo ∨ oo + 32 * k ≤ i → s.mem .output i = s0.mem .output i
  hash : ∀ l, l < k → bytesAt (s.mem .output) (oo + 32 * l) 32 = sha256 (bytesAt (s0.mem .input) (ii + 64 * l) 64)

theorem ofNat_sub_ofNat {a b : Nat} (h : b ≤ a) : BitVec.ofNat 64 a - BitVec.ofNat 64 b = BitVec.ofNat 64 (a - b) := by
  obtain ⟨c, rfl⟩ := Nat.exists_eq_add_of_le h
  rw [BitVec.ofNat_add, Nat.add_sub_cancel_left, BitVec.add_comm, BitVec.add_sub_cancel]

theorem Prog.batch {env : Env} {rd : R} {t ii oo k n m o hi : Nat} {s0 s s' : State} (h : Prog env rd t ii oo k n s0 s)
    (hb : Batch env m rd o hi (ii + 64 * k) (oo + 32 * k) s s') (hm : k + m ≤ n) (hs : o + hi ≤ t) : Prog env rd t ii oo (k + m) n s0 s' := by
  refine ⟨hb.fault, hm, ?_, ?_, ?_, fun r h1 h2 => (hb.other r h1 h2).trans (h.other r h1 h2),
    fun i hi => (hb.stack i (by omega)).trans (h.stack i hi), fun i hi => (hb.output i (by omega)).trans (h.output i (by omega)), fun l hl => ?_⟩
  · rw [hb.rsi]; congr 1; omega
  · rw [hb.rdi]; congr 1; omega
  · rw [hb.rdx, h.rdx, ofNat_sub_ofNat (by omega)]; congr 1; omega
  · by_cases hlk : l < k
    · rw [← h.hash l hlk]
      exact bytesAt_congr fun i _ hi => hb.output i (by omega)
    · have e := hb.hash (l - k) (by omega)
      rw [h.other .input (by decide) (by decide)] at e
      rw [show oo + 32 * l = oo + 32 * k + 32 * (l - k) by omega, show ii + 64 * l = ii + 64 * k + 64 * (l - k) by omega]
      exact e

/-- What the four-lane routine relies on when it calls the one-block routine: the contract of a call of one block, and besides that `rdi`, `rsi`
and `rdx` keep their values. -/
def OneSpec (env : Env) : Prop := ∀ cs s t ii oo, Entry env 120 t ii oo 1 (retTo env cs) s →
  ∃ s', Steps env code [.one] (.run .one cs s) (back s' cs) ∧ Exit env [] t ii oo 1 s s' ∧
    s'.r .rdi = s.r .rdi ∧ s'.r .rsi = s.r .rsi ∧ s'.r .rdx = s.r .rdx

end Mammon.X86

namespace Mammon.X86.Four
open Lane Spec.SHA256

/-- A call of the one-block routine, and moving on. -/
theorem one_call {env : Env} (hone : OneSpec env) {cs : List Label} {s : State} {o p q : Nat} (hv : env.Valid) (L : Loaded env s.mem)
    (hf : s.fault = false) (hsp : s.r .rsp = env.ptr .stack o) (hroom : o ≤ env.size .stack) (hlo : 128 ≤ o)
    (hal : (env.base .stack + o) % 16 = 0)
    (hsi : s.r .rsi = env.ptr .input p) (hdi : s.r .rdi = env.ptr .output q) (hin : p + 64 ≤ env.size .input)
    (hout : q + 32 ≤ env.size .output) :
    ∃ s', Steps env X86.code fourSingle.tail (.run .fourCall cs s) (.run .fourTail cs s') ∧ Batch env 1 .rbx 0 o p q s s' := by
  obtain ⟨u, rfl⟩ : ∃ u, o = u + 8 := ⟨o - 8, by omega⟩
  have r1 : Steps env X86.code [.fourCall] (.run .fourCall cs s) (finish env cs s (.call .one .fourBack)) :=
    Steps.one (advance_run (b := []) (tm := .call .one .fourBack) rfl rfl hf)
  rw [finish_call hv hf hsp hroom] at r1
  obtain ⟨s1, hs1⟩ : ∃ s1 : State, ({ s with mem := upd s.mem .stack (writeLanes 2 (s.mem .stack) u (lanes64 (env.codeAddr .fourBack))) } :
    State).setR .rsp (env.ptr .stack u) = s1 := ⟨_, rfl⟩
  rw [hs1] at r1
  have g1 : s1.r = upd s.r .rsp (env.ptr .stack u) := by rw [← hs1]; rfl
  have g2 : s1.mem = upd s.mem .stack (writeLanes 2 (s.mem .stack) u (lanes64 (env.codeAddr .fourBack))) := by rw [← hs1]; rfl
  have g3 : s1.fault = s.fault := by rw [← hs1]; rfl
  clear hs1
  have gm : ∀ r, r ≠ .stack → s1.mem r = s.mem r := fun r h => by rw [g2, upd_ne _ _ h]
  have gs : ∀ i, u + 8 ≤ i → s1.mem .stack i = s.mem .stack i := fun i h => by rw [g2, upd_same, writeLanes_outside (by omega)]
  have gr : ∀ r, r ≠ .rsp → s1.r r = s.r r := fun r h => by rw [g1, upd_ne _ _ h]
  have hE : Entry env 120 u p q 1 (retTo env (.fourBack :: cs)) s1 := by
    refine ⟨⟨hv, L.congr fun r h _ _ => gm r h, g3.trans hf, by rw [g1, upd_same], by omega, hroom, ?_,
      (gr _ (by decide)).trans hdi, (gr _ (by decide)).trans hsi, hin, hout⟩, by omega⟩
    rw [g2, upd_same]
    exact readQuad_writeLanes _ _ _
  obtain ⟨s2, r2, hX, e1, e2, e3⟩ := hone _ _ _ _ _ hE
  have r3 : Steps env X86.code [.fourBack] (.run .fourBack cs s2) (.run .fourTail cs (exec env [.addImm .rsi 64, .addImm .rdi 32, .dec .rdx] s2)) :=
    Steps.one (advance_run (b := [.addImm .rsi 64, .addImm .rdi 32, .dec .rdx]) (tm := .goto .fourTail) rfl rfl hX.fault)
  refine ⟨_, (r1.trans r2).trans r3, hX.fault, fun r hr hb => ?_, ?_, ?_, ?_, fun r h h' => ?_, fun i hi => ?_, fun i hi => ?_, fun l hl => ?_⟩
  · have hr' : r ≠ .rdx ∧ r ≠ .rdi ∧ r ≠ .rsi := by revert r; decide
    have h' : (exec env [.addImm .rsi 64, .addImm .rdi 32, .dec .rdx] s2).r r = s2.r r :=
      ((upd_ne _ _ hr'.1).trans (upd_ne _ _ hr'.2.1)).trans (upd_ne _ _ hr'.2.2)
    rw [h']
    rcases List.mem_cons.mp hr with rfl | hr
    · rw [hX.rsp, hsp]
    · rw [hX.saved r hr, gr]
      clear hr' h' hb
      revert r; decide
  · show s2.r .rsi + BitVec.ofNat 64 64 = _
    rw [e2, gr _ (by decide), hsi, ptr_add]
  · show s2.r .rdi + BitVec.ofNat 64 32 = _
    rw [e1, gr _ (by decide), hdi, ptr_add]
  · show s2.r .rdx - 1 = _
    rw [e3, gr _ (by decide)]; rfl
  · exact (hX.other r h' h (by simp)).trans (gm r h)
  · exact (hX.stack i (by omega)).trans (gs i (by omega))
  · exact (hX.output i hi).trans (congrFun (gm .output (by decide)) i)
  · refine (hX.hash l hl).trans ?_
    rw [gm .input (by decide)]

/-- The invariant of the loops: the frame is at offset `t - 408`, the saved `rbx` is in its slot. -/
structure FInv (env : Env) (t ii oo k n : Nat) (s0 s : State) : Prop extends Prog env .rbx t ii oo k n s0 s where
  rsp : s.r .rsp = env.ptr .stack (t - 408)
  regs : ∀ r ∈ [R.rbp, .r12, .r13, .r14, .r15], s.r r = s0.r r
  slot : readQuad (s.mem .stack) (t - 408 + 384) = s0.r .rbx

theorem FInv.batch {env : Env} {t ii oo k n m o hi : Nat} {s0 s s' : State} (h : FInv env t ii oo k n s0 s)
    (hb : Batch env m .rbx o hi (ii + 64 * k) (oo + 32 * k) s s') (hm : k + m ≤ n) (ht : 408 ≤ t) (hs : o + hi ≤ t - 408 + 384) :
    FInv env t ii oo (k + m) n s0 s' := by
  refine ⟨h.toProg.batch hb hm (by omega), (hb.regs .rsp (by decide) (by decide)).trans h.rsp,
    fun r hr => (hb.regs r ?_ ?_).trans (h.regs r hr), ?_⟩
  · revert r; decide
  · revert r; decide
  · rw [← h.slot]
    exact readQuad_congr fun i h1 h2 => hb.stack i (by omega)

theorem FInv.congr {env : Env} {t ii oo k n : Nat} {s0 s s' : State} (h : FInv env t ii oo k n s0 s) (h1 : s'.r = s.r) (h2 : s'.mem = s.mem)
    (h3 : s'.fault = s.fault) : FInv env t ii oo k n s0 s' := by
  refine ⟨⟨h3.trans h.fault, h.le, ?_, ?_, ?_, ?_, ?_, ?_, ?_⟩, ?_, ?_, ?_⟩ <;> simp only [h1, h2]
  · exact h.rsi
  · exact h.rdi
  · exact h.rdx
  · exact h.other
  · exact h.stack
  · exact h.output
  · exact h.hash
  · exact h.rsp
  · exact h.regs
  · exact h.slot

theorem slt_ofNat {a b : Nat} (ha : a < 2 ^ 63) (hb : b < 2 ^ 63) : (BitVec.ofNat 64 a).slt (BitVec.ofNat 64 b) = decide (a < b) := by
  have h : ∀ c, c < 2 ^ 63 → (BitVec.ofNat 64 c).toInt = (c : Int) := fun c hc => by
    rw [BitVec.toInt_eq_toNat_of_lt]
    · rw [BitVec.toNat_ofNat, Nat.mod_eq_of_lt (by omega)]
    · rw [BitVec.toNat_ofNat, Nat.mod_eq_of_lt (by omega)]; omega
  rw [BitVec.slt, h a ha, h b hb, decide_eq_decide]
  omega

/-- The environment of a call, as far as it does not change. -/
structure Ctx (env : Env) (t ii oo n : Nat) (s0 : State) : Prop where
  valid : env.Valid
  loaded : Loaded env s0.mem
  depth : 536 ≤ t
  align : 0 < n → (env.base .stack + t) % 16 = 8
  top : t + 8 ≤ env.size .stack
  input : ii + 64 * n ≤ env.size .input
  output : oo + 32 * n ≤ env.size .output
  small : n < 2 ^ 63

/-- The test at the head of the loop. -/
theorem loop_test {env : Env} {t ii oo n k : Nat} {s0 s : State} (cs : List Label) (hs : n < 2 ^ 63) (h : FInv env t ii oo k n s0 s) :
    ∃ s1, Steps env X86.code [.fourLoop] (.run .fourLoop cs s) (.run (if n - k < 4 then .fourTail else .fourBlocks) cs s1) ∧ FInv env t ii oo k n s0 s1 := by
  have r1 : Steps env X86.code [.fourLoop] (.run .fourLoop cs s) (finish env cs (step env s (.cmpImm .rdx 4)) (.jl .fourTail .fourBlocks)) :=
    Steps.one (advance_run (b := [.cmpImm .rdx 4]) (tm := .jl .fourTail .fourBlocks) rfl rfl h.fault)
  rw [finish_jl_cmp, h.rdx, slt_ofNat (by omega) (by decide)] at r1
  simp only [decide_eq_true_eq] at r1
  exact ⟨_, r1, h.congr rfl rfl rfl⟩

/-- Four blocks. -/
theorem loop_batch {env : Env} {t ii oo n k : Nat} {s0 s : State} (cs : List Label) (C : Ctx env t ii oo n s0) (h : FInv env t ii oo k n s0 s)
    (hk : ¬ n - k < 4) :
    ∃ s1, Steps env X86.code fourBatch.tail (.run .fourBlocks cs s) (.run .fourLoop cs s1) ∧ FInv env t ii oo (k + 4) n s0 s1 := by
  have hd := C.depth
  have hle := h.le
  have hi := C.input
  have ho := C.output
  have ht := C.top
  have hal := C.align (by omega)
  obtain ⟨s2, r2, hb⟩ := Four.batch (cs := cs) C.valid (C.loaded.congr fun r h2 h3 _ => h.other r h2 h3) h.fault h.rsp (by omega) (by omega)
    h.rsi h.rdi (by omega) (by omega)
  exact ⟨s2, r2, h.batch hb (by omega) (by omega) (by omega)⟩

theorem loop {env : Env} {t ii oo n : Nat} {s0 : State} {cs : List Label} (C : Ctx env t ii oo n s0) : ∀ (f k : Nat) {s : State},
    n - k < f → FInv env t ii oo k n s0 s →
    ∃ s', Steps env X86.code (rep ((n - k) / 4) fourBatch ++ [.fourLoop]) (.run .fourLoop cs s) (.run .fourTail cs s') ∧ FInv env t ii oo (k + 4 * ((n - k) / 4)) n s0 s'
  | 0, _, _, hf, _ => absurd hf (Nat.not_lt_zero _)
  | f + 1, k, s, hf, h => by
    obtain ⟨s1, r1, h1⟩ := loop_test cs C.small h
    by_cases hk : n - k < 4
    · rw [if_pos hk] at r1
      rw [Nat.div_eq_of_lt hk]
      exact ⟨s1, r1, h1⟩
    · rw [if_neg hk] at r1
      obtain ⟨s2, r2, h2⟩ := loop_batch cs C h1 hk
      obtain ⟨s', r3, h3⟩ := loop C f (k + 4) (s := s2) (by omega) h2
      have e : (n - k) / 4 = (n - (k + 4)) / 4 + 1 := by omega
      rw [e]
      exact ⟨s', ((r1.trans r2).trans r3).cast (by rw [rep_succ]; rfl), (by rw [show k + 4 * ((n - (k + 4)) / 4 + 1) = k + 4 + 4 * ((n - (k + 4)) / 4) by omega]; exact h3)⟩

/-- The test for remaining blocks. -/
theorem tail_test {env : Env} {t ii oo n k : Nat} {s0 s : State} (cs : List Label) (hs : n < 2 ^ 63) (h : FInv env t ii oo k n s0 s) :
    ∃ s1, Steps env X86.code [.fourTail] (.run .fourTail cs s) (.run (if k = n then .fourDone else .fourCall) cs s1) ∧ FInv env t ii oo k n s0 s1 := by
  have hle := h.le
  have r1 : Steps env X86.code [.fourTail] (.run .fourTail cs s) (finish env cs (step env s (.test .rdx .rdx)) (.jz .fourDone .fourCall)) :=
    Steps.one (advance_run (b := [.test .rdx .rdx]) (tm := .jz .fourDone .fourCall) rfl rfl h.fault)
  rw [finish_jz_test, h.rdx] at r1
  have e : BitVec.ofNat 64 (n - k) = 0 ↔ k = n := by
    refine ⟨fun e => ?_, fun e => by rw [e, Nat.sub_self]; rfl⟩
    have := congrArg BitVec.toNat e
    rw [BitVec.toNat_ofNat, Nat.mod_eq_of_lt (by omega)] at this
    have h0 : n - k = 0 := this
    omega
  simp only [e] at r1
  exact ⟨_, r1, h.congr rfl rfl rfl⟩

/-- One of the remaining blocks. -/
theorem tail_call {env : Env} (hone : OneSpec env) {t ii oo n k : Nat} {s0 s : State} (cs : List Label) (C : Ctx env t ii oo n s0)
    (h : FInv env t ii oo k n s0 s) (hk : ¬ k = n) :
    ∃ s1, Steps env X86.code fourSingle.tail (.run .fourCall cs s) (.run .fourTail cs s1) ∧ FInv env t ii oo (k + 1) n s0 s1 := by
  have hd := C.depth
  have hle := h.le
  have hi := C.input
  have ho := C.output
  have ht := C.top
  have hal := C.align (by omega)
  obtain ⟨s2, r2, hb⟩ := one_call (cs := cs) hone C.valid (C.loaded.congr fun r h2 h3 _ => h.other r h2 h3) h.fault h.rsp (by omega) (by omega)
    (by omega) h.rsi h.rdi (by omega) (by omega)
  exact ⟨s2, r2, h.batch hb (by omega) (by omega) (by omega)⟩

theorem tail {env : Env} (hone : OneSpec env) {t ii oo n : Nat} {s0 : State} {cs : List Label} (C : Ctx env t ii oo n s0) : ∀ (f k : Nat) {s : State},
    n - k < f → FInv env t ii oo k n s0 s →
    ∃ s', Steps env X86.code (rep (n - k) fourSingle ++ [.fourTail]) (.run .fourTail cs s) (.run .fourDone cs s') ∧ FInv env t ii oo n n s0 s'
  | 0, _, _, hf, _ => absurd hf (Nat.not_lt_zero _)
  | f + 1, k, s, hf, h => by
    have hle := h.le
    obtain ⟨s1, r1, h1⟩ := tail_test cs C.small h
    by_cases hk : k = n
    · subst hk
      rw [if_pos rfl] at r1
      rw [Nat.sub_self]
      exact ⟨s1, r1, h1⟩
    · rw [if_neg hk] at r1
      obtain ⟨s2, r2, h2⟩ := tail_call hone cs C h1 hk
      obtain ⟨s', r3, h3⟩ := tail hone C f (k + 1) (s := s2) (by omega) h2
      rw [show n - k = n - (k + 1) + 1 by omega]
      exact ⟨s', ((r1.trans r2).trans r3).cast (by rw [rep_succ]; rfl), h3⟩

end Mammon.X86.Four

namespace Mammon.X86
open Four

/-- The entry of `sha256_4_avx`. -/
theorem four_entry {env : Env} {cs : List Label} {s : State} {t ii oo n : Nat}
    (E : Called env 536 t ii oo n (retTo env cs) s) (hdx : s.r .rdx = BitVec.ofNat 64 n) :
    ∃ s1, Steps env code [.four] (.run .four cs s) (.run .fourLoop cs s1) ∧ FInv env t ii oo 0 n s s1 := by
  have hd := E.depth
  have ht := E.top
  obtain ⟨s1, hs1⟩ : ∃ s1, exec env entry s = s1 := ⟨_, rfl⟩
  have hs1' : s1.r = upd s.r .rsp (env.ptr .stack (t - 408)) ∧
      s1.mem = upd s.mem .stack (writeLanes 2 (s.mem .stack) (t - 408 + 384) (lanes64 (s.r .rbx))) ∧ s1.fault = s.fault := by
    have e1 : (step env s (.subImm .rsp STACK_size)).r = upd s.r .rsp (env.ptr .stack (t - 408)) := by
      rw [← ptr_sub env .stack t 408 (by omega), ← E.rsp]; rfl
    have e2 : (step env s (.subImm .rsp STACK_size)).mem = s.mem := rfl
    have e3 : (step env s (.subImm .rsp STACK_size)).fault = s.fault := rfl
    rw [← hs1]
    show (step env (step env s (.subImm .rsp STACK_size)) (.movStore (.reg .rsp _RBX) .rbx)).r = _ ∧
      (step env (step env s (.subImm .rsp STACK_size)) (.movStore (.reg .rsp _RBX) .rbx)).mem = _ ∧
      (step env (step env s (.subImm .rsp STACK_size)) (.movStore (.reg .rsp _RBX) .rbx)).fault = _
    generalize step env s (.subImm .rsp STACK_size) = s' at e1 e2 e3
    have hsp : s'.r .rsp = env.ptr .stack (t - 408) := by rw [e1, upd_same]
    have hbx : s'.r .rbx = s.r .rbx := by rw [e1, upd_ne _ _ (by decide)]
    rw [step_movStore E.valid .rbx (r := .stack) (o := t - 408 + 384) (ea_reg hsp _) (by omega) E.valid.stack]
    refine ⟨e1, ?_, e3⟩
    rw [e2, hbx]
  obtain ⟨p1, p2, p3⟩ := hs1'
  have hI : FInv env t ii oo 0 n s s1 := by
    refine ⟨⟨p3.trans E.fault, by omega, ?_, ?_, ?_, fun r h _ => ?_, fun i hi => ?_, fun i _ => ?_, fun l hl => absurd hl (by omega)⟩,
      ?_, fun r hr => ?_, ?_⟩
    · rw [p1, upd_ne _ _ (by decide)]; exact E.rsi
    · rw [p1, upd_ne _ _ (by decide)]; exact E.rdi
    · rw [p1, upd_ne _ _ (by decide)]; exact hdx
    · rw [p2, upd_ne _ _ h]
    · rw [p2, upd_same, writeLanes_outside (by omega)]
    · rw [p2, upd_ne _ _ (by decide)]
    · rw [p1, upd_same]
    · rw [p1, upd_ne]
      revert r; decide
    · rw [p2, upd_same, readQuad_writeLanes]
  exact ⟨s1, Steps.one (advance_run (b := entry) (tm := .goto .fourLoop) rfl hs1 hI.fault), hI⟩

/-- The contract of `sha256_4_avx`, given that of `sha256_1_avx`. If there is nothing to do, the stack need not be aligned. -/
theorem four_of_one {env : Env} (hone : OneSpec env) {cs : List Label} {s : State} {t ii oo n : Nat}
    (E : Called env 536 t ii oo n (retTo env cs) s) (hal : 0 < n → (env.base .stack + t) % 16 = 8) (hdx : s.r .rdx = BitVec.ofNat 64 n) (hn : n < 2 ^ 63) :
    ∃ s', Steps env code (fourPath n) (.run .four cs s) (back s' cs) ∧ Exit env [] t ii oo n s s' := by
  have hd := E.depth
  have ht := E.top
  have C : Ctx env t ii oo n s := ⟨E.valid, E.loaded, E.depth, hal, E.top, E.input, E.output, hn⟩
  -- entry
  obtain ⟨s1, r1, hI⟩ := four_entry E hdx
  obtain ⟨s2, r2, h2⟩ := loop (cs := cs) C (n + 1) 0 (by omega) hI
  obtain ⟨s3, r3, h3⟩ := tail (cs := cs) hone C (n + 1) _ (by omega) h2
  -- exit
  obtain ⟨s4, hs4⟩ : ∃ s4, exec env [.movLoad .rbx (.reg .rsp _RBX), .addImm .rsp STACK_size] s3 = s4 := ⟨_, rfl⟩
  have hr4 : s4.r = upd (upd s3.r .rbx (s.r .rbx)) .rsp (env.ptr .stack t) ∧ s4.mem = s3.mem ∧ s4.fault = s3.fault := by
    rw [← hs4]
    show (step env (step env s3 (.movLoad .rbx (.reg .rsp _RBX))) (.addImm .rsp STACK_size)).r = _ ∧ _
    rw [exec_cons, exec_cons, exec_nil, step_movLoad E.valid .rbx (r := .stack) (o := t - 408 + 384) (ea_reg h3.rsp _) (by omega)]
    refine ⟨?_, rfl, rfl⟩
    have hq : of64 (fun l => readWord (s3.mem .stack) (t - 408 + 384 + 4 * l)) = s.r .rbx := h3.slot
    rw [hq]
    show upd (upd s3.r .rbx (s.r .rbx)) .rsp (upd s3.r .rbx (s.r .rbx) .rsp + BitVec.ofNat 64 408) = _
    rw [upd_ne (j := R.rsp) (k := .rbx) _ _ (by decide), h3.rsp, ptr_add, Nat.sub_add_cancel (by omega)]
  obtain ⟨q1, q2, q3⟩ := hr4
  have hf4 : s4.fault = false := q3.trans h3.fault
  have hret : of64 (fun l => readWord (s4.mem .stack) (t + 4 * l)) = retTo env cs := by
    rw [q2, ← E.ret]
    exact readQuad_congr fun i hi _ => h3.stack i hi
  have r4 : Steps env code [.fourDone] (.run .fourDone cs s3) (back (s4.setR .rsp (env.ptr .stack (t + 8))) cs) := by
    refine Steps.one ((advance_run (b := [.movLoad .rbx (.reg .rsp _RBX), .addImm .rsp STACK_size]) (tm := .ret) rfl hs4 hf4).trans ?_)
    exact finish_ret E.valid hf4 (by rw [q1, upd_same]) ht hret
  refine ⟨_, (((r1.trans r2).trans r3).trans r4).cast (by
    rw [show n - (0 + 4 * ((n - 0) / 4)) = n % 4 by omega, Nat.sub_zero, fourPath]; simp), hf4, upd_same s4.r .rsp (env.ptr .stack (t + 8)), fun r hr => ?_, fun i hi => ?_, fun p hp => ?_, fun p hp => ?_, fun r h1 h2 _ => ?_⟩
  · show upd s4.r .rsp _ r = _
    have hne : r ≠ .rsp := by revert r; decide
    rw [upd_ne _ _ hne, q1, upd_ne _ _ hne]
    by_cases hb : r = .rbx
    · subst hb; rw [upd_same]
    · rw [upd_ne _ _ hb]
      refine h3.regs r ?_
      revert r; decide
  · show bytesAt (s4.mem .output) _ _ = _
    rw [q2]; exact h3.hash i hi
  · show s4.mem .output p = _
    rw [q2]; exact h3.output p hp
  · show s4.mem .stack p = _
    rw [q2]; exact h3.stack p hp
  · show s4.mem r = _
    rw [q2]; exact h3.other r h2 h1

end Mammon.X86
