import Verif.Proofs.One
import Verif.Proofs.FourLoop
/-!
# The contract of the one-block routine
-/

namespace Mammon.X86.One
open Spec.SHA256

/-- The words in a region, for operands relative to a base register that points at offset `o`. -/
def ldAt (m : Nat → Byte) (o : Nat) : Addr → Word
  | .reg _ k => readWord m (o + k)
  | _ => 0

/-- Is the operand, if any, relative to `b` with a displacement below `n`? -/
def okLoad (b : R) (n : Nat) (i : Instr) : Bool :=
  match sload i with
  | some (.reg b' k) => b' = b && decide (k + 4 ≤ n)
  | some _ => false
  | none => true

/-- 32-bit instructions with operands relative to one base register. -/
theorem exec_scalar {env : Env} (hv : env.Valid) {b : R} {rg : Region} {o n : Nat} (is : List Instr) {s : State}
    (h1 : is.all (fun i => sok i || isVec i) = true) (h2 : is.all (okLoad b n) = true) (h3 : is.all (fun i => decide (sdest i ≠ some b)) = true)
    (hp : s.r b = env.ptr rg o) (hn : o + n ≤ env.size rg) :
    (exec env is s).x = vregs (vpart is) s.x ∧ (exec env is s).get32 = sexec (ldAt (s.mem rg) o) (spart is) s.get32 ∧
    (exec env is s).mem = s.mem ∧ (exec env is s).fault = s.fault ∧ ∀ r, (∀ i ∈ is, sdest i ≠ some r) → (exec env is s).r r = s.r r := by
  refine exec_mix (b := b) is h1 (fun i hi => by simpa using List.all_eq_true.mp h3 i hi) fun i hi a ha => ?_
  have h := List.all_eq_true.mp h2 i hi
  rw [okLoad, ha] at h
  match a, h with
  | .reg b' k, h =>
    simp only [Bool.and_eq_true, decide_eq_true_eq] at h
    obtain ⟨rfl, hk⟩ := h
    refine ⟨k, rfl, ?_, ?_⟩
    · rw [hp, ptr_add, canRead_ptr hv (by decide) (by omega)]
    · rw [hp, ptr_add, read_ptr hv _ (by decide) (by omega)]
      rfl

/-! ## Entry -/

/-- The registers saved on the stack, in the order of the pushes. -/
def saved : List R := [.rbx, .rdx, .rbp, .r12, .r13, .r14, .r15]

/-- The frame is at offset `o`, the saved registers are above it, the masks are loaded. -/
structure Frame (env : Env) (o : Nat) (s0 s : State) : Prop where
  fault : s.fault = false
  rsp : s.r .rsp = env.ptr .stack o
  regs : ∀ r, r ≠ .rsp → s.r r = s0.r r
  other : ∀ r, r ≠ .stack → s.mem r = s0.mem r
  stack : ∀ i, i < o + 64 ∨ o + 120 ≤ i → s.mem .stack i = s0.mem .stack i
  slots : ∀ i (h : i < saved.length), readQuad (s.mem .stack) (o + 120 - 8 * (i + 1)) = s0.r saved[i]
  flip : ∀ l, l < 4 → s.x BYTE_FLIP_MASK l = flipWord l
  masks : (∀ l, l < 4 → s.x SHUF_00BA l = ba l) ∧ ∀ l, l < 4 → s.x SHUF_DC00 l = dc l

theorem prologue_spec {env : Env} {o ii oo : Nat} {ret : BitVec 64} {s : State} (E : Entry env 120 (o + 120) ii oo 1 ret s) :
    Frame env o s (exec env prologue s) := by
  have hv := E.valid
  have ht := E.top
  have e : prologue = .endbranch64 :: (pushSeq saved ++ [.subImm .rsp STACK_size, .vload .dqa .xmm BYTE_FLIP_MASK (.rel .one FLIP_MASK),
    .vload .dqa .xmm SHUF_00BA (.rel .one SHUF_00BA_MASK), .vload .dqa .xmm SHUF_DC00 (.rel .one SHUF_DC00_MASK)]) := rfl
  rw [e, exec_cons, exec_append]
  obtain ⟨a1, a2, a3, a4, a5, a6, a7⟩ := pushSeq_spec hv saved (s := s) (t := o + 120) E.rsp (by show 8 * 7 ≤ _; omega) (by omega) (by decide)
  obtain ⟨s1, hs1⟩ : ∃ s1, exec env (pushSeq saved) s = s1 := ⟨_, rfl⟩
  rw [hs1] at a1 a2 a3 a4 a5 a6 a7
  show Frame env o s (exec env _ (exec env (pushSeq saved) s))
  rw [hs1]
  clear hs1
  have L : Loaded env s1.mem := E.loaded.congr fun r h _ _ => a5 r h
  have hsz := size_le L
  have hb := base_mod L
  have hw : Width.lanes .xmm = 4 := rfl
  rw [exec_cons, exec_cons, exec_cons, exec_cons, exec_nil]
  obtain ⟨s2, hs2⟩ : ∃ s2, step env s1 (.subImm .rsp STACK_size) = s2 := ⟨_, rfl⟩
  have b1 : s2.r = upd s1.r .rsp (env.ptr .stack o) := by
    rw [← hs2]
    show upd s1.r .rsp (s1.r .rsp - BitVec.ofNat 64 64) = _
    have e : o + 120 - 8 * saved.length = o + 64 := by rw [show saved.length = 7 from rfl]; omega
    rw [a3, e, ptr_sub env .stack _ 64 (by omega), Nat.add_sub_cancel]
  have b2 : s2.mem = s1.mem := by rw [← hs2]; rfl
  have b3 : s2.fault = s1.fault := by rw [← hs2]; rfl
  rw [hs2]
  clear hs2
  rw [step_vload hv BYTE_FLIP_MASK (r := .one) (o := FLIP_MASK) (ea_rel ..) (by rw [hw]; simp only [FLIP_MASK]; omega)
    (fun _ => by rw [hw]; simp only [FLIP_MASK]; omega)]
  rw [step_vload hv SHUF_00BA (r := .one) (o := SHUF_00BA_MASK) (ea_rel ..) (by rw [hw]; simp only [SHUF_00BA_MASK]; omega)
    (fun _ => by rw [hw]; simp only [SHUF_00BA_MASK]; omega)]
  rw [step_vload hv SHUF_DC00 (r := .one) (o := SHUF_DC00_MASK) (ea_rel ..) (by rw [hw]; simp only [SHUF_DC00_MASK]; omega)
    (fun _ => by rw [hw]; simp only [SHUF_DC00_MASK]; omega)]
  refine ⟨b3.trans (a2.trans E.fault), ?_, fun r hr => ?_, fun r hr => ?_, fun i hi => ?_, fun i hi => ?_, fun l hl => ?_, fun l hl => ?_, fun l hl => ?_⟩
  · show s2.r .rsp = _
    rw [b1, upd_same]
  · show s2.r r = _
    rw [b1, upd_ne _ _ hr, a4 r hr]
  · show s2.mem r = _
    rw [b2, a5 r hr]
  · show s2.mem .stack i = _
    rw [b2, a6 i (by rw [show saved.length = 7 from rfl]; omega)]
  · show readQuad (s2.mem .stack) _ = _
    rw [b2, a7 i hi]
  · show zx .xmm (fun l => readWord (s2.mem .one) (FLIP_MASK + 4 * l)) l = _
    rw [zx_xmm _ hl, b2, word L (i := 136 + l) (by simp only [FLIP_MASK]; omega) (by omega), data_flip l hl]
  · show zx .xmm (fun l => readWord (s2.mem .one) (SHUF_00BA_MASK + 4 * l)) l = _
    rw [zx_xmm _ hl, b2, word L (i := 140 + l) (by simp only [SHUF_00BA_MASK]; omega) (by omega), data_ba l hl]
  · show zx .xmm (fun l => readWord (s2.mem .one) (SHUF_DC00_MASK + 4 * l)) l = _
    rw [zx_xmm _ hl, b2, word L (i := 144 + l) (by simp only [SHUF_DC00_MASK]; omega) (by omega), data_dc l hl]

/-- Loading a vector of the block. -/
theorem copy_spec {env : Env} (hv : env.Valid) {s : State} {x : X} {p d : Nat} (hx : x ≠ BYTE_FLIP_MASK) (hsi : s.r DATA_PTR = env.ptr .input p)
    (hroom : p + d + 16 ≤ env.size .input) (hm : ∀ l, l < 4 → s.x BYTE_FLIP_MASK l = flipWord l) :
    (exec env (copyXmmAndBswap x (.reg DATA_PTR d)) s).r = s.r ∧ (exec env (copyXmmAndBswap x (.reg DATA_PTR d)) s).mem = s.mem ∧
    (exec env (copyXmmAndBswap x (.reg DATA_PTR d)) s).fault = s.fault ∧
    (∀ y, y ≠ x → (exec env (copyXmmAndBswap x (.reg DATA_PTR d)) s).x y = s.x y) ∧
    ∀ l, l < 4 → (exec env (copyXmmAndBswap x (.reg DATA_PTR d)) s).x x l = bswap (readWord (s.mem .input) (p + d + 4 * l)) := by
  rw [copyXmmAndBswap, exec_cons, exec_cons, exec_nil,
    step_vload hv (m := .dqu) (w := .xmm) x (r := .input) (o := p + d) (ea_reg hsi d) hroom (fun h => by cases h)]
  refine ⟨rfl, rfl, rfl, fun y hy => ?_, fun l hl => ?_⟩
  · exact (upd_ne (upd s.x x _) _ hy).trans (upd_ne s.x _ hy)
  · refine (congrFun (upd_same (upd s.x x _) x _) l).trans ?_
    rw [zx_xmm _ hl]
    rw [pshufb_flip _ _ (by omega)]
    · refine congrArg bswap ((congrFun (upd_same s.x x _) l).trans ?_)
      rw [zx_xmm _ hl]
    · exact (congrFun (upd_ne s.x _ (Ne.symm hx)) l).trans (hm l hl)

theorem loads_spec {env : Env} {o p : Nat} {s0 s : State} (hv : env.Valid) (L : Loaded env s.mem) (hsi : s.r .rsi = env.ptr .input p)
    (hroom : p + 64 ≤ env.size .input) (F : Frame env o s0 s) :
    Inv env o 4 (msg (s.mem .input) p) s 0 0 0 args xs (exec env (loads args xs) s) := by
  have hsz := size_le L
  obtain ⟨is, his⟩ : ∃ is, is = [Instr.load32 args.a (.reg TBL (0 * 4)), .load32 args.b (.reg TBL (1 * 4)), .load32 args.c (.reg TBL (2 * 4)),
    .load32 args.d (.reg TBL (3 * 4)), .load32 args.e (.reg TBL (4 * 4)), .load32 args.f (.reg TBL (5 * 4)), .load32 args.g (.reg TBL (6 * 4)),
    .load32 args.h (.reg TBL (7 * 4))] := ⟨_, rfl⟩
  have e : loads args xs = .lea TBL (.rel .one DIGEST) :: (is ++ (.lea TBL (.rel .one K256) ::
    (copyXmmAndBswap .x4 (.reg DATA_PTR 0) ++ (copyXmmAndBswap .x5 (.reg DATA_PTR 16) ++
    (copyXmmAndBswap .x6 (.reg DATA_PTR 32) ++ copyXmmAndBswap .x7 (.reg DATA_PTR 48)))))) := by rw [his]; rfl
  rw [e, exec_cons, exec_append, exec_cons, exec_append, exec_append, exec_append]
  obtain ⟨s1, hs1⟩ : ∃ s1, step env s (.lea TBL (.rel .one DIGEST)) = s1 := ⟨_, rfl⟩
  have a1 : s1.r = upd s.r .rcx (env.ptr .one DIGEST) := by rw [← hs1]; rfl
  have a2 : s1.mem = s.mem := by rw [← hs1]; rfl
  have a3 : s1.fault = s.fault := by rw [← hs1]; rfl
  have a4 : s1.x = s.x := by rw [← hs1]; rfl
  rw [hs1]
  clear hs1
  obtain ⟨b1, b2, b3, b4, b5⟩ := exec_scalar hv (b := .rcx) (rg := .one) (o := DIGEST) (n := 32) is (s := s1) (by rw [his]; rfl) (by rw [his]; rfl)
    (by rw [his]; rfl) (by rw [a1, upd_same]) (by simp only [DIGEST]; omega)
  obtain ⟨s2, hs2⟩ : ∃ s2, exec env is s1 = s2 := ⟨_, rfl⟩
  rw [hs2] at b1 b2 b3 b4 b5 ⊢
  clear hs2
  rw [a2] at b2 b3
  have b1 : s2.x = s.x := by rw [b1, his, ← a4]; rfl
  have hH : Hold args s2.get32 H0 := by
    have hd : ∀ i, i < 8 → readWord (s.mem .one) (DIGEST + i * 4) = H0.word i := fun i hi => by
      rw [word L (i := 64 + i) (by simp only [DIGEST]; omega) (by omega), data_digest i hi]
    rw [b2, his]
    exact ⟨hd 0 (by omega), hd 1 (by omega), hd 2 (by omega), hd 3 (by omega), hd 4 (by omega), hd 5 (by omega), hd 6 (by omega), hd 7 (by omega)⟩
  have hr2 : ∀ r ∈ [R.rsp, .rsi, .rdi, .rbp], s2.r r = s.r r := fun r hr => by
    rw [b5 r, a1, upd_ne]
    · clear b5; revert r; decide
    · rw [his]; clear b5; revert r; decide
  obtain ⟨s3, hs3⟩ : ∃ s3, step env s2 (.lea TBL (.rel .one K256)) = s3 := ⟨_, rfl⟩
  have c1 : s3.r = upd s2.r .rcx (env.ptr .one 0) := by rw [← hs3]; rfl
  have c2 : s3.mem = s.mem := by rw [← hs3, ← b3]; rfl
  have c3 : s3.fault = false := by rw [← F.fault, ← a3, ← b4, ← hs3]; rfl
  have c4 : s3.x = s.x := by rw [← hs3, ← b1]; rfl
  have c5 : ∀ r, r ≠ .rcx → s3.get32 r = s2.get32 r := fun r hr => by rw [State.get32, c1, upd_ne _ _ hr, State.get32]
  rw [hs3]
  clear hs3
  have hr3 : ∀ r ∈ [R.rsp, .rsi, .rdi, .rbp], s3.r r = s.r r := fun r hr => by
    rw [c1, upd_ne, hr2 r hr]
    revert r; decide
  obtain ⟨d1, d2, d3, d4, d5⟩ := copy_spec hv (x := .x4) (d := 0) (s := s3) (by decide) ((hr3 _ (by decide)).trans hsi) (by omega)
    (by rw [c4]; exact F.flip)
  generalize exec env (copyXmmAndBswap .x4 (.reg DATA_PTR 0)) s3 = s4 at d1 d2 d3 d4 d5 ⊢
  obtain ⟨e1, e2, e3, e4, e5⟩ := copy_spec hv (x := .x5) (d := 16) (s := s4) (by decide) (by rw [d1]; exact (hr3 _ (by decide)).trans hsi) (by omega)
    (by rw [d4 _ (by decide), c4]; exact F.flip)
  generalize exec env (copyXmmAndBswap .x5 (.reg DATA_PTR 16)) s4 = s5 at e1 e2 e3 e4 e5 ⊢
  obtain ⟨f1, f2, f3, f4, f5⟩ := copy_spec hv (x := .x6) (d := 32) (s := s5) (by decide) (by rw [e1, d1]; exact (hr3 _ (by decide)).trans hsi) (by omega)
    (by rw [e4 _ (by decide), d4 _ (by decide), c4]; exact F.flip)
  generalize exec env (copyXmmAndBswap .x6 (.reg DATA_PTR 32)) s5 = s6 at f1 f2 f3 f4 f5 ⊢
  obtain ⟨g1, g2, g3, g4, g5⟩ := copy_spec hv (x := .x7) (d := 48) (s := s6) (by decide) (by rw [f1, e1, d1]; exact (hr3 _ (by decide)).trans hsi)
    (by omega) (by rw [f4 _ (by decide), e4 _ (by decide), d4 _ (by decide), c4]; exact F.flip)
  generalize exec env (copyXmmAndBswap .x7 (.reg DATA_PTR 48)) s6 = s7 at g1 g2 g3 g4 g5 ⊢
  have hr7 : s7.r = s3.r := by rw [g1, f1, e1, d1]
  have hm7 : s7.mem = s.mem := by rw [g2, f2, e2, d2, c2]
  have hg7 : ∀ r, r ≠ .rcx → s7.get32 r = s2.get32 r := fun r hr => by rw [State.get32, hr7, ← State.get32, c5 r hr]
  refine ⟨by rw [g3, f3, e3, d3, c3], fun r hr => by rw [hr7, hr3 r hr], by rw [hr7, c1, upd_same], ?_, fun i hi l hl => ?_, ⟨fun l hl => ?_, fun l hl => ?_⟩,
    fun r _ => by rw [hm7], fun i _ => by rw [hm7]⟩
  · refine ⟨?_, ?_, ?_, ?_, ?_, ?_, ?_, ?_⟩
    · rw [hg7 _ (by decide)]; exact hH.a
    · rw [hg7 _ (by decide)]; exact hH.b
    · rw [hg7 _ (by decide)]; exact hH.c
    · rw [hg7 _ (by decide)]; exact hH.d
    · rw [hg7 _ (by decide)]; exact hH.e
    · rw [hg7 _ (by decide)]; exact hH.f
    · rw [hg7 _ (by decide)]; exact hH.g
    · rw [hg7 _ (by decide)]; exact hH.h
  · rw [W_lt _ (by omega), msg]
    have hi' : i = 0 ∨ i = 1 ∨ i = 2 ∨ i = 3 := by omega
    rcases hi' with rfl | rfl | rfl | rfl
    · show s7.x .x4 l = _
      rw [g4 _ (by decide), f4 _ (by decide), e4 _ (by decide), d5 l hl, c2]
      congr 2; omega
    · show s7.x .x5 l = _
      rw [g4 _ (by decide), f4 _ (by decide), e5 l hl, d2, c2]
      congr 2; omega
    · show s7.x .x6 l = _
      rw [g4 _ (by decide), f5 l hl, e2, d2, c2]
      congr 2; omega
    · show s7.x .x7 l = _
      rw [g5 l hl, f2, e2, d2, c2]
      congr 2; omega
  · rw [g4 _ (by decide), f4 _ (by decide), e4 _ (by decide), d4 _ (by decide), c4]; exact F.masks.1 l hl
  · rw [g4 _ (by decide), f4 _ (by decide), e4 _ (by decide), d4 _ (by decide), c4]; exact F.masks.2 l hl

/-! ## After the rounds on the block -/

theorem Hold.word {v : Args} {f : R → Word} {w : HV} (h : Hold v f w) : ∀ i (hi : i < v.regs.length), f v.regs[i] = w.word i
  | 0, _ => h.a
  | 1, _ => h.b
  | 2, _ => h.c
  | 3, _ => h.d
  | 4, _ => h.e
  | 5, _ => h.f
  | 6, _ => h.g
  | 7, _ => h.h

/-- What is kept from the state `s0` when the code changes the first 64 bytes of the frame at `o`, and the working variables are `w`. -/
structure Kept (o : Nat) (s0 : State) (w : HV) (s : State) : Prop where
  fault : s.fault = false
  regs : ∀ r ∈ [R.rsp, .rsi, .rdi, .rbp], s.r r = s0.r r
  mem : ∀ r, r ≠ .stack → s.mem r = s0.mem r
  stack : ∀ i, i < o ∨ o + 64 ≤ i → s.mem .stack i = s0.mem .stack i
  hold : Hold args s.get32 w

/-- The instructions that add eight words. -/
def addWords (b : R) (d : Nat) : List Instr :=
  [.addLoad32 .rax (.reg b (d + 0 * 4)), .addLoad32 .rbx (.reg b (d + 1 * 4)), .addLoad32 .rdx (.reg b (d + 2 * 4)),
   .addLoad32 .r8 (.reg b (d + 3 * 4)), .addLoad32 .r9 (.reg b (d + 4 * 4)), .addLoad32 .r10 (.reg b (d + 5 * 4)),
   .addLoad32 .r11 (.reg b (d + 6 * 4)), .addLoad32 .r12 (.reg b (d + 7 * 4))]

theorem addWords_spec {env : Env} (hv : env.Valid) {b : R} (hb : b ∈ [R.rsp, .rcx]) {d : Nat} {rg : Region} {o : Nat} {s : State} {w u : HV}
    (hp : s.r b = env.ptr rg o) (hroom : o + d + 32 ≤ env.size rg) (hh : Hold args s.get32 w)
    (hu : ∀ i, i < 8 → readWord (s.mem rg) (o + d + 4 * i) = u.word i) :
    (exec env (addWords b d) s).mem = s.mem ∧ (exec env (addWords b d) s).fault = s.fault ∧
    (∀ r ∈ [R.rsp, .rcx, .rsi, .rdi, .rbp], (exec env (addWords b d) s).r r = s.r r) ∧ Hold args (exec env (addWords b d) s).get32 (w.add u) := by
  have hok : (addWords b d).all (okLoad b (d + 32)) = true := by
    simp only [addWords, List.all_cons, List.all_nil, okLoad, sload, Bool.and_true, Bool.and_eq_true, decide_eq_true_eq, true_and]
    omega
  have hdest : (addWords b d).all (fun i => decide (sdest i ≠ some b)) = true := by
    simp only [List.mem_cons, List.not_mem_nil, or_false] at hb
    rcases hb with rfl | rfl <;> rfl
  obtain ⟨-, h2, h3, h4, h5⟩ := exec_scalar hv (b := b) (rg := rg) (o := o) (n := d + 32) (addWords b d) (s := s) rfl hok hdest hp (by omega)
  refine ⟨h3, h4, fun r hr => h5 r ?_, ?_⟩
  · simp only [List.mem_cons, List.not_mem_nil, or_false] at hr
    rcases hr with rfl | rfl | rfl | rfl | rfl <;> simp [addWords, sdest]
  · rw [h2]
    have hld : ∀ i, i < 8 → ldAt (s.mem rg) o (.reg b (d + i * 4)) = u.word i := fun i hi => by
      rw [← hu i hi]
      show readWord (s.mem rg) (o + (d + i * 4)) = _
      congr 1; omega
    refine ⟨?_, ?_, ?_, ?_, ?_, ?_, ?_, ?_⟩
    · exact congrArg₂ (fun x y : Word => x + y) hh.a (hld 0 (by omega))
    · exact congrArg₂ (fun x y : Word => x + y) hh.b (hld 1 (by omega))
    · exact congrArg₂ (fun x y : Word => x + y) hh.c (hld 2 (by omega))
    · exact congrArg₂ (fun x y : Word => x + y) hh.d (hld 3 (by omega))
    · exact congrArg₂ (fun x y : Word => x + y) hh.e (hld 4 (by omega))
    · exact congrArg₂ (fun x y : Word => x + y) hh.f (hld 5 (by omega))
    · exact congrArg₂ (fun x y : Word => x + y) hh.g (hld 6 (by omega))
    · exact congrArg₂ (fun x y : Word => x + y) hh.h (hld 7 (by omega))

theorem middle_spec {env : Env} {o q c jj : Nat} {m : Nat → Word} {s0 s : State} (hv : env.Valid) (L : Loaded env s0.mem)
    (hsp : s0.r .rsp = env.ptr .stack o) (hroom : o + 64 ≤ env.size .stack) (h : Inv env o q m s0 c 64 jj args xs s) :
    Kept o s0 (compress H0 m) (exec env (middle args) s) ∧ (exec env (middle args) s).r .rcx = env.ptr .one PADDING ∧
    ∀ i, i < 8 → readWord ((exec env (middle args) s).mem .stack) (o + 32 + 4 * i) = (compress H0 m).word i := by
  have hsz := size_le L
  have e : middle args = .lea TBL (.rel .one DIGEST) :: (addWords .rcx 0 ++ (stSeq .rsp 32 args.regs ++ [.lea TBL (.rel .one PADDING)])) := rfl
  rw [e, exec_cons, exec_append, exec_append, exec_cons, exec_nil]
  obtain ⟨s1, hs1⟩ : ∃ s1, step env s (.lea TBL (.rel .one DIGEST)) = s1 := ⟨_, rfl⟩
  have a1 : s1.r = upd s.r .rcx (env.ptr .one DIGEST) := by rw [← hs1]; rfl
  have a2 : s1.mem = s.mem := by rw [← hs1]; rfl
  have a3 : s1.fault = s.fault := by rw [← hs1]; rfl
  have a4 : ∀ r, r ≠ .rcx → s1.get32 r = s.get32 r := fun r hr => by rw [State.get32, a1, upd_ne _ _ hr, State.get32]
  rw [hs1]
  clear hs1
  have hh : Hold args s1.get32 (rounds m 64 H0) := by
    refine ⟨?_, ?_, ?_, ?_, ?_, ?_, ?_, ?_⟩
    · rw [a4 _ (by decide)]; exact h.hold.a
    · rw [a4 _ (by decide)]; exact h.hold.b
    · rw [a4 _ (by decide)]; exact h.hold.c
    · rw [a4 _ (by decide)]; exact h.hold.d
    · rw [a4 _ (by decide)]; exact h.hold.e
    · rw [a4 _ (by decide)]; exact h.hold.f
    · rw [a4 _ (by decide)]; exact h.hold.g
    · rw [a4 _ (by decide)]; exact h.hold.h
  obtain ⟨b1, b2, b3, b4⟩ := addWords_spec hv (b := .rcx) (by decide) (d := 0) (rg := .one) (o := DIGEST) (s := s1) (u := H0)
    (by rw [a1, upd_same]) (by simp only [DIGEST]; omega) hh fun i hi => by
      rw [a2, h.mem .one (by decide), word L (i := 64 + i) (by simp only [DIGEST]; omega) (by omega), data_digest i hi]
  generalize exec env (addWords .rcx 0) s1 = s2 at b1 b2 b3 b4 ⊢
  have hsp2 : s2.r .rsp = env.ptr .stack o := by rw [b3 _ (by decide), a1, upd_ne _ _ (by decide), h.regs _ (by decide), hsp]
  obtain ⟨c1, c2, c3, c4, c5, c6⟩ := stSeq_spec hv (b := .rsp) (r := .stack) (o := o) hv.stack args.regs 32 (s := s2) hsp2
    (by show o + 32 + 4 * 8 ≤ _; omega)
  generalize exec env (stSeq .rsp 32 args.regs) s2 = s3 at c1 c2 c3 c4 c5 c6 ⊢
  obtain ⟨s4, hs4⟩ : ∃ s4, step env s3 (.lea TBL (.rel .one PADDING)) = s4 := ⟨_, rfl⟩
  have d1 : s4.r = upd s3.r .rcx (env.ptr .one PADDING) := by rw [← hs4]; rfl
  have d2 : s4.mem = s3.mem := by rw [← hs4]; rfl
  have d3 : s4.fault = s3.fault := by rw [← hs4]; rfl
  have d4 : ∀ r, r ≠ .rcx → s4.get32 r = s2.get32 r := fun r hr => by rw [State.get32, d1, upd_ne _ _ hr, c1, State.get32]
  rw [hs4]
  clear hs4
  refine ⟨⟨?_, fun r hr => ?_, fun r hr => ?_, fun i hi => ?_, ?_⟩, by rw [d1, upd_same], fun i hi => ?_⟩
  · rw [d3, c3, b2, a3, h.fault]
  · have hne : r ≠ .rcx := by revert r; decide
    rw [d1, upd_ne _ _ hne, c1, b3 r (by clear hne; revert r; decide), a1, upd_ne _ _ hne, h.regs r hr]
  · rw [d2, c4 r hr, b1, a2, h.mem r hr]
  · rw [d2, c5 i (by rw [show args.regs.length = 8 from rfl]; omega), b1, a2, h.stack i (by omega)]
  · rw [compress]
    refine ⟨?_, ?_, ?_, ?_, ?_, ?_, ?_, ?_⟩
    · rw [d4 _ (by decide)]; exact b4.a
    · rw [d4 _ (by decide)]; exact b4.b
    · rw [d4 _ (by decide)]; exact b4.c
    · rw [d4 _ (by decide)]; exact b4.d
    · rw [d4 _ (by decide)]; exact b4.e
    · rw [d4 _ (by decide)]; exact b4.f
    · rw [d4 _ (by decide)]; exact b4.g
    · rw [d4 _ (by decide)]; exact b4.h
  · rw [d2, c6 i hi, b4.word i hi, compress]

/-- `ROTATE_ARGS`, `n` times. -/
def rotBy : Nat → Args → Args
  | 0, v => v
  | n + 1, v => rotBy n v.rot

/-- Rounds with words in a table. -/
theorem doRounds_spec {env : Env} (hv : env.Valid) {b : R} (hb : b ∈ [R.rsp, .rcx, .rsi, .rdi, .rbp]) {rg : Region} {o : Nat} :
    ∀ (ks : List Nat) {v : Args} {s : State} {w : HV}, Distinct v → s.r b = env.ptr rg o → (∀ k ∈ ks, o + k + 4 ≤ env.size rg) → Hold v s.get32 w →
    (exec env (doRounds (ks.map (.reg b)) v) s).mem = s.mem ∧ (exec env (doRounds (ks.map (.reg b)) v) s).fault = s.fault ∧
    (∀ r ∈ [R.rsp, .rcx, .rsi, .rdi, .rbp], (exec env (doRounds (ks.map (.reg b)) v) s).r r = s.r r) ∧
    Hold (rotBy ks.length v) (exec env (doRounds (ks.map (.reg b)) v) s).get32
      (ks.foldl (fun w k => rnd (readWord (s.mem rg) (o + k)) w) w)
  | [], _, _, _, _, _, _, hh => ⟨rfl, rfl, fun _ _ => rfl, hh⟩
  | k :: ks, v, s, w, hd, hp, hk, hh => by
    rw [List.map_cons, doRounds, exec_append]
    obtain ⟨-, a2, a3, a4, a5⟩ := (doRound_round hd (.reg b k)).spec hv hd hb hp (hk k List.mem_cons_self) hh
    generalize exec env (doRound v (.reg b k)) s = s1 at a2 a3 a4 a5 ⊢
    obtain ⟨b1, b2, b3, b4⟩ := doRounds_spec hv hb (rg := rg) (o := o) ks (s := s1) hd.rot ((a4 b hb).trans hp)
      (fun j hj => hk j (List.mem_cons_of_mem _ hj)) a5
    refine ⟨b1.trans a2, b2.trans a3, fun r hr => (b3 r hr).trans (a4 r hr), ?_⟩
    rw [a2] at b4
    exact b4

theorem rounds_foldl {g : Nat → Word} {m : Nat → Word} (w : HV) : ∀ n, (∀ i, i < n → g (i * 4) = K i + W m i) →
    ((List.range n).map (· * 4)).foldl (fun w k => rnd (g k) w) w = rounds m n w
  | 0, _ => rfl
  | n + 1, h => by
    rw [List.range_succ, List.map_append, List.foldl_append, rounds_foldl w n fun i hi => h i (by omega)]
    show rnd (g (n * 4)) _ = _
    rw [h n (by omega), ← round_eq_rnd]
    rfl

theorem padRounds_spec {env : Env} {o : Nat} {s0 s : State} {w : HV} (hv : env.Valid) (L : Loaded env s0.mem) (h : Kept o s0 w s)
    (hc : s.r .rcx = env.ptr .one PADDING) :
    Kept o s0 (rounds padBlock 64 w) (exec env (padRounds args) s) ∧ (exec env (padRounds args) s).mem = s.mem := by
  have hsz := size_le L
  have e : padRounds args = doRounds (((List.range 64).map (· * 4)).map (.reg .rcx)) args := by
    rw [padRounds, List.map_map]; rfl
  obtain ⟨a1, a2, a3, a4⟩ := doRounds_spec hv (b := .rcx) (by decide) (rg := .one) (o := PADDING) ((List.range 64).map (· * 4)) distinct_args hc
    (fun k hk => by
      obtain ⟨i, hi, rfl⟩ := List.mem_map.mp hk
      have := List.mem_range.mp hi
      simp only [PADDING]
      omega) h.hold
  rw [← e] at a1 a2 a3 a4
  rw [rounds_foldl (m := padBlock) w 64 fun i hi => by
    rw [h.mem .one (by decide), word L (i := 72 + i) (by simp only [PADDING]; omega) (by omega), data_pad i hi, padWK_getD hi]] at a4
  rw [List.length_map, List.length_range] at a4
  have h64 : rotBy 64 args = args := rfl
  rw [h64] at a4
  refine ⟨⟨a2.trans h.fault, fun r hr => (a3 r ?_).trans (h.regs r hr), fun r hr => by rw [a1]; exact h.mem r hr,
    fun i hi => by rw [a1]; exact h.stack i hi, a4⟩, a1⟩
  revert r; decide

/-- The instructions that reverse the bytes. -/
def bswaps : List Instr := args.regs.map .bswap32

theorem final_spec {env : Env} {o q : Nat} {s0 s : State} {w u : HV} (hv : env.Valid) (h : Kept o s0 w s) (hsp : s0.r .rsp = env.ptr .stack o)
    (hroom : o + 64 ≤ env.size .stack) (hdi : s0.r .rdi = env.ptr .output q) (hout : q + 32 ≤ env.size .output)
    (hu : ∀ i, i < 8 → readWord (s.mem .stack) (o + 32 + 4 * i) = u.word i) :
    (exec env (final args) s).fault = false ∧ (∀ r ∈ [R.rsp, .rsi, .rdi, .rbp], (exec env (final args) s).r r = s0.r r) ∧
    (∀ r, r ≠ .output → (exec env (final args) s).mem r = s.mem r) ∧
    (∀ i, i < q ∨ q + 32 ≤ i → (exec env (final args) s).mem .output i = s0.mem .output i) ∧
    ∀ i, i < 8 → readWord ((exec env (final args) s).mem .output) (q + 4 * i) = bswap ((w.add u).word i) := by
  have e : final args = addWords .rsp 32 ++ (bswaps ++ stSeq .rdi 0 args.regs) := rfl
  rw [e, exec_append, exec_append]
  obtain ⟨b1, b2, b3, b4⟩ := addWords_spec hv (b := .rsp) (by decide) (d := 32) (rg := .stack) (o := o) (s := s) (u := u)
    ((h.regs _ (by decide)).trans hsp) (by omega) h.hold hu
  generalize exec env (addWords .rsp 32) s = s1 at b1 b2 b3 b4 ⊢
  have hr1 : ∀ r ∈ [R.rsp, .rsi, .rdi, .rbp], s1.r r = s0.r r := fun r hr =>
    (b3 r (by revert r; decide)).trans (h.regs r hr)
  obtain ⟨-, c2, c3, c4, c5⟩ := exec_scalar hv (b := .rsp) (rg := .stack) (o := o) (n := 0) bswaps (s := s1) rfl rfl rfl
    ((hr1 _ (by decide)).trans hsp) (by omega)
  have hw : ∀ i (hi : i < args.regs.length), (exec env bswaps s1).get32 args.regs[i] = bswap ((w.add u).word i) := by
    rw [c2]
    intro i hi
    have key : sexec (ldAt (s1.mem .stack) o) (spart bswaps) s1.get32 args.regs[i] = bswap (s1.get32 args.regs[i]) := by
      match i, hi with
      | 0, _ | 1, _ | 2, _ | 3, _ | 4, _ | 5, _ | 6, _ | 7, _ => rfl
    rw [key, b4.word i hi]
  have hr2 : ∀ r ∈ [R.rsp, .rsi, .rdi, .rbp], (exec env bswaps s1).r r = s0.r r := fun r hr => by
    rw [c5 r, hr1 r hr]
    clear c5 c2 c3 c4
    revert r; decide
  generalize exec env bswaps s1 = s2 at c2 c3 c4 c5 hw hr2 ⊢
  obtain ⟨d1, d2, d3, d4, d5, d6⟩ := stSeq_spec hv (b := .rdi) (r := .output) (o := q) hv.output args.regs 0 (s := s2)
    ((hr2 _ (by decide)).trans hdi) (by show q + 0 + 4 * 8 ≤ _; omega)
  refine ⟨by rw [d3, c4, b2, h.fault], fun r hr => by rw [d1, hr2 r hr], fun r hr => by rw [d4 r hr, c3, b1], fun i hi => ?_, fun i hi => ?_⟩
  · rw [d5 i (by rw [show args.regs.length = 8 from rfl]; omega), c3, b1, h.mem .output (by decide)]
  · exact (d6 i hi).trans (hw i hi)

theorem epilogue_spec {env : Env} {o : Nat} {s : State} (hv : env.Valid) (hsp : s.r .rsp = env.ptr .stack o) (hroom : o + 120 ≤ env.size .stack) :
    (exec env epilogue s).fault = s.fault ∧ (exec env epilogue s).mem = s.mem ∧ (exec env epilogue s).r .rsp = env.ptr .stack (o + 120) ∧
    (∀ r, r ≠ .rsp → r ∉ saved → (exec env epilogue s).r r = s.r r) ∧
    ∀ i (h : i < saved.length), (exec env epilogue s).r saved[i] = readQuad (s.mem .stack) (o + 120 - 8 * (i + 1)) := by
  have e : epilogue = .addImm .rsp STACK_size :: popSeq saved.reverse := rfl
  rw [e, exec_cons]
  obtain ⟨s1, hs1⟩ : ∃ s1, step env s (.addImm .rsp STACK_size) = s1 := ⟨_, rfl⟩
  have a1 : s1.r = upd s.r .rsp (env.ptr .stack (o + 64)) := by rw [← ptr_add, ← hsp, ← hs1]; rfl
  have a2 : s1.mem = s.mem := by rw [← hs1]; rfl
  have a3 : s1.fault = s.fault := by rw [← hs1]; rfl
  rw [hs1]
  clear hs1
  obtain ⟨-, b2, b3, b4, b5, b6⟩ := popSeq_spec hv saved.reverse (s := s1) (o := o + 64) (by rw [a1, upd_same]) (by show o + 64 + 8 * 7 ≤ _; omega)
    (by decide) (by decide)
  refine ⟨b2.trans a3, b3.trans a2, b4, fun r hr hs => ?_, fun i hi => ?_⟩
  · rw [b5 r hr (by rw [List.mem_reverse]; exact hs), a1, upd_ne _ _ hr]
  · have h7 : saved.length = 7 := rfl
    have h := b6 (6 - i) (by rw [List.length_reverse]; omega)
    rw [List.getElem_reverse] at h
    rw [a2, show o + 64 + 8 * (6 - i) = o + 120 - 8 * (i + 1) by omega] at h
    rw [← h]
    congr 1
    have : saved.length - 1 - (6 - i) = i := by omega
    simp only [this]

end Mammon.X86.One

namespace Mammon.X86
open One Spec.SHA256

/-- The contract of `sha256_1_avx`, with the registers that `sha256_4_avx` relies on. -/
theorem one_spec (env : Env) : OneSpec env := by
  intro cs s t ii oo E
  have hv := E.valid
  have hd := E.depth
  have ht := E.top
  have hi := E.input
  have ho := E.output
  have hal := E.align
  obtain ⟨o, rfl⟩ : ∃ o, t = o + 120 := ⟨t - 120, by omega⟩
  have F := prologue_spec E
  have hb : exec env body s = exec env epilogue (exec env (final args) (exec env (padRounds args) (exec env (middle args)
      (exec env (rep2 args xs) (exec env (rep2 args xs) (exec env (rep3 args xs) (exec env (rep3 args xs) (exec env (rep3 args xs)
      (exec env (loads args xs) (exec env prologue s)))))))))) := by
    rw [body]; simp only [exec_append]
  generalize exec env prologue s = s1 at F hb
  have L : Loaded env s1.mem := E.loaded.congr fun r h _ _ => F.other r h
  have hm : s1.mem .input = s.mem .input := F.other _ (by decide)
  have I0 := loads_spec hv L ((F.regs _ (by decide)).trans E.rsi) (by omega) F
  rw [hm] at I0
  generalize exec env (loads args xs) s1 = a0 at I0 hb
  have I1 := rep3_spec (j := 0) hv L F.rsp (by omega) (by omega) (by omega) rfl I0
  generalize exec env (rep3 args xs) a0 = a1 at I1 hb
  have I2 := rep3_spec (j := 16) hv L F.rsp (by omega) (by omega) (by omega) rfl I1
  generalize exec env (rep3 args xs) a1 = a2 at I2 hb
  have I3 := rep3_spec (j := 32) hv L F.rsp (by omega) (by omega) (by omega) rfl I2
  generalize exec env (rep3 args xs) a2 = a3 at I3 hb
  have I4 := rep2_spec (j := 48) (q := 4) hv L F.rsp (by omega) (by omega) (by omega) (by omega) rfl I3
  generalize exec env (rep2 args xs) a3 = a4 at I4 hb
  have I5 := rep2_spec (j := 56) (q := 2) hv L F.rsp (by omega) (by omega) (by omega) (by omega) rfl I4
  generalize exec env (rep2 args xs) a4 = a5 at I5 hb
  obtain ⟨m1, m2, m3⟩ := middle_spec hv L F.rsp (by omega) I5
  generalize exec env (middle args) a5 = a6 at m1 m2 m3 hb
  obtain ⟨p1, p2⟩ := padRounds_spec hv L m1 m2
  rw [← p2] at m3
  generalize exec env (padRounds args) a6 = a7 at p1 p2 m3 hb
  obtain ⟨f1, f2, f3, f4, f5⟩ := final_spec hv p1 F.rsp (by omega) ((F.regs _ (by decide)).trans E.rdi) (by omega) m3
  generalize exec env (final args) a7 = a8 at f1 f2 f3 f4 f5 hb
  obtain ⟨e1, e2, e3, e4, e5⟩ := epilogue_spec hv ((f2 _ (by decide)).trans F.rsp) (by omega)
  obtain ⟨b, hsb⟩ : ∃ b, exec env body s = b := ⟨_, rfl⟩
  rw [← hb, hsb] at e1 e2 e3 e4 e5
  have hstack : ∀ i, o + 64 ≤ i → a8.mem .stack i = s1.mem .stack i := fun i h => by
    rw [f3 _ (by decide)]; exact p1.stack i (by omega)
  have hsaved : ∀ r ∈ saved, b.r r = s.r r := fun r hr => by
    obtain ⟨i, hi, rfl⟩ := List.getElem_of_mem hr
    have h7 : saved.length = 7 := rfl
    rw [e5 i hi, ← F.slots i hi]
    exact readQuad_congr fun j h1 h2 => hstack j (by omega)
  have hs : ∀ i, o + 120 ≤ i → b.mem .stack i = s.mem .stack i := fun i h => by
    rw [e2, hstack i (by omega), F.stack i (by omega)]
  have hr : Steps env code [.one] (.run .one cs s) (back (b.setR .rsp (env.ptr .stack (o + 120 + 8))) cs) := by
    refine Steps.one ((advance_run (b := body) (tm := .ret) rfl hsb (e1.trans f1)).trans ?_)
    refine finish_ret hv (e1.trans f1) e3 ht ?_
    rw [← E.ret]
    exact readQuad_congr fun j h1 _ => hs j h1
  obtain ⟨s', hs'⟩ : ∃ s', b.setR .rsp (env.ptr .stack (o + 120 + 8)) = s' := ⟨_, rfl⟩
  have g1 : s'.r = upd b.r .rsp (env.ptr .stack (o + 120 + 8)) := by rw [← hs']; rfl
  have g2 : s'.mem = b.mem := by rw [← hs']; rfl
  have g3 : s'.fault = b.fault := by rw [← hs']; rfl
  rw [hs'] at hr
  clear hs'
  have hd' : ∀ r, r ∈ [R.rdi, .rsi] → s'.r r = s.r r := fun r hr => by
    have h1 : r ≠ .rsp := by revert r; decide
    have h2 : r ∉ saved := by clear h1; revert r; decide
    have h3 : r ∈ [R.rsp, .rsi, .rdi, .rbp] := by clear h1 h2; revert r; decide
    rw [g1, upd_ne _ _ h1, e4 r h1 h2, f2 r h3, F.regs r h1]
  refine ⟨s', hr, ⟨?_, ?_, fun r hr => ?_, fun i hi => ?_, fun p hp => ?_, fun p hp => ?_, fun r h1 h2 _ => ?_⟩, hd' _ (by decide), hd' _ (by decide), ?_⟩
  · rw [g3, e1, f1]
  · rw [g1, upd_same]
  · rw [g1, upd_ne, hsaved r]
    · revert r; decide
    · revert r; decide
  · obtain rfl : i = 0 := by omega
    rw [g2, e2]
    exact hash_block f5
  · rw [g2, e2, f4 p (by omega), F.other _ (by decide)]
  · rw [g2, hs p hp]
  · rw [g2, e2, f3 r h1, p1.mem r h2, F.other r h2]
  · rw [g1, upd_ne _ _ (by decide), hsaved _ (by decide)]

/-- The contract of `sha256_4_avx`. -/
theorem four_spec {env : Env} {cs : List Label} {s : State} {t ii oo n : Nat} (E : Entry env 536 t ii oo n (retTo env cs) s)
    (hdx : s.r .rdx = BitVec.ofNat 64 n) (hn : n < 2 ^ 63) :
    ∃ s', Steps env code (fourPath n) (.run .four cs s) (back s' cs) ∧ Exit env [] t ii oo n s s' := four_of_one (one_spec env) E.toCalled (fun _ => E.align) hdx hn

end Mammon.X86
