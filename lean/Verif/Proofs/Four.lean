import Verif.Proofs.Words
import Mathlib.Tactic.Tauto
/-!
# The four-lane routine
-/

namespace Mammon.X86.Four
open Spec.SHA256 Lane

/-! ## The data section -/

theorem data_k : ∀ j, j < 64 → ∀ l, l < 4 → data.getD (4 * j + l) 0 = K j := by decide +kernel
theorem padding_eq : padding = padWK := by decide +kernel
theorem data_pad' : ∀ j, j < 64 → ∀ l, l < 4 → data.getD (256 + 4 * j + l) 0 = padding.getD j 0 := by decide +kernel
theorem data_pad (j : Nat) (hj : j < 64) (l : Nat) (hl : l < 4) : data.getD (256 + 4 * j + l) 0 = padWK.getD j 0 := by
  rw [data_pad' j hj l hl, padding_eq]
theorem data_digest : ∀ j, j < 8 → ∀ l, l < 4 → data.getD (512 + 4 * j + l) 0 = H0.word j := by decide +kernel
theorem data_flip : ∀ l, l < 4 → data.getD (544 + l) 0 = flipWord l := by decide +kernel
theorem data_length : data.length = 548 := by decide +kernel

theorem mem_sections : Region.four ∈ [Region.one, .four, .eight, .shaniRo] := by decide

theorem word {env : Env} {mem : Mem} (L : Loaded env mem) {p i : Nat} (hp : p = 4 * i) (hi : i < 548) :
    readWord (mem .four) p = data.getD i 0 := L.word mem_sections hp (by show i < data.length; rw [data_length]; exact hi)

theorem size_le {env : Env} {mem : Mem} (L : Loaded env mem) : 2192 ≤ env.size .four := by
  have := L.size .four mem_sections
  rw [show sectionData .four = data from rfl, data_length] at this
  exact this

theorem base_mod {env : Env} {mem : Mem} (L : Loaded env mem) : env.base .four % 64 = 0 := L.align .four (by decide)

theorem dlay {env : Env} {mem : Mem} (hv : env.Valid) (L : Loaded env mem) : DLay env cfg4 .four DIGEST_4 mem := by
  have h1 := size_le L
  have h2 := base_mod L
  have h3 : cfg4.sz = 16 := rfl
  refine ⟨hv, by rw [h3]; simp only [DIGEST_4]; omega, by rw [h3]; simp only [DIGEST_4]; omega, fun j l hj hl => ?_⟩
  have hl : l < 4 := hl
  rw [h3, word L (i := 512 + 4 * j + l) (by simp only [DIGEST_4]; omega) (by omega), data_digest j hj l hl]

theorem play {env : Env} {mem : Mem} (hv : env.Valid) (L : Loaded env mem) : PLay env cfg4 .four PADDING_4 mem := by
  have h1 := size_le L
  have h2 := base_mod L
  have h3 : cfg4.sz = 16 := rfl
  refine ⟨hv, by decide, by rw [h3]; simp only [PADDING_4]; omega, by rw [h3]; simp only [PADDING_4]; omega, fun j l hj hl => ?_⟩
  have hl : l < 4 := hl
  rw [h3, word L (i := 256 + 4 * j + l) (by simp only [PADDING_4]; omega) (by omega), data_pad j hj l hl]

theorem lay {env : Env} {mem : Mem} (hv : env.Valid) (L : Loaded env mem) {o : Nat} (hroom : o + 256 ≤ env.size .stack)
    (hal : (env.base .stack + o) % 16 = 0) : Lay env cfg4 .four o 256 mem := by
  have h1 := size_le L
  have h3 : cfg4.sz = 16 := rfl
  refine ⟨hv, by decide, by decide, by rw [h3]; decide, hroom, by rw [h3]; exact hal, by rw [h3]; omega, fun j l hj hl => ?_⟩
  have hl : l < 4 := hl
  rw [h3, word L (i := 4 * j + l) (by omega) (by omega), data_k j hj l hl]

theorem flip {env : Env} {mem : Mem} (L : Loaded env mem) {l : Nat} (hl : l < 4) : readWord (mem .four) (FLIP_MASK + 4 * l) = flipWord l := by
  rw [word L (i := 544 + l) (by simp only [FLIP_MASK]; omega) (by omega), data_flip l hl]

/-! ## Loading four words of each of the four blocks -/

/-- The part of `load4` after the loads. -/
def shuffle : List Instr :=
  transpose TT2 TT1 TT4 TT3 TT0 TT5 ++
  [.vpshufb .xmm TT0 TT0 TMP, .vpshufb .xmm TT1 TT1 TMP, .vpshufb .xmm TT2 TT2 TMP, .vpshufb .xmm TT3 TT3 TMP]

theorem shuffle_spec (f : X → Lanes) (hf : ∀ l, l < 4 → f TMP l = flipWord l) :
    (∀ x, x ∉ [X.x9, .x10, .x11, .x12, .x13, .x14, .x15] → vregs shuffle f x = f x) ∧
    ∀ l, l < 4 →
      vregs shuffle f TT0 l = bswap (([f TT2, f TT1, f TT4, f TT3].getD l fun _ => 0) 0) ∧
      vregs shuffle f TT1 l = bswap (([f TT2, f TT1, f TT4, f TT3].getD l fun _ => 0) 1) ∧
      vregs shuffle f TT2 l = bswap (([f TT2, f TT1, f TT4, f TT3].getD l fun _ => 0) 2) ∧
      vregs shuffle f TT3 l = bswap (([f TT2, f TT1, f TT4, f TT3].getD l fun _ => 0) 3) := by
  constructor
  · intro x hx
    cases x <;> first | rfl | exact absurd (by decide) hx
  · intro l hl
    have hz : ∀ v : Lanes, zx .xmm (pshufb v (f TMP)) l = bswap (v l) := fun v => by
      rw [zx_xmm _ hl, pshufb_flip _ _ (by omega) (hf l hl)]
    have e0 : vregs shuffle f TT0 l = _ := hz (vregs (transpose TT2 TT1 TT4 TT3 TT0 TT5) f TT0)
    have e1 : vregs shuffle f TT1 l = _ := hz (vregs (transpose TT2 TT1 TT4 TT3 TT0 TT5) f TT1)
    have e2 : vregs shuffle f TT2 l = _ := hz (vregs (transpose TT2 TT1 TT4 TT3 TT0 TT5) f TT2)
    have e3 : vregs shuffle f TT3 l = _ := hz (vregs (transpose TT2 TT1 TT4 TT3 TT0 TT5) f TT3)
    rw [e0, e1, e2, e3]
    have : l = 0 ∨ l = 1 ∨ l = 2 ∨ l = 3 := by omega
    rcases this with h | h | h | h <;> subst h <;> exact ⟨rfl, rfl, rfl, rfl⟩

theorem load4_spec {env : Env} {s : State} {p i : Nat} (hv : env.Valid) (L : Loaded env s.mem) (hsi : s.r .rsi = env.ptr .input p)
    (hi : i < 4) (hin : p + 256 ≤ env.size .input) :
    (exec env (load4 i) s).r = s.r ∧ (exec env (load4 i) s).mem = s.mem ∧ (exec env (load4 i) s).fault = s.fault ∧
    (∀ x, x ∉ [X.x9, .x10, .x11, .x12, .x13, .x14, .x15] → (exec env (load4 i) s).x x = s.x x) ∧
    ∀ l, l < 4 →
      (exec env (load4 i) s).x TT0 l = msg (s.mem .input) (p + 64 * l) (4 * i) ∧
      (exec env (load4 i) s).x TT1 l = msg (s.mem .input) (p + 64 * l) (4 * i + 1) ∧
      (exec env (load4 i) s).x TT2 l = msg (s.mem .input) (p + 64 * l) (4 * i + 2) ∧
      (exec env (load4 i) s).x TT3 l = msg (s.mem .input) (p + 64 * l) (4 * i + 3) := by
  have h1 := size_le L
  have h2 := base_mod L
  have hw : Width.lanes .xmm = 4 := rfl
  have hld : load4 i = .vload .dqa .xmm TMP (.rel .four FLIP_MASK) :: (loadAt .ups .xmm .rsi
      [(TT2, 0 * 64 + i * 16), (TT1, 1 * 64 + i * 16), (TT4, 2 * 64 + i * 16), (TT3, 3 * 64 + i * 16)] ++ shuffle) := rfl
  rw [hld, exec_cons, exec_append]
  rw [step_vload hv TMP (r := .four) (o := FLIP_MASK) (ea_rel _ _ _ _) (by rw [hw]; simp only [FLIP_MASK]; omega)
    (fun _ => by rw [hw]; simp only [FLIP_MASK]; omega)]
  rw [loadAt_spec hv (r := .input) (o := p) _ (by exact hsi)
    (by simp only [List.mem_cons, List.not_mem_nil, or_false, forall_eq_or_imp, forall_eq, hw]; omega) (by simp)]
  generalize h5 : ({ s.setX TMP _ with x := _ } : State) = s5
  have hr : s5.r = s.r := by rw [← h5]; rfl
  have hm : s5.mem = s.mem := by rw [← h5]; rfl
  have hf : s5.fault = s.fault := by rw [← h5]; rfl
  have hx : ∀ x, x ∉ [X.x9, .x10, .x11, .x12, .x13, .x14, .x15] → s5.x x = s.x x := by
    intro x hx
    rw [← h5]
    cases x <;> first | rfl | exact absurd (by decide) hx
  have hT : ∀ l, l < 4 → s5.x TMP l = flipWord l := by
    intro l hl
    rw [← flip L hl, ← h5]
    exact zx_xmm (fun l => readWord (s.mem .four) (FLIP_MASK + 4 * l)) hl
  have hl0 : ∀ l, l < 4 → s5.x TT2 l = readWord (s.mem .input) (p + (0 * 64 + i * 16) + 4 * l) := by
    intro l hl; rw [← h5]; exact zx_xmm (fun l => readWord (s.mem .input) (p + (0 * 64 + i * 16) + 4 * l)) hl
  have hl1 : ∀ l, l < 4 → s5.x TT1 l = readWord (s.mem .input) (p + (1 * 64 + i * 16) + 4 * l) := by
    intro l hl; rw [← h5]; exact zx_xmm (fun l => readWord (s.mem .input) (p + (1 * 64 + i * 16) + 4 * l)) hl
  have hl2 : ∀ l, l < 4 → s5.x TT4 l = readWord (s.mem .input) (p + (2 * 64 + i * 16) + 4 * l) := by
    intro l hl; rw [← h5]; exact zx_xmm (fun l => readWord (s.mem .input) (p + (2 * 64 + i * 16) + 4 * l)) hl
  have hl3 : ∀ l, l < 4 → s5.x TT3 l = readWord (s.mem .input) (p + (3 * 64 + i * 16) + 4 * l) := by
    intro l hl; rw [← h5]; exact zx_xmm (fun l => readWord (s.mem .input) (p + (3 * 64 + i * 16) + 4 * l)) hl
  clear h5
  have hex : exec env shuffle s5 = { s5 with x := vregs shuffle s5.x } := exec_vregs rfl
  rw [hex]
  have hs := shuffle_spec s5.x hT
  refine ⟨hr, hm, hf, fun x hx' => (hs.1 x hx').trans (hx x hx'), fun l hl => ?_⟩
  have key : ∀ c, c < 4 → ([s5.x TT2, s5.x TT1, s5.x TT4, s5.x TT3].getD l fun _ => 0) c =
      readWord (s.mem .input) (p + 64 * l + 4 * (4 * i + c)) := by
    intro c hc
    have : l = 0 ∨ l = 1 ∨ l = 2 ∨ l = 3 := by omega
    rcases this with h | h | h | h <;> subst h
    · refine (hl0 c hc).trans ?_; congr 1; omega
    · refine (hl1 c hc).trans ?_; congr 1; omega
    · refine (hl2 c hc).trans ?_; congr 1; omega
    · refine (hl3 c hc).trans ?_; congr 1; omega
  have h4 := hs.2 l hl
  rw [key 0 (by decide), key 1 (by decide), key 2 (by decide), key 3 (by decide)] at h4
  exact h4

/-! ## The rounds 0 to 15 -/

/-- The working variables are in the registers `xmm0` to `xmm7`. -/
structure Good (v : Args) : Prop where
  d0 : Distinct cfg4 v TT0
  d1 : Distinct cfg4 v TT1
  d2 : Distinct cfg4 v TT2
  d3 : Distinct cfg4 v TT3
  regs : ∀ x ∈ v.regs, x ∈ [X.x0, .x1, .x2, .x3, .x4, .x5, .x6, .x7]

theorem Good.rot {v : Args} (h : Good v) : Good v.rot :=
  ⟨h.d0.rot, h.d1.rot, h.d2.rot, h.d3.rot, fun x hx => h.regs x (by
    simp only [Args.regs, Args.rot, List.mem_cons, List.not_mem_nil, or_false] at hx ⊢
    tauto)⟩

theorem good_args : Good args := ⟨by decide, by decide, by decide, by decide, by decide⟩

theorem Good.keep {v : Args} (h : Good v) {x t : X} (hx : x ∈ [TT0, TT1, TT2, TT3]) (ht : t ≠ x) :
    x ∉ v.d :: v.h :: t :: cfg4.scratch := by
  have h1 := h.regs v.d (by simp [Args.regs])
  have h2 := h.regs v.h (by simp [Args.regs])
  intro hm
  rcases List.mem_cons.mp hm with e | hm
  · rw [← e] at h1; revert hx h1; clear hm ht e; cases x <;> decide
  · rcases List.mem_cons.mp hm with e | hm
    · rw [← e] at h2; revert hx h2; clear hm ht e; cases x <;> decide
    · rcases List.mem_cons.mp hm with e | hm
      · exact ht e.symm
      · revert hx hm; clear ht; cases x <;> decide

theorem group_spec {env : Env} {o p i : Nat} {s0 s : State} {v : Args} (hv : env.Valid) (L : Loaded env s0.mem)
    (hL : Lay env cfg4 .four o 256 s0.mem) (hsp : s0.r .rsp = env.ptr .stack o) (htbl : s0.r .rcx = env.ptr .four 0)
    (hsi : s0.r .rsi = env.ptr .input p) (hin : p + 256 ≤ env.size .input) (hg : Good v) (hi : i < 4)
    (hI : Inv env cfg4 .four o 256 (fun l => msg (s0.mem .input) (p + 64 * l)) s0 (4 * i) v s) :
    Inv env cfg4 .four o 256 (fun l => msg (s0.mem .input) (p + 64 * l)) s0 (4 * (i + 1)) v.rot.rot.rot.rot (exec env (group v i) s) := by
  have hmem : ∀ r, r ≠ .stack → s.mem r = s0.mem r := hI.mem
  have hLd : Loaded env s.mem := ⟨L.align, L.size, L.sizeRw, fun r hr => by
    rw [hmem r (by rintro rfl; revert hr; decide)]; exact L.data r hr⟩
  have h := load4_spec hv hLd (i := i) (p := p) (by rw [hI.regs _ (by decide)]; exact hsi) hi hin
  rw [group, exec_append]
  generalize exec env (load4 i) s = s1 at h ⊢
  obtain ⟨h1, h2, h3, h4, h5⟩ := h
  rw [hmem .input (by decide)] at h5
  have hI1 : Inv env cfg4 .four o 256 (fun l => msg (s0.mem .input) (p + 64 * l)) s0 (4 * i) v s1 := by
    refine ⟨h3.trans hI.fault, fun r hr => by rw [h1]; exact hI.regs r hr, by rw [h1]; exact hI.round, fun l hl => (hI.hold l hl).congr fun x hx => h4 x ?_,
      by rw [h2]; exact hI.sched, by rw [h2]; exact hI.mem, by rw [h2]; exact hI.stack⟩
    have := hg.regs x hx
    revert this; clear hx; cases x <;> decide
  have hW : ∀ t, t < 16 → ∀ l, W (msg (s0.mem .input) (p + 64 * l)) t = msg (s0.mem .input) (p + 64 * l) t := fun t ht l => W_lt _ ht
  rw [exec_append]
  obtain ⟨hA, hAx⟩ := hI1.step hL hsp htbl hg.d0 (i := i * 4 + 0) (by omega) (by omega) (fun l hl => by rw [hW _ (by omega)]; exact (h5 l hl).1)
  generalize exec env (round0015 cfg4 v TT0 (i * 4 + 0)) s1 = s2 at hA hAx ⊢
  rw [exec_append]
  obtain ⟨hB, hBx⟩ := hA.step hL hsp htbl hg.rot.d1 (i := i * 4 + 1) (by omega) (by omega)
    (fun l hl => by rw [hW _ (by omega), hAx _ (hg.keep (by decide) (by decide))]; exact (h5 l hl).2.1)
  generalize exec env (round0015 cfg4 v.rot TT1 (i * 4 + 1)) s2 = s3 at hB hBx ⊢
  rw [exec_append]
  obtain ⟨hC, hCx⟩ := hB.step hL hsp htbl hg.rot.rot.d2 (i := i * 4 + 2) (by omega) (by omega)
    (fun l hl => by
      rw [hW _ (by omega), hBx _ (hg.rot.keep (by decide) (by decide)), hAx _ (hg.keep (by decide) (by decide))]
      exact (h5 l hl).2.2.1)
  generalize exec env (round0015 cfg4 v.rot.rot TT2 (i * 4 + 2)) s3 = s4 at hC hCx ⊢
  obtain ⟨hD, -⟩ := hC.step hL hsp htbl hg.rot.rot.rot.d3 (i := i * 4 + 3) (by omega) (by omega)
    (fun l hl => by
      rw [hW _ (by omega), hCx _ (hg.rot.rot.keep (by decide) (by decide)), hBx _ (hg.rot.keep (by decide) (by decide)),
        hAx _ (hg.keep (by decide) (by decide))]
      exact (h5 l hl).2.2.2)
  exact hD

theorem groups_spec {env : Env} {o p : Nat} {s0 : State} (hv : env.Valid) (L : Loaded env s0.mem)
    (hL : Lay env cfg4 .four o 256 s0.mem) (hsp : s0.r .rsp = env.ptr .stack o) (htbl : s0.r .rcx = env.ptr .four 0)
    (hsi : s0.r .rsi = env.ptr .input p) (hin : p + 256 ≤ env.size .input) :
    ∀ (n : Nat) {v : Args} {i : Nat} {s : State}, Good v → i + n ≤ 4 →
    Inv env cfg4 .four o 256 (fun l => msg (s0.mem .input) (p + 64 * l)) s0 (4 * i) v s →
    Inv env cfg4 .four o 256 (fun l => msg (s0.mem .input) (p + 64 * l)) s0 (4 * (i + n)) (v.rotN (4 * n)) (exec env (groups n v i) s)
  | 0, _, _, _, _, _, h => h
  | n + 1, v, i, s, hg, hi, h => by
    rw [groups, exec_append, show 4 * (n + 1) = 4 * n + 1 + 1 + 1 + 1 by omega, show i + (n + 1) = i + 1 + n by omega]
    exact groups_spec hv L hL hsp htbl hsi hin n hg.rot.rot.rot.rot (by omega) (group_spec hv L hL hsp htbl hsi hin hg (by omega) h)

/-! ## The output -/

/-- The two transpositions of the hash values. -/
def outA : List Instr := transpose args.a args.b args.c args.d TT0 TT1 ++ transpose args.e args.f args.g args.h TT2 TT1

/-- Reversing the bytes of the hash values. -/
def outB : List Instr :=
  [.vpshufb .xmm TT0 TT0 TMP, .vpshufb .xmm TT2 TT2 TMP, .vpshufb .xmm args.b args.b TMP, .vpshufb .xmm args.f args.f TMP,
   .vpshufb .xmm args.a args.a TMP, .vpshufb .xmm args.e args.e TMP, .vpshufb .xmm args.d args.d TMP, .vpshufb .xmm args.h args.h TMP]

/-- The registers in the order in which they are stored. -/
def outRegs : List X := [TT0, TT2, args.b, args.f, args.a, args.e, args.d, args.h]

theorem outA_spec (f : X → Lanes) : ∀ l, l < 4 → ∀ i, i < 8 →
    vregs outA f (outRegs.getD (2 * l + i / 4) TMP) (i % 4) = f (args.regs.getD i TMP) l := by
  intro l hl i hi
  have h1 : l = 0 ∨ l = 1 ∨ l = 2 ∨ l = 3 := by omega
  have h2 : i = 0 ∨ i = 1 ∨ i = 2 ∨ i = 3 ∨ i = 4 ∨ i = 5 ∨ i = 6 ∨ i = 7 := by omega
  rcases h1 with h | h | h | h <;> subst h <;> rcases h2 with h | h | h | h | h | h | h | h <;> subst h <;> rfl

theorem outB_spec (f : X → Lanes) (hf : ∀ l, l < 4 → f TMP l = flipWord l) : ∀ j, j < 8 → ∀ l, l < 4 →
    vregs outB f (outRegs.getD j TMP) l = bswap (f (outRegs.getD j TMP) l) := by
  intro j hj l hl
  have hz : ∀ v : Lanes, zx .xmm (pshufb v (f TMP)) l = bswap (v l) := fun v => by
    rw [zx_xmm _ hl, pshufb_flip _ _ (by omega) (hf l hl)]
  have h2 : j = 0 ∨ j = 1 ∨ j = 2 ∨ j = 3 ∨ j = 4 ∨ j = 5 ∨ j = 6 ∨ j = 7 := by omega
  rcases h2 with h | h | h | h | h | h | h | h <;> subst h <;> exact hz _

/-- After the rounds on the padding: writing the result, moving on. -/
def outC : List Instr :=
  outA ++ (.vload .dqa .xmm TMP (.rel .four FLIP_MASK) :: (outB ++ (storeSeq .dqu .xmm .rdi 0 outRegs ++
    [.addImm .rsi (64 * 4), .addImm .rdi (32 * 4), .subImm .rdx 4])))

theorem pad_eq : pad = (paddingRounds cfg4 T1 64 args ++ addSeq cfg4.w .rsp _DIGEST args.regs) ++ outC := by
  rw [List.append_assoc]
  exact congrArg (paddingRounds cfg4 T1 64 args ++ ·) rfl

theorem outC_spec {env : Env} {s : State} {p q : Nat} {d : Nat → HV} (hv : env.Valid) (L : Loaded env s.mem) (hf : s.fault = false)
    (hsi : s.r .rsi = env.ptr .input p) (hdi : s.r .rdi = env.ptr .output q) (hout : q + 128 ≤ env.size .output)
    (hh : ∀ l, l < 4 → Hold args s l (d l)) :
    (exec env outC s).fault = false ∧ (exec env outC s).r = upd (upd (upd s.r .rsi (env.ptr .input (p + 256))) .rdi (env.ptr .output (q + 128))) .rdx
      (s.r .rdx - BitVec.ofNat 64 4) ∧
    (∀ r, r ≠ .output → (exec env outC s).mem r = s.mem r) ∧
    (∀ i, i < q ∨ q + 128 ≤ i → (exec env outC s).mem .output i = s.mem .output i) ∧
    ∀ l, l < 4 → ∀ i, i < 8 → readWord ((exec env outC s).mem .output) (q + 32 * l + 4 * i) = bswap ((d l).word i) := by
  have h1 := size_le L
  have h2 := base_mod L
  have hw : Width.lanes .xmm = 4 := rfl
  rw [outC, exec_append, exec_vregs (is := outA) rfl, exec_cons]
  rw [step_vload hv TMP (r := .four) (o := FLIP_MASK) (ea_rel _ _ _ _) (by rw [hw]; simp only [FLIP_MASK]; omega)
    (fun _ => by rw [hw]; simp only [FLIP_MASK]; omega)]
  rw [exec_append]
  obtain ⟨s1, hs1⟩ : ∃ s1 : State, s1 = ({ s with x := vregs outA s.x } : State).setX TMP
    (zx .xmm fun l => readWord (s.mem .four) (FLIP_MASK + 4 * l)) := ⟨_, rfl⟩
  change (exec env _ (exec env outB (({ s with x := vregs outA s.x } : State).setX TMP
    (zx .xmm fun l => readWord (s.mem .four) (FLIP_MASK + 4 * l))))).fault = false ∧ _
  rw [← hs1]
  have g1 : s1.r = s.r := by rw [hs1]; rfl
  have g2 : s1.mem = s.mem := by rw [hs1]; rfl
  have g3 : s1.fault = s.fault := by rw [hs1]; rfl
  have g4 : ∀ l, l < 4 → s1.x TMP l = flipWord l := fun l hl => by
    rw [← flip L hl, hs1]
    exact zx_xmm (fun l => readWord (s.mem .four) (FLIP_MASK + 4 * l)) hl
  have g5 : ∀ j, j < 8 → s1.x (outRegs.getD j TMP) = vregs outA s.x (outRegs.getD j TMP) := fun j hj => by
    rw [hs1]
    refine upd_ne _ _ ?_
    revert j; decide
  clear hs1
  rw [exec_vregs (is := outB) (s := s1) rfl, exec_append]
  have hB := outB_spec s1.x g4
  have h := storeSeq_spec hv (m := .dqu) (w := .xmm) (b := .rdi) (r := .output) (o := q) hv.output outRegs 0
    (s := { s1 with x := vregs outB s1.x }) (by show s1.r .rdi = _; rw [g1]; exact hdi) (by rw [hw, show outRegs.length = 8 from rfl]; omega) (by simp)
  generalize exec env (storeSeq .dqu .xmm .rdi 0 outRegs) _ = s2 at h ⊢
  obtain ⟨k1, k2, k3, k4, k5, k6⟩ := h
  rw [exec_cons, exec_cons, exec_cons, exec_nil]
  refine ⟨?_, ?_, ?_, ?_, ?_⟩
  · exact k3.trans (g3.trans hf)
  · have k1 : s2.r = s.r := k1.trans g1
    have hA : (step env (step env (step env s2 (.addImm .rsi (64 * 4))) (.addImm .rdi (32 * 4))) (.subImm .rdx 4)).r =
      upd (upd (upd s2.r .rsi (s2.r .rsi + BitVec.ofNat 64 (64 * 4))) .rdi
        (upd s2.r .rsi (s2.r .rsi + BitVec.ofNat 64 (64 * 4)) .rdi + BitVec.ofNat 64 (32 * 4))) .rdx
        (upd (upd s2.r .rsi (s2.r .rsi + BitVec.ofNat 64 (64 * 4))) .rdi
          (upd s2.r .rsi (s2.r .rsi + BitVec.ofNat 64 (64 * 4)) .rdi + BitVec.ofNat 64 (32 * 4)) .rdx - BitVec.ofNat 64 4) := rfl
    rw [hA, upd_ne (j := R.rdi) (k := .rsi) _ _ (by decide), upd_ne (j := R.rdx) (k := .rdi) _ _ (by decide), upd_ne (j := R.rdx) (k := .rsi) _ _ (by decide),
      k1, hsi, hdi, ptr_add, ptr_add]
  · intro r hr
    exact (k4 r hr).trans (congrFun g2 r)
  · intro i hi
    refine (k5 i (by rw [hw, show outRegs.length = 8 from rfl]; omega)).trans ?_
    show s1.mem .output i = _
    rw [g2]
  · intro l hl i hi
    have hj : 2 * l + i / 4 < 8 := by omega
    have e := k6 (2 * l + i / 4) (show _ < outRegs.length from hj) (i % 4) (by rw [hw]; omega)
    have e' : ∀ (h : 2 * l + i / 4 < outRegs.length), outRegs[2 * l + i / 4] = outRegs.getD (2 * l + i / 4) TMP := fun h => by
      rw [List.getD_eq_getElem?_getD, List.getElem?_eq_getElem h, Option.getD_some]
    rw [e', hw] at e
    have hp : q + 0 + 4 * 4 * (2 * l + i / 4) + 4 * (i % 4) = q + 32 * l + 4 * i := by omega
    rw [hp] at e
    refine e.trans ?_
    show vregs outB s1.x _ _ = _
    rw [hB _ hj _ (by omega), g5 _ hj, outA_spec s.x l hl i hi]
    have hr := (hh l hl).word i (show i < args.regs.length from hi)
    have e2 : ∀ (h : i < args.regs.length), args.regs[i] = args.regs.getD i TMP := fun h => by
      rw [List.getD_eq_getElem?_getD, List.getElem?_eq_getElem h, Option.getD_some]
    rw [e2] at hr
    rw [hr]

/-! ## A batch of four blocks -/

theorem blocks_eq : blocks = start cfg4 .four DIGEST_4 K256_4 ++ groups 4 args 0 := rfl
theorem mid_eq : mid = middle cfg4 .four DIGEST_4 PADDING_4 _DIGEST := rfl

theorem batch {env : Env} {cs : List Label} {s : State} {o p q : Nat} (hv : env.Valid) (L : Loaded env s.mem) (hf : s.fault = false)
    (hsp : s.r .rsp = env.ptr .stack o) (hroom : o + 384 ≤ env.size .stack) (hal : (env.base .stack + o) % 16 = 0)
    (hsi : s.r .rsi = env.ptr .input p) (hdi : s.r .rdi = env.ptr .output q) (hin : p + 256 ≤ env.size .input)
    (hout : q + 128 ≤ env.size .output) :
    ∃ s', Steps env X86.code fourBatch.tail (.run .fourBlocks cs s) (.run .fourLoop cs s') ∧ Batch env 4 .rbx o 384 p q s s' := by
  have hsz : cfg4.sz = 16 := rfl
  have hw : cfg4.w.lanes = 4 := rfl
  -- the initial hash value
  obtain ⟨a1, a2, a3, a4⟩ := start_spec (kk := K256_4) (dlay hv L)
  obtain ⟨s0, e0⟩ : ∃ s0, exec env (start cfg4 .four DIGEST_4 K256_4) s = s0 := ⟨_, rfl⟩
  rw [e0] at a1 a2 a3 a4
  have hr0 : ∀ r, r ≠ .rbx → r ≠ .rcx → s0.r r = s.r r := fun r h h' => by
    rw [a1, upd_ne _ _ h']; exact upd_ne _ _ h
  have L0 : Loaded env s0.mem := by rw [a2]; exact L
  have hL := lay hv L0 (o := o) (by omega) hal
  have hsp0 : s0.r .rsp = env.ptr .stack o := (hr0 _ (by decide) (by decide)).trans hsp
  have hsi0 : s0.r .rsi = env.ptr .input p := (hr0 _ (by decide) (by decide)).trans hsi
  have htb0 : s0.r .rcx = env.ptr .four 0 := by rw [a1, upd_same]
  have hI0 : Inv env cfg4 .four o 256 (fun l => msg (s0.mem .input) (p + 64 * l)) s0 (4 * 0) args s0 := by
    refine ⟨a3.trans hf, fun _ _ => rfl, ?_, a4, fun _ _ t ht => absurd ht (by omega), fun _ _ => rfl, fun _ _ => rfl⟩
    rw [a1, upd_ne _ _ (by decide)]
    exact upd_same _ _ _
  -- rounds 0 to 15
  have hI1 := groups_spec hv L0 hL hsp0 htb0 hsi0 hin 4 good_args (by omega) hI0
  rw [show args.rotN (4 * 4) = args from rotN_args, show 4 * (0 + 4) = 16 from rfl] at hI1
  obtain ⟨s1, e1⟩ : ∃ s1, exec env (groups 4 args 0) s0 = s1 := ⟨_, rfl⟩
  rw [e1] at hI1
  have r1 : Steps env X86.code [.fourBlocks] (.run .fourBlocks cs s) (.run .fourXX cs s1) :=
    Steps.one (advance_run (b := blocks) (tm := .goto .fourXX) rfl (by rw [blocks_eq, exec_append, e0, e1]) hI1.fault)
  -- rounds 16 to 63
  obtain ⟨s2, r2, hI2⟩ := xx_spec (code := X86.code) (lx := .fourXX) (lm := .fourMid) (cs := cs) (t1 := T1) rfl hL hsp0 htb0 (by decide) hI1
  -- the hash value of the block
  have L2 : Loaded env s2.mem := L0.congr fun r h _ _ => hI2.mem r h
  have hsp2 : s2.r .rsp = env.ptr .stack o := by rw [hI2.regs _ (by decide)]; exact hsp0
  obtain ⟨b1, b2, b3, b4, b5, b6⟩ := middle_spec (dst := _DIGEST) (pad := PADDING_4) (dlay hv L2) hsp2
    (by rw [hsz]; simp only [_DIGEST]; omega) (by rw [hsz]; simp only [_DIGEST]; omega) hI2.hold
  obtain ⟨s3, e3⟩ : ∃ s3, exec env (middle cfg4 .four DIGEST_4 PADDING_4 _DIGEST) s2 = s3 := ⟨_, rfl⟩
  rw [e3] at b1 b2 b3 b4 b5 b6
  have r3 : Steps env X86.code [.fourMid] (.run .fourMid cs s2) (.run .fourPad cs s3) :=
    Steps.one (advance_run (b := mid) (tm := .goto .fourPad) rfl (by rw [mid_eq, e3]) (b2.trans hI2.fault))
  -- the padding
  have L3 : Loaded env s3.mem := L2.congr fun r h _ _ => b3 r h
  have hsp3 : s3.r .rsp = env.ptr .stack o := by
    rw [b1, upd_ne _ _ (by decide), upd_ne _ _ (by decide)]; exact hsp2
  obtain ⟨c1, c2, c3, c4⟩ := padding_spec (t1 := T1) (dst := _DIGEST) (play hv L3) (by decide) (by decide)
    (by rw [b1, upd_ne _ _ (by decide), upd_same]) (by rw [b1]; exact upd_same _ _ _) hsp3 (by rw [hsz]; simp only [_DIGEST]; omega)
    (b2.trans hI2.fault) b6 b5
  obtain ⟨s4, e4⟩ : ∃ s4, exec env (paddingRounds cfg4 T1 64 args ++ addSeq cfg4.w .rsp _DIGEST args.regs) s3 = s4 := ⟨_, rfl⟩
  rw [e4] at c1 c2 c3 c4
  -- the output
  have hr4 : ∀ r, r ≠ .rbx → r ≠ .rcx → s4.r r = s.r r := fun r h h' => by
    rw [c1 r h, b1, upd_ne _ _ (k := cfg4.round) h, upd_ne _ _ h', hI2.regs r h, hr0 r h h']
  obtain ⟨d1, d2, d3, d4, d5⟩ := outC_spec hv (c2 ▸ L3) c3 ((hr4 _ (by decide) (by decide)).trans hsi) ((hr4 _ (by decide) (by decide)).trans hdi)
    hout c4
  obtain ⟨s5, e5⟩ : ∃ s5, exec env outC s4 = s5 := ⟨_, rfl⟩
  rw [e5] at d1 d2 d3 d4 d5
  have r4 : Steps env X86.code [.fourPad] (.run .fourPad cs s3) (.run .fourLoop cs s5) :=
    Steps.one (advance_run (b := pad) (tm := .goto .fourLoop) rfl (by rw [pad_eq, exec_append, e4, e5]) d1)
  have hmem : ∀ r, r ≠ .stack → s4.mem r = s.mem r := fun r h => by
    rw [c2, b3 r h, hI2.mem r h, a2]
  refine ⟨s5, (((r1.trans r2).trans r3).trans r4).cast rfl, d1, fun r hr hb => ?_, ?_, ?_, ?_, fun r h h' => (d3 r h').trans (hmem r h), fun i hi => ?_,
    fun i hi => (d4 i hi).trans (congrFun (hmem .output (by decide)) i), fun l hl => hash_block fun i hi => ?_⟩
  · have hr' : r ≠ .rdx ∧ r ≠ .rdi ∧ r ≠ .rsi ∧ r ≠ .rcx := by revert r; decide
    rw [d2, upd_ne _ _ hr'.1, upd_ne _ _ hr'.2.1, upd_ne _ _ hr'.2.2.1, hr4 r hb hr'.2.2.2]
  · rw [d2, upd_ne _ _ (by decide), upd_ne _ _ (by decide), upd_same]
  · rw [d2, upd_ne _ _ (by decide), upd_same]
  · rw [d2, upd_same, hr4 _ (by decide) (by decide)]
  · rw [d3 .stack (by decide), c2, b4 i (by rw [hsz]; simp only [_DIGEST]; omega), hI2.stack i (by omega), a2]
  · rw [d5 l hl i hi, ← a2]; rfl

end Mammon.X86.Four
