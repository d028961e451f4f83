import Verif.Proofs.LaneRounds
import Verif.Proofs.Run
/-!
# The parts of a batch that the four- and eight-lane routines share
-/

namespace Mammon.Spec.SHA256

/-- The words of a hash value by number. -/
def HV.word (x : HV) : Nat → Word
  | 0 => x.a
  | 1 => x.b
  | 2 => x.c
  | 3 => x.d
  | 4 => x.e
  | 5 => x.f
  | 6 => x.g
  | _ => x.h

theorem HV.add_word (x y : HV) (i : Nat) : (x.add y).word i = x.word i + y.word i := by
  match i with
  | 0 | 1 | 2 | 3 | 4 | 5 | 6 | _ + 7 => rfl

end Mammon.Spec.SHA256

namespace Mammon.X86.Lane
open Spec.SHA256

theorem Hold.word {v : Args} {s : State} {l : Nat} {hv : HV} (h : Hold v s l hv) : ∀ i (hi : i < v.regs.length), s.x v.regs[i] l = hv.word i
  | 0, _ => h.a
  | 1, _ => h.b
  | 2, _ => h.c
  | 3, _ => h.d
  | 4, _ => h.e
  | 5, _ => h.f
  | 6, _ => h.g
  | 7, _ => h.h
  | _ + 8, hi => absurd hi (by simp [Args.regs])

theorem Hold.ofWord {v : Args} {s : State} {l : Nat} {hv : HV} (h : ∀ i (hi : i < v.regs.length), s.x v.regs[i] l = hv.word i) : Hold v s l hv :=
  ⟨h 0 (by simp [Args.regs]), h 1 (by simp [Args.regs]), h 2 (by simp [Args.regs]), h 3 (by simp [Args.regs]), h 4 (by simp [Args.regs]),
    h 5 (by simp [Args.regs]), h 6 (by simp [Args.regs]), h 7 (by simp [Args.regs])⟩

theorem Args.regs_args : args.regs = [.x0, .x1, .x2, .x3, .x4, .x5, .x6, .x7] := rfl

theorem lea_r (env : Env) (s : State) (d : R) (a : Addr) : (step env s (.lea d a)).r = upd s.r d (s.ea env a) := rfl

theorem rotN_args : args.rotN 16 = args := rfl
theorem rotN_args64 : args.rotN 64 = args := rfl

theorem nodup_regs_args : args.regs.Nodup := by decide

/-- Loading the initial hash value: `xor ROUND, ROUND`, `lea TBL, DIGEST`, eight loads, `lea TBL, K256`. -/
def start (k : Cfg) (rg : Region) (dig kk : Nat) : List Instr :=
  .xor k.round k.round :: .lea .rcx (.rel rg dig) :: (loadSeq .dqa k.w .rcx 0 args.regs ++ [.lea .rcx (.rel rg kk)])

/-- The table of the initial hash value is at offset `p` of the section `rg`. -/
structure DLay (env : Env) (k : Cfg) (rg : Region) (p : Nat) (mem : Mem) : Prop where
  valid : env.Valid
  align : (env.base rg + p) % k.sz = 0
  size : p + 8 * k.sz ≤ env.size rg
  table : ∀ j l, j < 8 → l < k.w.lanes → readWord (mem rg) (p + j * k.sz + 4 * l) = H0.word j

theorem start_spec {env : Env} {k : Cfg} {rg : Region} {dig kk : Nat} {s : State} (L : DLay env k rg dig s.mem) :
    (exec env (start k rg dig kk) s).r = upd (upd s.r k.round 0) .rcx (env.ptr rg kk) ∧ (exec env (start k rg dig kk) s).mem = s.mem ∧
    (exec env (start k rg dig kk) s).fault = s.fault ∧ ∀ l, l < k.w.lanes → Hold args (exec env (start k rg dig kk) s) l H0 := by
  rw [start, exec_cons, exec_cons, exec_append, exec_cons, exec_nil]
  have hlm := k.lanes_mul
  have hs := L.size
  have hlen : args.regs.length = 8 := rfl
  have h := loadSeq_spec L.valid (m := .dqa) (w := k.w) (b := .rcx) (r := rg) (o := dig) args.regs 0
    (s := step env (step env s (.xor k.round k.round)) (.lea .rcx (.rel rg dig))) nodup_regs_args
    (by rw [lea_r, upd_same]; rfl)
    (by rw [hlm, hlen]; omega) (fun _ => by rw [hlm]; exact L.align)
  generalize exec env (loadSeq .dqa k.w .rcx 0 args.regs) _ = s' at h ⊢
  obtain ⟨h1, h2, h3, -, h5⟩ := h
  refine ⟨?_, h2, h3, fun l hl => Hold.ofWord fun i hi => ?_⟩
  · show upd s'.r .rcx _ = _
    rw [h1]
    funext r
    show upd (upd (upd s.r k.round _) .rcx _) .rcx _ r = _
    by_cases hr : r = .rcx
    · rw [hr, upd_same, upd_same]; rfl
    · rw [upd_ne _ _ hr, upd_ne _ _ hr, upd_ne _ _ hr, BitVec.xor_self]; rfl
  · refine (h5 i hi l hl).trans ?_
    rw [← L.table i l (by omega) hl, hlm, Nat.add_zero, Nat.mul_comm i]
    rfl

theorem Inv.congr {env : Env} {k : Cfg} {rg : Region} {o hi : Nat} {m : Nat → Nat → Word} {s0 s s' : State} {j : Nat} {v : Args}
    (h : Inv env k rg o hi m s0 j v s) (hr : s'.r = s.r) (hx : s'.x = s.x) (hm : s'.mem = s.mem) (hf : s'.fault = s.fault) :
    Inv env k rg o hi m s0 j v s' := by
  obtain ⟨r, x, mem, fl, f⟩ := s
  obtain ⟨r', x', mem', fl', f'⟩ := s'
  subst hr hx hm hf
  exact ⟨h.fault, h.regs, h.round, fun l hl => (h.hold l hl).congr fun _ _ => rfl, h.sched, h.mem, h.stack⟩

/-- The loop of the rounds 16 to 63. -/
theorem xx_spec {env : Env} {code : Label → Block} {lx lm : Label} {cs : List Label} {k : Cfg} {rg : Region} {o hi : Nat} {m : Nat → Nat → Word}
    {s0 s : State} {t1 : X} (hc : code lx = ⟨rounds16xx k t1 16 args 16 ++ [.cmpImm k.round (64 * k.sz)], .jb lx lm⟩)
    (L : Lay env k rg o hi s0.mem) (hsp : s0.r .rsp = env.ptr .stack o) (htbl : s0.r .rcx = env.ptr rg 0) (hd : Distinct k args t1)
    (hI : Inv env k rg o hi m s0 16 args s) :
    ∃ s', Steps env code [lx, lx, lx] (.run lx cs s) (.run lm cs s') ∧ Inv env k rg o hi m s0 64 args s' := by
  have key : ∀ j s, Inv env k rg o hi m s0 j args s → 16 ≤ j → j + 16 ≤ 64 → j % 16 = 0 → ∃ s', Inv env k rg o hi m s0 (j + 16) args s' ∧
      advance env code (.run lx cs s) = .run (if j + 16 < 64 then lx else lm) cs s' := by
    intro j s hI h1 h2 h3
    have h := Inv.steps16 L hsp htbl 16 (i := 16) hd hI h2 h1 (by omega) (by omega)
    rw [rotN_args] at h
    obtain ⟨s1, he⟩ : ∃ s1, exec env (rounds16xx k t1 16 args 16) s = s1 := ⟨_, rfl⟩
    rw [he] at h
    refine ⟨step env s1 (.cmpImm k.round (64 * k.sz)),
      h.congr rfl rfl rfl rfl, ?_⟩
    have he' : exec env (rounds16xx k t1 16 args 16 ++ [.cmpImm k.round (64 * k.sz)]) s = step env s1 (.cmpImm k.round (64 * k.sz)) := by
      rw [exec_append, he, exec_cons, exec_nil]
    rw [advance_run hc he' h.fault]
    have hb : (s1.r k.round).ult (BitVec.ofNat 64 (64 * k.sz)) = decide (j + 16 < 64) := by
      rw [h.round, BitVec.ult, BitVec.toNat_ofNat, BitVec.toNat_ofNat]
      have hs : k.sz = 16 ∨ k.sz = 32 := by
        rw [Cfg.sz]; cases k.w <;> decide
      have h1 : (j + 16) * k.sz < 2 ^ 64 := by rcases hs with hs | hs <;> rw [hs] <;> omega
      have h2 : 64 * k.sz < 2 ^ 64 := by rcases hs with hs | hs <;> rw [hs] <;> decide
      rw [Nat.mod_eq_of_lt h1, Nat.mod_eq_of_lt h2]
      exact decide_eq_decide.mpr (Nat.mul_lt_mul_right k.sz_pos)
    rw [finish_jb_cmp, hb]
    simp only [decide_eq_true_eq]
  obtain ⟨s1, h1, r1⟩ := key 16 s hI (by omega) (by omega) rfl
  obtain ⟨s2, h2, r2⟩ := key 32 s1 h1 (by omega) (by omega) rfl
  obtain ⟨s3, h3, r3⟩ := key 48 s2 h2 (by omega) (by omega) rfl
  rw [if_pos (by decide)] at r1 r2
  rw [if_neg (by decide)] at r3
  exact ⟨s3, ((Steps.one r1).trans (Steps.one r2)).trans (Steps.one r3), h3⟩

/-- Adding the initial hash value, saving the sum, turning to the padding. -/
def middle (k : Cfg) (rg : Region) (dig pad dst : Nat) : List Instr :=
  .lea .rcx (.rel rg dig) :: (addSeq k.w .rcx 0 args.regs ++ (storeSeq .dqa k.w .rsp dst args.regs ++
    [.lea .rcx (.rel rg pad), .xor k.round k.round]))

theorem middle_spec {env : Env} {k : Cfg} {rg : Region} {dig pad dst o : Nat} {s : State} {d : Nat → HV} (L : DLay env k rg dig s.mem)
    (hsp : s.r .rsp = env.ptr .stack o) (hroom : o + dst + 8 * k.sz ≤ env.size .stack)
    (hal : (env.base .stack + (o + dst)) % k.sz = 0) (hh : ∀ l, l < k.w.lanes → Hold args s l (d l)) :
    (exec env (middle k rg dig pad dst) s).r = upd (upd s.r .rcx (env.ptr rg pad)) k.round 0 ∧
    (exec env (middle k rg dig pad dst) s).fault = s.fault ∧
    (∀ q, q ≠ .stack → (exec env (middle k rg dig pad dst) s).mem q = s.mem q) ∧
    (∀ p, p < o + dst ∨ o + dst + 8 * k.sz ≤ p → (exec env (middle k rg dig pad dst) s).mem .stack p = s.mem .stack p) ∧
    (∀ l, l < k.w.lanes → ∀ i, i < 8 →
      readWord ((exec env (middle k rg dig pad dst) s).mem .stack) (o + dst + k.sz * i + 4 * l) = ((d l).add H0).word i) ∧
    ∀ l, l < k.w.lanes → Hold args (exec env (middle k rg dig pad dst) s) l ((d l).add H0) := by
  rw [middle, exec_cons, exec_append, exec_append, exec_cons, exec_cons, exec_nil]
  have hlm := k.lanes_mul
  have hs := L.size
  have hlen : args.regs.length = 8 := rfl
  have h := addSeq_spec L.valid (w := k.w) (b := .rcx) (r := rg) (o := dig) args.regs 0
    (s := step env s (.lea .rcx (.rel rg dig))) nodup_regs_args
    (by rw [lea_r, upd_same]; rfl) (by rw [hlm, hlen]; omega)
  generalize exec env (addSeq k.w .rcx 0 args.regs) _ = s1 at h ⊢
  obtain ⟨a1, a2, a3, -, a5⟩ := h
  have hw : ∀ l, l < k.w.lanes → Hold args s1 l ((d l).add H0) := fun l hl => Hold.ofWord fun i hi => by
    refine (a5 i hi l hl).trans ?_
    rw [HV.add_word, ← L.table i l (by omega) hl, hlm, Nat.add_zero, Nat.mul_comm i, ← (hh l hl).word i hi]
    rfl
  have h := storeSeq_spec L.valid (m := .dqa) (w := k.w) (b := .rsp) (r := .stack) (o := o) L.valid.stack args.regs dst (s := s1)
    (by rw [a1]; rw [lea_r, upd_ne _ _ (by decide)]; exact hsp) (by rw [hlm, hlen]; omega) (fun _ => by rw [hlm]; exact hal)
  generalize exec env (storeSeq .dqa k.w .rsp dst args.regs) s1 = s2 at h ⊢
  obtain ⟨b1, b2, b3, b4, b5, b6⟩ := h
  refine ⟨?_, b3.trans a3, fun q hq => (b4 q hq).trans (by rw [a2]; rfl), fun p hp => (b5 p (by rw [hlm, hlen]; omega)).trans (by rw [a2]; rfl), ?_, ?_⟩
  · show upd (upd s2.r .rcx _) k.round (upd s2.r .rcx _ k.round ^^^ upd s2.r .rcx _ k.round) = _
    rw [b1, a1, BitVec.xor_self]
    funext r
    show upd (upd (upd s.r .rcx _) .rcx _) k.round _ r = _
    by_cases hr : r = k.round
    · rw [hr, upd_same, upd_same]; rfl
    · rw [upd_ne _ _ hr, upd_ne _ _ hr]
      by_cases hr : r = .rcx
      · rw [hr, upd_same, upd_same]; rfl
      · rw [upd_ne _ _ hr, upd_ne _ _ hr, upd_ne _ _ hr]
  · intro l hl i hi
    have := b6 i (by rw [hlen]; exact hi) l hl
    rw [hlm, (hw l hl).word] at this
    exact this
  · exact fun l hl => (hw l hl).congr fun x _ => congrFun b2 x

/-- The rounds on the padding block and the addition of the saved hash value. -/
theorem padding_spec {env : Env} {k : Cfg} {rg : Region} {pad dst o : Nat} {s : State} {d : Nat → HV} {t1 : X} (L : PLay env k rg pad s.mem)
    (hround : k.round ≠ .rsp) (hd : Distinct k args t1) (htbl : s.r .rcx = env.ptr rg pad) (h0 : s.r k.round = 0)
    (hsp : s.r .rsp = env.ptr .stack o) (hroom : o + dst + 8 * k.sz ≤ env.size .stack) (hf : s.fault = false)
    (hh : ∀ l, l < k.w.lanes → Hold args s l (d l))
    (hsv : ∀ l, l < k.w.lanes → ∀ i, i < 8 → readWord (s.mem .stack) (o + dst + k.sz * i + 4 * l) = (d l).word i) :
    (∀ r, r ≠ k.round → (exec env (paddingRounds k t1 64 args ++ addSeq k.w .rsp dst args.regs) s).r r = s.r r) ∧
    (exec env (paddingRounds k t1 64 args ++ addSeq k.w .rsp dst args.regs) s).mem = s.mem ∧
    (exec env (paddingRounds k t1 64 args ++ addSeq k.w .rsp dst args.regs) s).fault = false ∧
    ∀ l, l < k.w.lanes → Hold args (exec env (paddingRounds k t1 64 args ++ addSeq k.w .rsp dst args.regs) s) l (compress (d l) padBlock) := by
  rw [exec_append]
  have hP := PInv.steps (d := d) L htbl 64 hd (j := 0) (s := s)
    ⟨hf, fun _ _ => rfl, by rw [h0, Nat.zero_mul]; rfl, hh, rfl⟩ (by omega)
  rw [rotN_args64, Nat.zero_add] at hP
  generalize exec env (paddingRounds k t1 64 args) s = s1 at hP ⊢
  have hlm := k.lanes_mul
  have hlen : args.regs.length = 8 := rfl
  have h := addSeq_spec L.valid (w := k.w) (b := .rsp) (r := .stack) (o := o) args.regs dst
    (s := s1) nodup_regs_args (by rw [hP.regs _ (Ne.symm hround)]; exact hsp) (by rw [hlm, hlen]; omega)
  generalize exec env (addSeq k.w .rsp dst args.regs) s1 = s2 at h ⊢
  obtain ⟨a1, a2, a3, -, a5⟩ := h
  refine ⟨fun r hr => by rw [a1]; exact hP.regs r hr, a2.trans hP.mem, a3.trans hP.fault, fun l hl => Hold.ofWord fun i hi => ?_⟩
  refine (a5 i hi l hl).trans ?_
  have hx : s1.x args.regs[i] l = _ := (hP.hold l hl).word i hi
  rw [compress, HV.add_word, hlm, hP.mem, hsv l hl i (by omega), hx]

end Mammon.X86.Lane
