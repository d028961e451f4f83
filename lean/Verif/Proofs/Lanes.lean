import Verif.Proofs.X86
import Verif.Proofs.Sha256
import Verif.Model.Sha256Lanes
/-!
# Lane-wise execution

Most vector instructions of the four- and eight-lane routines act on each 32-bit lane separately. On those, one lane of the register file
is a function from registers to words.
-/

namespace Mammon.X86.Lane
open Spec.SHA256

/-- Instructions that act on each lane of width `w` separately, or only on a general register. -/
def ok (w : Width) : Instr → Bool
  | .vop _ w' _ _ _ => w' == w
  | .vshift .pslld w' _ _ _ => w' == w
  | .vshift .psrld w' _ _ _ => w' == w
  | .vmov w' _ _ => w' == w
  | .addImm _ _ => true
  | _ => false

/-- Effect on one lane. -/
def lstep (f : X → Word) : Instr → X → Word
  | .vop o _ d t u => upd f d (o.eval (f t) (f u))
  | .vshift .pslld _ d t n => upd f d (f t <<< n)
  | .vshift .psrld _ d t n => upd f d (f t >>> n)
  | .vmov _ d t => upd f d (f t)
  | _ => f

/-- Effect on the general registers. -/
def rstep (g : R → BitVec 64) : Instr → R → BitVec 64
  | .addImm d n => upd g d (g d + BitVec.ofNat 64 n)
  | _ => g

/-- The vector register an instruction writes. -/
def dest : Instr → Option X
  | .vop _ _ d _ _ => some d
  | .vopLoad _ _ d _ _ => some d
  | .vshift _ _ d _ _ => some d
  | .vmov _ d _ => some d
  | .vload _ _ d _ => some d
  | .vpshufb _ d _ _ => some d
  | .vshufps _ d _ _ _ => some d
  | _ => none

/-- Effect of a sequence on one lane. -/
def lexec : List Instr → (X → Word) → X → Word
  | [], f => f
  | i :: is, f => lexec is (lstep f i)

/-- Effect of a sequence on the general registers. -/
def rexec : List Instr → (R → BitVec 64) → R → BitVec 64
  | [], g => g
  | i :: is, g => rexec is (rstep g i)

theorem lexec_append (a b : List Instr) (f : X → Word) : lexec (a ++ b) f = lexec b (lexec a f) := by
  induction a generalizing f with
  | nil => rfl
  | cons i a ih => exact ih _

theorem step_ok {env : Env} {w : Width} {i : Instr} (h : ok w i = true) (s : State) :
    (step env s i).r = rstep s.r i ∧ (step env s i).mem = s.mem ∧ (step env s i).fault = s.fault ∧
    (∀ x, dest i ≠ some x → (step env s i).x x = s.x x) ∧
    ∀ l, l < w.lanes → (fun x => (step env s i).x x l) = lstep (fun x => s.x x l) i := by
  have key : ∀ (d : X) (v : Lanes) (l : Nat), l < w.lanes →
      (fun x => upd s.x d (zx w v) x l) = upd (fun x => s.x x l) d (v l) := by
    intro d v l hl
    funext x
    simp only [upd]
    split
    · simp only [zx, if_pos hl]
    · rfl
  have key2 : ∀ (d : X) (v : Lanes) (x : X), some d ≠ some x → upd s.x d v x = s.x x := by
    intro d v x hx
    exact upd_ne _ _ (fun e => hx (by rw [e]))
  cases i with
  | vop o w' d t u =>
    have : w' = w := by simpa [ok] using h
    subst this
    exact ⟨rfl, rfl, rfl, fun x hx => key2 _ _ _ hx, fun l hl => key _ _ l hl⟩
  | vshift o w' d t n =>
    cases o with
    | pslld =>
      have : w' = w := by simpa [ok] using h
      subst this
      exact ⟨rfl, rfl, rfl, fun x hx => key2 _ _ _ hx, fun l hl => key _ _ l hl⟩
    | psrld =>
      have : w' = w := by simpa [ok] using h
      subst this
      exact ⟨rfl, rfl, rfl, fun x hx => key2 _ _ _ hx, fun l hl => key _ _ l hl⟩
    | psrlq => cases h
  | vmov w' d t =>
    have : w' = w := by simpa [ok] using h
    subst this
    exact ⟨rfl, rfl, rfl, fun x hx => key2 _ _ _ hx, fun l hl => key _ _ l hl⟩
  | addImm d n => exact ⟨rfl, rfl, rfl, fun _ _ => rfl, fun _ _ => rfl⟩
  | _ => cases h

theorem exec_ok {env : Env} {w : Width} {is : List Instr} (h : is.all (ok w) = true) (s : State) :
    (exec env is s).r = rexec is s.r ∧ (exec env is s).mem = s.mem ∧ (exec env is s).fault = s.fault ∧
    (∀ x, (∀ i ∈ is, dest i ≠ some x) → (exec env is s).x x = s.x x) ∧
    ∀ l, l < w.lanes → (fun x => (exec env is s).x x l) = lexec is (fun x => s.x x l) := by
  induction is generalizing s with
  | nil => exact ⟨rfl, rfl, rfl, fun _ _ => rfl, fun _ _ => rfl⟩
  | cons i is ih =>
    have h1 : ok w i = true ∧ is.all (ok w) = true := by simpa using h
    have hs := step_ok (env := env) h1.1 s
    have hi := ih h1.2 (step env s i)
    refine ⟨?_, hi.2.1.trans hs.2.1, hi.2.2.1.trans hs.2.2.1, ?_, ?_⟩
    · refine hi.1.trans ?_
      rw [hs.1]; rfl
    · intro x hx
      exact (hi.2.2.2.1 x fun j hj => hx j (List.mem_cons_of_mem _ hj)).trans (hs.2.2.2.1 x (hx i List.mem_cons_self))
    · intro l hl
      refine (hi.2.2.2.2 l hl).trans ?_
      rw [hs.2.2.2.2 l hl]; rfl

/-- The registers a round uses are different. -/
def Distinct (k : Cfg) (v : Args) (t1 : X) : Prop :=
  [v.a, v.b, v.c, v.d, v.e, v.f, v.g, v.h, t1, k.a0, k.a1, k.a2, k.tmp].Nodup

instance (k : Cfg) (v : Args) (t1 : X) : Decidable (Distinct k v t1) := by unfold Distinct; infer_instance

theorem Distinct.rot {k : Cfg} {v : Args} {t1 : X} (h : Distinct k v t1) : Distinct k v.rot t1 := by
  refine List.Perm.nodup_iff ?_ |>.mp h
  exact (List.perm_middle (a := v.h) (l₁ := [v.a, v.b, v.c, v.d, v.e, v.f, v.g]))

theorem lexec_roundA {k : Cfg} {v : Args} {t1 : X} (hd : Distinct k v t1) (f : X → Word) :
    lexec (roundA k v) f k.a0 = (f v.e).rotateRight 5 ∧ lexec (roundA k v) f k.a1 = (f v.e).rotateRight 25 ∧
    lexec (roundA k v) f k.a2 = ch (f v.e) (f v.f) (f v.g) := by
  have hr := (List.reverse_perm _).nodup_iff.mpr hd
  simp only [Distinct, List.reverse_cons, List.reverse_nil, List.nil_append, List.cons_append, List.nodup_cons, List.mem_cons,
    List.not_mem_nil, or_false, not_or] at hd hr
  simp only [roundA, prordNd, List.cons_append, List.nil_append, lexec, lstep, upd, VOp.eval, hd, hr, if_true, if_false, ← ch_eq]
  refine ⟨ror_def _ 5 (by decide), ror_def _ 25 (by decide), ?_⟩
  trivial

theorem lexec_roundB {k : Cfg} {v : Args} {t1 : X} (hd : Distinct k v t1) (f : X → Word) :
    lexec (roundB k v t1) f v.h = f v.h + f k.a2 + f t1 + ((f k.a0 ^^^ f v.e).rotateRight 6 ^^^ f k.a1) + maj (f v.a) (f v.b) (f v.c) +
      bsig0 (f v.a) ∧
    lexec (roundB k v t1) f v.d = f v.d + (f v.h + f k.a2 + f t1 + ((f k.a0 ^^^ f v.e).rotateRight 6 ^^^ f k.a1)) := by
  have hr := (List.reverse_perm _).nodup_iff.mpr hd
  simp only [Distinct, List.reverse_cons, List.reverse_nil, List.nil_append, List.cons_append, List.nodup_cons, List.mem_cons,
    List.not_mem_nil, or_false, not_or] at hd hr
  simp only [roundB, prord, prordNd, List.cons_append, List.nil_append, lexec, lstep, upd, VOp.eval, hd, hr, if_true, if_false]
  rw [ror_def _ 6 (by decide), ror_def _ (13 - 2) (by decide), ror_def _ 22 (by decide), ror_def _ 2 (by decide), maj_xor, ror_xor _ _ 2,
    ror_ror]
  refine ⟨?_, rfl⟩
  rw [bsig0, BitVec.xor_comm ((f v.a).rotateRight 2)]

/-- The registers `a`..`h` hold the working variables `hv` in lane `l`. -/
structure Hold (v : Args) (s : State) (l : Nat) (hv : HV) : Prop where
  a : s.x v.a l = hv.a
  b : s.x v.b l = hv.b
  c : s.x v.c l = hv.c
  d : s.x v.d l = hv.d
  e : s.x v.e l = hv.e
  f : s.x v.f l = hv.f
  g : s.x v.g l = hv.g
  h : s.x v.h l = hv.h

/-- The registers that hold the working variables. -/
def Args.regs (v : Args) : List X := [v.a, v.b, v.c, v.d, v.e, v.f, v.g, v.h]

theorem Hold.congr {v : Args} {s s' : State} {l : Nat} {hv : HV} (h : Hold v s l hv) (hx : ∀ x ∈ v.regs, s'.x x = s.x x) : Hold v s' l hv := by
  simp only [Args.regs, List.mem_cons, List.not_mem_nil, or_false, forall_eq_or_imp, forall_eq] at hx
  obtain ⟨ha, hb, hc, hd, he, hf, hg, hh⟩ := hx
  exact ⟨by rw [ha]; exact h.a, by rw [hb]; exact h.b, by rw [hc]; exact h.c, by rw [hd]; exact h.d, by rw [he]; exact h.e,
    by rw [hf]; exact h.f, by rw [hg]; exact h.g, by rw [hh]; exact h.h⟩

/-- The scratch registers of a configuration. -/
def Cfg.scratch (k : Cfg) : List X := [k.a0, k.a1, k.a2, k.tmp]

theorem Distinct.regs_scratch {k : Cfg} {v : Args} {t1 : X} (h : Distinct k v t1) : ∀ x ∈ v.regs, x ∉ k.scratch ∧ x ≠ t1 := by
  simp only [Distinct, List.nodup_cons, List.mem_cons, List.not_mem_nil, or_false, not_or] at h
  simp only [Args.regs, Cfg.scratch, List.mem_cons, List.not_mem_nil, or_false, forall_eq_or_imp, forall_eq, not_or]
  simp only [h, not_false_eq_true, ne_eq, and_self]

theorem Distinct.t1_scratch {k : Cfg} {v : Args} {t1 : X} (h : Distinct k v t1) : t1 ∉ k.scratch := by
  simp only [Distinct, List.nodup_cons, List.mem_cons, List.not_mem_nil, or_false, not_or] at h
  simp only [Cfg.scratch, List.mem_cons, List.not_mem_nil, or_false, not_or]
  simp only [h, not_false_eq_true, and_self]

/-- State after the first part of a round. -/
theorem roundA_spec {env : Env} {k : Cfg} {v : Args} {t1 : X} (hd : Distinct k v t1) (s : State) :
    (exec env (roundA k v) s).r = s.r ∧ (exec env (roundA k v) s).mem = s.mem ∧ (exec env (roundA k v) s).fault = s.fault ∧
    (∀ x, x ∉ k.scratch → (exec env (roundA k v) s).x x = s.x x) ∧
    ∀ l, l < k.w.lanes → (exec env (roundA k v) s).x k.a0 l = (s.x v.e l).rotateRight 5 ∧
      (exec env (roundA k v) s).x k.a1 l = (s.x v.e l).rotateRight 25 ∧
      (exec env (roundA k v) s).x k.a2 l = ch (s.x v.e l) (s.x v.f l) (s.x v.g l) := by
  have h := exec_ok (env := env) (w := k.w) (is := roundA k v) (by simp [roundA, prordNd, ok]) s
  refine ⟨h.1, h.2.1, h.2.2.1, fun x hx => h.2.2.2.1 x ?_, fun l hl => ?_⟩
  · simp only [Cfg.scratch, List.mem_cons, List.not_mem_nil, or_false, not_or] at hx
    simp only [roundA, prordNd, List.cons_append, List.nil_append, List.mem_cons, List.not_mem_nil, or_false, forall_eq_or_imp, forall_eq, dest,
      ne_eq, Option.some.injEq, eq_comm (b := x)]
    simp [hx]
  · have hf := h.2.2.2.2 l hl
    have ha := lexec_roundA hd (fun x => s.x x l)
    rw [← hf] at ha
    exact ha

/-- State after the second part of a round. -/
theorem roundB_spec {env : Env} {k : Cfg} {v : Args} {t1 : X} (hd : Distinct k v t1) (s : State) :
    (exec env (roundB k v t1) s).r = upd s.r k.round (s.r k.round + BitVec.ofNat 64 k.sz) ∧
    (exec env (roundB k v t1) s).mem = s.mem ∧ (exec env (roundB k v t1) s).fault = s.fault ∧
    (∀ x, x ∉ v.d :: v.h :: t1 :: k.scratch → (exec env (roundB k v t1) s).x x = s.x x) ∧
    ∀ l, l < k.w.lanes → ∀ hv wk, Hold v s l hv → s.x k.a0 l = hv.e.rotateRight 5 → s.x k.a1 l = hv.e.rotateRight 25 →
      s.x k.a2 l = ch hv.e hv.f hv.g → s.x t1 l = wk → Hold v.rot (exec env (roundB k v t1) s) l (rnd wk hv) := by
  have h := exec_ok (env := env) (w := k.w) (is := roundB k v t1) (by simp [roundB, prord, prordNd, ok]) s
  have hx : ∀ x, x ∉ v.d :: v.h :: t1 :: k.scratch → (exec env (roundB k v t1) s).x x = s.x x := fun x hx => h.2.2.2.1 x (by
    simp only [Cfg.scratch, List.mem_cons, List.not_mem_nil, or_false, not_or] at hx
    simp only [roundB, prord, prordNd, List.cons_append, List.nil_append, List.mem_cons, List.not_mem_nil, or_false, forall_eq_or_imp,
      forall_eq, dest, ne_eq, Option.some.injEq, eq_comm (b := x)]
    simp [hx])
  refine ⟨h.1, h.2.1, h.2.2.1, hx, fun l hl hv wk hh h0 h1 h2 ht => ?_⟩
  have hb := lexec_roundB hd (fun x => s.x x l)
  rw [← h.2.2.2.2 l hl] at hb
  simp only [hh.a, hh.b, hh.c, hh.d, hh.e, hh.h, h0, h1, h2, ht] at hb
  have hs : (hv.e.rotateRight 5 ^^^ hv.e).rotateRight 6 ^^^ hv.e.rotateRight 25 = bsig1 hv.e := by
    rw [ror_xor, ror_ror, bsig1, BitVec.xor_comm (hv.e.rotateRight 6)]
  rw [hs] at hb
  have hr := hd
  simp only [Distinct, List.nodup_cons, List.mem_cons, List.not_mem_nil, or_false, not_or] at hr
  have hs := hd
  replace hs := (List.reverse_perm _).nodup_iff.mpr hs
  simp only [List.reverse_cons, List.reverse_nil, List.nil_append, List.cons_append, List.nodup_cons, List.mem_cons,
    List.not_mem_nil, or_false, not_or] at hs
  constructor
  · show _ = hv.h + bsig1 hv.e + ch hv.e hv.f hv.g + wk + (bsig0 hv.a + maj hv.a hv.b hv.c)
    refine hb.1.trans ?_
    ac_rfl
  · exact (congrFun (hx v.a (by simp [Cfg.scratch, hr, hs])) l).trans hh.a
  · exact (congrFun (hx v.b (by simp [Cfg.scratch, hr, hs])) l).trans hh.b
  · exact (congrFun (hx v.c (by simp [Cfg.scratch, hr, hs])) l).trans hh.c
  · show _ = hv.d + (hv.h + bsig1 hv.e + ch hv.e hv.f hv.g + wk)
    refine hb.2.trans ?_
    ac_rfl
  · exact (congrFun (hx v.e (by simp [Cfg.scratch, hr, hs])) l).trans hh.e
  · exact (congrFun (hx v.f (by simp [Cfg.scratch, hr, hs])) l).trans hh.f
  · exact (congrFun (hx v.g (by simp [Cfg.scratch, hr, hs])) l).trans hh.g

theorem Cfg.sz_pos (k : Cfg) : 0 < k.sz := by
  rw [Cfg.sz]; cases k.w <;> decide

theorem Cfg.lanes_mul (k : Cfg) : 4 * k.w.lanes = k.sz := by rw [Cfg.sz, Nat.mul_comm]

/-- The place in the table and in the buffer is within bounds. -/
theorem slot_le (k : Cfg) (i : Nat) : k.sz * (i % 16) + k.sz ≤ 16 * k.sz := by
  have h : k.sz * (i % 16) ≤ k.sz * 15 := Nat.mul_le_mul_left _ (by omega)
  omega

theorem mod_add_mul {b o k i : Nat} (h : (b + o) % k = 0) : (b + (o + k * i)) % k = 0 := by
  rw [← Nat.add_assoc, Nat.add_mul_mod_self_left, h]

/-- State after `ROUND_00_15`. -/
theorem round0015_spec {env : Env} (hv : env.Valid) {k : Cfg} {v : Args} {t1 : X} (hd : Distinct k v t1) {s : State} {rg : Region}
    {o p j : Nat} (i : Nat) (hrg : rg ≠ .stack) (hr : k.round ≠ .rsp ∧ k.round ≠ .rcx)
    (hsp : s.r .rsp = env.ptr .stack o) (hroom : o + 16 * k.sz ≤ env.size .stack) (hal : (env.base .stack + o) % k.sz = 0)
    (htbl : s.r .rcx = env.ptr rg p) (hj : s.r k.round = BitVec.ofNat 64 (j * k.sz)) (htr : p + (j + 1) * k.sz ≤ env.size rg) :
    (exec env (round0015 k v t1 i) s).r = upd s.r k.round (BitVec.ofNat 64 ((j + 1) * k.sz)) ∧
    (exec env (round0015 k v t1 i) s).mem = upd s.mem .stack (writeLanes k.w.lanes (s.mem .stack) (o + k.sz * (i % 16)) (s.x t1)) ∧
    (exec env (round0015 k v t1 i) s).fault = s.fault ∧
    (∀ x, x ∉ v.d :: v.h :: t1 :: k.scratch → (exec env (round0015 k v t1 i) s).x x = s.x x) ∧
    ∀ l, l < k.w.lanes → ∀ hv, Hold v s l hv →
      Hold v.rot (exec env (round0015 k v t1 i) s) l (rnd (s.x t1 l + readWord (s.mem rg) (p + j * k.sz + 4 * l)) hv) := by
  have hA := roundA_spec (env := env) hd s
  have hsl := slot_le k i
  have hlm := k.lanes_mul
  rw [round0015, exec_append]
  generalize hs1 : exec env (roundA k v) s = s1 at hA ⊢
  obtain ⟨hAr, hAm, hAf, hAx, hAl⟩ := hA
  rw [exec_cons, exec_cons]
  rw [step_vstore hv t1 (r := .stack) (o := o + k.sz * (i % 16)) (by rw [ea_reg (by rw [hAr]; exact hsp)]) (by omega) hv.stack
    (fun _ => by rw [hlm]; exact mod_add_mul hal)]
  have hsm : (j + 1) * k.sz = j * k.sz + k.sz := by rw [Nat.add_mul, Nat.one_mul]
  rw [step_vopLoad hv .paddd t1 t1 (r := rg) (o := p + j * k.sz + 0)
    (by rw [ea_idx (o := p) (n := j * k.sz) (by show s1.r .rcx = _; rw [hAr]; exact htbl) (by show s1.r k.round = _; rw [hAr]; exact hj)])
    (by omega)]
  have hB := roundB_spec (env := env) hd (({ s1 with mem := upd s1.mem .stack (writeLanes k.w.lanes (s1.mem .stack) (o + k.sz * (i % 16)) (s1.x t1)) } :
    State).setX t1 (zx k.w fun l => VOp.eval .paddd (s1.x t1 l)
      (readWord (upd s1.mem .stack (writeLanes k.w.lanes (s1.mem .stack) (o + k.sz * (i % 16)) (s1.x t1)) rg) (p + j * k.sz + 0 + 4 * l))))
  have ht1 : s1.x t1 = s.x t1 := hAx t1 hd.t1_scratch
  refine ⟨?_, ?_, ?_, ?_, ?_⟩
  · refine hB.1.trans ?_
    show upd s1.r k.round (s1.r k.round + _) = _
    rw [hAr, hj, ← BitVec.ofNat_add, hsm]
  · refine hB.2.1.trans ?_
    show upd s1.mem .stack _ = _
    rw [hAm, ht1]
  · exact hB.2.2.1.trans hAf
  · intro x hx
    refine (hB.2.2.2.1 x hx).trans ?_
    have hx' : x ≠ t1 ∧ x ∉ k.scratch := by
      simp only [List.mem_cons, not_or] at hx
      exact ⟨hx.2.2.1, hx.2.2.2⟩
    show upd s1.x t1 _ x = _
    rw [upd_ne _ _ hx'.1, hAx x hx'.2]
  · intro l hl w hh
    have hx1 : ∀ x, x ≠ t1 → ∀ z, (upd s1.x t1 z) x = s1.x x := fun x hx z => upd_ne _ _ hx
    have hne : k.a0 ≠ t1 ∧ k.a1 ≠ t1 ∧ k.a2 ≠ t1 := by
      have := (List.reverse_perm _).nodup_iff.mpr hd
      simp only [List.reverse_cons, List.reverse_nil, List.nil_append, List.cons_append, List.nodup_cons, List.mem_cons,
        List.not_mem_nil, or_false, not_or] at this
      simp [this]
    have hh1 : Hold v s1 l w := hh.congr fun x hx => hAx x (hd.regs_scratch x hx).1
    refine hB.2.2.2.2 l hl w _ (hh1.congr fun x hx => hx1 x (hd.regs_scratch x hx).2 _) ?_ ?_ ?_ ?_
    · show upd s1.x t1 _ k.a0 l = _
      rw [hx1 _ hne.1, (hAl l hl).1, hh.e]
    · show upd s1.x t1 _ k.a1 l = _
      rw [hx1 _ hne.2.1, (hAl l hl).2.1, hh.e]
    · show upd s1.x t1 _ k.a2 l = _
      rw [hx1 _ hne.2.2, (hAl l hl).2.2, hh.e, hh.f, hh.g]
    · show upd s1.x t1 _ t1 l = _
      rw [upd_same, zx, if_pos hl, upd_ne _ _ hrg, hAm, ht1, Nat.add_zero]
      rfl

/-- State after `PADDING_ROUND_00_15`. -/
theorem paddingRound_spec {env : Env} (hv : env.Valid) {k : Cfg} {v : Args} {t1 : X} (hd : Distinct k v t1) {s : State} {rg : Region}
    {p j : Nat} (hal : (env.base rg + p) % k.sz = 0)
    (htbl : s.r .rcx = env.ptr rg p) (hj : s.r k.round = BitVec.ofNat 64 (j * k.sz)) (htr : p + (j + 1) * k.sz ≤ env.size rg) :
    (exec env (paddingRound k v t1) s).r = upd s.r k.round (BitVec.ofNat 64 ((j + 1) * k.sz)) ∧
    (exec env (paddingRound k v t1) s).mem = s.mem ∧
    (exec env (paddingRound k v t1) s).fault = s.fault ∧
    (∀ x, x ∉ v.d :: v.h :: t1 :: k.scratch → (exec env (paddingRound k v t1) s).x x = s.x x) ∧
    ∀ l, l < k.w.lanes → ∀ hv, Hold v s l hv →
      Hold v.rot (exec env (paddingRound k v t1) s) l (rnd (readWord (s.mem rg) (p + j * k.sz + 4 * l)) hv) := by
  have hA := roundA_spec (env := env) hd s
  have hlm := k.lanes_mul
  rw [paddingRound, exec_append]
  generalize hs1 : exec env (roundA k v) s = s1 at hA ⊢
  obtain ⟨hAr, hAm, hAf, hAx, hAl⟩ := hA
  rw [exec_cons]
  have hsm : (j + 1) * k.sz = j * k.sz + k.sz := by rw [Nat.add_mul, Nat.one_mul]
  rw [step_vload hv t1 (r := rg) (o := p + j * k.sz + 0)
    (by rw [ea_idx (o := p) (n := j * k.sz) (by rw [hAr]; exact htbl) (by rw [hAr]; exact hj)])
    (by omega) (fun _ => by rw [hlm, Nat.add_zero, Nat.mul_comm]; exact mod_add_mul hal)]
  have hB := roundB_spec (env := env) hd (s1.setX t1 (zx k.w fun l => readWord (s1.mem rg) (p + j * k.sz + 0 + 4 * l)))
  refine ⟨?_, ?_, ?_, ?_, ?_⟩
  · refine hB.1.trans ?_
    show upd s1.r k.round (s1.r k.round + _) = _
    rw [hAr, hj, ← BitVec.ofNat_add, hsm]
  · exact hB.2.1.trans hAm
  · exact hB.2.2.1.trans hAf
  · intro x hx
    refine (hB.2.2.2.1 x hx).trans ?_
    have hx' : x ≠ t1 ∧ x ∉ k.scratch := by
      simp only [List.mem_cons, not_or] at hx
      exact ⟨hx.2.2.1, hx.2.2.2⟩
    show upd s1.x t1 _ x = _
    rw [upd_ne _ _ hx'.1, hAx x hx'.2]
  · intro l hl w hh
    have hx1 : ∀ x, x ≠ t1 → ∀ z, (upd s1.x t1 z) x = s1.x x := fun x hx z => upd_ne _ _ hx
    have hne : k.a0 ≠ t1 ∧ k.a1 ≠ t1 ∧ k.a2 ≠ t1 := by
      have := (List.reverse_perm _).nodup_iff.mpr hd
      simp only [List.reverse_cons, List.reverse_nil, List.nil_append, List.cons_append, List.nodup_cons, List.mem_cons,
        List.not_mem_nil, or_false, not_or] at this
      simp [this]
    have hh1 : Hold v s1 l w := hh.congr fun x hx => hAx x (hd.regs_scratch x hx).1
    refine hB.2.2.2.2 l hl w _ (hh1.congr fun x hx => hx1 x (hd.regs_scratch x hx).2 _) ?_ ?_ ?_ ?_
    · show upd s1.x t1 _ k.a0 l = _
      rw [hx1 _ hne.1, (hAl l hl).1, hh.e]
    · show upd s1.x t1 _ k.a1 l = _
      rw [hx1 _ hne.2.1, (hAl l hl).2.1, hh.e]
    · show upd s1.x t1 _ k.a2 l = _
      rw [hx1 _ hne.2.2, (hAl l hl).2.2, hh.e, hh.f, hh.g]
    · show upd s1.x t1 _ t1 l = _
      rw [upd_same, zx, if_pos hl, hAm, Nat.add_zero]

/-- The register-only part of the message schedule. -/
def sigmas (k : Cfg) (t1 : X) : List Instr :=
  .vmov k.w k.a0 t1 :: (prord k t1 (18 - 7) ++ (.vmov k.w k.a2 k.a1 :: (prord k k.a1 (19 - 17) ++
  (.vop .pxor k.w t1 t1 k.a0 :: (prord k t1 7 ++ (.vop .pxor k.w k.a1 k.a1 k.a2 :: (prord k k.a1 17 ++
  [.vshift .psrld k.w k.a0 k.a0 3, .vop .pxor k.w t1 t1 k.a0, .vshift .psrld k.w k.a2 k.a2 10, .vop .pxor k.w k.a1 k.a1 k.a2])))))))

theorem schedule_eq (k : Cfg) (t1 : X) (i : Nat) :
    schedule k t1 i = .vload .dqa k.w t1 (.reg .rsp (k.sz * ((i - 15) % 16))) :: .vload .dqa k.w k.a1 (.reg .rsp (k.sz * ((i - 2) % 16))) ::
      (sigmas k t1 ++ [.vopLoad .paddd k.w t1 t1 (.reg .rsp (k.sz * ((i - 16) % 16))),
        .vopLoad .paddd k.w k.a1 k.a1 (.reg .rsp (k.sz * ((i - 7) % 16))), .vop .paddd k.w t1 t1 k.a1]) := by
  simp [schedule, sigmas, prord]

theorem lexec_sigmas {k : Cfg} {v : Args} {t1 : X} (hd : Distinct k v t1) (f : X → Word) :
    lexec (sigmas k t1) f t1 = ssig0 (f t1) ∧ lexec (sigmas k t1) f k.a1 = ssig1 (f k.a1) := by
  have hr := (List.reverse_perm _).nodup_iff.mpr hd
  simp only [Distinct, List.reverse_cons, List.reverse_nil, List.nil_append, List.cons_append, List.nodup_cons, List.mem_cons,
    List.not_mem_nil, or_false, not_or] at hd hr
  simp only [sigmas, prord, List.cons_append, List.nil_append, lexec, lstep, upd, VOp.eval, hd, hr, if_true, if_false]
  rw [ror_def _ (18 - 7) (by decide), ror_def _ (19 - 17) (by decide), ror_def _ 7 (by decide), ror_def _ 17 (by decide), ror_xor, ror_xor, ror_ror,
    ror_ror, ssig0, ssig1, BitVec.xor_comm ((f t1).rotateRight 7), BitVec.xor_comm ((f k.a1).rotateRight 17)]
  exact ⟨rfl, rfl⟩

/-- State after the message schedule step of `ROUND_16_XX`. -/
theorem schedule_spec {env : Env} (hv : env.Valid) {k : Cfg} {v : Args} {t1 : X} (hd : Distinct k v t1) {s : State}
    {o : Nat} (i : Nat) (hsp : s.r .rsp = env.ptr .stack o) (hroom : o + 16 * k.sz ≤ env.size .stack)
    (hal : (env.base .stack + o) % k.sz = 0) :
    (exec env (schedule k t1 i) s).r = s.r ∧ (exec env (schedule k t1 i) s).mem = s.mem ∧ (exec env (schedule k t1 i) s).fault = s.fault ∧
    (∀ x, x ∉ t1 :: k.scratch → (exec env (schedule k t1 i) s).x x = s.x x) ∧
    ∀ l, l < k.w.lanes → (exec env (schedule k t1 i) s).x t1 l =
      ssig1 (readWord (s.mem .stack) (o + k.sz * ((i - 2) % 16) + 4 * l)) + readWord (s.mem .stack) (o + k.sz * ((i - 7) % 16) + 4 * l) +
      ssig0 (readWord (s.mem .stack) (o + k.sz * ((i - 15) % 16) + 4 * l)) + readWord (s.mem .stack) (o + k.sz * ((i - 16) % 16) + 4 * l) := by
  have hlm := k.lanes_mul
  have hsl := slot_le k
  have hne : k.a1 ≠ t1 ∧ t1 ≠ k.a1 := by
    have hr := (List.reverse_perm _).nodup_iff.mpr hd
    simp only [Distinct, List.reverse_cons, List.reverse_nil, List.nil_append, List.cons_append, List.nodup_cons, List.mem_cons,
      List.not_mem_nil, or_false, not_or] at hd hr
    simp [hd, hr]
  rw [schedule_eq, exec_cons, exec_cons, exec_append]
  rw [step_vload hv t1 (r := .stack) (o := o + k.sz * ((i - 15) % 16)) (by rw [ea_reg hsp]) (by have := hsl (i - 15); omega)
    (fun _ => by rw [hlm]; exact mod_add_mul hal)]
  rw [step_vload hv k.a1 (r := .stack) (o := o + k.sz * ((i - 2) % 16)) (by rw [ea_reg (by exact hsp)]) (by have := hsl (i - 2); omega)
    (fun _ => by rw [hlm]; exact mod_add_mul hal)]
  generalize h1 : (s.setX t1 _).setX k.a1 _ = s1
  have h1r : s1.r = s.r := by rw [← h1]; rfl
  have h1m : s1.mem = s.mem := by rw [← h1]; rfl
  have h1f : s1.fault = s.fault := by rw [← h1]; rfl
  have h1x : ∀ x, x ≠ t1 → x ≠ k.a1 → s1.x x = s.x x := fun x hx hx' => by
    rw [← h1]; exact (upd_ne _ _ hx').trans (upd_ne _ _ hx)
  have h1t : ∀ l, l < k.w.lanes → s1.x t1 l = readWord (s.mem .stack) (o + k.sz * ((i - 15) % 16) + 4 * l) := fun l hl => by
    rw [← h1]
    show upd (upd s.x t1 _) k.a1 _ t1 l = _
    rw [upd_ne _ _ hne.2, upd_same, zx, if_pos hl]
  have h1a : ∀ l, l < k.w.lanes → s1.x k.a1 l = readWord (s.mem .stack) (o + k.sz * ((i - 2) % 16) + 4 * l) := fun l hl => by
    rw [← h1]
    show upd (upd s.x t1 _) k.a1 _ k.a1 l = _
    rw [upd_same, zx, if_pos hl]
    rfl
  clear h1
  have hS := exec_ok (env := env) (w := k.w) (is := sigmas k t1) (by simp [sigmas, prord, ok]) s1
  have hSx : ∀ x, x ∉ t1 :: k.scratch → (exec env (sigmas k t1) s1).x x = s1.x x := fun x hx => hS.2.2.2.1 x (by
    simp only [Cfg.scratch, List.mem_cons, List.not_mem_nil, or_false, not_or] at hx
    simp only [sigmas, prord, List.cons_append, List.nil_append, List.mem_cons, List.not_mem_nil, or_false, forall_eq_or_imp,
      forall_eq, dest, ne_eq, Option.some.injEq, eq_comm (b := x)]
    simp [hx])
  have hSl : ∀ l, l < k.w.lanes → (exec env (sigmas k t1) s1).x t1 l = ssig0 (s1.x t1 l) ∧ (exec env (sigmas k t1) s1).x k.a1 l = ssig1 (s1.x k.a1 l) :=
    fun l hl => by
      have := lexec_sigmas hd (fun x => s1.x x l)
      rw [← hS.2.2.2.2 l hl] at this
      exact this
  have hSr : (exec env (sigmas k t1) s1).r = s.r := hS.1.trans h1r
  have hSm : (exec env (sigmas k t1) s1).mem = s.mem := hS.2.1.trans h1m
  have hSf : (exec env (sigmas k t1) s1).fault = s.fault := hS.2.2.1.trans h1f
  generalize exec env (sigmas k t1) s1 = s2 at *
  rw [exec_cons, exec_cons, exec_cons, exec_nil]
  rw [step_vopLoad hv .paddd t1 t1 (r := .stack) (o := o + k.sz * ((i - 16) % 16)) (by rw [ea_reg (by rw [hSr]; exact hsp)])
    (by have := hsl (i - 16); omega)]
  rw [step_vopLoad hv .paddd k.a1 k.a1 (r := .stack) (o := o + k.sz * ((i - 7) % 16)) (by rw [ea_reg (by show s2.r _ = _; rw [hSr]; exact hsp)])
    (by have := hsl (i - 7); omega)]
  refine ⟨hSr, hSm, hSf, fun x hx => ?_, fun l hl => ?_⟩
  · have hx' : x ≠ t1 ∧ x ≠ k.a1 := by
      simp only [Cfg.scratch, List.mem_cons, List.not_mem_nil, or_false, not_or] at hx
      exact ⟨hx.1, hx.2.2.1⟩
    show upd (upd (upd s2.x t1 _) k.a1 _) t1 _ x = _
    rw [upd_ne _ _ hx'.1, upd_ne _ _ hx'.2, upd_ne _ _ hx'.1, hSx x hx, h1x x hx'.1 hx'.2]
  · show upd (upd (upd s2.x t1 _) k.a1 _) t1 (zx k.w fun l => upd (upd s2.x t1 _) k.a1 _ t1 l + upd (upd s2.x t1 _) k.a1 _ k.a1 l) t1 l = _
    rw [upd_same, zx, if_pos hl, upd_ne _ _ hne.2, upd_same, upd_same, zx, zx, if_pos hl, if_pos hl]
    show s2.x t1 l + _ + (upd s2.x t1 _ k.a1 l + readWord (s2.mem .stack) _) = _
    rw [upd_ne _ _ hne.1, (hSl l hl).1, (hSl l hl).2, h1t l hl, h1a l hl, hSm]
    ac_rfl

end Mammon.X86.Lane
