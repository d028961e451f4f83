import Verif.Proofs.OneSched
import Verif.Proofs.Words
/-!
# The one-block routine
-/

namespace Mammon.X86.One
open Spec.SHA256

/-! ## The data section -/

theorem data_k : ∀ j, j < 64 → data.getD j 0 = K j := by decide +kernel
theorem data_digest : ∀ j, j < 8 → data.getD (64 + j) 0 = H0.word j := by decide +kernel
theorem data_pad0 : (data.drop 72).take 64 = padWK := by decide +kernel
theorem data_pad (j : Nat) (hj : j < 64) : data.getD (72 + j) 0 = padWK.getD j 0 := by
  rw [← data_pad0, List.getD_eq_getElem?_getD, List.getD_eq_getElem?_getD, List.getElem?_take_of_lt hj, List.getElem?_drop]
theorem data_flip : ∀ l, l < 4 → data.getD (136 + l) 0 = flipWord l := by decide +kernel
theorem data_ba : ∀ l, l < 4 → data.getD (140 + l) 0 = ba l := by decide +kernel
theorem data_dc : ∀ l, l < 4 → data.getD (144 + l) 0 = dc l := by decide +kernel
theorem data_length : data.length = 148 := by decide +kernel

theorem mem_sections : Region.one ∈ [Region.one, .four, .eight, .shaniRo] := by decide

theorem word {env : Env} {mem : Mem} (L : Loaded env mem) {p i : Nat} (hp : p = 4 * i) (hi : i < 148) :
    readWord (mem .one) p = data.getD i 0 := L.word mem_sections hp (by show i < data.length; rw [data_length]; exact hi)

theorem size_le {env : Env} {mem : Mem} (L : Loaded env mem) : 592 ≤ env.size .one := by
  have := L.size .one mem_sections
  rw [show sectionData .one = data from rfl, data_length] at this
  exact this

theorem base_mod {env : Env} {mem : Mem} (L : Loaded env mem) : env.base .one % 64 = 0 := L.align .one (by decide)

/-! ## Rounds on the block -/

/-- The vector register number `i`. -/
def Xs.get (x : Xs) : Nat → X
  | 0 => x.x0
  | 1 => x.x1
  | 2 => x.x2
  | _ => x.x3

/-- The four assignments of the symbols `X0`..`X3` that occur. -/
def rots : List Xs := [xs, xs.rot, xs.rot.rot, xs.rot.rot.rot]

theorem get_ne {x : Xs} (hx : x ∈ rots) (i : Nat) : x.get i ∉ [XFER, SHUF_00BA, SHUF_DC00, BYTE_FLIP_MASK] := by
  have h : ∀ x ∈ rots, x.x0 ∉ [XFER, SHUF_00BA, SHUF_DC00, BYTE_FLIP_MASK] ∧ x.x1 ∉ [XFER, SHUF_00BA, SHUF_DC00, BYTE_FLIP_MASK] ∧
      x.x2 ∉ [XFER, SHUF_00BA, SHUF_DC00, BYTE_FLIP_MASK] ∧ x.x3 ∉ [XFER, SHUF_00BA, SHUF_DC00, BYTE_FLIP_MASK] := by
    intro x hx
    simp only [rots, List.mem_cons, List.not_mem_nil, or_false] at hx
    rcases hx with rfl | rfl | rfl | rfl <;> decide
  obtain ⟨h0, h1, h2, h3⟩ := h x hx
  match i with
  | 0 => exact h0
  | 1 => exact h1
  | 2 => exact h2
  | _ + 3 => exact h3

theorem rots_rot {x : Xs} (hx : x ∈ rots) : x.rot ∈ rots := by
  simp only [rots, List.mem_cons, List.not_mem_nil, or_false] at hx
  rcases hx with rfl | rfl | rfl | rfl
  · exact List.mem_cons_of_mem _ List.mem_cons_self
  · exact List.mem_cons_of_mem _ (List.mem_cons_of_mem _ List.mem_cons_self)
  · exact List.mem_cons_of_mem _ (List.mem_cons_of_mem _ (List.mem_cons_of_mem _ List.mem_cons_self))
  · exact List.mem_cons_self

/-- After `j` rounds: the working variables are in the registers named by `v`, the vectors `X0`.. hold the schedule words from `jj` on (`q` of
them are valid), the table pointer is at offset `c`. -/
structure Inv (env : Env) (o q : Nat) (m : Nat → Word) (s0 : State) (c j jj : Nat) (v : Args) (x : Xs) (s : State) : Prop where
  fault : s.fault = false
  regs : ∀ r ∈ [R.rsp, .rsi, .rdi, .rbp], s.r r = s0.r r
  rcx : s.r .rcx = env.ptr .one c
  hold : Hold v s.get32 (rounds m j H0)
  sched : ∀ i, i < q → ∀ l, l < 4 → s.x (x.get i) l = W m (jj + 4 * i + l)
  masks : (∀ l, l < 4 → s.x SHUF_00BA l = ba l) ∧ ∀ l, l < 4 → s.x SHUF_DC00 l = dc l
  mem : ∀ r, r ≠ .stack → s.mem r = s0.mem r
  stack : ∀ i, i < o ∨ o + 16 ≤ i → s.mem .stack i = s0.mem .stack i

/-- The next four words to be used in rounds are on the stack. -/
def Words (o : Nat) (m : Nat → Word) (j : Nat) (s : State) : Prop :=
  ∀ i, i < 4 → readWord (s.mem .stack) (o + 4 * i) = W m (j + i) + K (j + i)

theorem xfer_spec {env : Env} {o q c j jj disp i : Nat} {m : Nat → Word} {s0 s : State} {v : Args} {x : Xs} (hv : env.Valid) (L : Loaded env s0.mem)
    (hx : x ∈ rots) (hsp : s0.r .rsp = env.ptr .stack o) (hroom : o + 16 ≤ env.size .stack) (hal : (env.base .stack + o) % 16 = 0)
    (hi : i < q) (hji : jj + 4 * i = j) (hj : j + 4 ≤ 64) (hc : c + disp = 4 * j) (h : Inv env o q m s0 c j jj v x s) :
    Inv env o q m s0 c j jj v x (exec env (xfer (x.get i) disp) s) ∧ Words o m j (exec env (xfer (x.get i) disp) s) := by
  have hsz := size_le L
  have hw : Width.lanes .xmm = 4 := rfl
  rw [xfer, exec_cons, exec_cons, exec_nil]
  rw [step_vopLoad hv .paddd XFER (x.get i) (r := .one) (o := c + disp) (ea_reg h.rcx disp) (by rw [hw]; omega)]
  have hea : ∀ z, (s.setX XFER z).ea env (.reg .rsp _XFER) = env.ptr .stack o := fun z =>
    ea_reg (s := s.setX XFER z) (r := .stack) (o := o) ((h.regs .rsp (by decide)).trans hsp) _XFER
  rw [step_vstore hv XFER (r := .stack) (o := o) (hea _) (by rw [hw]; omega) hv.stack (fun _ => by rw [hw]; exact hal)]
  have hne : ∀ k, x.get k ≠ XFER := fun k e => get_ne hx k (by rw [e]; decide)
  obtain ⟨w, hwd⟩ : ∃ w, (zx .xmm fun l => VOp.paddd.eval (s.x (x.get i) l) (readWord (s.mem .one) (c + disp + 4 * l))) = w := ⟨_, rfl⟩
  rw [hwd]
  obtain ⟨s1, hs1⟩ : ∃ s1 : State, ({ s.setX XFER w with mem := upd (s.setX XFER w).mem .stack (writeLanes (Width.lanes .xmm)
    ((s.setX XFER w).mem .stack) o ((s.setX XFER w).x XFER)) } : State) = s1 := ⟨_, rfl⟩
  have g1 : s1.r = s.r := by rw [← hs1]; rfl
  have g2 : s1.x = upd s.x XFER w := by rw [← hs1]; rfl
  have g3 : s1.mem = upd s.mem .stack (writeLanes 4 (s.mem .stack) o w) := by
    rw [← hs1]
    show upd s.mem .stack (writeLanes 4 (s.mem .stack) o (upd s.x XFER w XFER)) = _
    rw [upd_same]
  have g4 : s1.fault = s.fault := by rw [← hs1]; rfl
  rw [hs1]
  clear hs1
  refine ⟨⟨g4.trans h.fault, by rw [g1]; exact h.regs, by rw [g1]; exact h.rcx, ?_, fun k hk l hl => ?_, ⟨fun l hl => ?_, fun l hl => ?_⟩,
    fun r hr => ?_, fun p hp => ?_⟩, fun k hk => ?_⟩
  · have : s1.get32 = s.get32 := by funext r; rw [State.get32, State.get32, g1]
    rw [this]; exact h.hold
  · rw [g2, upd_ne _ _ (hne k)]; exact h.sched k hk l hl
  · rw [g2, upd_ne _ _ (by decide)]; exact h.masks.1 l hl
  · rw [g2, upd_ne _ _ (by decide)]; exact h.masks.2 l hl
  · rw [g3, upd_ne _ _ hr]; exact h.mem r hr
  · rw [g3, upd_same, writeLanes_outside (by omega)]
    exact h.stack p hp
  · rw [g3, upd_same, readWord_writeLanes hk, ← hwd, zx_xmm _ hk]
    show s.x (x.get i) k + readWord (s.mem .one) (c + disp + 4 * k) = _
    rw [h.sched i hi k hk, hji, h.mem .one (by decide), word L (i := j + k) (by omega) (by omega), data_k _ (by omega)]

theorem rounds4 {env : Env} {o j : Nat} {m : Nat → Word} {s : State} {v : Args} {A B C D : List Instr} (hv : env.Valid) (hd : Distinct v)
    (hA : Round v (.reg .rsp (_XFER + 0 * 4)) A) (hB : Round v.rot (.reg .rsp (_XFER + 1 * 4)) B)
    (hC : Round v.rot.rot (.reg .rsp (_XFER + 2 * 4)) C) (hD : Round v.rot.rot.rot (.reg .rsp (_XFER + 3 * 4)) D)
    (hsp : s.r .rsp = env.ptr .stack o) (hroom : o + 16 ≤ env.size .stack) (hh : Hold v s.get32 (rounds m j H0)) (hw : Words o m j s) :
    (exec env (A ++ (B ++ (C ++ D))) s).x = vregs (vpart D) (vregs (vpart C) (vregs (vpart B) (vregs (vpart A) s.x))) ∧
    (exec env (A ++ (B ++ (C ++ D))) s).mem = s.mem ∧ (exec env (A ++ (B ++ (C ++ D))) s).fault = s.fault ∧
    (∀ r ∈ [R.rsp, .rcx, .rsi, .rdi, .rbp], (exec env (A ++ (B ++ (C ++ D))) s).r r = s.r r) ∧
    Hold v.rot4 (exec env (A ++ (B ++ (C ++ D))) s).get32 (rounds m (j + 4) H0) := by
  rw [exec_append, exec_append, exec_append]
  obtain ⟨a1, a2, a3, a4, a5⟩ := hA.spec hv hd (by decide) hsp (by simp only [_XFER]; omega) hh
  generalize exec env A s = s1 at a1 a2 a3 a4 a5
  obtain ⟨b1, b2, b3, b4, b5⟩ := hB.spec hv hd.rot (by decide) ((a4 _ (by decide)).trans hsp) (by simp only [_XFER]; omega) a5
  generalize exec env B s1 = s2 at b1 b2 b3 b4 b5
  obtain ⟨c1, c2, c3, c4, c5⟩ := hC.spec hv hd.rot.rot (by decide) ((b4 _ (by decide)).trans ((a4 _ (by decide)).trans hsp))
    (by simp only [_XFER]; omega) b5
  generalize exec env C s2 = s3 at c1 c2 c3 c4 c5
  obtain ⟨d1, d2, d3, d4, d5⟩ := hD.spec hv hd.rot.rot.rot (by decide)
    ((c4 _ (by decide)).trans ((b4 _ (by decide)).trans ((a4 _ (by decide)).trans hsp))) (by simp only [_XFER]; omega) c5
  generalize exec env D s3 = s4 at d1 d2 d3 d4 d5
  refine ⟨by rw [d1, c1, b1, a1], by rw [d2, c2, b2, a2], by rw [d3, c3, b3, a3], fun r hr => by rw [d4 r hr, c4 r hr, b4 r hr, a4 r hr], ?_⟩
  rw [c2, b2, a2] at d5
  have hW : ∀ i, i < 4 → readWord (s.mem .stack) (o + (_XFER + i * 4)) = K (j + i) + W m (j + i) := fun i hi => by
    rw [show o + (_XFER + i * 4) = o + 4 * i by simp only [_XFER]; omega, hw i hi, BitVec.add_comm]
  rw [hW 0 (by omega), hW 1 (by omega), hW 2 (by omega), hW 3 (by omega), ← round_eq_rnd, ← round_eq_rnd, ← round_eq_rnd, ← round_eq_rnd] at d5
  exact d5

/-- Four rounds, and four more words of the schedule. -/
theorem sched_spec {env : Env} {o c j : Nat} {m : Nat → Word} {s0 s : State} {v : Args} {x : Xs} (hv : env.Valid) (hd : Distinct v) (hx : x ∈ rots)
    (hsp : s0.r .rsp = env.ptr .stack o) (hroom : o + 16 ≤ env.size .stack) (h : Inv env o 4 m s0 c j j v x s) (hw : Words o m j s) :
    Inv env o 4 m s0 c (j + 4) (j + 4) v.rot4 x.rot (exec env (fourRoundsAndSched v x) s) := by
  obtain ⟨h1, h2, h3, h4, h5⟩ := rounds4 hv hd (sched0_round hd x) (sched1_round hd.rot x) (sched2_round hd.rot.rot) (sched3_round hd.rot.rot.rot x)
    ((h.regs .rsp (by decide)).trans hsp) hroom h.hold hw
  have hx' : (exec env (fourRoundsAndSched v x) s).x = vregs (vsched x) s.x := h1
  rw [fourRoundsAndSched] at hx' ⊢
  generalize exec env (sched0 v x ++ (sched1 v.rot x ++ (sched2 v.rot.rot ++ sched3 v.rot.rot.rot x))) s = s' at h1 h2 h3 h4 h5 hx'
  have ho := vsched_other hx s.x
  refine ⟨h3.trans h.fault, fun r hr => (h4 r ?_).trans (h.regs r hr), (h4 _ (by decide)).trans h.rcx, h5, fun i hi l hl => ?_, ?_,
    fun r hr => by rw [h2]; exact h.mem r hr, fun i hi => by rw [h2]; exact h.stack i hi⟩
  · revert r; decide
  · rw [hx']
    match i, hi with
    | 0, _ =>
      show vregs (vsched x) s.x x.x1 l = _
      rw [ho _ (by simp)]; exact (h.sched 1 (by omega) l hl).trans (congrArg (W m) (by omega))
    | 1, _ =>
      show vregs (vsched x) s.x x.x2 l = _
      rw [ho _ (by simp)]; exact (h.sched 2 (by omega) l hl).trans (congrArg (W m) (by omega))
    | 2, _ =>
      show vregs (vsched x) s.x x.x3 l = _
      rw [ho _ (by simp)]; exact (h.sched 3 (by omega) l hl).trans (congrArg (W m) (by omega))
    | 3, _ =>
      show vregs (vsched x) s.x x.x0 l = _
      rw [vsched_x0 hx]
      exact (schedV_spec (m := m) (t := j) (h.sched 0 (by omega)) (h.sched 1 (by omega)) (h.sched 2 (by omega)) (h.sched 3 (by omega))
        h.masks.1 h.masks.2 l hl).trans (congrArg (W m) (by omega))
  · rw [hx', ho _ (by simp), ho _ (by simp)]
    exact h.masks

theorem Inv.addImm {env : Env} {o q c j jj n : Nat} {m : Nat → Word} {s0 s : State} {v : Args} {x : Xs} (hd : Distinct v)
    (h : Inv env o q m s0 c j jj v x s) : Inv env o q m s0 (c + n) j jj v x (step env s (.addImm TBL n)) := by
  have hr : (step env s (.addImm TBL n)).r = upd s.r .rcx (env.ptr .one (c + n)) := by
    rw [← ptr_add, ← h.rcx]; rfl
  have hg : ∀ r, r ≠ .rcx → (step env s (.addImm TBL n)).get32 r = s.get32 r := fun r hne => by
    rw [State.get32, hr, upd_ne _ _ hne, State.get32]
  simp only [Distinct, List.nodup_cons, List.mem_cons, List.not_mem_nil, or_false, not_or] at hd
  refine ⟨h.fault, fun r hr' => ?_, by rw [hr, upd_same], ?_, h.sched, h.masks, h.mem, h.stack⟩
  · rw [hr, upd_ne]
    · exact h.regs r hr'
    · revert r; decide
  · refine ⟨?_, ?_, ?_, ?_, ?_, ?_, ?_, ?_⟩
    · rw [hg _ (by simp [hd])]; exact h.hold.a
    · rw [hg _ (by simp [hd])]; exact h.hold.b
    · rw [hg _ (by simp [hd])]; exact h.hold.c
    · rw [hg _ (by simp [hd])]; exact h.hold.d
    · rw [hg _ (by simp [hd])]; exact h.hold.e
    · rw [hg _ (by simp [hd])]; exact h.hold.f
    · rw [hg _ (by simp [hd])]; exact h.hold.g
    · rw [hg _ (by simp [hd])]; exact h.hold.h

theorem Words.addImm {env : Env} {o j n : Nat} {m : Nat → Word} {s : State} (h : Words o m j s) : Words o m j (step env s (.addImm TBL n)) := h

theorem rep3_spec {env : Env} {o c j : Nat} {m : Nat → Word} {s0 s : State} (hv : env.Valid) (L : Loaded env s0.mem)
    (hsp : s0.r .rsp = env.ptr .stack o) (hroom : o + 16 ≤ env.size .stack) (hal : (env.base .stack + o) % 16 = 0) (hj : j + 16 ≤ 64)
    (hc : c = 4 * j) (h : Inv env o 4 m s0 c j j args xs s) :
    Inv env o 4 m s0 (c + 64) (j + 16) (j + 16) args xs (exec env (rep3 args xs) s) := by
  have hx0 : xs ∈ rots := List.mem_cons_self
  have hx1 := rots_rot hx0
  have hx2 := rots_rot hx1
  have hx3 := rots_rot hx2
  have hd := distinct_args
  have hd1 : Distinct args.rot4 := hd.rot.rot.rot.rot
  have hd2 : Distinct args.rot4.rot4 := hd1.rot.rot.rot.rot
  have hd3 : Distinct args.rot4.rot4.rot4 := hd2.rot.rot.rot.rot
  rw [rep3, exec_append, exec_append, exec_append, exec_append, exec_append, exec_append, exec_append, exec_cons]
  obtain ⟨a1, a2⟩ := xfer_spec (i := 0) (disp := 0 * 16) hv L hx0 hsp hroom hal (by omega) (by omega) (by omega) (by omega) h
  have b := sched_spec hv hd hx0 hsp hroom a1 a2
  obtain ⟨c1, c2⟩ := xfer_spec (i := 0) (disp := 1 * 16) hv L hx1 hsp hroom hal (by omega) (by omega) (by omega) (by omega) b
  have d := sched_spec hv hd1 hx1 hsp hroom c1 c2
  obtain ⟨e1, e2⟩ := xfer_spec (i := 0) (disp := 2 * 16) hv L hx2 hsp hroom hal (by omega) (by omega) (by omega) (by omega) d
  have f := sched_spec hv hd2 hx2 hsp hroom e1 e2
  obtain ⟨g1, g2⟩ := xfer_spec (i := 0) (disp := 3 * 16) hv L hx3 hsp hroom hal (by omega) (by omega) (by omega) (by omega) f
  exact sched_spec hv hd3 hx3 hsp hroom (g1.addImm hd3 (n := 4 * 16)) g2.addImm

/-- Four rounds. -/
theorem fourRounds_spec {env : Env} {o q c j jj : Nat} {m : Nat → Word} {s0 s : State} {v : Args} {x : Xs} (hv : env.Valid) (hd : Distinct v)
    (hsp : s0.r .rsp = env.ptr .stack o) (hroom : o + 16 ≤ env.size .stack) (h : Inv env o q m s0 c j jj v x s) (hw : Words o m j s) :
    Inv env o q m s0 c (j + 4) jj v.rot4 x (exec env (fourRounds v) s) := by
  have e : fourRounds v = doRound v (.reg .rsp (_XFER + 0 * 4)) ++ (doRound v.rot (.reg .rsp (_XFER + 1 * 4)) ++
    (doRound v.rot.rot (.reg .rsp (_XFER + 2 * 4)) ++ doRound v.rot.rot.rot (.reg .rsp (_XFER + 3 * 4)))) := rfl
  obtain ⟨h1, h2, h3, h4, h5⟩ := rounds4 hv hd (doRound_round hd _) (doRound_round hd.rot _) (doRound_round hd.rot.rot _) (doRound_round hd.rot.rot.rot _)
    ((h.regs .rsp (by decide)).trans hsp) hroom h.hold hw
  rw [← e] at h1 h2 h3 h4 h5
  have hx : (exec env (fourRounds v) s).x = s.x := h1
  refine ⟨h3.trans h.fault, fun r hr => (h4 r ?_).trans (h.regs r hr), (h4 _ (by decide)).trans h.rcx, h5, ?_, ?_,
    fun r hr => by rw [h2]; exact h.mem r hr, fun i hi => by rw [h2]; exact h.stack i hi⟩
  · revert r; decide
  · rw [hx]; exact h.sched
  · rw [hx]; exact h.masks

theorem rep2_spec {env : Env} {o q c j : Nat} {m : Nat → Word} {s0 s : State} (hv : env.Valid) (L : Loaded env s0.mem)
    (hsp : s0.r .rsp = env.ptr .stack o) (hroom : o + 16 ≤ env.size .stack) (hal : (env.base .stack + o) % 16 = 0) (hj : j + 8 ≤ 64)
    (hq : 2 ≤ q ∧ q ≤ 4) (hc : c = 4 * j) (h : Inv env o q m s0 c j j args xs s) :
    Inv env o (q - 2) m s0 (c + 32) (j + 8) (j + 8) args xs (exec env (rep2 args xs) s) := by
  have hx0 : xs ∈ rots := List.mem_cons_self
  have hd := distinct_args
  have hd1 : Distinct args.rot4 := hd.rot.rot.rot.rot
  rw [rep2, exec_append, exec_append, exec_append, exec_cons, exec_append]
  obtain ⟨a1, a2⟩ := xfer_spec (i := 0) (disp := 0 * 16) hv L hx0 hsp hroom hal (by omega) (by omega) (by omega) (by omega) h
  have b := fourRounds_spec hv hd hsp hroom a1 a2
  obtain ⟨c1, c2⟩ := xfer_spec (i := 1) (disp := 1 * 16) hv L hx0 hsp hroom hal (by omega) (by omega) (by omega) (by omega) b
  have d := fourRounds_spec hv hd1 hsp hroom (c1.addImm hd1 (n := 2 * 16)) c2.addImm
  obtain ⟨s1, hs1⟩ : ∃ s1, exec env (fourRounds args.rot4) (step env (exec env (xfer xs.x1 (1 * 16)) (exec env (fourRounds args)
    (exec env (xfer xs.x0 (0 * 16)) s))) (.addImm TBL (2 * 16))) = s1 := ⟨_, rfl⟩
  rw [hs1]
  replace d : Inv env o q m s0 (c + 2 * 16) (j + 4 + 4) j args.rot4.rot4 xs s1 := hs1 ▸ d
  clear hs1
  refine ⟨d.fault, d.regs, d.rcx, d.hold, fun i hi l hl => ?_, ⟨fun l hl => d.masks.1 l hl, fun l hl => d.masks.2 l hl⟩, d.mem, d.stack⟩
  have hi' : i = 0 ∨ i = 1 := by omega
  have key : ∀ v : Lanes, zx .xmm v l = v l := fun v => zx_xmm v hl
  rcases hi' with rfl | rfl
  · exact (key (s1.x .x6)).trans ((d.sched 2 (by omega) l hl).trans (congrArg (W m) (by omega)))
  · exact (key (s1.x .x7)).trans ((d.sched 3 (by omega) l hl).trans (congrArg (W m) (by omega)))

end Mammon.X86.One
