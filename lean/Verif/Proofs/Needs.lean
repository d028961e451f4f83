import Verif.Proofs.Footprint
import Verif.Proofs.EightLoop
import Verif.Proofs.ShaniLoop
/-!
# What the routines need
-/

namespace Mammon.X86

/-- The access of a need, relative to the registers at the beginning. -/
def Need.sym (x : Need) : SymAccess := ⟨⟨.reg x.reg, BitVec.ofInt 64 x.off⟩, x.bytes, x.write, x.al⟩

theorem Need.sym_eval (env : Env) (s : State) (x : Need) : x.sym.eval env s = x.access s := rfl

/-- An access is covered by the needs, or reads the data section. -/
def covered (needs : List Need) (r : Region) (len : Nat) (a : SymAccess) : Bool :=
  match a.addr.origin with
  | .sec q => q == r && !a.write && decide (a.addr.off.toNat + a.bytes ≤ 4 * len) && a.addr.off.toNat % a.al == 0 && 64 % a.al == 0
  | .reg q => needs.any fun x => x.reg == q && decide ((a.addr.off - BitVec.ofInt 64 x.off).toNat + a.bytes ≤ x.bytes) && (!a.write || x.write) &&
      (a.al == 1 || ((a.addr.off - BitVec.ofInt 64 x.off).toNat == 0 && a.al == x.al))
  | .zero => false

theorem covered_allowed {env : Env} {s : State} {needs : List Need} {r : Region} {a : SymAccess} (h : covered needs r (sectionData r).length a = true)
    (hfit : ∀ r, env.base r + env.size r < 2 ^ 64) (P : Placed env r) (hn : ∀ x ∈ needs, (x.access s).Allowed env x.al) : (a.eval env s).Allowed env a.al := by
  obtain ⟨⟨o, off⟩, bytes, write, al⟩ := a
  cases o with
  | zero => cases h
  | sec q =>
    simp only [covered, Bool.and_eq_true, beq_iff_eq, decide_eq_true_eq, Bool.not_eq_true'] at h
    obtain ⟨⟨⟨⟨rfl, h2⟩, h3⟩, h4⟩, h5⟩ := h
    have h1 := hfit q
    have h6 := P.size
    have e : (env.ptr q 0 + off).toNat = env.base q + off.toNat := by
      rw [Env.ptr, BitVec.toNat_add, BitVec.toNat_ofNat, Nat.add_zero, Nat.mod_eq_of_lt (a := env.base q) (by omega), Nat.mod_eq_of_lt (by omega)]
    refine ⟨⟨q, ?_, ?_, fun hw => ?_⟩, ?_⟩
    · show env.base q ≤ (env.ptr q 0 + off).toNat
      omega
    · show (env.ptr q 0 + off).toNat + bytes ≤ _
      omega
    · rw [show (SymAccess.eval env s ⟨⟨.sec q, off⟩, bytes, write, al⟩).write = write from rfl, h2] at hw
      cases hw
    · show (env.ptr q 0 + off).toNat % al = 0
      have d1 : al ∣ env.base q := Nat.dvd_trans (Nat.dvd_of_mod_eq_zero h5) (Nat.dvd_of_mod_eq_zero P.align)
      rw [e]
      exact Nat.mod_eq_zero_of_dvd (Nat.dvd_add d1 (Nat.dvd_of_mod_eq_zero h4))
  | reg q =>
    simp only [covered, List.any_eq_true, Bool.and_eq_true, beq_iff_eq, decide_eq_true_eq, Bool.or_eq_true, Bool.not_eq_true'] at h
    obtain ⟨x, hx, ⟨⟨rfl, h3⟩, h4⟩, h5⟩ := h
    obtain ⟨⟨p, a1, a2, a3⟩, a4⟩ := hn x hx
    have hp := hfit p
    have a2 : (x.access s).addr.toNat + x.bytes ≤ _ := a2
    obtain ⟨d, hd⟩ : ∃ d, off - BitVec.ofInt 64 x.off = d := ⟨_, rfl⟩
    rw [hd] at h3 h5
    have e : (s.r x.reg + off).toNat = (x.access s).addr.toNat + d.toNat := by
      have : s.r x.reg + off = (x.access s).addr + d := by
        show _ = s.r x.reg + BitVec.ofInt 64 x.off + d
        rw [← hd, BitVec.add_assoc, BitVec.add_comm (BitVec.ofInt 64 x.off), BitVec.sub_add_cancel]
      rw [this, BitVec.toNat_add, Nat.mod_eq_of_lt (by omega)]
    refine ⟨⟨p, ?_, ?_, fun hw => ?_⟩, ?_⟩
    · show env.base p ≤ (s.r x.reg + off).toNat
      omega
    · show (s.r x.reg + off).toNat + bytes ≤ _
      omega
    · refine a3 ?_
      rcases h4 with h4 | h4
      · exact absurd (h4.symm.trans hw) (by decide)
      · exact h4
    · show (s.r x.reg + off).toNat % al = 0
      rcases h5 with rfl | ⟨h5, rfl⟩
      · exact Nat.mod_one _
      · rw [e, h5]; exact a4

/-- The footprint consists of the needs and of loads from the data section. -/
def exactly (needs : List Need) (r : Region) (is : List Instr) : Bool :=
  match footprint Known.start is with
  | some l => l.all (covered needs r (sectionData r).length) && needs.all fun x => l.contains x.sym
  | none => false

theorem exactly_sound {env : Env} (hs : env.Separate) {needs : List Need} {r : Region} {is : List Instr} (h : exactly needs r is = true)
    (hfit : ∀ r, env.base r + env.size r < 2 ^ 64) (P : Placed env r)
    {s : State} (hf : s.fault = false) : (exec env is s).fault = false ↔ ∀ x ∈ needs, (x.access s).Allowed env x.al := by
  rw [exactly] at h
  cases hl : footprint Known.start is with
  | none => rw [hl] at h; cases h
  | some l =>
    rw [hl] at h
    simp only [Bool.and_eq_true, List.all_eq_true, List.contains_iff_mem] at h
    rw [exec_failed hs, footprint_sound is hl (Known.Right.start env s), hf]
    constructor
    · rintro ⟨-, h1⟩ x hx
      exact Classical.byContradiction fun hc => h1 ⟨x.sym, h.2 x hx, hc⟩
    · intro h1
      refine ⟨rfl, ?_⟩
      rintro ⟨a, ha, hc⟩
      exact hc (covered_allowed (h.1 a ha) hfit P h1)

theorem one_exactly : exactly oneNeeds .one (code .one).body = true := by decide +kernel

theorem one_exact {env : Env} (hs : env.Separate) (hfit : ∀ r, env.base r + env.size r < 2 ^ 64) (P : Placed env .one) {s : State} (hf : s.fault = false) :
    (exec env (code .one).body s).fault = false ↔ ∀ x ∈ oneNeeds, (x.access s).Allowed env x.al := exactly_sound hs one_exactly hfit P hf

/-- A piece that needs an access that is not allowed. -/
theorem advance_needs {env : Env} (hs : env.Separate) {code : Label → Block} {l : Label} {cs : List Label} {s : State} {a : SymAccess}
    (hl : (match footprint Known.start (code l).body with
      | some l => l.contains a
      | none => false) = true) (ha : ¬ (a.eval env s).Allowed env a.al) : advance env code (.run l cs s) = .fail := by
  cases hm : footprint Known.start (code l).body with
  | none => rw [hm] at hl; cases hl
  | some m =>
    rw [hm] at hl
    have hv : Violates env (code l).body s := (footprint_sound _ hm (Known.Right.start env s)).2 ⟨a, List.contains_iff_mem.1 hl, ha⟩
    have h : ¬ (exec env (code l).body s).fault = false := fun h => ((exec_failed hs _ _).1 h).2 hv
    show (if (exec env (code l).body s).fault then Conf.fail else _) = _
    rw [if_pos (by simpa using h)]

/-- An execution that fails does not return. -/
theorem fail_not_done {env : Env} {code : Label → Block} {c : Conf} {s : State} (h : Reaches env code c .fail) : ¬ Reaches env code c (.done s) := by
  rintro ⟨m, hm⟩
  obtain ⟨k, hk⟩ := h
  have h1 : steps env code (m + k) c = .done s := by rw [steps_add, hm, steps_done']
  have h2 : steps env code (k + m) c = .fail := by rw [steps_add, hk, steps_fail]
  rw [Nat.add_comm, h2] at h1
  cases h1

/-- With a misaligned stack `sha256_1_avx` fails. -/
theorem one_misaligned {env : Env} (hs : env.Separate) {cs : List Label} {s : State} (h : (s.r .rsp).toNat % 16 ≠ 8) :
    advance env code (.run .one cs s) = .fail := by
  refine advance_needs hs (a := ⟨⟨.reg .rsp, BitVec.ofInt 64 (-120)⟩, 16, true, 16⟩) (by decide +kernel) ?_
  rintro ⟨-, h'⟩
  have h' : (s.r .rsp + BitVec.ofInt 64 (-120)).toNat % 16 = 0 := h'
  rw [BitVec.toNat_add, show (BitVec.ofInt 64 (-120)).toNat = 2 ^ 64 - 120 by decide] at h'
  omega

/-- With a misaligned stack `sha256_4_avx` fails unless there is nothing to do. -/
theorem four_misaligned {env : Env} {cs : List Label} {s : State} {t ii oo n : Nat} (E : Called env 536 t ii oo n (retTo env cs) s)
    (hdx : s.r .rdx = BitVec.ofNat 64 n) (hn : n < 2 ^ 63) (h0 : 0 < n) (ha : (env.base .stack + t) % 16 ≠ 8) :
    Reaches env code (.run .four cs s) .fail := by
  have hv := E.valid
  have hs := hv.separate
  have hd := E.depth
  have ht := E.top
  have hfit := hv.fits .stack
  obtain ⟨s1, r1, h1⟩ := four_entry E hdx
  obtain ⟨s2, r2, h2⟩ := Four.loop_test cs hn h1
  have ha2 : (s2.r .rsp).toNat % 16 ≠ 0 := by
    rw [h2.rsp, toNat_ptr hv (by omega)]; omega
  by_cases hk : n - 0 < 4
  · rw [if_pos hk] at r2
    obtain ⟨s3, r3, h3⟩ := Four.tail_test cs hn h2
    rw [if_neg (by omega)] at r3
    have r4 : Steps env code [.fourCall] (.run .fourCall cs s3) (finish env cs s3 (.call .one .fourBack)) :=
      Steps.one (advance_run (b := []) (tm := .call .one .fourBack) rfl rfl h3.fault)
    have hsp : s3.r .rsp = env.ptr .stack (t - 416 + 8) := by rw [h3.rsp, show t - 408 = t - 416 + 8 by omega]
    rw [finish_call hv h3.fault hsp (by omega)] at r4
    refine (((r1.trans r2).trans r3).trans r4).reaches.trans (Reaches.one (one_misaligned hs ?_))
    show (upd s3.r R.rsp (env.ptr .stack (t - 416)) R.rsp).toNat % 16 ≠ 8
    rw [upd_same, toNat_ptr hv (by omega)]
    omega
  · rw [if_neg hk] at r2
    refine (r1.trans r2).reaches.trans (Reaches.one ?_)
    refine advance_needs hs (a := ⟨⟨.reg .rsp, 0⟩, 16, true, 16⟩) (by decide +kernel) ?_
    rintro ⟨-, h'⟩
    refine ha2 ?_
    have h' : (s2.r .rsp + 0#64).toNat % 16 = 0 := h'
    rw [BitVec.add_zero] at h'
    exact h'

/-- With read-only scratch memory `sha256_shani` fails if there are two blocks or more. -/
theorem shani_readonly {env : Env} {cs : List Label} {s : State} {t ii oo n : Nat} (E : Called env 0 t ii oo n (retTo env cs) s)
    (hdx : s.r .rdx = BitVec.ofNat 64 n) (hn : n < 2 ^ 63) (h2 : 2 ≤ n) (hz : 64 ≤ env.size .shaniRw) (hw : env.writable .shaniRw = false) :
    Reaches env code (.run .shani cs s) .fail := by
  have hv := E.valid
  have hs := hv.separate
  have hfit := hv.fits .shaniRw
  obtain ⟨s1, q1, h1⟩ := Shani.entry_spec E hdx
  have r1 : Steps env code [.shani] (.run .shani cs s) (.run .shaniLoop cs s1) :=
    Steps.one (advance_run (b := Shani.entry) (tm := .goto .shaniLoop) rfl q1 h1.fault)
  have r2 : Steps env code [.shaniLoop] (.run .shaniLoop cs s1) (.run .shaniTwo cs (step env s1 (.cmpImm Shani.NUM_BLKS 2))) := by
    refine Steps.one ((advance_run (b := [.cmpImm Shani.NUM_BLKS 2]) (tm := .jl .shaniTail .shaniTwo) rfl rfl h1.fault).trans ?_)
    refine (finish_jl_cmp env cs s1 Shani.NUM_BLKS 2 _ _).trans ?_
    rw [h1.rdx, Four.slt_ofNat (by omega) (by decide)]
    simp only [decide_eq_true_eq]
    rw [if_neg (by omega)]
  refine (r1.trans r2).reaches.trans (Reaches.one ?_)
  refine advance_needs hs (a := ⟨⟨.sec .shaniRw, 0⟩, 16, true, 16⟩) (by decide +kernel) ?_
  rintro ⟨⟨r, a1, a2, a3⟩, -⟩
  have e : (env.ptr .shaniRw 0 + 0#64).toNat = env.base .shaniRw := by rw [BitVec.add_zero, toNat_ptr hv (by omega)]; rfl
  have a1 : env.base r ≤ (env.ptr .shaniRw 0 + 0#64).toNat := a1
  have a2 : (env.ptr .shaniRw 0 + 0#64).toNat + 16 ≤ env.base r + env.size r := a2
  rw [e] at a1 a2
  have : r = .shaniRw := hs r .shaniRw (env.base .shaniRw - env.base r) 0 (by omega) (by omega) (by omega)
  rw [this, hw] at a3
  exact absurd (a3 rfl) (by decide)

end Mammon.X86
