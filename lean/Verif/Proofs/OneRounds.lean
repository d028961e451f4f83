import Verif.Proofs.Scalar
import Verif.Model.Sha256Code
/-!
# Rounds in general registers
-/

namespace Mammon.X86.One
open Spec.SHA256

/-- The registers of the working variables. -/
def Args.regs (v : Args) : List R := [v.a, v.b, v.c, v.d, v.e, v.f, v.g, v.h]

/-- The registers a round uses are different, and none of them is used for something else. -/
def Distinct (v : Args) : Prop :=
  [v.a, v.b, v.c, v.d, v.e, v.f, v.g, v.h, y0, y1, y2, .rsp, .rcx, .rsi, .rdi, .rbp].Nodup

instance (v : Args) : Decidable (Distinct v) := by unfold Distinct; infer_instance

theorem Distinct.rot {v : Args} (h : Distinct v) : Distinct v.rot := by
  refine List.Perm.nodup_iff ?_ |>.mp h
  exact (List.perm_middle (a := v.h) (l₁ := [v.a, v.b, v.c, v.d, v.e, v.f, v.g]))

theorem distinct_args : Distinct args := by decide

/-- The registers `a`..`h` hold the working variables. -/
structure Hold (v : Args) (val : R → Word) (hv : HV) : Prop where
  a : val v.a = hv.a
  b : val v.b = hv.b
  c : val v.c = hv.c
  d : val v.d = hv.d
  e : val v.e = hv.e
  f : val v.f = hv.f
  g : val v.g = hv.g
  h : val v.h = hv.h

/-- A sequence of instructions that does a round with the word at `m`, among other things with vectors. -/
structure Round (v : Args) (m : Addr) (is : List Instr) : Prop where
  mixed : is.all (fun i => sok i || isVec i) = true
  dest : ∀ i ∈ is, ∀ r, sdest i = some r → r ∈ [v.d, v.h, y0, y1, y2]
  load : ∀ i ∈ is, ∀ a, sload i = some a → a = m
  eff : ∀ ld f hv, Hold v f hv → Hold v.rot (sexec ld (spart is) f) (rnd (ld m) hv)

theorem sigma1 (e : Word) :
    ((((e <<< (32 - (25 - 11)) ||| e >>> (32 - (32 - (25 - 11)))) ^^^ e) <<< (32 - (11 - 6)) |||
      ((e <<< (32 - (25 - 11)) ||| e >>> (32 - (32 - (25 - 11)))) ^^^ e) >>> (32 - (32 - (11 - 6)))) ^^^ e) <<< (32 - 6) |||
    ((((e <<< (32 - (25 - 11)) ||| e >>> (32 - (32 - (25 - 11)))) ^^^ e) <<< (32 - (11 - 6)) |||
      ((e <<< (32 - (25 - 11)) ||| e >>> (32 - (32 - (25 - 11)))) ^^^ e) >>> (32 - (32 - (11 - 6)))) ^^^ e) >>> (32 - (32 - 6)) = bsig1 e := by
  rw [ror_def' _ (25 - 11) (by decide) (by decide), ror_def' _ (11 - 6) (by decide) (by decide), ror_def' _ 6 (by decide) (by decide),
    ror_xor, ror_xor, ror_xor, ror_ror, ror_ror, ror_ror, bsig1, show 25 - 11 + (11 - 6) + 6 = 25 from rfl, show 11 - 6 + 6 = 11 from rfl]
  ac_rfl

theorem sigma0 (e : Word) :
    ((((e <<< (32 - (22 - 13)) ||| e >>> (32 - (32 - (22 - 13)))) ^^^ e) <<< (32 - (13 - 2)) |||
      ((e <<< (32 - (22 - 13)) ||| e >>> (32 - (32 - (22 - 13)))) ^^^ e) >>> (32 - (32 - (13 - 2)))) ^^^ e) <<< (32 - 2) |||
    ((((e <<< (32 - (22 - 13)) ||| e >>> (32 - (32 - (22 - 13)))) ^^^ e) <<< (32 - (13 - 2)) |||
      ((e <<< (32 - (22 - 13)) ||| e >>> (32 - (32 - (22 - 13)))) ^^^ e) >>> (32 - (32 - (13 - 2)))) ^^^ e) >>> (32 - (32 - 2)) = bsig0 e := by
  rw [ror_def' _ (22 - 13) (by decide) (by decide), ror_def' _ (13 - 2) (by decide) (by decide), ror_def' _ 2 (by decide) (by decide),
    ror_xor, ror_xor, ror_xor, ror_ror, ror_ror, ror_ror, bsig0, show 22 - 13 + (13 - 2) + 2 = 22 from rfl, show 13 - 2 + 2 = 13 from rfl]
  ac_rfl

/-- It suffices to look at the two registers written. -/
theorem Round.of {v : Args} (hd : Distinct v) {m : Addr} {is : List Instr} (mixed : is.all (fun i => sok i || isVec i) = true)
    (dest : ∀ i ∈ is, ∀ r, sdest i = some r → r ∈ [v.d, v.h, y0, y1, y2]) (load : ∀ i ∈ is, ∀ a, sload i = some a → a = m)
    (eff : ∀ ld f, sexec ld (spart is) f v.h = f v.h + (ch (f v.e) (f v.f) (f v.g) + bsig1 (f v.e) + ld m) + bsig0 (f v.a) + maj (f v.a) (f v.b) (f v.c) ∧
      sexec ld (spart is) f v.d = f v.d + (f v.h + (ch (f v.e) (f v.f) (f v.g) + bsig1 (f v.e) + ld m))) : Round v m is := by
  refine ⟨mixed, dest, load, fun ld f hv h => ?_⟩
  have ho : ∀ r, r ∉ [v.d, v.h, y0, y1, y2] → sexec ld (spart is) f r = f r := fun r hr =>
    sexec_other _ fun i hi hs => hr (dest i (List.mem_filter.mp hi).1 r hs)
  obtain ⟨e1, e2⟩ := eff ld f
  have hr := (List.reverse_perm _).nodup_iff.mpr hd
  simp only [Distinct, List.reverse_cons, List.reverse_nil, List.nil_append, List.cons_append, List.nodup_cons, List.mem_cons,
    List.not_mem_nil, or_false, not_or] at hd hr
  simp only [h.a, h.b, h.c, h.d, h.e, h.f, h.g, h.h] at e1 e2
  refine ⟨?_, (ho _ ?_).trans h.a, (ho _ ?_).trans h.b, (ho _ ?_).trans h.c, ?_, (ho _ ?_).trans h.e, (ho _ ?_).trans h.f, (ho _ ?_).trans h.g⟩
  · refine e1.trans ?_
    simp only [rnd]
    ac_rfl
  · simp [Args.rot, hd]
  · simp [Args.rot, hd]
  · simp [Args.rot, hd]
  · refine e2.trans ?_
    simp only [rnd]
    ac_rfl
  · simp [Args.rot, hd, hr]
  · simp [Args.rot, hd, hr]
  · simp [Args.rot, hd, hr]

theorem doRound_round {v : Args} (hd : Distinct v) (m : Addr) : Round v m (doRound v m) := by
  refine Round.of hd rfl ?_ ?_ fun ld f => ?_
  · simp [doRound, myRor, sdest]
  · simp [doRound, myRor, sload]
  · have hr := (List.reverse_perm _).nodup_iff.mpr hd
    simp only [Distinct, List.reverse_cons, List.reverse_nil, List.nil_append, List.cons_append, List.nodup_cons, List.mem_cons,
      List.not_mem_nil, or_false, not_or] at hd hr
    have e : spart (doRound v m) = doRound v m := rfl
    rw [e]
    simp only [doRound, myRor, sexec, sstep, upd, hd, hr, if_true, if_false, sigma0, sigma1, ch_eq, maj_or, and_self]

theorem sched0_round {v : Args} (hd : Distinct v) (x : Xs) : Round v (.reg .rsp (_XFER + 0 * 4)) (sched0 v x) := by
  refine Round.of hd rfl ?_ ?_ fun ld f => ?_
  · simp [sched0, myRor, sdest]
  · simp [sched0, myRor, sload]
  · have hr := (List.reverse_perm _).nodup_iff.mpr hd
    simp only [Distinct, List.reverse_cons, List.reverse_nil, List.nil_append, List.cons_append, List.nodup_cons, List.mem_cons,
      List.not_mem_nil, or_false, not_or] at hd hr
    simp only [spart, sched0, myRor, List.filter, sok]
    simp only [sexec, sstep, upd, hd, hr, if_true, if_false, sigma0, sigma1, ch_eq, maj_or, and_self]

theorem sched1_round {v : Args} (hd : Distinct v) (x : Xs) : Round v (.reg .rsp (_XFER + 1 * 4)) (sched1 v x) := by
  refine Round.of hd rfl ?_ ?_ fun ld f => ?_
  · simp [sched1, myRor, sdest]
  · simp [sched1, myRor, sload]
  · have hr := (List.reverse_perm _).nodup_iff.mpr hd
    simp only [Distinct, List.reverse_cons, List.reverse_nil, List.nil_append, List.cons_append, List.nodup_cons, List.mem_cons,
      List.not_mem_nil, or_false, not_or] at hd hr
    simp only [spart, sched1, myRor, List.filter, sok]
    simp only [sexec, sstep, upd, hd, hr, if_true, if_false, sigma0, sigma1, ch_eq, maj_or, and_self]

theorem sched2_round {v : Args} (hd : Distinct v) : Round v (.reg .rsp (_XFER + 2 * 4)) (sched2 v) := by
  refine Round.of hd rfl ?_ ?_ fun ld f => ?_
  · simp [sched2, myRor, sdest]
  · simp [sched2, myRor, sload]
  · have hr := (List.reverse_perm _).nodup_iff.mpr hd
    simp only [Distinct, List.reverse_cons, List.reverse_nil, List.nil_append, List.cons_append, List.nodup_cons, List.mem_cons,
      List.not_mem_nil, or_false, not_or] at hd hr
    simp only [spart, sched2, myRor, List.filter, sok]
    simp only [sexec, sstep, upd, hd, hr, if_true, if_false, sigma0, sigma1, ch_eq, maj_or, and_self]

theorem sched3_round {v : Args} (hd : Distinct v) (x : Xs) : Round v (.reg .rsp (_XFER + 3 * 4)) (sched3 v x) := by
  refine Round.of hd rfl ?_ ?_ fun ld f => ?_
  · simp [sched3, myRor, sdest]
  · simp [sched3, myRor, sload]
  · have hr := (List.reverse_perm _).nodup_iff.mpr hd
    simp only [Distinct, List.reverse_cons, List.reverse_nil, List.nil_append, List.cons_append, List.nodup_cons, List.mem_cons,
      List.not_mem_nil, or_false, not_or] at hd hr
    simp only [spart, sched3, myRor, List.filter, sok]
    simp only [sexec, sstep, upd, hd, hr, if_true, if_false, sigma0, sigma1, ch_eq, maj_or, and_self]

/-- A round. -/
theorem Round.spec {env : Env} (hv : env.Valid) {v : Args} {b : R} {k : Nat} {is : List Instr} (hR : Round v (.reg b k) is) (hd : Distinct v)
    (hb : b ∈ [R.rsp, .rcx, .rsi, .rdi, .rbp]) {s : State} {rg : Region} {o : Nat} (hp : s.r b = env.ptr rg o) (hk : o + k + 4 ≤ env.size rg)
    {w : HV} (hh : Hold v s.get32 w) :
    (exec env is s).x = vregs (vpart is) s.x ∧ (exec env is s).mem = s.mem ∧ (exec env is s).fault = s.fault ∧
    (∀ r ∈ [R.rsp, .rcx, .rsi, .rdi, .rbp], (exec env is s).r r = s.r r) ∧
    Hold v.rot (exec env is s).get32 (rnd (readWord (s.mem rg) (o + k)) w) := by
  have hdest : ∀ r ∈ [R.rsp, .rcx, .rsi, .rdi, .rbp], ∀ i ∈ is, sdest i ≠ some r := fun r hr i hi hs => by
    have h1 := hR.dest i hi r hs
    have h2 := hd
    simp only [Distinct, List.nodup_cons, List.mem_cons, List.not_mem_nil, or_false, not_or] at h2
    simp only [List.mem_cons, List.not_mem_nil, or_false] at h1 hr
    rcases h1 with rfl | rfl | rfl | rfl | rfl <;> simp [h2] at hr
  have hea : s.r b + BitVec.ofNat 64 k = env.ptr rg (o + k) := by rw [hp, ptr_add]
  obtain ⟨h1, h2, h3, h4, h5⟩ := exec_mix (env := env) (ld := fun _ => readWord (s.mem rg) (o + k)) (b := b) is (s := s) hR.mixed (hdest b hb)
    fun i hi a ha => ⟨k, hR.load i hi a ha, by rw [hea]; exact canRead_ptr hv (by decide) (by omega), by
      rw [hea, read_ptr hv _ (by decide) (by omega)]; rfl⟩
  refine ⟨h1, h3, h4, fun r hr => h5 r (hdest r hr), ?_⟩
  rw [h2]
  exact hR.eff _ _ _ hh

end Mammon.X86.One
