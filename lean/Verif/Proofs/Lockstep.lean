import Verif.Proofs.Trace
import Verif.Proofs.EightLoop
import Verif.Proofs.ShaniLoop
/-!
# Two calls of a routine that differ in the data only

The two executions are in step: between the places where the invariants of the correctness proofs determine the registers, `quiet_sound` applies.
-/

namespace Mammon.X86

theorem quiet_one : quiet code false [Label.one].length .one [] = true := by decide +kernel
theorem quiet_four : quiet code false [Label.four].length .four [] = true := by decide +kernel
theorem quiet_fourLoop : quiet code false [Label.fourLoop].length .fourLoop [] = true := by decide +kernel
theorem quiet_fourBlocks : quiet code false fourBatch.tail.length .fourBlocks [] = true := by decide +kernel
theorem quiet_fourTail : quiet code false [Label.fourTail].length .fourTail [] = true := by decide +kernel
theorem quiet_fourCall : quiet code false fourSingle.tail.length .fourCall [] = true := by decide +kernel
theorem quiet_fourDone : quiet code false [Label.fourDone].length .fourDone [] = true := by decide +kernel
theorem quiet_eightLoop : quiet code false [Label.eightLoop].length .eightLoop [] = true := by decide +kernel
theorem quiet_eightBlocks : quiet code false eightBatch.tail.length .eightBlocks [] = true := by decide +kernel
theorem quiet_eightTail : quiet code false [Label.eightTail].length .eightTail [] = true := by decide +kernel
theorem quiet_eightBack : quiet code false [Label.eightBack].length .eightBack [] = true := by decide +kernel

/-- A stretch of code between two places. -/
theorem stretch {env : Env} {p : List Label} {l : Label} {cs : List Label} {s s' : State} {c c' : Conf} (hq : quiet code false p.length l [] = true)
    (hA : ∀ r ∈ lowAt l, s.r r = s'.r r) (h1 : Steps env code p (.run l cs s) c) (h2 : Steps env code p (.run l cs s') c') (n1 : c ≠ .fail)
    (n2 : c' ≠ .fail) : trace env code p.length (.run l cs s) = trace env code p.length (.run l cs s') :=
  quiet_sound (rest := cs) (by simp) hq ⟨hA, by simp⟩ (fun e => n1 (h1.1.symm.trans e)) (fun e => n2 (h2.1.symm.trans e))

theorem trace_trans {env : Env} {p q : List Label} {a a' b b' : Conf} (h1 : Steps env code p a b) (h2 : Steps env code p a' b')
    (e1 : trace env code p.length a = trace env code p.length a') (e2 : trace env code q.length b = trace env code q.length b') :
    trace env code (p ++ q).length a = trace env code (p ++ q).length a' := by
  rw [List.length_append, trace_add, trace_add, h1.1, h2.1, e1, e2]

theorem Steps.rest {env : Env} {code : Label → Block} {p q : List Label} {a b c : Conf} (h : Steps env code (p ++ q) a c) (h' : Steps env code p a b) :
    Steps env code q b c := by
  obtain ⟨h1, h2⟩ := h
  rw [List.length_append] at h1 h2
  rw [steps_add, h'.1] at h1
  rw [path_add, h'.1, h'.2] at h2
  exact ⟨h1, List.append_cancel_left h2⟩

theorem back_ne_fail (s : State) (cs : List Label) : back s cs ≠ .fail := by cases cs <;> simp [back]

/-- The registers at the entry. -/
theorem entry_agree {env : Env} {d t ii oo n : Nat} {ret : BitVec 64} {s s' : State} (E : Entry env d t ii oo n ret s) (E' : Entry env d t ii oo n ret s')
    (hdx : s.r .rdx = s'.r .rdx) : ∀ r ∈ [R.rsp, .rsi, .rdi, .rdx], s.r r = s'.r r := by
  intro r hr
  simp only [List.mem_cons, List.not_mem_nil, or_false] at hr
  rcases hr with rfl | rfl | rfl | rfl
  · rw [E.rsp, E'.rsp]
  · rw [E.rsi, E'.rsi]
  · rw [E.rdi, E'.rdi]
  · exact hdx

theorem one_trace {env : Env} {cs : List Label} {s s' : State} {t ii oo : Nat} (E : Entry env 120 t ii oo 1 (retTo env cs) s)
    (E' : Entry env 120 t ii oo 1 (retTo env cs) s') : trace env code 1 (.run .one cs s) = trace env code 1 (.run .one cs s') := by
  obtain ⟨u, r, -⟩ := one_spec env cs s t ii oo E
  obtain ⟨u', r', -⟩ := one_spec env cs s' t ii oo E'
  refine stretch quiet_one (fun r hr => ?_) r r' (back_ne_fail _ _) (back_ne_fail _ _)
  simp only [lowAt, List.mem_cons, List.not_mem_nil, or_false] at hr
  rcases hr with rfl | rfl | rfl
  · rw [E.rsp, E'.rsp]
  · rw [E.rsi, E'.rsi]
  · rw [E.rdi, E'.rdi]

namespace Four

theorem FInv.agree {env : Env} {t ii oo k n : Nat} {s0 s0' s s' : State} (h : FInv env t ii oo k n s0 s) (h' : FInv env t ii oo k n s0' s') :
    ∀ r ∈ [R.rsp, .rsi, .rdi, .rdx], s.r r = s'.r r := by
  intro r hr
  simp only [List.mem_cons, List.not_mem_nil, or_false] at hr
  rcases hr with rfl | rfl | rfl | rfl
  · rw [h.rsp, h'.rsp]
  · rw [h.rsi, h'.rsi]
  · rw [h.rdi, h'.rdi]
  · rw [h.rdx, h'.rdx]

theorem loop_trace {env : Env} {t ii oo n : Nat} {s0 s0' : State} {cs : List Label} (C : Ctx env t ii oo n s0) (C' : Ctx env t ii oo n s0') :
    ∀ (f k : Nat) {s s' : State}, n - k < f → FInv env t ii oo k n s0 s → FInv env t ii oo k n s0' s' →
    trace env X86.code (rep ((n - k) / 4) fourBatch ++ [Label.fourLoop]).length (.run .fourLoop cs s) = trace env X86.code (rep ((n - k) / 4) fourBatch ++ [Label.fourLoop]).length (.run .fourLoop cs s')
  | 0, _, _, _, hf, _, _ => absurd hf (Nat.not_lt_zero _)
  | f + 1, k, s, s', hf, h, h' => by
    obtain ⟨s1, r1, h1⟩ := loop_test cs C.small h
    obtain ⟨s1', r1', h1'⟩ := loop_test cs C'.small h'
    have e1 := stretch quiet_fourLoop (h.agree h') r1 r1' (by simp) (by simp)
    by_cases hk : n - k < 4
    · rw [Nat.div_eq_of_lt hk]
      exact e1
    · rw [if_neg hk] at r1 r1'
      obtain ⟨s2, r2, h2⟩ := loop_batch cs C h1 hk
      obtain ⟨s2', r2', h2'⟩ := loop_batch cs C' h1' hk
      have e2 := stretch quiet_fourBlocks (h1.agree h1') r2 r2' (by simp) (by simp)
      have e3 := loop_trace (cs := cs) C C' f (k + 4) (by omega) h2 h2'
      rw [show (n - k) / 4 = (n - (k + 4)) / 4 + 1 by omega, rep_succ, List.append_assoc]
      exact trace_trans (r1.trans r2) (r1'.trans r2') (trace_trans r1 r1' e1 e2) e3

theorem tail_trace {env : Env} (hone : OneSpec env) {t ii oo n : Nat} {s0 s0' : State} {cs : List Label} (C : Ctx env t ii oo n s0)
    (C' : Ctx env t ii oo n s0') : ∀ (f k : Nat) {s s' : State}, n - k < f → FInv env t ii oo k n s0 s → FInv env t ii oo k n s0' s' →
    trace env X86.code (rep (n - k) fourSingle ++ [Label.fourTail]).length (.run .fourTail cs s) = trace env X86.code (rep (n - k) fourSingle ++ [Label.fourTail]).length (.run .fourTail cs s')
  | 0, _, _, _, hf, _, _ => absurd hf (Nat.not_lt_zero _)
  | f + 1, k, s, s', hf, h, h' => by
    have hle := h.le
    obtain ⟨s1, r1, h1⟩ := tail_test cs C.small h
    obtain ⟨s1', r1', h1'⟩ := tail_test cs C'.small h'
    have e1 := stretch quiet_fourTail (h.agree h') r1 r1' (by simp) (by simp)
    by_cases hk : k = n
    · subst hk
      rw [Nat.sub_self]
      exact e1
    · rw [if_neg hk] at r1 r1'
      obtain ⟨s2, r2, h2⟩ := tail_call hone cs C h1 hk
      obtain ⟨s2', r2', h2'⟩ := tail_call hone cs C' h1' hk
      have e2 := stretch quiet_fourCall (h1.agree h1') r2 r2' (by simp) (by simp)
      have e3 := tail_trace (cs := cs) hone C C' f (k + 1) (by omega) h2 h2'
      rw [show n - k = n - (k + 1) + 1 by omega, rep_succ, List.append_assoc]
      exact trace_trans (r1.trans r2) (r1'.trans r2') (trace_trans r1 r1' e1 e2) e3

end Four

open Four in
theorem four_trace {env : Env} {cs : List Label} {s s' : State} {t ii oo n : Nat} (E : Entry env 536 t ii oo n (retTo env cs) s)
    (E' : Entry env 536 t ii oo n (retTo env cs) s') (hdx : s.r .rdx = BitVec.ofNat 64 n) (hdx' : s'.r .rdx = BitVec.ofNat 64 n) (hn : n < 2 ^ 63) :
    trace env code (fourPath n).length (.run .four cs s) = trace env code (fourPath n).length (.run .four cs s') := by
  have C : Ctx env t ii oo n s := ⟨E.valid, E.loaded, E.depth, fun _ => E.align, E.top, E.input, E.output, hn⟩
  have C' : Ctx env t ii oo n s' := ⟨E'.valid, E'.loaded, E'.depth, fun _ => E'.align, E'.top, E'.input, E'.output, hn⟩
  obtain ⟨s1, r1, h1⟩ := four_entry E.toCalled hdx
  obtain ⟨s1', r1', h1'⟩ := four_entry E'.toCalled hdx'
  have e1 := stretch quiet_four (entry_agree E E' (hdx.trans hdx'.symm)) r1 r1' (by simp) (by simp)
  obtain ⟨s2, r2, h2⟩ := loop (cs := cs) C (n + 1) 0 (by omega) h1
  obtain ⟨s2', r2', h2'⟩ := loop (cs := cs) C' (n + 1) 0 (by omega) h1'
  have e2 := loop_trace (cs := cs) C C' (n + 1) 0 (by omega) h1 h1'
  obtain ⟨s3, r3, h3⟩ := tail (cs := cs) (one_spec env) C (n + 1) _ (by omega) h2
  obtain ⟨s3', r3', h3'⟩ := tail (cs := cs) (one_spec env) C' (n + 1) _ (by omega) h2'
  have e3 := tail_trace (cs := cs) (one_spec env) C C' (n + 1) _ (by omega) h2 h2'
  obtain ⟨u, r, -⟩ := four_spec E hdx hn
  obtain ⟨u', r', -⟩ := four_spec E' hdx' hn
  have R3 := (r1.trans r2).trans r3
  have R3' := (r1'.trans r2').trans r3'
  have hm : fourPath n = [.four] ++ (rep ((n - 0) / 4) fourBatch ++ [.fourLoop]) ++ (rep (n - (0 + 4 * ((n - 0) / 4))) fourSingle ++ [.fourTail]) ++ [.fourDone] := by
    rw [show n - (0 + 4 * ((n - 0) / 4)) = n % 4 by omega, Nat.sub_zero, fourPath]; simp
  rw [hm] at r r' ⊢
  have r4 : Steps env code [.fourDone] (.run .fourDone cs s3) (back u cs) := r.rest R3
  have r4' : Steps env code [.fourDone] (.run .fourDone cs s3') (back u' cs) := r'.rest R3'
  refine trace_trans R3 R3' (trace_trans (r1.trans r2) (r1'.trans r2') (trace_trans r1 r1' e1 e2) e3)
    (stretch quiet_fourDone (fun q hq => ?_) r4 r4' (back_ne_fail _ _) (back_ne_fail _ _))
  rw [List.mem_singleton.1 hq, h3.rsp, h3'.rsp]

namespace Eight

theorem EInv.agree {env : Env} {t o ii oo k n : Nat} {s0 s0' s s' : State} (h : EInv env t o ii oo k n s0 s) (h' : EInv env t o ii oo k n s0' s') :
    ∀ r ∈ [R.rsp, .rbp, .rsi, .rdi, .rdx], s.r r = s'.r r := by
  intro r hr
  simp only [List.mem_cons, List.not_mem_nil, or_false] at hr
  rcases hr with rfl | rfl | rfl | rfl | rfl
  · rw [h.rsp, h'.rsp]
  · rw [h.rbp, h'.rbp]
  · rw [h.rsi, h'.rsi]
  · rw [h.rdi, h'.rdi]
  · rw [h.rdx, h'.rdx]

theorem loop_trace {env : Env} {t o ii oo n : Nat} {s0 s0' : State} {cs : List Label} (C : Ctx env t o ii oo n s0) (C' : Ctx env t o ii oo n s0') :
    ∀ (f k : Nat) {s s' : State}, n - k < f → EInv env t o ii oo k n s0 s → EInv env t o ii oo k n s0' s' →
    trace env X86.code (rep ((n - k) / 8) eightBatch ++ [Label.eightLoop]).length (.run .eightLoop cs s) = trace env X86.code (rep ((n - k) / 8) eightBatch ++ [Label.eightLoop]).length (.run .eightLoop cs s')
  | 0, _, _, _, hf, _, _ => absurd hf (Nat.not_lt_zero _)
  | f + 1, k, s, s', hf, h, h' => by
    obtain ⟨s1, r1, h1⟩ := loop_test cs C h
    obtain ⟨s1', r1', h1'⟩ := loop_test cs C' h'
    have e1 := stretch quiet_eightLoop (h.agree h') r1 r1' (by simp) (by simp)
    by_cases hk : n - k < 8
    · rw [Nat.div_eq_of_lt hk]
      exact e1
    · rw [if_neg hk] at r1 r1'
      obtain ⟨s2, r2, h2⟩ := loop_batch cs C h1 hk
      obtain ⟨s2', r2', h2'⟩ := loop_batch cs C' h1' hk
      have e2 := stretch quiet_eightBlocks (h1.agree h1') r2 r2' (by simp) (by simp)
      have e3 := loop_trace (cs := cs) C C' f (k + 8) (by omega) h2 h2'
      rw [show (n - k) / 8 = (n - (k + 8)) / 8 + 1 by omega, rep_succ, List.append_assoc]
      exact trace_trans (r1.trans r2) (r1'.trans r2') (trace_trans r1 r1' e1 e2) e3

end Eight

open Eight in
/-- The entry of `sha256_8_avx2`: `rsp` is computed from a constant in memory. -/
theorem eight_entry_trace {env : Env} {cs : List Label} {s s' : State} {t o ii oo n : Nat} (E : Entry env 1720 t ii oo n (retTo env cs) s)
    (E' : Entry env 1720 t ii oo n (retTo env cs) s') (F : Fits env t o)
    (ho : (env.base .stack + (t - 8)) / 32 * 32 = env.base .stack + (o + 1152)) :
    trace env code 1 (.run .eight cs s) = trace env code 1 (.run .eight cs s') := by
  have a1 : Agree [.rsp] false s s' := ⟨fun r hr => by rw [List.mem_singleton.1 hr, E.rsp, E'.rsp], by simp⟩
  have p1 := (entry_spec E.toCalled F ho).1.rsp
  have p1' := (entry_spec E'.toCalled F ho).1.rsp
  obtain ⟨pre, rest, he, hpre, hrest, hsp⟩ : ∃ pre rest : List Instr, entry = pre ++ rest ∧ (flows [.rsp] false pre).isSome = true ∧
      (flows [.rsp] false rest).isSome = true ∧ ∀ u, (exec env rest u).r .rsp = u.r .rsp - BitVec.ofNat 64 FRAMESZ :=
    ⟨_, [.subImm .rsp FRAMESZ, .movStore (.reg .rsp (_RSAVE + 0 * 64)) .r12, .movStore (.reg .rsp (_RSAVE + 1 * 64)) .r13,
      .movStore (.reg .rsp (_RSAVE + 2 * 64)) .r14, .movStore (.reg .rsp (_RSAVE + 3 * 64)) .r15],
      (List.take_append_drop 4 entry).symm, by decide, by decide, fun u => rfl⟩
  obtain ⟨⟨L, f⟩, hL⟩ := Option.isSome_iff_exists.1 hpre
  obtain ⟨⟨L', f'⟩, hL'⟩ := Option.isSome_iff_exists.1 hrest
  rw [he, exec_append, hsp] at p1 p1'
  have e : (exec env pre s).r .rsp = (exec env pre s').r .rsp := by
    have := p1.trans p1'.symm
    rwa [BitVec.sub_left_inj] at this
  have a2 : Agree [.rsp] false (exec env pre s) (exec env pre s') := ⟨fun r hr => by rw [List.mem_singleton.1 hr, e], by simp⟩
  have hb : code .eight = ⟨pre ++ rest, .goto .eightLoop⟩ := by rw [← he]; rfl
  rw [trace, trace, seen, seen, hb]
  simp only [accesses_append, Term.access, (flows_sound (env := env) a1 hL).1, (flows_sound (env := env) a2 hL').1]
  simp only [trace]

open Eight in
theorem eight_trace {env : Env} {cs : List Label} {s s' : State} {t ii oo n : Nat} (E : Entry env 1720 t ii oo n (retTo env cs) s)
    (E' : Entry env 1720 t ii oo n (retTo env cs) s') (hdx : s.r .rdx = BitVec.ofNat 64 n) (hdx' : s'.r .rdx = BitVec.ofNat 64 n) (hn : n < 2 ^ 63) :
    trace env code (eightPath n).length (.run .eight cs s) = trace env code (eightPath n).length (.run .eight cs s') := by
  have hd := E.depth
  obtain ⟨o, F, ho⟩ := exists_frame E.align hd E.top
  have hlo := F.lo
  have hhi := F.hi
  have hb := frame_depth E.align hd ho
  have C : Ctx env t o ii oo n s := ⟨F, E.valid, E.loaded, by omega, E.input, E.output, hn⟩
  have C' : Ctx env t o ii oo n s' := ⟨F, E'.valid, E'.loaded, by omega, E'.input, E'.output, hn⟩
  obtain ⟨r1, h1⟩ := eight_entry E.toCalled hdx F ho
  obtain ⟨r1', h1'⟩ := eight_entry E'.toCalled hdx' F ho
  have e1 := eight_entry_trace E E' F ho
  obtain ⟨s2, r2, h2⟩ := loop (cs := cs) C (n + 1) 0 (by omega) h1
  obtain ⟨s2', r2', h2'⟩ := loop (cs := cs) C' (n + 1) 0 (by omega) h1'
  have e2 := loop_trace (cs := cs) C C' (n + 1) 0 (by omega) h1 h1'
  obtain ⟨s5, r5, -, hF, -⟩ := tail (cs := cs) C h2
  obtain ⟨s5', r5', -, hF', -⟩ := tail (cs := cs) C' h2'
  obtain ⟨u, rfl⟩ : ∃ u, o = u + 8 := ⟨o - 8, by have := C.depth; omega⟩
  obtain ⟨s3, r3, g3, -, -, E3⟩ := tail_call (cs := cs) C h2
  obtain ⟨s3', r3', g3', -, -, E3'⟩ := tail_call (cs := cs) C' h2'
  have e3 := stretch quiet_eightTail (h2.agree h2') r3 r3' (by simp) (by simp)
  have e4 := four_trace E3 E3' ((g3 _ (by decide)).trans h2.rdx) ((g3' _ (by decide)).trans h2'.rdx) (by omega)
  obtain ⟨v, r, -⟩ := eight_spec E hdx hn
  obtain ⟨v', r', -⟩ := eight_spec E' hdx' hn
  have R := (r1.trans r2).trans r5
  have R' := (r1'.trans r2').trans r5'
  have hm : eightPath n = [.eight] ++ (rep ((n - 0) / 8) eightBatch ++ [.eightLoop]) ++ (.eightTail :: fourPath (n - (0 + 8 * ((n - 0) / 8)))) ++ [.eightBack] := by
    rw [show n - (0 + 8 * ((n - 0) / 8)) = n % 8 by omega, Nat.sub_zero, eightPath]; simp
  rw [hm] at r r' ⊢
  have r6 : Steps env code [.eightBack] (.run .eightBack cs s5) (back v cs) := r.rest R
  have r6' : Steps env code [.eightBack] (.run .eightBack cs s5') (back v' cs) := r'.rest R'
  refine trace_trans R R' (trace_trans (r1.trans r2) (r1'.trans r2') (trace_trans r1 r1' e1 e2) (trace_trans r3 r3' e3 e4))
    (stretch quiet_eightBack (fun q hq => ?_) r6 r6' (back_ne_fail _ _) (back_ne_fail _ _))
  simp only [lowAt, List.mem_cons, List.not_mem_nil, or_false] at hq
  rcases hq with rfl | rfl
  · rw [hF.rsp, hF'.rsp]
  · rw [hF.rbp, hF'.rbp]

/-! ## `sha256_shani` -/

/-- The labels of `sha256_shani`. -/
def shaniLabels : List Label := [.shani, .shaniLoop, .shaniTwo, .shaniTail, .shaniOne, .shaniDone]

/-- The places a piece of code can continue at without a call. -/
def Term.targets : Term → List Label
  | .goto l => [l]
  | .jl a b => [a, b]
  | .jb a b => [a, b]
  | .jz a b => [a, b]
  | .call t _ => [t]
  | .ret => []

theorem quiet_closed {code : Label → Block} {S : List Label} (h : ∀ l ∈ S, quiet code true 2 l [] = true ∧ (∀ t n, (code l).term ≠ .call t n) ∧
    ∀ a ∈ (code l).term.targets, a ∈ S) : ∀ (m : Nat) {l : Label}, l ∈ S → quiet code true m l [] = true
  | 0, _, _ => rfl
  | m + 1, l, hl => by
    obtain ⟨h1, h2, h3⟩ := h l hl
    have ih : ∀ a ∈ (code l).term.targets, quiet code true m a [] = true := fun a ha => quiet_closed h m (h3 a ha)
    rw [quiet] at h1 ⊢
    split at h1
    · cases h1
    rename_i L f hf
    cases ht : (code l).term with
    | goto a =>
      rw [ht] at h1 ih
      simp only [Bool.or_eq_true, Bool.and_eq_true, beq_iff_eq, Nat.one_ne_zero, false_or] at h1 ⊢
      exact .inr ⟨h1.1, ih a (by simp [Term.targets])⟩
    | jl a b | jb a b | jz a b =>
      rw [ht] at h1 ih
      simp only [Bool.or_eq_true, Bool.and_eq_true, beq_iff_eq, Nat.one_ne_zero, false_or] at h1 ⊢
      exact .inr ⟨⟨h1.1.1, ih a (by simp [Term.targets])⟩, ih b (by simp [Term.targets])⟩
    | call t n => exact absurd ht (h2 t n)
    | ret =>
      rw [ht] at h1
      simp only [Bool.and_eq_true] at h1 ⊢
      exact ⟨h1.1, by simp⟩

theorem shani_labels_quiet : ∀ l ∈ shaniLabels, quiet code true 2 l [] = true := by decide +kernel

theorem quiet_shani (m : Nat) : quiet code true m .shani [] = true :=
  quiet_closed (S := shaniLabels) (fun l hl => by
    refine ⟨shani_labels_quiet l hl, ?_⟩
    simp only [shaniLabels, List.mem_cons, List.not_mem_nil, or_false] at hl
    rcases hl with rfl | rfl | rfl | rfl | rfl | rfl <;> exact ⟨fun _ _ h => (by cases h), by simp [code, Shani.code, Term.targets, shaniLabels]⟩) m (by decide)

theorem shani_trace {env : Env} {s s' : State} {t ii oo n : Nat} (E : Entry env 0 t ii oo n env.retAddr s)
    (E' : Entry env 0 t ii oo n env.retAddr s') (hdx : s.r .rdx = BitVec.ofNat 64 n) (hdx' : s'.r .rdx = BitVec.ofNat 64 n) (hn : n < 2 ^ 63)
    (hw : ∀ r ∈ Shani.owned n, env.writable r = true) :
    trace env code (shaniPath n).length (.run .shani [] s) = trace env code (shaniPath n).length (.run .shani [] s') := by
  obtain ⟨u, r, -⟩ := shani_spec (cs := []) E.toCalled hdx hn hw
  obtain ⟨u', r', -⟩ := shani_spec (cs := []) E'.toCalled hdx' hn hw
  refine quiet_sound (p := []) (rest := []) (fun _ => rfl) (quiet_shani _) ⟨entry_agree E E' (hdx.trans hdx'.symm), by simp⟩ ?_ ?_
  · exact fun e => back_ne_fail u [] (r.1.symm.trans e)
  · exact fun e => back_ne_fail u' [] (r'.1.symm.trans e)

end Mammon.X86
