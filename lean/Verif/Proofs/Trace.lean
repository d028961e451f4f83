import Verif.Spec.Trace
import Verif.Proofs.Run
/-!
# Two executions in step

A dependency analysis: `flow` follows which registers have values that do not depend on data. Addresses and branches must depend on such registers only.
-/

namespace Mammon.X86

theorem accesses_append (env : Env) (is js : List Instr) (s : State) :
    accesses env (is ++ js) s = accesses env is s ++ accesses env js (exec env is s) := by
  induction is generalizing s with
  | nil => rfl
  | cons i is ih => rw [List.cons_append, accesses, ih, accesses, List.append_assoc]; rfl

theorem trace_add (env : Env) (code : Label → Block) (m n : Nat) (c : Conf) :
    trace env code (m + n) c = trace env code m c ++ trace env code n (steps env code m c) := by
  induction m generalizing c with
  | zero => rw [Nat.zero_add]; cases c <;> rfl
  | succ m ih =>
    rw [Nat.add_right_comm]
    cases c with
    | run l cs s => rw [trace, trace, ih]; rfl
    | done s => rw [steps_done']; cases n <;> rfl
    | fail => rw [steps_fail]; cases n <;> rfl

/-- Is the address computed from the given registers? -/
def addrLow (L : List R) : Addr → Bool
  | .reg b _ => decide (b ∈ L)
  | .idx b i _ => decide (b ∈ L) && decide (i ∈ L)
  | .rel _ _ => true

/-- The registers after a write to `d` whose value is (not) independent of data. -/
def setLow (d : R) (b : Bool) (L : List R) : List R := if b then d :: L.erase d else L.filter (· ≠ d)

/-- The registers, and whether the flags, do not depend on data after an instruction; nothing if its address does. -/
def flow (L : List R) (f : Bool) : Instr → Option (List R × Bool)
  | .push _ => if R.rsp ∈ L then some (L, f) else none
  | .pop d => if R.rsp ∈ L then some (setLow d false L, f) else none
  | .mov d t => some (setLow d (decide (t ∈ L)) L, f)
  | .movLoad d a => if addrLow L a then some (setLow d false L, f) else none
  | .movStore a _ => if addrLow L a then some (L, f) else none
  | .addImm _ _ => some (L, true)
  | .subImm _ _ => some (L, true)
  | .andLoad d a => if addrLow L a then some (setLow d false L, true) else none
  | .xor d t => some (setLow d (decide (d = t) || (decide (d ∈ L) && decide (t ∈ L))) L, true)
  | .lea d a => some (setLow d (addrLow L a) L, f)
  | .cmpImm t _ => some (L, decide (t ∈ L))
  | .test t u => some (L, decide (t ∈ L) && decide (u ∈ L))
  | .dec _ => some (L, true)
  | .mov32 d _ => some (setLow d false L, f)
  | .load32 d a => if addrLow L a then some (setLow d false L, f) else none
  | .store32 a _ => if addrLow L a then some (L, f) else none
  | .add32 d _ => some (setLow d false L, true)
  | .addLoad32 d a => if addrLow L a then some (setLow d false L, true) else none
  | .xor32 d _ => some (setLow d false L, true)
  | .and32 d _ => some (setLow d false L, true)
  | .or32 d _ => some (setLow d false L, true)
  | .shld32 d _ _ => some (setLow d false L, true)
  | .bswap32 d => some (setLow d false L, f)
  | .vload _ _ _ a => if addrLow L a then some (L, f) else none
  | .vstore _ _ a _ => if addrLow L a then some (L, f) else none
  | .vopLoad _ _ _ _ a => if addrLow L a then some (L, f) else none
  | .vinserti128 _ _ a _ => if addrLow L a then some (L, f) else none
  | .movLoadX _ _ a => if addrLow L a then some (L, f) else none
  | .movStoreX _ a _ => if addrLow L a then some (L, f) else none
  | .padddLoad _ a => if addrLow L a then some (L, f) else none
  | _ => some (L, f)

/-- `flow` along a piece of straight-line code. -/
def flows (L : List R) (f : Bool) : List Instr → Option (List R × Bool)
  | [] => some (L, f)
  | i :: is => (flow L f i).bind fun p => flows p.1 p.2 is

/-- The states have the same values in the registers `L`, and the same flags if `f`. -/
structure Agree (L : List R) (f : Bool) (s s' : State) : Prop where
  regs : ∀ r ∈ L, s.r r = s'.r r
  flags : f = true → s.flags = s'.flags

theorem Agree.ea {L : List R} {f : Bool} {s s' : State} (h : Agree L f s s') (env : Env) {a : Addr} (ha : addrLow L a = true) :
    s.ea env a = s'.ea env a := by
  cases a with
  | reg b d => simp only [addrLow, decide_eq_true_eq] at ha; simp only [State.ea, h.regs b ha]
  | idx b i d =>
    simp only [addrLow, Bool.and_eq_true, decide_eq_true_eq] at ha
    simp only [State.ea, h.regs b ha.1, h.regs i ha.2]
  | rel r o => rfl

theorem agree_set {L : List R} {f f' : Bool} {s s' t t' : State} {d : R} {b : Bool} {v v' : BitVec 64} (h : Agree L f s s')
    (h1 : t.r = upd s.r d v) (h2 : t'.r = upd s'.r d v') (hv : b = true → v = v') (hf : f' = true → t.flags = t'.flags) :
    Agree (setLow d b L) f' t t' := by
  refine ⟨fun r hr => ?_, hf⟩
  rw [h1, h2]
  by_cases e : r = d
  · subst e
    rw [upd_same, upd_same]
    cases b with
    | true => exact hv rfl
    | false => simp [setLow] at hr
  · rw [upd_ne _ _ e, upd_ne _ _ e]
    refine h.regs r ?_
    cases b with
    | true =>
      simp only [setLow, if_true, List.mem_cons] at hr
      exact List.mem_of_mem_erase (hr.resolve_left e)
    | false =>
      simp only [setLow, Bool.false_eq_true, if_false, List.mem_filter] at hr
      exact hr.1

theorem agree_upd {L : List R} {f : Bool} {s s' t t' : State} {d : R} {v v' : BitVec 64} (h : Agree L f s s')
    (h1 : t.r = upd s.r d v) (h2 : t'.r = upd s'.r d v') (hv : d ∈ L → v = v') (hf : t.flags = t'.flags) : Agree L true t t' := by
  refine ⟨fun r hr => ?_, fun _ => hf⟩
  rw [h1, h2]
  by_cases e : r = d
  · subst e; rw [upd_same, upd_same]; exact hv hr
  · rw [upd_ne _ _ e, upd_ne _ _ e]; exact h.regs r hr

theorem flow_sound {env : Env} {L L' : List R} {f f' : Bool} {s s' : State} {i : Instr} (h : Agree L f s s') (hi : flow L f i = some (L', f')) :
    i.access env s = i.access env s' ∧ Agree L' f' (step env s i) (step env s' i) := by
  have hk : ∀ {t t' : State}, t.r = s.r → t'.r = s'.r → t.flags = s.flags → t'.flags = s'.flags → Agree L f t t' := fun a b c d =>
    ⟨fun r hr => by rw [a, b]; exact h.regs r hr, fun hf => by rw [c, d]; exact h.flags hf⟩
  cases i with
  | push r =>
    simp only [flow] at hi
    split at hi
    · rename_i hsp
      cases hi
      have e := h.regs _ hsp
      refine ⟨by simp only [Instr.access, e], ⟨fun r hr => ?_, h.flags⟩⟩
      show upd s.r .rsp _ r = upd s'.r .rsp _ r
      rw [e]
      by_cases er : r = .rsp
      · subst er; rw [upd_same, upd_same]
      · rw [upd_ne _ _ er, upd_ne _ _ er]; exact h.regs r hr
    · cases hi
  | pop d =>
    simp only [flow] at hi
    split at hi
    · rename_i hsp
      cases hi
      have e := h.regs _ hsp
      refine ⟨by simp only [Instr.access, e], ?_⟩
      have h1 : Agree L f (s.setR .rsp (s.r .rsp + 8)) (s'.setR .rsp (s'.r .rsp + 8)) := by
        refine ⟨fun r hr => ?_, h.flags⟩
        show upd s.r .rsp _ r = upd s'.r .rsp _ r
        rw [e]
        by_cases er : r = .rsp
        · subst er; rw [upd_same, upd_same]
        · rw [upd_ne _ _ er, upd_ne _ _ er]; exact h.regs r hr
      exact agree_set h1 rfl rfl (by simp) h.flags
    · cases hi
  | mov d t =>
    cases hi
    exact ⟨rfl, agree_set h rfl rfl (fun hb => h.regs t (of_decide_eq_true hb)) h.flags⟩
  | lea d a =>
    cases hi
    exact ⟨rfl, agree_set h rfl rfl (fun hb => h.ea env hb) h.flags⟩
  | movLoad d a =>
    simp only [flow] at hi
    split at hi
    · cases hi
      exact ⟨by simp only [Instr.access, h.ea env ‹_›], agree_set h rfl rfl (by simp) h.flags⟩
    · cases hi
  | andLoad d a =>
    simp only [flow] at hi
    split at hi
    · cases hi
      exact ⟨by simp only [Instr.access, h.ea env ‹_›], agree_set h rfl rfl (by simp) (fun _ => Eq.refl (none : Option Flags))⟩
    · cases hi
  | addLoad32 d a =>
    simp only [flow] at hi
    split at hi
    · cases hi
      exact ⟨by simp only [Instr.access, h.ea env ‹_›], agree_set h rfl rfl (by simp) (fun _ => Eq.refl (none : Option Flags))⟩
    · cases hi
  | load32 d a =>
    simp only [flow] at hi
    split at hi
    · cases hi
      exact ⟨by simp only [Instr.access, h.ea env ‹_›], agree_set h rfl rfl (by simp) h.flags⟩
    · cases hi
  | xor d t =>
    cases hi
    refine ⟨rfl, agree_set h rfl rfl (fun hb => ?_) (fun _ => Eq.refl (none : Option Flags))⟩
    simp only [Bool.or_eq_true, Bool.and_eq_true, decide_eq_true_eq] at hb
    rcases hb with rfl | ⟨h1, h2⟩
    · rw [BitVec.xor_self, BitVec.xor_self]
    · rw [h.regs _ h1, h.regs _ h2]
  | addImm d n => cases hi; exact ⟨rfl, agree_upd h rfl rfl (fun hd => by rw [h.regs _ hd]) rfl⟩
  | subImm d n => cases hi; exact ⟨rfl, agree_upd h rfl rfl (fun hd => by rw [h.regs _ hd]) rfl⟩
  | dec d => cases hi; exact ⟨rfl, agree_upd h rfl rfl (fun hd => by rw [h.regs _ hd]) rfl⟩
  | cmpImm t n =>
    cases hi
    refine ⟨rfl, ⟨h.regs, fun hb => ?_⟩⟩
    simp only [step, h.regs t (of_decide_eq_true hb)]
  | test t u =>
    cases hi
    refine ⟨rfl, ⟨h.regs, fun hb => ?_⟩⟩
    simp only [Bool.and_eq_true, decide_eq_true_eq] at hb
    simp only [step, h.regs _ hb.1, h.regs _ hb.2]
  | mov32 d t => cases hi; exact ⟨rfl, agree_set h rfl rfl (by simp) h.flags⟩
  | bswap32 d => cases hi; exact ⟨rfl, agree_set h rfl rfl (by simp) h.flags⟩
  | add32 d t => cases hi; exact ⟨rfl, agree_set h rfl rfl (by simp) (fun _ => Eq.refl (none : Option Flags))⟩
  | xor32 d t => cases hi; exact ⟨rfl, agree_set h rfl rfl (by simp) (fun _ => Eq.refl (none : Option Flags))⟩
  | and32 d t => cases hi; exact ⟨rfl, agree_set h rfl rfl (by simp) (fun _ => Eq.refl (none : Option Flags))⟩
  | or32 d t => cases hi; exact ⟨rfl, agree_set h rfl rfl (by simp) (fun _ => Eq.refl (none : Option Flags))⟩
  | shld32 d t n => cases hi; exact ⟨rfl, agree_set h rfl rfl (by simp) (fun _ => Eq.refl (none : Option Flags))⟩
  | movStore a t | store32 a t | vload m w d a | vstore m w a t | vopLoad o w d t a | vinserti128 d t a n | movLoadX m d a | movStoreX m a t
  | padddLoad d a =>
    simp only [flow] at hi
    split at hi
    · cases hi
      exact ⟨by simp only [Instr.access, h.ea env ‹_›], hk rfl rfl rfl rfl⟩
    · cases hi
  | _ => cases hi; exact ⟨rfl, hk rfl rfl rfl rfl⟩

theorem flows_sound {env : Env} : ∀ {is : List Instr} {L L' : List R} {f f' : Bool} {s s' : State}, Agree L f s s' → flows L f is = some (L', f') →
    accesses env is s = accesses env is s' ∧ Agree L' f' (exec env is s) (exec env is s')
  | [], _, _, _, _, _, _, h, hi => by cases hi; exact ⟨rfl, h⟩
  | i :: is, L, L', f, f', s, s', h, hi => by
    simp only [flows, Option.bind_eq_some_iff] at hi
    obtain ⟨⟨L1, f1⟩, h1, h2⟩ := hi
    obtain ⟨a, b⟩ := flow_sound (env := env) h h1
    obtain ⟨c, d⟩ := flows_sound (env := env) b h2
    exact ⟨by rw [accesses, accesses, a, c], d⟩

theorem Agree.mono {L L' : List R} {f : Bool} {s s' : State} (h : Agree L f s s') (hL : ∀ r ∈ L', r ∈ L) : Agree L' false s s' :=
  ⟨fun r hr => h.regs r (hL r hr), by simp⟩

/-- The registers whose values do not depend on data when control arrives at a label. -/
def lowAt : Label → List R
  | .fourXX => [.rsp, .rsi, .rdi, .rdx, .rcx, .rbx]
  | .fourPad => [.rsp, .rsi, .rdi, .rdx, .rcx, .rbx]
  | .eightXX => [.rsp, .rbp, .rsi, .rdi, .rdx, .rcx, .rax]
  | .eightPad => [.rsp, .rbp, .rsi, .rdi, .rdx, .rcx, .rax]
  | .eightLoop => [.rsp, .rbp, .rsi, .rdi, .rdx]
  | .eightBlocks => [.rsp, .rbp, .rsi, .rdi, .rdx]
  | .eightMid => [.rsp, .rbp, .rsi, .rdi, .rdx]
  | .eightTail => [.rsp, .rbp, .rsi, .rdi, .rdx]
  | .eightBack => [.rsp, .rbp]
  | .one => [.rsp, .rsi, .rdi]
  | .fourBack => []
  | .fourDone => [.rsp]
  | .shani => [.rsp, .rsi, .rdi, .rdx]
  | .shaniLoop => [.rsp, .rsi, .rdi, .rdx, .rax, .rcx]
  | .shaniTwo => [.rsp, .rsi, .rdi, .rdx, .rax, .rcx]
  | .shaniTail => [.rsp, .rsi, .rdi, .rdx, .rax, .rcx]
  | .shaniOne => [.rsp, .rsi, .rdi, .rdx, .rax, .rcx]
  | .shaniDone => [.rsp]
  | _ => [.rsp, .rsi, .rdi, .rdx]

/-- Do the registers of a label not depend on data? -/
def arrives (L : List R) (l : Label) : Bool := (lowAt l).all fun r => decide (r ∈ L)

/-- Does nothing seen of the next `m` pieces from a label depend on data? `p` are the callers that are known; with `top` there are no others. -/
def quiet (code : Label → Block) (top : Bool) : Nat → Label → List Label → Bool
  | 0, _, _ => true
  | m + 1, l, p =>
    match flows (lowAt l) false (code l).body with
    | none => false
    | some (L, f) =>
      match (code l).term with
      | .goto l' => m == 0 || (arrives L l' && quiet code top m l' p)
      | .jl a b => m == 0 || (f && arrives L a && arrives L b && quiet code top m a p && quiet code top m b p)
      | .jb a b => m == 0 || (f && arrives L a && arrives L b && quiet code top m a p && quiet code top m b p)
      | .jz a b => m == 0 || (f && arrives L a && arrives L b && quiet code top m a p && quiet code top m b p)
      | .call t n => decide (R.rsp ∈ L) && (m == 0 || (arrives L t && quiet code top m t (n :: p)))
      | .ret => decide (R.rsp ∈ L) &&
        (m == 0 || match p with
          | [] => top
          | n :: p => arrives L n && quiet code top m n p)

theorem agree_arrives {L : List R} {f : Bool} {l : Label} {s s' : State} (h : Agree L f s s') (hl : arrives L l = true) : Agree (lowAt l) false s s' :=
  h.mono fun r hr => of_decide_eq_true (List.all_eq_true.1 hl r hr)

theorem trace_fail (env : Env) (code : Label → Block) (m : Nat) : trace env code m .fail = [] := by cases m <;> rfl
theorem trace_done (env : Env) (code : Label → Block) (m : Nat) (s : State) : trace env code m (.done s) = [] := by cases m <;> rfl

theorem finish_ret_back {env : Env} {cs : List Label} {s : State} (h : finish env cs s .ret ≠ .fail) :
    ∃ v : State, v.r = upd s.r .rsp (s.r .rsp + 8) ∧ finish env cs s .ret = back v cs := by
  refine ⟨(s.vread env .dqu 2 (.reg .rsp 0)).1.setR .rsp (s.r .rsp + 8), rfl, ?_⟩
  simp only [finish] at h ⊢
  split at h
  · exact absurd rfl h
  rw [if_neg ‹_›]
  cases cs with
  | nil =>
    simp only at h ⊢
    split at h
    · rw [if_pos ‹_›]; rfl
    · exact absurd rfl h
  | cons n cs =>
    simp only at h ⊢
    split at h
    · rw [if_pos ‹_›]; rfl
    · exact absurd rfl h

/-- Nothing seen depends on data. -/
theorem quiet_sound {env : Env} {code : Label → Block} {top : Bool} {rest : List Label} (htop : top = true → rest = []) :
    ∀ {m : Nat} {l : Label} {p : List Label} {s s' : State}, quiet code top m l p = true → Agree (lowAt l) false s s' →
      steps env code m (.run l (p ++ rest) s) ≠ .fail → steps env code m (.run l (p ++ rest) s') ≠ .fail →
      trace env code m (.run l (p ++ rest) s) = trace env code m (.run l (p ++ rest) s') := by
  intro m
  induction m with
  | zero => intros; rfl
  | succ m ih =>
    intro l p s s' hq hA h1 h2
    rw [quiet] at hq
    split at hq
    · cases hq
    rename_i L f hfl
    obtain ⟨ha, hB⟩ := flows_sound (env := env) hA hfl
    change steps env code m (advance env code _) ≠ .fail at h1 h2
    have hf1 : (exec env (code l).body s).fault = false := by
      refine Bool.eq_false_iff.2 fun hc => h1 ?_
      rw [advance, if_pos hc, steps_fail]
    have hf2 : (exec env (code l).body s').fault = false := by
      refine Bool.eq_false_iff.2 fun hc => h2 ?_
      rw [advance, if_pos hc, steps_fail]
    have e1 := advance_run (env := env) (code := code) (l := l) (cs := p ++ rest) (b := (code l).body) (tm := (code l).term) rfl rfl hf1
    have e2 := advance_run (env := env) (code := code) (l := l) (cs := p ++ rest) (b := (code l).body) (tm := (code l).term) rfl rfl hf2
    rw [e1] at h1
    rw [e2] at h2
    rw [trace, trace, e1, e2]
    clear e1 e2
    simp only [seen, ha]
    generalize hu : exec env (code l).body s = u at *
    generalize hu' : exec env (code l).body s' = u' at *
    clear hu hu' ha hfl hA
    have br : ∀ (c : Flags → Bool) (a b : Label),
        (m == 0 || (f && arrives L a && arrives L b && quiet code top m a p && quiet code top m b p)) = true →
        steps env code m (branch (p ++ rest) u c a b) ≠ .fail → steps env code m (branch (p ++ rest) u' c a b) ≠ .fail →
        trace env code m (branch (p ++ rest) u c a b) = trace env code m (branch (p ++ rest) u' c a b) := by
      intro c a b hq h1 h2
      rcases m with _ | m
      · rw [trace.eq_def, trace.eq_def]
      · simp only [Bool.or_eq_true, Bool.and_eq_true, beq_iff_eq, Nat.add_eq_zero_iff, Nat.one_ne_zero, and_false, false_or] at hq
        obtain ⟨⟨⟨⟨q1, q2⟩, q3⟩, q4⟩, q5⟩ := hq
        have hfl := hB.flags q1
        unfold branch at h1 h2 ⊢
        rw [← hfl] at h2 ⊢
        cases hF : u.flags with
        | none => rfl
        | some F =>
          simp only [hF] at h1 h2
          simp only
          by_cases hc : c F = true
          · rw [if_pos hc] at h1 h2 ⊢
            exact ih q4 (agree_arrives hB q2) h1 h2
          · rw [if_neg hc] at h1 h2 ⊢
            exact ih q5 (agree_arrives hB q3) h1 h2
    cases ht : (code l).term with
    | goto l' =>
      rw [ht] at hq h1 h2
      simp only [Term.access]
      congr 1
      rcases m with _ | m
      · rfl
      · simp only [Bool.or_eq_true, Bool.and_eq_true, beq_iff_eq, Nat.add_eq_zero_iff, Nat.one_ne_zero, and_false, false_or] at hq
        exact ih hq.2 (agree_arrives hB hq.1) h1 h2
    | jl a b => rw [ht] at hq h1 h2; simp only [Term.access]; congr 1; exact br _ a b hq h1 h2
    | jb a b => rw [ht] at hq h1 h2; simp only [Term.access]; congr 1; exact br _ a b hq h1 h2
    | jz a b => rw [ht] at hq h1 h2; simp only [Term.access]; congr 1; exact br _ a b hq h1 h2
    | call t n =>
      rw [ht] at hq h1 h2
      simp only [Bool.and_eq_true, decide_eq_true_eq] at hq
      have e := hB.regs _ hq.1
      simp only [Term.access, e]
      congr 1
      have hq := hq.2
      rcases m with _ | m
      · rw [trace.eq_def, trace.eq_def]
      · simp only [Bool.or_eq_true, Bool.and_eq_true, beq_iff_eq, Nat.add_eq_zero_iff, Nat.one_ne_zero, and_false, false_or] at hq
        simp only [finish] at h1 h2 ⊢
        split at h1
        · rw [steps_fail] at h1; exact absurd rfl h1
        split at h2
        · rw [steps_fail] at h2; exact absurd rfl h2
        rw [if_neg ‹_›, if_neg ‹_›]
        refine ih (p := n :: p) hq.2 ?_ h1 h2
        refine agree_arrives (L := L) (f := true && f) ⟨fun r hr => ?_, fun hf => hB.flags (by simpa using hf)⟩ hq.1
        show upd u.r .rsp _ r = upd u'.r .rsp _ r
        rw [e]
        by_cases er : r = .rsp
        · subst er; rw [upd_same, upd_same]
        · rw [upd_ne _ _ er, upd_ne _ _ er]; exact hB.regs r hr
    | ret =>
      rw [ht] at hq h1 h2
      simp only [Bool.and_eq_true, decide_eq_true_eq] at hq
      have e := hB.regs _ hq.1
      simp only [Term.access, e]
      congr 1
      have hq := hq.2
      rcases m with _ | m
      · rw [trace.eq_def, trace.eq_def]
      · simp only [Bool.or_eq_true, beq_iff_eq, Nat.add_eq_zero_iff, Nat.one_ne_zero, and_false, false_or] at hq
        obtain ⟨v, v1, v2⟩ := finish_ret_back (fun e => h1 (by rw [e, steps_fail]))
        obtain ⟨v', v1', v2'⟩ := finish_ret_back (fun e => h2 (by rw [e, steps_fail]))
        rw [v2] at h1 ⊢
        rw [v2'] at h2 ⊢
        cases p with
        | nil =>
          obtain rfl := htop hq
          show trace env code (m + 1) (.done v) = trace env code (m + 1) (.done v')
          rw [trace_done, trace_done]
        | cons n p =>
          simp only [Bool.and_eq_true] at hq
          refine ih hq.2 ?_ h1 h2
          refine agree_arrives (L := L) (f := false) ⟨fun r hr => ?_, by simp⟩ hq.1
          rw [v1, v1', e]
          by_cases er : r = .rsp
          · subst er; rw [upd_same, upd_same]
          · rw [upd_ne _ _ er, upd_ne _ _ er]; exact hB.regs r hr

/-- The lanes read are determined by the bytes of the access. -/
theorem read_same {env : Env} {s s' : State} {p : BitVec 64} {n : Nat} (h : (⟨p, 4 * n, false⟩ : Access).Same env s s') (l : Nat) (hl : l < n) :
    env.read s.mem p n l = env.read s'.mem p n l := by
  unfold Env.read
  cases hq : env.resolve p (4 * n) with
  | none => rfl
  | some q =>
    obtain ⟨r, o⟩ := q
    have := h r o hq
    simp only [readWord]
    rw [this (o + 4 * l + 3) (by omega) (by show _ < o + 4 * n; omega), this (o + 4 * l + 2) (by omega) (by show _ < o + 4 * n; omega),
      this (o + 4 * l + 1) (by omega) (by show _ < o + 4 * n; omega), this (o + 4 * l) (by omega) (by show _ < o + 4 * n; omega)]

/-- Two states with the same registers and flags whose memories agree where `m` and `m'` do. -/
def Alike (m m' : Mem) (a b : State) : Prop :=
  a.r = b.r ∧ a.x = b.x ∧ a.flags = b.flags ∧ a.fault = b.fault ∧ ∀ r j, m r j = m' r j → a.mem r j = b.mem r j

theorem Alike.setR {m m' : Mem} {a b : State} (h : Alike m m' a b) (d : R) {v v' : BitVec 64} (e : v = v') :
    Alike m m' (a.setR d v) (b.setR d v') := by
  obtain ⟨h1, h2, h3, h4, h5⟩ := h
  exact ⟨by simp only [State.setR, h1, e], h2, h3, h4, h5⟩

theorem Alike.setR32 {m m' : Mem} {a b : State} (h : Alike m m' a b) (d : R) {v v' : BitVec 32} (e : v = v') :
    Alike m m' (a.setR32 d v) (b.setR32 d v') := h.setR d (by rw [e])

theorem Alike.setX {m m' : Mem} {a b : State} (h : Alike m m' a b) (d : X) {v v' : Lanes} (e : v = v') :
    Alike m m' (a.setX d v) (b.setX d v') := by
  obtain ⟨h1, h2, h3, h4, h5⟩ := h
  exact ⟨h1, by simp only [State.setX, h2, e], h3, h4, h5⟩

theorem Alike.clobber {m m' : Mem} {a b : State} (h : Alike m m' a b) : Alike m m' a.clobber b.clobber := by
  obtain ⟨h1, h2, _, h4, h5⟩ := h
  exact ⟨h1, h2, rfl, h4, h5⟩

theorem Alike.vread {m : Mem} (env : Env) (s : State) (mv : Mov) (n : Nat) (a : Addr) :
    Alike m s.mem (({ s with mem := m } : State).vread env mv n a).1 (s.vread env mv n a).1 := by
  have hea : ({ s with mem := m } : State).ea env a = s.ea env a := by cases a <;> rfl
  exact ⟨rfl, rfl, rfl, by simp only [State.vread, State.check, hea], fun _ _ e => e⟩

theorem vread_snd {m : Mem} (env : Env) (s : State) (mv : Mov) (n : Nat) (a : Addr) :
    (({ s with mem := m } : State).vread env mv n a).2 = env.read m (s.ea env a) n := by
  cases a <;> rfl

end Mammon.X86
