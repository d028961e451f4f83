import Verif.Model.Threads
import Verif.Proofs.Hasher
/-!
# Lemmas on threads
-/

namespace Mammon.X86

/-! ## What is never written -/

/-- The same address space with other permissions. -/
def Env.perm (env : Env) (w : Region → Bool) : Env := { env with writable := w }

theorem vwrite_perm {env : Env} {w : Region → Bool} (hw : ∀ r, w r = true → env.writable r = true) (s : State) (m : Mov) (n : Nat) (p : BitVec 64) (v : Lanes)
    (hf : (s.vwrite (env.perm w) m n p v).fault = false) :
    s.vwrite env m n p v = s.vwrite (env.perm w) m n p v ∧ ∀ r, w r = false → (s.vwrite env m n p v).mem r = s.mem r := by
  have hres : (env.perm w).resolve p (4 * n) = env.resolve p (4 * n) := rfl
  simp only [State.vwrite, Bool.or_eq_false_iff, Bool.not_eq_false', Bool.and_eq_true] at hf
  obtain ⟨h1, h2, h3⟩ := hf
  rw [Env.canWrite, hres] at h2
  cases hr : env.resolve p (4 * n) with
  | none => rw [hr] at h2; cases h2
  | some x =>
    obtain ⟨r0, o⟩ := x
    rw [hr] at h2
    have h2 : w r0 = true := h2
    constructor
    · simp only [State.vwrite, Env.write, Env.canWrite, hres, hr, hw r0 h2]
      simp only [show (env.perm w).writable r0 = true from h2]
    · intro r hr0
      simp only [State.vwrite, Env.write, hr]
      refine upd_ne _ _ ?_
      intro e
      rw [e, h2] at hr0
      cases hr0

theorem step_perm {env : Env} {w : Region → Bool} (hw : ∀ r, w r = true → env.writable r = true) (s : State) (i : Instr)
    (hf : (step (env.perm w) s i).fault = false) : step env s i = step (env.perm w) s i ∧ ∀ r, w r = false → (step env s i).mem r = s.mem r := by
  cases i <;> first
    | exact ⟨rfl, fun _ _ => rfl⟩
    | exact vwrite_perm hw s _ _ _ _ hf
    | (obtain ⟨h1, h2⟩ := vwrite_perm hw s _ _ _ _ hf
       refine ⟨?_, h2⟩
       simp only [step]
       rw [h1])

/-- The state of a thread that has not failed. -/
def Pos.state? : Pos → Option State
  | .at _ _ _ s => some s
  | .done s => some s
  | .fail => none

theorem finish_perm {env : Env} {w : Region → Bool} (hw : ∀ r, w r = true → env.writable r = true) (code : Label → Block) (cs : List Label) (s : State)
    (tm : Term) (hf : finish (env.perm w) cs s tm ≠ .fail) : finish env cs s tm = finish (env.perm w) cs s tm ∧
      ∀ r, w r = false → ∀ s', (Pos.ofConf code (finish env cs s tm)).state? = some s' → s'.mem r = s.mem r := by
  have hbr : ∀ (f : Flags → Bool) (t n : Label) (r : Region) (s' : State), (Pos.ofConf code (branch cs s f t n)).state? = some s' → s'.mem r = s.mem r := by
    intro f t n r s' h
    rw [branch] at h
    split at h
    · cases h; rfl
    · cases h
  cases tm with
  | goto l => exact ⟨rfl, fun r _ s' h => by cases h; rfl⟩
  | jl t n => exact ⟨rfl, fun r _ s' h => hbr _ _ _ r s' h⟩
  | jb t n => exact ⟨rfl, fun r _ s' h => hbr _ _ _ r s' h⟩
  | jz t n => exact ⟨rfl, fun r _ s' h => hbr _ _ _ r s' h⟩
  | call t n =>
    simp only [finish] at hf
    split at hf
    · exact absurd rfl hf
    · rename_i hc
      obtain ⟨h1, h2⟩ := vwrite_perm hw s .dqu 2 (s.r .rsp - 8) (lanes64 ((env.perm w).codeAddr n)) (by simpa [State.setR] using hc)
      constructor
      · simp only [finish]
        rw [show env.codeAddr n = (env.perm w).codeAddr n from rfl, h1]
      · intro r hr s' h
        simp only [finish] at h
        split at h
        · cases h
        · cases h
          exact h2 r hr
  | ret =>
    refine ⟨rfl, fun r _ s' h => ?_⟩
    simp only [finish] at h
    split at h
    · cases h
    · cases cs with
      | nil =>
        simp only at h
        split at h
        · cases h; rfl
        · cases h
      | cons n cs =>
        simp only at h
        split at h
        · cases h; rfl
        · cases h

theorem tick_perm {env : Env} {w : Region → Bool} (hw : ∀ r, w r = true → env.writable r = true) (code : Label → Block) (p : Pos)
    (hf : tick (env.perm w) code p ≠ .fail) : tick env code p = tick (env.perm w) code p ∧
      ∀ r, w r = false → ∀ s s', p.state? = some s → (tick env code p).state? = some s' → s'.mem r = s.mem r := by
  cases p with
  | done s => exact ⟨rfl, fun r _ a b h1 h2 => by cases h1; cases h2; rfl⟩
  | fail => exact ⟨rfl, fun r _ a b h1 h2 => by cases h1⟩
  | «at» is tm cs s =>
    cases is with
    | nil =>
      obtain ⟨h1, h2⟩ := finish_perm hw code cs s tm (fun h => hf (by rw [tick, h]; rfl))
      refine ⟨by rw [tick, tick, h1], fun r hr a b ha hb => ?_⟩
      cases ha
      exact h2 r hr b hb
    | cons i is =>
      rw [tick] at hf
      split at hf
      · exact absurd rfl hf
      · rename_i hc
        obtain ⟨h1, h2⟩ := step_perm hw s i (by simpa using hc)
        constructor
        · rw [tick, tick, h1]
        · intro r hr a b ha hb
          cases ha
          rw [tick] at hb
          split at hb
          · cases hb
          · cases hb
            exact h2 r hr

/-! ## Several instructions -/

theorem ticks_succ (env : Env) (code : Label → Block) : ∀ (n : Nat) (p : Pos), ticks env code (n + 1) p = tick env code (ticks env code n p)
  | 0, _ => rfl
  | n + 1, p => ticks_succ env code n (tick env code p)

theorem ticks_add (env : Env) (code : Label → Block) (j : Nat) : ∀ (k : Nat) (p : Pos), ticks env code (k + j) p = ticks env code j (ticks env code k p)
  | 0, p => by rw [Nat.zero_add]; rfl
  | k + 1, p => by rw [Nat.add_right_comm]; exact ticks_add env code j k _

theorem ticks_fail (env : Env) (code : Label → Block) (n : Nat) : ticks env code n .fail = .fail := by
  induction n with
  | zero => rfl
  | succ n ih => exact ih

theorem ticks_done (env : Env) (code : Label → Block) (n : Nat) (s : State) : ticks env code n (.done s) = .done s := by
  induction n with
  | zero => rfl
  | succ n ih => exact ih

/-! ## From pieces of code to instructions -/

theorem step_fault {env : Env} {s : State} (i : Instr) (h : s.fault = true) : (step env s i).fault = true := by
  cases i <;> simp [step, State.setR, State.setR32, State.setX, State.clobber, State.vread, State.vwrite, State.check, h]

theorem exec_fault {env : Env} : ∀ (is : List Instr) {s : State}, s.fault = true → (exec env is s).fault = true
  | [], _, h => h
  | i :: is, _, h => exec_fault is (step_fault i h)

/-- A sequence of instructions that does not fault, one at a time. -/
theorem ticks_exec (env : Env) (code : Label → Block) (rest : List Instr) (tm : Term) (cs : List Label) : ∀ (is : List Instr) (s : State),
    (exec env is s).fault = false → ticks env code is.length (.at (is ++ rest) tm cs s) = .at rest tm cs (exec env is s)
  | [], _, _ => rfl
  | i :: is, s, h => by
    have hi : (step env s i).fault = false := by
      cases hc : (step env s i).fault with
      | false => rfl
      | true => rw [exec, exec_fault is hc] at h; cases h
    rw [List.length_cons, ticks, List.cons_append, tick, if_neg (by simp [hi])]
    exact ticks_exec env code rest tm cs is _ h

theorem ticks_advance (env : Env) (code : Label → Block) (c : Conf) (h : advance env code c ≠ .fail) :
    ∃ k, ticks env code k (Pos.ofConf code c) = Pos.ofConf code (advance env code c) := by
  cases c with
  | done s => exact ⟨0, rfl⟩
  | fail => exact ⟨0, rfl⟩
  | run l cs s =>
    simp only [advance] at h ⊢
    split at h
    · exact absurd rfl h
    · rename_i hc
      rw [if_neg hc]
      refine ⟨(code l).body.length + 1, ?_⟩
      have := ticks_exec env code [] (code l).term cs (code l).body s (by simpa using hc)
      rw [List.append_nil] at this
      rw [ticks_succ, Pos.ofConf, this]
      rfl

theorem ticks_reaches {env : Env} {code : Label → Block} {c c' : Conf} (h : Reaches env code c c') (hf : c' ≠ .fail) :
    ∃ k, ticks env code k (Pos.ofConf code c) = Pos.ofConf code c' := by
  obtain ⟨n, h⟩ := h
  induction n generalizing c with
  | zero => exact ⟨0, by rw [← h]; rfl⟩
  | succ n ih =>
    have hsf : ∀ n, steps env code n .fail = .fail := by
      intro n; induction n with
      | zero => rfl
      | succ n ih => exact ih
    obtain ⟨k1, h1⟩ := ticks_advance env code c (fun e => hf (by rw [← h, steps, e, hsf]))
    obtain ⟨k2, h2⟩ := ih h
    exact ⟨k1 + k2, by rw [ticks_add, h1, h2]⟩

end Mammon.X86
