import Verif.Props.Sha256
import Verif.Proofs.Lockstep
/-!
# Properties of the execution of the SHA-256 routines: C57 (nothing observable depends on data) and C58 (the way through the code)
-/

namespace Mammon

open X86

/-! ## What an access is -/

/-- **C57**, what `Instr.access` means: an instruction changes no byte of memory but those of its writing accesses. -/
theorem C57_writes (env : Env) (s : State) (i : Instr) (r : Region) (j : Nat) (h : (step env s i).mem r j ≠ s.mem r j) :
    ∃ a ∈ i.access env s, a.write = true ∧ a.Covers env r j := by
  have key : ∀ (p : BitVec 64) (n : Nat) (v : Lanes), env.write s.mem p n v r j ≠ s.mem r j →
      (⟨p, 4 * n, true⟩ : Access).Covers env r j := by
    intro p n v hne
    unfold Env.write at hne
    cases hq : env.resolve p (4 * n) with
    | none => rw [hq] at hne; exact absurd rfl hne
    | some z =>
      obtain ⟨q, o⟩ := z
      rw [hq] at hne
      simp only at hne
      by_cases e : r = q
      · subst e
        rw [upd_same, writeLanes] at hne
        split at hne
        · rename_i hj
          exact ⟨o, hq, hj⟩
        · exact absurd rfl hne
      · rw [upd_ne _ _ e] at hne; exact absurd rfl hne
  cases i with
  | push t => exact ⟨_, List.mem_singleton.2 rfl, rfl, key _ 2 _ h⟩
  | movStore a t => exact ⟨_, List.mem_singleton.2 rfl, rfl, key _ 2 _ h⟩
  | store32 a t => exact ⟨_, List.mem_singleton.2 rfl, rfl, key _ 1 _ h⟩
  | vstore m w a t => exact ⟨_, List.mem_singleton.2 rfl, rfl, key _ w.lanes _ h⟩
  | movStoreX m a t => exact ⟨_, List.mem_singleton.2 rfl, rfl, key _ 4 _ h⟩
  | _ => exact absurd rfl h

example : ∃ (env : Env) (s : State) (i : Instr), (step env s i).mem .stack 0 ≠ s.mem .stack 0 :=
  ⟨⟨fun r => if r = .stack then 64 else 0, fun r => if r = .stack then 8 else 0, fun _ => true, fun _ => 0, 0⟩,
    ⟨fun r => if r = .rsp then 72 else 1, fun _ _ => 0, fun _ _ => 0, none, false⟩, .push .rax, by decide⟩

/-- **C57**, what `Instr.access` means: the effect of an instruction on the registers, the flags and the faults depends on no byte of memory but those
of its accesses, and a byte it leaves the same in one memory it leaves the same, or sets to the same value, in another. -/
theorem C57_reads (env : Env) (s : State) (m : Mem) (i : Instr) (h : ∀ a ∈ i.access env s, a.Same env s { s with mem := m }) :
    (step env { s with mem := m } i).r = (step env s i).r ∧ (step env { s with mem := m } i).x = (step env s i).x ∧
    (step env { s with mem := m } i).flags = (step env s i).flags ∧ (step env { s with mem := m } i).fault = (step env s i).fault ∧
    ∀ r j, m r j = s.mem r j → (step env { s with mem := m } i).mem r j = (step env s i).mem r j := by
  have hw : ∀ (p : BitVec 64) (n : Nat) (v : Lanes) r j, m r j = s.mem r j → env.write m p n v r j = env.write s.mem p n v r j := by
    intro p n v r j e
    unfold Env.write
    cases env.resolve p (4 * n) with
    | none => exact e
    | some z =>
      obtain ⟨q, o⟩ := z
      simp only
      by_cases er : r = q
      · subst er
        rw [upd_same, upd_same, writeLanes, writeLanes, e]
      · rw [upd_ne _ _ er, upd_ne _ _ er, e]
  have hr : ∀ {p : BitVec 64} {n : Nat}, (⟨p, 4 * n, false⟩ : Access).Same env s { s with mem := m } → ∀ l, l < n →
      env.read m p n l = env.read s.mem p n l := fun hs l hl => (read_same hs l hl).symm
  have h64 : ∀ {p : BitVec 64}, (⟨p, 8, false⟩ : Access).Same env s { s with mem := m } → of64 (env.read m p 2) = of64 (env.read s.mem p 2) := by
    intro p hs
    rw [of64, of64, hr (n := 2) hs 0 (by omega), hr (n := 2) hs 1 (by omega)]
  have hz : ∀ {p : BitVec 64} {w : Width} (g : BitVec 32 → Nat → BitVec 32), (⟨p, 4 * w.lanes, false⟩ : Access).Same env s { s with mem := m } →
      zx w (fun l => g (env.read m p w.lanes l) l) = zx w (fun l => g (env.read s.mem p w.lanes l) l) := by
    intro p w g hs
    funext l
    simp only [zx]
    split
    · rw [hr hs l ‹_›]
    · rfl
  have hea : ∀ a, ({ s with mem := m } : State).ea env a = s.ea env a := fun a => by cases a <;> rfl
  have hlo : ∀ {p : BitVec 64} (old : Lanes) (g : BitVec 32 → Nat → BitVec 32), (⟨p, 16, false⟩ : Access).Same env s { s with mem := m } →
      low old (fun l => g (env.read m p 4 l) l) = low old (fun l => g (env.read s.mem p 4 l) l) := by
    intro p old g hs
    funext l
    simp only [low]
    split
    · rw [hr (n := 4) hs l ‹_›]
    · rfl
  cases i with
  | pop d =>
    refine Alike.setR (Alike.setR (Alike.vread env s _ _ _) _ rfl) d ?_
    have := h64 (h _ (List.mem_singleton.2 rfl))
    rw [vread_snd, show (s.vread env .dqu 2 (.reg .rsp 0)).2 = env.read s.mem (s.r .rsp + 0#64) 2 from rfl]
    show of64 (env.read m (s.r .rsp + 0#64) 2) = _
    rw [BitVec.add_zero, this]
  | movLoad d a =>
    refine Alike.setR (Alike.vread env s _ _ _) d ?_
    rw [vread_snd]
    exact h64 (h _ (List.mem_singleton.2 rfl))
  | andLoad d a =>
    refine Alike.clobber (Alike.setR (Alike.vread env s _ _ _) d ?_)
    rw [vread_snd]
    exact congrArg (s.r d &&& ·) (h64 (h _ (List.mem_singleton.2 rfl)))
  | load32 d a =>
    refine Alike.setR32 (Alike.vread env s _ _ _) d ?_
    rw [vread_snd]
    exact hr (n := 1) (h _ (List.mem_singleton.2 rfl)) 0 (by omega)
  | addLoad32 d a =>
    refine Alike.clobber (Alike.setR32 (Alike.vread env s _ _ _) d ?_)
    rw [vread_snd]
    exact congrArg (s.get32 d + ·) (hr (n := 1) (h _ (List.mem_singleton.2 rfl)) 0 (by omega))
  | vload mv w d a =>
    refine Alike.setX (Alike.vread env s _ _ _) d ?_
    rw [vread_snd]
    exact hz (fun v _ => v) (h _ (List.mem_singleton.2 rfl))
  | vopLoad o w d t a =>
    refine Alike.setX (Alike.vread env s _ _ _) d ?_
    rw [vread_snd]
    exact hz (fun v l => o.eval (s.x t l) v) (h _ (List.mem_singleton.2 rfl))
  | vinserti128 d t a n =>
    refine Alike.setX (Alike.vread env s _ _ _) d ?_
    rw [vread_snd]
    refine congrArg (zx .ymm) ?_
    funext l
    simp only [X86.vinserti128]
    split
    · exact hr (n := 4) (h _ (List.mem_singleton.2 rfl)) (l % 4) (Nat.mod_lt _ (by decide))
    · rfl
  | movLoadX mv d a =>
    refine Alike.setX (Alike.vread env s _ _ _) d ?_
    rw [vread_snd]
    exact hlo (s.x d) (fun v _ => v) (h _ (List.mem_singleton.2 rfl))
  | padddLoad d a =>
    refine Alike.setX (Alike.vread env s _ _ _) d ?_
    rw [vread_snd]
    exact hlo (s.x d) (fun v l => s.x d l + v) (h _ (List.mem_singleton.2 rfl))
  | push t => exact ⟨rfl, rfl, rfl, rfl, fun r j e => hw _ _ _ r j e⟩
  | movStore a t =>
    refine ⟨rfl, rfl, rfl, by simp only [step, State.vwrite, hea], fun r j e => ?_⟩
    simp only [step, State.vwrite, hea]
    exact hw _ _ _ r j e
  | store32 a t =>
    refine ⟨rfl, rfl, rfl, by simp only [step, State.vwrite, hea], fun r j e => ?_⟩
    simp only [step, State.vwrite, hea]
    exact hw _ _ _ r j e
  | vstore mv w a t =>
    refine ⟨rfl, rfl, rfl, by simp only [step, State.vwrite, hea], fun r j e => ?_⟩
    simp only [step, State.vwrite, hea]
    exact hw _ _ _ r j e
  | movStoreX mv a t =>
    refine ⟨rfl, rfl, rfl, by simp only [step, State.vwrite, hea], fun r j e => ?_⟩
    simp only [step, State.vwrite, hea]
    exact hw _ _ _ r j e
  | _ => exact ⟨rfl, rfl, rfl, rfl, fun _ _ e => e⟩

/-- Two different memories which an instruction with an access cannot tell apart. -/
example : ∃ (env : Env) (s : State) (m : Mem) (i : Instr), m .stack 5 ≠ s.mem .stack 5 ∧ i.access env s ≠ [] ∧
    ∀ a ∈ i.access env s, a.Same env s { s with mem := m } := by
  refine ⟨⟨fun r => if r = .stack then 64 else 0, fun r => if r = .stack then 8 else 0, fun _ => true, fun _ => 0, 0⟩,
    ⟨fun r => if r = .rsi then 64 else 1, fun _ _ => 0, fun _ _ => 0, none, false⟩, fun _ j => if j = 5 then 1 else 0, .load32 .r8 (.reg .rsi 0),
    by decide, by decide, ?_⟩
  intro a ha r o ho j _ hj
  rw [List.mem_singleton.1 ha] at ho hj
  have : (r, o) = (Region.stack, 0) := (Option.some.inj (ho.symm.trans (by decide)))
  cases this
  have hj : j < 4 := by simpa using hj
  show (0 : Byte) = if j = 5 then 1 else 0
  rw [if_neg (by omega)]

/-- A store changes only the bytes it covers. -/
theorem write_covers (env : Env) (m : Mem) (p : BitVec 64) (n : Nat) (v : Lanes) (r : Region) (j : Nat) (hne : env.write m p n v r j ≠ m r j) :
    (⟨p, 4 * n, true⟩ : Access).Covers env r j := by
  unfold Env.write at hne
  cases hq : env.resolve p (4 * n) with
  | none => rw [hq] at hne; exact absurd rfl hne
  | some z =>
    obtain ⟨q, o⟩ := z
    rw [hq] at hne
    simp only at hne
    by_cases e : r = q
    · subst e
      rw [upd_same, writeLanes] at hne
      split at hne
      · rename_i hj
        exact ⟨o, hq, hj⟩
      · exact absurd rfl hne
    · rw [upd_ne _ _ e] at hne; exact absurd rfl hne

/-- The state after a jump, call or return, if there is one. -/
def stateOf : Conf → Option State
  | .run _ _ s => some s
  | .done s => some s
  | .fail => none

/-- Where execution is after a jump, call or return: the label and the labels pending calls return to, `none` if it is over. -/
def placeOf : Conf → Option (Label × List Label)
  | .run l cs _ => some (l, cs)
  | _ => none

/-- **C57**, what `Term.access` means: a jump, call or return changes no byte of memory but those of its writing accesses. -/
theorem C57_jump_writes (env : Env) (cs : List Label) (s u : State) (t : Term) (r : Region) (j : Nat) (hu : stateOf (finish env cs s t) = some u)
    (h : u.mem r j ≠ s.mem r j) : ∃ a ∈ t.access s, a.write = true ∧ a.Covers env r j := by
  have br : ∀ (c : Flags → Bool) (l n : Label), stateOf (branch cs s c l n) = some u → u = s := fun c l n h => by
    rw [branch] at h
    cases hf : s.flags with
    | none => rw [hf] at h; cases h
    | some f => rw [hf] at h; exact (Option.some.inj h).symm
  cases t with
  | goto l => obtain rfl : s = u := Option.some.inj hu; exact absurd rfl h
  | jl l n => rw [br _ _ _ hu] at h; exact absurd rfl h
  | jb l n => rw [br _ _ _ hu] at h; exact absurd rfl h
  | jz l n => rw [br _ _ _ hu] at h; exact absurd rfl h
  | call l n =>
    refine ⟨_, List.mem_singleton.2 rfl, rfl, ?_⟩
    rw [finish] at hu
    split at hu
    · cases hu
    · obtain rfl := Option.some.inj hu
      exact write_covers env s.mem _ 2 _ r j h
  | ret =>
    have : u.mem = s.mem := by
      cases cs with
      | nil =>
        rw [finish] at hu
        split at hu
        · cases hu
        · split at hu <;> first | (obtain rfl := Option.some.inj hu; rfl) | cases hu
      | cons c cs =>
        rw [finish] at hu
        split at hu
        · cases hu
        · split at hu <;> first | (obtain rfl := Option.some.inj hu; rfl) | cases hu
    rw [this] at h
    exact absurd rfl h

/-- A call does change memory. -/
example : ∃ (env : Env) (s u : State), stateOf (finish env [] s (.call .one .fourBack)) = some u ∧ u.mem .stack 0 ≠ s.mem .stack 0 :=
  ⟨⟨fun r => if r = .stack then 64 else 0, fun r => if r = .stack then 8 else 0, fun _ => true, fun _ => 1, 0⟩,
    ⟨fun r => if r = .rsp then 72 else 1, fun _ _ => 0, fun _ _ => 0, none, false⟩, _, rfl, by decide⟩

/-- **C57**, what `Term.access` means: where a jump, call or return goes, and its effect on the registers, the flags and the faults, depends on no byte of
memory but those of its accesses. -/
theorem C57_jump_reads (env : Env) (cs : List Label) (s : State) (m : Mem) (t : Term) (h : ∀ a ∈ t.access s, a.Same env s { s with mem := m }) :
    placeOf (finish env cs { s with mem := m } t) = placeOf (finish env cs s t) ∧
    (stateOf (finish env cs { s with mem := m } t)).map (fun u => (u.r, u.x, u.flags, u.fault)) =
      (stateOf (finish env cs s t)).map (fun u => (u.r, u.x, u.flags, u.fault)) := by
  have br : ∀ (c : Flags → Bool) (l n : Label), placeOf (branch cs { s with mem := m } c l n) = placeOf (branch cs s c l n) ∧
      (stateOf (branch cs { s with mem := m } c l n)).map (fun u => (u.r, u.x, u.flags, u.fault)) =
        (stateOf (branch cs s c l n)).map (fun u => (u.r, u.x, u.flags, u.fault)) := fun c l n => by
    rw [branch, branch]
    cases hf : s.flags <;> simp [placeOf, stateOf, hf]
  cases t with
  | goto l => exact ⟨rfl, rfl⟩
  | jl l n => exact br _ _ _
  | jb l n => exact br _ _ _
  | jz l n => exact br _ _ _
  | call l n =>
    have e : ∀ s : State, finish env cs s (.call l n) =
        if (s.fault || !(env.canWrite (s.r .rsp - 8) 2 && Mov.dqu.aligned 2 (s.r .rsp - 8))) = true then .fail
        else .run l (n :: cs) ((s.vwrite env .dqu 2 (s.r .rsp - 8) (lanes64 (env.codeAddr n))).setR .rsp (s.r .rsp - 8)) := fun _ => rfl
    rw [e, e]
    by_cases hc : (s.fault || !(env.canWrite (s.r .rsp - 8) 2 && Mov.dqu.aligned 2 (s.r .rsp - 8))) = true
    · rw [if_pos hc, if_pos hc]; exact ⟨rfl, rfl⟩
    · rw [if_neg hc, if_neg hc]; exact ⟨rfl, rfl⟩
  | ret =>
    have h64 : of64 (env.read m (s.r .rsp + 0#64) 2) = of64 (env.read s.mem (s.r .rsp + 0#64) 2) := by
      have hs : (⟨s.r .rsp, 8, false⟩ : Access).Same env s { s with mem := m } := h _ (List.mem_singleton.2 rfl)
      have hr : ∀ l, l < 2 → env.read m (s.r .rsp) 2 l = env.read s.mem (s.r .rsp) 2 l := fun l hl => (read_same (n := 2) hs l hl).symm
      rw [BitVec.add_zero, of64, of64, hr 0 (by omega), hr 1 (by omega)]
    have e : ∀ s : State, finish env cs s .ret =
        if ((s.vread env .dqu 2 (.reg .rsp 0)).1).fault = true then .fail
        else if of64 (env.read s.mem (s.r .rsp + 0#64) 2) = (match cs with | [] => env.retAddr | n :: _ => env.codeAddr n) then
          match cs with
          | [] => .done ((s.vread env .dqu 2 (.reg .rsp 0)).1.setR .rsp (s.r .rsp + 8))
          | n :: cs => .run n cs ((s.vread env .dqu 2 (.reg .rsp 0)).1.setR .rsp (s.r .rsp + 8))
        else .fail := fun s => by cases cs <;> rfl
    rw [e, e, show of64 (env.read ({ s with mem := m } : State).mem (s.r .rsp + 0#64) 2) = _ from h64]
    rw [show (({ s with mem := m } : State).vread env .dqu 2 (.reg .rsp 0)).1.fault = (s.vread env .dqu 2 (.reg .rsp 0)).1.fault from rfl]
    by_cases hc : ((s.vread env .dqu 2 (.reg .rsp 0)).1).fault = true
    · rw [if_pos hc, if_pos hc]; exact ⟨rfl, rfl⟩
    rw [if_neg hc, if_neg hc]
    cases cs with
    | nil =>
      by_cases hv : of64 (env.read s.mem (s.r .rsp + 0#64) 2) = env.retAddr
      · simp only [if_pos hv]; exact ⟨rfl, rfl⟩
      · simp only [if_neg hv]; exact ⟨trivial, trivial⟩
    | cons c cs =>
      by_cases hv : of64 (env.read s.mem (s.r .rsp + 0#64) 2) = env.codeAddr c
      · simp only [if_pos hv]; exact ⟨rfl, rfl⟩
      · simp only [if_neg hv]; exact ⟨trivial, trivial⟩

/-- Two memories a return cannot tell apart although it reads memory. -/
example : ∃ (env : Env) (s : State) (m : Mem), m .stack 9 ≠ s.mem .stack 9 ∧ Term.access s .ret ≠ [] ∧
    ∀ a ∈ Term.access s .ret, a.Same env s { s with mem := m } := by
  refine ⟨⟨fun r => if r = .stack then 64 else 0, fun r => if r = .stack then 16 else 0, fun _ => true, fun _ => 0, 0⟩,
    ⟨fun r => if r = .rsp then 64 else 1, fun _ _ => 0, fun _ _ => 0, none, false⟩, fun _ j => if j = 9 then 1 else 0, by decide, by decide, ?_⟩
  intro a ha r o ho j _ hj
  rw [List.mem_singleton.1 ha] at ho hj
  have : (r, o) = (Region.stack, 0) := (Option.some.inj (ho.symm.trans (by decide)))
  cases this
  have hj : j < 8 := by simpa using hj
  show (0 : Byte) = if j = 9 then 1 else 0
  rw [if_neg (by omega)]

/-! ## C58: the way through the code -/

/-- The entry points, the stack they need, and the way through the code for `n` blocks. -/
def ways (n : Nat) : List (Label × Nat × List Label) :=
  [(.one, 120, [.one]), (.four, 536, fourPath n), (.eight, 1720, eightPath n), (.shani, 0, shaniPath n)]

/-- **C58** Which pieces of code a call executes, and in which order, is determined by the number of blocks. -/
theorem C58_path {n : Nat} {l : Label} {d : Nat} {p : List Label} (hl : (l, d, p) ∈ ways n) {env : Env} {s : State} {t ii oo : Nat}
    (E : Entry env d t ii oo n env.retAddr s) (hn : if l = .one then n = 1 else s.r .rdx = BitVec.ofNat 64 n)
    (hw : l = .shani → 2 ≤ n → env.writable .shaniRw = true) :
    (∃ s', steps env code p.length (.run l [] s) = .done s') ∧ path env code p.length (.run l [] s) = p := by
  simp only [ways, List.mem_cons, List.not_mem_nil, or_false] at hl
  rcases hl with hl | hl | hl | hl <;> cases hl
  · obtain rfl : n = 1 := hn
    obtain ⟨u, h, -⟩ := one_spec env [] s t ii oo E
    exact ⟨⟨u, h.1⟩, h.2⟩
  · obtain ⟨u, h, -⟩ := four_spec (cs := []) E hn E.small
    exact ⟨⟨u, h.1⟩, h.2⟩
  · obtain ⟨u, h, -⟩ := eight_spec (cs := []) E hn E.small
    exact ⟨⟨u, h.1⟩, h.2⟩
  · obtain ⟨u, h, -⟩ := shani_spec (cs := []) E.toCalled hn E.small (fun r hr => by
      rw [Shani.owned] at hr
      split at hr
      · simp at hr
      · rw [List.mem_singleton.1 hr]; exact hw rfl (by omega))
    exact ⟨⟨u, h.1⟩, h.2⟩

example (n : Nat) (hn : n ≤ 2 ^ 40) (inp : List Byte) :
    (Label.eight, 1720, eightPath n) ∈ ways n ∧ Entry (Sample.env 0 strict n) 1720 4088 0 0 n (Sample.env 0 strict n).retAddr (Sample.state 0 strict n inp) ∧
      (Sample.state 0 strict n inp).r .rdx = BitVec.ofNat 64 n :=
  ⟨by simp [ways], Sample.entry (by decide) ⟨rfl, rfl⟩ hn (by decide) inp, rfl⟩

example : fourPath 5 = [.four, .fourLoop, .fourBlocks, .fourXX, .fourXX, .fourXX, .fourMid, .fourPad, .fourLoop, .fourTail, .fourCall, .one, .fourBack,
    .fourTail, .fourDone] := rfl

/-- The number of instructions that are not jumps, calls or returns on the way through the code. -/
def instructions (p : List Label) : Nat := (p.map fun l => (code l).body.length).sum

theorem instructions_append (p q : List Label) : instructions (p ++ q) = instructions p + instructions q := by simp [instructions]
theorem instructions_rep (n : Nat) (p : List Label) : instructions (rep n p) = n * instructions p := by
  induction n with
  | zero => simp [rep_zero, instructions]
  | succ n ih => rw [rep_succ, instructions_append, ih, Nat.succ_mul, Nat.add_comm]
theorem instructions_cons (l : Label) (p : List Label) : instructions (l :: p) = (code l).body.length + instructions p := by simp [instructions]
theorem instructions_nil : instructions [] = 0 := rfl

/-- The lengths of the pieces of code. -/
theorem body_lengths : ([Label.one, .four, .fourLoop, .fourTail, .fourDone, .eight, .eightLoop, .eightTail, .eightBack].map fun l => (code l).body.length) =
      [4053, 3, 1, 1, 2, 9, 1, 0, 6] ∧
    ([Label.shani, .shaniLoop, .shaniTwo, .shaniTail, .shaniOne, .shaniDone].map fun l => (code l).body.length) = [3, 1, 429, 1, 231, 0] ∧
    instructions fourBatch = 6146 ∧ instructions fourSingle = 4057 ∧ instructions eightBatch = 6192 := by decide +kernel

/-- **C58** The number of instructions (not counting jumps) a call executes. -/
theorem C58_instructions (n : Nat) :
    instructions [.one] = 4053 ∧
    instructions (fourPath n) = 6146 * (n / 4) + 4057 * (n % 4) + 7 ∧
    instructions (eightPath n) = 6192 * (n / 8) + (6146 * (n % 8 / 4) + 4057 * (n % 8 % 4)) + 23 ∧
    instructions (shaniPath n) = 430 * (n / 2) + 231 * (n % 2) + 5 := by
  obtain ⟨h1, h2, h3, h4, h5⟩ := body_lengths
  simp only [List.map_cons, List.map_nil, List.cons.injEq, and_true] at h1 h2
  obtain ⟨a1, a2, a3, a4, a5, a6, a7, a8, a9⟩ := h1
  obtain ⟨b1, b2, b3, b4, b5, b6⟩ := h2
  have hf : ∀ n, instructions (fourPath n) = 6146 * (n / 4) + 4057 * (n % 4) + 7 := fun n => by
    rw [fourPath, instructions_cons, instructions_append, instructions_cons, instructions_append, instructions_rep, instructions_rep, instructions_cons,
      instructions_cons, instructions_nil, a2, a3, a4, a5, h3, h4]
    omega
  refine ⟨by rw [instructions_cons, instructions_nil, a1], hf n, ?_, ?_⟩
  · rw [eightPath, instructions_cons, instructions_append, instructions_cons, instructions_cons, instructions_append, instructions_rep, instructions_cons,
      instructions_nil, hf, a6, a7, a8, a9, h5]
    omega
  · rw [shaniPath, instructions_cons, instructions_append, instructions_cons, instructions_cons, instructions_append, instructions_rep, instructions_rep,
      instructions_cons, instructions_cons, instructions_cons, instructions_cons, instructions_nil, b1, b2, b3, b4, b5, b6]
    omega

/-! ## C57: nothing observable depends on data -/

/-- **C57** Two calls of a routine with the same pointers, stack and number of blocks execute the same instructions and access the same addresses in the
same order, whatever the input, the contents of the rest of memory and the other registers: from the time a call takes nothing can be learnt about
the data. -/
theorem C57_constant_time {n : Nat} {l : Label} {d : Nat} {p : List Label} (hl : (l, d, p) ∈ ways n) {env : Env} {s s' : State} {t ii oo : Nat}
    (E : Entry env d t ii oo n env.retAddr s) (E' : Entry env d t ii oo n env.retAddr s')
    (hn : if l = .one then n = 1 else s.r .rdx = BitVec.ofNat 64 n ∧ s'.r .rdx = BitVec.ofNat 64 n)
    (hw : l = .shani → 2 ≤ n → env.writable .shaniRw = true) :
    ∃ m u u', steps env code m (.run l [] s) = .done u ∧ steps env code m (.run l [] s') = .done u' ∧
      trace env code m (.run l [] s) = trace env code m (.run l [] s') := by
  have hn1 : if l = .one then n = 1 else s.r .rdx = BitVec.ofNat 64 n := by split at hn <;> simp_all
  have hn2 : if l = .one then n = 1 else s'.r .rdx = BitVec.ofNat 64 n := by split at hn <;> simp_all
  obtain ⟨⟨u, h1⟩, -⟩ := C58_path hl E hn1 hw
  obtain ⟨⟨u', h2⟩, -⟩ := C58_path hl E' hn2 hw
  refine ⟨p.length, u, u', h1, h2, ?_⟩
  clear h1 h2
  simp only [ways, List.mem_cons, List.not_mem_nil, or_false] at hl
  rcases hl with hl | hl | hl | hl <;> cases hl
  · obtain rfl : n = 1 := hn1
    exact one_trace (cs := []) E E'
  · exact four_trace (cs := []) E E' hn1 hn2 E.small
  · exact eight_trace (cs := []) E E' hn1 hn2 E.small
  · exact shani_trace E E' hn1 hn2 E.small (fun r hr => by
      rw [Shani.owned] at hr
      split at hr
      · simp at hr
      · rw [List.mem_singleton.1 hr]; exact hw rfl (by omega))

example (n : Nat) (hn : n ≤ 2 ^ 40) (inp inp' : List Byte) :
    Entry (Sample.env 0 strict n) 1720 4088 0 0 n (Sample.env 0 strict n).retAddr (Sample.state 0 strict n inp) ∧
      Entry (Sample.env 0 strict n) 1720 4088 0 0 n (Sample.env 0 strict n).retAddr (Sample.state 0 strict n inp') ∧
      (Sample.state 0 strict n inp).r .rdx = BitVec.ofNat 64 n ∧ (Sample.state 0 strict n inp').r .rdx = BitVec.ofNat 64 n :=
  ⟨Sample.entry (by decide) ⟨rfl, rfl⟩ hn (by decide) inp, Sample.entry (by decide) ⟨rfl, rfl⟩ hn (by decide) inp', rfl, rfl⟩

/-- What is seen is not nothing: the accesses to the input, for instance. -/
example (s : State) (env : Env) : (⟨s.r .rsi, 4, false⟩ : Access) ∈ (Instr.load32 .r8 (.reg .rsi 0)).access env s := by
  simp [Instr.access, State.ea]

end Mammon
