import Verif.Spec.Allowed
import Verif.Proofs.X86
/-!
# The machine faults exactly at accesses that are not allowed
-/

namespace Mammon.X86

theorem Env.Valid.separate {env : Env} (hv : env.Valid) : env.Separate := hv.disjoint

theorem resolve_some {env : Env} {a : BitVec 64} {n : Nat} {r : Region} {o : Nat} (h : env.resolve a n = some (r, o)) :
    env.base r ≤ a.toNat ∧ a.toNat + n ≤ env.base r + env.size r ∧ o = a.toNat - env.base r := by
  rw [Env.resolve, Option.map_eq_some_iff] at h
  obtain ⟨q, h1, h2⟩ := h
  have h3 := List.find?_some h1
  simp only [decide_eq_true_eq] at h3
  cases h2
  exact ⟨h3.1, h3.2, rfl⟩

theorem resolve_none {env : Env} {a : BitVec 64} {n : Nat} (h : env.resolve a n = none) (r : Region) :
    ¬ (env.base r ≤ a.toNat ∧ a.toNat + n ≤ env.base r + env.size r) := by
  rw [Env.resolve, Option.map_eq_none_iff, List.find?_eq_none] at h
  have := h r (Region.mem_all r)
  simpa using this

theorem resolve_in {env : Env} (hs : env.Separate) {a : BitVec 64} {n : Nat} (hn : 0 < n) {r : Region} (h1 : env.base r ≤ a.toNat)
    (h2 : a.toNat + n ≤ env.base r + env.size r) : env.resolve a n = some (r, a.toNat - env.base r) := by
  cases h : env.resolve a n with
  | none => exact absurd ⟨h1, h2⟩ (resolve_none h r)
  | some x =>
    obtain ⟨q, o⟩ := x
    obtain ⟨h3, h4, h5⟩ := resolve_some h
    have : q = r := hs q r (a.toNat - env.base q) (a.toNat - env.base r) (by omega) (by omega) (by omega)
    subst this
    rw [h5]

theorem canRead_iff {env : Env} {a : BitVec 64} {n : Nat} :
    env.canRead a n = true ↔ ∃ r, env.base r ≤ a.toNat ∧ a.toNat + 4 * n ≤ env.base r + env.size r := by
  rw [Env.canRead]
  cases h : env.resolve a (4 * n) with
  | none => simpa using resolve_none h
  | some x => exact ⟨fun _ => ⟨x.1, (resolve_some h).1, (resolve_some h).2.1⟩, fun _ => rfl⟩

theorem canWrite_iff {env : Env} (hs : env.Separate) {a : BitVec 64} {n : Nat} (hn : 0 < n) :
    env.canWrite a n = true ↔ ∃ r, env.base r ≤ a.toNat ∧ a.toNat + 4 * n ≤ env.base r + env.size r ∧ env.writable r = true := by
  rw [Env.canWrite]
  constructor
  · intro h
    cases hr : env.resolve a (4 * n) with
    | none => rw [hr] at h; cases h
    | some x =>
      rw [hr] at h
      exact ⟨x.1, (resolve_some hr).1, (resolve_some hr).2.1, h⟩
  · rintro ⟨r, h1, h2, h3⟩
    rw [resolve_in hs (by omega) h1 h2]
    exact h3

theorem allowed_load {env : Env} {a : BitVec 64} {n al : Nat} :
    (⟨a, 4 * n, false⟩ : Access).Allowed env al ↔ env.canRead a n = true ∧ a.toNat % al = 0 := by
  rw [canRead_iff]; simp [Access.Allowed]

theorem allowed_store {env : Env} (hs : env.Separate) {a : BitVec 64} {n al : Nat} (hn : 0 < n) :
    (⟨a, 4 * n, true⟩ : Access).Allowed env al ↔ env.canWrite a n = true ∧ a.toNat % al = 0 := by
  rw [canWrite_iff hs hn]; simp [Access.Allowed]

theorem vread_fault {s : State} {env : Env} {m : Mov} {n : Nat} {a : Addr} :
    (s.vread env m n a).1.fault = false ↔ s.fault = false ∧ env.canRead (s.ea env a) n = true ∧ m.aligned n (s.ea env a) = true := by
  show (s.fault || !(env.canRead (s.ea env a) n && m.aligned n (s.ea env a))) = false ↔ _
  simp [Bool.or_eq_false_iff]

theorem vwrite_fault {s : State} {env : Env} {m : Mov} {n : Nat} {p : BitVec 64} {v : Lanes} :
    (s.vwrite env m n p v).fault = false ↔ s.fault = false ∧ env.canWrite p n = true ∧ m.aligned n p = true := by
  show (s.fault || !(env.canWrite p n && m.aligned n p)) = false ↔ _
  simp [Bool.or_eq_false_iff]

theorem aligned_iff {m : Mov} {n : Nat} {a : BitVec 64} : m.aligned n a = true ↔ a.toNat % (if m = .dqa then 4 * n else 1) = 0 := by
  cases m <;> simp [Mov.aligned, Nat.mod_one]

/-- One load. -/
theorem load_fault {s : State} {env : Env} {m : Mov} {n al : Nat} {a : Addr} (h : al = if m = .dqa then 4 * n else 1) :
    (s.vread env m n a).1.fault = false ↔ s.fault = false ∧ ∀ x ∈ [(⟨s.ea env a, 4 * n, false⟩ : Access)], x.Allowed env al := by
  rw [vread_fault, aligned_iff, h]
  simp [allowed_load]

/-- One store. -/
theorem store_fault {s : State} {env : Env} (hs : env.Separate) {m : Mov} {n al : Nat} {p : BitVec 64} {v : Lanes} (hn : 0 < n)
    (h : al = if m = .dqa then 4 * n else 1) :
    (s.vwrite env m n p v).fault = false ↔ s.fault = false ∧ ∀ x ∈ [(⟨p, 4 * n, true⟩ : Access)], x.Allowed env al := by
  rw [vwrite_fault, aligned_iff, h]
  simp [allowed_store hs hn]

/-- One instruction. -/
theorem step_failed {env : Env} (hs : env.Separate) (s : State) (i : Instr) :
    (step env s i).fault = false ↔ s.fault = false ∧ ∀ a ∈ i.access env s, a.Allowed env i.alignment := by
  have triv : ∀ {s' : State}, s'.fault = s.fault → (s'.fault = false ↔ s.fault = false ∧ ∀ a ∈ ([] : List Access), a.Allowed env 1) := by
    intro s' h; rw [h]; simp
  cases i
  case push r => exact store_fault hs (m := .dqu) (n := 2) (v := lanes64 (s.r r)) (by decide) (by simp [Instr.alignment])
  case pop d =>
    have h := load_fault (s := s) (env := env) (m := .dqu) (n := 2) (al := 1) (a := .reg .rsp 0) (by simp)
    have e : s.ea env (.reg .rsp 0) = s.r .rsp := by simp [State.ea]
    rw [e] at h
    exact h
  case movLoad d a => exact load_fault (m := .dqu) (n := 2) (by simp [Instr.alignment])
  case movStore a t => exact store_fault hs (m := .dqu) (n := 2) (by decide) (by simp [Instr.alignment])
  case andLoad d a => exact load_fault (m := .dqu) (n := 2) (by simp [Instr.alignment])
  case load32 d a => exact load_fault (m := .dqu) (n := 1) (by simp [Instr.alignment])
  case store32 a t => exact store_fault hs (m := .dqu) (n := 1) (by decide) (by simp [Instr.alignment])
  case addLoad32 d a => exact load_fault (m := .dqu) (n := 1) (by simp [Instr.alignment])
  case vload m w d a => exact load_fault (m := m) (n := w.lanes) (by cases m <;> cases w <;> simp [Instr.alignment, Width.lanes])
  case vstore m w a t =>
    exact store_fault hs (m := m) (n := w.lanes) (by cases w <;> decide) (by cases m <;> cases w <;> simp [Instr.alignment, Width.lanes])
  case vopLoad o w d t a => exact load_fault (m := .dqu) (n := w.lanes) (by simp [Instr.alignment])
  case vinserti128 d t a n => exact load_fault (m := .dqu) (n := 4) (by simp [Instr.alignment])
  case movLoadX m d a => exact load_fault (m := m) (n := 4) (by cases m <;> simp [Instr.alignment])
  case movStoreX m a t => exact store_fault hs (m := m) (n := 4) (by decide) (by cases m <;> simp [Instr.alignment])
  case padddLoad d a => exact load_fault (m := .dqa) (n := 4) (by simp [Instr.alignment])
  all_goals exact triv rfl

/-- Straight-line code. -/
theorem exec_failed {env : Env} (hs : env.Separate) : ∀ (is : List Instr) (s : State),
    (exec env is s).fault = false ↔ s.fault = false ∧ ¬ Violates env is s
  | [], s => by
    refine ⟨fun h => ⟨h, ?_⟩, fun h => h.1⟩
    rintro ⟨pre, i, post, h1, -⟩
    cases pre <;> cases h1
  | i :: is, s => by
    rw [exec_cons, exec_failed hs is, step_failed hs]
    constructor
    · rintro ⟨⟨h1, h2⟩, h3⟩
      refine ⟨h1, ?_⟩
      rintro ⟨pre, j, post, h4, a, h5, h6⟩
      cases pre with
      | nil => cases h4; exact h6 (h2 a h5)
      | cons p pre => cases h4; exact h3 ⟨pre, j, post, rfl, a, h5, h6⟩
    · rintro ⟨h1, h2⟩
      refine ⟨⟨h1, fun a ha => ?_⟩, ?_⟩
      · exact Classical.byContradiction fun hc => h2 ⟨[], i, is, rfl, a, ha, hc⟩
      · rintro ⟨pre, j, post, h4, a, h5, h6⟩
        exact h2 ⟨i :: pre, j, post, by rw [h4]; rfl, a, h5, h6⟩

theorem read_in {env : Env} (hs : env.Separate) {m : Mem} {a : BitVec 64} {n : Nat} (hn : 0 < n) {r : Region} {o : Nat}
    (h1 : a.toNat = env.base r + o) (h2 : o + 4 * n ≤ env.size r) : env.read m a n = fun l => readWord (m r) (o + 4 * l) := by
  rw [Env.read, resolve_in hs (n := 4 * n) (r := r) (by omega) (by omega) (by omega), show a.toNat - env.base r = o by omega]

/-- What follows a piece of code. -/
theorem finish_fail {env : Env} (hs : env.Separate) (cs : List Label) (s : State) (hf : s.fault = false) (t : Term) :
    finish env cs s t = .fail ↔ TermViolates env s t ∨ (¬ TermViolates env s t ∧ WrongReturn env cs s t) ∨ Untracked s t := by
  have nov : ∀ {t : Term}, t.access s = [] → ¬ TermViolates env s t := fun h => by rintro ⟨a, ha, -⟩; rw [h] at ha; cases ha
  have br : ∀ (c : Flags → Bool) (l n : Label), branch cs s c l n = .fail ↔ s.flags = none := fun c l n => by
    rw [branch]
    cases s.flags <;> simp
  cases t with
  | goto l => simp [finish, WrongReturn, Untracked, nov (t := .goto l) rfl]
  | jl l n => simp [finish, br, WrongReturn, Untracked, nov (t := .jl l n) rfl]
  | jb l n => simp [finish, br, WrongReturn, Untracked, nov (t := .jb l n) rfl]
  | jz l n => simp [finish, br, WrongReturn, Untracked, nov (t := .jz l n) rfl]
  | call l n =>
    have h := store_fault hs (s := s) (m := .dqu) (n := 2) (al := 1) (p := s.r .rsp - 8) (v := lanes64 (env.codeAddr n)) (by decide) (by simp)
    rw [hf] at h
    have h' : TermViolates env s (.call l n) ↔ ¬ (s.vwrite env .dqu 2 (s.r .rsp - 8) (lanes64 (env.codeAddr n))).fault = false := by
      rw [h]; simp [TermViolates, Term.access]
    have hw : ¬ WrongReturn env cs s (.call l n) := by rintro ⟨h, -⟩; cases h
    have u : ¬ Untracked s (.call l n) := by rintro ⟨-, l, n, h | h | h⟩ <;> cases h
    have f : (s.vwrite env .dqu 2 (s.r .rsp - 8) (lanes64 (env.codeAddr n))).fault =
      ((s.vwrite env .dqu 2 (s.r .rsp - 8) (lanes64 (env.codeAddr n))).setR .rsp (s.r .rsp - 8)).fault := rfl
    rw [h']
    cases hq : (s.vwrite env .dqu 2 (s.r .rsp - 8) (lanes64 (env.codeAddr n))).fault with
    | true =>
      have hfin : finish env cs s (.call l n) = .fail := if_pos (f.symm.trans hq)
      simp [hfin]
    | false =>
      have hfin : finish env cs s (.call l n) = .run l (n :: cs) ((s.vwrite env .dqu 2 (s.r .rsp - 8) (lanes64 (env.codeAddr n))).setR .rsp (s.r .rsp - 8)) :=
        if_neg (by rw [← f, hq]; decide)
      simp [hfin, hw, u]
  | ret =>
    have h := load_fault (s := s) (env := env) (m := .dqu) (n := 2) (al := 1) (a := .reg .rsp 0) (by simp)
    have e : s.ea env (.reg .rsp 0) = s.r .rsp := by simp [State.ea]
    rw [hf, e] at h
    have h' : TermViolates env s .ret ↔ ¬ (s.vread env .dqu 2 (.reg .rsp 0)).1.fault = false := by
      rw [h]; simp [TermViolates, Term.access]
    have w : (s.vread env .dqu 2 (.reg .rsp 0)).1.fault = false →
        (WrongReturn env cs s .ret ↔ of64 (s.vread env .dqu 2 (.reg .rsp 0)).2 ≠ retTo env cs) := by
      intro hq
      have hr := (vread_fault.1 hq).2.1
      rw [e, canRead_iff] at hr
      obtain ⟨r, h1, h2⟩ := hr
      have hrd : ∀ q o, (s.r .rsp).toNat = env.base q + o → o + 8 ≤ env.size q → of64 (s.vread env .dqu 2 (.reg .rsp 0)).2 =
          (readWord (s.mem q) (o + 4) ++ readWord (s.mem q) o : BitVec 64) := fun q o a b => by
        show of64 (env.read s.mem (s.ea env (.reg .rsp 0)) 2) = _
        rw [e, read_in hs (by decide) a (by omega)]
        rfl
      constructor
      · rintro ⟨-, q, o, a, b, c⟩
        rw [hrd q o a b]; exact c
      · intro c
        have hb : (s.r .rsp).toNat = env.base r + ((s.r .rsp).toNat - env.base r) := by omega
        exact ⟨rfl, r, _, hb, by omega, by rw [← hrd r _ hb (by omega)]; exact c⟩
    have u : ¬ Untracked s .ret := by rintro ⟨-, l, n, h | h | h⟩ <;> cases h
    have f : (s.vread env .dqu 2 (.reg .rsp 0)).1.fault = ((s.vread env .dqu 2 (.reg .rsp 0)).1.setR .rsp (s.r .rsp + 8)).fault := rfl
    rw [h']
    cases hq : (s.vread env .dqu 2 (.reg .rsp 0)).1.fault with
    | true =>
      have hfin : finish env cs s .ret = .fail := by
        show (if ((s.vread env .dqu 2 (.reg .rsp 0)).1.setR .rsp (s.r .rsp + 8)).fault then Conf.fail else _) = _
        rw [← f, hq]; rfl
      simp [hfin]
    | false =>
      rw [w hq]
      have hfin : finish env cs s .ret = if of64 (s.vread env .dqu 2 (.reg .rsp 0)).2 = retTo env cs then
          (match cs with
            | [] => .done ((s.vread env .dqu 2 (.reg .rsp 0)).1.setR .rsp (s.r .rsp + 8))
            | n :: cs => .run n cs ((s.vread env .dqu 2 (.reg .rsp 0)).1.setR .rsp (s.r .rsp + 8))) else .fail := by
        refine Eq.trans (if_neg (by rw [← f, hq]; decide)) ?_
        cases cs <;> rfl
      rw [hfin]
      split
      · rename_i hc
        cases cs <;> simp [hc, u]
      · rename_i hc
        simp [hc]

/-- A piece of code fails exactly if it makes an access that is not allowed, returns to a wrong address, or jumps on flags that are not tracked. -/
theorem advance_fail {env : Env} (hs : env.Separate) (code : Label → Block) (l : Label) (cs : List Label) (s : State) (hf : s.fault = false) :
    advance env code (.run l cs s) = .fail ↔ Violates env (code l).body s ∨ (¬ Violates env (code l).body s ∧
      (TermViolates env (exec env (code l).body s) (code l).term ∨
        (¬ TermViolates env (exec env (code l).body s) (code l).term ∧ WrongReturn env cs (exec env (code l).body s) (code l).term) ∨
        Untracked (exec env (code l).body s) (code l).term)) := by
  have h := exec_failed hs (code l).body s
  rw [hf] at h
  show (if (exec env (code l).body s).fault then Conf.fail else _) = _ ↔ _
  cases hq : (exec env (code l).body s).fault with
  | true =>
    have : Violates env (code l).body s := Classical.byContradiction fun hc => by rw [h.2 ⟨rfl, hc⟩] at hq; cases hq
    simp [this]
  | false =>
    have : ¬ Violates env (code l).body s := (h.1 hq).2
    rw [if_neg (by simp), finish_fail hs cs _ hq]
    simp [this]

end Mammon.X86
