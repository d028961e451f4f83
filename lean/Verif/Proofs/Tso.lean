import Verif.Model.Tso
import Verif.Proofs.Hide
import Verif.Proofs.Allowed
import Verif.Props.Timing
/-!
# Lemmas on threads with store buffers
-/

namespace Mammon.X86

theorem overlay_append (a b : List Pending) (m : Mem) : overlay (a ++ b) m = overlay b (overlay a m) := by
  induction a generalizing m with
  | nil => rfl
  | cons e es ih => exact ih _

theorem overlay_other {es : List Pending} {m : Mem} {r : Region} (h : ∀ e ∈ es, e.region ≠ r) : overlay es m r = m r := by
  induction es generalizing m with
  | nil => rfl
  | cons e es ih =>
    rw [overlay, ih fun x hx => h x (List.mem_cons_of_mem _ hx)]
    exact upd_ne _ _ (Ne.symm (h e List.mem_cons_self))

/-- If the entries hold the bytes of `t` and cover all bytes in which memory differs from `t`, memory becomes `t`. -/
theorem overlay_agree {es : List Pending} {m : Mem} {r : Region} {t : Nat → Byte} (h1 : ∀ e ∈ es, e.region = r → e.value = t e.offset)
    (h2 : ∀ o, m r o ≠ t o → ∃ e ∈ es, e.region = r ∧ e.offset = o) : overlay es m r = t := by
  induction es generalizing m with
  | nil =>
    funext o
    refine Classical.byContradiction fun h => ?_
    obtain ⟨e, he, -⟩ := h2 o h
    cases he
  | cons e es ih =>
    rw [overlay]
    refine ih (fun x hx => h1 x (List.mem_cons_of_mem _ hx)) fun o ho => ?_
    by_cases hr : r = e.region
    · subst hr
      rw [upd_same] at ho
      by_cases hoff : o = e.offset
      · subst hoff
        rw [upd_same, h1 e List.mem_cons_self rfl] at ho
        exact absurd rfl ho
      · rw [upd_ne _ _ hoff] at ho
        obtain ⟨x, hx, e1, e2⟩ := h2 o ho
        cases hx with
        | head => exact absurd e2.symm hoff
        | tail _ hx => exact ⟨x, hx, e1, e2⟩
    · rw [upd_ne _ _ hr] at ho
      obtain ⟨x, hx, e1, e2⟩ := h2 o ho
      cases hx with
      | head => exact absurd e1.symm hr
      | tail _ hx => exact ⟨x, hx, e1, e2⟩

theorem mem_pending {env : Env} {m : Mem} {a : Access} {e : Pending} (h : e ∈ a.pending env m) :
    a.write = true ∧ ∃ o, env.resolve a.addr a.bytes = some (e.region, o) ∧ e.region.shared = true ∧ e.value = m e.region e.offset := by
  rw [Access.pending] at h
  split at h
  · rename_i hw
    split at h
    · rename_i r o hr
      split at h
      · rename_i hs
        obtain ⟨j, -, rfl⟩ := List.mem_map.1 h
        exact ⟨hw, o, hr, hs, rfl⟩
      · cases h
    · cases h
  · cases h

theorem pending_mem {env : Env} {m : Mem} {a : Access} (hw : a.write = true) {r : Region} (hs : r.shared = true) {j : Nat} (h : a.Covers env r j) :
    ∃ e ∈ a.pending env m, e.region = r ∧ e.offset = j := by
  obtain ⟨o, h1, h2, h3⟩ := h
  refine ⟨⟨r, o + (j - o), m r (o + (j - o))⟩, ?_, rfl, by show o + (j - o) = j; omega⟩
  rw [Access.pending, if_pos hw, h1]
  simp only [hs, if_true]
  exact List.mem_map.2 ⟨j - o, List.mem_range.2 (by omega), rfl⟩

/-- A jump changes only what its access covers. -/
theorem finish_writes {env : Env} {code : Label → Block} {cs : List Label} {s : State} {tm : Term} {s' : State}
    (h : (Pos.ofConf code (finish env cs s tm)).state? = some s') {r : Region} {j : Nat} (hne : s'.mem r j ≠ s.mem r j) :
    ∃ a ∈ tm.access s, a.write = true ∧ a.Covers env r j := by
  have hbr : ∀ (f : Flags → Bool) (t n : Label), (Pos.ofConf code (branch cs s f t n)).state? = some s' → s'.mem = s.mem := by
    intro f t n h
    rw [branch] at h
    split at h
    · cases h; rfl
    · cases h
  cases tm with
  | goto l => cases h; exact absurd rfl hne
  | jl t n => rw [hbr _ _ _ h] at hne; exact absurd rfl hne
  | jb t n => rw [hbr _ _ _ h] at hne; exact absurd rfl hne
  | jz t n => rw [hbr _ _ _ h] at hne; exact absurd rfl hne
  | call t n =>
    rw [finish] at h
    split at h
    · cases h
    · cases h
      refine ⟨_, List.mem_singleton.2 rfl, rfl, ?_⟩
      have hne : env.write s.mem (s.r .rsp - 8) 2 (lanes64 (env.codeAddr n)) r j ≠ s.mem r j := hne
      unfold Env.write at hne
      cases hq : env.resolve (s.r .rsp - 8) (4 * 2) with
      | none => rw [hq] at hne; exact absurd rfl hne
      | some z =>
        obtain ⟨q, o⟩ := z
        rw [hq] at hne
        simp only at hne
        by_cases e : r = q
        · subst e
          rw [upd_same, writeLanes] at hne
          split at hne
          · rename_i hj
            exact ⟨o, hq, hj⟩
          · exact absurd rfl hne
        · rw [upd_ne _ _ e] at hne; exact absurd rfl hne
  | ret =>
    rw [finish.eq_def] at h
    simp only at h
    split at h
    · cases h
    · cases cs <;> simp only at h <;> split at h <;> first | (cases h; exact absurd rfl hne) | cases h

/-- One instruction changes only what its access covers. -/
theorem tick_writes {env : Env} {code : Label → Block} {p : Pos} {s s' : State} (hs : p.state? = some s) (hs' : (tick env code p).state? = some s')
    {r : Region} {j : Nat} (hne : s'.mem r j ≠ s.mem r j) : ∃ a ∈ p.access env, a.write = true ∧ a.Covers env r j := by
  cases p with
  | fail => cases hs
  | done u => cases hs; cases hs'; exact absurd rfl hne
  | «at» is tm cs u =>
    cases hs
    cases is with
    | nil => exact finish_writes hs' hne
    | cons i is =>
      rw [tick] at hs'
      split at hs'
      · cases hs'
      · cases hs'
        exact C57_writes env s i r j hne

theorem pending_eq {env : Env} {p q : Pos} {s' : State} (h : q.state? = some s') : p.pending env q = (p.access env).flatMap (·.pending env s'.mem) := by
  cases q <;> cases h <;> rfl

/-- The queue entries of an instruction bring memory to what the thread has stored. -/
theorem overlay_pending {env : Env} {code : Label → Block} {p : Pos} {s s' : State} (hs : p.state? = some s) (hs' : (tick env code p).state? = some s')
    {m : Mem} {r : Region} (hr : r.shared = true) (hm : m r = s.mem r) : overlay (p.pending env (tick env code p)) m r = s'.mem r := by
  rw [pending_eq hs']
  refine overlay_agree (fun e he => ?_) fun o ho => ?_
  · rintro rfl
    obtain ⟨a, -, ha⟩ := List.mem_flatMap.1 he
    obtain ⟨-, -, -, -, h⟩ := mem_pending ha
    exact h
  · rw [hm] at ho
    obtain ⟨a, ha, hw, hc⟩ := tick_writes hs hs' (Ne.symm ho)
    obtain ⟨e, he, e1, e2⟩ := pending_mem (m := s'.mem) hw hr hc
    exact ⟨e, List.mem_flatMap.2 ⟨a, ha, he⟩, e1, e2⟩

theorem pending_shared {env : Env} {p q : Pos} : ∀ e ∈ p.pending env q, e.region.shared = true := by
  intro e he
  cases hq : q.state? with
  | none =>
    cases q with
    | fail => cases he
    | «at» => cases hq
    | done => cases hq
  | some s =>
    rw [pending_eq hq] at he
    obtain ⟨a, -, ha⟩ := List.mem_flatMap.1 he
    obtain ⟨-, -, -, h, -⟩ := mem_pending ha
    exact h

/-- What an address space with fewer permissions, or less memory, has in common with the full one. -/
structure Env.Below (env' env : Env) : Prop where
  base : env'.base = env.base
  resolve : ∀ {a : BitVec 64} {n : Nat} {x : Region × Nat}, 0 < n → env'.resolve a n = some x → env.resolve a n = some x

theorem below_perm (env : Env) (w : Region → Bool) : (env.perm w).Below env := ⟨rfl, fun _ h => h⟩
theorem below_hide (env : Env) (w : Region → Bool) : (env.hide w).Below env := ⟨rfl, fun hn h => (resolve_hide hn h).1⟩

theorem vwrite_below {env' env : Env} (B : env'.Below env) {s : State} {m : Mov} {n : Nat} (hn : 0 < n) {p : BitVec 64} {v : Lanes}
    (h : (s.vwrite env' m n p v).fault = false) : ∃ r o, env.resolve p (4 * n) = some (r, o) ∧ env'.writable r = true := by
  obtain ⟨-, h2, -⟩ := vwrite_fault.1 h
  rw [Env.canWrite] at h2
  cases hr : env'.resolve p (4 * n) with
  | none => rw [hr] at h2; cases h2
  | some x => rw [hr] at h2; exact ⟨x.1, x.2, B.resolve (by omega) hr, h2⟩

/-- What does not fail with fewer permissions stores only where they allow it. -/
theorem access_below {env' env : Env} (B : env'.Below env) {code : Label → Block} {p : Pos} (h : tick env' code p ≠ .fail) :
    ∀ a ∈ p.access env, a.write = true → ∃ r o, env.resolve a.addr a.bytes = some (r, o) ∧ env'.writable r = true := by
  intro a ha hw
  cases p with
  | fail => cases ha
  | done u => cases ha
  | «at» is tm cs s =>
    have hea : ∀ x, s.ea env' x = s.ea env x := fun x => by
      cases x <;> first | rfl | (simp only [State.ea, Env.ptr, B.base])
    cases is with
    | nil =>
      cases tm <;> simp only [Pos.access, Term.access, List.mem_singleton, List.not_mem_nil] at ha <;> subst ha
      · rename_i t n
        refine vwrite_below (n := 2) (m := .dqu) (s := s) (v := lanes64 (env'.codeAddr n)) B (by decide) ?_
        refine Bool.eq_false_iff.2 fun hc => h ?_
        rw [tick, finish]
        rw [if_pos (show ((s.vwrite env' .dqu 2 (s.r .rsp - 8) (lanes64 (env'.codeAddr n))).setR .rsp (s.r .rsp - 8)).fault = true from hc)]
        rfl
      · cases hw
    | cons i is =>
      rw [tick] at h
      split at h
      · exact absurd rfl h
      · rename_i hc
        have hc : (step env' s i).fault = false := by simpa using hc
        cases i <;> simp only [Pos.access, Instr.access, List.mem_singleton, List.not_mem_nil] at ha <;> subst ha <;> try cases hw
        · rename_i t _; exact vwrite_below (n := 2) (v := lanes64 (s.r t)) B (by decide) hc
        · rw [← hea]; exact vwrite_below (n := 2) B (by decide) hc
        · rw [← hea]; exact vwrite_below (n := 1) B (by decide) hc
        · rw [← hea]; exact vwrite_below B (lanes_pos _) hc
        · rw [← hea]; exact vwrite_below (n := 4) B (by decide) hc

theorem pending_below {env' env : Env} (B : env'.Below env) {code : Label → Block} {p q : Pos} (h : tick env' code p ≠ .fail) :
    ∀ e ∈ p.pending env q, env'.writable e.region = true := by
  intro e he
  cases hq : q.state? with
  | none =>
    cases q with
    | fail => cases he
    | «at» => cases hq
    | done => cases hq
  | some s =>
    rw [pending_eq hq] at he
    obtain ⟨a, ha, ha'⟩ := List.mem_flatMap.1 he
    obtain ⟨hw, o, h1, -⟩ := mem_pending ha'
    obtain ⟨r, o', h2, h3⟩ := access_below B h a ha hw
    rw [h1] at h2
    cases h2
    exact h3

theorem access_withRw (env : Env) (g : Nat → Byte) (p : Pos) : (p.withRw g).access env = p.access env := by
  cases p with
  | fail => rfl
  | done s => rfl
  | «at» is tm cs s =>
    cases is with
    | nil => cases tm <;> rfl
    | cons i is =>
      show i.access env (s.withRw g) = i.access env s
      cases i <;> rfl

theorem state_of_ne {p : Pos} (h : p ≠ .fail) : ∃ s, p.state? = some s := by
  cases p with
  | fail => exact absurd rfl h
  | done s => exact ⟨s, rfl⟩
  | «at» a b c s => exact ⟨s, rfl⟩

theorem executed_cons_exec {ι : Type} [DecidableEq ι] (i j : ι) (es : List (Event ι)) :
    executed j (.exec i :: es) = executed j es + if j = i then 1 else 0 := by
  rw [executed, Nat.add_comm]
  by_cases h : j = i
  · rw [if_pos h, if_pos h.symm]
  · rw [if_neg h, if_neg (Ne.symm h)]

/-- `run_one_owner` with store buffers. -/
theorem tso_one_owner {ι : Type} [DecidableEq ι] {env : ι → Env} {code : Label → Block} {own : ι → Bool} (hun : ∀ i j, own i = true → own j = true → i = j)
    {w wo : Region → Bool} (hw : ∀ i r, w r = true → (env i).writable r = true) (hwo : ∀ i, own i = true → ∀ r, wo r = true → (env i).writable r = true)
    (hsh : ∀ r, r.shared = true → w r = false) (hsho : ∀ r, r.shared = true → r ≠ .shaniRw → wo r = false)
    {p0 : TsoProcess ι} (hq : ∀ i, p0.queue i = []) (h0 : ∀ i r s, r.shared = true → (p0.pos i).state? = some s → s.mem r = p0.shared r)
    (hn : ∀ i, own i = false → ∀ k, ticks ((env i).hide w) code k (p0.pos i) ≠ .fail)
    (hno : ∀ i, own i = true → ∀ k, ticks ((env i).perm wo) code k (p0.pos i) ≠ .fail) (sched : List (Event ι)) :
    (∀ i, own i = true → (p0.run env code sched).pos i = ticks (env i) code (executed i sched) (p0.pos i)) ∧
      (∀ i, own i = false → ∃ g, (p0.run env code sched).pos i = (ticks ((env i).hide w) code (executed i sched) (p0.pos i)).withRw g) ∧
      ∀ r, r.shared = true → (r = .shaniRw → ∀ i, own i = false) → (p0.run env code sched).shared r = p0.shared r := by
  have key : ∀ (sched : List (Event ι)) (p : TsoProcess ι) (c : ι → Nat),
      (∀ i, own i = true → p.pos i = ticks (env i) code (c i) (p0.pos i) ∧ (∀ e ∈ p.queue i, e.region = .shaniRw) ∧
        ∀ s, (p.pos i).state? = some s → s.mem .shaniRw = overlay (p.queue i) p.shared .shaniRw) →
      (∀ i, own i = false → p.queue i = [] ∧ ∃ g, p.pos i = (ticks ((env i).hide w) code (c i) (p0.pos i)).withRw g) →
      (∀ r, r.shared = true → (r = .shaniRw → ∀ i, own i = false) → p.shared r = p0.shared r) →
      (∀ i, own i = true → (p.run env code sched).pos i = ticks (env i) code (c i + executed i sched) (p0.pos i)) ∧
      (∀ i, own i = false → ∃ g, (p.run env code sched).pos i = (ticks ((env i).hide w) code (c i + executed i sched) (p0.pos i)).withRw g) ∧
      ∀ r, r.shared = true → (r = .shaniRw → ∀ i, own i = false) → (p.run env code sched).shared r = p0.shared r := by
    intro sched
    induction sched with
    | nil => exact fun p c h1 h2 h3 => ⟨fun i hi => (h1 i hi).1, fun i hi => (h2 i hi).2, h3⟩
    | cons ev es ih =>
      intro p c h1 h2 h3
      have h3' : ∀ r, r.shared = true → r ≠ .shaniRw → p.shared r = p0.shared r := fun r hr hne => h3 r hr (fun e => absurd e hne)
      cases ev with
      | arrive i =>
        have hex : ∀ j, executed j (.arrive i :: es) = executed j es := fun j => rfl
        simp only [hex]
        cases hi : own i with
        | false =>
          have e : p.tick env code (.arrive i) = p := by
            rw [TsoProcess.tick]
            simp only [(h2 i hi).1]
          rw [TsoProcess.run, e]
          exact ih p c h1 h2 h3
        | true =>
          cases hqi : p.queue i with
          | nil =>
            have e : p.tick env code (.arrive i) = p := by
              rw [TsoProcess.tick]
              simp only [hqi]
            rw [TsoProcess.run, e]
            exact ih p c h1 h2 h3
          | cons e qs =>
            have et : p.tick env code (.arrive i) = { p with queue := upd p.queue i qs, shared := overlay [e] p.shared } := by
              rw [TsoProcess.tick]
              simp only [hqi]
            obtain ⟨e1, e2, e3⟩ := h1 i hi
            have er : e.region = .shaniRw := e2 e (by rw [hqi]; exact List.mem_cons_self)
            rw [TsoProcess.run, et]
            refine ih _ c (fun j hj => ?_) (fun j hj => ?_) fun r hr hx => ?_
            · obtain rfl := hun i j hi hj
              refine ⟨e1, fun x hx => ?_, fun s hs => ?_⟩
              · simp only [upd_same] at hx
                exact e2 x (by rw [hqi]; exact List.mem_cons_of_mem _ hx)
              · simp only [upd_same]
                rw [e3 s hs, hqi]
                rfl
            · have hne : j ≠ i := by rintro rfl; rw [hi] at hj; cases hj
              refine ⟨?_, (h2 j hj).2⟩
              simp only [upd_ne _ _ hne]
              exact (h2 j hj).1
            · have hne : r ≠ .shaniRw := by rintro rfl; have := hx rfl i; rw [hi] at this; cases this
              show overlay [e] p.shared r = _
              rw [overlay_other (fun x hx => by rw [List.mem_singleton.1 hx, er]; exact Ne.symm hne)]
              exact h3 r hr hx
      | exec i =>
        have hcount : ∀ j, (c j + if j = i then 1 else 0) + executed j es = c j + executed j (.exec i :: es) := by
          intro j
          rw [executed_cons_exec]
          omega
        cases hi : own i with
        | true =>
          obtain ⟨e1, e2, e3⟩ := h1 i hi
          have hmem : ∀ k r s, r.shared = true → r ≠ .shaniRw → (ticks (env i) code k (p0.pos i)).state? = some s → s.mem r = p0.shared r := by
            intro k r s hr hne hs
            obtain ⟨-, h5⟩ := ticks_perm (hwo i hi) (hno i hi) k
            obtain ⟨s0, hs0⟩ := state_of_ne (hno i hi 0)
            rw [h5 r (hsho r hr hne) s0 s hs0 hs, h0 i r s0 hr hs0]
          have hother : ∀ r, r ≠ .shaniRw → overlay (p.queue i) p.shared r = p.shared r := fun r hne =>
            overlay_other fun x hx => by rw [e2 x hx]; exact Ne.symm hne
          have hsee : (p.pos i).see (overlay (p.queue i) p.shared) = p.pos i := by
            rw [see_withRw (fun r s hr hne hs => by rw [hother r hne, h3' r hr hne]; exact hmem (c i) r s hr hne (by rw [← e1]; exact hs)), withRw_self e3]
          have ht : tick (env i) code (p.pos i) = ticks (env i) code (c i + 1) (p0.pos i) := by rw [ticks_succ, e1]
          have hnf0 : p.pos i ≠ .fail := by
            rw [e1, (ticks_perm (hwo i hi) (hno i hi) _).1]; exact hno i hi _
          have hnf : tick (env i) code (p.pos i) ≠ .fail := by
            rw [ht, (ticks_perm (hwo i hi) (hno i hi) _).1]; exact hno i hi _
          have hnfp : tick ((env i).perm wo) code (p.pos i) ≠ .fail := by
            have := hno i hi (c i + 1)
            rw [ticks_succ, ← (ticks_perm (hwo i hi) (hno i hi) _).1, ← e1] at this
            exact this
          obtain ⟨s, hs⟩ := state_of_ne hnf0
          obtain ⟨s', hs'⟩ := state_of_ne hnf
          have hreg : ∀ x ∈ (p.pos i).pending (env i) (tick (env i) code (p.pos i)), x.region = .shaniRw := by
            intro x hx
            have a := pending_below (below_perm (env i) wo) hnfp x hx
            have b := pending_shared x hx
            refine Classical.byContradiction fun hne => ?_
            have := hsho x.region b hne
            rw [show ((env i).perm wo).writable x.region = wo x.region from rfl, this] at a
            cases a
          have et : p.tick env code (.exec i) = ⟨upd p.pos i (tick (env i) code (p.pos i)),
              upd p.queue i (p.queue i ++ (p.pos i).pending (env i) (tick (env i) code (p.pos i))), p.shared⟩ := by
            rw [TsoProcess.tick, hsee]
          have key := ih (p.tick env code (.exec i)) (fun j => c j + if j = i then 1 else 0) (fun j hj => by
              obtain rfl := hun i j hi hj
              rw [et]
              simp only [upd_same, if_true]
              refine ⟨ht, fun x hx => ?_, fun u hu => ?_⟩
              · rcases List.mem_append.1 hx with hx | hx
                · exact e2 x hx
                · exact hreg x hx
              · rw [hs'] at hu
                cases hu
                rw [overlay_append, overlay_pending hs hs' rfl (e3 s hs).symm])
            (fun j hj => by
              have hne : j ≠ i := by rintro rfl; rw [hi] at hj; cases hj
              rw [et]
              simp only [upd_ne _ _ hne, if_neg hne]
              exact h2 j hj)
            (fun r hr hx => by rw [et]; exact h3 r hr hx)
          simp only [hcount] at key
          exact key
        | false =>
          obtain ⟨hqi, g, e1⟩ := h2 i hi
          have hmem : ∀ k r s, r.shared = true → (ticks ((env i).hide w) code k (p0.pos i)).state? = some s → s.mem r = p0.shared r := by
            intro k r s hr hs
            obtain ⟨-, h5⟩ := ticks_hide (hw i) (hn i hi) g k
            obtain ⟨s0, hs0⟩ := state_of_ne (hn i hi 0)
            rw [h5 r (hsh r hr) s0 s hs0 hs, h0 i r s0 hr hs0]
          have hsee : (p.pos i).see (overlay (p.queue i) p.shared) = (ticks ((env i).hide w) code (c i) (p0.pos i)).withRw (p.shared .shaniRw) := by
            rw [hqi, overlay, see_withRw (fun r s hr hne hs => ?_), e1, withRw_withRw]
            rw [e1, withRw_state, Option.map_eq_some_iff] at hs
            obtain ⟨s1, hs1, rfl⟩ := hs
            rw [h3' r hr hne, ← hmem (c i) r s1 hr hs1]
            exact upd_ne _ _ hne
          have hnf := hn i hi (c i + 1)
          have hnf' := hnf
          rw [ticks_succ] at hnf'
          have ht : tick (env i) code ((p.pos i).see (overlay (p.queue i) p.shared)) =
              (ticks ((env i).hide w) code (c i + 1) (p0.pos i)).withRw (p.shared .shaniRw) := by
            rw [ticks_succ, hsee, (tick_hide (hw i) code _ _ hnf').1]
          have hpend : ∀ q, ((p.pos i).see (overlay (p.queue i) p.shared)).pending (env i) q = [] := by
            intro q
            refine List.eq_nil_iff_forall_not_mem.2 fun x hx => ?_
            rw [hsee] at hx
            have hx' : x ∈ (ticks ((env i).hide w) code (c i) (p0.pos i)).pending (env i) q := by
              cases q <;> simp only [Pos.pending, access_withRw] at hx ⊢ <;> exact hx
            have a := pending_below (below_hide (env i) w) hnf' x hx'
            rw [show ((env i).hide w).writable x.region = w x.region from rfl, hsh _ (pending_shared x hx)] at a
            cases a
          have et : p.tick env code (.exec i) = ⟨upd p.pos i ((ticks ((env i).hide w) code (c i + 1) (p0.pos i)).withRw (p.shared .shaniRw)),
              upd p.queue i [], p.shared⟩ := by
            rw [TsoProcess.tick, hpend, ht, hqi]
            rfl
          have key := ih (p.tick env code (.exec i)) (fun j => c j + if j = i then 1 else 0) (fun j hj => by
              have hne : j ≠ i := by rintro rfl; rw [hi] at hj; cases hj
              rw [et]
              simp only [upd_ne _ _ hne, if_neg hne]
              exact h1 j hj)
            (fun j hj => by
              rw [et]
              by_cases e : j = i
              · subst e
                simp only [upd_same, if_true]
                exact ⟨trivial, _, rfl⟩
              · simp only [upd_ne _ _ e, if_neg e]
                exact h2 j hj)
            (fun r hr hx => by rw [et]; exact h3 r hr hx)
          simp only [hcount] at key
          exact key
  have key := key sched p0 (fun _ => 0) (fun i _ => ⟨rfl, fun e he => by (rw [hq] at he; cases he), fun s hs => by
      rw [hq, overlay]
      exact h0 i .shaniRw s rfl hs⟩)
    (fun i hi => by
      obtain ⟨s, hs⟩ := state_of_ne (hn i hi 0)
      have hs : (p0.pos i).state? = some s := hs
      exact ⟨hq i, s.mem .shaniRw, (withRw_self fun u hu => by rw [hs] at hu; cases hu; rfl).symm⟩) (fun _ _ _ => rfl)
  simpa only [Nat.zero_add] using key

/-! ## Sequential consistency is the case in which stores arrive at once -/

theorem tso_run_append {ι : Type} [DecidableEq ι] (env : ι → Env) (code : Label → Block) (a b : List (Event ι)) (p : TsoProcess ι) :
    p.run env code (a ++ b) = (p.run env code a).run env code b := by
  induction a generalizing p with
  | nil => rfl
  | cons e es ih => exact ih _

theorem run_arrive {ι : Type} [DecidableEq ι] (env : ι → Env) (code : Label → Block) (i : ι) (q : List Pending) (p : TsoProcess ι)
    (h : p.queue i = q) : p.run env code (List.replicate q.length (.arrive i)) = { p with queue := upd p.queue i [], shared := overlay q p.shared } := by
  induction q generalizing p with
  | nil =>
    show p = _
    have : upd p.queue i [] = p.queue := by
      funext j
      simp only [upd]
      split
      · rename_i e; rw [e, h]
      · rfl
    rw [this]
    rfl
  | cons e es ih =>
    have et : p.tick env code (.arrive i) = { p with queue := upd p.queue i es, shared := overlay [e] p.shared } := by
      rw [TsoProcess.tick]
      simp only [h]
    rw [List.length_cons, List.replicate_succ, TsoProcess.run, et, ih _ (upd_same _ _ _)]
    simp only
    congr 1
    funext j
    simp only [upd]
    split <;> rfl

/-- Whatever happens under sequential consistency can happen with store buffers. -/
theorem sc_is_tso {ι : Type} [DecidableEq ι] (env : ι → Env) (code : Label → Block) (sched : List ι) (p : Process ι) :
    ∃ es, (TsoProcess.mk p.pos (fun _ => []) p.shared).run env code es =
      ⟨(p.run env code sched).pos, fun _ => [], (p.run env code sched).shared⟩ := by
  induction sched generalizing p with
  | nil => exact ⟨[], rfl⟩
  | cons i is ih =>
    obtain ⟨es, h⟩ := ih (p.tick env code i)
    let before := (p.pos i).see p.shared
    let after := X86.tick (env i) code before
    refine ⟨.exec i :: (List.replicate (before.pending (env i) after).length (.arrive i) ++ es), ?_⟩
    rw [TsoProcess.run, tso_run_append]
    have e1 : (TsoProcess.mk p.pos (fun _ => []) p.shared).tick env code (.exec i) =
        ⟨upd p.pos i after, upd (fun _ => []) i (before.pending (env i) after), p.shared⟩ := rfl
    rw [e1, run_arrive env code i (before.pending (env i) after) _ (show upd (fun _ => []) i (before.pending (env i) after) i = _ from upd_same _ _ _)]
    have e2 : upd (upd (fun _ => ([] : List Pending)) i (before.pending (env i) after)) i [] = fun _ => [] := by
      funext j
      simp only [upd]
      split <;> rfl
    have e3 : overlay (before.pending (env i) after) p.shared = after.leave p.shared := by
      cases ha : after.state? with
      | none =>
        cases hf : after with
        | fail => rfl
        | done s => rw [hf] at ha; cases ha
        | «at» a b c s => rw [hf] at ha; cases ha
      | some s' =>
        have hl : after.leave p.shared = merge p.shared s'.mem := by
          cases hf : after with
          | fail => rw [hf] at ha; cases ha
          | done s => rw [hf] at ha; cases ha; rfl
          | «at» a b c s => rw [hf] at ha; cases ha; rfl
        obtain ⟨s, hs⟩ : ∃ s, before.state? = some s := by
          refine state_of_ne fun hb => ?_
          have : after = .fail := by show X86.tick (env i) code before = _; rw [hb]; rfl
          rw [this] at ha; cases ha
        rw [hl]
        funext r
        rw [merge]
        split
        · rename_i hr
          refine overlay_pending hs ha hr ?_
          have : s.mem r = p.shared r := by
            have hb : ((p.pos i).see p.shared).state? = some s := hs
            cases hp : p.pos i with
            | fail => rw [hp] at hb; cases hb
            | done u => rw [hp] at hb; cases hb; show merge _ _ r = _; rw [merge, if_pos hr]
            | «at» a b c u => rw [hp] at hb; cases hb; show merge _ _ r = _; rw [merge, if_pos hr]
          exact this.symm
        · rename_i hr
          exact overlay_other fun x hx e => hr (by rw [← e]; exact pending_shared x hx)
    simp only [e2, e3]
    exact h

end Mammon.X86
