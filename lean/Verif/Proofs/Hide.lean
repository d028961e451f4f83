import Verif.Proofs.Threads
/-!
# Threads that do not touch the scratch memory of `sha256_shani`
-/

namespace Mammon.X86

/-- The same address space without the scratch memory, and with other permissions. -/
def Env.hide (env : Env) (w : Region → Bool) : Env := { env with writable := w, size := upd env.size .shaniRw 0 }

/-- The state with other contents of the scratch memory. -/
def State.withRw (s : State) (g : Nat → Byte) : State := { s with mem := upd s.mem .shaniRw g }

theorem resolve_hide {env : Env} {w : Region → Bool} {a : BitVec 64} {n : Nat} (hn : 0 < n) {x : Region × Nat} (h : (env.hide w).resolve a n = some x) :
    env.resolve a n = some x ∧ x.1 ≠ .shaniRw := by
  have hz : ¬(env.base .shaniRw ≤ a.toNat ∧ a.toNat + n ≤ env.base .shaniRw + 0) := by omega
  have hsz : ∀ r, r ≠ .shaniRw → (env.hide w).size r = env.size r := fun r hr => upd_ne _ _ hr
  have hz' : decide ((env.hide w).base .shaniRw ≤ a.toNat ∧ a.toNat + n ≤ (env.hide w).base .shaniRw + (env.hide w).size .shaniRw) = false := by
    rw [show (env.hide w).size .shaniRw = 0 by simp [Env.hide, upd]]
    exact decide_eq_false hz
  have hp : ∀ r, r ≠ .shaniRw → decide ((env.hide w).base r ≤ a.toNat ∧ a.toNat + n ≤ (env.hide w).base r + (env.hide w).size r) =
      decide (env.base r ≤ a.toNat ∧ a.toNat + n ≤ env.base r + env.size r) := fun r hr => by
    rw [hsz r hr]; rfl
  simp only [Env.resolve, Option.map_eq_some_iff] at h
  obtain ⟨r, h1, h2⟩ := h
  have hne : r ≠ .shaniRw := by
    rintro rfl
    rw [List.find?_some h1] at hz'
    cases hz'
  have h3 : Region.all.find? (fun r => decide (env.base r ≤ a.toNat ∧ a.toNat + n ≤ env.base r + env.size r)) = some r := by
    simp only [Region.all, List.find?_cons, List.find?_nil, hp .input (by decide), hp .output (by decide), hp .stack (by decide), hp .one (by decide),
      hp .four (by decide), hp .eight (by decide), hp .shaniRo (by decide), hz'] at h1
    simp only [Region.all, List.find?_cons, List.find?_nil]
    revert h1
    repeat' split
    all_goals first | exact id | (intro h; cases h)
  refine ⟨?_, by rw [← h2]; exact hne⟩
  rw [Env.resolve, h3, ← h2]
  rfl

theorem vread_hide {env : Env} {w : Region → Bool} (s : State) (g : Nat → Byte) (m : Mov) {n : Nat} (hn : 0 < n) (a : Addr)
    (hf : (s.vread (env.hide w) m n a).1.fault = false) :
    (s.withRw g).vread env m n a = ((s.vread (env.hide w) m n a).1.withRw g, (s.vread (env.hide w) m n a).2) := by
  have hea : (s.withRw g).ea env a = s.ea (env.hide w) a := by cases a <;> rfl
  simp only [State.vread, State.check, Bool.or_eq_false_iff, Bool.not_eq_false', Bool.and_eq_true] at hf
  obtain ⟨-, h2, h3⟩ := hf
  rw [Env.canRead] at h2
  obtain ⟨x, hx⟩ := Option.isSome_iff_exists.1 h2
  obtain ⟨h4, h5⟩ := resolve_hide (by omega) hx
  simp only [State.vread, hea, Env.canRead, Env.read, hx, h4]
  refine Prod.ext rfl ?_
  show (fun l => readWord (upd s.mem .shaniRw g x.1) _) = _
  rw [upd_ne _ _ h5]

theorem upd_comm {α β : Type} [DecidableEq α] (f : α → β) {i j : α} (h : i ≠ j) (u v : β) : upd (upd f i u) j v = upd (upd f j v) i u := by
  funext k
  simp only [upd]
  split
  · rename_i e
    rw [if_neg (by rw [e]; exact Ne.symm h)]
  · rfl

theorem vwrite_hide {env : Env} {w : Region → Bool} (hw : ∀ r, w r = true → env.writable r = true) (s : State) (g : Nat → Byte) (m : Mov) {n : Nat}
    (hn : 0 < n) (p : BitVec 64) (v : Lanes) (hf : (s.vwrite (env.hide w) m n p v).fault = false) :
    (s.withRw g).vwrite env m n p v = (s.vwrite (env.hide w) m n p v).withRw g ∧
      ∀ r, w r = false → (s.vwrite (env.hide w) m n p v).mem r = s.mem r := by
  simp only [State.vwrite, Bool.or_eq_false_iff, Bool.not_eq_false', Bool.and_eq_true] at hf
  obtain ⟨h1, h2, h3⟩ := hf
  rw [Env.canWrite] at h2
  cases hr : (env.hide w).resolve p (4 * n) with
  | none => rw [hr] at h2; cases h2
  | some x =>
    obtain ⟨r0, o⟩ := x
    rw [hr] at h2
    have h2 : w r0 = true := h2
    obtain ⟨h4, h5⟩ := resolve_hide (by omega) hr
    have h5 : r0 ≠ .shaniRw := h5
    constructor
    · simp only [State.vwrite, State.withRw, Env.write, Env.canWrite, hr, h4, hw r0 h2, show (env.hide w).writable r0 = true from h2]
      rw [upd_ne _ _ h5, upd_comm _ h5]
    · intro r hr0
      simp only [State.vwrite, Env.write, hr]
      refine upd_ne _ _ ?_
      rintro rfl
      rw [h2] at hr0
      cases hr0

theorem lanes_pos (w : Width) : 0 < w.lanes := by cases w <;> decide

theorem step_hide {env : Env} {w : Region → Bool} (hw : ∀ r, w r = true → env.writable r = true) (s : State) (g : Nat → Byte) (i : Instr)
    (hf : (step (env.hide w) s i).fault = false) : step env (s.withRw g) i = (step (env.hide w) s i).withRw g ∧
      ∀ r, w r = false → (step (env.hide w) s i).mem r = s.mem r := by
  have hea : ∀ a, (s.withRw g).ea env a = s.ea (env.hide w) a := fun a => by cases a <;> rfl
  have rd : ∀ (m : Mov) (n : Nat) (a : Addr) (F : State × Lanes → State), 0 < n → (s.vread (env.hide w) m n a).1.fault = false →
      (∀ u v, (F (u, v)).withRw g = F (u.withRw g, v)) → F ((s.withRw g).vread env m n a) = (F (s.vread (env.hide w) m n a)).withRw g := by
    intro m n a F hn h hF
    rw [vread_hide s g m hn a h, hF]
  cases i with
  | pop d => exact ⟨rd _ _ _ (fun p => (p.1.setR .rsp (s.r .rsp + 8)).setR d (of64 p.2)) (by decide) hf (fun _ _ => rfl), fun _ _ => rfl⟩
  | movLoad d a => exact ⟨rd _ _ _ (fun p => p.1.setR d (of64 p.2)) (by decide) hf (fun _ _ => rfl), fun _ _ => rfl⟩
  | andLoad d a => exact ⟨rd _ _ _ (fun p => (p.1.setR d (s.r d &&& of64 p.2)).clobber) (by decide) hf (fun _ _ => rfl), fun _ _ => rfl⟩
  | load32 d a => exact ⟨rd _ _ _ (fun p => p.1.setR32 d (p.2 0)) (by decide) hf (fun _ _ => rfl), fun _ _ => rfl⟩
  | addLoad32 d a => exact ⟨rd _ _ _ (fun p => (p.1.setR32 d (s.get32 d + p.2 0)).clobber) (by decide) hf (fun _ _ => rfl), fun _ _ => rfl⟩
  | vload m w' d a => exact ⟨rd _ _ _ (fun p => p.1.setX d (zx w' p.2)) (lanes_pos _) hf (fun _ _ => rfl), fun _ _ => rfl⟩
  | vopLoad o w' d t a => exact ⟨rd _ _ _ (fun p => p.1.setX d (zx w' fun l => o.eval (s.x t l) (p.2 l))) (lanes_pos _) hf (fun _ _ => rfl), fun _ _ => rfl⟩
  | vinserti128 d t a n => exact ⟨rd _ _ _ (fun p => p.1.setX d (zx .ymm (X86.vinserti128 (s.x t) p.2 n))) (by decide) hf (fun _ _ => rfl), fun _ _ => rfl⟩
  | movLoadX m d a => exact ⟨rd _ _ _ (fun p => p.1.setX d (low (s.x d) p.2)) (by decide) hf (fun _ _ => rfl), fun _ _ => rfl⟩
  | padddLoad d a => exact ⟨rd _ _ _ (fun p => p.1.setX d (low (s.x d) fun l => s.x d l + p.2 l)) (by decide) hf (fun _ _ => rfl), fun _ _ => rfl⟩
  | push t =>
    obtain ⟨h1, h2⟩ := vwrite_hide hw s g .dqu (n := 2) (by decide) (s.r .rsp - 8) (lanes64 (s.r t)) hf
    exact ⟨congrArg (fun u : State => u.setR .rsp (s.r .rsp - 8)) h1, h2⟩
  | movStore a t =>
    obtain ⟨h1, h2⟩ := vwrite_hide hw s g .dqu (n := 2) (by decide) _ (lanes64 (s.r t)) hf
    exact ⟨by rw [← hea] at h1; exact h1, h2⟩
  | store32 a t =>
    obtain ⟨h1, h2⟩ := vwrite_hide hw s g .dqu (n := 1) (by decide) _ (fun _ => s.get32 t) hf
    exact ⟨by rw [← hea] at h1; exact h1, h2⟩
  | vstore m w' a t =>
    obtain ⟨h1, h2⟩ := vwrite_hide hw s g m (lanes_pos w') _ (s.x t) hf
    exact ⟨by rw [← hea] at h1; exact h1, h2⟩
  | movStoreX m a t =>
    obtain ⟨h1, h2⟩ := vwrite_hide hw s g m (n := 4) (by decide) _ (s.x t) hf
    exact ⟨by rw [← hea] at h1; exact h1, h2⟩
  | lea d a => exact ⟨congrArg (fun v => (s.withRw g).setR d v) (hea a), fun _ _ => rfl⟩
  | _ => exact ⟨rfl, fun _ _ => rfl⟩

/-- The position with other contents of the scratch memory. -/
def Pos.withRw (g : Nat → Byte) : Pos → Pos
  | .at is tm cs s => .at is tm cs (s.withRw g)
  | .done s => .done (s.withRw g)
  | .fail => .fail

theorem ofConf_withRw (code : Label → Block) (g : Nat → Byte) (l : Label) (cs : List Label) (s : State) :
    Pos.ofConf code (.run l cs (s.withRw g)) = (Pos.ofConf code (.run l cs s)).withRw g := rfl

theorem finish_hide {env : Env} {w : Region → Bool} (hw : ∀ r, w r = true → env.writable r = true) (code : Label → Block) (cs : List Label) (s : State)
    (g : Nat → Byte) (tm : Term) (hf : finish (env.hide w) cs s tm ≠ .fail) :
    Pos.ofConf code (finish env cs (s.withRw g) tm) = (Pos.ofConf code (finish (env.hide w) cs s tm)).withRw g ∧
      ∀ r, w r = false → ∀ s', (Pos.ofConf code (finish (env.hide w) cs s tm)).state? = some s' → s'.mem r = s.mem r := by
  have hbr : ∀ (f : Flags → Bool) (t n : Label), branch cs s f t n ≠ .fail → Pos.ofConf code (branch cs (s.withRw g) f t n) =
      (Pos.ofConf code (branch cs s f t n)).withRw g ∧ ∀ (r : Region) (s' : State), (Pos.ofConf code (branch cs s f t n)).state? = some s' → s'.mem r = s.mem r := by
    intro f t n h
    rw [branch, branch, show (s.withRw g).flags = s.flags from rfl]
    cases hfl : s.flags with
    | none => rw [branch, hfl] at h; exact absurd rfl h
    | some fl => exact ⟨rfl, fun r s' h => by cases h; rfl⟩
  cases tm with
  | goto l => exact ⟨rfl, fun r _ s' h => by cases h; rfl⟩
  | jl t n => exact ⟨(hbr _ _ _ hf).1, fun r _ s' h => (hbr _ _ _ hf).2 r s' h⟩
  | jb t n => exact ⟨(hbr _ _ _ hf).1, fun r _ s' h => (hbr _ _ _ hf).2 r s' h⟩
  | jz t n => exact ⟨(hbr _ _ _ hf).1, fun r _ s' h => (hbr _ _ _ hf).2 r s' h⟩
  | call t n =>
    simp only [finish] at hf ⊢
    split at hf
    · exact absurd rfl hf
    · rename_i hc
      obtain ⟨h1, h2⟩ := vwrite_hide hw s g .dqu (n := 2) (by decide) (s.r .rsp - 8) (lanes64 ((env.hide w).codeAddr n)) (by simpa [State.setR] using hc)
      have h1' : (s.withRw g).vwrite env .dqu 2 ((s.withRw g).r .rsp - 8) (lanes64 (env.codeAddr n)) =
        (s.vwrite (env.hide w) .dqu 2 (s.r .rsp - 8) (lanes64 ((env.hide w).codeAddr n))).withRw g := h1
      have hc' : ¬((((s.vwrite (env.hide w) .dqu 2 (s.r .rsp - 8) (lanes64 ((env.hide w).codeAddr n))).withRw g).setR .rsp ((s.withRw g).r .rsp - 8)).fault = true) := hc
      rw [h1', if_neg hc, if_neg hc']
      exact ⟨rfl, fun r hr s' h => by cases h; exact h2 r hr⟩
  | ret =>
    have hvf : (s.vread (env.hide w) .dqu 2 (.reg .rsp 0)).1.fault = false := by
      cases hx : (s.vread (env.hide w) .dqu 2 (.reg .rsp 0)).1.fault with
      | false => rfl
      | true =>
        simp only [finish] at hf
        rw [if_pos (show ((s.vread (env.hide w) .dqu 2 (.reg .rsp 0)).1.setR .rsp (s.r .rsp + 8)).fault = true from hx)] at hf
        exact absurd rfl hf
    have hv := vread_hide s g .dqu (n := 2) (by decide) (.reg .rsp 0) hvf
    simp only [finish] at hf ⊢
    rw [hv]
    have hn1 : ¬(((s.vread (env.hide w) .dqu 2 (.reg .rsp 0)).1.setR .rsp (s.r .rsp + 8)).fault = true) := by
      show ¬((s.vread (env.hide w) .dqu 2 (.reg .rsp 0)).1.fault = true)
      rw [hvf]; simp
    have hn2 : ¬((((s.vread (env.hide w) .dqu 2 (.reg .rsp 0)).1.withRw g).setR .rsp ((s.withRw g).r .rsp + 8)).fault = true) := hn1
    rw [if_neg hn1] at hf
    simp only [if_neg hn1, if_neg hn2]
    cases cs with
    | nil =>
      simp only at hf ⊢
      by_cases he : of64 (s.vread (env.hide w) .dqu 2 (.reg .rsp 0)).2 = env.retAddr
      · rw [if_pos he, if_pos (show _ = (env.hide w).retAddr from he)]
        exact ⟨rfl, fun r hr s' h => by cases h; rfl⟩
      · rw [if_neg (show ¬ _ = (env.hide w).retAddr from he)] at hf
        exact absurd rfl hf
    | cons n cs =>
      simp only at hf ⊢
      by_cases he : of64 (s.vread (env.hide w) .dqu 2 (.reg .rsp 0)).2 = env.codeAddr n
      · rw [if_pos he, if_pos (show _ = (env.hide w).codeAddr n from he)]
        exact ⟨rfl, fun r hr s' h => by cases h; rfl⟩
      · rw [if_neg (show ¬ _ = (env.hide w).codeAddr n from he)] at hf
        exact absurd rfl hf

theorem tick_hide {env : Env} {w : Region → Bool} (hw : ∀ r, w r = true → env.writable r = true) (code : Label → Block) (g : Nat → Byte) (p : Pos)
    (hf : tick (env.hide w) code p ≠ .fail) : tick env code (p.withRw g) = (tick (env.hide w) code p).withRw g ∧
      ∀ r, w r = false → ∀ s s', p.state? = some s → (tick (env.hide w) code p).state? = some s' → s'.mem r = s.mem r := by
  cases p with
  | done s => exact ⟨rfl, fun r _ a b h1 h2 => by cases h1; cases h2; rfl⟩
  | fail => exact ⟨rfl, fun r _ a b h1 h2 => by cases h1⟩
  | «at» is tm cs s =>
    cases is with
    | nil =>
      obtain ⟨h1, h2⟩ := finish_hide hw code cs s g tm (fun h => hf (by rw [tick, h]; rfl))
      refine ⟨by rw [Pos.withRw, tick, tick, h1], fun r hr a b ha hb => ?_⟩
      cases ha
      exact h2 r hr b hb
    | cons i is =>
      rw [tick] at hf
      split at hf
      · exact absurd rfl hf
      · rename_i hc
        obtain ⟨h1, h2⟩ := step_hide hw s g i (by simpa using hc)
        constructor
        · rw [Pos.withRw, tick, tick, h1, if_neg hc, if_neg (show ¬((step (env.hide w) s i).withRw g).fault = true from hc)]
          rfl
        · intro r hr a b ha hb
          cases ha
          rw [tick, if_neg hc] at hb
          cases hb
          exact h2 r hr

theorem withRw_state (g : Nat → Byte) (p : Pos) : (p.withRw g).state? = p.state?.map (·.withRw g) := by cases p <;> rfl

theorem withRw_ne_fail {g : Nat → Byte} {p : Pos} : p.withRw g ≠ .fail ↔ p ≠ .fail := by cases p <;> simp [Pos.withRw]

theorem withRw_withRw (g g' : Nat → Byte) (p : Pos) : (p.withRw g).withRw g' = p.withRw g' := by
  have h : ∀ s : State, (s.withRw g).withRw g' = s.withRw g' := fun s => by
    simp only [State.withRw]
    congr 1
    funext r
    simp only [upd]
    split <;> rfl
  cases p <;> simp only [Pos.withRw, h]

theorem withRw_self {g : Nat → Byte} {p : Pos} (h : ∀ s, p.state? = some s → s.mem .shaniRw = g) : p.withRw g = p := by
  have h' : ∀ s : State, s.mem .shaniRw = g → s.withRw g = s := fun s hs => by
    show ({ s with mem := upd s.mem .shaniRw g } : State) = s
    rw [← hs, show upd s.mem .shaniRw (s.mem .shaniRw) = s.mem by funext r; simp only [upd]; split <;> simp_all]
  cases p with
  | fail => rfl
  | done s => rw [Pos.withRw, h' s (h s rfl)]
  | «at» a b c s => rw [Pos.withRw, h' s (h s rfl)]

/-- Seeing shared memory that agrees with the own view except on the scratch memory. -/
theorem see_withRw {g : Mem} {p : Pos} (h : ∀ r s, r.shared = true → r ≠ .shaniRw → p.state? = some s → s.mem r = g r) :
    p.see g = p.withRw (g .shaniRw) := by
  have hm : ∀ s, p.state? = some s → merge s.mem g = upd s.mem .shaniRw (g .shaniRw) := by
    intro s hs
    funext r
    simp only [merge, upd]
    by_cases hr : r = .shaniRw
    · subst hr; rfl
    · rw [if_neg hr]
      split
      · rename_i h1; exact (h r s h1 hr hs).symm
      · rfl
  cases p with
  | fail => rfl
  | done s => rw [Pos.see, hm s rfl]; rfl
  | «at» a b c s => rw [Pos.see, hm s rfl]; rfl

/-- Alone and never failing without the scratch memory, a thread behaves in the same way with it, whatever is in it. -/
theorem ticks_hide {env : Env} {code : Label → Block} {w : Region → Bool} (hw : ∀ r, w r = true → env.writable r = true) {p : Pos}
    (hn : ∀ k, ticks (env.hide w) code k p ≠ .fail) (g : Nat → Byte) (k : Nat) :
    ticks env code k (p.withRw g) = (ticks (env.hide w) code k p).withRw g ∧
      ∀ r, w r = false → ∀ s s', p.state? = some s → (ticks (env.hide w) code k p).state? = some s' → s'.mem r = s.mem r := by
  induction k with
  | zero => exact ⟨rfl, fun r _ a b h1 h2 => by rw [ticks, h1] at h2; cases h2; rfl⟩
  | succ k ih =>
    obtain ⟨h1, h2⟩ := ih
    have hk := hn (k + 1)
    rw [ticks_succ] at hk
    obtain ⟨h3, h4⟩ := tick_hide hw code g _ hk
    refine ⟨by rw [ticks_succ, ticks_succ, h1, h3], fun r hr a b ha hb => ?_⟩
    rw [ticks_succ] at hb
    cases hs : (ticks (env.hide w) code k p).state? with
    | none => exact absurd (by cases hq : ticks (env.hide w) code k p <;> rw [hq] at hs <;> first | rfl | cases hs) (hn k)
    | some s1 => exact (h4 r hr s1 b hs hb).trans (h2 r hr a s1 ha hs)

/-- Alone and never failing with fewer permissions, a thread behaves in the same way with all. -/
theorem ticks_perm {env : Env} {code : Label → Block} {w : Region → Bool} (hw : ∀ r, w r = true → env.writable r = true) {p : Pos}
    (hn : ∀ k, ticks (env.perm w) code k p ≠ .fail) (k : Nat) :
    ticks env code k p = ticks (env.perm w) code k p ∧
      ∀ r, w r = false → ∀ s s', p.state? = some s → (ticks env code k p).state? = some s' → s'.mem r = s.mem r := by
  induction k with
  | zero => exact ⟨rfl, fun r _ a b h1 h2 => by rw [ticks, h1] at h2; cases h2; rfl⟩
  | succ k ih =>
    obtain ⟨h1, h2⟩ := ih
    have hk := hn (k + 1)
    rw [ticks_succ, ← h1] at hk
    obtain ⟨h3, h4⟩ := tick_perm hw code _ hk
    refine ⟨by rw [ticks_succ, ticks_succ, h3, h1], fun r hr a b ha hb => ?_⟩
    rw [ticks_succ] at hb
    cases hs : (ticks env code k p).state? with
    | none => exact absurd (by rw [← h1]; cases hq : ticks env code k p <;> rw [hq] at hs <;> first | rfl | cases hs) (hn k)
    | some s1 => exact (h4 r hr s1 b hs hb).trans (h2 r hr a s1 ha hs)

/-- At most one of the threads uses the scratch memory: under every schedule every thread is where it would be alone after the same number of its own
instructions, up to what it sees in the scratch memory. -/
theorem run_one_owner {ι : Type} [DecidableEq ι] {env : ι → Env} {code : Label → Block} {own : ι → Bool} (hun : ∀ i j, own i = true → own j = true → i = j)
    {w wo : Region → Bool} (hw : ∀ i r, w r = true → (env i).writable r = true) (hwo : ∀ i, own i = true → ∀ r, wo r = true → (env i).writable r = true)
    (hsh : ∀ r, r.shared = true → w r = false) (hsho : ∀ r, r.shared = true → r ≠ .shaniRw → wo r = false)
    {p0 : Process ι} (h0 : ∀ i r s, r.shared = true → (p0.pos i).state? = some s → s.mem r = p0.shared r)
    (hn : ∀ i, own i = false → ∀ k, ticks ((env i).hide w) code k (p0.pos i) ≠ .fail)
    (hno : ∀ i, own i = true → ∀ k, ticks ((env i).perm wo) code k (p0.pos i) ≠ .fail) (sched : List ι) :
    (∀ i, own i = true → (p0.run env code sched).pos i = ticks (env i) code (sched.count i) (p0.pos i)) ∧
      (∀ i, own i = false → ∃ g, (p0.run env code sched).pos i = (ticks ((env i).hide w) code (sched.count i) (p0.pos i)).withRw g) ∧
      ∀ r, r.shared = true → (r = .shaniRw → ∀ i, own i = false) → (p0.run env code sched).shared r = p0.shared r := by
  have key : ∀ (sched : List ι) (p : Process ι) (c : ι → Nat),
      (∀ i, own i = true → p.pos i = ticks (env i) code (c i) (p0.pos i) ∧ ∀ s, (p.pos i).state? = some s → s.mem .shaniRw = p.shared .shaniRw) →
      (∀ i, own i = false → ∃ g, p.pos i = (ticks ((env i).hide w) code (c i) (p0.pos i)).withRw g) →
      (∀ r, r.shared = true → (r = .shaniRw → ∀ i, own i = false) → p.shared r = p0.shared r) →
      (∀ i, own i = true → (p.run env code sched).pos i = ticks (env i) code (c i + sched.count i) (p0.pos i)) ∧
      (∀ i, own i = false → ∃ g, (p.run env code sched).pos i = (ticks ((env i).hide w) code (c i + sched.count i) (p0.pos i)).withRw g) ∧
      ∀ r, r.shared = true → (r = .shaniRw → ∀ i, own i = false) → (p.run env code sched).shared r = p0.shared r := by
    intro sched
    induction sched with
    | nil =>
      exact fun p c h1 h2 h3 => ⟨fun i hi => by rw [List.count_nil, Nat.add_zero]; exact (h1 i hi).1, fun i hi => by
        rw [List.count_nil, Nat.add_zero]; exact h2 i hi, h3⟩
    | cons i is ih =>
      intro p c h1 h2 h3
      have hcount : ∀ j, (c j + if j = i then 1 else 0) + is.count j = c j + (i :: is).count j := by
        intro j
        rw [List.count_cons]
        by_cases e : j = i
        · subst e; simp; omega
        · simp [e, Ne.symm e]
      have hup : ∀ q : Pos, ∀ j, j ≠ i → upd p.pos i q j = p.pos j := fun q j e => upd_ne _ _ e
      have h3' : ∀ r, r.shared = true → r ≠ .shaniRw → p.shared r = p0.shared r := fun r hr hne => h3 r hr (fun e => absurd e hne)
      cases hi : own i with
      | true =>
        obtain ⟨e1, e2⟩ := h1 i hi
        have hmem : ∀ k r s, r.shared = true → r ≠ .shaniRw → (ticks (env i) code k (p0.pos i)).state? = some s → s.mem r = p0.shared r := by
          intro k r s hr hne hs
          obtain ⟨-, h5⟩ := ticks_perm (hwo i hi) (hno i hi) k
          cases hs0 : (p0.pos i).state? with
          | none => exact absurd (by rw [ticks]; cases hq : p0.pos i <;> rw [hq] at hs0 <;> first | rfl | cases hs0) (hno i hi 0)
          | some s0 => rw [h5 r (hsho r hr hne) s0 s hs0 hs, h0 i r s0 hr hs0]
        have hsee : (p.pos i).see p.shared = p.pos i := by
          rw [see_withRw (fun r s hr hne hs => by rw [h3' r hr hne]; exact hmem (c i) r s hr hne (by rw [← e1]; exact hs)), withRw_self e2]
        have ht : tick (env i) code (p.pos i) = ticks (env i) code (c i + 1) (p0.pos i) := by rw [ticks_succ, e1]
        have hnf : ticks (env i) code (c i + 1) (p0.pos i) ≠ .fail := by
          rw [(ticks_perm (hwo i hi) (hno i hi) _).1]; exact hno i hi _
        have hlv : ∀ r, r.shared = true → ∀ s, (ticks (env i) code (c i + 1) (p0.pos i)).state? = some s → (p.tick env code i).shared r = s.mem r := by
          intro r hr s hs
          simp only [Process.tick, hsee, ht]
          cases hq : ticks (env i) code (c i + 1) (p0.pos i) with
          | fail => exact absurd hq hnf
          | done u => rw [hq] at hs; cases hs; rw [Pos.leave, merge, if_pos hr]
          | «at» a b d u => rw [hq] at hs; cases hs; rw [Pos.leave, merge, if_pos hr]
        obtain ⟨u, hu⟩ : ∃ u, (ticks (env i) code (c i + 1) (p0.pos i)).state? = some u := by
          cases hq : ticks (env i) code (c i + 1) (p0.pos i) with
          | fail => exact absurd hq hnf
          | done u => exact ⟨u, rfl⟩
          | «at» a b d u => exact ⟨u, rfl⟩
        have key := ih (p.tick env code i) (fun j => c j + if j = i then 1 else 0) (fun j hj => by
            obtain rfl := hun i j hi hj
            have hp : (p.tick env code i).pos i = ticks (env i) code (c i + 1) (p0.pos i) := by
              simp only [Process.tick, hsee, ht, upd_same]
            rw [if_pos rfl]
            exact ⟨hp, fun s hs => by rw [hp] at hs; exact (hlv .shaniRw rfl s hs).symm⟩)
          (fun j hj => by
            have e : j ≠ i := by rintro rfl; rw [hi] at hj; cases hj
            rw [if_neg e]
            simp only [Process.tick, hup _ j e]
            exact h2 j hj)
          (fun r hr hx => by
            have hne : r ≠ .shaniRw := by rintro rfl; have := hx rfl i; rw [hi] at this; cases this
            rw [hlv r hr u hu]; exact hmem _ r u hr hne hu)
        simp only [hcount] at key
        exact key
      | false =>
        obtain ⟨g, e1⟩ := h2 i hi
        have hmem : ∀ k r s, r.shared = true → (ticks ((env i).hide w) code k (p0.pos i)).state? = some s → s.mem r = p0.shared r := by
          intro k r s hr hs
          obtain ⟨-, h5⟩ := ticks_hide (hw i) (hn i hi) g k
          cases hs0 : (p0.pos i).state? with
          | none => exact absurd (by rw [ticks]; cases hq : p0.pos i <;> rw [hq] at hs0 <;> first | rfl | cases hs0) (hn i hi 0)
          | some s0 => rw [h5 r (hsh r hr) s0 s hs0 hs, h0 i r s0 hr hs0]
        have hsee : (p.pos i).see p.shared = (ticks ((env i).hide w) code (c i) (p0.pos i)).withRw (p.shared .shaniRw) := by
          rw [see_withRw (fun r s hr hne hs => ?_), e1, withRw_withRw]
          rw [e1, withRw_state, Option.map_eq_some_iff] at hs
          obtain ⟨s1, hs1, rfl⟩ := hs
          rw [h3' r hr hne, ← hmem (c i) r s1 hr hs1]
          exact upd_ne _ _ hne
        have hnf := hn i hi (c i + 1)
        have ht : tick (env i) code ((p.pos i).see p.shared) = (ticks ((env i).hide w) code (c i + 1) (p0.pos i)).withRw (p.shared .shaniRw) := by
          rw [ticks_succ] at hnf ⊢
          rw [hsee, (tick_hide (hw i) code _ _ hnf).1]
        have hlv : ∀ r, r.shared = true → (p.tick env code i).shared r = p.shared r := by
          intro r hr
          simp only [Process.tick, ht]
          have hr' : ∀ s, (ticks ((env i).hide w) code (c i + 1) (p0.pos i)).state? = some s → merge p.shared (s.withRw (p.shared .shaniRw)).mem r = p.shared r := by
            intro s hs
            rw [merge, if_pos hr]
            by_cases hne : r = .shaniRw
            · subst hne; exact upd_same s.mem .shaniRw _
            · rw [h3' r hr hne, ← hmem _ r s hr hs]
              exact upd_ne _ _ hne
          cases hq : ticks ((env i).hide w) code (c i + 1) (p0.pos i) with
          | fail => exact absurd hq hnf
          | done u => exact hr' u (by rw [hq]; rfl)
          | «at» a b d u => exact hr' u (by rw [hq]; rfl)
        have key := ih (p.tick env code i) (fun j => c j + if j = i then 1 else 0) (fun j hj => by
            have e : j ≠ i := by rintro rfl; rw [hi] at hj; cases hj
            have hp : (p.tick env code i).pos j = p.pos j := by simp only [Process.tick, hup _ j e]
            rw [if_neg e, hp, hlv _ rfl]
            exact h1 j hj)
          (fun j hj => by
            by_cases e : j = i
            · subst e
              rw [if_pos rfl]
              exact ⟨p.shared .shaniRw, by simp only [Process.tick, upd_same]; exact ht⟩
            · rw [if_neg e]
              simp only [Process.tick, hup _ j e]
              exact h2 j hj)
          (fun r hr hx => by rw [hlv r hr]; exact h3 r hr hx)
        simp only [hcount] at key
        exact key
  have h := key sched p0 (fun _ => 0) (fun i _ => ⟨rfl, fun s hs => h0 i _ s rfl hs⟩) (fun i hi => ⟨p0.shared .shaniRw, by
      rw [ticks, withRw_self (fun s hs => h0 i _ s rfl hs)]⟩) (fun _ _ _ => rfl)
  simp only [Nat.zero_add] at h
  exact h

end Mammon.X86
