import Verif.Model.Hasher
import Verif.Proofs.ShaniLoop
import Verif.Proofs.EightLoop
import Verif.Proofs.OneCall
/-!
# Lemmas on the implementations behind a hasher
-/

namespace Mammon

open X86

/-- The digests of the first `n` blocks of 64 bytes, one after the other. -/
def digests (n : Nat) (inp : List Byte) : List Byte :=
  (List.range n).flatMap fun i => Spec.SHA256.sha256 ((inp.drop (64 * i)).take 64)

theorem flatMap_congr' {α β : Type} {l : List α} {f g : α → List β} (h : ∀ x ∈ l, f x = g x) : l.flatMap f = l.flatMap g := by
  rw [List.flatMap_def, List.flatMap_def, List.map_congr_left h]

theorem digests_succ (n : Nat) (inp : List Byte) :
    digests (n + 1) inp = Spec.SHA256.sha256 (inp.take 64) ++ digests n (inp.drop 64) := by
  rw [digests, List.range_succ_eq_map, List.flatMap_cons, List.flatMap_map, digests, Nat.mul_zero, List.drop_zero]
  congr 1
  exact flatMap_congr' fun i _ => by
    rw [List.drop_drop, Nat.mul_succ, Nat.add_comm]

theorem length_sha256 (msg : List Byte) : (Spec.SHA256.sha256 msg).length = 32 := by
  simp [Spec.SHA256.sha256, Spec.SHA256.HV.bytes, Spec.SHA256.wordBytes, Spec.SHA256.beBytes]

theorem bytesAt_blocks (m : Nat → Byte) (o w n : Nat) : bytesAt m o (w * n) = (List.range n).flatMap fun i => bytesAt m (o + w * i) w := by
  induction n with
  | zero => rfl
  | succ n ih =>
    rw [List.range_succ, List.flatMap_append, ← ih, bytesAt, bytesAt, Nat.mul_succ, List.range_add, List.map_append, List.map_map]
    congr 1
    simp only [List.flatMap_cons, List.flatMap_nil, List.append_nil, bytesAt]
    exact List.map_congr_left fun i _ => by simp only [Function.comp_apply]; rw [Nat.add_assoc]

theorem bytesAt_slice (m : Nat → Byte) {o N a k : Nat} (h : a + k ≤ N) : ((bytesAt m o N).drop a).take k = bytesAt m (o + a) k := by
  refine List.ext_getElem (by simp [bytesAt]; omega) fun i h1 h2 => ?_
  simp only [bytesAt, List.getElem_take, List.getElem_drop, List.getElem_map, List.getElem_range, Nat.add_assoc]

/-- The routines write the digests: the contracts in terms of the bytes. -/
theorem digests_of_exit {env : Env} {own : List Region} {t ii oo n : Nat} {s s' : State} (X : Exit env own t ii oo n s s') :
    bytesAt (s'.mem .output) oo (32 * n) = digests n (bytesAt (s.mem .input) ii (64 * n)) := by
  rw [bytesAt_blocks, digests]
  refine flatMap_congr' fun i hi => ?_
  have hi := List.mem_range.1 hi
  rw [X.hash i hi, bytesAt_slice _ (by omega)]

/-- The entry points and the stack they need. -/
def routines : List (Label × Nat) := [(.one, 120), (.four, 536), (.eight, 1720), (.shani, 0)]

/-- Every routine called as the convention demands returns and leaves what its contract says. -/
theorem routine_spec {l : Label} {d : Nat} (hl : (l, d) ∈ routines) {env : Env} {s : State} {t ii oo n : Nat} (E : Entry env d t ii oo n env.retAddr s)
    (hn : if l = .one then n = 1 else s.r .rdx = BitVec.ofNat 64 n) (hw : l = .shani → 2 ≤ n → env.writable .shaniRw = true) :
    ∃ s', Reaches env code (.run l [] s) (.done s') ∧ Exit env (if l = .shani then Shani.owned n else []) t ii oo n s s' := by
  have hs : n < 2 ^ 63 := by
    have h1 := E.input
    have h2 := E.valid.fits .input
    omega
  simp only [routines, List.mem_cons, List.not_mem_nil, or_false] at hl
  rcases hl with hl | hl | hl | hl <;> cases hl
  · obtain rfl : n = 1 := hn
    obtain ⟨u, h1, h2, -⟩ := one_spec env [] s t ii oo E
    exact ⟨u, h1.reaches, h2⟩
  · obtain ⟨u, h1, h2⟩ := four_spec (cs := []) E hn hs
    exact ⟨u, h1.reaches, h2⟩
  · obtain ⟨u, h1, h2⟩ := eight_spec (cs := []) E hn hs
    exact ⟨u, h1.reaches, h2⟩
  · obtain ⟨u, h1, h2, -⟩ := shani_spec (cs := []) E.toCalled hn hs (fun r hr => by
      rw [Shani.owned] at hr
      split at hr
      · simp at hr
      · rw [List.mem_singleton.1 hr]; exact hw rfl (by omega))
    exact ⟨u, h1.reaches, h2⟩

theorem steps_done (env : Env) (code : Label → Block) (k : Nat) (u : State) : steps env code k (.done u) = .done u := by
  induction k with
  | zero => rfl
  | succ k ih => exact ih

theorem steps_add (env : Env) (code : Label → Block) (j : Nat) : ∀ (k : Nat) (c : Conf), steps env code (k + j) c = steps env code j (steps env code k c)
  | 0, c => by rw [Nat.zero_add]; rfl
  | k + 1, c => by rw [Nat.add_right_comm]; exact steps_add env code j k _

/-- A run has at most one final state. -/
theorem X86.Reaches.final {env : Env} {code : Label → Block} {c : Conf} {s s' : State} (h : Reaches env code c (.done s)) (h' : Reaches env code c (.done s')) :
    s = s' := by
  have hk : ∀ (k j : Nat) (u v : State), steps env code k c = .done u → steps env code (k + j) c = .done v → u = v := by
    intro k j u v h1 h2
    rw [steps_add, h1, steps_done] at h2
    cases h2; rfl
  obtain ⟨k, h⟩ := h
  obtain ⟨j, h'⟩ := h'
  rcases Nat.le_total k j with hkj | hkj
  · exact hk k (j - k) s s' h (by rw [Nat.add_sub_cancel' hkj]; exact h')
  · exact (hk j (k - j) s' s h' (by rw [Nat.add_sub_cancel' hkj]; exact h)).symm

theorem asmCall_eq {l : Label} {d : Nat} (hl : (l, d) ∈ routines) {n : Nat} (hn : l = .one → n = 1) {inp out : List Byte} (h : AsmCall l d n inp out) :
    out = digests n inp := by
  obtain ⟨env, s, s', t, ii, oo, E, hw, hdx, hin, hr, hout⟩ := h
  obtain ⟨u, h1, h2⟩ := routine_spec hl E (by
    split
    · exact hn ‹_›
    · exact hdx.resolve_left ‹_›) (fun _ _ => by rw [hw]; rfl)
  cases hr.final h1
  rw [← hout, digests_of_exit h2, hin]

theorem sseCall_eq : ∀ (n : Nat) {inp out : List Byte}, SseCall n inp out → out = digests n inp
  | 0, _, _, h => h
  | n + 1, inp, out, ⟨o, h1, rest, h2, h3⟩ => by
    rw [h3, digests_succ, sseCall_eq n h2, asmCall_eq (by decide) (fun _ => rfl) h1, digests_succ]
    simp [digests, List.take_take, BYTES_PER_CHUNK]

theorem call_eq (f : HashFn) {n : Nat} {inp out : List Byte} (h : f.Call n inp out) : out = digests n inp := by
  cases f
  · exact asmCall_eq (by decide) (fun h => by cases h) h
  · exact asmCall_eq (by decide) (fun h => by cases h) h
  · exact asmCall_eq (by decide) (fun h => by cases h) h
  · exact sseCall_eq n h

/-! ## Which instructions are executed -/

/-- Where control can go from the end of a piece of code, except by returning. -/
def X86.Term.next : Term → List Label
  | .goto l => [l]
  | .jl t n => [t, n]
  | .jb t n => [t, n]
  | .jz t n => [t, n]
  | .call t n => [t, n]
  | .ret => []

/-- Runs stay within a set of labels that is closed under control flow. -/
theorem steps_closed {code : Label → Block} {ls : List Label} (hc : ∀ l ∈ ls, ∀ l' ∈ (code l).term.next, l' ∈ ls) (env : Env) :
    ∀ (k : Nat) (l : Label) (cs : List Label) (s : State), l ∈ ls → (∀ x ∈ cs, x ∈ ls) → ∀ l' cs' s', steps env code k (.run l cs s) = .run l' cs' s' →
      l' ∈ ls
  | 0, l, cs, s, hl, _, l', cs', s', h => by cases h; exact hl
  | k + 1, l, cs, s, hl, hcs, l', cs', s', h => by
    have hfail : ∀ k, steps env code k .fail = .fail := by
      intro k; induction k with
      | zero => rfl
      | succ k ih => exact ih
    have hbr : ∀ (f : Flags → Bool) (t n : Label) (u : State), t ∈ ls → n ∈ ls → steps env code k (branch cs u f t n) = .run l' cs' s' → l' ∈ ls := by
      intro f t n u ht hn h
      rw [branch] at h
      split at h
      · refine steps_closed hc env k _ cs u ?_ hcs l' cs' s' h
        split
        · exact ht
        · exact hn
      · rw [hfail] at h; cases h
    have hnext := hc l hl
    rw [steps, advance] at h
    split at h
    · rw [hfail] at h; cases h
    · generalize exec env (code l).body s = u at h
      cases ht : (code l).term with
      | goto a =>
        rw [ht] at h hnext
        exact steps_closed hc env k a cs u (hnext a (by simp [Term.next])) hcs l' cs' s' h
      | jl a b =>
        rw [ht] at h hnext
        exact hbr _ a b u (hnext a (by simp [Term.next])) (hnext b (by simp [Term.next])) h
      | jb a b =>
        rw [ht] at h hnext
        exact hbr _ a b u (hnext a (by simp [Term.next])) (hnext b (by simp [Term.next])) h
      | jz a b =>
        rw [ht] at h hnext
        exact hbr _ a b u (hnext a (by simp [Term.next])) (hnext b (by simp [Term.next])) h
      | call a b =>
        rw [ht] at h hnext
        simp only [finish] at h
        split at h
        · rw [hfail] at h; cases h
        · refine steps_closed hc env k a (b :: cs) _ (hnext a (by simp [Term.next])) ?_ l' cs' s' h
          intro x hx
          rcases List.mem_cons.1 hx with hx | hx
          · rw [hx]; exact hnext b (by simp [Term.next])
          · exact hcs x hx
      | ret =>
        rw [ht] at h
        simp only [finish] at h
        split at h
        · rw [hfail] at h; cases h
        · cases cs with
          | nil =>
            simp only at h
            split at h
            · rw [steps_done] at h; cases h
            · rw [hfail] at h; cases h
          | cons n cs =>
            simp only at h
            split at h
            · exact steps_closed hc env k n cs _ (hcs n (by simp)) (fun x hx => hcs x (by simp [hx])) l' cs' s' h
            · rw [hfail] at h; cases h

/-- The labels the routine behind `f` can arrive at. -/
def HashFn.labels : HashFn → List Label
  | .sse => [.one]
  | .avx => [.one, .four, .fourLoop, .fourBlocks, .fourXX, .fourMid, .fourPad, .fourTail, .fourCall, .fourBack, .fourDone]
  | .avx2 => [.eight, .eightLoop, .eightBlocks, .eightXX, .eightMid, .eightPad, .eightTail, .eightBack, .one, .four, .fourLoop, .fourBlocks, .fourXX,
    .fourMid, .fourPad, .fourTail, .fourCall, .fourBack, .fourDone]
  | .shani => [.shani, .shaniLoop, .shaniTwo, .shaniTail, .shaniOne, .shaniDone]

/-- The extensions the routine behind `f` uses. -/
def HashFn.exts : HashFn → List Ext
  | .sse => [.base, .avx]
  | .avx => [.base, .avx]
  | .avx2 => [.base, .avx, .avx2]
  | .shani => [.base, .ssse3, .sse41, .sha]

theorem labels_closed (f : HashFn) : f.entry ∈ f.labels ∧ ∀ l ∈ f.labels, ∀ l' ∈ (code l).term.next, l' ∈ f.labels := by
  cases f <;> decide +kernel

theorem labels_exts (f : HashFn) : ∀ l ∈ f.labels, ∀ i ∈ (code l).body, i.ext ∈ f.exts := by
  cases f <;> decide +kernel

end Mammon
