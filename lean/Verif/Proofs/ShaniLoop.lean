import Verif.Proofs.ShaniBlocks
/-!
# The loop of the routine with the SHA instructions and its contract
-/

namespace Mammon.X86.Shani
open Spec.SHA256 One

/-- The regions a call for `n` blocks writes besides the output. -/
def owned (n : Nat) : List Region := if n < 2 then [] else [.shaniRw]

/-- `k` of `n` blocks have been hashed; `s0` is the state at the entry of the routine. -/
structure SInv (env : Env) (ii oo k n : Nat) (s0 s : State) : Prop where
  fault : s.fault = false
  le : k ≤ n
  ready : Ready env (ii + 64 * k) s
  rdi : s.r OUTPUT_PTR = env.ptr .output (oo + 32 * k)
  rdx : s.r NUM_BLKS = BitVec.ofNat 64 (n - k)
  regs : ∀ r ∈ R.rsp :: calleeSaved, s.r r = s0.r r
  other : ∀ r, r ≠ .output → r ∉ owned n → s.mem r = s0.mem r
  output : ∀ i, i < oo ∨ oo + 32 * k ≤ i → s.mem .output i = s0.mem .output i
  hash : ∀ l, l < k → bytesAt (s.mem .output) (oo + 32 * l) 32 = sha256 (bytesAt (s0.mem .input) (ii + 64 * l) 64)
  saved : ∀ j, k = j + 2 → Saved (compress H0 (msg (s0.mem .input) (ii + 64 * j))) (compress H0 (msg (s0.mem .input) (ii + 64 * j + 64))) (s.mem .shaniRw)

theorem SInv.congr {env : Env} {ii oo k n : Nat} {s0 s s' : State} (h : SInv env ii oo k n s0 s) (h1 : s'.r = s.r) (h2 : s'.mem = s.mem)
    (h3 : s'.fault = s.fault) (h4 : s'.x = s.x) : SInv env ii oo k n s0 s' := by
  refine ⟨h3.trans h.fault, h.le, ⟨h.ready.valid, ?_, ?_, ?_, ?_, ?_⟩, ?_, ?_, ?_, ?_, ?_, ?_, ?_⟩ <;> simp only [h1, h2, h4]
  · exact h.ready.loaded
  · exact h.ready.rax
  · exact h.ready.rcx
  · exact h.ready.rsi
  · exact h.ready.flip
  · exact h.rdi
  · exact h.rdx
  · exact h.regs
  · exact h.other
  · exact h.output
  · exact h.hash
  · exact h.saved

theorem mem_owned {r : Region} {n : Nat} (h : r ∉ owned n) (hn : 2 ≤ n) : r ≠ .shaniRw := by
  rw [owned, if_neg (by omega)] at h
  simpa using h

theorem not_mem_owned {r : Region} (n : Nat) (h : r ≠ .shaniRw) : r ∉ owned n := by
  rw [owned]; split <;> simp [h]

theorem entry_spec {env : Env} {t ii oo n : Nat} {ret : BitVec 64} {s : State} (E : Called env 0 t ii oo n ret s) (hdx : s.r .rdx = BitVec.ofNat 64 n) :
    ∃ s', exec env entry s = s' ∧ SInv env ii oo 0 n s s' := by
  have hs := size_le E.loaded
  have hb := base_mod E.loaded
  have hF : FLIP_MASK = 256 := rfl
  obtain ⟨s1, q1, x1, w1⟩ := mload_spec E.valid s SHUF_MASK (m := .dqa) .shaniRo FLIP_MASK (ea_rel ..) (by omega) (fun _ => by omega)
  rw [entry, exec_cons, q1]
  refine ⟨_, rfl, x1.fault.trans E.fault, by omega, ⟨E.valid, ?_, rfl, rfl, ?_, fun l hl => ?_⟩, ?_, ?_, fun r hr => ?_, fun r _ _ => ?_, fun i _ => ?_,
    fun l hl => absurd hl (by omega), fun j hj => absurd hj (by omega)⟩
  · show Loaded env s1.mem
    rw [x1.mem]; exact E.loaded
  · show s1.r .rsi = _
    rw [x1.r]; exact E.rsi
  · show s1.x SHUF_MASK l = _
    rw [w1 l hl, word E.loaded (i := 64 + l) (by omega) (by omega), data_flip l hl]
  · show s1.r .rdi = _
    rw [x1.r]; exact E.rdi
  · show s1.r .rdx = _
    rw [x1.r]; exact hdx
  · rw [← x1.r]
    show upd (upd s1.r _ _) _ _ r = _
    rw [upd_ne _ _ (by revert r; decide), upd_ne _ _ (by revert r; decide)]
  · show s1.mem r = _
    rw [x1.mem]
  · show s1.mem .output i = _
    rw [x1.mem]

/-- Two blocks at a time. -/
theorem loop {env : Env} {ii oo n : Nat} {cs : List Label} {s0 : State} (hin : ii + 64 * n ≤ env.size .input) (hout : oo + 32 * n ≤ env.size .output)
    (hn : n < 2 ^ 63) (hw : ∀ r ∈ owned n, env.writable r = true) : ∀ (fuel k : Nat) {s : State}, n < k + fuel → SInv env ii oo k n s0 s →
      ∃ s', Steps env X86.code (rep ((n - k) / 2) [.shaniLoop, .shaniTwo] ++ [.shaniLoop]) (.run .shaniLoop cs s) (.run .shaniTail cs s') ∧ SInv env ii oo (k + 2 * ((n - k) / 2)) n s0 s'
  | 0, k, s, hk, h => by have := h.le; omega
  | fuel + 1, k, s, hk, h => by
    have hle := h.le
    obtain ⟨s1, q1⟩ : ∃ s1, step env s (.cmpImm NUM_BLKS 2) = s1 := ⟨_, rfl⟩
    have r1 : Steps env X86.code [.shaniLoop] (.run .shaniLoop cs s) (.run (if n - k < 2 then .shaniTail else .shaniTwo) cs s1) := by
      refine Steps.one ((advance_run (b := [.cmpImm NUM_BLKS 2]) (tm := .jl .shaniTail .shaniTwo) rfl rfl ?_).trans ?_)
      · exact h.fault
      · refine (finish_jl_cmp env cs s NUM_BLKS 2 _ _).trans ?_
        rw [h.rdx, Four.slt_ofNat (by omega) (by decide), q1]
        simp only [decide_eq_true_eq]
    have h1 : SInv env ii oo k n s0 s1 := by
      rw [← q1]; exact h.congr rfl rfl rfl rfl
    clear q1
    by_cases hc : n - k < 2
    · rw [if_pos hc] at r1
      rw [Nat.div_eq_of_lt hc]
      exact ⟨s1, r1, h1⟩
    · rw [if_neg hc] at r1
      obtain ⟨s2, q2, d⟩ := two_spec h1.ready h1.rdi (by omega) (by omega) (hw _ (by rw [owned, if_neg (by omega)]; simp))
      have r2 : Steps env X86.code [.shaniTwo] (.run .shaniTwo cs s1) (.run .shaniLoop cs s2) :=
        Steps.one (advance_run (b := two) (tm := .goto .shaniLoop) rfl q2 (d.fault.trans h1.fault))
      have h2 : SInv env ii oo (k + 2) n s0 s2 := by
        have hR := h1.ready
        refine ⟨d.fault.trans h1.fault, by omega, ⟨hR.valid, hR.loaded.congr fun r _ h3 h4 => d.other r h3 h4, ?_, ?_, ?_, ?_⟩, ?_, ?_, fun r hr => ?_,
          fun r h3 h4 => ?_, fun i hi => ?_, fun l hl => ?_, fun j hj => ?_⟩
        · rw [d.regs _ (by decide)]; exact hR.rax
        · rw [d.regs _ (by decide)]; exact hR.rcx
        · rw [d.rsi, Nat.mul_add, Nat.add_assoc]
        · rw [d.flip]; exact hR.flip
        · rw [d.rdi, Nat.mul_add, Nat.add_assoc]
        · rw [d.rdx, h1.rdx]
          refine (ofNat_sub_ofNat (b := 2) (by omega)).trans ?_
          congr 1
        · rw [d.regs r (by revert r; decide)]; exact h1.regs r hr
        · rw [d.other r h3 (mem_owned h4 (by omega))]; exact h1.other r h3 h4
        · rw [d.output i (by omega)]; exact h1.output i (by omega)
        · by_cases hlk : l < k
          · rw [← h1.hash l hlk]
            exact bytesAt_congr fun i _ hi => d.output i (by omega)
          · rw [← h1.other .input (by decide) (not_mem_owned n (by decide))]
            by_cases e : l = k
            · rw [e]; exact d.hash0
            · obtain rfl : l = k + 1 := by omega
              rw [Nat.mul_add, Nat.mul_add, ← Nat.add_assoc, ← Nat.add_assoc]
              exact d.hash1
        · obtain rfl : k = j := by omega
          rw [← h1.other .input (by decide) (not_mem_owned n (by decide))]
          exact d.saved
      obtain ⟨s', r3, h3⟩ := loop hin hout hn hw fuel (k + 2) (by omega) h2
      have e : (n - k) / 2 = (n - (k + 2)) / 2 + 1 := by omega
      rw [e]
      exact ⟨s', ((r1.trans r2).trans r3).cast (by rw [rep_succ]; rfl), (by rw [show k + 2 * ((n - (k + 2)) / 2 + 1) = k + 2 + 2 * ((n - (k + 2)) / 2) by omega]; exact h3)⟩

end Mammon.X86.Shani

namespace Mammon.X86
open Shani Spec.SHA256

/-- From the loop to the return. -/
theorem shani_rest {env : Env} {cs : List Label} {s : State} {t ii oo n : Nat}
    (E : Called env 0 t ii oo n (retTo env cs) s) (hn : n < 2 ^ 63) (hw : ∀ r ∈ owned n, env.writable r = true) {s1 : State}
    (h1 : SInv env ii oo 0 n s s1) : ∃ s', Steps env code (shaniPath n).tail (.run .shaniLoop cs s1) (back s' cs) ∧ Exit env (owned n) t ii oo n s s' ∧ s'.mem .stack = s.mem .stack := by
  have hin := E.input
  have hout := E.output
  obtain ⟨s2, r2, h2⟩ := loop (cs := cs) E.input E.output hn hw (n + 1) 0 (by omega) h1
  obtain ⟨k, hk⟩ : ∃ k, 0 + 2 * ((n - 0) / 2) = k := ⟨_, rfl⟩
  rw [hk] at h2
  have hle := h2.le
  -- the return
  have fin : ∀ u, (∃ k', SInv env ii oo k' n s u ∧ n ≤ k') ∨ (u.fault = false ∧ (∀ r ∈ R.rsp :: calleeSaved, u.r r = s.r r) ∧
      (∀ r, r ≠ .output → r ∉ owned n → u.mem r = s.mem r) ∧ (∀ i, i < oo ∨ oo + 32 * n ≤ i → u.mem .output i = s.mem .output i) ∧
      (∀ l, l < n → bytesAt (u.mem .output) (oo + 32 * l) 32 = sha256 (bytesAt (s.mem .input) (ii + 64 * l) 64))) →
      ∃ s', Steps env code [.shaniDone] (.run .shaniDone cs u) (back s' cs) ∧ Exit env (owned n) t ii oo n s s' ∧ s'.mem .stack = s.mem .stack := by
    intro u hu
    have hu : u.fault = false ∧ (∀ r ∈ R.rsp :: calleeSaved, u.r r = s.r r) ∧
      (∀ r, r ≠ .output → r ∉ owned n → u.mem r = s.mem r) ∧ (∀ i, i < oo ∨ oo + 32 * n ≤ i → u.mem .output i = s.mem .output i) ∧
      (∀ l, l < n → bytesAt (u.mem .output) (oo + 32 * l) 32 = sha256 (bytesAt (s.mem .input) (ii + 64 * l) 64)) := by
      rcases hu with ⟨k', h, hk'⟩ | h
      · have := h.le
        obtain rfl : k' = n := by omega
        exact ⟨h.fault, h.regs, h.other, h.output, h.hash⟩
      · exact h
    obtain ⟨u1, u2, u3, u4, u5⟩ := hu
    have hst : u.mem .stack = s.mem .stack := u3 .stack (by decide) (not_mem_owned n (by decide))
    have r : Steps env code [.shaniDone] (.run .shaniDone cs u) (back (u.setR .rsp (env.ptr .stack (t + 8))) cs) := by
      refine Steps.one ((advance_run (b := []) (tm := .ret) rfl rfl u1).trans (finish_ret E.valid u1 ?_ E.top ?_))
      · exact (u2 .rsp (by decide)).trans E.rsp
      · show of64 (fun l => readWord (u.mem .stack) (t + 4 * l)) = _
        rw [hst]; exact E.ret
    refine ⟨_, r, ⟨u1, upd_same u.r .rsp _, fun r hr => ?_, u5, u4, fun p _ => congrFun hst p, fun r a _ b => u3 r a b⟩, hst⟩
    show upd u.r .rsp _ r = _
    rw [upd_ne _ _ (by revert r; decide)]
    exact u2 r (List.mem_cons_of_mem _ hr)
  -- the last block
  obtain ⟨s3, q3⟩ : ∃ s3, step env s2 (.test NUM_BLKS NUM_BLKS) = s3 := ⟨_, rfl⟩
  have r3 : Steps env code [.shaniTail] (.run .shaniTail cs s2) (.run (if n - k = 0 then .shaniDone else .shaniOne) cs s3) := by
    refine Steps.one ((advance_run (b := [.test NUM_BLKS NUM_BLKS]) (tm := .jz .shaniDone .shaniOne) rfl rfl h2.fault).trans ?_)
    refine (finish_jz_test env cs s2 NUM_BLKS _ _).trans ?_
    rw [h2.rdx, q3]
    have : BitVec.ofNat 64 (n - k) = 0 ↔ n - k = 0 := by
      have : n - k = 0 ∨ n - k = 1 := by omega
      rcases this with h | h <;> rw [h] <;> decide
    simp only [this]
  have h3 : SInv env ii oo k n s s3 := by rw [← q3]; exact h2.congr rfl rfl rfl rfl
  clear q3
  by_cases hz : n - k = 0
  · rw [if_pos hz] at r3
    obtain ⟨s', r4, hX⟩ := fin s3 (.inl ⟨k, h3, by omega⟩)
    exact ⟨s', ((r2.trans r3).trans r4).cast (by rw [shaniPath, show n % 2 = 0 by omega, Nat.sub_zero]; simp [rep_zero]), hX⟩
  · rw [if_neg hz] at r3
    obtain ⟨s4, q4, d⟩ := Shani.one_spec h3.ready h3.rdi (by omega) (by omega)
    have r4 : Steps env code [.shaniOne] (.run .shaniOne cs s3) (.run .shaniDone cs s4) :=
      Steps.one (advance_run (b := Shani.one) (tm := .goto .shaniDone) rfl q4 (d.fault.trans h3.fault))
    obtain ⟨s', r5, hX⟩ := fin s4 (.inr ⟨d.fault.trans h3.fault, fun r hr => by rw [d.r]; exact h3.regs r hr,
      fun r a b => (d.other r a).trans (h3.other r a b), fun i hi => (d.output i (by omega)).trans (h3.output i (by omega)), fun l hl => by
        by_cases hlk : l < k
        · rw [← h3.hash l hlk]
          exact bytesAt_congr fun i _ hi => d.output i (by omega)
        · obtain rfl : l = k := by omega
          rw [← h3.other .input (by decide) (not_mem_owned n (by decide))]
          exact d.hash⟩)
    exact ⟨s', (((r2.trans r3).trans r4).trans r5).cast (by rw [shaniPath, show n % 2 = 0 + 1 by omega, Nat.sub_zero, rep_succ]; simp [rep_zero]), hX⟩

/-- The contract of `sha256_shani`. -/
theorem shani_spec {env : Env} {cs : List Label} {s : State} {t ii oo n : Nat}
    (E : Called env 0 t ii oo n (retTo env cs) s) (hdx : s.r .rdx = BitVec.ofNat 64 n) (hn : n < 2 ^ 63)
    (hw : ∀ r ∈ owned n, env.writable r = true) : ∃ s', Steps env code (shaniPath n) (.run .shani cs s) (back s' cs) ∧ Exit env (owned n) t ii oo n s s' ∧ s'.mem .stack = s.mem .stack := by
  obtain ⟨s1, q1, h1⟩ := entry_spec E hdx
  have r1 : Steps env code [.shani] (.run .shani cs s) (.run .shaniLoop cs s1) :=
    Steps.one (advance_run (b := entry) (tm := .goto .shaniLoop) rfl q1 h1.fault)
  obtain ⟨s', r2, h2⟩ := shani_rest E hn hw h1
  exact ⟨s', (r1.trans r2).cast rfl, h2⟩

end Mammon.X86
