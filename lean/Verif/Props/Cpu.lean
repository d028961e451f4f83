import Verif.Props.Hasher
import Verif.Props.Timing
/-!
# C27: exactly which extensions the selected implementation needs
-/

namespace Mammon

open X86

/-- A call of the routine behind `f` for `n` blocks as the calling convention prescribes; `sha256_sse` makes `n` calls for one block each. -/
def ProperCall (f : HashFn) (n : Nat) (env : Env) (s : State) : Prop :=
  ∃ t ii oo, env.writable = Region.writable ∧
    match f with
    | .sse => Entry env 120 t ii oo 1 env.retAddr s ∧ 1 ≤ n
    | .avx => Entry env 536 t ii oo n env.retAddr s ∧ s.r .rdx = BitVec.ofNat 64 n
    | .avx2 => Entry env 1720 t ii oo n env.retAddr s ∧ s.r .rdx = BitVec.ofNat 64 n
    | .shani => Entry env 0 t ii oo n env.retAddr s ∧ s.r .rdx = BitVec.ofNat 64 n

/-- The call executes an instruction: the run arrives at the piece of code that contains it. -/
def Executes (f : HashFn) (env : Env) (s : State) (i : Instr) : Prop :=
  ∃ k l cs s', steps env code k (.run f.entry [] s) = .run l cs s' ∧ i ∈ (code l).body

/-- The extensions needed for `n` blocks. -/
def needs (f : HashFn) (n : Nat) : List Ext :=
  match f with
  | .sse => [.base, .avx]
  | .avx => if n = 0 then [.base] else [.base, .avx]
  | .avx2 => if n = 0 then [.base] else if n < 8 then [.base, .avx] else [.base, .avx, .avx2]
  | .shani => if n = 0 then [.base] else [.base, .ssse3, .sse41, .sha]

/-- The way of a call. -/
def wayOf (f : HashFn) (n : Nat) : List Label :=
  match f with
  | .sse => [.one]
  | .avx => fourPath n
  | .avx2 => eightPath n
  | .shani => shaniPath n

theorem mem_path (env : Env) (l : Label) : ∀ (m : Nat) (c : Conf), (∃ u, steps env code m c = .done u) →
    (l ∈ path env code m c ↔ ∃ k cs s', steps env code k c = .run l cs s')
  | 0, c, ⟨u, h⟩ => by
    have hc : c = .done u := h
    subst hc
    rw [path_done]
    refine ⟨fun h => absurd h (by simp), fun ⟨k, cs, s', h⟩ => ?_⟩
    rw [steps_done'] at h
    cases h
  | m + 1, c, ⟨u, h⟩ => by
    have ih := mem_path env l m (advance env code c) ⟨u, h⟩
    cases c with
    | run l' cs s =>
      rw [path, List.mem_cons, ih]
      constructor
      · rintro (rfl | ⟨k, cs', s', h'⟩)
        · exact ⟨0, cs, s, rfl⟩
        · exact ⟨k + 1, cs', s', h'⟩
      · rintro ⟨k, cs', s', h'⟩
        cases k with
        | zero => cases h'; exact Or.inl rfl
        | succ k => exact Or.inr ⟨k, cs', s', h'⟩
    | done v =>
      rw [path_done]
      refine ⟨fun h => absurd h (by simp), fun ⟨k, cs, s', h⟩ => ?_⟩
      rw [steps_done'] at h
      cases h
    | fail =>
      rw [steps_fail] at h
      cases h

theorem way_mem {n : Nat} {l₀ : Label} {d : Nat} {p : List Label} (hl : (l₀, d, p) ∈ ways n) {env : Env} {s : State} {t ii oo : Nat}
    (E : Entry env d t ii oo n env.retAddr s) (hn : if l₀ = .one then n = 1 else s.r .rdx = BitVec.ofNat 64 n)
    (hw : l₀ = .shani → 2 ≤ n → env.writable .shaniRw = true) (l : Label) :
    l ∈ p ↔ ∃ k cs s', steps env code k (.run l₀ [] s) = .run l cs s' := by
  obtain ⟨h1, h2⟩ := C58_path hl E hn hw
  rw [← mem_path env l _ _ h1, h2]

theorem properCall_path {f : HashFn} {n : Nat} {env : Env} {s : State} (h : ProperCall f n env s) (l : Label) :
    l ∈ wayOf f n ↔ ∃ k cs s', steps env code k (.run f.entry [] s) = .run l cs s' := by
  obtain ⟨t, ii, oo, hw, h⟩ := h
  have hs : env.writable .shaniRw = true := by rw [hw]; rfl
  cases f with
  | sse => exact way_mem (l₀ := .one) (d := 120) (by simp [ways, wayOf, HashFn.entry]) h.1 rfl (fun h => by cases h) l
  | avx => exact way_mem (l₀ := .four) (d := 536) (by simp [ways, wayOf, HashFn.entry]) h.1 h.2 (fun h => by cases h) l
  | avx2 => exact way_mem (l₀ := .eight) (d := 1720) (by simp [ways, wayOf, HashFn.entry]) h.1 h.2 (fun h => by cases h) l
  | shani => exact way_mem (l₀ := .shani) (d := 0) (by simp [ways, wayOf, HashFn.entry]) h.1 h.2 (fun _ _ => hs) l

/-- The extensions in the pieces of code with the given labels. -/
def extsOf (p : List Label) : List Ext := p.flatMap fun l => (code l).body.map Instr.ext

theorem mem_extsOf (p : List Label) (e : Ext) : e ∈ extsOf p ↔ ∃ l ∈ p, ∃ i ∈ (code l).body, i.ext = e := by
  simp [extsOf]

theorem mem_append_exts (p q : List Label) (e : Ext) : e ∈ extsOf (p ++ q) ↔ e ∈ extsOf p ∨ e ∈ extsOf q := by
  simp [extsOf]

theorem mem_cons_exts (l : Label) (q : List Label) (e : Ext) : e ∈ extsOf (l :: q) ↔ e ∈ extsOf [l] ∨ e ∈ extsOf q :=
  mem_append_exts [l] q e

theorem mem_rep_exts (p : List Label) (k : Nat) (e : Ext) : e ∈ extsOf (rep k p) ↔ k ≠ 0 ∧ e ∈ extsOf p := by
  simp only [mem_extsOf, rep, List.mem_flatten, List.mem_replicate]
  constructor
  · rintro ⟨l, ⟨q, ⟨hk, rfl⟩, h⟩, h'⟩; exact ⟨hk, l, h, h'⟩
  · rintro ⟨hk, l, h, h'⟩; exact ⟨l, ⟨p, ⟨hk, rfl⟩, h⟩, h'⟩

theorem four_exts (n : Nat) (e : Ext) : e ∈ extsOf (fourPath n) ↔ e ∈ needs .avx n := by
  rw [fourPath, mem_cons_exts .four, mem_append_exts, mem_rep_exts, mem_cons_exts .fourLoop, mem_append_exts, mem_rep_exts]
  have h1 : (e ∈ extsOf [.four]) = (e = .base) := by cases e <;> decide +kernel
  have h2 : (e ∈ extsOf [.fourLoop]) = (e = .base) := by cases e <;> decide +kernel
  have h3 : (e ∈ extsOf [.fourTail, .fourDone]) = (e = .base) := by cases e <;> decide +kernel
  have h4 : (e ∈ extsOf fourBatch) = (e = .base ∨ e = .avx) := by cases e <;> decide +kernel
  have h5 : (e ∈ extsOf fourSingle) = (e = .base ∨ e = .avx) := by cases e <;> decide +kernel
  rw [h1, h2, h3, h4, h5, needs]
  by_cases hn : n = 0
  · subst hn; simp
  · have : n / 4 ≠ 0 ∨ n % 4 ≠ 0 := by omega
    rw [if_neg hn]
    cases e <;> simp <;> omega

theorem exts_way (f : HashFn) (n : Nat) (e : Ext) : e ∈ extsOf (wayOf f n) ↔ e ∈ needs f n := by
  cases f with
  | sse => cases e <;> simp only [wayOf, needs] <;> decide +kernel
  | avx => exact four_exts n e
  | avx2 =>
    rw [wayOf, eightPath, mem_cons_exts .eight, mem_append_exts, mem_rep_exts, mem_cons_exts .eightLoop, mem_cons_exts .eightTail, mem_append_exts, four_exts]
    have h1 : (e ∈ extsOf [.eight]) = (e = .base) := by cases e <;> decide +kernel
    have h2 : (e ∈ extsOf [.eightLoop]) = (e = .base) := by cases e <;> decide +kernel
    have h3 : (e ∈ extsOf [.eightTail]) = False := by cases e <;> decide +kernel
    have h4 : (e ∈ extsOf [.eightBack]) = (e = .base) := by cases e <;> decide +kernel
    have h5 : (e ∈ extsOf eightBatch) = (e = .base ∨ e = .avx ∨ e = .avx2) := by cases e <;> decide +kernel
    rw [h1, h2, h3, h4, h5, needs, needs]
    by_cases hn : n = 0
    · subst hn; simp
    · rw [if_neg hn]
      by_cases h8 : n < 8
      · rw [if_pos h8, Nat.mod_eq_of_lt h8, if_neg hn, Nat.div_eq_of_lt h8]
        cases e <;> simp
      · have : n / 8 ≠ 0 := by omega
        rw [if_neg h8]
        by_cases hm : n % 8 = 0
        · rw [if_pos hm]; cases e <;> simp [this]
        · rw [if_neg hm]; cases e <;> simp [this]
  | shani =>
    rw [wayOf, shaniPath, mem_cons_exts .shani, mem_append_exts, mem_rep_exts, mem_cons_exts .shaniLoop (.shaniTail :: _), mem_cons_exts .shaniTail, mem_append_exts, mem_rep_exts]
    have h1 : (e ∈ extsOf [.shani]) = (e = .base) := by cases e <;> decide +kernel
    have h2 : (e ∈ extsOf [.shaniLoop]) = (e = .base) := by cases e <;> decide +kernel
    have h3 : (e ∈ extsOf [.shaniTail]) = (e = .base) := by cases e <;> decide +kernel
    have h4 : (e ∈ extsOf [.shaniDone]) = False := by cases e <;> decide +kernel
    have h5 : (e ∈ extsOf [.shaniLoop, .shaniTwo]) = (e = .base ∨ e = .ssse3 ∨ e = .sse41 ∨ e = .sha) := by cases e <;> decide +kernel
    have h6 : (e ∈ extsOf [.shaniOne]) = (e = .base ∨ e = .ssse3 ∨ e = .sse41 ∨ e = .sha) := by cases e <;> decide +kernel
    rw [h1, h2, h3, h4, h5, h6, needs]
    by_cases hn : n = 0
    · subst hn; simp
    · have : n / 2 ≠ 0 ∨ n % 2 ≠ 0 := by omega
      rw [if_neg hn]
      cases e <;> simp <;> omega

/-- **C27** The extensions of the instructions that a call executes are exactly those in the table `needs`, which depends on the routine and on
the number of blocks only. -/
theorem C27_needs {f : HashFn} {n : Nat} {env : Env} {s : State} (h : ProperCall f n env s) (e : Ext) :
    e ∈ needs f n ↔ ∃ i, Executes f env s i ∧ i.ext = e := by
  rw [← exts_way, mem_extsOf]
  constructor
  · rintro ⟨l, hl, i, hi, he⟩
    obtain ⟨k, cs, s', h'⟩ := (properCall_path h l).1 hl
    exact ⟨i, ⟨k, l, cs, s', h', hi⟩, he⟩
  · rintro ⟨i, ⟨k, l, cs, s', h', hi⟩, he⟩
    exact ⟨l, (properCall_path h l).2 ⟨k, cs, s', h'⟩, i, hi, he⟩

/-- There are calls for every number of blocks below `2 ^ 40`, with every input. -/
theorem properCall_sample (f : HashFn) {n : Nat} (h1 : 1 ≤ n) (hn : n ≤ 2 ^ 40) (inp : List Byte) :
    ∃ env s, ProperCall f n env s := by
  cases f with
  | sse => exact ⟨_, _, 4088, 0, 0, rfl, Sample.entry (j := 0) (w := Region.writable) (by decide) ⟨rfl, rfl⟩ (by decide) (by decide) inp, h1⟩
  | avx => exact ⟨_, _, 4088, 0, 0, rfl, Sample.entry (j := 0) (w := Region.writable) (by decide) ⟨rfl, rfl⟩ hn (by decide) inp, rfl⟩
  | avx2 => exact ⟨_, _, 4088, 0, 0, rfl, Sample.entry (j := 0) (w := Region.writable) (by decide) ⟨rfl, rfl⟩ hn (by decide) inp, rfl⟩
  | shani => exact ⟨_, _, 4088, 0, 0, rfl, Sample.entry (j := 0) (w := Region.writable) (by decide) ⟨rfl, rfl⟩ hn (by decide) inp, rfl⟩

example : ∃ env s, ProperCall .avx2 13 env s := properCall_sample .avx2 (by decide) (by decide) []

/-- The calls of the routine for all numbers of blocks execute only instructions for which `P` holds. -/
def AllCalls (f : HashFn) (P : Ext → Prop) : Prop :=
  ∀ n env s i, ProperCall f n env s → Executes f env s i → P i.ext

theorem allCalls_iff (f : HashFn) (P : Ext → Prop) : AllCalls f P ↔ ∀ e ∈ f.exts, P e := by
  have h8 : ∀ e, e ∈ needs f 8 ↔ e ∈ f.exts := fun e => by cases f <;> exact Iff.rfl
  constructor
  · intro h e he
    obtain ⟨env, s, hc⟩ := properCall_sample f (n := 8) (by decide) (by decide) []
    obtain ⟨i, hi, rfl⟩ := (C27_needs hc e).1 ((h8 e).2 he)
    exact h 8 env s i hc hi
  · intro h n env s i hc hi
    have hm := (C27_needs hc i.ext).2 ⟨i, hi, rfl⟩
    refine h _ ?_
    revert hm
    cases f <;> simp only [needs, HashFn.exts]
    · split <;> simp <;> tauto
    · split
      · simp; tauto
      · split <;> simp <;> tauto
    · split <;> simp <;> tauto
    · exact id

/-- **C27** On a processor for which the default implementation is determined: all the instructions of all calls are reported by the processor
exactly if it reports SSSE3 and SSE4.1 in the case that it reports SHA, and AVX otherwise. The code tests neither condition. -/
theorem C27_supported_iff (cpu : Cpu) (f : HashFn) (h : hasherDefault cpu = .ok f) :
    AllCalls f (fun e => cpu.reports e = true) ↔
      if cpu.reports .sha then cpu.reports .ssse3 = true ∧ cpu.reports .sse41 = true else cpu.reports .avx = true := by
  have hl : 7 ≤ cpu.maxLeaf.toNat := by
    by_contra hc
    rw [C27_uninitialised cpu (by omega)] at h
    cases h
  rw [allCalls_iff]
  rw [C27_preferred cpu hl] at h
  simp only [preference, List.find?] at h
  have hb : cpu.reports .base = true := rfl
  cases hs : cpu.reports .sha
  · cases h2 : cpu.reports .avx2
    · cases h1 : cpu.reports .avx <;> simp only [hs, h2, h1, hb] at h <;> cases h <;> simp [HashFn.exts, hb, h1]
    · simp only [hs, h2] at h; cases h; simp [HashFn.exts, hb, h2]
  · simp only [hs] at h; cases h; simp [HashFn.exts, hb, hs]

example : hasherDefault (sampleCpu 22 0x18080201 0x20000020) = .ok .shani ∧ hasherDefault (sampleCpu 22 0x18080201 0x20) = .ok .avx2 := by decide +kernel

/-- **C27** All the instructions of all calls can be executed, on a processor for which the default implementation is determined, exactly if it
reports SSSE3 and SSE4.1 in the case that it reports SHA, and otherwise reports AVX and the operating system has enabled it. -/
theorem C27_usable_iff (cpu : Cpu) (xcr0 : BitVec 64) (f : HashFn) (h : hasherDefault cpu = .ok f) :
    AllCalls f (fun e => cpu.usable xcr0 e = true) ↔
      if cpu.reports .sha then cpu.reports .ssse3 = true ∧ cpu.reports .sse41 = true else cpu.usable xcr0 .avx = true := by
  have hl : 7 ≤ cpu.maxLeaf.toNat := by
    by_contra hc
    rw [C27_uninitialised cpu (by omega)] at h
    cases h
  rw [allCalls_iff]
  rw [C27_preferred cpu hl] at h
  simp only [preference, List.find?] at h
  have hb : cpu.reports .base = true := rfl
  cases hs : cpu.reports .sha
  · cases h2 : cpu.reports .avx2
    · cases h1 : cpu.reports .avx <;> simp only [hs, h2, h1, hb] at h <;> cases h <;> simp [HashFn.exts, Cpu.usable, hb, h1]
    · simp only [hs, h2] at h; cases h; simp [HashFn.exts, Cpu.usable, hb, h2]
  · simp only [hs] at h; cases h; simp [HashFn.exts, Cpu.usable, hb, hs]

/-- **C27** fails where the operating system has not enabled AVX: on every such processor without SHA, each call of the implementation that the code
selects, for at least one block, executes an instruction that raises an exception. -/
theorem C27_os_support (cpu : Cpu) (xcr0 : BitVec 64) (hl : 7 ≤ cpu.maxLeaf.toNat) (hs : cpu.reports .sha = false)
    (hx : cpu.leaf1.c.getLsbD 27 = false ∨ xcr0.getLsbD 1 = false ∨ xcr0.getLsbD 2 = false) :
    ∃ f, hasherDefault cpu = .ok f ∧ ∀ n env s, 1 ≤ n → ProperCall f n env s → ∃ i, Executes f env s i ∧ cpu.usable xcr0 i.ext = false := by
  have hu : cpu.usable xcr0 .avx = false := by
    rcases hx with h | h | h <;> simp only [Cpu.usable, h, Bool.and_false, Bool.false_and]
  have key : ∀ f, f ≠ .shani → ∀ n env s, 1 ≤ n → ProperCall f n env s → ∃ i, Executes f env s i ∧ cpu.usable xcr0 i.ext = false := by
    intro f hf n env s hn hc
    have hm : Ext.avx ∈ needs f n := by
      cases f
      · exact absurd rfl hf
      · rw [needs, if_neg (by omega)]; split <;> simp
      · rw [needs, if_neg (by omega)]; simp
      · simp [needs]
    obtain ⟨i, hi, he⟩ := (C27_needs hc _).1 hm
    exact ⟨i, hi, by rw [he]; exact hu⟩
  rw [C27_preferred cpu hl]
  simp only [preference, List.find?, hs]
  cases h2 : cpu.reports .avx2
  · cases h1 : cpu.reports .avx
    · exact ⟨.sse, rfl, key _ (by decide)⟩
    · exact ⟨.avx, rfl, key _ (by decide)⟩
  · exact ⟨.avx2, rfl, key _ (by decide)⟩

/- A processor with AVX2 on which the operating system has not enabled it. -/
example : 7 ≤ (sampleCpu 22 0x10080201 0x20).maxLeaf.toNat ∧ (sampleCpu 22 0x10080201 0x20).reports .sha = false ∧
    (sampleCpu 22 0x10080201 0x20).reports .avx2 = true ∧ (sampleCpu 22 0x10080201 0x20).leaf1.c.getLsbD 27 = false := by decide +kernel

end Mammon
