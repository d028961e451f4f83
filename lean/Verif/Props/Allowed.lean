import Verif.Proofs.Needs
import Verif.Props.Sha256
/-!
# C61: what the SHA-256 routines need, exactly

`Called` is `Entry` without the alignment of the stack.
-/

namespace Mammon

open X86 Spec.SHA256

theorem X86.Called.small {env : Env} {d t ii oo n : Nat} {ret : BitVec 64} {s : State} (E : Called env d t ii oo n ret s) : n < 2 ^ 63 := by
  have h1 := E.input
  have h2 := E.valid.fits .input
  omega

/-- **C61** Whatever the program, a piece of it fails exactly if one of its instructions makes an access that is not allowed (outside the regions, a store
to a region that must not be written, or not aligned as the instruction demands), or the call or return at its end does, or it returns to another address
than that of the pending call, or jumps on flags that are not tracked. -/
theorem C61_fails {env : Env} (hs : env.Separate) (code : Label → Block) (l : Label) (cs : List Label) (s : State) (hf : s.fault = false) :
    advance env code (.run l cs s) = .fail ↔ Violates env (code l).body s ∨ (¬ Violates env (code l).body s ∧
      (TermViolates env (exec env (code l).body s) (code l).term ∨
        (¬ TermViolates env (exec env (code l).body s) (code l).term ∧ WrongReturn env cs (exec env (code l).body s) (code l).term) ∨
        Untracked (exec env (code l).body s) (code l).term)) := advance_fail hs code l cs s hf

example (inp : List Byte) : (Sample.env 0 strict 1).Separate ∧ (Sample.state 0 strict 1 inp).fault = false ∧
    Violates (Sample.env 0 strict 1) [.movStore (.reg .rsi 0) .rax] (Sample.state 0 strict 1 inp) := by
  refine ⟨(Sample.valid (by decide) ⟨rfl, rfl⟩ (by decide)).separate, rfl, [], _, [], rfl, _, List.mem_singleton.2 rfl, ?_⟩
  rintro ⟨⟨r, h1, h2, h3⟩, -⟩
  have h3 : (Sample.env 0 strict 1).writable r = true := h3 rfl
  have e : ((exec (Sample.env 0 strict 1) [] (Sample.state 0 strict 1 inp)).ea (Sample.env 0 strict 1) (.reg .rsi 0)).toNat = 2 ^ 48 := by
    have : (exec (Sample.env 0 strict 1) [] (Sample.state 0 strict 1 inp)).ea (Sample.env 0 strict 1) (.reg .rsi 0) =
        (Sample.env 0 strict 1).ptr .input 0 + 0#64 := rfl
    rw [this, BitVec.add_zero]
    decide
  have h1 : Sample.base 0 r ≤ _ := h1
  have h2 : _ + 8 ≤ Sample.base 0 r + Sample.size 1 r := h2
  rw [e] at h1 h2
  cases r with
  | output => simp [Sample.base] at h1
  | stack => simp [Sample.base, Sample.size] at h2
  | _ => cases h3

/-- **C61** `sha256_1_avx`, called in whatever state, makes only allowed accesses exactly if those of `oneNeeds` are allowed. -/
theorem C61_one {env : Env} (hs : env.Separate) (hfit : ∀ r, env.base r + env.size r < 2 ^ 64) (P : Placed env .one) {s : State} (hf : s.fault = false) :
    (exec env (code .one).body s).fault = false ↔ ∀ x ∈ oneNeeds, (x.access s).Allowed env x.al := one_exact hs hfit P hf

example (inp : List Byte) : Placed (Sample.env 0 strict 1) .one ∧ (Sample.state 0 strict 1 inp).fault = false := by
  have h : 64 ∣ (Sample.env 0 strict 1).base .one := by decide
  exact ⟨⟨Nat.mod_eq_zero_of_dvd h, Nat.le_refl _⟩, rfl⟩

/-- **C61** Given everything else, `sha256_1_avx` returns exactly if the stack is aligned as the calling convention demands. -/
theorem C61_one_alignment {env : Env} {s : State} {t ii oo : Nat} (E : Called env 120 t ii oo 1 env.retAddr s) :
    (∃ s', Reaches env code (.run .one [] s) (.done s')) ↔ (env.base .stack + t) % 16 = 8 := by
  have ht := E.top
  constructor
  · rintro ⟨s', h⟩
    refine Decidable.byContradiction fun hc => ?_
    refine fail_not_done (Reaches.one (one_misaligned E.valid.separate ?_)) h
    rw [E.rsp, toNat_ptr E.valid (by omega)]
    exact hc
  · intro h
    obtain ⟨s', h1, -⟩ := C22_one_block ⟨E, h⟩
    exact ⟨s', h1⟩

/-- **C61** Given everything else, `sha256_4_avx` returns exactly if the stack is aligned or there is nothing to do. -/
theorem C61_four_alignment {env : Env} {s : State} {t ii oo n : Nat} (E : Called env 536 t ii oo n env.retAddr s) (hdx : s.r .rdx = BitVec.ofNat 64 n) :
    (∃ s', Reaches env code (.run .four [] s) (.done s')) ↔ n = 0 ∨ (env.base .stack + t) % 16 = 8 := by
  constructor
  · rintro ⟨s', h⟩
    refine Decidable.byContradiction fun hc => ?_
    rw [not_or] at hc
    exact fail_not_done (four_misaligned (cs := []) E hdx E.small (by omega) hc.2) h
  · intro h
    obtain ⟨s', h1, -⟩ := four_of_one (one_spec env) (cs := []) E (fun _ => by omega) hdx E.small
    exact ⟨s', h1.reaches⟩

/-- **C61** `sha256_8_avx2` needs no aligned stack, only 15 bytes more of it: it hashes the blocks whatever the alignment. -/
theorem C61_eight_unaligned {env : Env} {s : State} {t ii oo n : Nat} (E : Called env 1735 t ii oo n env.retAddr s) (hdx : s.r .rdx = BitVec.ofNat 64 n) :
    ∃ s', Reaches env code (.run .eight [] s) (.done s') ∧
      (∀ i, i < n → bytesAt (s'.mem .output) (oo + 32 * i) 32 = sha256 (bytesAt (s.mem .input) (ii + 64 * i) 64)) ∧
      (∀ p, p < oo ∨ oo + 32 * n ≤ p → s'.mem .output p = s.mem .output p) ∧ (∀ p, t ≤ p → s'.mem .stack p = s.mem .stack p) ∧
      ∀ r, r ≠ .output → r ≠ .stack → s'.mem r = s.mem r := by
  obtain ⟨s', h1, h2⟩ := eight_unaligned (cs := []) E hdx E.small
  exact ⟨s', h1.reaches, h2.hash, h2.output, h2.stack, fun r a b => h2.other r a b (by simp)⟩

/-- **C61** Given everything else, and whatever the alignment of the stack, `sha256_shani` returns exactly if its scratch memory may be written or there
are fewer than two blocks. -/
theorem C61_shani_scratch {env : Env} {s : State} {t ii oo n : Nat} (E : Called env 0 t ii oo n env.retAddr s) (hdx : s.r .rdx = BitVec.ofNat 64 n)
    (hz : 64 ≤ env.size .shaniRw) :
    (∃ s', Reaches env code (.run .shani [] s) (.done s')) ↔ n < 2 ∨ env.writable .shaniRw = true := by
  constructor
  · rintro ⟨s', h⟩
    refine Decidable.byContradiction fun hc => ?_
    rw [not_or] at hc
    exact fail_not_done (shani_readonly (cs := []) E hdx E.small (by omega) hz (by simpa using hc.2)) h
  · intro h
    obtain ⟨s', h1, -⟩ := shani_spec (cs := []) E hdx E.small (fun r hr => by
      rw [Shani.owned] at hr
      split at hr
      · simp at hr
      · rw [List.mem_singleton.1 hr]; exact h.resolve_left (by omega))
    exact ⟨s', h1.reaches⟩

/-- The sample call with the stack moved by `m` bytes. -/
def X86.Sample.shifted (m : Nat) (w : Region → Bool) (n : Nat) : Env := { Sample.env 0 w n with base := upd (Sample.base 0) .stack (0x10000 + m) }

/-- A call with a stack of any alignment. -/
example (m : Nat) (hm : m < 16) (n : Nat) (hn : n ≤ 2 ^ 40) (d : Nat) (hd : d ≤ 4088) (inp : List Byte) :
    ∃ s, Called (Sample.shifted m Region.writable n) d 4088 0 0 n (Sample.shifted m Region.writable n).retAddr s ∧ s.r .rdx = BitVec.ofNat 64 n ∧
      64 ≤ (Sample.shifted m Region.writable n).size .shaniRw ∧
      ((Sample.shifted m Region.writable n).base .stack + 4088) % 16 = (m + 8) % 16 := by
  have E := (Sample.entry (j := 0) (by decide) (w := Region.writable) ⟨rfl, rfl⟩ hn hd inp).toCalled
  have hb : ∀ r, r ≠ .stack → (Sample.shifted m Region.writable n).base r = (Sample.env 0 Region.writable n).base r := fun r hr => upd_ne _ _ hr
  have hbs : (Sample.shifted m Region.writable n).base .stack = 0x10000 + m := by
    show upd (Sample.base 0) .stack (0x10000 + m) .stack = _
    rw [upd_same]
  have hsz : (Sample.shifted m Region.writable n).size = (Sample.env 0 Region.writable n).size := rfl
  have hfar : ∀ r, r ≠ .stack → 0x20000 ≤ (Sample.env 0 Region.writable n).base r := fun r hr => by
    cases r <;> simp [Sample.env, Sample.base] at hr ⊢
  have hss : (Sample.env 0 Region.writable n).size .stack = 0x1000 := rfl
  obtain ⟨s, gr, gm, gf⟩ : ∃ s : State, s.r = upd (Sample.state 0 Region.writable n inp).r .rsp ((Sample.shifted m Region.writable n).ptr .stack 4088) ∧
    s.mem = (Sample.state 0 Region.writable n inp).mem ∧ s.fault = false := ⟨(Sample.state 0 Region.writable n inp).setR .rsp _, rfl, rfl, rfl⟩
  refine ⟨s, ⟨⟨fun r => ?_, fun r r' o o' h1 h2 h3 => ?_, rfl, rfl⟩, ⟨fun r hr => ?_, E.loaded.size, E.loaded.sizeRw, by rw [gm]; exact E.loaded.data⟩, gf,
    by rw [gr, upd_same], hd, E.top, by rw [gm]; exact E.ret, ?_, ?_, E.input, E.output⟩, ?_, ?_, ?_⟩
  · rw [hsz]
    by_cases hr : r = .stack
    · subst hr; rw [hbs, hss]; omega
    · rw [hb r hr]; exact E.valid.fits r
  · rw [hsz] at h1 h2
    by_cases hr : r = .stack
    · by_cases hr' : r' = .stack
      · rw [hr, hr']
      · subst hr
        rw [hbs, hb r' hr'] at h3
        have := hfar r' hr'
        rw [hss] at h1
        omega
    · by_cases hr' : r' = .stack
      · subst hr'
        rw [hbs, hb r hr] at h3
        have := hfar r hr
        rw [hss] at h2
        omega
      · rw [hb r hr, hb r' hr'] at h3
        exact E.valid.disjoint r r' o o' h1 h2 h3
  · rw [hb r (by revert r; decide)]; exact E.loaded.align r hr
  · rw [gr, upd_ne _ _ (by decide), E.rdi, Env.ptr, Env.ptr, hb _ (by decide)]
  · rw [gr, upd_ne _ _ (by decide), E.rsi, Env.ptr, Env.ptr, hb _ (by decide)]
  · rw [gr, upd_ne _ _ (by decide)]; rfl
  · show 64 ≤ Sample.size n .shaniRw
    exact Nat.le_refl _
  · rw [hbs]; omega

end Mammon
