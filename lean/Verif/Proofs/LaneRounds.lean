import Verif.Proofs.Lanes
/-!
# The 64 rounds on a block and on the padding, for all lanes
-/

namespace Mammon.X86.Lane
open Spec.SHA256

/-- Rotate the arguments `n` times. -/
def Args.rotN : Nat → Args → Args
  | 0, v => v
  | n + 1, v => rotN n v.rot

theorem Distinct.rotN {k : Cfg} {t1 : X} : ∀ (n : Nat) {v : Args}, Distinct k v t1 → Distinct k (v.rotN n) t1
  | 0, _, h => h
  | n + 1, _, h => Distinct.rotN n h.rot

/-- What does not change during the rounds: the stack frame is at offset `o` of the stack and has its first `hi` bytes for the rounds, the
table of constants is at the start of the section `rg`. -/
structure Lay (env : Env) (k : Cfg) (rg : Region) (o hi : Nat) (mem : Mem) : Prop where
  valid : env.Valid
  notStack : rg ≠ .stack
  round : k.round ≠ .rsp ∧ k.round ≠ .rcx
  scratch : 16 * k.sz ≤ hi
  room : o + hi ≤ env.size .stack
  align : (env.base .stack + o) % k.sz = 0
  size : 64 * k.sz ≤ env.size rg
  table : ∀ j l, j < 64 → l < k.w.lanes → readWord (mem rg) (j * k.sz + 4 * l) = K j

/-- After `j` rounds on the blocks `m 0, m 1, ...` (one per lane), starting from the state `s0`. -/
structure Inv (env : Env) (k : Cfg) (rg : Region) (o hi : Nat) (m : Nat → Nat → Word) (s0 : State) (j : Nat) (v : Args) (s : State) :
    Prop where
  fault : s.fault = false
  regs : ∀ r, r ≠ k.round → s.r r = s0.r r
  round : s.r k.round = BitVec.ofNat 64 (j * k.sz)
  hold : ∀ l, l < k.w.lanes → Hold v s l (rounds (m l) j H0)
  sched : ∀ l, l < k.w.lanes → ∀ t, t < j → j ≤ t + 16 → readWord (s.mem .stack) (o + k.sz * (t % 16) + 4 * l) = W (m l) t
  mem : ∀ r, r ≠ .stack → s.mem r = s0.mem r
  stack : ∀ i, i < o ∨ o + hi ≤ i → s.mem .stack i = s0.mem .stack i

theorem slot_ne {sz a b l n : Nat} (hn : sz = 4 * n) (hl : l < n) (h : a % 16 ≠ b % 16) :
    sz * (a % 16) + 4 * l + 4 ≤ sz * (b % 16) ∨ sz * (b % 16) + 4 * n ≤ sz * (a % 16) + 4 * l := by
  by_cases hab : a % 16 < b % 16
  · left
    have : sz * (a % 16 + 1) ≤ sz * (b % 16) := Nat.mul_le_mul_left _ hab
    rw [Nat.mul_add] at this
    omega
  · right
    have : sz * (b % 16 + 1) ≤ sz * (a % 16) := Nat.mul_le_mul_left _ (by omega)
    rw [Nat.mul_add] at this
    omega

/-- One `ROUND_00_15`. -/
theorem Inv.step {env : Env} {k : Cfg} {rg : Region} {o hi : Nat} {m : Nat → Nat → Word} {s0 s : State} {j i : Nat} {v : Args} {t1 : X}
    (L : Lay env k rg o hi s0.mem) (hsp : s0.r .rsp = env.ptr .stack o) (htbl : s0.r .rcx = env.ptr rg 0) (hd : Distinct k v t1)
    (hI : Inv env k rg o hi m s0 j v s) (hj : j < 64) (hi16 : i % 16 = j % 16) (ht : ∀ l, l < k.w.lanes → s.x t1 l = W (m l) j) :
    Inv env k rg o hi m s0 (j + 1) v.rot (exec env (round0015 k v t1 i) s) ∧
    ∀ x, x ∉ v.d :: v.h :: t1 :: k.scratch → (exec env (round0015 k v t1 i) s).x x = s.x x := by
  have hhi := L.scratch
  have hro := L.room
  have hsz := L.size
  have hm64 : (j + 1) * k.sz ≤ 64 * k.sz := Nat.mul_le_mul_right _ (by omega)
  have h := round0015_spec L.valid hd (s := s) (rg := rg) (o := o) (p := 0) (j := j) i L.notStack L.round
    (by rw [hI.regs _ (Ne.symm L.round.1)]; exact hsp) (by omega) L.align
    (by rw [hI.regs _ (Ne.symm L.round.2)]; exact htbl) hI.round (by omega)
  generalize exec env (round0015 k v t1 i) s = s' at h ⊢
  obtain ⟨hr, hm, hf, hx, hh⟩ := h
  have hsl := slot_le k i
  have hlm := k.lanes_mul
  refine ⟨⟨hf.trans hI.fault, ?_, ?_, ?_, ?_, ?_, ?_⟩, hx⟩
  · intro r h1
    rw [hr, upd_ne _ _ h1]; exact hI.regs r h1
  · rw [hr, upd_same]
  · intro l hl
    have := hh l hl _ (hI.hold l hl)
    rw [rounds, round_eq_rnd, BitVec.add_comm]
    rw [ht l hl, hI.mem _ L.notStack, Nat.zero_add, L.table j l hj hl] at this
    exact this
  · intro l hl t h1 h2
    rw [hm, upd_same]
    by_cases htj : t = j
    · rw [htj, ← hi16, readWord_writeLanes hl]; exact ht l hl
    · rw [readWord_writeLanes_outside]
      · exact hI.sched l hl t (by omega) (by omega)
      · have := slot_ne (a := t) (b := i) (l := l) hlm.symm hl (by omega)
        omega
  · intro r h1
    rw [hm, upd_ne _ _ h1]; exact hI.mem r h1
  · intro p hp
    rw [hm, upd_same, writeLanes_outside (by omega)]
    exact hI.stack p hp

/-- One `ROUND_16_XX`. -/
theorem Inv.step16 {env : Env} {k : Cfg} {rg : Region} {o hi : Nat} {m : Nat → Nat → Word} {s0 s : State} {j i : Nat} {v : Args} {t1 : X}
    (L : Lay env k rg o hi s0.mem) (hsp : s0.r .rsp = env.ptr .stack o) (htbl : s0.r .rcx = env.ptr rg 0) (hd : Distinct k v t1)
    (hI : Inv env k rg o hi m s0 j v s) (hj : j < 64) (hj16 : 16 ≤ j) (hi16 : i % 16 = j % 16) (hi' : 16 ≤ i) :
    Inv env k rg o hi m s0 (j + 1) v.rot (exec env (round16xx k v t1 i) s) := by
  have hhi := L.scratch
  have hro := L.room
  have h := schedule_spec L.valid hd (s := s) (o := o) i (by rw [hI.regs _ (Ne.symm L.round.1)]; exact hsp) (by omega) L.align
  rw [round16xx, exec_append]
  generalize exec env (schedule k t1 i) s = s' at h ⊢
  obtain ⟨hr, hm, hf, hx, hh⟩ := h
  have hI' : Inv env k rg o hi m s0 j v s' := by
    refine ⟨hf.trans hI.fault, fun r h => by rw [hr]; exact hI.regs r h, by rw [hr]; exact hI.round, fun l hl => ?_, ?_, ?_, ?_⟩
    · refine (hI.hold l hl).congr fun x hxr => hx x ?_
      have := hd.regs_scratch x hxr
      simp only [List.mem_cons, not_or]
      exact ⟨this.2, this.1⟩
    · rw [hm]; exact hI.sched
    · rw [hm]; exact hI.mem
    · rw [hm]; exact hI.stack
  refine (hI'.step L hsp htbl hd hj hi16 fun l hl => ?_).1
  rw [hh l hl, W_ge _ hj16]
  rw [show (i - 2) % 16 = (j - 2) % 16 by omega, show (i - 7) % 16 = (j - 7) % 16 by omega, show (i - 15) % 16 = (j - 15) % 16 by omega,
    show (i - 16) % 16 = (j - 16) % 16 by omega, hI.sched l hl _ (by omega) (by omega), hI.sched l hl _ (by omega) (by omega),
    hI.sched l hl _ (by omega) (by omega), hI.sched l hl _ (by omega) (by omega)]

/-- The repeated `ROUND_16_XX`. -/
theorem Inv.steps16 {env : Env} {k : Cfg} {rg : Region} {o hi : Nat} {m : Nat → Nat → Word} {s0 : State} {t1 : X}
    (L : Lay env k rg o hi s0.mem) (hsp : s0.r .rsp = env.ptr .stack o) (htbl : s0.r .rcx = env.ptr rg 0) :
    ∀ (n : Nat) {j i : Nat} {v : Args} {s : State}, Distinct k v t1 → Inv env k rg o hi m s0 j v s → j + n ≤ 64 → 16 ≤ j → i % 16 = j % 16 →
      16 ≤ i → Inv env k rg o hi m s0 (j + n) (v.rotN n) (exec env (rounds16xx k t1 n v i) s)
  | 0, _, _, _, _, _, hI, _, _, _, _ => hI
  | n + 1, j, i, v, s, hd, hI, hj, h16, hij, hi' => by
    rw [rounds16xx, exec_append, show j + (n + 1) = j + 1 + n by omega]
    exact Inv.steps16 L hsp htbl n hd.rot (hI.step16 L hsp htbl hd (by omega) h16 hij hi') (by omega) (by omega) (by omega) (by omega)

/-- After `j` rounds on the padding block, starting from the hash values `d 0, d 1, ...` in the state `s0`. -/
structure PInv (k : Cfg) (d : Nat → HV) (s0 : State) (j : Nat) (v : Args) (s : State) : Prop where
  fault : s.fault = false
  regs : ∀ r, r ≠ k.round → s.r r = s0.r r
  round : s.r k.round = BitVec.ofNat 64 (j * k.sz)
  hold : ∀ l, l < k.w.lanes → Hold v s l (rounds padBlock j (d l))
  mem : s.mem = s0.mem

/-- The table of the padding is at offset `p` of the section `rg`. -/
structure PLay (env : Env) (k : Cfg) (rg : Region) (p : Nat) (mem : Mem) : Prop where
  valid : env.Valid
  round : k.round ≠ .rcx
  align : (env.base rg + p) % k.sz = 0
  size : p + 64 * k.sz ≤ env.size rg
  table : ∀ j l, j < 64 → l < k.w.lanes → readWord (mem rg) (p + j * k.sz + 4 * l) = padWK.getD j 0

/-- The repeated `PADDING_ROUND_00_15`. -/
theorem PInv.steps {env : Env} {k : Cfg} {rg : Region} {p : Nat} {d : Nat → HV} {s0 : State} {t1 : X}
    (L : PLay env k rg p s0.mem) (htbl : s0.r .rcx = env.ptr rg p) :
    ∀ (n : Nat) {j : Nat} {v : Args} {s : State}, Distinct k v t1 → PInv k d s0 j v s → j + n ≤ 64 →
      PInv k d s0 (j + n) (v.rotN n) (exec env (paddingRounds k t1 n v) s)
  | 0, _, _, _, _, hI, _ => hI
  | n + 1, j, v, s, hd, hI, hj => by
    rw [paddingRounds, exec_append, show j + (n + 1) = j + 1 + n by omega]
    refine PInv.steps L htbl n hd.rot ?_ (by omega)
    have hsz := L.size
    have hm64 : (j + 1) * k.sz ≤ 64 * k.sz := Nat.mul_le_mul_right _ (by omega)
    have h := paddingRound_spec L.valid hd (s := s) (rg := rg) (p := p) (j := j) L.align
      (by rw [hI.regs _ (Ne.symm L.round)]; exact htbl) hI.round (by omega)
    generalize exec env (paddingRound k v t1) s = s' at h ⊢
    obtain ⟨hr, hm, hf, hx, hh⟩ := h
    refine ⟨hf.trans hI.fault, ?_, ?_, ?_, hm.trans hI.mem⟩
    · intro r h1
      rw [hr, upd_ne _ _ h1]; exact hI.regs r h1
    · rw [hr, upd_same]
    · intro l hl
      have := hh l hl _ (hI.hold l hl)
      rw [hI.mem, L.table j l (by omega) hl, padWK_getD (by omega)] at this
      rw [rounds, round_eq_rnd]
      exact this

end Mammon.X86.Lane
