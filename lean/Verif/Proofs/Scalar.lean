import Verif.Proofs.Run
import Verif.Proofs.Sha256
/-!
# Interleaved 32-bit arithmetic and vector instructions

In the one-block routine the rounds are done in general registers, and the message schedule in vector registers by instructions in between.
The two kinds do not influence each other.
-/

namespace Mammon.X86
open Spec.SHA256

/-- The 32-bit instructions, with one operand possibly in memory. -/
def sok : Instr → Bool
  | .mov32 _ _ | .load32 _ _ | .add32 _ _ | .addLoad32 _ _ | .xor32 _ _ | .and32 _ _ | .or32 _ _ | .shld32 _ _ _ | .bswap32 _ => true
  | _ => false

/-- Their effect on the lower halves of the registers, where `ld` gives the contents of the memory operands. -/
def sstep (ld : Addr → Word) (f : R → Word) : Instr → R → Word
  | .mov32 d t => upd f d (f t)
  | .load32 d a => upd f d (ld a)
  | .add32 d t => upd f d (f d + f t)
  | .addLoad32 d a => upd f d (f d + ld a)
  | .xor32 d t => upd f d (f d ^^^ f t)
  | .and32 d t => upd f d (f d &&& f t)
  | .or32 d t => upd f d (f d ||| f t)
  | .shld32 d t n => upd f d ((f d <<< n) ||| (f t >>> (32 - n)))
  | .bswap32 d => upd f d (bswap (f d))
  | _ => f

/-- The general register a 32-bit instruction writes. -/
def sdest : Instr → Option R
  | .mov32 d _ | .load32 d _ | .add32 d _ | .addLoad32 d _ | .xor32 d _ | .and32 d _ | .or32 d _ | .shld32 d _ _ | .bswap32 d => some d
  | _ => none

/-- The memory operand. -/
def sload : Instr → Option Addr
  | .load32 _ a | .addLoad32 _ a => some a
  | _ => none

/-- Effect of a sequence. -/
def sexec (ld : Addr → Word) : List Instr → (R → Word) → R → Word
  | [], f => f
  | i :: is, f => sexec ld is (sstep ld f i)

theorem sexec_append (ld : Addr → Word) (a b : List Instr) (f : R → Word) : sexec ld (a ++ b) f = sexec ld b (sexec ld a f) := by
  induction a generalizing f with
  | nil => rfl
  | cons i a ih => exact ih _

theorem sstep_other {ld : Addr → Word} {f : R → Word} {i : Instr} {r : R} (h : sdest i ≠ some r) : sstep ld f i r = f r := by
  cases i <;> first | rfl | exact upd_ne _ _ fun e => h (by rw [e]; rfl)

theorem sexec_other {ld : Addr → Word} {r : R} : ∀ (is : List Instr) {f : R → Word}, (∀ i ∈ is, sdest i ≠ some r) → sexec ld is f r = f r
  | [], _, _ => rfl
  | i :: is, _, h => (sexec_other is fun j hj => h j (List.mem_cons_of_mem _ hj)).trans (sstep_other (h i List.mem_cons_self))

/-- The vector instructions on registers that occur between the 32-bit ones. -/
def isVec : Instr → Bool
  | .vmov _ _ _ | .vop _ _ _ _ _ | .vshift _ _ _ _ _ | .vpshufb _ _ _ _ | .vpshufd _ _ _ _ | .vpalignr _ _ _ _ _ => true
  | _ => false

theorem isVec_vstep {i : Instr} (h : isVec i = true) (f : X → Lanes) : ∃ g, vstep f i = some g := by
  cases i <;> first | exact ⟨_, rfl⟩ | cases h

/-- The vector instructions of a sequence. -/
def vpart (is : List Instr) : List Instr := is.filter isVec
/-- The 32-bit instructions of a sequence. -/
def spart (is : List Instr) : List Instr := is.filter sok

theorem vexec_isVec : ∀ (is : List Instr) (f : X → Lanes), is.all isVec = true → ∃ g, vexec is f = some g
  | [], f, _ => ⟨f, rfl⟩
  | i :: is, f, h => by
    rw [List.all_cons, Bool.and_eq_true] at h
    obtain ⟨g, hg⟩ := isVec_vstep h.1 f
    obtain ⟨g', hg'⟩ := vexec_isVec is g h.2
    exact ⟨g', by rw [vexec, hg]; exact hg'⟩

theorem vregs_cons {i : Instr} {is : List Instr} {f g : X → Lanes} (hi : vstep f i = some g) (h : is.all isVec = true) :
    vregs (i :: is) f = vregs is g := by
  obtain ⟨g', hg'⟩ := vexec_isVec is g h
  rw [vregs, vregs, vexec, hi]
  show (vexec is g).getD f = _
  rw [hg']; rfl

theorem all_vpart (is : List Instr) : (vpart is).all isVec = true := by
  rw [vpart, List.all_eq_true]
  intro i hi
  exact (List.mem_filter.mp hi).2

theorem get32_setR32 (s : State) (d : R) (w : Word) : (s.setR32 d w).get32 = upd s.get32 d w := by
  funext r
  simp only [State.get32, State.setR32, State.setR, upd]
  split
  · exact BitVec.setWidth_setWidth_of_le _ (by decide)
  · rfl

theorem read1 (env : Env) (s : State) (a : Addr) (h : env.canRead (s.ea env a) 1 = true) :
    s.vread env .dqu 1 a = (s, env.read s.mem (s.ea env a) 1) := by
  simp only [State.vread, h, aligned_dqu, Bool.and_self, check_true]

/-- A 32-bit instruction. -/
theorem step_sok {env : Env} {ld : Addr → Word} {i : Instr} (h : sok i = true) {s : State}
    (hl : ∀ a, sload i = some a → env.canRead (s.ea env a) 1 = true ∧ env.read s.mem (s.ea env a) 1 0 = ld a) :
    (step env s i).x = s.x ∧ (step env s i).get32 = sstep ld s.get32 i ∧ (step env s i).mem = s.mem ∧ (step env s i).fault = s.fault ∧
    ∀ r, sdest i ≠ some r → (step env s i).r r = s.r r := by
  have hr : ∀ (d : R) (w : Word) (r : R), some d ≠ some r → (s.setR32 d w).r r = s.r r := fun d w r hne =>
    upd_ne _ _ fun e => hne (by rw [e])
  cases i <;> first | cases h | skip
  case load32 d a =>
    obtain ⟨h1, h2⟩ := hl a rfl
    have e : step env s (.load32 d a) = s.setR32 d (ld a) := by
      simp only [step, read1 env s a h1, h2]
    rw [e]
    exact ⟨rfl, get32_setR32 _ _ _, rfl, rfl, fun r hne => hr _ _ r hne⟩
  case addLoad32 d a =>
    obtain ⟨h1, h2⟩ := hl a rfl
    have e : step env s (.addLoad32 d a) = (s.setR32 d (s.get32 d + ld a)).clobber := by
      simp only [step, read1 env s a h1, h2]
    rw [e]
    exact ⟨rfl, get32_setR32 _ _ _, rfl, rfl, fun r hne => hr _ _ r hne⟩
  all_goals exact ⟨rfl, get32_setR32 _ _ _, rfl, rfl, fun r hne => hr _ _ r hne⟩

/-- A mixed sequence whose memory operands are relative to one base register that is not written. -/
theorem exec_mix {env : Env} {ld : Addr → Word} {b : R} : ∀ (is : List Instr) {s : State}, is.all (fun i => sok i || isVec i) = true →
    (∀ i ∈ is, sdest i ≠ some b) →
    (∀ i ∈ is, ∀ a, sload i = some a → ∃ k, a = .reg b k ∧ env.canRead (s.r b + BitVec.ofNat 64 k) 1 = true ∧
      env.read s.mem (s.r b + BitVec.ofNat 64 k) 1 0 = ld a) →
    (exec env is s).x = vregs (vpart is) s.x ∧ (exec env is s).get32 = sexec ld (spart is) s.get32 ∧ (exec env is s).mem = s.mem ∧
    (exec env is s).fault = s.fault ∧ ∀ r, (∀ i ∈ is, sdest i ≠ some r) → (exec env is s).r r = s.r r
  | [], s, _, _, _ => ⟨rfl, rfl, rfl, rfl, fun _ _ => rfl⟩
  | i :: is, s, h, hb, hl => by
    rw [List.all_cons, Bool.and_eq_true, Bool.or_eq_true] at h
    by_cases hv : isVec i = true
    · obtain ⟨g, hg⟩ := isVec_vstep hv s.x
      have hn : sok i = false := by cases i <;> first | rfl | cases hv
      have hd : sdest i = none := by cases i <;> first | rfl | cases hv
      have e : step env s i = { s with x := g } := step_vstep hg
      obtain ⟨h1, h2, h3, h4, h5⟩ := exec_mix (env := env) (ld := ld) (b := b) is (s := { s with x := g }) h.2
        (fun j hj => hb j (List.mem_cons_of_mem _ hj)) (fun j hj => hl j (List.mem_cons_of_mem _ hj))
      rw [exec_cons, e]
      refine ⟨?_, ?_, h3, h4, fun r hr => h5 r fun j hj => hr j (List.mem_cons_of_mem _ hj)⟩
      · rw [h1, show vpart (i :: is) = i :: vpart is from List.filter_cons_of_pos hv, vregs_cons hg (all_vpart is)]
      · rw [h2, spart, spart, List.filter_cons_of_neg (by rw [hn]; decide)]; rfl
    · have hs : sok i = true := h.1.resolve_right hv
      have hstep := step_sok (env := env) (ld := ld) hs (s := s) fun a ha => by
        obtain ⟨k, rfl, h1, h2⟩ := hl i List.mem_cons_self a ha
        exact ⟨h1, h2⟩
      obtain ⟨g1, g2, g3, g4, g5⟩ := hstep
      have hbr : (step env s i).r b = s.r b := g5 b (hb i List.mem_cons_self)
      obtain ⟨h1, h2, h3, h4, h5⟩ := exec_mix (env := env) (ld := ld) (b := b) is (s := step env s i) h.2
        (fun j hj => hb j (List.mem_cons_of_mem _ hj)) (fun j hj a ha => by
          rw [hbr, g3]; exact hl j (List.mem_cons_of_mem _ hj) a ha)
      rw [exec_cons]
      refine ⟨?_, ?_, h3.trans g3, h4.trans g4, fun r hr => (h5 r fun j hj => hr j (List.mem_cons_of_mem _ hj)).trans
        (g5 r (hr i List.mem_cons_self))⟩
      · rw [h1, g1, vpart, vpart, List.filter_cons_of_neg hv]
      · rw [h2, g2, spart, spart, List.filter_cons_of_pos hs]; rfl

/-! ## Sequences of stores, pushes and pops -/

theorem step_store32 {env : Env} (hv : env.Valid) {s : State} (t : R) {a : Addr} {r : Region} {o : Nat} (ha : s.ea env a = env.ptr r o)
    (h : o + 4 ≤ env.size r) (hr : env.writable r = true) :
    step env s (.store32 a t) = { s with mem := upd s.mem r (writeLanes 1 (s.mem r) o fun _ => s.get32 t) } := by
  simp only [step, State.vwrite, ha, canWrite_ptr hv (r := r) (o := o) (n := 1) (by decide) (by omega), aligned_dqu,
    write_ptr hv _ _ (r := r) (o := o) (n := 1) (by decide) (by omega), hr, Bool.and_self, Bool.not_true, Bool.or_false]

/-- Store 32-bit registers at consecutive offsets. -/
def stSeq (b : R) : Nat → List R → List Instr
  | _, [] => []
  | d, t :: ts => .store32 (.reg b d) t :: stSeq b (d + 4) ts

theorem stSeq_spec {env : Env} (hv : env.Valid) {b : R} {r : Region} {o : Nat} (hr : env.writable r = true) : ∀ (ts : List R) (d : Nat) {s : State},
    s.r b = env.ptr r o → o + d + 4 * ts.length ≤ env.size r →
    (exec env (stSeq b d ts) s).r = s.r ∧ (exec env (stSeq b d ts) s).x = s.x ∧ (exec env (stSeq b d ts) s).fault = s.fault ∧
    (∀ q, q ≠ r → (exec env (stSeq b d ts) s).mem q = s.mem q) ∧
    (∀ i, i < o + d ∨ o + d + 4 * ts.length ≤ i → (exec env (stSeq b d ts) s).mem r i = s.mem r i) ∧
    ∀ i (h : i < ts.length), readWord ((exec env (stSeq b d ts) s).mem r) (o + d + 4 * i) = s.get32 ts[i]
  | [], _, _, _, _ => ⟨rfl, rfl, rfl, fun _ _ => rfl, fun _ _ => rfl, fun _ h => absurd h (by simp)⟩
  | t :: ts, d, s, hb, hroom => by
    rw [List.length_cons] at hroom
    rw [stSeq, exec_cons, step_store32 hv t (r := r) (o := o + d) (ea_reg hb d) (by omega) hr]
    have h := stSeq_spec hv (b := b) (r := r) (o := o) hr ts (d + 4)
      (s := { s with mem := upd s.mem r (writeLanes 1 (s.mem r) (o + d) fun _ => s.get32 t) }) hb (by omega)
    generalize exec env (stSeq b (d + 4) ts) _ = s' at h ⊢
    obtain ⟨h1, h2, h3, h4, h5, h6⟩ := h
    refine ⟨h1, h2, h3, fun q hq => (h4 q hq).trans (upd_ne _ _ hq), fun i hi => ?_, fun i hi => ?_⟩
    · rw [List.length_cons] at hi
      refine (h5 i (by omega)).trans ((congrFun (upd_same s.mem _ _) i).trans (writeLanes_outside (by omega)))
    · match i with
      | 0 =>
        show readWord (s'.mem r) (o + d + 0) = s.get32 t
        rw [readWord_congr (m' := writeLanes 1 (s.mem r) (o + d) fun _ => s.get32 t) fun i h7 h8 =>
          (h5 i (by omega)).trans (congrFun (upd_same s.mem _ _) i)]
        exact readWord_writeLanes (n := 1) (l := 0) (by decide)
      | i + 1 =>
        rw [show o + d + 4 * (i + 1) = o + (d + 4) + 4 * i by omega]
        exact h6 i _

theorem not_mem_cons {α : Type} {a b : α} {l : List α} (h : a ∉ b :: l) : a ≠ b ∧ a ∉ l := by
  rw [List.mem_cons, not_or] at h; exact h

/-- Push registers, the first one first. -/
def pushSeq (ts : List R) : List Instr := ts.map .push

theorem pushSeq_spec {env : Env} (hv : env.Valid) : ∀ (ts : List R) {s : State} {t : Nat}, s.r .rsp = env.ptr .stack t → 8 * ts.length ≤ t →
    t ≤ env.size .stack → R.rsp ∉ ts →
    (exec env (pushSeq ts) s).x = s.x ∧ (exec env (pushSeq ts) s).fault = s.fault ∧
    (exec env (pushSeq ts) s).r .rsp = env.ptr .stack (t - 8 * ts.length) ∧ (∀ r, r ≠ .rsp → (exec env (pushSeq ts) s).r r = s.r r) ∧
    (∀ q, q ≠ .stack → (exec env (pushSeq ts) s).mem q = s.mem q) ∧
    (∀ i, i < t - 8 * ts.length ∨ t ≤ i → (exec env (pushSeq ts) s).mem .stack i = s.mem .stack i) ∧
    ∀ i (h : i < ts.length), readQuad ((exec env (pushSeq ts) s).mem .stack) (t - 8 * (i + 1)) = s.r ts[i]
  | [], _, _, hsp, _, _, _ => ⟨rfl, rfl, hsp, fun _ _ => rfl, fun _ _ => rfl, fun _ _ => rfl, fun _ h => absurd h (by simp)⟩
  | r :: ts, s, t, hsp, hlen, hsz, hn => by
    rw [List.length_cons] at hlen
    obtain ⟨o, rfl⟩ : ∃ o, t = o + 8 := ⟨t - 8, by omega⟩
    have hn' := not_mem_cons hn
    rw [pushSeq, List.map_cons, exec_cons, step_push hv r hsp (by omega)]
    obtain ⟨s1, hs1⟩ : ∃ s1 : State, ({ s with mem := upd s.mem .stack (writeLanes 2 (s.mem .stack) o (lanes64 (s.r r))) } :
      State).setR .rsp (env.ptr .stack o) = s1 := ⟨_, rfl⟩
    have g1 : s1.r = upd s.r .rsp (env.ptr .stack o) := by rw [← hs1]; rfl
    have g2 : s1.mem = upd s.mem .stack (writeLanes 2 (s.mem .stack) o (lanes64 (s.r r))) := by rw [← hs1]; rfl
    have g3 : s1.x = s.x := by rw [← hs1]; rfl
    have g4 : s1.fault = s.fault := by rw [← hs1]; rfl
    rw [hs1]
    clear hs1
    have h := pushSeq_spec hv ts (s := s1) (t := o) (by rw [g1, upd_same]) (by omega) (by omega) hn'.2
    rw [pushSeq] at h
    generalize exec env (ts.map .push) _ = s' at h ⊢
    obtain ⟨h1, h2, h3, h4, h5, h6, h7⟩ := h
    refine ⟨h1.trans g3, h2.trans g4, ?_, fun q hq => ?_, fun q hq => ?_, fun i hi => ?_, fun i hi => ?_⟩
    · rw [h3, List.length_cons]; congr 1; omega
    · rw [h4 q hq, g1, upd_ne _ _ hq]
    · rw [h5 q hq, g2, upd_ne _ _ hq]
    · rw [List.length_cons] at hi
      rw [h6 i (by omega), g2, upd_same, writeLanes_outside (by omega)]
    · match i with
      | 0 =>
        show readQuad (s'.mem .stack) (o + 8 - 8) = s.r r
        rw [Nat.add_sub_cancel, readQuad_congr (m' := writeLanes 2 (s.mem .stack) o (lanes64 (s.r r))) (o := o) fun i h7 h8 => by
          rw [h6 i (by omega), g2, upd_same]]
        exact readQuad_writeLanes _ _ _
      | i + 1 =>
        have hi' : i < ts.length := by simpa using hi
        rw [show o + 8 - 8 * (i + 1 + 1) = o - 8 * (i + 1) by omega]
        rw [h7 i hi', g1, upd_ne _ _ fun e => hn'.2 (by rw [← e]; exact List.getElem_mem _)]
        rfl

/-- Pop registers. -/
def popSeq (ts : List R) : List Instr := ts.map .pop

theorem popSeq_spec {env : Env} (hv : env.Valid) : ∀ (ts : List R) {s : State} {o : Nat}, s.r .rsp = env.ptr .stack o →
    o + 8 * ts.length ≤ env.size .stack → R.rsp ∉ ts → ts.Nodup →
    (exec env (popSeq ts) s).x = s.x ∧ (exec env (popSeq ts) s).fault = s.fault ∧ (exec env (popSeq ts) s).mem = s.mem ∧
    (exec env (popSeq ts) s).r .rsp = env.ptr .stack (o + 8 * ts.length) ∧
    (∀ r, r ≠ .rsp → r ∉ ts → (exec env (popSeq ts) s).r r = s.r r) ∧
    ∀ i (h : i < ts.length), (exec env (popSeq ts) s).r ts[i] = readQuad (s.mem .stack) (o + 8 * i)
  | [], _, _, hsp, _, _, _ => ⟨rfl, rfl, rfl, hsp, fun _ _ _ => rfl, fun _ h => absurd h (by simp)⟩
  | r :: ts, s, o, hsp, hroom, hn, hd => by
    rw [List.length_cons] at hroom
    have hn' := not_mem_cons hn
    have hd' := List.nodup_cons.mp hd
    rw [popSeq, List.map_cons, exec_cons, step_pop hv r hsp (by omega)]
    have h := popSeq_spec hv ts (s := (s.setR .rsp (env.ptr .stack (o + 8))).setR r (of64 fun l => readWord (s.mem .stack) (o + 4 * l)))
      (o := o + 8) ((upd_ne (upd s.r .rsp (env.ptr .stack (o + 8))) _ hn'.1).trans (upd_same s.r _ _)) (by omega) hn'.2 hd'.2
    rw [popSeq] at h
    generalize exec env (ts.map .pop) _ = s' at h ⊢
    obtain ⟨h1, h2, h3, h4, h5, h6⟩ := h
    refine ⟨h1, h2, h3, ?_, fun q hq hq' => ?_, fun i hi => ?_⟩
    · rw [h4, List.length_cons]; congr 1; omega
    · have hq'' := not_mem_cons hq'
      exact (h5 q hq hq''.2).trans ((upd_ne (upd s.r .rsp (env.ptr .stack (o + 8))) _ hq''.1).trans (upd_ne s.r _ hq))
    · match i with
      | 0 =>
        show s'.r r = _
        exact (h5 r (Ne.symm hn'.1) hd'.1).trans (upd_same (upd s.r .rsp (env.ptr .stack (o + 8))) _ _)
      | i + 1 =>
        rw [show o + 8 * (i + 1) = o + 8 + 8 * i by omega]
        exact h6 i (by simpa using hi)

end Mammon.X86
