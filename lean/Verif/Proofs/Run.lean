import Verif.Spec.Trace
import Verif.Proofs.X86
/-!
# Control flow, scalar loads and stores, sequences of vector loads and stores
-/

namespace Mammon.X86

theorem steps_add (env : Env) (code : Label → Block) (m n : Nat) (c : Conf) :
    steps env code (m + n) c = steps env code n (steps env code m c) := by
  induction m generalizing c with
  | zero => rw [Nat.zero_add]; rfl
  | succ m ih => rw [Nat.add_right_comm]; exact ih _

theorem Reaches.refl (env : Env) (code : Label → Block) (c : Conf) : Reaches env code c c := ⟨0, rfl⟩

theorem Reaches.trans {env : Env} {code : Label → Block} {a b c : Conf} (h : Reaches env code a b) (h' : Reaches env code b c) :
    Reaches env code a c := by
  obtain ⟨m, hm⟩ := h
  obtain ⟨n, hn⟩ := h'
  exact ⟨m + n, by rw [steps_add, hm, hn]⟩

theorem Reaches.one {env : Env} {code : Label → Block} {a b : Conf} (h : advance env code a = b) : Reaches env code a b := ⟨1, h⟩

/-- Execution from `c` arrives at `c'` by way of the labels `p`. -/
def Steps (env : Env) (code : Label → Block) (p : List Label) (c c' : Conf) : Prop := steps env code p.length c = c' ∧ path env code p.length c = p

theorem Steps.refl (env : Env) (code : Label → Block) (c : Conf) : Steps env code [] c c := ⟨rfl, by cases c <;> rfl⟩

theorem Steps.one {env : Env} {code : Label → Block} {l : Label} {cs : List Label} {s : State} {b : Conf} (h : advance env code (.run l cs s) = b) :
    Steps env code [l] (.run l cs s) b := ⟨h, by show l :: path env code 0 _ = _; cases advance env code (.run l cs s) <;> rfl⟩

theorem path_done (env : Env) (code : Label → Block) (m : Nat) (s : State) : path env code m (.done s) = [] := by cases m <;> rfl
theorem path_fail (env : Env) (code : Label → Block) (m : Nat) : path env code m .fail = [] := by cases m <;> rfl

theorem steps_done' (env : Env) (code : Label → Block) (s : State) : ∀ k, steps env code k (.done s) = .done s
  | 0 => rfl
  | k + 1 => steps_done' env code s k

theorem steps_fail (env : Env) (code : Label → Block) : ∀ k, steps env code k .fail = .fail
  | 0 => rfl
  | k + 1 => steps_fail env code k

theorem path_add (env : Env) (code : Label → Block) (m n : Nat) (c : Conf) :
    path env code (m + n) c = path env code m c ++ path env code n (steps env code m c) := by
  induction m generalizing c with
  | zero => rw [Nat.zero_add]; cases c <;> rfl
  | succ m ih =>
    rw [Nat.add_right_comm]
    cases c with
    | run l cs s => rw [path, path, ih]; rfl
    | done s => rw [steps_done', path_done, path_done, path_done]; rfl
    | fail => rw [steps_fail, path_fail, path_fail, path_fail]; rfl

theorem Steps.trans {env : Env} {code : Label → Block} {p q : List Label} {a b c : Conf} (h : Steps env code p a b) (h' : Steps env code q b c) :
    Steps env code (p ++ q) a c := by
  rw [Steps, List.length_append, steps_add, path_add, h.1, h'.1, h.2, h'.2]
  exact ⟨rfl, rfl⟩

theorem Steps.cast {env : Env} {code : Label → Block} {p q : List Label} {a b : Conf} (h : Steps env code p a b) (e : p = q) : Steps env code q a b := e ▸ h

theorem Steps.reaches {env : Env} {code : Label → Block} {p : List Label} {a b : Conf} (h : Steps env code p a b) : Reaches env code a b := ⟨_, h.1⟩

theorem rep_succ (n : Nat) (p : List Label) : rep (n + 1) p = p ++ rep n p := by rw [rep, List.replicate_succ, List.flatten_cons]; rfl
theorem rep_zero (p : List Label) : rep 0 p = [] := rfl

/-- A piece of code that does not fault. -/
theorem advance_run {env : Env} {code : Label → Block} {l : Label} {cs : List Label} {s s' : State} {b : List Instr} {tm : Term}
    (hc : code l = ⟨b, tm⟩) (he : exec env b s = s') (hf : s'.fault = false) : advance env code (.run l cs s) = finish env cs s' tm := by
  simp only [advance, hc, he, hf, Bool.false_eq_true, if_false]

theorem finish_ret {env : Env} (hv : env.Valid) {cs : List Label} {s : State} {t : Nat} (hf : s.fault = false)
    (hsp : s.r .rsp = env.ptr .stack t) (ht : t + 8 ≤ env.size .stack)
    (hret : of64 (fun l => readWord (s.mem .stack) (t + 4 * l)) = retTo env cs) :
    finish env cs s .ret = back (s.setR .rsp (env.ptr .stack (t + 8))) cs := by
  have hea : s.ea env (.reg .rsp 0) = env.ptr .stack t := ea_reg hsp 0
  have h8 : s.r .rsp + 8 = env.ptr .stack (t + 8) := by rw [hsp]; exact ptr_add env .stack t 8
  simp only [finish, State.vread, hea, canRead_ptr hv (r := .stack) (o := t) (n := 2) (by decide) (by omega), aligned_dqu,
    read_ptr hv _ (r := .stack) (o := t) (n := 2) (by decide) (by omega), Bool.and_self, check_true, h8, hret]
  have : (s.setR .rsp (env.ptr .stack (t + 8))).fault = false := hf
  rw [if_neg (by rw [this]; decide)]
  cases cs <;> simp only [retTo, back, if_true]

theorem finish_call {env : Env} (hv : env.Valid) {cs : List Label} {s : State} {o : Nat} {tgt next : Label} (hf : s.fault = false)
    (hsp : s.r .rsp = env.ptr .stack (o + 8)) (ho : o + 8 ≤ env.size .stack) :
    finish env cs s (.call tgt next) = .run tgt (next :: cs)
      ({ s with mem := upd s.mem .stack (writeLanes 2 (s.mem .stack) o (lanes64 (env.codeAddr next))) }.setR .rsp (env.ptr .stack o)) := by
  have h8 : s.r .rsp - 8 = env.ptr .stack o := by
    rw [hsp]; exact (ptr_sub env .stack (o + 8) 8 (by omega)).trans (by rw [Nat.add_sub_cancel])
  simp only [finish, State.vwrite, h8, canWrite_ptr hv (r := .stack) (o := o) (n := 2) (by decide) (by omega), aligned_dqu,
    write_ptr hv _ _ (r := .stack) (o := o) (n := 2) (by decide) (by omega), Bool.and_self, hv.stack,
    Bool.not_true, Bool.or_false, State.setR, hf, Bool.false_eq_true, if_false]

theorem finish_jb_cmp (env : Env) (cs : List Label) (s : State) (t : R) (n : Nat) (a b : Label) :
    finish env cs (step env s (.cmpImm t n)) (.jb a b) =
      .run (if (s.r t).ult (BitVec.ofNat 64 n) then a else b) cs (step env s (.cmpImm t n)) := rfl

theorem finish_jl_cmp (env : Env) (cs : List Label) (s : State) (t : R) (n : Nat) (a b : Label) :
    finish env cs (step env s (.cmpImm t n)) (.jl a b) =
      .run (if (s.r t).slt (BitVec.ofNat 64 n) then a else b) cs (step env s (.cmpImm t n)) := rfl

theorem finish_jz_test (env : Env) (cs : List Label) (s : State) (t : R) (a b : Label) :
    finish env cs (step env s (.test t t)) (.jz a b) = .run (if s.r t = 0 then a else b) cs (step env s (.test t t)) := by
  simp only [finish, branch, step, BitVec.and_self, beq_iff_eq]

theorem step_movStore {env : Env} (hv : env.Valid) {s : State} (t : R) {a : Addr} {r : Region} {o : Nat}
    (ha : s.ea env a = env.ptr r o) (h : o + 8 ≤ env.size r) (hr : env.writable r = true) :
    step env s (.movStore a t) = { s with mem := upd s.mem r (writeLanes 2 (s.mem r) o (lanes64 (s.r t))) } := by
  simp only [step, State.vwrite, ha, canWrite_ptr hv (r := r) (o := o) (n := 2) (by decide) (by omega), aligned_dqu,
    write_ptr hv _ _ (r := r) (o := o) (n := 2) (by decide) (by omega), hr, Bool.and_self, Bool.not_true, Bool.or_false]

theorem step_movLoad {env : Env} (hv : env.Valid) {s : State} (d : R) {a : Addr} {r : Region} {o : Nat}
    (ha : s.ea env a = env.ptr r o) (h : o + 8 ≤ env.size r) :
    step env s (.movLoad d a) = s.setR d (of64 fun l => readWord (s.mem r) (o + 4 * l)) := by
  simp only [step, State.vread, ha, canRead_ptr hv (r := r) (o := o) (n := 2) (by decide) (by omega), aligned_dqu,
    read_ptr hv _ (r := r) (o := o) (n := 2) (by decide) (by omega), Bool.and_self, check_true]

theorem step_push {env : Env} (hv : env.Valid) {s : State} (t : R) {o : Nat} (hsp : s.r .rsp = env.ptr .stack (o + 8))
    (h : o + 8 ≤ env.size .stack) :
    step env s (.push t) =
      { s with mem := upd s.mem .stack (writeLanes 2 (s.mem .stack) o (lanes64 (s.r t))) }.setR .rsp (env.ptr .stack o) := by
  have h8 : s.r .rsp - 8 = env.ptr .stack o := by
    rw [hsp]; exact (ptr_sub env .stack (o + 8) 8 (by omega)).trans (by rw [Nat.add_sub_cancel])
  simp only [step, State.vwrite, h8, canWrite_ptr hv (r := .stack) (o := o) (n := 2) (by decide) (by omega), aligned_dqu,
    write_ptr hv _ _ (r := .stack) (o := o) (n := 2) (by decide) (by omega), Bool.and_self, hv.stack,
    Bool.not_true, Bool.or_false]

theorem step_pop {env : Env} (hv : env.Valid) {s : State} (d : R) {o : Nat} (hsp : s.r .rsp = env.ptr .stack o)
    (h : o + 8 ≤ env.size .stack) :
    step env s (.pop d) = (s.setR .rsp (env.ptr .stack (o + 8))).setR d (of64 fun l => readWord (s.mem .stack) (o + 4 * l)) := by
  have hea : s.ea env (.reg .rsp 0) = env.ptr .stack o := ea_reg hsp 0
  have h8 : s.r .rsp + 8 = env.ptr .stack (o + 8) := by rw [hsp]; exact ptr_add env .stack o 8
  simp only [step, State.vread, hea, canRead_ptr hv (r := .stack) (o := o) (n := 2) (by decide) (by omega), aligned_dqu,
    read_ptr hv _ (r := .stack) (o := o) (n := 2) (by decide) (by omega), Bool.and_self, check_true, h8]

/-! ## 64-bit values on the stack -/

/-- The 64-bit value at an offset. -/
def readQuad (m : Nat → Byte) (o : Nat) : BitVec 64 := of64 fun l => readWord m (o + 4 * l)

theorem readQuad_congr {m m' : Nat → Byte} {o : Nat} (h : ∀ i, o ≤ i → i < o + 8 → m i = m' i) : readQuad m o = readQuad m' o := by
  rw [readQuad, readQuad, of64, of64, readWord_congr fun i _ _ => h i (by omega) (by omega), readWord_congr fun i _ _ => h i (by omega) (by omega)]

theorem readQuad_writeLanes (m : Nat → Byte) (o : Nat) (v : BitVec 64) : readQuad (writeLanes 2 m o (lanes64 v)) o = v := by
  rw [readQuad, of64]
  rw [readWord_writeLanes (by decide), readWord_writeLanes (by decide)]
  exact of64_lanes64 v

theorem readQuad_writeLanes_outside {n : Nat} {m : Nat → Byte} {o : Nat} {v : Lanes} {p : Nat} (h : p + 8 ≤ o ∨ o + 4 * n ≤ p) :
    readQuad (writeLanes n m o v) p = readQuad m p :=
  readQuad_congr fun i _ _ => writeLanes_outside (by omega)

/-! ## Sequences of vector loads and stores at consecutive offsets -/

/-- Load consecutive vectors. -/
def loadSeq (m : Mov) (w : Width) (b : R) : Nat → List X → List Instr
  | _, [] => []
  | d, x :: xs => .vload m w x (.reg b d) :: loadSeq m w b (d + 4 * w.lanes) xs

/-- Add consecutive vectors. -/
def addSeq (w : Width) (b : R) : Nat → List X → List Instr
  | _, [] => []
  | d, x :: xs => .vopLoad .paddd w x x (.reg b d) :: addSeq w b (d + 4 * w.lanes) xs

/-- Store consecutive vectors. -/
def storeSeq (m : Mov) (w : Width) (b : R) : Nat → List X → List Instr
  | _, [] => []
  | d, x :: xs => .vstore m w (.reg b d) x :: storeSeq m w b (d + 4 * w.lanes) xs

theorem loadSeq_spec {env : Env} (hv : env.Valid) {m : Mov} {w : Width} {b : R} {r : Region} {o : Nat} :
    ∀ (xs : List X) (d : Nat) {s : State}, xs.Nodup → s.r b = env.ptr r o → o + d + 4 * w.lanes * xs.length ≤ env.size r →
      (m = .dqa → (env.base r + (o + d)) % (4 * w.lanes) = 0) →
      (exec env (loadSeq m w b d xs) s).r = s.r ∧ (exec env (loadSeq m w b d xs) s).mem = s.mem ∧
      (exec env (loadSeq m w b d xs) s).fault = s.fault ∧ (∀ x, x ∉ xs → (exec env (loadSeq m w b d xs) s).x x = s.x x) ∧
      ∀ i (h : i < xs.length) l, l < w.lanes →
        (exec env (loadSeq m w b d xs) s).x xs[i] l = readWord (s.mem r) (o + d + 4 * w.lanes * i + 4 * l)
  | [], _, _, _, _, _, _ => ⟨rfl, rfl, rfl, fun _ _ => rfl, fun _ h => absurd h (by simp)⟩
  | x :: xs, d, s, hn, hb, hroom, hal => by
    rw [List.length_cons, Nat.mul_add, Nat.mul_one] at hroom
    rw [loadSeq, exec_cons, step_vload hv x (r := r) (o := o + d) (by rw [ea_reg hb]) (by omega) hal]
    have hn' := List.nodup_cons.mp hn
    obtain ⟨h1, h2, h3, h4, h5⟩ := loadSeq_spec hv (m := m) (w := w) xs (d + 4 * w.lanes)
      (s := s.setX x (zx w fun l => readWord (s.mem r) (o + d + 4 * l))) hn'.2 hb (by omega)
      (fun h => by rw [← Nat.add_assoc o, ← Nat.add_assoc, Nat.add_mod_right]; exact hal h)
    refine ⟨h1, h2, h3, fun y hy => ?_, fun i hi l hl => ?_⟩
    · rw [List.mem_cons, not_or] at hy
      exact (h4 y hy.2).trans (upd_ne _ _ hy.1)
    · cases i with
      | zero =>
        refine (congrFun (h4 x hn'.1) l).trans ?_
        show upd s.x x _ x l = _
        rw [upd_same, zx, if_pos hl, Nat.mul_zero, Nat.add_zero]
      | succ i =>
        refine (h5 i (by simpa using hi) l hl).trans ?_
        show readWord (s.mem r) _ = _
        rw [Nat.mul_add, Nat.mul_one]
        congr 1
        omega

theorem addSeq_spec {env : Env} (hv : env.Valid) {w : Width} {b : R} {r : Region} {o : Nat} :
    ∀ (xs : List X) (d : Nat) {s : State}, xs.Nodup → s.r b = env.ptr r o → o + d + 4 * w.lanes * xs.length ≤ env.size r →
      (exec env (addSeq w b d xs) s).r = s.r ∧ (exec env (addSeq w b d xs) s).mem = s.mem ∧
      (exec env (addSeq w b d xs) s).fault = s.fault ∧ (∀ x, x ∉ xs → (exec env (addSeq w b d xs) s).x x = s.x x) ∧
      ∀ i (h : i < xs.length) l, l < w.lanes →
        (exec env (addSeq w b d xs) s).x xs[i] l = s.x xs[i] l + readWord (s.mem r) (o + d + 4 * w.lanes * i + 4 * l)
  | [], _, _, _, _, _ => ⟨rfl, rfl, rfl, fun _ _ => rfl, fun _ h => absurd h (by simp)⟩
  | x :: xs, d, s, hn, hb, hroom => by
    rw [List.length_cons, Nat.mul_add, Nat.mul_one] at hroom
    rw [addSeq, exec_cons, step_vopLoad hv .paddd x x (r := r) (o := o + d) (by rw [ea_reg hb]) (by omega)]
    have hn' := List.nodup_cons.mp hn
    obtain ⟨h1, h2, h3, h4, h5⟩ := addSeq_spec hv (w := w) xs (d + 4 * w.lanes)
      (s := s.setX x (zx w fun l => VOp.paddd.eval (s.x x l) (readWord (s.mem r) (o + d + 4 * l)))) hn'.2 hb (by omega)
    refine ⟨h1, h2, h3, fun y hy => ?_, fun i hi l hl => ?_⟩
    · rw [List.mem_cons, not_or] at hy
      exact (h4 y hy.2).trans (upd_ne _ _ hy.1)
    · cases i with
      | zero =>
        refine (congrFun (h4 x hn'.1) l).trans ?_
        show upd s.x x _ x l = _
        rw [upd_same, zx, if_pos hl, Nat.mul_zero, Nat.add_zero]
        rfl
      | succ i =>
        refine (h5 i (by simpa using hi) l hl).trans ?_
        have hne : xs[i]'(by simpa using hi) ≠ x := fun e => hn'.1 (e ▸ List.getElem_mem _)
        show upd s.x x _ _ l + readWord (s.mem r) _ = s.x (xs[i]'(by simpa using hi)) l + _
        rw [upd_ne _ _ hne, Nat.mul_add, Nat.mul_one]
        congr 2
        omega

theorem storeSeq_spec {env : Env} (hv : env.Valid) {m : Mov} {w : Width} {b : R} {r : Region} {o : Nat} (hr : env.writable r = true) :
    ∀ (xs : List X) (d : Nat) {s : State}, s.r b = env.ptr r o → o + d + 4 * w.lanes * xs.length ≤ env.size r →
      (m = .dqa → (env.base r + (o + d)) % (4 * w.lanes) = 0) →
      (exec env (storeSeq m w b d xs) s).r = s.r ∧ (exec env (storeSeq m w b d xs) s).x = s.x ∧
      (exec env (storeSeq m w b d xs) s).fault = s.fault ∧ (∀ q, q ≠ r → (exec env (storeSeq m w b d xs) s).mem q = s.mem q) ∧
      (∀ p, p < o + d ∨ o + d + 4 * w.lanes * xs.length ≤ p → (exec env (storeSeq m w b d xs) s).mem r p = s.mem r p) ∧
      ∀ i (h : i < xs.length) l, l < w.lanes →
        readWord ((exec env (storeSeq m w b d xs) s).mem r) (o + d + 4 * w.lanes * i + 4 * l) = s.x xs[i] l
  | [], _, _, _, _, _ => ⟨rfl, rfl, rfl, fun _ _ => rfl, fun _ _ => rfl, fun _ h => absurd h (by simp)⟩
  | x :: xs, d, s, hb, hroom, hal => by
    rw [List.length_cons, Nat.mul_add, Nat.mul_one] at hroom
    rw [storeSeq, exec_cons, step_vstore hv x (r := r) (o := o + d) (by rw [ea_reg hb]) (by omega) hr hal]
    obtain ⟨h1, h2, h3, h4, h5, h6⟩ := storeSeq_spec hv (m := m) (w := w) hr xs (d + 4 * w.lanes)
      (s := { s with mem := upd s.mem r (writeLanes w.lanes (s.mem r) (o + d) (s.x x)) }) hb (by omega)
      (fun h => by rw [← Nat.add_assoc o, ← Nat.add_assoc, Nat.add_mod_right]; exact hal h)
    refine ⟨h1, h2, h3, fun q hq => (h4 q hq).trans (upd_ne _ _ hq), fun p hp => ?_, fun i hi l hl => ?_⟩
    · rw [List.length_cons, Nat.mul_add, Nat.mul_one] at hp
      refine (h5 p (by omega)).trans ?_
      show upd s.mem r _ r p = _
      rw [upd_same, writeLanes_outside (by omega)]
    · cases i with
      | zero =>
        refine (readWord_congr fun p _ _ => h5 p (by omega)).trans ?_
        show readWord (upd s.mem r _ r) _ = _
        rw [upd_same, Nat.mul_zero, Nat.add_zero, readWord_writeLanes hl]
        rfl
      | succ i =>
        rw [Nat.mul_add, Nat.mul_one]
        refine Eq.trans ?_ (h6 i (by simpa using hi) l hl)
        congr 1
        omega

/-- Loads at given offsets. -/
def loadAt (m : Mov) (w : Width) (b : R) (ps : List (X × Nat)) : List Instr := ps.map fun p => .vload m w p.1 (.reg b p.2)

/-- The vector registers after such loads from the region contents `mem`, with `b` pointing at offset `o`. -/
def loadedX (w : Width) (mem : Nat → Byte) (o : Nat) (ps : List (X × Nat)) (f : X → Lanes) : X → Lanes :=
  ps.foldl (fun f p => upd f p.1 (zx w fun l => readWord mem (o + p.2 + 4 * l))) f

theorem loadAt_spec {env : Env} (hv : env.Valid) {m : Mov} {w : Width} {b : R} {r : Region} {o : Nat} :
    ∀ (ps : List (X × Nat)) {s : State}, s.r b = env.ptr r o → (∀ p ∈ ps, o + p.2 + 4 * w.lanes ≤ env.size r) →
      (m = .dqa → ∀ p ∈ ps, (env.base r + (o + p.2)) % (4 * w.lanes) = 0) →
      exec env (loadAt m w b ps) s = { s with x := loadedX w (s.mem r) o ps s.x }
  | [], _, _, _, _ => rfl
  | p :: ps, s, hb, hroom, hal => by
    rw [loadAt, List.map_cons, exec_cons, step_vload hv p.1 (r := r) (o := o + p.2) (by rw [ea_reg hb]) (hroom p List.mem_cons_self)
      (fun h => hal h p List.mem_cons_self)]
    exact loadAt_spec hv ps (s := s.setX p.1 (zx w fun l => readWord (s.mem r) (o + p.2 + 4 * l))) hb
      (fun q hq => hroom q (List.mem_cons_of_mem _ hq)) (fun h q hq => hal h q (List.mem_cons_of_mem _ hq))

/-! ## Instructions that change only vector registers -/

/-- Effect of the instructions that neither access memory nor general registers on the vector registers. -/
def vstep (f : X → Lanes) : Instr → Option (X → Lanes)
  | .vmov w d t => some (upd f d (zx w (f t)))
  | .vop o w d t u => some (upd f d (zx w fun l => o.eval (f t l) (f u l)))
  | .vshift o w d t n => some (upd f d (zx w (o.eval (f t) n)))
  | .vpshufb w d t u => some (upd f d (zx w (pshufb (f t) (f u))))
  | .vpshufd w d t n => some (upd f d (zx w (pshufd (f t) n)))
  | .vpalignr w d t u n => some (upd f d (zx w (palignr (f t) (f u) n)))
  | .vshufps w d t u n => some (upd f d (zx w (shufps (f t) (f u) n)))
  | .vperm2f128 d t u n => some (upd f d (zx .ymm (vperm2f128 (f t) (f u) n)))
  | .movdqa d t => some (upd f d (low (f d) (f t)))
  | .paddd d t => some (upd f d (low (f d) fun l => f d l + f t l))
  | .pshufb d t => some (upd f d (low (f d) (pshufb (f d) (f t))))
  | .pshufd d t n => some (upd f d (low (f d) (pshufd (f t) n)))
  | .palignr d t n => some (upd f d (low (f d) (palignr (f d) (f t) n)))
  | .pblendw d t n => some (upd f d (low (f d) (pblendw (f d) (f t) n)))
  | .sha256rnds2 d t => some (upd f d (low (f d) (sha256rnds2 (f d) (f t) (f .x0))))
  | .sha256msg1 d t => some (upd f d (low (f d) (sha256msg1 (f d) (f t))))
  | .sha256msg2 d t => some (upd f d (low (f d) (sha256msg2 (f d) (f t))))
  | _ => none

/-- Effect of a sequence. -/
def vexec : List Instr → (X → Lanes) → Option (X → Lanes)
  | [], f => some f
  | i :: is, f => match vstep f i with
    | some g => vexec is g
    | none => none

theorem step_vstep {env : Env} {i : Instr} {s : State} {g : X → Lanes} (h : vstep s.x i = some g) : step env s i = { s with x := g } := by
  cases i <;> simp only [vstep, Option.some.injEq, reduceCtorEq] at h <;> subst h <;> rfl

theorem exec_vexec {env : Env} {is : List Instr} {s : State} {g : X → Lanes} (h : vexec is s.x = some g) : exec env is s = { s with x := g } := by
  induction is generalizing s with
  | nil =>
    simp only [vexec, Option.some.injEq] at h
    subst h; rfl
  | cons i is ih =>
    rw [vexec] at h
    cases hi : vstep s.x i with
    | none => rw [hi] at h; cases h
    | some g' =>
      rw [hi] at h
      rw [exec_cons, step_vstep hi]
      exact ih (s := { s with x := g' }) h

/-- The vector registers after a sequence of such instructions. -/
def vregs (is : List Instr) (f : X → Lanes) : X → Lanes := (vexec is f).getD f

theorem exec_vregs {env : Env} {is : List Instr} {s : State} (h : (vexec is s.x).isSome = true) : exec env is s = { s with x := vregs is s.x } := by
  obtain ⟨g, hg⟩ := Option.isSome_iff_exists.mp h
  rw [exec_vexec hg, vregs, hg, Option.getD_some]

/-! ## The byte-flip mask -/

/-- The lanes of `PSHUFFLE_BYTE_FLIP_MASK`. -/
def flipWord (l : Nat) : BitVec 32 := [0x00010203#32, 0x04050607#32, 0x08090a0b#32, 0x0c0d0e0f#32].getD (l % 4) 0

theorem pshufb_flip (v mask : Lanes) {l : Nat} (hl : l < 8) (h : mask l = flipWord l) : pshufb v mask l = bswap (v l) := by
  have : l = 0 ∨ l = 1 ∨ l = 2 ∨ l = 3 ∨ l = 4 ∨ l = 5 ∨ l = 6 ∨ l = 7 := by omega
  rw [pshufb, h]
  rcases this with h | h | h | h | h | h | h | h <;> subst h <;> rfl

end Mammon.X86
