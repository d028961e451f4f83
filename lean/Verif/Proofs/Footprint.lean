import Verif.Proofs.Allowed
import Verif.Proofs.Run
import Verif.Model.Sha256Code
/-!
# The accesses of straight-line code, relative to the registers at its beginning
-/

namespace Mammon.X86

/-- What an address is relative to. -/
inductive Origin
  | zero
  | reg (r : R)
  | sec (r : Region)
  deriving DecidableEq, Repr

/-- A value relative to the registers at the beginning. -/
structure Sym where
  origin : Origin
  off : BitVec 64
  deriving DecidableEq, Repr

def Origin.eval (env : Env) (s0 : State) : Origin → BitVec 64
  | .zero => 0
  | .reg r => s0.r r
  | .sec r => env.ptr r 0

def Sym.eval (env : Env) (s0 : State) (v : Sym) : BitVec 64 := v.origin.eval env s0 + v.off

/-- What is known about the registers. -/
abbrev Known := List (R × Sym)

def Known.get : Known → R → Option Sym
  | [], _ => none
  | (q, v) :: m, r => if q = r then some v else Known.get m r

def Known.erase (m : Known) (r : R) : Known := m.filter fun p => p.1 != r

def Known.set (m : Known) (r : R) : Option Sym → Known
  | some v => (r, v) :: m.erase r
  | none => m.erase r

def Known.add (m : Known) (r : R) (n : BitVec 64) : Option Sym := (m.get r).map fun v => ⟨v.origin, v.off + n⟩

def Known.ea (m : Known) : Addr → Option Sym
  | .reg b d => m.add b (BitVec.ofNat 64 d)
  | .idx b i d =>
    match m.get b, m.get i with
    | some u, some ⟨.zero, w⟩ => some ⟨u.origin, u.off + w + BitVec.ofNat 64 d⟩
    | _, _ => none
  | .rel r o => some ⟨.sec r, BitVec.ofNat 64 o⟩

/-- At the beginning every register has its own value. -/
def Known.start : Known :=
  [R.rsp, .rsi, .rdi, .rdx, .rbp, .rbx, .rax, .rcx, .r8, .r9, .r10, .r11, .r12, .r13, .r14, .r15].map fun r => (r, ⟨.reg r, 0⟩)

/-- The memory operand of an instruction: address, bytes, is it a store. -/
def Instr.operand : Instr → Option (Addr × Nat × Bool)
  | .push _ => some (.reg .rsp (2 ^ 64 - 8), 8, true)
  | .pop _ => some (.reg .rsp 0, 8, false)
  | .movLoad _ a => some (a, 8, false)
  | .movStore a _ => some (a, 8, true)
  | .andLoad _ a => some (a, 8, false)
  | .load32 _ a => some (a, 4, false)
  | .store32 a _ => some (a, 4, true)
  | .addLoad32 _ a => some (a, 4, false)
  | .vload _ w _ a => some (a, 4 * w.lanes, false)
  | .vstore _ w a _ => some (a, 4 * w.lanes, true)
  | .vopLoad _ w _ _ a => some (a, 4 * w.lanes, false)
  | .vinserti128 _ _ a _ => some (a, 16, false)
  | .movLoadX _ _ a => some (a, 16, false)
  | .movStoreX _ a _ => some (a, 16, true)
  | .padddLoad _ a => some (a, 16, false)
  | _ => none

theorem sub_eight (x : BitVec 64) : x - 8 = x + BitVec.ofNat 64 (2 ^ 64 - 8) := by
  rw [BitVec.sub_eq_add_neg, show (-8 : BitVec 64) = BitVec.ofNat 64 (2 ^ 64 - 8) by decide]

theorem access_operand (env : Env) (s : State) (i : Instr) :
    i.access env s = i.operand.toList.map fun p => ⟨s.ea env p.1, p.2.1, p.2.2⟩ := by
  cases i
  case push r => simp only [Instr.access, Instr.operand, State.ea, Option.toList, List.map, sub_eight]
  case pop d => simp [Instr.access, Instr.operand, State.ea]
  all_goals rfl

/-- What is known after an instruction. -/
def Known.step (m : Known) : Instr → Known
  | .push _ => m.set .rsp (m.add .rsp (-8))
  | .pop d => (m.set .rsp (m.add .rsp 8)).erase d
  | .mov d t => m.set d (m.get t)
  | .movLoad d _ => m.erase d
  | .addImm d n => m.set d (m.add d (BitVec.ofNat 64 n))
  | .subImm d n => m.set d (m.add d (-BitVec.ofNat 64 n))
  | .andLoad d _ => m.erase d
  | .xor d t => m.set d (if d = t then some ⟨.zero, 0⟩ else none)
  | .lea d a => m.set d (m.ea a)
  | .dec d => m.set d (m.add d (-1))
  | .mov32 d _ => m.erase d
  | .load32 d _ => m.erase d
  | .add32 d _ => m.erase d
  | .addLoad32 d _ => m.erase d
  | .xor32 d _ => m.erase d
  | .and32 d _ => m.erase d
  | .or32 d _ => m.erase d
  | .shld32 d _ _ => m.erase d
  | .bswap32 d => m.erase d
  | _ => m

/-- An access relative to the registers at the beginning, with the alignment demanded. -/
structure SymAccess where
  addr : Sym
  bytes : Nat
  write : Bool
  al : Nat
  deriving DecidableEq, Repr

def SymAccess.eval (env : Env) (s0 : State) (a : SymAccess) : Access := ⟨a.addr.eval env s0, a.bytes, a.write⟩

/-- The accesses of straight-line code, if they can be told from the registers at the beginning. -/
def footprint : Known → List Instr → Option (List SymAccess)
  | _, [] => some []
  | m, i :: is =>
    match i.operand with
    | none => footprint (m.step i) is
    | some (a, n, w) =>
      match m.ea a, footprint (m.step i) is with
      | some v, some l => some (⟨v, n, w, i.alignment⟩ :: l)
      | _, _ => none

/-- The knowledge is right. -/
def Known.Right (env : Env) (s0 : State) (m : Known) (s : State) : Prop := ∀ r v, m.get r = some v → s.r r = v.eval env s0

theorem get_erase (m : Known) (d r : R) : (m.erase d).get r = if d = r then none else m.get r := by
  induction m with
  | nil => simp [Known.erase, Known.get]
  | cons p m ih =>
    obtain ⟨q, v⟩ := p
    by_cases h : q = d
    · subst h
      have : Known.erase ((q, v) :: m) q = Known.erase m q := by simp [Known.erase]
      rw [this, ih, Known.get]
      split <;> simp_all
    · have : Known.erase ((q, v) :: m) d = (q, v) :: Known.erase m d := by simp [Known.erase, h]
      rw [this, Known.get, Known.get, ih]
      split <;> split <;> simp_all

theorem get_set (m : Known) (d r : R) (v : Option Sym) : (m.set d v).get r = if d = r then v else m.get r := by
  cases v with
  | none => exact get_erase m d r
  | some v =>
    rw [Known.set, Known.get, get_erase]
    split <;> rfl

theorem Known.Right.set {env : Env} {s0 s s' : State} {m : Known} (h : m.Right env s0 s) {d : R} {x : BitVec 64} {v : Option Sym}
    (h' : s'.r = upd s.r d x) (hx : ∀ w, v = some w → x = w.eval env s0) : (m.set d v).Right env s0 s' := by
  intro r w hw
  rw [get_set] at hw
  rw [h']
  split at hw
  · rename_i e; subst e; rw [upd_same]; exact hx w hw
  · rename_i e; rw [upd_ne _ _ (Ne.symm e)]; exact h r w hw

theorem Known.Right.erase {env : Env} {s0 s s' : State} {m : Known} (h : m.Right env s0 s) {d : R} {x : BitVec 64}
    (h' : s'.r = upd s.r d x) : (m.erase d).Right env s0 s' :=
  Known.Right.set (v := none) h h' (fun _ e => by cases e)

theorem Known.Right.add {env : Env} {s0 s : State} {m : Known} (h : m.Right env s0 s) {d : R} {n : BitVec 64} {w : Sym} (hw : m.add d n = some w) :
    s.r d + n = w.eval env s0 := by
  rw [Known.add, Option.map_eq_some_iff] at hw
  obtain ⟨v, h1, h2⟩ := hw
  rw [h d v h1, ← h2, Sym.eval, Sym.eval, BitVec.add_assoc]

theorem ptr_ofNat (env : Env) (r : Region) (o : Nat) : env.ptr r o = env.ptr r 0 + BitVec.ofNat 64 o := by
  rw [ptr_add, Nat.zero_add]

theorem Known.Right.ea {env : Env} {s0 s : State} {m : Known} (h : m.Right env s0 s) {a : Addr} {w : Sym} (hw : m.ea a = some w) :
    s.ea env a = w.eval env s0 := by
  cases a with
  | reg b d => exact h.add hw
  | rel r o => cases hw; exact ptr_ofNat env r o
  | idx b i d =>
    rw [Known.ea] at hw
    split at hw
    · rename_i u w' hb hi
      cases hw
      show s.r b + s.r i + _ = _
      rw [h b u hb, h i _ hi]
      simp only [Sym.eval, BitVec.add_assoc, show Origin.eval env s0 .zero = 0#64 from rfl, BitVec.zero_add]
    · cases hw

theorem Known.Right.step {env : Env} {s0 s : State} {m : Known} (h : m.Right env s0 s) (i : Instr) : (m.step i).Right env s0 (X86.step env s i) := by
  cases i
  case push r => exact h.set (x := s.r .rsp - 8) rfl fun w hw => by rw [← h.add hw]; exact BitVec.sub_eq_add_neg ..
  case pop d => exact Known.Right.erase (s := { s with r := upd s.r .rsp (s.r .rsp + 8) }) (h.set rfl fun w hw => h.add hw) rfl
  case mov d t => exact h.set rfl fun w hw => h t w hw
  case movLoad d a => exact h.erase rfl
  case addImm d n => exact h.set rfl fun w hw => h.add hw
  case subImm d n => exact h.set rfl fun w hw => by rw [← h.add hw]; exact BitVec.sub_eq_add_neg ..
  case andLoad d a => exact h.erase rfl
  case xor d t =>
    refine h.set rfl fun w hw => ?_
    split at hw
    · rename_i e; subst e; cases hw; simp [Sym.eval, Origin.eval]
    · cases hw
  case lea d a => exact h.set rfl fun w hw => h.ea hw
  case dec d => exact h.set rfl fun w hw => by rw [← h.add hw]; exact BitVec.sub_eq_add_neg ..
  case mov32 d t => exact h.erase rfl
  case load32 d a => exact h.erase rfl
  case add32 d t => exact h.erase rfl
  case addLoad32 d t => exact h.erase rfl
  case xor32 d t => exact h.erase rfl
  case and32 d t => exact h.erase rfl
  case or32 d t => exact h.erase rfl
  case shld32 d t n => exact h.erase rfl
  case bswap32 d => exact h.erase rfl
  all_goals exact h

theorem Known.Right.start (env : Env) (s : State) : Known.start.Right env s s := by
  intro r v h
  have : v = ⟨.reg r, 0⟩ := by
    cases r <;> (simp only [Known.start, List.map, Known.get] at h; revert h; simp; intro h; exact h.symm)
  rw [this]
  simp [Sym.eval, Origin.eval]

theorem Violates.nil {env : Env} {s : State} : ¬ Violates env [] s := by
  rintro ⟨pre, i, post, h1, -⟩
  cases pre <;> cases h1

theorem violates_cons {env : Env} {i : Instr} {is : List Instr} {s : State} :
    Violates env (i :: is) s ↔ (∃ a ∈ i.access env s, ¬ a.Allowed env i.alignment) ∨ Violates env is (step env s i) := by
  constructor
  · rintro ⟨pre, j, post, h4, a, h5, h6⟩
    cases pre with
    | nil => cases h4; exact .inl ⟨a, h5, h6⟩
    | cons p pre => cases h4; exact .inr ⟨pre, j, post, rfl, a, h5, h6⟩
  · rintro (⟨a, h1, h2⟩ | ⟨pre, j, post, h4, a, h5, h6⟩)
    · exact ⟨[], i, is, rfl, a, h1, h2⟩
    · exact ⟨i :: pre, j, post, by rw [h4]; rfl, a, h5, h6⟩

/-- The footprint tells which accesses are made. -/
theorem footprint_sound {env : Env} {s0 : State} : ∀ (is : List Instr) {m : Known} {s : State} {l : List SymAccess}, footprint m is = some l →
    m.Right env s0 s → (Violates env is s ↔ ∃ x ∈ l, ¬ (x.eval env s0).Allowed env x.al)
  | [], m, s, l, h, _ => by
    cases h
    exact ⟨fun h => absurd h Violates.nil, by simp⟩
  | i :: is, m, s, l, h, hm => by
    rw [violates_cons, access_operand]
    rw [footprint] at h
    cases ho : i.operand with
    | none =>
      rw [ho] at h
      rw [footprint_sound is h (hm.step i)]
      simp
    | some p =>
      obtain ⟨a, n, w⟩ := p
      rw [ho] at h
      simp only at h
      split at h
      · rename_i v l' h1 h2
        cases h
        rw [footprint_sound is h2 (hm.step i)]
        simp [SymAccess.eval, hm.ea h1]
      · cases h

end Mammon.X86
