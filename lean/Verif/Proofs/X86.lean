import Verif.Spec.Memory
/-!
# Lemmas about the machine: addresses, loads and stores, sequences of instructions
-/

namespace Mammon.X86

theorem upd_same {α β : Type} [DecidableEq α] (f : α → β) (k : α) (v : β) : upd f k v k = v := by simp [upd]
theorem upd_ne {α β : Type} [DecidableEq α] (f : α → β) {k j : α} (v : β) (h : j ≠ k) : upd f k v j = f j := by simp [upd, h]

theorem exec_append (env : Env) (a b : List Instr) (s : State) : exec env (a ++ b) s = exec env b (exec env a s) := by
  induction a generalizing s with
  | nil => rfl
  | cons i a ih => exact ih _

theorem exec_cons (env : Env) (i : Instr) (b : List Instr) (s : State) : exec env (i :: b) s = exec env b (step env s i) := rfl
theorem exec_nil (env : Env) (s : State) : exec env [] s = s := rfl

/-! ## Addresses -/

theorem ptr_add (env : Env) (r : Region) (o d : Nat) : env.ptr r o + BitVec.ofNat 64 d = env.ptr r (o + d) := by
  rw [Env.ptr, Env.ptr, ← BitVec.ofNat_add, Nat.add_assoc]

theorem ptr_sub (env : Env) (r : Region) (o d : Nat) (h : d ≤ o) : env.ptr r o - BitVec.ofNat 64 d = env.ptr r (o - d) := by
  have : env.ptr r o = env.ptr r (o - d) + BitVec.ofNat 64 d := by rw [ptr_add, Nat.sub_add_cancel h]
  rw [this, BitVec.add_sub_cancel]

theorem toNat_ptr {env : Env} (hv : env.Valid) {r : Region} {o : Nat} (h : o ≤ env.size r) : (env.ptr r o).toNat = env.base r + o := by
  have := hv.fits r
  rw [Env.ptr, BitVec.toNat_ofNat, Nat.mod_eq_of_lt (by omega)]

theorem Region.mem_all (r : Region) : r ∈ Region.all := by cases r <;> decide

theorem resolve_ptr {env : Env} (hv : env.Valid) {r : Region} {o n : Nat} (hn : 0 < n) (h : o + n ≤ env.size r) :
    env.resolve (env.ptr r o) n = some (r, o) := by
  have ha := toNat_ptr hv (r := r) (o := o) (by omega)
  rw [Env.resolve, ha]
  cases hf : Region.all.find? fun r' => decide (env.base r' ≤ env.base r + o ∧ env.base r + o + n ≤ env.base r' + env.size r') with
  | none =>
    have := List.find?_eq_none.mp hf r r.mem_all
    simp at this
    omega
  | some r' =>
    have hp := List.find?_some hf
    simp only [decide_eq_true_eq] at hp
    have : r' = r := hv.disjoint r' r (env.base r + o - env.base r') o (by omega) (by omega) (by omega)
    subst this
    simp

theorem read_ptr {env : Env} (hv : env.Valid) (m : Mem) {r : Region} {o n : Nat} (hn : 0 < n) (h : o + 4 * n ≤ env.size r) :
    env.read m (env.ptr r o) n = fun l => readWord (m r) (o + 4 * l) := by
  rw [Env.read, resolve_ptr hv (by omega) h]

theorem canRead_ptr {env : Env} (hv : env.Valid) {r : Region} {o n : Nat} (hn : 0 < n) (h : o + 4 * n ≤ env.size r) :
    env.canRead (env.ptr r o) n = true := by
  rw [Env.canRead, resolve_ptr hv (by omega) h]; rfl

theorem write_ptr {env : Env} (hv : env.Valid) (m : Mem) {r : Region} {o n : Nat} (v : Lanes) (hn : 0 < n) (h : o + 4 * n ≤ env.size r) :
    env.write m (env.ptr r o) n v = upd m r (writeLanes n (m r) o v) := by
  rw [Env.write, resolve_ptr hv (by omega) h]

theorem canWrite_ptr {env : Env} (hv : env.Valid) {r : Region} {o n : Nat} (hn : 0 < n) (h : o + 4 * n ≤ env.size r) :
    env.canWrite (env.ptr r o) n = env.writable r := by
  rw [Env.canWrite, resolve_ptr hv (by omega) h]

theorem aligned_ptr {env : Env} (hv : env.Valid) (m : Mov) {r : Region} {o n : Nat} (h : o ≤ env.size r) (ha : (env.base r + o) % (4 * n) = 0) :
    m.aligned n (env.ptr r o) = true := by
  rw [Mov.aligned, toNat_ptr hv h]
  simp [ha]

theorem aligned_dqu (n : Nat) (a : BitVec 64) : Mov.aligned .dqu n a = true := rfl
theorem aligned_ups (n : Nat) (a : BitVec 64) : Mov.aligned .ups n a = true := rfl

/-! ## Bytes of words -/

theorem readWord_congr {m m' : Nat → Byte} {o : Nat} (h : ∀ i, o ≤ i → i < o + 4 → m i = m' i) : readWord m o = readWord m' o := by
  rw [readWord, readWord, h _ (by omega) (by omega), h _ (by omega) (by omega), h _ (by omega) (by omega), h _ (by omega) (by omega)]

theorem ofBytes_byteOf (w : BitVec 32) : (byteOf w 3 ++ byteOf w 2 ++ byteOf w 1 ++ byteOf w 0 : BitVec 32) = w := by
  ext i hi
  simp only [byteOf, BitVec.getElem_append, BitVec.getElem_setWidth, BitVec.getLsbD_ushiftRight]
  split
  · rw [← BitVec.getLsbD_eq_getElem]; congr 1; omega
  · split
    · rw [← BitVec.getLsbD_eq_getElem]; congr 1; omega
    · split
      · rw [← BitVec.getLsbD_eq_getElem]; congr 1; omega
      · rw [← BitVec.getLsbD_eq_getElem]; congr 1; omega

theorem byteOf_append (a b c d : Byte) :
    byteOf (a ++ b ++ c ++ d : BitVec 32) 0 = d ∧ byteOf (a ++ b ++ c ++ d : BitVec 32) 1 = c ∧
    byteOf (a ++ b ++ c ++ d : BitVec 32) 2 = b ∧ byteOf (a ++ b ++ c ++ d : BitVec 32) 3 = a := by
  refine ⟨?_, ?_, ?_, ?_⟩ <;> ext i hi <;>
    simp only [byteOf, BitVec.getElem_setWidth, BitVec.getLsbD_ushiftRight, BitVec.getLsbD_append]
  · rw [if_pos (by omega), ← BitVec.getLsbD_eq_getElem]; congr 1; omega
  · rw [if_neg (by omega), if_pos (by omega), ← BitVec.getLsbD_eq_getElem]; congr 1; omega
  · rw [if_neg (by omega), if_neg (by omega), if_pos (by omega), ← BitVec.getLsbD_eq_getElem]; congr 1; omega
  · rw [if_neg (by omega), if_neg (by omega), if_neg (by omega), ← BitVec.getLsbD_eq_getElem]; congr 1; omega

theorem writeLanes_inside {n : Nat} {m : Nat → Byte} {o : Nat} {v : Lanes} {l j : Nat} (hl : l < n) (hj : j < 4) :
    writeLanes n m o v (o + 4 * l + j) = byteOf (v l) j := by
  rw [writeLanes, if_pos (by omega)]
  congr 1
  · congr 1; omega
  · omega

theorem writeLanes_outside {n : Nat} {m : Nat → Byte} {o : Nat} {v : Lanes} {i : Nat} (h : i < o ∨ o + 4 * n ≤ i) :
    writeLanes n m o v i = m i := by
  rw [writeLanes, if_neg (by omega)]

theorem readWord_writeLanes {n : Nat} {m : Nat → Byte} {o : Nat} {v : Lanes} {l : Nat} (hl : l < n) :
    readWord (writeLanes n m o v) (o + 4 * l) = v l := by
  have h0 : writeLanes n m o v (o + 4 * l) = byteOf (v l) 0 := writeLanes_inside (j := 0) hl (by omega)
  rw [readWord, writeLanes_inside hl (by omega), writeLanes_inside hl (by omega), writeLanes_inside hl (by omega), h0, ofBytes_byteOf]

theorem readWord_writeLanes_outside {n : Nat} {m : Nat → Byte} {o : Nat} {v : Lanes} {p : Nat} (h : p + 4 ≤ o ∨ o + 4 * n ≤ p) :
    readWord (writeLanes n m o v) p = readWord m p :=
  readWord_congr fun i _ _ => writeLanes_outside (by omega)

theorem of64_lanes64 (v : BitVec 64) : of64 (lanes64 v) = v := by
  refine BitVec.eq_of_getLsbD_eq fun i hi => ?_
  rw [of64, BitVec.getLsbD_append]
  simp only [lanes64, BitVec.getLsbD_setWidth, BitVec.getLsbD_ushiftRight]
  split
  · simp [*]
  · rw [decide_eq_true (by omega), Bool.true_and]; congr 1; omega

/-! ## Loads and stores -/

theorem check_true (s : State) : s.check true = s := by simp [State.check]

theorem step_vload {env : Env} (hv : env.Valid) {s : State} {m : Mov} {w : Width} (d : X) {a : Addr} {r : Region} {o : Nat}
    (ha : s.ea env a = env.ptr r o) (h : o + 4 * w.lanes ≤ env.size r) (hal : m = .dqa → (env.base r + o) % (4 * w.lanes) = 0) :
    step env s (.vload m w d a) = s.setX d (zx w fun l => readWord (s.mem r) (o + 4 * l)) := by
  have hw : 0 < w.lanes := by cases w <;> decide
  have hm : m.aligned w.lanes (env.ptr r o) = true := by
    by_cases hm : m = .dqa
    · exact aligned_ptr hv m (by omega) (hal hm)
    · simp [Mov.aligned, hm]
  simp only [step, State.vread, ha, canRead_ptr hv hw h, hm, read_ptr hv _ hw h, Bool.and_self, check_true]

theorem step_vopLoad {env : Env} (hv : env.Valid) {s : State} (op : VOp) {w : Width} (d t : X) {a : Addr} {r : Region} {o : Nat}
    (ha : s.ea env a = env.ptr r o) (h : o + 4 * w.lanes ≤ env.size r) :
    step env s (.vopLoad op w d t a) = s.setX d (zx w fun l => op.eval (s.x t l) (readWord (s.mem r) (o + 4 * l))) := by
  have hw : 0 < w.lanes := by cases w <;> decide
  simp only [step, State.vread, ha, canRead_ptr hv hw h, aligned_dqu, read_ptr hv _ hw h, Bool.and_self, check_true]

theorem step_vstore {env : Env} (hv : env.Valid) {s : State} {m : Mov} {w : Width} (t : X) {a : Addr} {r : Region} {o : Nat}
    (ha : s.ea env a = env.ptr r o) (h : o + 4 * w.lanes ≤ env.size r) (hr : env.writable r = true)
    (hal : m = .dqa → (env.base r + o) % (4 * w.lanes) = 0) :
    step env s (.vstore m w a t) = { s with mem := upd s.mem r (writeLanes w.lanes (s.mem r) o (s.x t)) } := by
  have hw : 0 < w.lanes := by cases w <;> decide
  have hm : m.aligned w.lanes (env.ptr r o) = true := by
    by_cases hm : m = .dqa
    · exact aligned_ptr hv m (by omega) (hal hm)
    · simp [Mov.aligned, hm]
  simp only [step, State.vwrite, ha, canWrite_ptr hv hw h, hm, write_ptr hv _ _ hw h, hr, Bool.and_self, Bool.not_true, Bool.or_false]

theorem ea_reg {env : Env} {s : State} {b : R} {r : Region} {o : Nat} (h : s.r b = env.ptr r o) (d : Nat) :
    s.ea env (.reg b d) = env.ptr r (o + d) := by
  simp only [State.ea, h, ptr_add]

theorem ea_rel (env : Env) (s : State) (r : Region) (o : Nat) : s.ea env (.rel r o) = env.ptr r o := rfl

theorem zx_xmm (v : Lanes) {l : Nat} (h : l < 4) : zx .xmm v l = v l := if_pos h
theorem zx_ymm (v : Lanes) {l : Nat} (h : l < 8) : zx .ymm v l = v l := if_pos h

theorem ea_idx {env : Env} {s : State} {b i : R} {r : Region} {o n : Nat} (h : s.r b = env.ptr r o) (hi : s.r i = BitVec.ofNat 64 n) (d : Nat) :
    s.ea env (.idx b i d) = env.ptr r (o + n + d) := by
  simp only [State.ea, h, hi, ptr_add]

end Mammon.X86
