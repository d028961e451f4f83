import Verif.Proofs.Shani
/-!
# One block and two blocks in the routine with the SHA instructions
-/

namespace Mammon.X86.Shani
open Spec.SHA256 One

/-! ## Memory operands -/

theorem mload_spec {env : Env} (hv : env.Valid) (s : State) (d : X) {a : Addr} {m : Mov} (r : Region) (o : Nat) (ha : s.ea env a = env.ptr r o)
    (h : o + 16 ≤ env.size r) (hal : m = .dqa → (env.base r + o) % 16 = 0) :
    ∃ s', step env s (.movLoadX m d a) = s' ∧ XStep [d] s s' ∧ ∀ l, l < 4 → s'.x d l = readWord (s.mem r) (o + 4 * l) :=
  ⟨_, step_movLoadX hv d ha h hal, XStep.setX _ _ _, fun l hl => by simp only [State.setX, upd_same, low_lt _ _ hl]⟩

theorem madd_spec {env : Env} (hv : env.Valid) (s : State) (d : X) {a : Addr} (r : Region) (o : Nat) (ha : s.ea env a = env.ptr r o)
    (h : o + 16 ≤ env.size r) (hal : (env.base r + o) % 16 = 0) :
    ∃ s', step env s (.padddLoad d a) = s' ∧ XStep [d] s s' ∧ ∀ l, l < 4 → s'.x d l = s.x d l + readWord (s.mem r) (o + 4 * l) :=
  ⟨_, step_padddLoad hv d ha h hal, XStep.setX _ _ _, fun l hl => by simp only [State.setX, upd_same, low_lt _ _ hl]⟩

/-- A store of a vector at offset `o` of region `rg`. -/
structure Stored (rg : Region) (o : Nat) (v : Lanes) (s s' : State) : Prop where
  r : s'.r = s.r
  x : s'.x = s.x
  fault : s'.fault = s.fault
  other : ∀ q, q ≠ rg → s'.mem q = s.mem q
  outside : ∀ i, i < o ∨ o + 16 ≤ i → s'.mem rg i = s.mem rg i
  words : ∀ l, l < 4 → readWord (s'.mem rg) (o + 4 * l) = v l

theorem Stored.keep {r : Region} {o : Nat} {v : Lanes} {s s' : State} (h : Stored r o v s s') {p : Nat} (hp : p + 4 ≤ o ∨ o + 16 ≤ p) :
    readWord (s'.mem r) p = readWord (s.mem r) p :=
  readWord_congr fun i _ _ => h.outside i (by omega)

theorem mstore_spec {env : Env} (hv : env.Valid) (s : State) (t : X) {a : Addr} {m : Mov} (r : Region) (o : Nat) (ha : s.ea env a = env.ptr r o)
    (h : o + 16 ≤ env.size r) (hr : env.writable r = true) (hal : m = .dqa → (env.base r + o) % 16 = 0) :
    ∃ s', step env s (.movStoreX m a t) = s' ∧ Stored r o (s.x t) s s' := by
  refine ⟨_, step_movStoreX hv t ha h hr hal, rfl, rfl, rfl, fun q hq => upd_ne _ _ hq, fun i hi => ?_, fun l hl => ?_⟩
  · show upd s.mem r _ r i = _
    rw [upd_same, writeLanes_outside (by omega)]
  · show readWord (upd s.mem r _ r) _ = _
    rw [upd_same, readWord_writeLanes hl]

theorem ABEF.add {x y : HV} {f g e : Lanes} (hf : ABEF x f) (hg : ABEF y g) (h : ∀ l, l < 4 → e l = f l + g l) : ABEF (x.add y) e := by
  obtain ⟨f0, f1, f2, f3⟩ := hf
  obtain ⟨g0, g1, g2, g3⟩ := hg
  refine ⟨?_, ?_, ?_, ?_⟩
  · rw [h 0 (by decide), f0, g0]; rfl
  · rw [h 1 (by decide), f1, g1]; rfl
  · rw [h 2 (by decide), f2, g2]; rfl
  · rw [h 3 (by decide), f3, g3]; rfl

theorem CDGH.add {x y : HV} {f g e : Lanes} (hf : CDGH x f) (hg : CDGH y g) (h : ∀ l, l < 4 → e l = f l + g l) : CDGH (x.add y) e := by
  obtain ⟨f0, f1, f2, f3⟩ := hf
  obtain ⟨g0, g1, g2, g3⟩ := hg
  refine ⟨?_, ?_, ?_, ?_⟩
  · rw [h 0 (by decide), f0, g0]; rfl
  · rw [h 1 (by decide), f1, g1]; rfl
  · rw [h 2 (by decide), f2, g2]; rfl
  · rw [h 3 (by decide), f3, g3]; rfl

/-- The initial hash value in the data section. -/
theorem digest_abef {env : Env} {mem : Mem} (L : Loaded env mem) : ABEF H0 fun l => readWord (mem .shaniRo) (DIGEST + 4 * l) := by
  refine ⟨?_, ?_, ?_, ?_⟩
  · exact word L (i := 68) (by simp only [DIGEST]) (by decide)
  · exact word L (i := 69) (by simp only [DIGEST]) (by decide)
  · exact word L (i := 70) (by simp only [DIGEST]) (by decide)
  · exact word L (i := 71) (by simp only [DIGEST]) (by decide)

theorem digest_cdgh {env : Env} {mem : Mem} (L : Loaded env mem) : CDGH H0 fun l => readWord (mem .shaniRo) (DIGEST + 16 + 4 * l) := by
  refine ⟨?_, ?_, ?_, ?_⟩
  · exact word L (i := 72) (by simp only [DIGEST]) (by decide)
  · exact word L (i := 73) (by simp only [DIGEST]) (by decide)
  · exact word L (i := 74) (by simp only [DIGEST]) (by decide)
  · exact word L (i := 75) (by simp only [DIGEST]) (by decide)

/-! ## All groups -/

theorem ra_ok : ra.Ok := by unfold Regs.Ok; decide
theorem rb_ok : rb.Ok := by unfold Regs.Ok; decide

theorem Sched.zero (v : Regs) (m : Nat → Word) (f : X → Lanes) : Sched v m 0 f :=
  ⟨fun _ h => by omega, fun h => by omega, fun _ h => by omega, fun _ h => by omega⟩

theorem groups1_spec {env : Env} {p : Nat} {h0 : HV} {mem : Nat → Byte} (hroom : p + 64 ≤ env.size .input) :
    ∀ (n k : Nat) {s : State}, k + n = 16 → Ready env p s → s.mem .input = mem → Inv ra (msg mem p) h0 k s.x →
      ∃ s', exec env (groups1 n k) s = s' ∧ XStep (MSG :: ra.list) s s' ∧ Inv ra (msg mem p) h0 16 s'.x
  | 0, k, s, hk, _, _, hI => by
    obtain rfl : k = 16 := by omega
    exact ⟨_, rfl, XStep.refl _ _, hI⟩
  | n + 1, k, s, hk, R, hm, hI => by
    rw [groups1, exec_append]
    obtain ⟨s1, q1, x1, i1⟩ := group_spec ra_ok (o := k * 16) R (fun _ => by omega) (fun _ l hl => by rw [hm, msg]; congr 2; omega) (by omega) hI
    rw [q1]
    obtain ⟨s2, q2, x2, i2⟩ := groups1_spec hroom n (k + 1) (by omega) (R.step x1 (by decide)) (by rw [x1.mem, hm]) i1
    exact ⟨_, q2, x1.trans x2 _ (fun _ h => h) (fun _ h => h), i2⟩

theorem groups2_spec {env : Env} {p : Nat} {h0 : HV} {mem : Nat → Byte} (hroom : p + 128 ≤ env.size .input) :
    ∀ (n k : Nat) {s : State}, k + n = 16 → Ready env p s → s.mem .input = mem → Inv ra (msg mem p) h0 k s.x → Inv rb (msg mem (p + 64)) h0 k s.x →
      ∃ s', exec env (groups2 n k) s = s' ∧ XStep (MSG :: (ra.list ++ rb.list)) s s' ∧ Inv ra (msg mem p) h0 16 s'.x ∧
        Inv rb (msg mem (p + 64)) h0 16 s'.x
  | 0, k, s, hk, _, _, hI, hJ => by
    obtain rfl : k = 16 := by omega
    exact ⟨_, rfl, XStep.refl _ _, hI, hJ⟩
  | n + 1, k, s, hk, R, hm, hI, hJ => by
    rw [groups2, exec_append, exec_append]
    obtain ⟨s1, q1, x1, i1⟩ := group_spec ra_ok (o := k * 16) R (fun _ => by omega) (fun _ l hl => by rw [hm, msg]; congr 2; omega) (by omega) hI
    rw [q1]
    have R1 := R.step x1 (by decide)
    have hm1 : s1.mem .input = mem := by rw [x1.mem, hm]
    have j1 : Inv rb (msg mem (p + 64)) h0 k s1.x := hJ.congr fun x hx => x1.keep x (by revert x; decide)
    obtain ⟨s2, q2, x2, j2⟩ := group_spec rb_ok (o := (k + 4) * 16) R1 (fun _ => by omega) (fun _ l hl => by rw [hm1, msg]; congr 2; omega)
      (by omega) j1
    rw [q2]
    have i2 : Inv ra (msg mem p) h0 (k + 1) s2.x := i1.congr fun x hx => x2.keep x (by revert x; decide)
    obtain ⟨s3, q3, x3, i3, j3⟩ := groups2_spec hroom n (k + 1) (by omega) (R1.step x2 (by decide)) (by rw [x2.mem, hm1]) i2 j2
    exact ⟨_, q3, (x1.trans x2 (MSG :: (ra.list ++ rb.list)) (by decide) (by decide)).trans x3 _ (fun _ h => h) (fun _ h => h), i3, j3⟩

/-! ## The rounds with the padding -/

/-- The state of a block before group `k` of the rounds with the padding. -/
structure PInv (v : Regs) (h0 : HV) (k : Nat) (f : X → Lanes) : Prop where
  abef : ABEF (rounds padBlock (4 * k) h0) (f v.s0)
  cdgh : CDGH (rounds padBlock (4 * k) h0) (f v.s1)

theorem pad_load {env : Env} {p k : Nat} {s : State} (R : Ready env p s) (hk : k < 16) :
    ∃ s', step env s (.movLoadX .dqa MSG (.reg SHA256PADDING (k * 16))) = s' ∧ XStep [MSG] s s' ∧
      ∀ l, l < 4 → s'.x MSG l = W padBlock (4 * k + l) + K (4 * k + l) := by
  have hs := size_le R.loaded
  have hb := base_mod R.loaded
  obtain ⟨s', q, x, h⟩ := mload_spec R.valid s MSG (m := .dqa) .shaniRo (PADDING + k * 16) (ea_reg R.rcx _) (by simp only [PADDING]; omega)
    (fun _ => by simp only [PADDING]; omega)
  refine ⟨s', q, x, fun l hl => ?_⟩
  rw [h l hl, word R.loaded (i := 76 + (4 * k + l)) (by simp only [PADDING]; omega) (by omega), data_pad _ (by omega), padWK_getD (by omega),
    BitVec.add_comm]

/-- Four rounds with the words in `MSG`. -/
theorem four_rounds {h0 : HV} {k : Nat} {a b wk : Lanes} (ha : ABEF (rounds padBlock (4 * k) h0) a) (hb : CDGH (rounds padBlock (4 * k) h0) b)
    (hw : ∀ l, l < 4 → wk l = W padBlock (4 * k + l) + K (4 * k + l)) {b' a' wk' : Lanes} (hb' : ∀ l, l < 4 → b' l = sha256rnds2 b a wk l)
    (hw' : wk' = low wk (pshufd wk 0x0E)) (ha' : ∀ l, l < 4 → a' l = sha256rnds2 a b' wk' l) :
    ABEF (rounds padBlock (4 * (k + 1)) h0) a' ∧ CDGH (rounds padBlock (4 * (k + 1)) h0) b' := by
  have h1 := (rnds2_new ha hb (hw 0 (by decide)) (hw 1 (by decide))).congr hb'
  rw [rounds_four]
  refine ⟨(rnds2_new h1 (rnds2_old _ _ ha) ?_ ?_).congr ha', rnds2_old _ _ h1⟩
  · rw [hw']; exact hw 2 (by decide)
  · rw [hw']; exact hw 3 (by decide)

theorem padGroup1_spec {env : Env} {p k : Nat} {h0 : HV} {s : State} (R : Ready env p s) (hk : k < 16) (hI : PInv ra h0 k s.x) :
    ∃ s', exec env (padGroup1 k) s = s' ∧ XStep [MSG, ra.s0, ra.s1] s s' ∧ PInv ra h0 (k + 1) s'.x := by
  rw [padGroup1, exec_cons]
  obtain ⟨s1, q1, x1, w1⟩ := pad_load R hk
  rw [q1]
  have e : exec env [.sha256rnds2 ra.s1 ra.s0, .pshufd MSG MSG 0x0E, .sha256rnds2 ra.s0 ra.s1] s1 = { s1 with x := _ } := exec_vregs rfl
  rw [e]
  have h := four_rounds (a := s1.x .x1) (b := s1.x .x2) (wk := s1.x MSG) (h0 := h0) (k := k)
    (by rw [x1.keep _ (by decide)]; exact hI.abef) (by rw [x1.keep _ (by decide)]; exact hI.cdgh) w1 (fun l hl => low_lt (s1.x .x2) _ hl) rfl
    (fun l hl => low_lt (s1.x .x1) _ hl)
  refine ⟨_, rfl, ?_, h.1, h.2⟩
  refine x1.trans (t := s1) (e := [MSG, ra.s0, ra.s1]) ?_ _ (by decide) (fun _ h => h)
  refine ⟨rfl, rfl, rfl, fun x hx => ?_⟩
  cases x <;> first | rfl | exact absurd (by decide) hx

theorem padGroup2_spec {env : Env} {p k : Nat} {ha hb : HV} {s : State} (R : Ready env p s) (hk : k < 16) (hI : PInv ra ha k s.x) (hJ : PInv rb hb k s.x) :
    ∃ s', exec env (padGroup2 k) s = s' ∧ XStep [MSG, ra.s0, ra.s1, rb.s0, rb.s1] s s' ∧ PInv ra ha (k + 1) s'.x ∧ PInv rb hb (k + 1) s'.x := by
  rw [padGroup2, exec_cons]
  obtain ⟨s1, q1, x1, w1⟩ := pad_load R hk
  rw [q1]
  have e : exec env [.sha256rnds2 ra.s1 ra.s0, .sha256rnds2 rb.s1 rb.s0, .pshufd MSG MSG 0x0E, .sha256rnds2 ra.s0 ra.s1,
    .sha256rnds2 rb.s0 rb.s1] s1 = { s1 with x := _ } := exec_vregs rfl
  rw [e]
  have h := four_rounds (a := s1.x .x1) (b := s1.x .x2) (wk := s1.x MSG) (h0 := ha) (k := k)
    (by rw [x1.keep _ (by decide)]; exact hI.abef) (by rw [x1.keep _ (by decide)]; exact hI.cdgh) w1 (fun l hl => low_lt (s1.x .x2) _ hl) rfl
    (fun l hl => low_lt (s1.x .x1) _ hl)
  have g := four_rounds (a := s1.x .x9) (b := s1.x .x10) (wk := s1.x MSG) (h0 := hb) (k := k)
    (by rw [x1.keep _ (by decide)]; exact hJ.abef) (by rw [x1.keep _ (by decide)]; exact hJ.cdgh) w1 (fun l hl => low_lt (s1.x .x10) _ hl) rfl
    (fun l hl => low_lt (s1.x .x9) _ hl)
  refine ⟨_, rfl, ?_, ⟨h.1, h.2⟩, g.1, g.2⟩
  refine x1.trans (t := s1) (e := [MSG, ra.s0, ra.s1, rb.s0, rb.s1]) ?_ _ (by decide) (fun _ h => h)
  refine ⟨rfl, rfl, rfl, fun x hx => ?_⟩
  cases x <;> first | rfl | exact absurd (by decide) hx

theorem padGroups1_spec {env : Env} {p : Nat} {h0 : HV} : ∀ (n k : Nat) {s : State}, k + n = 16 → Ready env p s → PInv ra h0 k s.x →
    ∃ s', exec env (padGroups1 n k) s = s' ∧ XStep [MSG, ra.s0, ra.s1] s s' ∧ PInv ra h0 16 s'.x
  | 0, k, s, hk, _, hI => by
    obtain rfl : k = 16 := by omega
    exact ⟨_, rfl, XStep.refl _ _, hI⟩
  | n + 1, k, s, hk, R, hI => by
    rw [padGroups1, exec_append]
    obtain ⟨s1, q1, x1, i1⟩ := padGroup1_spec R (by omega) hI
    rw [q1]
    obtain ⟨s2, q2, x2, i2⟩ := padGroups1_spec n (k + 1) (by omega) (R.step x1 (by decide)) i1
    exact ⟨_, q2, x1.trans x2 _ (fun _ h => h) (fun _ h => h), i2⟩

theorem padGroups2_spec {env : Env} {p : Nat} {ha hb : HV} : ∀ (n k : Nat) {s : State}, k + n = 16 → Ready env p s → PInv ra ha k s.x → PInv rb hb k s.x →
    ∃ s', exec env (padGroups2 n k) s = s' ∧ XStep [MSG, ra.s0, ra.s1, rb.s0, rb.s1] s s' ∧ PInv ra ha 16 s'.x ∧ PInv rb hb 16 s'.x
  | 0, k, s, hk, _, hI, hJ => by
    obtain rfl : k = 16 := by omega
    exact ⟨_, rfl, XStep.refl _ _, hI, hJ⟩
  | n + 1, k, s, hk, R, hI, hJ => by
    rw [padGroups2, exec_append]
    obtain ⟨s1, q1, x1, i1, j1⟩ := padGroup2_spec R (by omega) hI hJ
    rw [q1]
    obtain ⟨s2, q2, x2, i2, j2⟩ := padGroups2_spec n (k + 1) (by omega) (R.step x1 (by decide)) i1 j1
    exact ⟨_, q2, x1.trans x2 _ (fun _ h => h) (fun _ h => h), i2, j2⟩

/-! ## Putting the hash value in order -/

theorem palignr8 (a b : Lanes) {l : Nat} (hl : l < 4) : palignr a b 8 l = if l < 2 then b (l + 2) else a (l - 2) := by
  have : l = 0 ∨ l = 1 ∨ l = 2 ∨ l = 3 := by omega
  rcases this with h | h | h | h <;> subst h <;> exact ofBytes_byteOf _

theorem halves (w : Word) : ((w >>> 16).setWidth 16 ++ w.setWidth 16 : BitVec 32) = w := by
  ext i hi
  rw [BitVec.getElem_append]
  split
  · simp [BitVec.getLsbD_eq_getElem (show i < 32 by omega)]
  · simp only [BitVec.getElem_setWidth, BitVec.getLsbD_ushiftRight]
    rw [show 16 + (i - 16) = i by omega, BitVec.getLsbD_eq_getElem (show i < 32 by omega)]

theorem pblendF0 (a b : Lanes) {l : Nat} (hl : l < 4) : pblendw a b 0xF0 l = if l < 2 then a l else b l := by
  have : l = 0 ∨ l = 1 ∨ l = 2 ∨ l = 3 := by omega
  rcases this with h | h | h | h <;> subst h <;> exact halves _

/-- The first four words of the hash value from the two state vectors. -/
theorem front {h : HV} {a b c mask : Lanes} (ha : ABEF h a) (hb : CDGH h b) (hm : ∀ l, l < 4 → mask l = flipWord l)
    (hc : ∀ l, l < 4 → c l = pblendw (low a (pshufd a 0x1B)) (low b (pshufd b 0xB1)) 0xF0 l) {l : Nat} (hl : l < 4) :
    pshufb c mask l = bswap (h.word l) := by
  obtain ⟨a0, a1, a2, a3⟩ := ha
  obtain ⟨b0, b1, b2, b3⟩ := hb
  rw [pshufb_flip _ _ (by omega) (hm l hl), hc l hl, pblendF0 _ _ hl]
  have : l = 0 ∨ l = 1 ∨ l = 2 ∨ l = 3 := by omega
  rcases this with e | e | e | e <;> subst e
  · exact congrArg bswap a3
  · exact congrArg bswap a2
  · exact congrArg bswap b3
  · exact congrArg bswap b2

/-- The last four words. -/
theorem rear {h : HV} {a b c d mask : Lanes} (ha : ABEF h a) (hb : CDGH h b) (hm : ∀ l, l < 4 → mask l = flipWord l)
    (hd : ∀ l, l < 4 → d l = low a (pshufd a 0x1B) l)
    (hc : ∀ l, l < 4 → c l = palignr (low b (pshufd b 0xB1)) d 8 l) {l : Nat} (hl : l < 4) :
    pshufb c mask l = bswap (h.word (4 + l)) := by
  obtain ⟨a0, a1, a2, a3⟩ := ha
  obtain ⟨b0, b1, b2, b3⟩ := hb
  rw [pshufb_flip _ _ (by omega) (hm l hl), hc l hl, palignr8 _ _ hl]
  have : l = 0 ∨ l = 1 ∨ l = 2 ∨ l = 3 := by omega
  rcases this with e | e | e | e <;> subst e
  · exact congrArg bswap ((hd 2 (by decide)).trans a1)
  · exact congrArg bswap ((hd 3 (by decide)).trans a0)
  · exact congrArg bswap b1
  · exact congrArg bswap b0

/-! ## One block -/

/-- What the one-block path does. -/
structure Done1 (env : Env) (p q : Nat) (s s' : State) : Prop where
  fault : s'.fault = s.fault
  r : s'.r = s.r
  other : ∀ r, r ≠ .output → s'.mem r = s.mem r
  output : ∀ i, i < q ∨ q + 32 ≤ i → s'.mem .output i = s.mem .output i
  hash : bytesAt (s'.mem .output) q 32 = sha256 (bytesAt (s.mem .input) p 64)

theorem stores_hash {m m' : Nat → Byte} {o q : Nat} (h0 : ∀ l, l < 4 → readWord m' (q + 4 * l) = bswap ((compress (compress H0 (msg m o)) padBlock).word l))
    (h1 : ∀ l, l < 4 → readWord m' (q + 16 + 4 * l) = bswap ((compress (compress H0 (msg m o)) padBlock).word (4 + l))) :
    bytesAt m' q 32 = sha256 (bytesAt m o 64) := by
  refine hash_block fun i hi => ?_
  by_cases h : i < 4
  · exact h0 i h
  · have := h1 (i - 4) (by omega)
    rw [show 4 + (i - 4) = i by omega, show q + 16 + 4 * (i - 4) = q + 4 * i by omega] at this
    exact this

theorem one_spec {env : Env} {p q : Nat} {s : State} (R : Ready env p s) (hdi : s.r OUTPUT_PTR = env.ptr .output q)
    (hin : p + 64 ≤ env.size .input) (hout : q + 32 ≤ env.size .output) :
    ∃ s', exec env one s = s' ∧ Done1 env p q s s' := by
  have hs := size_le R.loaded
  have hb := base_mod R.loaded
  have hD : DIGEST = 272 := rfl
  rw [one, exec_append, exec_append, exec_append, exec_append]
  -- loading
  rw [load1, exec_cons, exec_cons]
  obtain ⟨s1, q1, x1, w1⟩ := mload_spec R.valid s ra.s0 (m := .dqa) .shaniRo DIGEST (ea_rel ..) (by omega) (fun _ => by omega)
  rw [q1]; clear q1
  obtain ⟨s2, q2, x2, w2⟩ := mload_spec R.valid s1 ra.s1 (m := .dqa) .shaniRo (DIGEST + 16) (ea_rel ..) (by omega) (fun _ => by omega)
  rw [q2]; clear q2
  have e3 : exec env [.movdqa ABEF_SAVE ra.s0, .movdqa CDGH_SAVE ra.s1] s2 = { s2 with x := _ } := exec_vregs rfl
  rw [e3]; clear e3
  obtain ⟨s3, q3⟩ : ∃ s3 : State, { s2 with x := vregs [.movdqa ABEF_SAVE ra.s0, .movdqa CDGH_SAVE ra.s1] s2.x } = s3 := ⟨_, rfl⟩
  have x3 : XStep [ABEF_SAVE, CDGH_SAVE] s2 s3 := by
    rw [← q3]
    refine ⟨rfl, rfl, rfl, fun x hx => ?_⟩
    cases x <;> first | rfl | exact absurd (by decide) hx
  have y9 : ∀ l, l < 4 → s3.x ABEF_SAVE l = s3.x ra.s0 l := by rw [← q3]; exact fun l hl => low_lt (s2.x ABEF_SAVE) _ hl
  have y10 : ∀ l, l < 4 → s3.x CDGH_SAVE l = s3.x ra.s1 l := by rw [← q3]; exact fun l hl => low_lt (s2.x CDGH_SAVE) _ hl
  rw [q3]; clear q3
  have R3 := ((R.step x1 (by decide)).step x2 (by decide)).step x3 (by decide)
  have A3 : ABEF H0 (s3.x ra.s0) := (digest_abef R.loaded).congr fun l hl => by
    rw [x3.keep _ (by decide), x2.keep _ (by decide)]; exact w1 l hl
  have C3 : CDGH H0 (s3.x ra.s1) := (digest_cdgh (x1.mem ▸ R.loaded)).congr fun l hl => by
    rw [x3.keep _ (by decide)]; exact w2 l hl
  have X3 : XStep [ra.s0, ra.s1, ABEF_SAVE, CDGH_SAVE] s s3 := (x1.trans x2 [ra.s0, ra.s1] (by decide) (by decide)).trans x3 _ (by decide) (by decide)
  -- rounds
  obtain ⟨s4, q4, x4, i4⟩ := groups1_spec (h0 := H0) (mem := s.mem .input) hin 16 0 rfl R3 (by rw [X3.mem]) ⟨Sched.zero _ _ _, A3, C3⟩
  rw [q4]; clear q4
  -- sum
  have e5 : exec env mid1 s4 = { s4 with x := _ } := exec_vregs rfl
  rw [e5]; clear e5
  obtain ⟨s5, q5⟩ : ∃ s5 : State, { s4 with x := vregs mid1 s4.x } = s5 := ⟨_, rfl⟩
  have x5 : XStep [ra.s0, ra.s1, ABEF_SAVE, CDGH_SAVE] s4 s5 := by
    rw [← q5]
    refine ⟨rfl, rfl, rfl, fun x hx => ?_⟩
    cases x <;> first | rfl | exact absurd (by decide) hx
  have z1 : ∀ l, l < 4 → s5.x ra.s0 l = s4.x ra.s0 l + s4.x ABEF_SAVE l := by rw [← q5]; exact fun l hl => low_lt (s4.x ra.s0) (fun l => s4.x ra.s0 l + s4.x ABEF_SAVE l) hl
  have z2 : ∀ l, l < 4 → s5.x ra.s1 l = s4.x ra.s1 l + s4.x CDGH_SAVE l := by rw [← q5]; exact fun l hl => low_lt (s4.x ra.s1) (fun l => s4.x ra.s1 l + s4.x CDGH_SAVE l) hl
  have z9 : ∀ l, l < 4 → s5.x ABEF_SAVE l = s5.x ra.s0 l := by rw [← q5]; exact fun l hl => low_lt (s4.x ABEF_SAVE) _ hl
  have z10 : ∀ l, l < 4 → s5.x CDGH_SAVE l = s5.x ra.s1 l := by rw [← q5]; exact fun l hl => low_lt (s4.x CDGH_SAVE) _ hl
  rw [q5]; clear q5
  have R5 := (R3.step x4 (by decide)).step x5 (by decide)
  have A5 : ABEF (compress H0 (msg (s.mem .input) p)) (s5.x ra.s0) :=
    ABEF.add i4.abef (A3.congr fun l hl => by rw [x4.keep _ (by decide), y9 l hl]) z1
  have C5 : CDGH (compress H0 (msg (s.mem .input) p)) (s5.x ra.s1) :=
    CDGH.add i4.cdgh (C3.congr fun l hl => by rw [x4.keep _ (by decide), y10 l hl]) z2
  obtain ⟨s6, q6, x6, i6⟩ := padGroups1_spec 16 0 rfl R5 ⟨A5, C5⟩
  rw [q6]; clear q6
  have R6 := R5.step x6 (by decide)
  -- the result
  rw [show end1 = [.paddd ra.s0 ABEF_SAVE, .paddd ra.s1 CDGH_SAVE] ++ ([.pshufd ra.s0 ra.s0 0x1B, .pshufd ra.s1 ra.s1 0xB1, .movdqa ra.m4 ra.s0,
    .pblendw ra.s0 ra.s1 0xF0, .palignr ra.s1 ra.m4 8] ++ ([.pshufb ra.s0 SHUF_MASK, .pshufb ra.s1 SHUF_MASK] ++
    [.movStoreX .dqu (.reg OUTPUT_PTR (0 * 16)) ra.s0, .movStoreX .dqu (.reg OUTPUT_PTR (1 * 16)) ra.s1])) from rfl, exec_append, exec_append, exec_append]
  have e7 : exec env [.paddd ra.s0 ABEF_SAVE, .paddd ra.s1 CDGH_SAVE] s6 = { s6 with x := _ } := exec_vregs rfl
  rw [e7]; clear e7
  obtain ⟨s7, q7⟩ : ∃ s7 : State, { s6 with x := vregs [.paddd ra.s0 ABEF_SAVE, .paddd ra.s1 CDGH_SAVE] s6.x } = s7 := ⟨_, rfl⟩
  have x7 : XStep [ra.s0, ra.s1] s6 s7 := by
    rw [← q7]
    refine ⟨rfl, rfl, rfl, fun x hx => ?_⟩
    cases x <;> first | rfl | exact absurd (by decide) hx
  have v1 : ∀ l, l < 4 → s7.x ra.s0 l = s6.x ra.s0 l + s6.x ABEF_SAVE l := by rw [← q7]; exact fun l hl => low_lt (s6.x ra.s0) (fun l => s6.x ra.s0 l + s6.x ABEF_SAVE l) hl
  have v2 : ∀ l, l < 4 → s7.x ra.s1 l = s6.x ra.s1 l + s6.x CDGH_SAVE l := by rw [← q7]; exact fun l hl => low_lt (s6.x ra.s1) (fun l => s6.x ra.s1 l + s6.x CDGH_SAVE l) hl
  rw [q7]; clear q7
  have R7 := R6.step x7 (by decide)
  have A7 : ABEF (compress (compress H0 (msg (s.mem .input) p)) padBlock) (s7.x ra.s0) :=
    ABEF.add i6.abef (A5.congr fun l hl => by rw [x6.keep _ (by decide), z9 l hl]) v1
  have C7 : CDGH (compress (compress H0 (msg (s.mem .input) p)) padBlock) (s7.x ra.s1) :=
    CDGH.add i6.cdgh (C5.congr fun l hl => by rw [x6.keep _ (by decide), z10 l hl]) v2
  have e8 : exec env [.pshufd ra.s0 ra.s0 0x1B, .pshufd ra.s1 ra.s1 0xB1, .movdqa ra.m4 ra.s0, .pblendw ra.s0 ra.s1 0xF0, .palignr ra.s1 ra.m4 8] s7 =
    { s7 with x := _ } := exec_vregs rfl
  rw [e8]; clear e8
  obtain ⟨s8, q8⟩ : ∃ s8 : State, { s7 with x := vregs [.pshufd ra.s0 ra.s0 0x1B, .pshufd ra.s1 ra.s1 0xB1, .movdqa ra.m4 ra.s0,
    .pblendw ra.s0 ra.s1 0xF0, .palignr ra.s1 ra.m4 8] s7.x } = s8 := ⟨_, rfl⟩
  have x8 : XStep [ra.s0, ra.s1, ra.m4] s7 s8 := by
    rw [← q8]
    refine ⟨rfl, rfl, rfl, fun x hx => ?_⟩
    cases x <;> first | rfl | exact absurd (by decide) hx
  have u1 : ∀ l, l < 4 → s8.x ra.s0 l = pblendw (low (s7.x ra.s0) (pshufd (s7.x ra.s0) 0x1B)) (low (s7.x ra.s1) (pshufd (s7.x ra.s1) 0xB1)) 0xF0 l := by
    rw [← q8]; exact fun l hl => low_lt _ _ hl
  have u3 : ∀ l, l < 4 → s8.x ra.m4 l = low (s7.x ra.s0) (pshufd (s7.x ra.s0) 0x1B) l := by
    rw [← q8]; exact fun l hl => low_lt (s7.x ra.m4) _ hl
  have u2 : ∀ l, l < 4 → s8.x ra.s1 l = palignr (low (s7.x ra.s1) (pshufd (s7.x ra.s1) 0xB1)) (s8.x ra.m4) 8 l := by
    rw [← q8]; exact fun l hl => low_lt _ _ hl
  rw [q8]; clear q8
  have R8 := R7.step x8 (by decide)
  have e9 : exec env [.pshufb ra.s0 SHUF_MASK, .pshufb ra.s1 SHUF_MASK] s8 = { s8 with x := _ } := exec_vregs rfl
  rw [e9]; clear e9
  obtain ⟨s9, q9⟩ : ∃ s9 : State, { s8 with x := vregs [.pshufb ra.s0 SHUF_MASK, .pshufb ra.s1 SHUF_MASK] s8.x } = s9 := ⟨_, rfl⟩
  have x9 : XStep [ra.s0, ra.s1] s8 s9 := by
    rw [← q9]
    refine ⟨rfl, rfl, rfl, fun x hx => ?_⟩
    cases x <;> first | rfl | exact absurd (by decide) hx
  have t1 : ∀ l, l < 4 → s9.x ra.s0 l = bswap ((compress (compress H0 (msg (s.mem .input) p)) padBlock).word l) := by
    intro l hl
    rw [← front A7 C7 R8.flip u1 hl, ← q9]
    exact low_lt (s8.x ra.s0) _ hl
  have t2 : ∀ l, l < 4 → s9.x ra.s1 l = bswap ((compress (compress H0 (msg (s.mem .input) p)) padBlock).word (4 + l)) := by
    intro l hl
    rw [← rear A7 C7 R8.flip u3 u2 hl, ← q9]
    exact low_lt (s8.x ra.s1) _ hl
  rw [q9]; clear q9
  have X9 : s9.r = s.r ∧ s9.mem = s.mem ∧ s9.fault = s.fault :=
    ⟨(((((x9.r.trans x8.r).trans x7.r).trans x6.r).trans x5.r).trans x4.r).trans X3.r,
     (((((x9.mem.trans x8.mem).trans x7.mem).trans x6.mem).trans x5.mem).trans x4.mem).trans X3.mem,
     (((((x9.fault.trans x8.fault).trans x7.fault).trans x6.fault).trans x5.fault).trans x4.fault).trans X3.fault⟩
  obtain ⟨s10, q10, m10⟩ := mstore_spec R.valid s9 ra.s0 (m := .dqu) (a := .reg OUTPUT_PTR (0 * 16)) .output q
    (by rw [ea_reg (by rw [X9.1]; exact hdi)]; rfl) (by omega) R.valid.output (fun h => by cases h)
  obtain ⟨s11, q11, m11⟩ := mstore_spec R.valid s10 ra.s1 (m := .dqu) (a := .reg OUTPUT_PTR (1 * 16)) .output (q + 16)
    (by rw [ea_reg (by rw [m10.r, X9.1]; exact hdi)]) (by omega) R.valid.output (fun h => by cases h)
  rw [exec_cons, q10, exec_cons, q11]
  refine ⟨_, rfl, ?_, ?_, fun r hr => ?_, fun i hi => ?_, stores_hash (fun l hl => ?_) fun l hl => ?_⟩
  · exact (m11.fault.trans m10.fault).trans X9.2.2
  · exact (m11.r.trans m10.r).trans X9.1
  · show s11.mem r = _
    rw [m11.other r hr, m10.other r hr, X9.2.1]
  · show s11.mem .output i = _
    rw [m11.outside i (by omega), m10.outside i (by omega), X9.2.1]
  · show readWord (s11.mem .output) _ = _
    rw [m11.keep (by omega), m10.words l hl, t1 l hl]
  · show readWord (s11.mem .output) _ = _
    rw [m11.words l hl, m10.x, t2 l hl]

/-! ## Two blocks -/

theorem vec_spec (env : Env) (is : List Instr) (s : State) (h : (vexec is s.x).isSome = true) :
    ∃ s', exec env is s = s' ∧ s'.r = s.r ∧ s'.mem = s.mem ∧ s'.fault = s.fault ∧ s'.x = vregs is s.x :=
  ⟨_, exec_vregs h, rfl, rfl, rfl, rfl⟩

/-- The registers of the hash values of both blocks. -/
def states : List X := [ra.s0, ra.s1, rb.s0, rb.s1]

/-- The hash values in the registers. -/
structure Both (ha hb : HV) (f : X → Lanes) : Prop where
  a0 : ABEF ha (f ra.s0)
  a1 : CDGH ha (f ra.s1)
  b0 : ABEF hb (f rb.s0)
  b1 : CDGH hb (f rb.s1)

theorem load2_spec {env : Env} {p : Nat} {s : State} (R : Ready env p s) :
    ∃ s', exec env load2 s = s' ∧ XStep states s s' ∧ Both H0 H0 s'.x := by
  have hs := size_le R.loaded
  have hb := base_mod R.loaded
  have hD : DIGEST = 272 := rfl
  obtain ⟨s1, q1, x1, w1⟩ := mload_spec R.valid s ra.s0 (m := .dqa) .shaniRo DIGEST (ea_rel ..) (by omega) (fun _ => by omega)
  obtain ⟨s2, q2, x2, w2⟩ := mload_spec R.valid s1 ra.s1 (m := .dqa) .shaniRo (DIGEST + 16) (ea_rel ..) (by omega) (fun _ => by omega)
  obtain ⟨s3, q3, x3, w3⟩ := mload_spec R.valid s2 rb.s0 (m := .dqa) .shaniRo DIGEST (ea_rel ..) (by omega) (fun _ => by omega)
  obtain ⟨s4, q4, x4, w4⟩ := mload_spec R.valid s3 rb.s1 (m := .dqa) .shaniRo (DIGEST + 16) (ea_rel ..) (by omega) (fun _ => by omega)
  rw [load2, exec_cons, q1, exec_cons, q2, exec_cons, q3, exec_cons, q4, exec_nil]
  have hA := digest_abef R.loaded
  have hC := digest_cdgh R.loaded
  refine ⟨_, rfl, ?_, hA.congr fun l hl => ?_, hC.congr fun l hl => ?_, hA.congr fun l hl => ?_, hC.congr fun l hl => ?_⟩
  · exact ((x1.trans x2 [ra.s0, ra.s1] (by decide) (by decide)).trans x3 [ra.s0, ra.s1, rb.s0] (by decide) (by decide)).trans x4 _ (by decide) (by decide)
  · rw [x4.keep _ (by decide), x3.keep _ (by decide), x2.keep _ (by decide)]; exact w1 l hl
  · rw [x4.keep _ (by decide), x3.keep _ (by decide), w2 l hl, x1.mem]
  · rw [x4.keep _ (by decide), w3 l hl, x2.mem, x1.mem]
  · rw [w4 l hl, x3.mem, x2.mem, x1.mem]

/-- Adding four vectors of a section to the hash values. -/
theorem add4_spec {env : Env} (hv : env.Valid) {rg : Region} {o1 o2 o3 o4 : Nat} (h1 : o1 + 16 ≤ env.size rg) (h2 : o2 + 16 ≤ env.size rg)
    (h3 : o3 + 16 ≤ env.size rg) (h4 : o4 + 16 ≤ env.size rg) (l1 : (env.base rg + o1) % 16 = 0) (l2 : (env.base rg + o2) % 16 = 0)
    (l3 : (env.base rg + o3) % 16 = 0) (l4 : (env.base rg + o4) % 16 = 0) {ha hb ka kb : HV} {s : State} (B : Both ha hb s.x)
    (k1 : ABEF ka fun l => readWord (s.mem rg) (o1 + 4 * l)) (k2 : CDGH ka fun l => readWord (s.mem rg) (o2 + 4 * l))
    (k3 : ABEF kb fun l => readWord (s.mem rg) (o3 + 4 * l)) (k4 : CDGH kb fun l => readWord (s.mem rg) (o4 + 4 * l)) :
    ∃ s', exec env [.padddLoad ra.s0 (.rel rg o1), .padddLoad ra.s1 (.rel rg o2), .padddLoad rb.s0 (.rel rg o3), .padddLoad rb.s1 (.rel rg o4)] s = s' ∧
      XStep states s s' ∧ Both (ha.add ka) (hb.add kb) s'.x := by
  obtain ⟨s1, q1, x1, w1⟩ := madd_spec hv s ra.s0 rg o1 (ea_rel ..) h1 l1
  obtain ⟨s2, q2, x2, w2⟩ := madd_spec hv s1 ra.s1 rg o2 (ea_rel ..) h2 l2
  obtain ⟨s3, q3, x3, w3⟩ := madd_spec hv s2 rb.s0 rg o3 (ea_rel ..) h3 l3
  obtain ⟨s4, q4, x4, w4⟩ := madd_spec hv s3 rb.s1 rg o4 (ea_rel ..) h4 l4
  rw [exec_cons, q1, exec_cons, q2, exec_cons, q3, exec_cons, q4, exec_nil]
  refine ⟨_, rfl, ?_, ABEF.add B.a0 k1 fun l hl => ?_, CDGH.add B.a1 k2 fun l hl => ?_, ABEF.add B.b0 k3 fun l hl => ?_, CDGH.add B.b1 k4 fun l hl => ?_⟩
  · exact ((x1.trans x2 [ra.s0, ra.s1] (by decide) (by decide)).trans x3 [ra.s0, ra.s1, rb.s0] (by decide) (by decide)).trans x4 _ (by decide) (by decide)
  · rw [x4.keep _ (by decide), x3.keep _ (by decide), x2.keep _ (by decide)]; exact w1 l hl
  · rw [x4.keep _ (by decide), x3.keep _ (by decide), w2 l hl, x1.keep _ (by decide), x1.mem]
  · rw [x4.keep _ (by decide), w3 l hl, x2.keep _ (by decide), x1.keep _ (by decide), x2.mem, x1.mem]
  · rw [w4 l hl, x3.keep _ (by decide), x2.keep _ (by decide), x1.keep _ (by decide), x3.mem, x2.mem, x1.mem]

/-- Four stores to four places of a section that do not overlap. -/
structure Stored4 (rg : Region) (o : Nat) (s s' : State) : Prop where
  r : s'.r = s.r
  x : s'.x = s.x
  fault : s'.fault = s.fault
  other : ∀ q, q ≠ rg → s'.mem q = s.mem q
  outside : ∀ i, i < o ∨ o + 64 ≤ i → s'.mem rg i = s.mem rg i
  w0 : ∀ l, l < 4 → readWord (s'.mem rg) (o + 4 * l) = s.x ra.s0 l
  w1 : ∀ l, l < 4 → readWord (s'.mem rg) (o + 16 + 4 * l) = s.x ra.s1 l
  w2 : ∀ l, l < 4 → readWord (s'.mem rg) (o + 32 + 4 * l) = s.x rb.s0 l
  w3 : ∀ l, l < 4 → readWord (s'.mem rg) (o + 48 + 4 * l) = s.x rb.s1 l

theorem stored4 {rg : Region} {o : Nat} {s s1 s2 s3 s4 : State} (m1 : Stored rg o (s.x ra.s0) s s1) (m2 : Stored rg (o + 16) (s1.x ra.s1) s1 s2)
    (m3 : Stored rg (o + 32) (s2.x rb.s0) s2 s3) (m4 : Stored rg (o + 48) (s3.x rb.s1) s3 s4) : Stored4 rg o s s4 := by
  refine ⟨?_, ?_, ?_, fun q hq => ?_, fun i hi => ?_, fun l hl => ?_, fun l hl => ?_, fun l hl => ?_, fun l hl => ?_⟩
  · rw [m4.r, m3.r, m2.r, m1.r]
  · rw [m4.x, m3.x, m2.x, m1.x]
  · rw [m4.fault, m3.fault, m2.fault, m1.fault]
  · rw [m4.other q hq, m3.other q hq, m2.other q hq, m1.other q hq]
  · rw [m4.outside i (by omega), m3.outside i (by omega), m2.outside i (by omega), m1.outside i (by omega)]
  · rw [m4.keep (by omega), m3.keep (by omega), m2.keep (by omega), m1.words l hl]
  · rw [m4.keep (by omega), m3.keep (by omega), m2.words l hl, m1.x]
  · rw [m4.keep (by omega), m3.words l hl, m2.x, m1.x]
  · rw [m4.words l hl, m3.x, m2.x, m1.x]

theorem save_spec {env : Env} (hv : env.Valid) {s : State} (L : Loaded env s.mem) (hw : env.writable .shaniRw = true) :
    ∃ s', exec env [.movStoreX .dqa (.rel .shaniRw ABEF_SAVEa) ra.s0, .movStoreX .dqa (.rel .shaniRw CDGH_SAVEa) ra.s1,
      .movStoreX .dqa (.rel .shaniRw ABEF_SAVEb) rb.s0, .movStoreX .dqa (.rel .shaniRw CDGH_SAVEb) rb.s1] s = s' ∧ Stored4 .shaniRw 0 s s' := by
  have hs := L.sizeRw hw
  have hb := base_rw L
  obtain ⟨s1, q1, m1⟩ := mstore_spec hv s ra.s0 (m := .dqa) (a := .rel .shaniRw ABEF_SAVEa) .shaniRw 0 (ea_rel ..) (by omega) hw (fun _ => by omega)
  obtain ⟨s2, q2, m2⟩ := mstore_spec hv s1 ra.s1 (m := .dqa) (a := .rel .shaniRw CDGH_SAVEa) .shaniRw (0 + 16) (ea_rel ..) (by omega) hw (fun _ => by omega)
  obtain ⟨s3, q3, m3⟩ := mstore_spec hv s2 rb.s0 (m := .dqa) (a := .rel .shaniRw ABEF_SAVEb) .shaniRw (0 + 32) (ea_rel ..) (by omega) hw (fun _ => by omega)
  obtain ⟨s4, q4, m4⟩ := mstore_spec hv s3 rb.s1 (m := .dqa) (a := .rel .shaniRw CDGH_SAVEb) .shaniRw (0 + 48) (ea_rel ..) (by omega) hw (fun _ => by omega)
  rw [exec_cons, q1, exec_cons, q2, exec_cons, q3, exec_cons, q4, exec_nil]
  exact ⟨_, rfl, stored4 m1 m2 m3 m4⟩

theorem write_spec {env : Env} (hv : env.Valid) {s : State} {q : Nat} (hdi : s.r OUTPUT_PTR = env.ptr .output q) (hout : q + 64 ≤ env.size .output) :
    ∃ s', exec env [.movStoreX .dqu (.reg OUTPUT_PTR (0 * 16)) ra.s0, .movStoreX .dqu (.reg OUTPUT_PTR (1 * 16)) ra.s1,
      .movStoreX .dqu (.reg OUTPUT_PTR (2 * 16)) rb.s0, .movStoreX .dqu (.reg OUTPUT_PTR (3 * 16)) rb.s1] s = s' ∧ Stored4 .output q s s' := by
  obtain ⟨s1, q1, m1⟩ := mstore_spec hv s ra.s0 (m := .dqu) (a := .reg OUTPUT_PTR (0 * 16)) .output q
    (by rw [ea_reg hdi]; rfl) (by omega) hv.output (fun h => by cases h)
  obtain ⟨s2, q2, m2⟩ := mstore_spec hv s1 ra.s1 (m := .dqu) (a := .reg OUTPUT_PTR (1 * 16)) .output (q + 16)
    (by rw [ea_reg (by rw [m1.r]; exact hdi)]) (by omega) hv.output (fun h => by cases h)
  obtain ⟨s3, q3, m3⟩ := mstore_spec hv s2 rb.s0 (m := .dqu) (a := .reg OUTPUT_PTR (2 * 16)) .output (q + 32)
    (by rw [ea_reg (by rw [m2.r, m1.r]; exact hdi)]) (by omega) hv.output (fun h => by cases h)
  obtain ⟨s4, q4, m4⟩ := mstore_spec hv s3 rb.s1 (m := .dqu) (a := .reg OUTPUT_PTR (3 * 16)) .output (q + 48)
    (by rw [ea_reg (by rw [m3.r, m2.r, m1.r]; exact hdi)]) (by omega) hv.output (fun h => by cases h)
  rw [exec_cons, q1, exec_cons, q2, exec_cons, q3, exec_cons, q4, exec_nil]
  exact ⟨_, rfl, stored4 m1 m2 m3 m4⟩

/-- The part of `end2` that puts the words in order. -/
def order2 : List Instr :=
  [.pshufd ra.s0 ra.s0 0x1B, .pshufd ra.s1 ra.s1 0xB1, .pshufd rb.s0 rb.s0 0x1B, .pshufd rb.s1 rb.s1 0xB1,
   .movdqa ra.m4 ra.s0, .movdqa rb.m4 rb.s0, .pblendw ra.s0 ra.s1 0xF0, .pblendw rb.s0 rb.s1 0xF0,
   .palignr ra.s1 ra.m4 8, .palignr rb.s1 rb.m4 8]

/-- The part of `end2` that reverses the bytes. -/
def flip2 : List Instr := [.pshufb ra.s0 SHUF_MASK, .pshufb rb.s0 SHUF_MASK, .pshufb ra.s1 SHUF_MASK, .pshufb rb.s1 SHUF_MASK]

theorem order2_spec {env : Env} {ha hb : HV} {s : State} (B : Both ha hb s.x) (hm : ∀ l, l < 4 → s.x SHUF_MASK l = flipWord l) :
    ∃ s', exec env (order2 ++ flip2) s = s' ∧ XStep (states ++ [ra.m4, rb.m4]) s s' ∧
      (∀ l, l < 4 → s'.x ra.s0 l = bswap (ha.word l)) ∧ (∀ l, l < 4 → s'.x ra.s1 l = bswap (ha.word (4 + l))) ∧
      (∀ l, l < 4 → s'.x rb.s0 l = bswap (hb.word l)) ∧ ∀ l, l < 4 → s'.x rb.s1 l = bswap (hb.word (4 + l)) := by
  rw [exec_append]
  obtain ⟨s1, q1, r1, m1, f1, g1⟩ := vec_spec env order2 s rfl
  rw [q1]; clear q1
  obtain ⟨s2, q2, r2, m2, f2, g2⟩ := vec_spec env flip2 s1 rfl
  rw [q2]; clear q2
  have K1 : ∀ x, x ∉ states ++ [ra.m4, rb.m4] → s1.x x = s.x x := fun x hx => by
    rw [g1]; cases x <;> first | rfl | exact absurd (by decide) hx
  have K2 : ∀ x, x ∉ states ++ [ra.m4, rb.m4] → s2.x x = s1.x x := fun x hx => by
    rw [g2]; cases x <;> first | rfl | exact absurd (by decide) hx
  have hm1 : ∀ l, l < 4 → s1.x SHUF_MASK l = flipWord l := by rw [K1 _ (by decide)]; exact hm
  have ua1 : ∀ l, l < 4 → s1.x ra.s0 l = pblendw (low (s.x ra.s0) (pshufd (s.x ra.s0) 0x1B)) (low (s.x ra.s1) (pshufd (s.x ra.s1) 0xB1)) 0xF0 l := by
    rw [g1]; exact fun l hl => low_lt _ _ hl
  have ua3 : ∀ l, l < 4 → s1.x ra.m4 l = low (s.x ra.s0) (pshufd (s.x ra.s0) 0x1B) l := by
    rw [g1]; exact fun l hl => low_lt (s.x ra.m4) _ hl
  have ua2 : ∀ l, l < 4 → s1.x ra.s1 l = palignr (low (s.x ra.s1) (pshufd (s.x ra.s1) 0xB1)) (s1.x ra.m4) 8 l := by
    rw [g1]; exact fun l hl => low_lt _ _ hl
  have ub1 : ∀ l, l < 4 → s1.x rb.s0 l = pblendw (low (s.x rb.s0) (pshufd (s.x rb.s0) 0x1B)) (low (s.x rb.s1) (pshufd (s.x rb.s1) 0xB1)) 0xF0 l := by
    rw [g1]; exact fun l hl => low_lt _ _ hl
  have ub3 : ∀ l, l < 4 → s1.x rb.m4 l = low (s.x rb.s0) (pshufd (s.x rb.s0) 0x1B) l := by
    rw [g1]; exact fun l hl => low_lt (s.x rb.m4) _ hl
  have ub2 : ∀ l, l < 4 → s1.x rb.s1 l = palignr (low (s.x rb.s1) (pshufd (s.x rb.s1) 0xB1)) (s1.x rb.m4) 8 l := by
    rw [g1]; exact fun l hl => low_lt _ _ hl
  refine ⟨_, rfl, ⟨r2.trans r1, m2.trans m1, f2.trans f1, fun x hx => (K2 x hx).trans (K1 x hx)⟩, fun l hl => ?_, fun l hl => ?_, fun l hl => ?_,
    fun l hl => ?_⟩
  · rw [← front B.a0 B.a1 hm1 ua1 hl, g2]; exact low_lt (s1.x ra.s0) _ hl
  · rw [← rear B.a0 B.a1 hm1 ua3 ua2 hl, g2]; exact low_lt (s1.x ra.s1) _ hl
  · rw [← front B.b0 B.b1 hm1 ub1 hl, g2]; exact low_lt (s1.x rb.s0) _ hl
  · rw [← rear B.b0 B.b1 hm1 ub3 ub2 hl, g2]; exact low_lt (s1.x rb.s1) _ hl

/-- The hash values in the scratch memory. -/
structure Saved (ha hb : HV) (m : Nat → Byte) : Prop where
  a0 : ABEF ha fun l => readWord m (ABEF_SAVEa + 4 * l)
  a1 : CDGH ha fun l => readWord m (CDGH_SAVEa + 4 * l)
  b0 : ABEF hb fun l => readWord m (ABEF_SAVEb + 4 * l)
  b1 : CDGH hb fun l => readWord m (CDGH_SAVEb + 4 * l)

/-- The two-block path up to the point where the hash values have been saved. -/
def twoFront : List Instr := load2 ++ (groups2 16 0 ++ mid2)
/-- The two-block path after that. -/
def twoRear : List Instr := padGroups2 16 0 ++ end2

theorem two_eq : two = twoFront ++ twoRear := by
  rw [two, twoFront, twoRear, List.append_assoc, List.append_assoc]

/-- What the first part of the two-block path does. -/
structure Front (env : Env) (p : Nat) (s s' : State) : Prop where
  r : s'.r = s.r
  fault : s'.fault = s.fault
  flip : s'.x SHUF_MASK = s.x SHUF_MASK
  other : ∀ r, r ≠ .shaniRw → s'.mem r = s.mem r
  ready : Ready env p s'
  both : Both (compress H0 (msg (s.mem .input) p)) (compress H0 (msg (s.mem .input) (p + 64))) s'.x
  saved : Saved (compress H0 (msg (s.mem .input) p)) (compress H0 (msg (s.mem .input) (p + 64))) (s'.mem .shaniRw)

theorem front_spec {env : Env} {p : Nat} {s : State} (R : Ready env p s) (hin : p + 128 ≤ env.size .input) (hw : env.writable .shaniRw = true) :
    ∃ s', exec env twoFront s = s' ∧ Front env p s s' := by
  have hs := size_le R.loaded
  have hb := base_mod R.loaded
  have hsw := R.loaded.sizeRw hw
  have hbw := base_rw R.loaded
  have hD : DIGEST = 272 := rfl
  rw [twoFront, exec_append, exec_append]
  obtain ⟨s1, q1, x1, b1⟩ := load2_spec R
  rw [q1]; clear q1
  have R1 := R.step x1 (by decide)
  obtain ⟨s2, q2, x2, i2, j2⟩ := groups2_spec (h0 := H0) (mem := s.mem .input) hin 16 0 rfl R1 (by rw [x1.mem]) ⟨Sched.zero _ _ _, b1.a0, b1.a1⟩
    ⟨Sched.zero _ _ _, b1.b0, b1.b1⟩
  rw [q2]; clear q2
  have R2 := R1.step x2 (by decide)
  rw [show mid2 = [.padddLoad ra.s0 (.rel .shaniRo DIGEST), .padddLoad ra.s1 (.rel .shaniRo (DIGEST + 16)), .padddLoad rb.s0 (.rel .shaniRo DIGEST),
    .padddLoad rb.s1 (.rel .shaniRo (DIGEST + 16))] ++ [.movStoreX .dqa (.rel .shaniRw ABEF_SAVEa) ra.s0, .movStoreX .dqa (.rel .shaniRw CDGH_SAVEa) ra.s1,
      .movStoreX .dqa (.rel .shaniRw ABEF_SAVEb) rb.s0, .movStoreX .dqa (.rel .shaniRw CDGH_SAVEb) rb.s1] from rfl, exec_append]
  obtain ⟨s3, q3, x3, b3⟩ := add4_spec (env := env) R.valid (rg := .shaniRo) (o1 := DIGEST) (o2 := DIGEST + 16) (o3 := DIGEST) (o4 := DIGEST + 16)
    (by omega) (by omega) (by omega) (by omega) (by omega) (by omega) (by omega) (by omega)
    (s := s2) ⟨i2.abef, i2.cdgh, j2.abef, j2.cdgh⟩ (digest_abef R2.loaded) (digest_cdgh R2.loaded) (digest_abef R2.loaded) (digest_cdgh R2.loaded)
  rw [q3]; clear q3
  have R3 := R2.step x3 (by decide)
  obtain ⟨s4, q4, m4⟩ := save_spec R.valid R3.loaded hw
  rw [q4]; clear q4
  have R4 : Ready env p s4 := by
    refine ⟨R.valid, R3.loaded.congr fun r _ _ h => m4.other r h, ?_, ?_, ?_, ?_⟩
    · rw [m4.r]; exact R3.rax
    · rw [m4.r]; exact R3.rcx
    · rw [m4.r]; exact R3.rsi
    · rw [m4.x]; exact R3.flip
  change Both (compress H0 (msg (s.mem .input) p)) (compress H0 (msg (s.mem .input) (p + 64))) s3.x at b3
  refine ⟨_, rfl, ?_, ?_, ?_, fun r hr => ?_, R4, by rw [m4.x]; exact b3, ⟨b3.a0.congr m4.w0, b3.a1.congr m4.w1, b3.b0.congr m4.w2, b3.b1.congr m4.w3⟩⟩
  · rw [m4.r, x3.r, x2.r, x1.r]
  · rw [m4.fault, x3.fault, x2.fault, x1.fault]
  · rw [m4.x, x3.keep _ (by decide), x2.keep _ (by decide), x1.keep _ (by decide)]
  · rw [m4.other r hr, x3.mem, x2.mem, x1.mem]

/-- What the second part of the two-block path does, given the hash values `ha`, `hb` in the registers and `ka`, `kb` in the scratch memory. -/
structure Rear (env : Env) (p q : Nat) (ha hb ka kb : HV) (s s' : State) : Prop where
  fault : s'.fault = s.fault
  regs : ∀ r, r ∉ [DATA_PTR, OUTPUT_PTR, NUM_BLKS] → s'.r r = s.r r
  rsi : s'.r DATA_PTR = env.ptr .input (p + 128)
  rdi : s'.r OUTPUT_PTR = env.ptr .output (q + 64)
  rdx : s'.r NUM_BLKS = s.r NUM_BLKS - 2
  flip : s'.x SHUF_MASK = s.x SHUF_MASK
  other : ∀ r, r ≠ .output → s'.mem r = s.mem r
  output : ∀ i, i < q ∨ q + 64 ≤ i → s'.mem .output i = s.mem .output i
  w0 : ∀ l, l < 4 → readWord (s'.mem .output) (q + 4 * l) = bswap (((rounds padBlock 64 ha).add ka).word l)
  w1 : ∀ l, l < 4 → readWord (s'.mem .output) (q + 16 + 4 * l) = bswap (((rounds padBlock 64 ha).add ka).word (4 + l))
  w2 : ∀ l, l < 4 → readWord (s'.mem .output) (q + 32 + 4 * l) = bswap (((rounds padBlock 64 hb).add kb).word l)
  w3 : ∀ l, l < 4 → readWord (s'.mem .output) (q + 48 + 4 * l) = bswap (((rounds padBlock 64 hb).add kb).word (4 + l))

theorem rear_spec {env : Env} {p q : Nat} {ha hb ka kb : HV} {s : State} (R : Ready env p s) (hdi : s.r OUTPUT_PTR = env.ptr .output q)
    (hout : q + 64 ≤ env.size .output) (B : Both ha hb s.x) (S : Saved ka kb (s.mem .shaniRw))
    (hw : env.writable .shaniRw = true) :
    ∃ s', exec env twoRear s = s' ∧ Rear env p q ha hb ka kb s s' := by
  have hsw := R.loaded.sizeRw hw
  have hbw := base_rw R.loaded
  rw [twoRear, exec_append]
  obtain ⟨s5, q5, x5, i5, j5⟩ := padGroups2_spec 16 0 rfl R ⟨B.a0, B.a1⟩ ⟨B.b0, B.b1⟩
  rw [q5]; clear q5
  have R5 := R.step x5 (by decide)
  rw [show end2 = [.padddLoad ra.s0 (.rel .shaniRw ABEF_SAVEa), .padddLoad ra.s1 (.rel .shaniRw CDGH_SAVEa), .padddLoad rb.s0 (.rel .shaniRw ABEF_SAVEb),
    .padddLoad rb.s1 (.rel .shaniRw CDGH_SAVEb)] ++ ((order2 ++ flip2) ++ ([.movStoreX .dqu (.reg OUTPUT_PTR (0 * 16)) ra.s0,
      .movStoreX .dqu (.reg OUTPUT_PTR (1 * 16)) ra.s1, .movStoreX .dqu (.reg OUTPUT_PTR (2 * 16)) rb.s0, .movStoreX .dqu (.reg OUTPUT_PTR (3 * 16)) rb.s1] ++
      [.addImm DATA_PTR 128, .addImm OUTPUT_PTR 64, .subImm NUM_BLKS 2])) from rfl, exec_append, exec_append, exec_append]
  obtain ⟨s6, q6, x6, b6⟩ := add4_spec (env := env) R.valid (rg := .shaniRw) (o1 := ABEF_SAVEa) (o2 := CDGH_SAVEa) (o3 := ABEF_SAVEb) (o4 := CDGH_SAVEb)
    (by simp only [ABEF_SAVEa]; omega) (by simp only [CDGH_SAVEa]; omega) (by simp only [ABEF_SAVEb]; omega) (by simp only [CDGH_SAVEb]; omega)
    (by simp only [ABEF_SAVEa]; omega) (by simp only [CDGH_SAVEa]; omega) (by simp only [ABEF_SAVEb]; omega) (by simp only [CDGH_SAVEb]; omega)
    (s := s5) (ka := ka) (kb := kb) ⟨i5.abef, i5.cdgh, j5.abef, j5.cdgh⟩
    (by rw [x5.mem]; exact S.a0) (by rw [x5.mem]; exact S.a1) (by rw [x5.mem]; exact S.b0) (by rw [x5.mem]; exact S.b1)
  rw [q6]; clear q6
  have R6 := R5.step x6 (by decide)
  change Both ((rounds padBlock 64 ha).add ka) ((rounds padBlock 64 hb).add kb) s6.x at b6
  obtain ⟨s7, q7, x7, t0, t1, t2, t3⟩ := order2_spec (env := env) b6 R6.flip
  rw [q7]; clear q7
  have hr7 : s7.r = s.r := by rw [x7.r, x6.r, x5.r]
  have hm7 : s7.mem = s.mem := by rw [x7.mem, x6.mem, x5.mem]
  have hf7 : s7.fault = s.fault := by rw [x7.fault, x6.fault, x5.fault]
  have hx7 : s7.x SHUF_MASK = s.x SHUF_MASK := by
    rw [x7.keep _ (by decide), x6.keep _ (by decide), x5.keep _ (by decide)]
  obtain ⟨s8, q8, m8⟩ := write_spec R.valid (s := s7) (q := q) (by rw [hr7]; exact hdi) hout
  rw [q8]; clear q8
  refine ⟨_, rfl, m8.fault.trans hf7, fun r hr => ?_, ?_, ?_, ?_, ?_, fun r h1 => ?_, fun i hi => ?_, fun l hl => ?_, fun l hl => ?_,
    fun l hl => ?_, fun l hl => ?_⟩
  · rw [← hr7, ← m8.r]
    simp only [List.mem_cons, List.not_mem_nil, or_false, not_or] at hr
    show upd (upd (upd s8.r _ _) _ _) _ _ r = _
    rw [upd_ne _ _ hr.2.2, upd_ne _ _ hr.2.1, upd_ne _ _ hr.1]
  · show s8.r DATA_PTR + BitVec.ofNat 64 128 = _
    rw [m8.r, hr7, R.rsi, ptr_add]
  · show s8.r OUTPUT_PTR + BitVec.ofNat 64 64 = _
    rw [m8.r, hr7, hdi, ptr_add]
  · show s8.r NUM_BLKS - 2 = _
    rw [m8.r, hr7]
  · show s8.x SHUF_MASK = _
    rw [m8.x, hx7]
  · show s8.mem r = _
    rw [m8.other r h1, hm7]
  · show s8.mem .output i = _
    rw [m8.outside i hi, hm7]
  · show readWord (s8.mem .output) _ = _
    rw [m8.w0 l hl, t0 l hl]
  · show readWord (s8.mem .output) _ = _
    rw [m8.w1 l hl, t1 l hl]
  · show readWord (s8.mem .output) _ = _
    rw [m8.w2 l hl, t2 l hl]
  · show readWord (s8.mem .output) _ = _
    rw [m8.w3 l hl, t3 l hl]

/-- What the two-block path does. -/
structure Done2 (env : Env) (p q : Nat) (s s' : State) : Prop where
  fault : s'.fault = s.fault
  regs : ∀ r, r ∉ [DATA_PTR, OUTPUT_PTR, NUM_BLKS] → s'.r r = s.r r
  rsi : s'.r DATA_PTR = env.ptr .input (p + 128)
  rdi : s'.r OUTPUT_PTR = env.ptr .output (q + 64)
  rdx : s'.r NUM_BLKS = s.r NUM_BLKS - 2
  flip : s'.x SHUF_MASK = s.x SHUF_MASK
  other : ∀ r, r ≠ .output → r ≠ .shaniRw → s'.mem r = s.mem r
  output : ∀ i, i < q ∨ q + 64 ≤ i → s'.mem .output i = s.mem .output i
  hash0 : bytesAt (s'.mem .output) q 32 = sha256 (bytesAt (s.mem .input) p 64)
  hash1 : bytesAt (s'.mem .output) (q + 32) 32 = sha256 (bytesAt (s.mem .input) (p + 64) 64)
  saved : Saved (compress H0 (msg (s.mem .input) p)) (compress H0 (msg (s.mem .input) (p + 64))) (s'.mem .shaniRw)

theorem two_spec {env : Env} {p q : Nat} {s : State} (R : Ready env p s) (hdi : s.r OUTPUT_PTR = env.ptr .output q)
    (hin : p + 128 ≤ env.size .input) (hout : q + 64 ≤ env.size .output) (hw : env.writable .shaniRw = true) :
    ∃ s', exec env two s = s' ∧ Done2 env p q s s' := by
  rw [two_eq, exec_append]
  obtain ⟨s4, q4, F⟩ := front_spec R hin hw
  rw [q4]; clear q4
  obtain ⟨s8, q8, D⟩ := rear_spec F.ready (by rw [F.r]; exact hdi) hout F.both F.saved hw
  refine ⟨s8, q8, D.fault.trans F.fault, fun r hr => (D.regs r hr).trans (congrFun F.r r), D.rsi, D.rdi, D.rdx.trans (by rw [F.r]), D.flip.trans F.flip,
    fun r h1 h2 => (D.other r h1).trans (F.other r h2), fun i hi => (D.output i hi).trans (by rw [F.other _ (by decide)]), stores_hash D.w0 D.w1,
    stores_hash D.w2 (fun l hl => ?_), by rw [D.other _ (by decide)]; exact F.saved⟩
  rw [Nat.add_assoc q 32 16]; exact D.w3 l hl

end Mammon.X86.Shani
