import Verif.Proofs.OneSched
import Verif.Proofs.FourLoop
/-!
# The rounds of the routine with the SHA instructions
-/

namespace Mammon.X86

theorem low_lt (old v : Lanes) {l : Nat} (h : l < 4) : low old v l = v l := if_pos h

theorem step_movLoadX {env : Env} (hv : env.Valid) {s : State} {m : Mov} (d : X) {a : Addr} {r : Region} {o : Nat}
    (ha : s.ea env a = env.ptr r o) (h : o + 16 ≤ env.size r) (hal : m = .dqa → (env.base r + o) % 16 = 0) :
    step env s (.movLoadX m d a) = s.setX d (low (s.x d) fun l => readWord (s.mem r) (o + 4 * l)) := by
  have hm : m.aligned 4 (env.ptr r o) = true := by
    by_cases hm : m = .dqa
    · exact aligned_ptr hv m (by omega) (hal hm)
    · simp [Mov.aligned, hm]
  simp only [step, State.vread, ha, canRead_ptr hv (r := r) (o := o) (n := 4) (by decide) h, hm,
    read_ptr hv _ (r := r) (o := o) (n := 4) (by decide) h, Bool.and_self, check_true]

theorem step_padddLoad {env : Env} (hv : env.Valid) {s : State} (d : X) {a : Addr} {r : Region} {o : Nat}
    (ha : s.ea env a = env.ptr r o) (h : o + 16 ≤ env.size r) (hal : (env.base r + o) % 16 = 0) :
    step env s (.padddLoad d a) = s.setX d (low (s.x d) fun l => s.x d l + readWord (s.mem r) (o + 4 * l)) := by
  have hm : Mov.aligned .dqa 4 (env.ptr r o) = true := aligned_ptr hv _ (by omega) hal
  simp only [step, State.vread, ha, canRead_ptr hv (r := r) (o := o) (n := 4) (by decide) h, hm,
    read_ptr hv _ (r := r) (o := o) (n := 4) (by decide) h, Bool.and_self, check_true]

theorem step_movStoreX {env : Env} (hv : env.Valid) {s : State} {m : Mov} (t : X) {a : Addr} {r : Region} {o : Nat}
    (ha : s.ea env a = env.ptr r o) (h : o + 16 ≤ env.size r) (hr : env.writable r = true) (hal : m = .dqa → (env.base r + o) % 16 = 0) :
    step env s (.movStoreX m a t) = { s with mem := upd s.mem r (writeLanes 4 (s.mem r) o (s.x t)) } := by
  have hm : m.aligned 4 (env.ptr r o) = true := by
    by_cases hm : m = .dqa
    · exact aligned_ptr hv m (by omega) (hal hm)
    · simp [Mov.aligned, hm]
  simp only [step, State.vwrite, ha, canWrite_ptr hv (r := r) (o := o) (n := 4) (by decide) h, hm,
    write_ptr hv _ _ (r := r) (o := o) (n := 4) (by decide) h, hr, Bool.and_self, Bool.not_true, Bool.or_false]

end Mammon.X86

namespace Mammon.X86.Shani
open Spec.SHA256 One

/-! ## The instructions -/

/-- The lanes hold F, E, B, A. -/
def ABEF (hv : HV) (f : Lanes) : Prop := f 0 = hv.f ∧ f 1 = hv.e ∧ f 2 = hv.b ∧ f 3 = hv.a
/-- The lanes hold H, G, D, C. -/
def CDGH (hv : HV) (f : Lanes) : Prop := f 0 = hv.h ∧ f 1 = hv.g ∧ f 2 = hv.d ∧ f 3 = hv.c

theorem ABEF.congr {hv : HV} {f g : Lanes} (h : ABEF hv f) (e : ∀ l, l < 4 → g l = f l) : ABEF hv g := by
  obtain ⟨h0, h1, h2, h3⟩ := h
  exact ⟨(e 0 (by decide)).trans h0, (e 1 (by decide)).trans h1, (e 2 (by decide)).trans h2, (e 3 (by decide)).trans h3⟩

theorem CDGH.congr {hv : HV} {f g : Lanes} (h : CDGH hv f) (e : ∀ l, l < 4 → g l = f l) : CDGH hv g := by
  obtain ⟨h0, h1, h2, h3⟩ := h
  exact ⟨(e 0 (by decide)).trans h0, (e 1 (by decide)).trans h1, (e 2 (by decide)).trans h2, (e 3 (by decide)).trans h3⟩

theorem rnds2_new {hv : HV} {dest src wk : Lanes} {w0 w1 : Word} (hs : ABEF hv src) (hd : CDGH hv dest) (h0 : wk 0 = w0) (h1 : wk 1 = w1) :
    ABEF (rnd w1 (rnd w0 hv)) (sha256rnds2 dest src wk) := by
  obtain ⟨s0, s1, s2, s3⟩ := hs
  obtain ⟨d0, d1, d2, d3⟩ := hd
  have hch : ∀ e f g, iCh e f g = ch e f g := fun _ _ _ => rfl
  have hmaj : ∀ e f g, iMaj e f g = maj e f g := fun _ _ _ => rfl
  have hS0 : ∀ e, iS0 e = bsig0 e := fun _ => rfl
  have hS1 : ∀ e, iS1 e = bsig1 e := fun _ => rfl
  have e1 : ch hv.e hv.f hv.g + bsig1 hv.e + w0 + hv.h + hv.d = hv.d + (hv.h + bsig1 hv.e + ch hv.e hv.f hv.g + w0) := by ac_rfl
  have a1 : ch hv.e hv.f hv.g + bsig1 hv.e + w0 + hv.h + maj hv.a hv.b hv.c + bsig0 hv.a =
    hv.h + bsig1 hv.e + ch hv.e hv.f hv.g + w0 + (bsig0 hv.a + maj hv.a hv.b hv.c) := by ac_rfl
  refine ⟨?_, ?_, ?_, ?_⟩ <;> simp only [sha256rnds2, rnd, s0, s1, s2, s3, d0, d1, d2, d3, h0, h1, hch, hmaj, hS0, hS1, e1, a1] <;> ac_rfl

theorem rnds2_old {hv : HV} {src : Lanes} (w0 w1 : Word) (hs : ABEF hv src) : CDGH (rnd w1 (rnd w0 hv)) src := hs

theorem msg1_spec {m : Nat → Word} {t : Nat} {dest src : Lanes} (hd : ∀ l, l < 4 → dest l = W m (t + l)) (hs : ∀ l, l < 4 → src l = W m (t + 4 + l))
    {l : Nat} (hl : l < 4) : sha256msg1 dest src l = W m (t + l) + ssig0 (W m (t + 1 + l)) := by
  have : l = 0 ∨ l = 1 ∨ l = 2 ∨ l = 3 := by omega
  have e : ∀ w, is0 w = ssig0 w := fun _ => rfl
  rcases this with h | h | h | h <;> subst h <;> simp only [sha256msg1, e, hd 0 (by decide), hd 1 (by decide), hd 2 (by decide), hd 3 (by decide),
    hs 0 (by decide), Nat.add_assoc]

theorem msg2_spec {m : Nat → Word} {t : Nat} {dest src : Lanes}
    (hd : ∀ l, l < 4 → dest l = W m (t + l) + ssig0 (W m (t + 1 + l)) + W m (t + 9 + l)) (hs : ∀ l, l < 4 → src l = W m (t + 12 + l))
    {l : Nat} (hl : l < 4) : sha256msg2 dest src l = W m (t + 16 + l) := by
  have e : ∀ w, is1 w = ssig1 w := fun _ => rfl
  have hw : ∀ j, W m (t + j) + ssig0 (W m (t + 1 + j)) + W m (t + 9 + j) + ssig1 (W m (t + 14 + j)) = W m (t + 16 + j) := by
    intro j
    rw [W_ge m (t := t + 16 + j) (by omega), show t + 16 + j - 2 = t + 14 + j by omega, show t + 16 + j - 7 = t + 9 + j by omega,
      show t + 16 + j - 15 = t + 1 + j by omega, show t + 16 + j - 16 = t + j by omega]
    ac_rfl
  have g0 : dest 0 + is1 (src 2) = W m (t + 16 + 0) := by rw [e, hd 0 (by decide), hs 2 (by decide), ← hw]
  have g1 : dest 1 + is1 (src 3) = W m (t + 16 + 1) := by rw [e, hd 1 (by decide), hs 3 (by decide), ← hw]
  have : l = 0 ∨ l = 1 ∨ l = 2 ∨ l = 3 := by omega
  rcases this with h | h | h | h <;> subst h
  · exact g0
  · exact g1
  · show dest 2 + is1 (dest 0 + is1 (src 2)) = _
    rw [g0, e, hd 2 (by decide)]; exact hw 2
  · show dest 3 + is1 (dest 1 + is1 (src 3)) = _
    rw [g1, e, hd 3 (by decide)]; exact hw 3

/-! ## The data -/

set_option maxRecDepth 10000 in
theorem length_data : (sectionData .shaniRo).length = 140 := rfl

theorem data_k : ∀ i, i < 64 → (sectionData .shaniRo).getD i 0 = K i := by decide +kernel
theorem data_flip : ∀ i, i < 4 → (sectionData .shaniRo).getD (64 + i) 0 = flipWord i := by decide +kernel
theorem data_pad : ∀ i, i < 64 → (sectionData .shaniRo).getD (76 + i) 0 = padWK.getD i 0 := by decide +kernel

theorem size_le {env : Env} {mem : Mem} (L : Loaded env mem) : 560 ≤ env.size .shaniRo := by
  have h := L.size .shaniRo (by decide)
  rwa [length_data] at h
theorem base_mod {env : Env} {mem : Mem} (L : Loaded env mem) : env.base .shaniRo % 64 = 0 := L.align _ (by decide)
theorem base_rw {env : Env} {mem : Mem} (L : Loaded env mem) : env.base .shaniRw % 64 = 0 := L.align _ (by decide)

theorem word {env : Env} {mem : Mem} (L : Loaded env mem) {p i : Nat} (hp : p = 4 * i) (hi : i < 140) :
    readWord (mem .shaniRo) p = (sectionData .shaniRo).getD i 0 := L.word (by decide) hp (by rw [length_data]; exact hi)

/-! ## States that differ in some vector registers only -/

/-- Only the registers `ds` may differ. -/
structure XStep (ds : List X) (s s' : State) : Prop where
  r : s'.r = s.r
  mem : s'.mem = s.mem
  fault : s'.fault = s.fault
  keep : ∀ x, x ∉ ds → s'.x x = s.x x

theorem XStep.trans {d e : List X} {s t u : State} (h : XStep d s t) (h' : XStep e t u) (g : List X) (hd : ∀ x ∈ d, x ∈ g) (he : ∀ x ∈ e, x ∈ g) :
    XStep g s u :=
  ⟨h'.r.trans h.r, h'.mem.trans h.mem, h'.fault.trans h.fault,
    fun x hx => (h'.keep x fun h => hx (he x h)).trans (h.keep x fun h => hx (hd x h))⟩

theorem XStep.refl (d : List X) (s : State) : XStep d s s := ⟨rfl, rfl, rfl, fun _ _ => rfl⟩

theorem XStep.setX (s : State) (d : X) (v : Lanes) : XStep [d] s (s.setX d v) :=
  ⟨rfl, rfl, rfl, fun x hx => upd_ne _ _ (by simpa using hx)⟩

/-! ## One group -/

/-- The registers of a block. -/
def Regs.list (v : Regs) : List X := [v.s0, v.s1, v.m0, v.m1, v.m2, v.m3, v.m4]

/-- The registers are distinct from each other and from `MSG` and `SHUF_MASK`. -/
def Regs.Ok (v : Regs) : Prop := (MSG :: SHUF_MASK :: v.list).Nodup

theorem Regs.m_mem (v : Regs) (k : Nat) : v.m k ∈ v.list := by
  rw [Regs.m]
  split <;> simp [Regs.list]

theorem Regs.m_mod (v : Regs) (k : Nat) : v.m k = v.m (k % 4) := by rw [Regs.m, Regs.m, Nat.mod_mod]

theorem Regs.m_ok {v : Regs} (h : v.Ok) (k : Nat) : [MSG, SHUF_MASK, v.s0, v.s1, v.m k, v.m (k + 1), v.m (k + 2), v.m (k + 3), v.m4].Nodup := by
  have : k % 4 = 0 ∨ k % 4 = 1 ∨ k % 4 = 2 ∨ k % 4 = 3 := by omega
  have g : ∀ i, v.m (k + i) = v.m ((k % 4 + i) % 4) := fun i => by rw [Regs.m_mod, Nat.add_mod, ← Nat.add_mod_mod]; simp
  have hp : (MSG :: SHUF_MASK :: v.list).Perm [MSG, SHUF_MASK, v.s0, v.s1, v.m k, v.m (k + 1), v.m (k + 2), v.m (k + 3), v.m4] := by
    rw [v.m_mod k, g 1, g 2, g 3]
    refine List.Perm.cons _ (List.Perm.cons _ (List.Perm.cons _ (List.Perm.cons _ ?_)))
    rcases this with h | h | h | h <;> rw [h]
    · exact List.Perm.refl _
    · exact (List.perm_append_comm (l₁ := [v.m0]) (l₂ := [v.m1, v.m2, v.m3])).append_right [v.m4]
    · exact (List.perm_append_comm (l₁ := [v.m0, v.m1]) (l₂ := [v.m2, v.m3])).append_right [v.m4]
    · exact (List.perm_append_comm (l₁ := [v.m0, v.m1, v.m2]) (l₂ := [v.m3])).append_right [v.m4]
  exact hp.nodup_iff.mp h

theorem Regs.m_add4 (v : Regs) (k : Nat) : v.m (k + 4) = v.m k := by rw [Regs.m, Regs.m, Nat.add_mod_right]

/-- The register holds the schedule words of group `g`. -/
def Full (v : Regs) (m : Nat → Word) (f : X → Lanes) (g : Nat) : Prop := ∀ l, l < 4 → f (v.m g) l = W m (4 * g + l)
/-- The register holds the first part of the schedule words of group `g + 4`. -/
def Part (v : Regs) (m : Nat → Word) (f : X → Lanes) (g : Nat) : Prop := ∀ l, l < 4 → f (v.m g) l = W m (4 * g + l) + ssig0 (W m (4 * g + 1 + l))

/-- What is in the message registers before group `k`. -/
structure Sched (v : Regs) (m : Nat → Word) (k : Nat) (f : X → Lanes) : Prop where
  prev : ∀ g, k = g + 1 → Full v m f g
  this : 4 ≤ k → k < 16 → Full v m f k
  next : ∀ g, k = g + 3 → g < 12 → Part v m f g
  next2 : ∀ g, k = g + 2 → g < 12 → Part v m f g

theorem Sched.congr {v : Regs} {m : Nat → Word} {k : Nat} {f g : X → Lanes} (h : Sched v m k f) (e : ∀ x ∈ v.list, g x = f x) : Sched v m k g := by
  refine ⟨fun i hi l hl => ?_, fun h1 h2 l hl => ?_, fun i h1 h2 l hl => ?_, fun i h1 h2 l hl => ?_⟩ <;> rw [e _ (v.m_mem _)]
  · exact h.prev i hi l hl
  · exact h.this h1 h2 l hl
  · exact h.next i h1 h2 l hl
  · exact h.next2 i h1 h2 l hl

/-- What does not change during the hashing of a block. -/
structure Ready (env : Env) (p : Nat) (s : State) : Prop where
  valid : env.Valid
  loaded : Loaded env s.mem
  rax : s.r SHA256CONSTANTS = env.ptr .shaniRo K256
  rcx : s.r SHA256PADDING = env.ptr .shaniRo PADDING
  rsi : s.r DATA_PTR = env.ptr .input p
  flip : ∀ l, l < 4 → s.x SHUF_MASK l = flipWord l

theorem Ready.step {env : Env} {p : Nat} {s s' : State} {ds : List X} (h : Ready env p s) (hx : XStep ds s s') (hd : SHUF_MASK ∉ ds) : Ready env p s' := by
  refine ⟨h.valid, ?_, ?_, ?_, ?_, ?_⟩
  · rw [hx.mem]; exact h.loaded
  · rw [hx.r]; exact h.rax
  · rw [hx.r]; exact h.rcx
  · rw [hx.r]; exact h.rsi
  · rw [hx.keep _ hd]; exact h.flip

theorem head_spec {env : Env} {v : Regs} (hv : v.Ok) {p k o : Nat} {m : Nat → Word} {s : State} (R : Ready env p s)
    (hroom : k < 4 → p + o + 16 ≤ env.size .input) (hm : k < 4 → ∀ l, l < 4 → m (4 * k + l) = bswap (readWord (s.mem .input) (p + o + 4 * l)))
    (hk : k < 16) (hI : Sched v m k s.x) :
    ∃ s', exec env (head v k o) s = s' ∧ XStep [MSG, v.m k] s s' ∧ (∀ l, l < 4 → s'.x MSG l = W m (4 * k + l)) ∧ Full v m s'.x k := by
  have hn := Regs.m_ok hv k
  have hne : v.m k ≠ MSG := by
    intro h; rw [h] at hn; simp at hn
  rw [head]
  by_cases h : k < 4
  · rw [if_pos h, exec_cons, exec_cons, exec_cons, exec_nil,
      step_movLoadX R.valid MSG (r := .input) (o := p + o) (ea_reg R.rsi _) (hroom h) (fun h => by cases h)]
    have e : ∀ l, l < 4 → low (low (s.x MSG) fun l => readWord (s.mem .input) (p + o + 4 * l))
        (pshufb (low (s.x MSG) fun l => readWord (s.mem .input) (p + o + 4 * l)) (s.x SHUF_MASK)) l = W m (4 * k + l) := by
      intro l hl
      rw [low_lt _ _ hl, pshufb_flip _ _ (by omega) (R.flip l hl), low_lt _ _ hl, W_lt m (by omega), hm h l hl]
    refine ⟨_, rfl, ⟨rfl, rfl, rfl, fun x hx => ?_⟩, fun l hl => ?_, fun l hl => ?_⟩
    · simp only [List.mem_cons, List.not_mem_nil, or_false, not_or] at hx
      simp only [step, State.setX, upd_ne _ _ hx.1, upd_ne _ _ hx.2]
    · simp only [step, State.setX, upd_ne _ _ hne.symm, upd_same, upd_ne _ _ (show SHUF_MASK ≠ MSG by decide)]
      exact e l hl
    · simp only [step, State.setX, upd_same, upd_ne _ _ (show SHUF_MASK ≠ MSG by decide)]
      rw [low_lt _ _ hl]
      exact e l hl
  · rw [if_neg h, exec_cons, exec_nil]
    refine ⟨_, rfl, ⟨rfl, rfl, rfl, fun x hx => ?_⟩, fun l hl => ?_, fun l hl => ?_⟩
    · simp only [List.mem_cons, List.not_mem_nil, or_false, not_or] at hx
      simp only [step, State.setX, upd_ne _ _ hx.1]
    · simp only [step, State.setX, upd_same, low_lt _ _ hl]
      exact hI.this (by omega) hk l hl
    · simp only [step, State.setX, upd_ne _ _ hne]
      exact hI.this (by omega) hk l hl

theorem kadd_spec {env : Env} {p k : Nat} {s : State} (R : Ready env p s) (hk : k < 16) :
    ∃ s', step env s (.padddLoad MSG (.reg SHA256CONSTANTS (k * 16))) = s' ∧ XStep [MSG] s s' ∧
      ∀ l, l < 4 → s'.x MSG l = s.x MSG l + K (4 * k + l) := by
  have hs := size_le R.loaded
  have hb := base_mod R.loaded
  refine ⟨_, step_padddLoad R.valid MSG (r := .shaniRo) (o := K256 + k * 16) (ea_reg R.rax _) (by simp only [K256]; omega)
    (by simp only [K256]; omega), XStep.setX _ _ _, fun l hl => ?_⟩
  simp only [State.setX, upd_same, low_lt _ _ hl]
  rw [word R.loaded (i := 4 * k + l) (by simp only [K256]; omega) (by omega), data_k _ (by omega)]

theorem sched2_spec {env : Env} {v : Regs} (hv : v.Ok) {k : Nat} {m : Nat → Word} {s : State} (hf : Full v m s.x k) (hI : Sched v m k s.x) :
    ∃ s', exec env (sched2 v k) s = s' ∧ XStep [v.m (k + 1), v.m4] s s' ∧ (3 ≤ k → k < 15 → Full v m s'.x (k + 1)) := by
  rw [sched2]
  split
  case isFalse h => exact ⟨_, rfl, XStep.refl _ _, fun h1 h2 => absurd ⟨h1, h2⟩ h⟩
  case isTrue h =>
    obtain ⟨g, rfl⟩ : ∃ g, k = g + 3 := ⟨k - 3, by omega⟩
    have hn := Regs.m_ok hv (g + 3)
    have hp : Part v m s.x g := hI.next g rfl (by omega)
    have hq : Full v m s.x (g + 2) := hI.prev (g + 2) rfl
    have e1 : v.m (g + 3 + 1) = v.m g := Regs.m_add4 v g
    have e3 : v.m (g + 3 + 3) = v.m (g + 2) := Regs.m_add4 v (g + 2)
    rw [e1, e3] at hn
    rw [e1, e3]
    simp only [List.nodup_cons, List.mem_cons, List.not_mem_nil, or_false, not_or] at hn
    obtain ⟨-, -, -, -, ⟨h41, -, h43, h44⟩, ⟨-, h13, h14⟩, -, h34, -⟩ := hn
    refine ⟨_, rfl, ⟨rfl, rfl, rfl, fun x hx => ?_⟩, fun _ _ l hl => ?_⟩
    · simp only [List.mem_cons, List.not_mem_nil, or_false, not_or] at hx
      simp only [exec, step, State.setX, upd_ne _ _ hx.1, upd_ne _ _ hx.2]
    · rw [e1]
      simp only [exec, step, State.setX, upd_same, upd_ne _ _ h41, upd_ne _ _ h44, upd_ne _ _ h14, upd_ne _ _ h34, low_lt _ _ hl]
      have e : 4 * (g + 3 + 1) = 4 * g + 16 := by omega
      rw [e]
      refine msg2_spec (t := 4 * g) (fun l hl => ?_) (fun l hl => ?_) hl
      · rw [low_lt _ _ hl, hp l hl, low_lt _ _ hl, palignr4 _ _ hl]
        congr 1
        split
        · rw [hq _ (by omega)]; congr 1; omega
        · rw [low_lt _ _ (by decide), hf 0 (by decide)]; congr 1; omega
      · rw [hf l hl, show 4 * (g + 3) = 4 * g + 12 by omega]

theorem sched1_spec {env : Env} {v : Regs} {k : Nat} {m : Nat → Word} {s : State} (hf : Full v m s.x k)
    (hp : ∀ g, k = g + 1 → Full v m s.x g) :
    ∃ s', exec env (sched1 v k) s = s' ∧ XStep [v.m (k + 3)] s s' ∧ (∀ g, k = g + 1 → g < 12 → Part v m s'.x g) := by
  rw [sched1]
  split
  case isFalse h => exact ⟨_, rfl, XStep.refl _ _, fun g h1 h2 => absurd (by omega) h⟩
  case isTrue h =>
    obtain ⟨g, rfl⟩ : ∃ g, k = g + 1 := ⟨k - 1, by omega⟩
    have e3 : v.m (g + 1 + 3) = v.m g := Regs.m_add4 v g
    rw [e3]
    refine ⟨_, rfl, XStep.setX _ _ _, fun g' h1 _ l hl => ?_⟩
    obtain rfl : g = g' := by omega
    simp only [exec, step, State.setX, upd_same, low_lt _ _ hl]
    exact msg1_spec (hp g rfl) (fun l hl => by rw [hf l hl]; congr 1) hl

theorem rounds_four (m : Nat → Word) (k : Nat) (h0 : HV) : rounds m (4 * (k + 1)) h0 =
    rnd (W m (4 * k + 3) + K (4 * k + 3)) (rnd (W m (4 * k + 2) + K (4 * k + 2)) (rnd (W m (4 * k + 1) + K (4 * k + 1)) (rnd (W m (4 * k) + K (4 * k))
      (rounds m (4 * k) h0)))) := by
  rw [show 4 * (k + 1) = 4 * k + 1 + 1 + 1 + 1 by omega]
  simp only [rounds, round_eq_rnd, BitVec.add_comm]

/-- The state of a block before group `k`. -/
structure Inv (v : Regs) (m : Nat → Word) (h0 : HV) (k : Nat) (f : X → Lanes) : Prop where
  sched : Sched v m k f
  abef : ABEF (rounds m (4 * k) h0) (f v.s0)
  cdgh : CDGH (rounds m (4 * k) h0) (f v.s1)

theorem Inv.congr {v : Regs} {m : Nat → Word} {h0 : HV} {k : Nat} {f g : X → Lanes} (h : Inv v m h0 k f) (e : ∀ x ∈ v.list, g x = f x) :
    Inv v m h0 k g := by
  refine ⟨h.sched.congr e, ?_, ?_⟩
  · rw [e _ (by simp [Regs.list])]; exact h.abef
  · rw [e _ (by simp [Regs.list])]; exact h.cdgh

theorem group_spec {env : Env} {v : Regs} (hv : v.Ok) {p k o : Nat} {m : Nat → Word} {h0 : HV} {s : State} (R : Ready env p s)
    (hroom : k < 4 → p + o + 16 ≤ env.size .input) (hm : k < 4 → ∀ l, l < 4 → m (4 * k + l) = bswap (readWord (s.mem .input) (p + o + 4 * l)))
    (hk : k < 16) (hI : Inv v m h0 k s.x) :
    ∃ s', exec env (group v k o) s = s' ∧ XStep (MSG :: v.list) s s' ∧ Inv v m h0 (k + 1) s'.x := by
  have hn := Regs.m_ok hv k
  simp only [List.nodup_cons, List.mem_cons, List.not_mem_nil, or_false, not_or] at hn
  obtain ⟨⟨-, gs0, gs1, g0, g1, g2, g3, g4⟩, ⟨f0, f1, f2, f3, f4, f5, f6⟩, ⟨a1, a2, a3, a4, a5, a6⟩, ⟨b2, b3, b4, b5, b6⟩, ⟨c3, c4, c5, c6⟩, ⟨d4, d5, d6⟩,
    ⟨e5, e6⟩, i6, -⟩ := hn
  rw [group, exec_append, exec_append, exec_append, exec_append]
  obtain ⟨s1, q1, x1, u1, w1⟩ := head_spec hv R hroom hm hk hI.sched
  rw [q1]
  have R1 := R.step x1 (by simp only [List.mem_cons, List.not_mem_nil, or_false, not_or]; exact ⟨by decide, f2⟩)
  obtain ⟨s2, q2, x2, u2⟩ := kadd_spec (k := k) R1 hk
  simp only [exec_cons, exec_nil]
  rw [q2]
  -- the first two rounds
  obtain ⟨s3, q3⟩ : ∃ s3, step env s2 (.sha256rnds2 v.s1 v.s0) = s3 := ⟨_, rfl⟩
  have x3 : XStep [v.s1] s2 s3 := by rw [← q3]; exact XStep.setX _ _ _
  have y3 : s3.x v.s1 = low (s2.x v.s1) (sha256rnds2 (s2.x v.s1) (s2.x v.s0) (s2.x MSG)) := by rw [← q3]; exact upd_same _ _ _
  rw [q3]
  clear q1 q2 q3
  have k13 : ∀ x, x ≠ MSG → x ≠ v.m k → x ≠ v.s1 → s3.x x = s.x x := fun x h1 h2 h3 => by
    rw [x3.keep x (by simpa using h3), x2.keep x (by simpa using h1), x1.keep x (by simp [h1, h2])]
  have F3 : Full v m s3.x k := fun l hl => by
    rw [x3.keep _ (by simpa using Ne.symm b2), x2.keep _ (by simpa using Ne.symm g0)]; exact w1 l hl
  have I3 : Sched v m k s3.x := by
    refine ⟨fun g h l hl => ?_, fun _ _ => F3, fun g h h' l hl => ?_, fun g h h' l hl => ?_⟩
    · rw [← Regs.m_add4, show g + 4 = k + 3 by omega, k13 _ (Ne.symm g3) (Ne.symm c5) (Ne.symm b5), show k + 3 = g + 4 by omega, Regs.m_add4]
      exact hI.sched.prev g h l hl
    · rw [← Regs.m_add4, show g + 4 = k + 1 by omega, k13 _ (Ne.symm g1) (Ne.symm c3) (Ne.symm b3), show k + 1 = g + 4 by omega, Regs.m_add4]
      exact hI.sched.next g h h' l hl
    · rw [← Regs.m_add4, show g + 4 = k + 2 by omega, k13 _ (Ne.symm g2) (Ne.symm c4) (Ne.symm b4), show k + 2 = g + 4 by omega, Regs.m_add4]
      exact hI.sched.next2 g h h' l hl
  have A : ABEF (rounds m (4 * k) h0) (s3.x v.s0) := by
    rw [k13 _ (Ne.symm gs0) a2 a1]; exact hI.abef
  have A2 : s2.x v.s0 = s.x v.s0 := by rw [x2.keep _ (by simpa using Ne.symm gs0), x1.keep _ (by simp [Ne.symm gs0, a2])]
  have C2 : s2.x v.s1 = s.x v.s1 := by rw [x2.keep _ (by simpa using Ne.symm gs1), x1.keep _ (by simp [Ne.symm gs1, b2])]
  have hB : ABEF (rnd (W m (4 * k + 1) + K (4 * k + 1)) (rnd (W m (4 * k) + K (4 * k)) (rounds m (4 * k) h0))) (s3.x v.s1) := by
    refine (rnds2_new (dest := s2.x v.s1) (src := s2.x v.s0) (wk := s2.x MSG) ?_ ?_ ?_ ?_).congr fun l hl => by rw [y3, low_lt _ _ hl]
    · rw [A2]; exact hI.abef
    · rw [C2]; exact hI.cdgh
    · rw [u2 0 (by decide), u1 0 (by decide)]; rfl
    · rw [u2 1 (by decide), u1 1 (by decide)]
  have M3 : ∀ l, l < 4 → s3.x MSG l = W m (4 * k + l) + K (4 * k + l) := fun l hl => by
    rw [x3.keep _ (by simpa using gs1), u2 l hl, u1 l hl]
  -- schedule
  obtain ⟨s4, q4, x4, w4⟩ := sched2_spec (env := env) hv F3 I3
  rw [q4]
  clear q4
  -- the next two rounds
  obtain ⟨s5, q5⟩ : ∃ s5, step env s4 (.pshufd MSG MSG 0x0E) = s5 := ⟨_, rfl⟩
  have x5 : XStep [MSG] s4 s5 := by rw [← q5]; exact XStep.setX _ _ _
  have y5 : s5.x MSG = low (s4.x MSG) (pshufd (s4.x MSG) 0x0E) := by rw [← q5]; exact upd_same s4.x MSG _
  rw [q5]
  clear q5
  obtain ⟨s6, q6⟩ : ∃ s6, step env s5 (.sha256rnds2 v.s0 v.s1) = s6 := ⟨_, rfl⟩
  have x6 : XStep [v.s0] s5 s6 := by rw [← q6]; exact XStep.setX _ _ _
  have y6 : s6.x v.s0 = low (s5.x v.s0) (sha256rnds2 (s5.x v.s0) (s5.x v.s1) (s5.x MSG)) := by rw [← q6]; exact upd_same _ _ _
  rw [q6]
  clear q6
  have M4 : s4.x MSG = s3.x MSG := x4.keep _ (by simp [g1, g4])
  have k56 : ∀ x, x ≠ MSG → x ≠ v.s0 → s6.x x = s4.x x := fun x h1 h2 => by rw [x6.keep x (by simpa using h2), x5.keep x (by simpa using h1)]
  have S0 : s5.x v.s0 = s3.x v.s0 := by rw [x5.keep _ (by simpa using Ne.symm gs0), x4.keep _ (by simp [a3, a6])]
  have S1 : s5.x v.s1 = s3.x v.s1 := by rw [x5.keep _ (by simpa using Ne.symm gs1), x4.keep _ (by simp [b3, b6])]
  have hA : ABEF (rounds m (4 * (k + 1)) h0) (s6.x v.s0) := by
    rw [rounds_four]
    refine (rnds2_new (dest := s5.x v.s0) (src := s5.x v.s1) (wk := s5.x MSG) ?_ ?_ ?_ ?_).congr fun l hl => by rw [y6, low_lt _ _ hl]
    · rw [S1]; exact hB
    · rw [S0]; exact rnds2_old _ _ A
    · rw [y5, M4]; exact M3 2 (by decide)
    · rw [y5, M4]; exact M3 3 (by decide)
  have hC : CDGH (rounds m (4 * (k + 1)) h0) (s6.x v.s1) := by
    rw [rounds_four, x6.keep _ (by simpa using Ne.symm a1), S1]
    exact rnds2_old _ _ hB
  have F6 : Full v m s6.x k := fun l hl => by
    rw [k56 _ (Ne.symm g0) (Ne.symm a2), x4.keep _ (by simp [c3, c6])]; exact F3 l hl
  have P6 : ∀ g, k = g + 1 → Full v m s6.x g := fun g h l hl => by
    rw [← Regs.m_add4, show g + 4 = k + 3 by omega, k56 _ (Ne.symm g3) (Ne.symm a5), x4.keep _ (by simp [Ne.symm d5, i6]),
      show k + 3 = g + 4 by omega, Regs.m_add4]
    exact I3.prev g h l hl
  obtain ⟨s7, q7, x7, w7⟩ := sched1_spec (env := env) F6 P6
  rw [q7]
  refine ⟨_, rfl, ?_, ⟨fun g h l hl => ?_, fun h h' l hl => ?_, fun g h h' l hl => ?_, fun g h h' l hl => ?_⟩, ?_, ?_⟩
  · have hs0 : v.s0 ∈ v.list := by simp [Regs.list]
    have hs1 : v.s1 ∈ v.list := by simp [Regs.list]
    have hm4 : v.m4 ∈ v.list := by simp [Regs.list]
    have hmm := v.m_mem
    have G : ∀ x ∈ MSG :: v.list, x ∈ MSG :: v.list := fun _ h => h
    refine XStep.trans (XStep.trans (XStep.trans (XStep.trans (XStep.trans (XStep.trans x1 x2 (MSG :: v.list) ?_ ?_) x3 _ G ?_) x4 _ G ?_) x5 _ G ?_)
      x6 _ G ?_) x7 _ G ?_ <;>
      (intro x hx; simp only [List.mem_cons, List.not_mem_nil, or_false] at hx; first | (refine hx.elim ?_ ?_ <;> intro hx <;> simp only [hx, List.mem_cons, hs0, hs1, hm4, hmm, true_or, or_true]) | simp only [hx, List.mem_cons, hs0, hs1, hm4, hmm, true_or, or_true])
  · obtain rfl : k = g := by omega
    rw [x7.keep _ (by simp [c5])]; exact F6 l hl
  · rw [x7.keep _ (by simp [d5]), k56 _ (Ne.symm g1) (Ne.symm a3)]
    exact w4 (by omega) (by omega) l hl
  · rw [← Regs.m_add4, show g + 4 = k + 2 by omega, x7.keep _ (by simp [e5]), k56 _ (Ne.symm g2) (Ne.symm a4), x4.keep _ (by simp [Ne.symm d4, e6]),
      show k + 2 = g + 4 by omega, Regs.m_add4]
    exact I3.next2 g (by omega) h' l hl
  · exact w7 g (by omega) h' l hl
  · rw [x7.keep _ (by simp [a5])]; exact hA
  · rw [x7.keep _ (by simp [b5])]; exact hC

end Mammon.X86.Shani
