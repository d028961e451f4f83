import Verif.Proofs.Words
import Mathlib.Tactic.Tauto
/-!
# The eight-lane routine
-/

namespace Mammon.X86.Eight
open Spec.SHA256 Lane

/-! ## The data section -/

theorem getD_replicate (n : Nat) (ys : List (BitVec 32)) {l : Nat} (hl : l < n) :
    ∀ (xs : List (BitVec 32)) (j : Nat), j < xs.length → (xs.flatMap (List.replicate n) ++ ys).getD (n * j + l) 0 = xs.getD j 0
  | [], _, h => absurd h (Nat.not_lt_zero _)
  | x :: xs, 0, _ => by
    rw [List.flatMap_cons, List.append_assoc, Nat.mul_zero, Nat.zero_add, List.getD_eq_getElem?_getD,
      List.getElem?_append_left (by rw [List.length_replicate]; exact hl), List.getElem?_replicate, if_pos hl]
    rfl
  | x :: xs, j + 1, h => by
    rw [List.flatMap_cons, List.append_assoc, List.getD_eq_getElem?_getD,
      List.getElem?_append_right (by rw [List.length_replicate, Nat.mul_add]; omega), List.length_replicate,
      show n * (j + 1) + l - n = n * j + l by rw [Nat.mul_add]; omega, ← List.getD_eq_getElem?_getD]
    exact getD_replicate n ys hl xs j (Nat.lt_of_succ_lt_succ h)

theorem table_k : ∀ j, j < 64 → (k256 ++ padding ++ digest).getD j 0 = K j := by decide +kernel
theorem padding_eq : padding = padWK := by decide +kernel
theorem table_pad : ∀ j, j < 64 → (k256 ++ padding ++ digest).getD (64 + j) 0 = padding.getD j 0 := by decide +kernel
theorem table_digest : ∀ j, j < 8 → (k256 ++ padding ++ digest).getD (128 + j) 0 = H0.word j := by decide +kernel
theorem table_length : (k256 ++ padding ++ digest).length = 136 := by decide +kernel

theorem data_k (j : Nat) (hj : j < 64) (l : Nat) (hl : l < 8) : data.getD (8 * j + l) 0 = K j := by
  rw [← table_k j hj]
  exact getD_replicate 8 _ hl _ j (by rw [table_length]; omega)
theorem data_pad (j : Nat) (hj : j < 64) (l : Nat) (hl : l < 8) : data.getD (512 + 8 * j + l) 0 = padWK.getD j 0 := by
  rw [← padding_eq, ← table_pad j hj, show 512 + 8 * j + l = 8 * (64 + j) + l by omega]
  exact getD_replicate 8 _ hl _ (64 + j) (by rw [table_length]; omega)
theorem data_digest (j : Nat) (hj : j < 8) (l : Nat) (hl : l < 8) : data.getD (1024 + 8 * j + l) 0 = H0.word j := by
  rw [← table_digest j hj, show 1024 + 8 * j + l = 8 * (128 + j) + l by omega]
  exact getD_replicate 8 _ hl _ (128 + j) (by rw [table_length]; omega)
theorem data_flip : ∀ l, l < 8 → data.getD (1088 + l) 0 = flipWord l := by decide +kernel
theorem data_mask : data.getD 1096 0 = 0xffffffe0 ∧ data.getD 1097 0 = 0xffffffff := by decide +kernel
theorem data_length : data.length = 1098 := by decide +kernel

theorem mem_sections : Region.eight ∈ [Region.one, .four, .eight, .shaniRo] := by decide

theorem word {env : Env} {mem : Mem} (L : Loaded env mem) {p i : Nat} (hp : p = 4 * i) (hi : i < 1098) :
    readWord (mem .eight) p = data.getD i 0 := L.word mem_sections hp (by show i < data.length; rw [data_length]; exact hi)

theorem size_le {env : Env} {mem : Mem} (L : Loaded env mem) : 4392 ≤ env.size .eight := by
  have := L.size .eight mem_sections
  rw [show sectionData .eight = data from rfl, data_length] at this
  exact this

theorem base_mod {env : Env} {mem : Mem} (L : Loaded env mem) : env.base .eight % 64 = 0 := L.align .eight (by decide)

theorem dlay {env : Env} {mem : Mem} (hv : env.Valid) (L : Loaded env mem) : DLay env cfg8 .eight DIGEST_8 mem := by
  have h1 := size_le L
  have h2 := base_mod L
  have h3 : cfg8.sz = 32 := rfl
  refine ⟨hv, by rw [h3]; simp only [DIGEST_8]; omega, by rw [h3]; simp only [DIGEST_8]; omega, fun j l hj hl => ?_⟩
  have hl : l < 8 := hl
  rw [h3, word L (i := 1024 + 8 * j + l) (by simp only [DIGEST_8]; omega) (by omega), data_digest j hj l hl]

theorem play {env : Env} {mem : Mem} (hv : env.Valid) (L : Loaded env mem) : PLay env cfg8 .eight PADDING_8 mem := by
  have h1 := size_le L
  have h2 := base_mod L
  have h3 : cfg8.sz = 32 := rfl
  refine ⟨hv, by decide, by rw [h3]; simp only [PADDING_8]; omega, by rw [h3]; simp only [PADDING_8]; omega, fun j l hj hl => ?_⟩
  have hl : l < 8 := hl
  rw [h3, word L (i := 512 + 8 * j + l) (by simp only [PADDING_8]; omega) (by omega), data_pad j hj l hl]

theorem lay {env : Env} {mem : Mem} (hv : env.Valid) (L : Loaded env mem) {o hi : Nat} (hhi : 512 ≤ hi) (hroom : o + hi ≤ env.size .stack)
    (hal : (env.base .stack + o) % 32 = 0) : Lay env cfg8 .eight o hi mem := by
  have h1 := size_le L
  have h3 : cfg8.sz = 32 := rfl
  refine ⟨hv, by decide, by decide, by rw [h3]; exact hhi, hroom, by rw [h3]; exact hal, by rw [h3]; omega, fun j l hj hl => ?_⟩
  have hl : l < 8 := hl
  rw [h3, word L (i := 8 * j + l) (by omega) (by omega), data_k j hj l hl]

theorem flip {env : Env} {mem : Mem} (L : Loaded env mem) {l : Nat} (hl : l < 8) : readWord (mem .eight) (FLIP_MASK + 4 * l) = flipWord l := by
  rw [word L (i := 1088 + l) (by simp only [FLIP_MASK]; omega) (by omega), data_flip l hl]

/-! ## Loading eight words of each of the eight blocks -/

theorem step_vinserti128 {env : Env} (hv : env.Valid) {s : State} (d t : X) {a : Addr} {r : Region} {o : Nat} (n : Nat)
    (ha : s.ea env a = env.ptr r o) (h : o + 16 ≤ env.size r) :
    step env s (.vinserti128 d t a n) = s.setX d (zx .ymm (X86.vinserti128 (s.x t) (fun l => readWord (s.mem r) (o + 4 * l)) n)) := by
  simp only [step, State.vread, ha, canRead_ptr hv (r := r) (o := o) (n := 4) (by decide) (by omega), aligned_dqu,
    read_ptr hv _ (r := r) (o := o) (n := 4) (by decide) (by omega), Bool.and_self, check_true]

/-- Replace the upper halves of registers by what is at the given displacements. -/
def insertAt (b : R) (ps : List (X × Nat)) : List Instr := ps.map fun p => .vinserti128 p.1 p.1 (.reg b p.2) 1

/-- The registers after `insertAt`. -/
def insertedX (m : Nat → Byte) (o : Nat) : List (X × Nat) → (X → Lanes) → X → Lanes
  | [], f => f
  | p :: ps, f => insertedX m o ps (upd f p.1 (zx .ymm (X86.vinserti128 (f p.1) (fun l => readWord m (o + p.2 + 4 * l)) 1)))

theorem insertAt_spec {env : Env} (hv : env.Valid) {b : R} {r : Region} {o : Nat} :
    ∀ (ps : List (X × Nat)) {s : State}, s.r b = env.ptr r o → (∀ p ∈ ps, o + p.2 + 16 ≤ env.size r) →
      exec env (insertAt b ps) s = { s with x := insertedX (s.mem r) o ps s.x }
  | [], _, _, _ => rfl
  | p :: ps, s, hb, hroom => by
    rw [insertAt, List.map_cons, exec_cons, step_vinserti128 hv p.1 p.1 (r := r) (o := o + p.2) 1 (by rw [ea_reg hb]) (hroom p List.mem_cons_self)]
    exact insertAt_spec hv ps hb fun q hq => hroom q (List.mem_cons_of_mem _ hq)

/-- The registers and displacements of the first eight loads. -/
def lows (o : Nat) : List (X × Nat) :=
  [(TT0, 0 * 64 + o), (TT1, 1 * 64 + o), (TT2, 2 * 64 + o), (TT3, 3 * 64 + o),
   (TT4, 0 * 64 + o + 16), (TT5, 1 * 64 + o + 16), (TT6, 2 * 64 + o + 16), (TT7, 3 * 64 + o + 16)]

/-- The registers and displacements of the other eight loads. -/
def highs (o : Nat) : List (X × Nat) :=
  [(TT0, 4 * 64 + o), (TT1, 5 * 64 + o), (TT2, 6 * 64 + o), (TT3, 7 * 64 + o),
   (TT4, 4 * 64 + o + 16), (TT5, 5 * 64 + o + 16), (TT6, 6 * 64 + o + 16), (TT7, 7 * 64 + o + 16)]

theorem load8_eq (o : Nat) : load8 TT0 TT1 TT2 TT3 TT4 TT5 TT6 TT7 o = loadAt .ups .xmm .rsi (lows o) ++ insertAt .rsi (highs o) := rfl

/-- The registers `TT0` to `TT7`. -/
def tts : List X := [TT0, TT1, TT2, TT3, TT4, TT5, TT6, TT7]

theorem load8_spec {env : Env} {s : State} {p i : Nat} (hv : env.Valid) (hsi : s.r .rsi = env.ptr .input p)
    (hi : i < 2) (hin : p + 512 ≤ env.size .input) :
    ∃ f, exec env (load8 TT0 TT1 TT2 TT3 TT4 TT5 TT6 TT7 (i * 32)) s = { s with x := f } ∧ (∀ x, x ∉ tts → f x = s.x x) ∧
    ∀ l, l < 8 → ∀ c, c < 8 → f (tts.getD (4 * (c / 4) + l % 4) TT0) (4 * (l / 4) + c % 4) = readWord (s.mem .input) (p + 64 * l + 4 * (8 * i + c)) := by
  have hw : Width.lanes .xmm = 4 := rfl
  rw [load8_eq, exec_append]
  rw [loadAt_spec hv (r := .input) (o := p) _ hsi
    (by simp only [lows, List.mem_cons, List.not_mem_nil, or_false, forall_eq_or_imp, forall_eq, hw]; omega) (by simp)]
  rw [insertAt_spec hv (r := .input) (o := p) _ (by exact hsi)
    (by simp only [highs, List.mem_cons, List.not_mem_nil, or_false, forall_eq_or_imp, forall_eq]; omega)]
  refine ⟨_, rfl, fun x hx => ?_, fun l hl c hc => ?_⟩
  · show insertedX (s.mem .input) p (highs (i * 32)) (loadedX .xmm (s.mem .input) p (lows (i * 32)) s.x) x = s.x x
    cases x <;> first | rfl | exact absurd (by decide) hx
  · show insertedX (s.mem .input) p (highs (i * 32)) (loadedX .xmm (s.mem .input) p (lows (i * 32)) s.x) _ _ = _
    have h1 : l = 0 ∨ l = 1 ∨ l = 2 ∨ l = 3 ∨ l = 4 ∨ l = 5 ∨ l = 6 ∨ l = 7 := by omega
    have h2 : c = 0 ∨ c = 1 ∨ c = 2 ∨ c = 3 ∨ c = 4 ∨ c = 5 ∨ c = 6 ∨ c = 7 := by omega
    have key : ∀ {a b : Nat}, a = b → readWord (s.mem .input) a = readWord (s.mem .input) b := fun h => congrArg _ h
    rcases h1 with h | h | h | h | h | h | h | h <;> subst h <;> rcases h2 with h | h | h | h | h | h | h | h <;> subst h <;>
      refine Eq.trans (b := readWord (s.mem .input) _) rfl (key ?_) <;> simp <;> omega

/-- A load, piece by piece. -/
theorem vload_spec {env : Env} (hv : env.Valid) {s : State} {m : Mov} {w : Width} (d : X) {a : Addr} {r : Region} {o : Nat}
    (ha : s.ea env a = env.ptr r o) (h : o + 4 * w.lanes ≤ env.size r) (hal : m = .dqa → (env.base r + o) % (4 * w.lanes) = 0) :
    (step env s (.vload m w d a)).r = s.r ∧ (step env s (.vload m w d a)).mem = s.mem ∧ (step env s (.vload m w d a)).fault = s.fault ∧
    (∀ x, x ≠ d → (step env s (.vload m w d a)).x x = s.x x) ∧
    ∀ l, l < w.lanes → (step env s (.vload m w d a)).x d l = readWord (s.mem r) (o + 4 * l) := by
  rw [step_vload hv d ha h hal]
  refine ⟨rfl, rfl, rfl, fun x hx => upd_ne _ _ hx, fun l hl => ?_⟩
  show upd s.x d _ d l = _
  rw [upd_same, zx, if_pos hl]

/-- The transposition of the words loaded. -/
def turn : List Instr := transposePreloaded TT0 TT1 TT2 TT3 TT4 TT5 TT6 TT7 TMP0 TMP1

/-- Reversing the bytes of the words loaded. -/
def flips : List Instr := tts.map fun x => .vpshufb .ymm x x TMP1

theorem turn_spec (f : X → Lanes) : (∀ x, x ∉ TMP0 :: TMP1 :: tts → vregs turn f x = f x) ∧ ∀ l, l < 8 → ∀ c, c < 8 →
    vregs turn f (tts.getD c TT0) l = f (tts.getD (4 * (c / 4) + l % 4) TT0) (4 * (l / 4) + c % 4) := by
  constructor
  · intro x hx
    cases x <;> first | rfl | exact absurd (by decide) hx
  · intro l hl c hc
    have h1 : l = 0 ∨ l = 1 ∨ l = 2 ∨ l = 3 ∨ l = 4 ∨ l = 5 ∨ l = 6 ∨ l = 7 := by omega
    have h2 : c = 0 ∨ c = 1 ∨ c = 2 ∨ c = 3 ∨ c = 4 ∨ c = 5 ∨ c = 6 ∨ c = 7 := by omega
    rcases h1 with h | h | h | h | h | h | h | h <;> subst h <;> rcases h2 with h | h | h | h | h | h | h | h <;> subst h <;> rfl

theorem flips_spec (f : X → Lanes) (hf : ∀ l, l < 8 → f TMP1 l = flipWord l) : (∀ x, x ∉ tts → vregs flips f x = f x) ∧
    ∀ c, c < 8 → ∀ l, l < 8 → vregs flips f (tts.getD c TT0) l = bswap (f (tts.getD c TT0) l) := by
  constructor
  · intro x hx
    cases x <;> first | rfl | exact absurd (by decide) hx
  · intro c hc l hl
    have hz : ∀ v : Lanes, zx .ymm (pshufb v (f TMP1)) l = bswap (v l) := fun v => by
      rw [zx_ymm _ hl, pshufb_flip _ _ (by omega) (hf l hl)]
    have h2 : c = 0 ∨ c = 1 ∨ c = 2 ∨ c = 3 ∨ c = 4 ∨ c = 5 ∨ c = 6 ∨ c = 7 := by omega
    rcases h2 with h | h | h | h | h | h | h | h <;> subst h <;> exact hz _

theorem loadBlocks_eq (i : Nat) : loadBlocks args i = load8 TT0 TT1 TT2 TT3 TT4 TT5 TT6 TT7 (i * 32) ++
    (storeSeq .dqa .ymm .rsp _YTMP [.x6, .x7] ++ (turn ++ (.vload .dqa .ymm .x7 (.rel .eight FLIP_MASK) ::
      .vload .dqa .ymm .x6 (.reg .rsp (_YTMP + 0 * 32)) :: (flips ++ (.vload .dqa .ymm .x7 (.reg .rsp (_YTMP + 1 * 32)) ::
      storeSeq .dqa .ymm .rsp _YTMP [TT4, TT5, TT6, TT7]))))) := rfl

theorem loadBlocks_spec {env : Env} {s : State} {o p i : Nat} (hv : env.Valid) (L : Loaded env s.mem)
    (hsp : s.r .rsp = env.ptr .stack o) (hroom : o + 896 ≤ env.size .stack) (hal : (env.base .stack + o) % 32 = 0)
    (hsi : s.r .rsi = env.ptr .input p) (hi : i < 2) (hin : p + 512 ≤ env.size .input) :
    (exec env (loadBlocks args i) s).r = s.r ∧ (exec env (loadBlocks args i) s).fault = s.fault ∧
    (∀ r, r ≠ .stack → (exec env (loadBlocks args i) s).mem r = s.mem r) ∧
    (∀ a, a < o + 768 ∨ o + 896 ≤ a → (exec env (loadBlocks args i) s).mem .stack a = s.mem .stack a) ∧
    (∀ x ∈ args.regs, ∀ l, l < 8 → (exec env (loadBlocks args i) s).x x l = s.x x l) ∧
    (∀ c, c < 8 → ∀ l, l < 8 → (exec env (loadBlocks args i) s).x (tts.getD c TT0) l = msg (s.mem .input) (p + 64 * l) (8 * i + c)) ∧
    ∀ c, c < 4 → ∀ l, l < 8 → readWord ((exec env (loadBlocks args i) s).mem .stack) (o + 768 + 32 * c + 4 * l) =
      msg (s.mem .input) (p + 64 * l) (8 * i + 4 + c) := by
  have z1 := size_le L
  have z2 := base_mod L
  have hw : Width.lanes .ymm = 8 := rfl
  obtain ⟨f, e1, f1, f2⟩ := load8_spec hv hsi hi hin
  rw [loadBlocks_eq, exec_append, e1, exec_append]
  -- saving two of the working variables
  have h := storeSeq_spec hv (m := .dqa) (w := .ymm) (b := .rsp) (r := .stack) (o := o) hv.stack [.x6, .x7] _YTMP (s := { s with x := f }) hsp
    (by rw [hw]; simp only [_YTMP, List.length_cons, List.length_nil]; omega) (fun _ => by rw [hw]; simp only [_YTMP]; omega)
  rw [hw] at h
  generalize exec env (storeSeq .dqa .ymm .rsp _YTMP [.x6, .x7]) _ = s2 at h ⊢
  obtain ⟨a1, a2, a3, a4, a5, a6⟩ := h
  have a1 : s2.r = s.r := a1
  have a2 : s2.x = f := a2
  have a3 : s2.fault = s.fault := a3
  have a4 : ∀ r, r ≠ .stack → s2.mem r = s.mem r := a4
  have a5 : ∀ a, a < o + 768 ∨ o + 896 ≤ a → s2.mem .stack a = s.mem .stack a := fun a ha => a5 a (by
    simp only [_YTMP, List.length_cons, List.length_nil]; omega)
  have a6 : ∀ c, c < 2 → ∀ l, l < 8 → readWord (s2.mem .stack) (o + 768 + 32 * c + 4 * l) = s.x (if c = 0 then .x6 else .x7) l := by
    intro c hc l hl
    have := a6 c hc l hl
    have h2 : c = 0 ∨ c = 1 := by omega
    rcases h2 with h | h <;> subst h
    · exact this.trans (congrFun (f1 .x6 (by decide)) l)
    · exact this.trans (congrFun (f1 .x7 (by decide)) l)
  clear e1
  -- the transposition
  rw [exec_append, exec_vregs (is := turn) rfl, exec_cons]
  obtain ⟨t1, t2⟩ := turn_spec s2.x
  obtain ⟨s3, e3⟩ : ∃ s3 : State, ({ s2 with x := vregs turn s2.x } : State) = s3 := ⟨_, rfl⟩
  rw [e3]
  have b1 : s3.r = s.r := by rw [← e3]; exact a1
  have b2 : s3.x = vregs turn s2.x := by rw [← e3]
  have b3 : s3.fault = s.fault := by rw [← e3]; exact a3
  have b4 : s3.mem = s2.mem := by rw [← e3]
  clear e3
  -- the mask
  have h := vload_spec hv (m := .dqa) (w := .ymm) .x7 (s := s3) (r := .eight) (o := FLIP_MASK) (ea_rel _ _ _ _)
    (by rw [hw]; simp only [FLIP_MASK]; omega) (fun _ => by rw [hw]; simp only [FLIP_MASK]; omega)
  rw [hw] at h
  generalize step env s3 (.vload .dqa .ymm .x7 (.rel .eight FLIP_MASK)) = s4 at h ⊢
  obtain ⟨c1, c2, c3, c4, c5⟩ := h
  -- the seventh working variable
  rw [exec_cons]
  have h := vload_spec hv (m := .dqa) (w := .ymm) .x6 (s := s4) (r := .stack) (o := o + (_YTMP + 0 * 32)) (ea_reg (by rw [c1, b1]; exact hsp) _)
    (by rw [hw]; simp only [_YTMP]; omega) (fun _ => by rw [hw]; simp only [_YTMP]; omega)
  rw [hw] at h
  generalize step env s4 (.vload .dqa .ymm .x6 (.reg .rsp (_YTMP + 0 * 32))) = s5 at h ⊢
  obtain ⟨d1, d2, d3, d4, d5⟩ := h
  -- the byte order
  rw [exec_append, exec_vregs (is := flips) rfl, exec_cons]
  obtain ⟨g1, g2⟩ := flips_spec s5.x (fun l hl => by
    rw [d4 _ (by decide), c5 l hl, b4, a4 _ (by decide)]; exact flip L hl)
  obtain ⟨s6, e6⟩ : ∃ s6 : State, ({ s5 with x := vregs flips s5.x } : State) = s6 := ⟨_, rfl⟩
  rw [e6]
  have i1 : s6.r = s.r := by rw [← e6]; exact d1.trans (c1.trans b1)
  have i2 : s6.x = vregs flips s5.x := by rw [← e6]
  have i3 : s6.fault = s.fault := by rw [← e6]; exact d3.trans (c3.trans b3)
  have i4 : s6.mem = s2.mem := by rw [← e6]; exact d2.trans (c2.trans b4)
  clear e6
  -- the eighth working variable
  have h := vload_spec hv (m := .dqa) (w := .ymm) .x7 (s := s6) (r := .stack) (o := o + (_YTMP + 1 * 32)) (ea_reg (by rw [i1]; exact hsp) _)
    (by rw [hw]; simp only [_YTMP]; omega) (fun _ => by rw [hw]; simp only [_YTMP]; omega)
  rw [hw] at h
  generalize step env s6 (.vload .dqa .ymm .x7 (.reg .rsp (_YTMP + 1 * 32))) = s7 at h ⊢
  obtain ⟨j1, j2, j3, j4, j5⟩ := h
  -- saving the last four words
  have h := storeSeq_spec hv (m := .dqa) (w := .ymm) (b := .rsp) (r := .stack) (o := o) hv.stack [TT4, TT5, TT6, TT7] _YTMP (s := s7)
    (by rw [j1, i1]; exact hsp)
    (by rw [hw]; simp only [_YTMP, List.length_cons, List.length_nil]; omega) (fun _ => by rw [hw]; simp only [_YTMP]; omega)
  rw [hw] at h
  generalize exec env (storeSeq .dqa .ymm .rsp _YTMP [TT4, TT5, TT6, TT7]) s7 = s8 at h ⊢
  obtain ⟨k1, k2, k3, k4, k5, k6⟩ := h
  have hmsg : ∀ c, c < 8 → ∀ l, l < 8 → s7.x (tts.getD c TT0) l = msg (s.mem .input) (p + 64 * l) (8 * i + c) := by
    intro c hc l hl
    have n7 : tts.getD c TT0 ≠ .x7 := by revert c; decide
    have n6 : tts.getD c TT0 ≠ .x6 := by revert c; decide
    rw [j4 _ n7, i2, g2 c hc l hl, d4 _ n6, c4 _ n7, b2, t2 l hl c hc, a2, f2 l hl c hc]
    rfl
  refine ⟨k1.trans (j1.trans i1), k3.trans (j3.trans i3), fun r hr => (k4 r hr).trans ?_, fun a ha => (k5 a ?_).trans ?_, fun x hx l hl => ?_,
    fun c hc l hl => ?_, fun c hc l hl => ?_⟩
  · rw [j2, i4, a4 r hr]
  · simp only [_YTMP, List.length_cons, List.length_nil]; omega
  · rw [j2, i4, a5 a ha]
  · rw [k2]
    have n8 : x ∉ tts := by revert x; decide
    by_cases h7 : x = .x7
    · rw [h7, j5 l hl, i4]
      exact a6 1 (by decide) l hl
    · rw [j4 _ h7, i2, g1 _ n8]
      by_cases h6 : x = .x6
      · rw [h6, d5 l hl, c2, b4]
        exact a6 0 (by decide) l hl
      · rw [d4 _ h6, c4 _ h7, b2, t1 x (by simp only [List.mem_cons, not_or]; exact ⟨h6, h7, n8⟩), a2, f1 x n8]
  · rw [k2]; exact hmsg c hc l hl
  · have e := k6 c hc l hl
    rw [Nat.add_assoc (8 * i)]
    rw [← hmsg (4 + c) (by omega) l hl]
    have h2 : c = 0 ∨ c = 1 ∨ c = 2 ∨ c = 3 := by omega
    rcases h2 with h | h | h | h <;> subst h <;> exact e

/-! ## The rounds 0 to 15 -/

/-- The working variables are in the registers `ymm0` to `ymm7`. -/
structure Good (v : Args) : Prop where
  d0 : Distinct cfg8 v TT0
  d1 : Distinct cfg8 v TT1
  d2 : Distinct cfg8 v TT2
  d3 : Distinct cfg8 v TT3
  regs : ∀ x ∈ v.regs, x ∈ [X.x0, .x1, .x2, .x3, .x4, .x5, .x6, .x7]

theorem Good.rot {v : Args} (h : Good v) : Good v.rot :=
  ⟨h.d0.rot, h.d1.rot, h.d2.rot, h.d3.rot, fun x hx => h.regs x (by
    simp only [Args.regs, Args.rot, List.mem_cons, List.not_mem_nil, or_false] at hx ⊢
    tauto)⟩

theorem good_args : Good args := ⟨by decide, by decide, by decide, by decide, by decide⟩

theorem Good.keep {v : Args} (h : Good v) {x t : X} (hx : x ∈ [TT0, TT1, TT2, TT3]) (ht : x ≠ t) :
    x ∉ v.d :: v.h :: t :: cfg8.scratch := by
  have h1 := h.regs v.d (by simp [Args.regs])
  have h2 := h.regs v.h (by simp [Args.regs])
  intro hm
  rcases List.mem_cons.mp hm with e | hm
  · rw [← e] at h1; revert hx h1; clear hm ht e; cases x <;> decide
  · rcases List.mem_cons.mp hm with e | hm
    · rw [← e] at h2; revert hx h2; clear hm ht e; cases x <;> decide
    · rcases List.mem_cons.mp hm with e | hm
      · exact ht e
      · revert hx hm; clear ht; cases x <;> decide

theorem Good.distinct {v : Args} (h : Good v) {t : X} (ht : t ∈ [TT0, TT1, TT2, TT3]) : Distinct cfg8 v t := by
  simp only [List.mem_cons, List.not_mem_nil, or_false] at ht
  rcases ht with e | e | e | e <;> subst e
  · exact h.d0
  · exact h.d1
  · exact h.d2
  · exact h.d3

theorem Good.ne {v : Args} (h : Good v) {t : X} (ht : t ∈ [TT0, TT1, TT2, TT3]) : ∀ x ∈ v.regs, x ≠ t := by
  intro x hx e
  have h1 := h.regs x hx
  rw [e] at h1
  revert ht h1; clear e; cases t <;> decide

/-- The invariant of the rounds for another initial state. -/
theorem rebase {env : Env} {k : Cfg} {rg : Region} {o hi hi' : Nat} {m : Nat → Nat → Word} {s0 s0' s : State} {j : Nat} {v : Args}
    (h : Inv env k rg o hi m s0 j v s) (hr : s0.r = s0'.r) (hm : ∀ r, r ≠ .stack → s0.mem r = s0'.mem r)
    (hs : ∀ i, i < o ∨ o + hi' ≤ i → s0.mem .stack i = s0'.mem .stack i) (hh : hi ≤ hi') : Inv env k rg o hi' m s0' j v s :=
  ⟨h.fault, fun r h1 => (h.regs r h1).trans (congrFun hr r), h.round, h.hold, h.sched, fun r h1 => (h.mem r h1).trans (hm r h1),
    fun i h1 => (h.stack i (by omega)).trans (hs i h1)⟩

/-- A round, and loading the next message word for its register. -/
theorem half_spec {env : Env} {o j i c : Nat} {s0 s : State} {v : Args} {m : Nat → Nat → Word} {t : X} (hL : Lay env cfg8 .eight o 512 s0.mem)
    (hsp : s0.r .rsp = env.ptr .stack o) (htbl : s0.r .rcx = env.ptr .eight 0) (hroom : o + 896 ≤ env.size .stack) (hg : Good v)
    (ht : t ∈ [TT0, TT1, TT2, TT3]) (hc : c < 4) (hj : j < 64) (hi : i % 16 = j % 16)
    (hI : Inv env cfg8 .eight o 512 m s0 j v s) (hW : ∀ l, l < 8 → s.x t l = W (m l) j) :
    Inv env cfg8 .eight o 512 m s0 (j + 1) v.rot (exec env (round0015 cfg8 v t i ++ [.vload .dqa .ymm t (.reg .rsp (_YTMP + c * 32))]) s) ∧
    (∀ x ∈ [TT0, TT1, TT2, TT3], x ≠ t →
      (exec env (round0015 cfg8 v t i ++ [.vload .dqa .ymm t (.reg .rsp (_YTMP + c * 32))]) s).x x = s.x x) ∧
    ∀ l, l < 8 → (exec env (round0015 cfg8 v t i ++ [.vload .dqa .ymm t (.reg .rsp (_YTMP + c * 32))]) s).x t l =
      readWord (s0.mem .stack) (o + 768 + 32 * c + 4 * l) := by
  have hw : Width.lanes .ymm = 8 := rfl
  have hal := hL.align
  rw [show cfg8.sz = 32 from rfl] at hal
  rw [exec_append, exec_cons, exec_nil]
  obtain ⟨hA, hAx⟩ := hI.step hL hsp htbl (hg.distinct ht) (i := i) hj hi hW
  generalize exec env (round0015 cfg8 v t i) s = s1 at hA hAx ⊢
  have h := vload_spec hL.valid (m := .dqa) (w := .ymm) t (s := s1) (r := .stack) (o := o + (_YTMP + c * 32))
    (ea_reg ((hA.regs .rsp (by decide)).trans hsp) _)
    (by rw [hw]; simp only [_YTMP]; omega) (fun _ => by rw [hw]; simp only [_YTMP]; omega)
  rw [hw] at h
  generalize step env s1 (.vload .dqa .ymm t (.reg .rsp (_YTMP + c * 32))) = s2 at h ⊢
  obtain ⟨d1, d2, d3, d4, d5⟩ := h
  refine ⟨⟨d3.trans hA.fault, fun r hr => by rw [d1]; exact hA.regs r hr, by rw [d1]; exact hA.round,
    fun l hl => (hA.hold l hl).congr fun x hx => d4 x (hg.rot.ne ht x hx), by rw [d2]; exact hA.sched, by rw [d2]; exact hA.mem,
    by rw [d2]; exact hA.stack⟩, fun x hx hne => (d4 x hne).trans (hAx x (hg.keep hx hne)), fun l hl => ?_⟩
  rw [d5 l hl]
  refine (readWord_congr fun a _ _ => hA.stack a (Or.inr ?_)).trans ?_
  · simp only [_YTMP] at *; omega
  · congr 1; simp only [_YTMP]; omega

theorem group_eq (v : Args) (i : Nat) : group v i = loadBlocks v i ++
    ((round0015 cfg8 v TT0 (i * 8 + 0) ++ [.vload .dqa .ymm TT0 (.reg .rsp (_YTMP + 0 * 32))]) ++
    ((round0015 cfg8 v.rot TT1 (i * 8 + 1) ++ [.vload .dqa .ymm TT1 (.reg .rsp (_YTMP + 1 * 32))]) ++
    ((round0015 cfg8 v.rot.rot TT2 (i * 8 + 2) ++ [.vload .dqa .ymm TT2 (.reg .rsp (_YTMP + 2 * 32))]) ++
    ((round0015 cfg8 v.rot.rot.rot TT3 (i * 8 + 3) ++ [.vload .dqa .ymm TT3 (.reg .rsp (_YTMP + 3 * 32))]) ++
    (round0015 cfg8 v.rot.rot.rot.rot TT0 (i * 8 + 4) ++ (round0015 cfg8 v.rot.rot.rot.rot.rot TT1 (i * 8 + 5) ++
    (round0015 cfg8 v.rot.rot.rot.rot.rot.rot TT2 (i * 8 + 6) ++ round0015 cfg8 v.rot.rot.rot.rot.rot.rot.rot TT3 (i * 8 + 7)))))))) := by
  simp only [group, List.append_assoc, List.cons_append, List.nil_append]

theorem group_spec {env : Env} {o p i : Nat} {s0 s : State} (hv : env.Valid) (L : Loaded env s0.mem)
    (hsp : s0.r .rsp = env.ptr .stack o) (hroom : o + 896 ≤ env.size .stack) (hal : (env.base .stack + o) % 32 = 0)
    (htbl : s0.r .rcx = env.ptr .eight 0)
    (hsi : s0.r .rsi = env.ptr .input p) (hin : p + 512 ≤ env.size .input) (hi : i < 2)
    (hI : Inv env cfg8 .eight o 896 (fun l => msg (s0.mem .input) (p + 64 * l)) s0 (8 * i) args s) :
    Inv env cfg8 .eight o 896 (fun l => msg (s0.mem .input) (p + 64 * l)) s0 (8 * (i + 1)) args (exec env (group args i) s) := by
  have hLs : Loaded env s.mem := L.congr fun r h _ _ => hI.mem r h
  obtain ⟨b1, b2, b3, b4, b5, b6, b7⟩ := loadBlocks_spec (i := i) (p := p) (o := o) hv hLs (by rw [hI.regs _ (by decide)]; exact hsp) hroom hal
    (by rw [hI.regs _ (by decide)]; exact hsi) hi hin
  rw [group_eq, exec_append]
  generalize exec env (loadBlocks args i) s = s1 at b1 b2 b3 b4 b5 b6 b7 ⊢
  rw [hI.mem .input (by decide)] at b6 b7
  obtain ⟨b, hb1, hb2⟩ : ∃ b : State, b.r = s0.r ∧ b.mem = s1.mem := ⟨{ s0 with mem := s1.mem }, rfl, rfl⟩
  have Lb : Loaded env b.mem := by rw [hb2]; exact hLs.congr fun r h _ _ => b3 r h
  have hL := lay hv Lb (hi := 512) (o := o) (by decide) (by omega) hal
  have hI1 : Inv env cfg8 .eight o 512 (fun l => msg (s0.mem .input) (p + 64 * l)) b (8 * i) args s1 := by
    refine ⟨b2.trans hI.fault, fun r hr => by rw [b1, hb1]; exact hI.regs r hr, by rw [b1]; exact hI.round, fun l hl => ?_, fun l hl t h1 h2 => ?_,
      fun r _ => by rw [hb2], fun _ _ => by rw [hb2]⟩
    · refine Hold.ofWord fun k hk => ?_
      rw [b5 _ (List.getElem_mem _) l hl]
      exact (hI.hold l hl).word k hk
    · rw [← hI.sched l hl t h1 h2]
      have hl : l < 8 := hl
      refine readWord_congr fun a _ h => b4 a (Or.inl ?_)
      rw [show cfg8.sz = 32 from rfl] at h
      omega
  have hspb : b.r .rsp = env.ptr .stack o := by rw [hb1]; exact hsp
  have htbb : b.r .rcx = env.ptr .eight 0 := by rw [hb1]; exact htbl
  have hW : ∀ t, t < 16 → ∀ l, W (msg (s0.mem .input) (p + 64 * l)) t = msg (s0.mem .input) (p + 64 * l) t := fun t ht l => W_lt _ ht
  rw [← hb2] at b7
  have g0 := good_args
  have m0 : TT0 ∈ [TT0, TT1, TT2, TT3] := by decide
  have m1 : TT1 ∈ [TT0, TT1, TT2, TT3] := by decide
  have m2 : TT2 ∈ [TT0, TT1, TT2, TT3] := by decide
  have m3 : TT3 ∈ [TT0, TT1, TT2, TT3] := by decide
  rw [exec_append]
  obtain ⟨hA, hAx, hAt⟩ := half_spec hL hspb htbb hroom g0 m0 (c := 0) (i := i * 8 + 0) (by decide) (by omega) (by omega) hI1
    (fun l hl => by rw [hW _ (by omega)]; exact b6 0 (by decide) l hl)
  generalize exec env (round0015 cfg8 args TT0 (i * 8 + 0) ++ [.vload .dqa .ymm TT0 (.reg .rsp (_YTMP + 0 * 32))]) s1 = s2 at hA hAx hAt ⊢
  rw [exec_append]
  obtain ⟨hB, hBx, hBt⟩ := half_spec hL hspb htbb hroom g0.rot m1 (c := 1) (i := i * 8 + 1) (by decide) (by omega) (by omega) hA
    (fun l hl => by rw [hW _ (by omega), hAx _ m1 (by decide)]; exact b6 1 (by decide) l hl)
  generalize exec env (round0015 cfg8 args.rot TT1 (i * 8 + 1) ++ [.vload .dqa .ymm TT1 (.reg .rsp (_YTMP + 1 * 32))]) s2 = s3 at hB hBx hBt ⊢
  rw [exec_append]
  obtain ⟨hC, hCx, hCt⟩ := half_spec hL hspb htbb hroom g0.rot.rot m2 (c := 2) (i := i * 8 + 2) (by decide) (by omega) (by omega) hB
    (fun l hl => by rw [hW _ (by omega), hBx _ m2 (by decide), hAx _ m2 (by decide)]; exact b6 2 (by decide) l hl)
  generalize exec env (round0015 cfg8 args.rot.rot TT2 (i * 8 + 2) ++ [.vload .dqa .ymm TT2 (.reg .rsp (_YTMP + 2 * 32))]) s3 = s4 at hC hCx hCt ⊢
  rw [exec_append]
  obtain ⟨hD, hDx, hDt⟩ := half_spec hL hspb htbb hroom g0.rot.rot.rot m3 (c := 3) (i := i * 8 + 3) (by decide) (by omega) (by omega) hC
    (fun l hl => by rw [hW _ (by omega), hCx _ m3 (by decide), hBx _ m3 (by decide), hAx _ m3 (by decide)]; exact b6 3 (by decide) l hl)
  generalize exec env (round0015 cfg8 args.rot.rot.rot TT3 (i * 8 + 3) ++ [.vload .dqa .ymm TT3 (.reg .rsp (_YTMP + 3 * 32))]) s4 = s5 at hD hDx hDt ⊢
  have k4 := g0.rot.rot.rot.rot
  rw [exec_append]
  obtain ⟨hE, hEx⟩ := hD.step hL hspb htbb k4.d0 (i := i * 8 + 4) (by omega) (by omega)
    (fun l hl => by
      rw [hW _ (by omega), hDx _ m0 (by decide), hCx _ m0 (by decide), hBx _ m0 (by decide), hAt l hl]
      exact b7 0 (by decide) l hl)
  generalize exec env (round0015 cfg8 args.rot.rot.rot.rot TT0 (i * 8 + 4)) s5 = s6 at hE hEx ⊢
  rw [exec_append]
  obtain ⟨hF, hFx⟩ := hE.step hL hspb htbb k4.rot.d1 (i := i * 8 + 5) (by omega) (by omega)
    (fun l hl => by
      rw [hW _ (by omega), hEx _ (k4.keep m1 (by decide)), hDx _ m1 (by decide), hCx _ m1 (by decide), hBt l hl]
      exact b7 1 (by decide) l hl)
  generalize exec env (round0015 cfg8 args.rot.rot.rot.rot.rot TT1 (i * 8 + 5)) s6 = s7 at hF hFx ⊢
  rw [exec_append]
  obtain ⟨hG, hGx⟩ := hF.step hL hspb htbb k4.rot.rot.d2 (i := i * 8 + 6) (by omega) (by omega)
    (fun l hl => by
      rw [hW _ (by omega), hFx _ (k4.rot.keep m2 (by decide)), hEx _ (k4.keep m2 (by decide)), hDx _ m2 (by decide), hCt l hl]
      exact b7 2 (by decide) l hl)
  generalize exec env (round0015 cfg8 args.rot.rot.rot.rot.rot.rot TT2 (i * 8 + 6)) s7 = s8 at hG hGx ⊢
  obtain ⟨hH, -⟩ := hG.step hL hspb htbb k4.rot.rot.rot.d3 (i := i * 8 + 7) (by omega) (by omega)
    (fun l hl => by
      rw [hW _ (by omega), hGx _ (k4.rot.rot.keep m3 (by decide)), hFx _ (k4.rot.keep m3 (by decide)), hEx _ (k4.keep m3 (by decide)), hDt l hl]
      exact b7 3 (by decide) l hl)
  refine rebase hH hb1 (fun r hr => ?_) (fun a ha => ?_) (by decide)
  · rw [hb2, b3 r hr, hI.mem r hr]
  · rw [hb2, b4 a (by omega), hI.stack a ha]

/-! ## The output -/

/-- The transposition of the hash values. -/
def outA : List Instr := transpose8 args.a args.b args.c args.d args.e args.f args.g args.h TT0 TT1

/-- Reversing the bytes of the hash values. -/
def outB : List Instr := args.regs.map fun x => .vpshufb .ymm x x TT0

/-- The first half of the transposition: within the halves of the registers. -/
def outA1 : List Instr := outA.take 16
/-- The second half of the transposition: exchanging halves. -/
def outA2 : List Instr := outA.drop 16

/-- The registers that hold the words of the first four blocks after `outA1`. -/
def outP : List X := [TT0, .x3, .x1, .x0]
/-- The registers that hold the words of the last four blocks after `outA1`. -/
def outQ : List X := [TT1, .x7, .x5, .x4]

theorem vregs_append {a b : List Instr} {f : X → Lanes} (h : (vexec a f).isSome = true) (hb : (vexec b (vregs a f)).isSome = true) :
    vregs (a ++ b) f = vregs b (vregs a f) := by
  have key : ∀ (a : List Instr) (f g : X → Lanes), vexec a f = some g → vexec (a ++ b) f = vexec b g := by
    intro a
    induction a with
    | nil => intro f g h; simp only [vexec, Option.some.injEq] at h; subst h; rfl
    | cons i a ih =>
      intro f g h
      rw [vexec] at h
      rw [List.cons_append, vexec]
      cases hi : vstep f i with
      | none => rw [hi] at h; exact absurd h (by simp)
      | some f' => rw [hi] at h; exact ih f' g h
  obtain ⟨g, hg⟩ := Option.isSome_iff_exists.mp h
  have e : vregs a f = g := by rw [vregs, hg, Option.getD_some]
  have he := key a f g hg
  rw [e] at hb ⊢
  rw [vregs, vregs, he]
  obtain ⟨k, hk⟩ := Option.isSome_iff_exists.mp hb
  rw [hk]; rfl

theorem outA1a_spec (f : X → Lanes) : (∀ x ∈ [X.x4, .x5, .x6, .x7], vregs (outA.take 8) f x = f x) ∧ ∀ l, l < 8 → ∀ c, c < 4 →
    vregs (outA.take 8) f (outP.getD c TT0) l = f (args.regs.getD (l % 4) TT0) (4 * (l / 4) + c) := by
  constructor
  · intro x hx
    cases x <;> first | rfl | exact absurd hx (by decide)
  · intro l hl c hc
    have h1 : l = 0 ∨ l = 1 ∨ l = 2 ∨ l = 3 ∨ l = 4 ∨ l = 5 ∨ l = 6 ∨ l = 7 := by omega
    have h2 : c = 0 ∨ c = 1 ∨ c = 2 ∨ c = 3 := by omega
    rcases h1 with h | h | h | h | h | h | h | h <;> subst h <;> rcases h2 with h | h | h | h <;> subst h <;> rfl

theorem outA1b_spec (f : X → Lanes) : (∀ x ∈ outP, vregs (outA1.drop 8) f x = f x) ∧ ∀ l, l < 8 → ∀ c, c < 4 →
    vregs (outA1.drop 8) f (outQ.getD c TT0) l = f (args.regs.getD (4 + l % 4) TT0) (4 * (l / 4) + c) := by
  constructor
  · intro x hx
    cases x <;> first | rfl | exact absurd hx (by decide)
  · intro l hl c hc
    have h1 : l = 0 ∨ l = 1 ∨ l = 2 ∨ l = 3 ∨ l = 4 ∨ l = 5 ∨ l = 6 ∨ l = 7 := by omega
    have h2 : c = 0 ∨ c = 1 ∨ c = 2 ∨ c = 3 := by omega
    rcases h1 with h | h | h | h | h | h | h | h <;> subst h <;> rcases h2 with h | h | h | h <;> subst h <;> rfl

theorem outA1_spec (f : X → Lanes) (l : Nat) (hl : l < 8) (c : Nat) (hc : c < 4) :
    vregs outA1 f (outP.getD c TT0) l = f (args.regs.getD (l % 4) TT0) (4 * (l / 4) + c) ∧
    vregs outA1 f (outQ.getD c TT0) l = f (args.regs.getD (4 + l % 4) TT0) (4 * (l / 4) + c) := by
  rw [show outA1 = outA.take 8 ++ outA1.drop 8 from rfl, vregs_append rfl rfl]
  obtain ⟨a1, a2⟩ := outA1a_spec f
  obtain ⟨b1, b2⟩ := outA1b_spec (vregs (outA.take 8) f)
  rw [b1 _ (by clear hl; revert c; decide), a2 l hl c hc, b2 l hl c hc, a1 _ (by
    have h1 : l % 4 < 4 := Nat.mod_lt _ (by decide)
    generalize l % 4 = k at h1
    revert k; decide)]
  exact ⟨rfl, rfl⟩

theorem outA2_spec (f : X → Lanes) : ∀ l, l < 8 → ∀ i, i < 8 →
    vregs outA2 f (args.regs.getD l TT0) i = f ((if i < 4 then outP else outQ).getD (l % 4) TT0) (4 * (l / 4) + i % 4) := by
  intro l hl i hi
  have h1 : l = 0 ∨ l = 1 ∨ l = 2 ∨ l = 3 ∨ l = 4 ∨ l = 5 ∨ l = 6 ∨ l = 7 := by omega
  have h2 : i = 0 ∨ i = 1 ∨ i = 2 ∨ i = 3 ∨ i = 4 ∨ i = 5 ∨ i = 6 ∨ i = 7 := by omega
  rcases h1 with h | h | h | h | h | h | h | h <;> subst h <;> rcases h2 with h | h | h | h | h | h | h | h <;> subst h <;> rfl

theorem outA_spec (f : X → Lanes) : ∀ l, l < 8 → ∀ i, i < 8 → vregs outA f (args.regs.getD l TT0) i = f (args.regs.getD i TT0) l := by
  intro l hl i hi
  rw [show outA = outA1 ++ outA2 from rfl, vregs_append rfl rfl, outA2_spec _ l hl i hi]
  have h1 := outA1_spec f (4 * (l / 4) + i % 4) (by omega) (l % 4) (by omega)
  have e1 : (4 * (l / 4) + i % 4) % 4 = i % 4 := by omega
  have e2 : 4 * ((4 * (l / 4) + i % 4) / 4) + l % 4 = l := by omega
  rw [e1, e2] at h1
  by_cases h4 : i < 4
  · rw [if_pos h4, h1.1, Nat.mod_eq_of_lt h4]
  · rw [if_neg h4, h1.2, show 4 + i % 4 = i by omega]

theorem outB_spec (f : X → Lanes) (hf : ∀ l, l < 8 → f TT0 l = flipWord l) : ∀ j, j < 8 → ∀ l, l < 8 →
    vregs outB f (args.regs.getD j TT0) l = bswap (f (args.regs.getD j TT0) l) := by
  intro j hj l hl
  have hz : ∀ v : Lanes, zx .ymm (pshufb v (f TT0)) l = bswap (v l) := fun v => by
    rw [zx_ymm _ hl, pshufb_flip _ _ (by omega) (hf l hl)]
  have h2 : j = 0 ∨ j = 1 ∨ j = 2 ∨ j = 3 ∨ j = 4 ∨ j = 5 ∨ j = 6 ∨ j = 7 := by omega
  rcases h2 with h | h | h | h | h | h | h | h <;> subst h <;> exact hz _

/-- After the rounds on the padding: writing the result, moving on. -/
def outC : List Instr :=
  outA ++ (.vload .dqa .ymm TT0 (.rel .eight FLIP_MASK) :: (outB ++ (storeSeq .dqu .ymm .rdi 0 args.regs ++
    [.addImm .rsi (64 * 8), .addImm .rdi (32 * 8), .subImm .rdx 8])))

theorem pad_eq : pad = (paddingRounds cfg8 T1 64 args ++ addSeq cfg8.w .rsp _DIGEST args.regs) ++ outC := by
  rw [List.append_assoc]
  exact congrArg (paddingRounds cfg8 T1 64 args ++ ·) rfl

theorem outC_spec {env : Env} {s : State} {p q : Nat} {d : Nat → HV} (hv : env.Valid) (L : Loaded env s.mem) (hf : s.fault = false)
    (hsi : s.r .rsi = env.ptr .input p) (hdi : s.r .rdi = env.ptr .output q) (hout : q + 256 ≤ env.size .output)
    (hh : ∀ l, l < 8 → Hold args s l (d l)) :
    (exec env outC s).fault = false ∧ (exec env outC s).r = upd (upd (upd s.r .rsi (env.ptr .input (p + 512))) .rdi (env.ptr .output (q + 256))) .rdx
      (s.r .rdx - BitVec.ofNat 64 8) ∧
    (∀ r, r ≠ .output → (exec env outC s).mem r = s.mem r) ∧
    (∀ i, i < q ∨ q + 256 ≤ i → (exec env outC s).mem .output i = s.mem .output i) ∧
    ∀ l, l < 8 → ∀ i, i < 8 → readWord ((exec env outC s).mem .output) (q + 32 * l + 4 * i) = bswap ((d l).word i) := by
  have h1 := size_le L
  have h2 := base_mod L
  have hw : Width.lanes .ymm = 8 := rfl
  have hlen : args.regs.length = 8 := rfl
  rw [outC, exec_append, exec_vregs (is := outA) rfl, exec_cons]
  obtain ⟨s0, e0⟩ : ∃ s0 : State, ({ s with x := vregs outA s.x } : State) = s0 := ⟨_, rfl⟩
  rw [e0]
  have a1 : s0.r = s.r := by rw [← e0]
  have a2 : s0.mem = s.mem := by rw [← e0]
  have a3 : s0.fault = s.fault := by rw [← e0]
  have a4 : s0.x = vregs outA s.x := by rw [← e0]
  clear e0
  have h := vload_spec hv (m := .dqa) (w := .ymm) TT0 (s := s0) (r := .eight) (o := FLIP_MASK) (ea_rel _ _ _ _)
    (by rw [hw]; simp only [FLIP_MASK]; omega) (fun _ => by rw [hw]; simp only [FLIP_MASK]; omega)
  rw [hw] at h
  generalize step env s0 (.vload .dqa .ymm TT0 (.rel .eight FLIP_MASK)) = s1 at h ⊢
  obtain ⟨b1, b2, b3, b4, b5⟩ := h
  rw [exec_append, exec_vregs (is := outB) (s := s1) rfl, exec_append]
  have hB := outB_spec s1.x (fun l hl => by rw [b5 l hl, a2]; exact flip L hl)
  have g5 : ∀ j, j < 8 → s1.x (args.regs.getD j TT0) = vregs outA s.x (args.regs.getD j TT0) := fun j hj => by
    rw [b4 _ (by revert j; decide), a4]
  have h := storeSeq_spec hv (m := .dqu) (w := .ymm) (b := .rdi) (r := .output) (o := q) hv.output args.regs 0
    (s := { s1 with x := vregs outB s1.x }) (by show s1.r .rdi = _; rw [b1, a1]; exact hdi) (by rw [hw, hlen]; omega) (by simp)
  generalize exec env (storeSeq .dqu .ymm .rdi 0 args.regs) _ = s2 at h ⊢
  obtain ⟨k1, k2, k3, k4, k5, k6⟩ := h
  rw [exec_cons, exec_cons, exec_cons, exec_nil]
  refine ⟨?_, ?_, ?_, ?_, ?_⟩
  · exact k3.trans (b3.trans (a3.trans hf))
  · have k1 : s2.r = s.r := k1.trans (b1.trans a1)
    have hA : (step env (step env (step env s2 (.addImm .rsi (64 * 8))) (.addImm .rdi (32 * 8))) (.subImm .rdx 8)).r =
      upd (upd (upd s2.r .rsi (s2.r .rsi + BitVec.ofNat 64 (64 * 8))) .rdi
        (upd s2.r .rsi (s2.r .rsi + BitVec.ofNat 64 (64 * 8)) .rdi + BitVec.ofNat 64 (32 * 8))) .rdx
        (upd (upd s2.r .rsi (s2.r .rsi + BitVec.ofNat 64 (64 * 8))) .rdi
          (upd s2.r .rsi (s2.r .rsi + BitVec.ofNat 64 (64 * 8)) .rdi + BitVec.ofNat 64 (32 * 8)) .rdx - BitVec.ofNat 64 8) := rfl
    rw [hA, upd_ne (j := R.rdi) (k := .rsi) _ _ (by decide), upd_ne (j := R.rdx) (k := .rdi) _ _ (by decide), upd_ne (j := R.rdx) (k := .rsi) _ _ (by decide),
      k1, hsi, hdi, ptr_add, ptr_add]
  · intro r hr
    exact (k4 r hr).trans (congrFun (b2.trans a2) r)
  · intro i hi
    refine (k5 i (by rw [hw, hlen]; omega)).trans ?_
    show s1.mem .output i = _
    rw [b2, a2]
  · intro l hl i hi
    have e := k6 l (show _ < args.regs.length from hl) i (by rw [hw]; omega)
    have e' : ∀ j (h : j < args.regs.length), args.regs[j] = args.regs.getD j TT0 := fun j h => by
      rw [List.getD_eq_getElem?_getD, List.getElem?_eq_getElem h, Option.getD_some]
    rw [e', hw] at e
    have hp : q + 0 + 4 * 8 * l + 4 * i = q + 32 * l + 4 * i := by omega
    rw [hp] at e
    refine e.trans ?_
    show vregs outB s1.x _ _ = _
    rw [hB _ hl _ hi, g5 _ hl, outA_spec s.x l hl i hi]
    have hr := (hh l hl).word i (show i < args.regs.length from hi)
    rw [e'] at hr
    rw [hr]

/-! ## A batch of eight blocks -/

theorem blocks_eq : blocks = start cfg8 .eight DIGEST_8 K256_8 ++ (group args 0 ++ group args 1) := rfl
theorem mid_eq : mid = middle cfg8 .eight DIGEST_8 PADDING_8 _DIGEST := rfl

theorem batch {env : Env} {cs : List Label} {s : State} {o p q : Nat} (hv : env.Valid) (L : Loaded env s.mem) (hf : s.fault = false)
    (hsp : s.r .rsp = env.ptr .stack o) (hroom : o + 896 ≤ env.size .stack) (hal : (env.base .stack + o) % 32 = 0)
    (hsi : s.r .rsi = env.ptr .input p) (hdi : s.r .rdi = env.ptr .output q) (hin : p + 512 ≤ env.size .input)
    (hout : q + 256 ≤ env.size .output) :
    ∃ s', Steps env X86.code eightBatch.tail (.run .eightBlocks cs s) (.run .eightLoop cs s') ∧ Batch env 8 .rax o 896 p q s s' := by
  have hsz : cfg8.sz = 32 := rfl
  have hw : cfg8.w.lanes = 8 := rfl
  -- the initial hash value
  obtain ⟨a1, a2, a3, a4⟩ := start_spec (kk := K256_8) (dlay hv L)
  obtain ⟨s0, e0⟩ : ∃ s0, exec env (start cfg8 .eight DIGEST_8 K256_8) s = s0 := ⟨_, rfl⟩
  rw [e0] at a1 a2 a3 a4
  have hr0 : ∀ r, r ≠ .rax → r ≠ .rcx → s0.r r = s.r r := fun r h h' => by
    rw [a1, upd_ne _ _ h']; exact upd_ne _ _ h
  have L0 : Loaded env s0.mem := by rw [a2]; exact L
  have hL := lay hv L0 (o := o) (hi := 896) (by decide) (by omega) hal
  have hsp0 : s0.r .rsp = env.ptr .stack o := (hr0 _ (by decide) (by decide)).trans hsp
  have hsi0 : s0.r .rsi = env.ptr .input p := (hr0 _ (by decide) (by decide)).trans hsi
  have htb0 : s0.r .rcx = env.ptr .eight 0 := by rw [a1, upd_same]
  have hI0 : Inv env cfg8 .eight o 896 (fun l => msg (s0.mem .input) (p + 64 * l)) s0 (8 * 0) args s0 := by
    refine ⟨a3.trans hf, fun _ _ => rfl, ?_, a4, fun _ _ t ht => absurd ht (by omega), fun _ _ => rfl, fun _ _ => rfl⟩
    rw [a1, upd_ne _ _ (by decide)]
    exact upd_same _ _ _
  -- rounds 0 to 15
  have hI1 := group_spec hv L0 hsp0 hroom hal htb0 hsi0 hin (i := 1) (by decide)
    (group_spec hv L0 hsp0 hroom hal htb0 hsi0 hin (i := 0) (by decide) hI0)
  rw [← exec_append, show 8 * (1 + 1) = 16 from rfl] at hI1
  obtain ⟨s1, e1⟩ : ∃ s1, exec env ((group args 0 ++ group args 1)) s0 = s1 := ⟨_, rfl⟩
  rw [e1] at hI1
  have r1 : Steps env X86.code [.eightBlocks] (.run .eightBlocks cs s) (.run .eightXX cs s1) :=
    Steps.one (advance_run (b := blocks) (tm := .goto .eightXX) rfl (by rw [blocks_eq, exec_append, e0, e1]) hI1.fault)
  -- rounds 16 to 63
  obtain ⟨s2, r2, hI2⟩ := xx_spec (code := X86.code) (lx := .eightXX) (lm := .eightMid) (cs := cs) (t1 := T1) rfl hL hsp0 htb0 (by decide) hI1
  -- the hash value of the block
  have L2 : Loaded env s2.mem := L0.congr fun r h _ _ => hI2.mem r h
  have hsp2 : s2.r .rsp = env.ptr .stack o := by rw [hI2.regs _ (by decide)]; exact hsp0
  obtain ⟨b1, b2, b3, b4, b5, b6⟩ := middle_spec (dst := _DIGEST) (pad := PADDING_8) (dlay hv L2) hsp2
    (by rw [hsz]; simp only [_DIGEST]; omega) (by rw [hsz]; simp only [_DIGEST]; omega) hI2.hold
  obtain ⟨s3, e3⟩ : ∃ s3, exec env (middle cfg8 .eight DIGEST_8 PADDING_8 _DIGEST) s2 = s3 := ⟨_, rfl⟩
  rw [e3] at b1 b2 b3 b4 b5 b6
  have r3 : Steps env X86.code [.eightMid] (.run .eightMid cs s2) (.run .eightPad cs s3) :=
    Steps.one (advance_run (b := mid) (tm := .goto .eightPad) rfl (by rw [mid_eq, e3]) (b2.trans hI2.fault))
  -- the padding
  have L3 : Loaded env s3.mem := L2.congr fun r h _ _ => b3 r h
  have hsp3 : s3.r .rsp = env.ptr .stack o := by
    rw [b1, upd_ne _ _ (by decide), upd_ne _ _ (by decide)]; exact hsp2
  obtain ⟨c1, c2, c3, c4⟩ := padding_spec (t1 := T1) (dst := _DIGEST) (play hv L3) (by decide) (by decide)
    (by rw [b1, upd_ne _ _ (by decide), upd_same]) (by rw [b1]; exact upd_same _ _ _) hsp3 (by rw [hsz]; simp only [_DIGEST]; omega)
    (b2.trans hI2.fault) b6 b5
  obtain ⟨s4, e4⟩ : ∃ s4, exec env (paddingRounds cfg8 T1 64 args ++ addSeq cfg8.w .rsp _DIGEST args.regs) s3 = s4 := ⟨_, rfl⟩
  rw [e4] at c1 c2 c3 c4
  -- the output
  have hr4 : ∀ r, r ≠ .rax → r ≠ .rcx → s4.r r = s.r r := fun r h h' => by
    rw [c1 r h, b1, upd_ne _ _ (k := cfg8.round) h, upd_ne _ _ h', hI2.regs r h, hr0 r h h']
  obtain ⟨d1, d2, d3, d4, d5⟩ := outC_spec hv (c2 ▸ L3) c3 ((hr4 _ (by decide) (by decide)).trans hsi) ((hr4 _ (by decide) (by decide)).trans hdi)
    hout c4
  obtain ⟨s5, e5⟩ : ∃ s5, exec env outC s4 = s5 := ⟨_, rfl⟩
  rw [e5] at d1 d2 d3 d4 d5
  have r4 : Steps env X86.code [.eightPad] (.run .eightPad cs s3) (.run .eightLoop cs s5) :=
    Steps.one (advance_run (b := pad) (tm := .goto .eightLoop) rfl (by rw [pad_eq, exec_append, e4, e5]) d1)
  have hmem : ∀ r, r ≠ .stack → s4.mem r = s.mem r := fun r h => by
    rw [c2, b3 r h, hI2.mem r h, a2]
  refine ⟨s5, (((r1.trans r2).trans r3).trans r4).cast rfl, d1, fun r hr hb => ?_, ?_, ?_, ?_, fun r h h' => (d3 r h').trans (hmem r h), fun i hi => ?_,
    fun i hi => (d4 i hi).trans (congrFun (hmem .output (by decide)) i), fun l hl => hash_block fun i hi => ?_⟩
  · have hr' : r ≠ .rdx ∧ r ≠ .rdi ∧ r ≠ .rsi ∧ r ≠ .rcx := by revert r; decide
    rw [d2, upd_ne _ _ hr'.1, upd_ne _ _ hr'.2.1, upd_ne _ _ hr'.2.2.1, hr4 r hb hr'.2.2.2]
  · rw [d2, upd_ne _ _ (by decide), upd_ne _ _ (by decide), upd_same]
  · rw [d2, upd_ne _ _ (by decide), upd_same]
  · rw [d2, upd_same, hr4 _ (by decide) (by decide)]
  · rw [d3 .stack (by decide), c2, b4 i (by rw [hsz]; simp only [_DIGEST]; omega), hI2.stack i (by omega), a2]
  · rw [d5 l hl i hi, ← a2]; rfl

end Mammon.X86.Eight
