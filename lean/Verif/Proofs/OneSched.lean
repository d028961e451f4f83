import Verif.Proofs.OneRounds
/-!
# The message schedule in vector registers
-/

namespace Mammon.X86.One
open Spec.SHA256

/-- What `FOUR_ROUNDS_AND_SCHED` computes from the four vectors of schedule words and the two masks, up to the second `vpshufd`. -/
def schedV0 (a b c d ba : Lanes) : Lanes :=
  let z := zx .xmm
  let t0 := z (palignr d c 4)
  let t0 := z fun l => t0 l + a l
  let t1 := z (palignr b a 4)
  let t2 := z (VSh.psrld.eval t1 7)
  let t3 := z (VSh.pslld.eval t1 (32 - 7))
  let t3 := z fun l => t3 l ||| t2 l
  let t2 := z (VSh.psrld.eval t1 18)
  let t4 := z (VSh.psrld.eval t1 3)
  let t1 := z (VSh.pslld.eval t1 (32 - 18))
  let t3 := z fun l => t3 l ^^^ t1 l
  let t3 := z fun l => t3 l ^^^ t2 l
  let t1 := z fun l => t3 l ^^^ t4 l
  let t2 := z (pshufd d 0b11111010)
  let t0 := z fun l => t0 l + t1 l
  let t4 := z (VSh.psrld.eval t2 10)
  let t3 := z (VSh.psrlq.eval t2 19)
  let t2 := z (VSh.psrlq.eval t2 17)
  let t2 := z fun l => t2 l ^^^ t3 l
  let t4 := z fun l => t4 l ^^^ t2 l
  let t4 := z (pshufb t4 ba)
  z fun l => t0 l + t4 l

/-- The rest. -/
def schedV1 (t0 dc : Lanes) : Lanes :=
  let z := zx .xmm
  let t2 := z (pshufd t0 0b01010000)
  let t5 := z (VSh.psrld.eval t2 10)
  let t3 := z (VSh.psrlq.eval t2 19)
  let t2 := z (VSh.psrlq.eval t2 17)
  let t2 := z fun l => t2 l ^^^ t3 l
  let t5 := z fun l => t5 l ^^^ t2 l
  let t5 := z (pshufb t5 dc)
  z fun l => t5 l + t0 l

/-- The vector instructions of `FOUR_ROUNDS_AND_SCHED`. -/
def vsched (x : Xs) : List Instr := vpart (sched0 args x) ++ (vpart (sched1 args x) ++ (vpart (sched2 args) ++ vpart (sched3 args x)))

theorem vsched_x0 {x : Xs} (hx : x ∈ [xs, xs.rot, xs.rot.rot, xs.rot.rot.rot]) (f : X → Lanes) :
    vregs (vsched x) f x.x0 = schedV1 (schedV0 (f x.x0) (f x.x1) (f x.x2) (f x.x3) (f SHUF_00BA)) (f SHUF_DC00) := by
  simp only [List.mem_cons, List.not_mem_nil, or_false] at hx
  rcases hx with rfl | rfl | rfl | rfl <;> rfl

theorem vsched_other {x : Xs} (hx : x ∈ [xs, xs.rot, xs.rot.rot, xs.rot.rot.rot]) (f : X → Lanes) :
    ∀ y ∈ [x.x1, x.x2, x.x3, SHUF_00BA, SHUF_DC00, BYTE_FLIP_MASK], vregs (vsched x) f y = f y := by
  simp only [List.mem_cons, List.not_mem_nil, or_false] at hx
  rcases hx with rfl | rfl | rfl | rfl <;> intro y hy <;>
    simp only [List.mem_cons, List.not_mem_nil, or_false] at hy <;>
    rcases hy with rfl | rfl | rfl | rfl | rfl | rfl <;> rfl

theorem palignr4 (a b : Lanes) {l : Nat} (hl : l < 4) : palignr a b 4 l = if l < 3 then b (l + 1) else a 0 := by
  have : l = 0 ∨ l = 1 ∨ l = 2 ∨ l = 3 := by omega
  rcases this with h | h | h | h <;> subst h <;> exact ofBytes_byteOf _

/-- Shifting the doubled word right is rotating. -/
theorem quad_ror (w : Word) {n : Nat} (hn : n < 32) : ((w ++ w : BitVec 64) >>> n).setWidth 32 = w.rotateRight n := by
  apply BitVec.eq_of_getLsbD_eq
  intro i hi
  rw [BitVec.getLsbD_setWidth, BitVec.getLsbD_ushiftRight, BitVec.getLsbD_append, BitVec.getLsbD_rotateRight, Nat.mod_eq_of_lt hn]
  by_cases h : n + i < 32
  · simp [hi, h, show i < 32 - n by omega]
  · simp [hi, h, show ¬ i < 32 - n by omega, show n + i - 32 = i - (32 - n) by omega]

/-- The lower case sigma 1 of the schedule in the even lanes of `t`, whose 64-bit lanes are doubled words. -/
theorem sig1_lane (t : Lanes) (w : Word) (h0 : t 0 = w) (h1 : t 1 = w) :
    (t 0 >>> 10) ^^^ (((t 1 ++ t 0 : BitVec 64) >>> 17).setWidth 32 ^^^ ((t 1 ++ t 0 : BitVec 64) >>> 19).setWidth 32) = ssig1 w := by
  rw [h0, h1, quad_ror w (by decide), quad_ror w (by decide), ssig1, BitVec.xor_comm]

/-- The lanes of `_SHUF_00BA` and `_SHUF_DC00`. -/
def ba (l : Nat) : Word := [0x03020100#32, 0x0b0a0908#32, 0xffffffff#32, 0xffffffff#32].getD l 0
def dc (l : Nat) : Word := [0xffffffff#32, 0xffffffff#32, 0x03020100#32, 0x0b0a0908#32].getD l 0

theorem ofBytes_zero : (ofBytes fun _ => 0) = 0 := by decide

theorem pshufb_ba (v m : Lanes) (hm : ∀ l, l < 4 → m l = ba l) {l : Nat} (hl : l < 4) :
    pshufb v m l = if l = 0 then v 0 else if l = 1 then v 2 else 0 := by
  have : l = 0 ∨ l = 1 ∨ l = 2 ∨ l = 3 := by omega
  rw [pshufb, hm l hl]
  rcases this with h | h | h | h <;> subst h
  · exact ofBytes_byteOf _
  · exact ofBytes_byteOf _
  · exact ofBytes_zero
  · exact ofBytes_zero

theorem pshufb_dc (v m : Lanes) (hm : ∀ l, l < 4 → m l = dc l) {l : Nat} (hl : l < 4) :
    pshufb v m l = if l = 2 then v 0 else if l = 3 then v 2 else 0 := by
  have : l = 0 ∨ l = 1 ∨ l = 2 ∨ l = 3 := by omega
  rw [pshufb, hm l hl]
  rcases this with h | h | h | h <;> subst h
  · exact ofBytes_zero
  · exact ofBytes_zero
  · exact ofBytes_byteOf _
  · exact ofBytes_byteOf _

theorem sigma0' (w : Word) : (w <<< (32 - 7) ||| w >>> 7) ^^^ w <<< (32 - 18) ^^^ w >>> 18 ^^^ w >>> 3 = ssig0 w := by
  have h1 : w <<< (32 - 7) ||| w >>> 7 = w.rotateRight 7 := by rw [BitVec.or_comm, ror_def w 7 (by decide)]
  have h2 : w <<< (32 - 18) ^^^ w >>> 18 = w.rotateRight 18 := by
    rw [← ror_def w 18 (by decide)]
    ext i hi
    simp only [BitVec.getElem_xor, BitVec.getElem_or, BitVec.getElem_shiftLeft, BitVec.getElem_ushiftRight]
    by_cases h : i < 32 - 18
    · simp [h]
    · simp [h, BitVec.getLsbD_of_ge w (18 + i) (by omega)]
  rw [h1, ssig0, BitVec.xor_assoc (w.rotateRight 7), h2]

/-- Four more words of the schedule. -/
theorem schedV_spec {m : Nat → Word} {t : Nat} {a b c d mba mdc : Lanes} (ha : ∀ l, l < 4 → a l = W m (t + l)) (hb : ∀ l, l < 4 → b l = W m (t + 4 + l))
    (hc : ∀ l, l < 4 → c l = W m (t + 8 + l)) (hd : ∀ l, l < 4 → d l = W m (t + 12 + l)) (hba : ∀ l, l < 4 → mba l = ba l)
    (hdc : ∀ l, l < 4 → mdc l = dc l) : ∀ l, l < 4 → schedV1 (schedV0 a b c d mba) mdc l = W m (t + 16 + l) := by
  have h0 : ∀ l, l < 4 → schedV0 a b c d mba l = W m (t + 9 + l) + W m (t + l) + ssig0 (W m (t + 1 + l)) +
      if l < 2 then ssig1 (W m (t + 14 + l)) else 0 := by
    intro l hl
    have e1 : palignr d c 4 l = W m (t + 9 + l) := by
      rw [palignr4 _ _ hl]
      split
      · rw [hc _ (by omega)]; congr 1; omega
      · rw [hd _ (by omega)]; congr 1; omega
    have e2 : palignr b a 4 l = W m (t + 1 + l) := by
      rw [palignr4 _ _ hl]
      split
      · rw [ha _ (by omega)]; congr 1; omega
      · rw [hb _ (by omega)]; congr 1; omega
    simp only [schedV0, zx_xmm _ hl, VSh.eval, e1, e2, ha l hl, sigma0', pshufb_ba _ _ hba hl]
    congr 1
    have : l = 0 ∨ l = 1 ∨ l = 2 ∨ l = 3 := by omega
    rcases this with h | h | h | h <;> subst h
    · exact sig1_lane (fun l => d 2) (W m (t + 14)) (hd 2 (by omega)) (hd 2 (by omega))
    · exact sig1_lane (fun l => d 3) (W m (t + 15)) (hd 3 (by omega)) (hd 3 (by omega))
    · rfl
    · rfl
  have hw : ∀ l, W m (t + 16 + l) = W m (t + 9 + l) + W m (t + l) + ssig0 (W m (t + 1 + l)) + ssig1 (W m (t + 14 + l)) := fun l => by
    rw [W_ge m (by omega), show t + 16 + l - 2 = t + 14 + l by omega, show t + 16 + l - 7 = t + 9 + l by omega,
      show t + 16 + l - 15 = t + 1 + l by omega, show t + 16 + l - 16 = t + l by omega]
    ac_rfl
  intro l hl
  generalize schedV0 a b c d mba = u at h0
  have u0 : u 0 = W m (t + 16) := by rw [h0 0 (by omega), hw 0]; rfl
  have u1 : u 1 = W m (t + 17) := by rw [h0 1 (by omega), hw 1]; rfl
  simp only [schedV1, zx_xmm _ hl, VSh.eval, pshufb_dc _ _ hdc hl, h0 l hl, hw l]
  have : l = 0 ∨ l = 1 ∨ l = 2 ∨ l = 3 := by omega
  rcases this with h | h | h | h <;> subst h
  · exact BitVec.zero_add _
  · exact BitVec.zero_add _
  · have e := sig1_lane (fun l => u 0) (W m (t + 16)) u0 u0
    rw [if_pos rfl, if_neg (by decide), show ∀ x : Word, x + 0 = x from BitVec.add_zero, BitVec.add_comm]
    exact congrArg _ e
  · have e := sig1_lane (fun l => u 1) (W m (t + 17)) u1 u1
    rw [if_neg (by decide), if_pos rfl, if_neg (by decide), show ∀ x : Word, x + 0 = x from BitVec.add_zero, BitVec.add_comm]
    exact congrArg _ e

end Mammon.X86.One
