import Verif.Spec.SHA256
/-!
# Facts about SHA-256

Rounds with the sum of constant and schedule word, the functions in the form the assembly computes them, the schedule by a list, and the
hash of a 64-byte message.
-/

namespace Mammon.Spec.SHA256

/-- One round with the sum `wk` of constant and schedule word. -/
def rnd (wk : Word) (s : HV) : HV :=
  let t1 := s.h + bsig1 s.e + ch s.e s.f s.g + wk
  let t2 := bsig0 s.a + maj s.a s.b s.c
  ⟨t1 + t2, s.a, s.b, s.c, s.d + t1, s.e, s.f, s.g⟩

theorem round_eq_rnd (k w : Word) (s : HV) : round k w s = rnd (k + w) s := by
  simp only [round, rnd, BitVec.add_assoc]

theorem ch_eq (e f g : Word) : ((f ^^^ g) &&& e) ^^^ g = ch e f g := by
  ext i hi
  simp only [ch, BitVec.getElem_xor, BitVec.getElem_and, BitVec.getElem_not]
  generalize e[i] = x; generalize f[i] = y; generalize g[i] = z
  cases x <;> cases y <;> cases z <;> rfl

theorem maj_xor (a b c : Word) : (a &&& c) ||| ((a ^^^ c) &&& b) = maj a b c := by
  ext i hi
  simp only [maj, BitVec.getElem_xor, BitVec.getElem_and, BitVec.getElem_or]
  generalize a[i] = x; generalize b[i] = y; generalize c[i] = z
  cases x <;> cases y <;> cases z <;> rfl

theorem maj_or (a b c : Word) : ((a ||| c) &&& b) ||| (a &&& c) = maj a b c := by
  ext i hi
  simp only [maj, BitVec.getElem_xor, BitVec.getElem_and, BitVec.getElem_or]
  generalize a[i] = x; generalize b[i] = y; generalize c[i] = z
  cases x <;> cases y <;> cases z <;> rfl

theorem ror_xor (x y : Word) (n : Nat) : (x ^^^ y).rotateRight n = x.rotateRight n ^^^ y.rotateRight n := by
  ext i hi
  simp only [BitVec.getElem_xor, BitVec.getElem_rotateRight]
  split <;> rfl

theorem ror_ror (x : Word) (m n : Nat) : (x.rotateRight m).rotateRight n = x.rotateRight (m + n) := by
  ext i hi
  simp only [BitVec.getElem_rotateRight]
  have hm : m % 32 < 32 := Nat.mod_lt _ (by omega)
  have hn : n % 32 < 32 := Nat.mod_lt _ (by omega)
  have hmn : (m + n) % 32 = (m % 32 + n % 32) % 32 := Nat.add_mod _ _ _
  split <;> split <;> split <;> first | (congr 1; omega) | omega

/-- Rotation by two shifts, shift right first. -/
theorem ror_def (x : Word) (n : Nat) (h : n < 32) : (x >>> n) ||| (x <<< (32 - n)) = x.rotateRight n := by
  rw [BitVec.rotateRight_def, Nat.mod_eq_of_lt h]

/-- Rotation by two shifts, shift left first. -/
theorem ror_def' (x : Word) (n : Nat) (h : n < 32) (h0 : 0 < n) : (x <<< (32 - n)) ||| (x >>> (32 - (32 - n))) = x.rotateRight n := by
  rw [BitVec.or_comm, show 32 - (32 - n) = n by omega, ror_def x n h]

theorem W_lt (m : Nat → Word) {t : Nat} (h : t < 16) : W m t = m t := by
  rw [W, if_pos h]

theorem W_ge (m : Nat → Word) {t : Nat} (h : 16 ≤ t) :
    W m t = ssig1 (W m (t - 2)) + W m (t - 7) + ssig0 (W m (t - 15)) + W m (t - 16) := by
  conv => lhs; rw [W, if_neg (by omega)]

/-- The schedule depends on the sixteen words of the block only. -/
theorem W_congr {m m' : Nat → Word} (h : ∀ t, t < 16 → m t = m' t) (t : Nat) : W m t = W m' t := by
  induction t using Nat.strongRecOn with
  | ind t ih =>
    by_cases ht : t < 16
    · rw [W_lt m ht, W_lt m' ht, h t ht]
    · rw [W_ge m (by omega), W_ge m' (by omega), ih _ (by omega), ih _ (by omega), ih _ (by omega), ih _ (by omega)]

theorem rounds_congr {m m' : Nat → Word} (h : ∀ t, t < 16 → m t = m' t) (n : Nat) (s : HV) : rounds m n s = rounds m' n s := by
  induction n with
  | zero => rfl
  | succ n ih => rw [rounds, rounds, ih, W_congr h]

theorem compress_congr {m m' : Nat → Word} (h : ∀ t, t < 16 → m t = m' t) (s : HV) : compress s m = compress s m' := by
  rw [compress, compress, rounds_congr h]

/-- The first `16 + n` schedule words, last one first. -/
def schedR (m : Nat → Word) : Nat → List Word
  | 0 => (List.range 16).reverse.map m
  | n + 1 =>
    let l := schedR m n
    (ssig1 (l.getD 1 0) + l.getD 6 0 + ssig0 (l.getD 14 0) + l.getD 15 0) :: l

theorem schedR_getD (m : Nat → Word) (n : Nat) : ∀ j, j < 16 + n → (schedR m n).getD j 0 = W m (15 + n - j) := by
  induction n with
  | zero =>
    intro j hj
    rw [W_lt m (by omega)]
    have : (schedR m 0).getD j 0 = ((List.range 16).reverse.map m).getD j 0 := rfl
    rw [this]
    simp only [List.getD_eq_getElem?_getD, List.getElem?_map]
    rw [List.getElem?_reverse (by simpa using hj), List.getElem?_range (by simp; omega)]
    simp
  | succ n ih =>
    intro j hj
    have hs : schedR m (n + 1) = (ssig1 ((schedR m n).getD 1 0) + (schedR m n).getD 6 0 + ssig0 ((schedR m n).getD 14 0) +
      (schedR m n).getD 15 0) :: schedR m n := rfl
    rw [hs]
    cases j with
    | zero =>
      rw [List.getD_cons_zero, ih 1 (by omega), ih 6 (by omega), ih 14 (by omega), ih 15 (by omega), W_ge m (t := 15 + (n + 1) - 0) (by omega),
        show 15 + (n + 1) - 0 - 2 = 15 + n - 1 by omega, show 15 + (n + 1) - 0 - 7 = 15 + n - 6 by omega,
        show 15 + (n + 1) - 0 - 15 = 15 + n - 14 by omega, show 15 + (n + 1) - 0 - 16 = 15 + n - 15 by omega]
    | succ j =>
      rw [List.getD_cons_succ, ih j (by omega)]
      congr 1
      omega

/-- The schedule words in order. -/
def sched (m : Nat → Word) (n : Nat) : List Word := (schedR m n).reverse

theorem length_schedR (m : Nat → Word) (n : Nat) : (schedR m n).length = 16 + n := by
  induction n with
  | zero => simp [schedR]
  | succ n ih => simp only [schedR, List.length_cons, ih]; omega

theorem sched_getD (m : Nat → Word) {n t : Nat} (h : t < 16 + n) : (sched m n).getD t 0 = W m t := by
  have hl := length_schedR m n
  rw [sched, List.getD_eq_getElem?_getD, List.getElem?_reverse (by omega), ← List.getD_eq_getElem?_getD, schedR_getD m n _ (by omega)]
  congr 1
  omega

/-- The rounds by a fold over constants and schedule words. -/
theorem rounds_eq_foldl (m : Nat → Word) (n : Nat) (s : HV) :
    rounds m n s = (List.range n).foldl (fun s t => round (K t) (W m t) s) s := by
  induction n with
  | zero => rfl
  | succ n ih => rw [rounds, ih, List.range_succ, List.foldl_append]; rfl

/-- The compression function in a form that can be evaluated. -/
def compressL (s : HV) (m : Nat → Word) : HV :=
  (((kList.zip (sched m 48)).foldl (fun s p => round p.1 p.2 s) s)).add s

theorem zip_eq (m : Nat → Word) : kList.zip (sched m 48) = (List.range 64).map fun t => (K t, W m t) := by
  have hl : (sched m 48).length = 64 := by rw [sched, List.length_reverse, length_schedR]
  have hk : kList.length = 64 := rfl
  refine List.ext_getElem (by simp [hl, hk]) fun t h1 h2 => ?_
  have ht : t < 64 := by simpa using h2
  rw [List.getElem_zip, List.getElem_map, List.getElem_range]
  congr 1
  · rw [K, List.getD_eq_getElem?_getD, List.getElem?_eq_getElem (by omega)]; rfl
  · rw [← sched_getD m (n := 48) (by omega), List.getD_eq_getElem?_getD, List.getElem?_eq_getElem (by omega)]; rfl

theorem compress_eq_compressL (s : HV) (m : Nat → Word) : compress s m = compressL s m := by
  rw [compress, compressL, rounds_eq_foldl, zip_eq, List.foldl_map]

/-- The words of the second block of a padded 64-byte message. -/
def padBlock (t : Nat) : Word := if t = 0 then 0x80000000 else if t = 15 then 512 else 0

/-- The hash of a 64-byte message: two compressions. -/
theorem sha256_64 (msg : List Byte) (h : msg.length = 64) :
    sha256 msg = (compress (compress H0 fun t => wordAt msg (4 * t)) padBlock).bytes := by
  have hb : pad msg = msg ++ ([0x80#8] ++ List.replicate 55 0#8 ++ beBytes 8 512) := by
    simp only [pad, h]
    simp only [List.append_assoc]
  have hl : (pad msg).length = 128 := by rw [hb, List.length_append, h]; rfl
  have h1 : ∀ i, i < 64 → (pad msg).getD i 0 = msg.getD i 0 := fun i hi => by
    rw [hb, List.getD_eq_getElem?_getD, List.getElem?_append_left (by omega), ← List.getD_eq_getElem?_getD]
  have h2 : ∀ i, (pad msg).getD (64 + i) 0 = ([0x80#8] ++ List.replicate 55 0#8 ++ beBytes 8 512).getD i 0 := fun i => by
    rw [hb, List.getD_eq_getElem?_getD, List.getElem?_append_right (by omega), h, Nat.add_sub_cancel_left, ← List.getD_eq_getElem?_getD]
  have hp : ∀ t, t < 16 → (([0x80#8] ++ List.replicate 55 0#8 ++ beBytes 8 512).getD (4 * t) 0 ++
      ([0x80#8] ++ List.replicate 55 0#8 ++ beBytes 8 512).getD (4 * t + 1) 0 ++
      ([0x80#8] ++ List.replicate 55 0#8 ++ beBytes 8 512).getD (4 * t + 2) 0 ++
      ([0x80#8] ++ List.replicate 55 0#8 ++ beBytes 8 512).getD (4 * t + 3) 0 : Word) = padBlock t := by decide +kernel
  rw [sha256, hl, show 128 / 64 = 2 from rfl]
  refine congrArg HV.bytes ?_
  simp only [hashBlocks]
  rw [compress_congr (m := fun t => wordAt (pad msg) (64 * 0 + 4 * t)) (m' := fun t => wordAt msg (4 * t))]
  · refine compress_congr (fun t ht => ?_) _
    simp only [wordAt, Nat.mul_one, Nat.add_assoc, h2]
    exact hp t ht
  · intro t ht
    simp only [wordAt, Nat.mul_zero, Nat.zero_add]
    rw [h1 _ (by omega), h1 _ (by omega), h1 _ (by omega), h1 _ (by omega)]

/-- The sums of constants and schedule words of the padding block. -/
def padWK : List Word := (List.range 64).map fun t => K t + (sched padBlock 48).getD t 0

theorem padWK_getD {t : Nat} (h : t < 64) : padWK.getD t 0 = K t + W padBlock t := by
  rw [padWK, List.getD_eq_getElem?_getD, List.getElem?_map, List.getElem?_range h]
  show K t + (sched padBlock 48).getD t 0 = _
  rw [sched_getD _ (by omega)]

end Mammon.Spec.SHA256
