import Verif.Proofs.LaneBatch
/-!
# Bytes in memory and words of the specification; the contents of the data sections
-/

namespace Mammon.X86
open Spec.SHA256

theorem bytesAt_getD {m : Nat → Byte} {o n i : Nat} (h : i < n) : (bytesAt m o n).getD i 0 = m (o + i) := by
  rw [bytesAt, List.getD_eq_getElem?_getD, List.getElem?_map, List.getElem?_range h]
  rfl

theorem length_bytesAt (m : Nat → Byte) (o n : Nat) : (bytesAt m o n).length = n := by simp [bytesAt]

theorem bytesAt_congr {m m' : Nat → Byte} {o n : Nat} (h : ∀ i, o ≤ i → i < o + n → m i = m' i) : bytesAt m o n = bytesAt m' o n := by
  refine List.map_congr_left fun i hi => h _ (by omega) ?_
  have := List.mem_range.mp hi
  omega

theorem wordAt_bytesAt {m : Nat → Byte} {o t : Nat} (h : t < 16) : wordAt (bytesAt m o 64) (4 * t) = bswap (readWord m (o + 4 * t)) := by
  rw [wordAt, bytesAt_getD (by omega), bytesAt_getD (by omega), bytesAt_getD (by omega), bytesAt_getD (by omega), readWord, bswap]
  obtain ⟨h0, h1, h2, h3⟩ := byteOf_append (m (o + 4 * t + 3)) (m (o + 4 * t + 2)) (m (o + 4 * t + 1)) (m (o + 4 * t))
  rw [h0, h1, h2, h3]
  rfl

theorem wordBytes_eq (w : Word) : wordBytes w = [byteOf w 3, byteOf w 2, byteOf w 1, byteOf w 0] := by
  have h : ∀ k, k < 4 → BitVec.ofNat 8 (w.toNat / 256 ^ k) = byteOf w k := by
    intro k _
    apply BitVec.eq_of_toNat_eq
    rw [byteOf, BitVec.toNat_setWidth, BitVec.toNat_ushiftRight, BitVec.toNat_ofNat, Nat.shiftRight_eq_div_pow, Nat.pow_mul]
  show [_, _, _, _] = _
  rw [← h 3 (by decide), ← h 2 (by decide), ← h 1 (by decide), ← h 0 (by decide)]

theorem readWord_bytes {m : Nat → Byte} {o : Nat} {w : Word} (h : readWord m o = bswap w) :
    [m o, m (o + 1), m (o + 2), m (o + 3)] = wordBytes w := by
  rw [wordBytes_eq]
  obtain ⟨h0, h1, h2, h3⟩ := byteOf_append (m (o + 3)) (m (o + 2)) (m (o + 1)) (m o)
  obtain ⟨g0, g1, g2, g3⟩ := byteOf_append (byteOf w 0) (byteOf w 1) (byteOf w 2) (byteOf w 3)
  rw [readWord] at h
  rw [h] at h0 h1 h2 h3
  rw [← h0, ← h1, ← h2, ← h3, bswap, g0, g1, g2, g3]

theorem bytesAt_four (m : Nat → Byte) (o n : Nat) : bytesAt m o (4 + n) = [m o, m (o + 1), m (o + 2), m (o + 3)] ++ bytesAt m (o + 4) n := by
  rw [bytesAt, List.range_add, List.map_append, List.map_map, bytesAt]
  congr 1
  refine List.map_congr_left fun i _ => ?_
  show m (o + (4 + i)) = m (o + 4 + i)
  rw [Nat.add_assoc]

theorem bytesAt_words {m : Nat → Byte} {q : Nat} {hv : HV} (h : ∀ i, i < 8 → readWord m (q + 4 * i) = bswap (hv.word i)) :
    bytesAt m q 32 = hv.bytes := by
  have h0 := readWord_bytes (h 0 (by decide))
  rw [Nat.mul_zero, Nat.add_zero] at h0
  rw [show 32 = 4 + (4 + (4 + (4 + (4 + (4 + (4 + (4 + 0))))))) from rfl]
  simp only [bytesAt_four, Nat.add_assoc]
  have e : ∀ i, i < 8 → [m (q + 4 * i), m (q + (4 * i + 1)), m (q + (4 * i + 2)), m (q + (4 * i + 3))] = wordBytes (hv.word i) :=
    fun i hi => readWord_bytes (h i hi)
  refine (congr (congrArg _ h0) (congr (congrArg _ (e 1 (by decide))) (congr (congrArg _ (e 2 (by decide)))
    (congr (congrArg _ (e 3 (by decide))) (congr (congrArg _ (e 4 (by decide))) (congr (congrArg _ (e 5 (by decide)))
    (congr (congrArg _ (e 6 (by decide))) (congr (congrArg _ (e 7 (by decide))) rfl)))))))).trans ?_
  simp only [HV.bytes, HV.word, bytesAt, List.range_zero, List.map_nil, List.append_nil, List.append_assoc]

/-- The message words of a block of the input. -/
def msg (m : Nat → Byte) (o t : Nat) : Word := bswap (readWord m (o + 4 * t))

/-- What the output of a block must be. -/
theorem hash_block {m m' : Nat → Byte} {o q : Nat}
    (h : ∀ i, i < 8 → readWord m' (q + 4 * i) = bswap ((compress (compress H0 (msg m o)) padBlock).word i)) :
    bytesAt m' q 32 = sha256 (bytesAt m o 64) := by
  rw [sha256_64 _ (length_bytesAt _ _ _), bytesAt_words h]
  rw [compress_congr (m := fun t => wordAt (bytesAt m o 64) (4 * t)) (m' := msg m o) fun t ht => wordAt_bytesAt ht]

/-! ## Contents of the sections -/

theorem Loaded.word {env : Env} {mem : Mem} (L : Loaded env mem) {r : Region} (hr : r ∈ [Region.one, .four, .eight, .shaniRo]) {p i : Nat}
    (hp : p = 4 * i) (hi : i < (sectionData r).length) : readWord (mem r) p = (sectionData r).getD i 0 := by
  rw [hp]; exact L.data r hr i hi

theorem Loaded.congr {env : Env} {mem mem' : Mem} (L : Loaded env mem) (h : ∀ r, r ≠ .stack → r ≠ .output → r ≠ .shaniRw → mem' r = mem r) :
    Loaded env mem' :=
  ⟨L.align, L.size, L.sizeRw, fun r hr => by
    rw [h r (by rintro rfl; revert hr; decide) (by rintro rfl; revert hr; decide) (by rintro rfl; revert hr; decide)]
    exact L.data r hr⟩

/-- The effect of hashing `n` blocks from offset `p` of the input to offset `q` of the output with a stack frame at offset `o` whose first `hi`
bytes are used. -/
structure Batch (env : Env) (n : Nat) (rd : R) (o hi p q : Nat) (s s' : State) : Prop where
  fault : s'.fault = false
  regs : ∀ r ∈ R.rsp :: calleeSaved, r ≠ rd → s'.r r = s.r r
  rsi : s'.r .rsi = env.ptr .input (p + 64 * n)
  rdi : s'.r .rdi = env.ptr .output (q + 32 * n)
  rdx : s'.r .rdx = s.r .rdx - BitVec.ofNat 64 n
  other : ∀ r, r ≠ .stack → r ≠ .output → s'.mem r = s.mem r
  stack : ∀ i, i < o ∨ o + hi ≤ i → s'.mem .stack i = s.mem .stack i
  output : ∀ i, i < q ∨ q + 32 * n ≤ i → s'.mem .output i = s.mem .output i
  hash : ∀ l, l < n → bytesAt (s'.mem .output) (q + 32 * l) 32 = sha256 (bytesAt (s.mem .input) (p + 64 * l) 64)

end Mammon.X86
