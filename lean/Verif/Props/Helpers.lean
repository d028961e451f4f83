import Verif.Proofs.Math
import Verif.Proofs.BytesOps
/-!
# Integer helpers and byte arrays: C29 - C33
-/

namespace Mammon

/-! ## C29 -/

/-- **C29** `integer_squareroot` returns the largest `r` with `r * r ≤ x`, with no overflow on the way, whatever value `r0` the floating point
estimate has; recursion depth `w + 1` suffices for `ct_sqrt`. -/
theorem C29_integer_squareroot (w fuel x r0 : Nat) (hw : 4 ≤ w) (hf : w + 1 ≤ fuel) (hx : x < 2 ^ w) :
    ∃ r, integerSquareroot w fuel x r0 = some (.ok r) ∧ r * r ≤ x ∧ ∀ s, s * s ≤ x → s ≤ r := by
  obtain ⟨r, h1, h2, h3⟩ := integerSquareroot_spec w fuel x r0 hw hf hx
  exact ⟨r, h1, h2, fun s hs => le_of_sq_le (Nat.lt_of_le_of_lt hs h3)⟩

/-- **C29** The compile-time square root `ct_sqrt` has the same specification. -/
theorem C29_ct_sqrt (w x : Nat) (hw : 4 ≤ w) (hx : x < 2 ^ w) :
    ∃ r, ctSqrt w (w + 1) x = some (.ok r) ∧ r * r ≤ x ∧ ∀ s, s * s ≤ x → s ≤ r := by
  obtain ⟨r, h1, h2, h3⟩ := ctSqrt_spec w x hx hw
  exact ⟨r, h1, h2, fun s hs => le_of_sq_le (Nat.lt_of_le_of_lt hs h3)⟩

-- the largest 64-bit number, with an estimate that is one too large; an estimate far too small for 99
example : (2 ^ 64 - 1 < 2 ^ 64) ∧ integerSquareroot 64 65 (2 ^ 64 - 1) (2 ^ 32) = some (.ok (2 ^ 32 - 1)) := by
  refine ⟨by decide, ?_⟩
  obtain ⟨r, h1, h2, h3⟩ := C29_integer_squareroot 64 65 (2 ^ 64 - 1) (2 ^ 32) (by decide) (by decide) (by decide)
  have h4 := h3 (2 ^ 32 - 1) (by decide)
  have h5 : r < 2 ^ 32 := lt_of_sq_lt (by omega)
  rw [h1, show r = 2 ^ 32 - 1 by omega]
example : integerSquareroot 8 9 99 3 = some (.ok 9) := by decide +kernel

/-! ## C30 -/

/-- **C30** `log2ceil n` is the least `d` with `n ≤ 2 ^ d`. -/
theorem C30_log2ceil (w : Nat) (n : BitVec w) : n.toNat ≤ 2 ^ log2ceil w n ∧ (∀ d, n.toNat ≤ 2 ^ d → log2ceil w n ≤ d) ∧ log2ceil w 0 = 0 :=
  ⟨(log2ceil_spec w n).1, (log2ceil_spec w n).2, by rw [log2ceil]; exact if_neg (by simp)⟩

example : log2ceil 64 1#64 = 0 ∧ log2ceil 64 5#64 = 3 ∧ log2ceil 64 8#64 = 3 ∧ log2ceil 64 0xffffffffffffffff#64 = 64 := by decide +kernel

/-! ## C31 -/

theorem getElem?_leBytes (k n i : Nat) (h : i < k) : (leBytes k n)[i]? = some (BitVec.ofNat 8 (n / 256 ^ i)) := by
  induction k generalizing n i with
  | zero => omega
  | succ k ih =>
    rcases i with _ | i
    · simp [leBytes]
    · rw [leBytes, List.getElem?_cons_succ, ih _ _ (by omega), Nat.div_div_eq_div_mul, Nat.pow_succ, Nat.mul_comm]

/-- **C31** The array made from an integer of `k` bytes has the `i`-th base 256 digit at index `i` (so zeros from `k` on). -/
theorem C31_from_int (N k n : Nat) (hk : k ≤ N) (hn : n < 256 ^ k) : ∃ a, bytesFromInt N k n = .ok a ∧ a.length = N ∧
    ∀ i, i < N → a[i]? = some (BitVec.ofNat 8 (n / 256 ^ i)) := by
  refine ⟨_, by rw [bytesFromInt, if_pos hk], by simp [length_leBytes]; omega, fun i hi => ?_⟩
  rcases Nat.lt_or_ge i k with h | h
  · rw [List.getElem?_append_left (by rwa [length_leBytes]), getElem?_leBytes k n i h]
  · rw [List.getElem?_append_right (by rwa [length_leBytes]), length_leBytes, List.getElem?_replicate, if_pos (by omega)]
    have : n < 256 ^ i := Nat.lt_of_lt_of_le hn (Nat.pow_le_pow_right (by decide) h)
    rw [Nat.div_eq_of_lt this]

theorem fromLE_zeros (l : List Byte) (m : Nat) : fromLE (l ++ List.replicate m 0#8) = fromLE l := by
  induction l with
  | nil =>
    induction m with
    | zero => rfl
    | succ m ih =>
      rw [List.nil_append] at ih ⊢
      rw [List.replicate_succ]
      show (0#8).toNat + 256 * fromLE (List.replicate m 0#8) = fromLE []
      rw [ih]; rfl
  | cons b l ih => rw [List.cons_append, fromLE, fromLE, ih]

/-- **C31** Reading the array back as an integer gives the original; in particular different integers give different arrays. -/
theorem C31_round_trip (N k n : Nat) (hk : k ≤ N) (hn : n < 256 ^ k) (a : BytesN N) (h : bytesFromInt N k n = .ok a.1) :
    toIntegerLittleEndian a = n := by
  rw [bytesFromInt, if_pos hk] at h
  injection h with h
  rw [toIntegerLittleEndian, ← h, fromLE_zeros, fromLE_leBytes, Nat.mod_eq_of_lt hn]

/-- **C31** Different integers give different arrays. -/
theorem C31_injective (N k m n : Nat) (hk : k ≤ N) (hm : m < 256 ^ k) (hn : n < 256 ^ k) (h : bytesFromInt N k m = bytesFromInt N k n) : m = n := by
  obtain ⟨a, h1, h2, -⟩ := C31_from_int N k m hk hm
  rw [← C31_round_trip N k m hk hm ⟨a, h2⟩ h1, C31_round_trip N k n hk hn ⟨a, h2⟩ (h ▸ h1)]

/-- **C31** Making an array of `N` bytes from the integer of `N` bytes read from an array gives that array. -/
theorem C31_round_trip_bytes (N : Nat) (a : BytesN N) : bytesFromInt N N (toIntegerLittleEndian a) = .ok a.1 := by
  rw [bytesFromInt, if_pos (Nat.le_refl _), Nat.sub_self, List.replicate_zero, List.append_nil, toIntegerLittleEndian]
  have := leBytes_fromLE a.1
  rw [a.2] at this
  rw [this]

example : bytesFromInt 8 4 0x12345678 = .ok [0x78#8, 0x56#8, 0x34#8, 0x12#8, 0#8, 0#8, 0#8, 0#8] ∧ 0x12345678 < 256 ^ 4 := by decide +kernel
example : toIntegerLittleEndian (N := 4) ⟨[0x78#8, 0x56#8, 0x34#8, 0x12#8], rfl⟩ = 0x12345678 := by decide +kernel
-- the tests of the repository (common/bytes_test.cpp:27-56)
example : bytesFromInt 4 4 0x10203040 = .ok [0x40#8, 0x30#8, 0x20#8, 0x10#8] ∧
    bytesFromInt 8 8 0x10203040 = .ok [0x40#8, 0x30#8, 0x20#8, 0x10#8, 0#8, 0#8, 0#8, 0#8] ∧
    toIntegerLittleEndian (N := 1) ⟨[0x0a#8], rfl⟩ = 0x0a ∧ toIntegerLittleEndian (N := 4) ⟨[0x40#8, 0x30#8, 0x20#8, 0x10#8], rfl⟩ = 0x10203040 ∧
    toIntegerLittleEndian (N := 8) ⟨[0x40#8, 0x30#8, 0x20#8, 0x10#8, 0#8, 0#8, 0#8, 0#8], rfl⟩ = 0x10203040 := by decide +kernel

/-! ## C32 -/

/-- The characters `0x`. -/
def hexPrefix : List Byte := [0x30#8, 0x78#8]

/-- The character sequence consists of hexadecimal digits with the values in the second list. -/
def isDigits (s : List Byte) (ds : List Nat) : Prop := s.map (fun c => Spec.hexDigit c.toNat) = ds.map some

theorem hexDigit_lt {c v : Nat} (h : Spec.hexDigit c = some v) : c < 128 := by
  rw [Spec.hexDigit] at h
  split at h
  · omega
  · split at h
    · omega
    · split at h
      · omega
      · cases h

theorem isDigits_hexVal {s : List Byte} {ds : List Nat} (h : isDigits s ds) : s.map hexVal = ds ∧ ∀ c ∈ s, c.toNat < 128 := by
  induction s generalizing ds with
  | nil =>
    rcases ds with _ | ⟨d, ds⟩
    · exact ⟨rfl, by simp⟩
    · simp [isDigits] at h
  | cons c s ih =>
    rcases ds with _ | ⟨d, ds⟩
    · simp [isDigits] at h
    · simp only [isDigits, List.map_cons, List.cons.injEq] at h
      obtain ⟨h1, h2⟩ := ih h.2
      refine ⟨by rw [List.map_cons, h1, hexVal, h.1]; rfl, fun x hx => ?_⟩
      rcases List.mem_cons.1 hx with rfl | hx
      · exact hexDigit_lt h.1
      · exact h2 x hx

/-- **C32**, what holds: `0x` and at most `2 * N` hexadecimal digits are accepted, and yield the denoted bytes followed by zero bytes; a string without
the prefix, or longer than that, raises an exception. Missing: the rejection of strings with other characters, see `C32_accepts_non_digits` and
`C32_undefined_iff`. -/
theorem C32_parse_partial (N : Nat) (str : List Byte) :
    (∀ s ds, str = hexPrefix ++ s → isDigits s ds → s.length ≤ 2 * N →
      bytesFromStr N str = .ok ((Spec.pairDigits ds).map (BitVec.ofNat 8) ++ List.replicate (N - (ds.length + 1) / 2) 0#8)) ∧
    ((¬ ∃ s, str = hexPrefix ++ s) → bytesFromStr N str = .throws .invalidArgument) ∧
    (∀ s, str = hexPrefix ++ s → s.length > 2 * N → bytesFromStr N str = .throws .outOfRange) := by
  refine ⟨?_, ?_, ?_⟩
  · rintro s ds rfl hd hl
    obtain ⟨h1, h2⟩ := isDigits_hexVal hd
    rw [bytesFromStr_eq, if_neg (by simp [hexPrefix]), if_neg (by simp [hexPrefix]; omega),
      show (hexPrefix ++ s).drop 2 = s from rfl, if_pos h2, length_hexBytes, hexBytes, h1]
    have : s.length = ds.length := by rw [← h1, List.length_map]
    rw [this]
  · intro h
    rw [bytesFromStr_eq, if_pos]
    intro h'
    exact h ⟨str.drop 2, by rw [hexPrefix, ← h', List.take_append_drop]⟩
  · rintro s rfl hl
    rw [bytesFromStr_eq, if_neg (by simp [hexPrefix]), if_pos (by simp [hexPrefix]; omega)]

-- "0xaB1" for N = 4
example : isDigits [0x61#8, 0x42#8, 0x31#8] [10, 11, 1] ∧ bytesFromStr 4 [0x30#8, 0x78#8, 0x61#8, 0x42#8, 0x31#8] = .ok [0xab#8, 1#8, 0#8, 0#8] :=
  ⟨by simp [isDigits, Spec.hexDigit], by
    have h := (C32_parse_partial 4 [0x30#8, 0x78#8, 0x61#8, 0x42#8, 0x31#8]).1 [0x61#8, 0x42#8, 0x31#8] [10, 11, 1] rfl
      (by simp [isDigits, Spec.hexDigit]) (by decide)
    rw [h]; decide⟩

/-- **C32**, exactly when parsing is undefined: prefix and length are right and some character has the high bit set. -/
theorem C32_undefined_iff (N : Nat) (str : List Byte) :
    bytesFromStr N str = .ub ↔ ∃ s, str = hexPrefix ++ s ∧ s.length ≤ 2 * N ∧ ∃ c ∈ s, 128 ≤ c.toNat := by
  rw [bytesFromStr_eq]
  constructor
  · intro h
    split at h
    · cases h
    · rename_i h1
      split at h
      · cases h
      · rename_i h2
        split at h
        · cases h
        · rename_i h3
          have hs : str = hexPrefix ++ str.drop 2 := by
            simp only [ne_eq, Classical.not_not] at h1
            rw [hexPrefix, ← h1, List.take_append_drop]
          refine ⟨str.drop 2, hs, by rw [List.length_drop]; omega, ?_⟩
          apply Classical.byContradiction
          intro h4
          refine h3 fun c hc => ?_
          apply Classical.byContradiction
          intro h5
          exact h4 ⟨c, hc, by omega⟩
  · rintro ⟨s, rfl, hl, c, hc, hge⟩
    rw [if_neg (by simp [hexPrefix]), if_neg (by simp [hexPrefix]; omega), show (hexPrefix ++ s).drop 2 = s from rfl, if_neg]
    intro h
    have := h c hc
    omega

-- "0x" and a character with the high bit set
example : bytesFromStr 1 [0x30#8, 0x78#8, 0xe9#8] = .ub := (C32_undefined_iff 1 _).2 ⟨[0xe9#8], rfl, by decide, 0xe9#8, by simp, by decide⟩

/-- **C32**, negation: every string of 7-bit characters after the prefix is accepted, characters that are not digits counting as the digit 0. -/
theorem C32_accepts_non_digits (N : Nat) (s : List Byte) (hl : s.length ≤ 2 * N) (h : ∀ c ∈ s, c.toNat < 128) :
    bytesFromStr N (hexPrefix ++ s) = .ok ((Spec.pairDigits (s.map fun c => (Spec.hexDigit c.toNat).getD 0)).map (BitVec.ofNat 8) ++
      List.replicate (N - (s.length + 1) / 2) 0#8) := by
  rw [bytesFromStr_eq, if_neg (by simp [hexPrefix]), if_neg (by simp [hexPrefix]; omega),
    show (hexPrefix ++ s).drop 2 = s from rfl, if_pos h, length_hexBytes]
  rfl

-- "0xz7" is accepted as the byte 7
example : Spec.hexDigit 0x7a = none ∧ bytesFromStr 1 (hexPrefix ++ [0x7a#8, 0x37#8]) = .ok [7#8] :=
  ⟨by decide, (C32_accepts_non_digits 1 [0x7a#8, 0x37#8] (by decide) (by decide)).trans (by decide)⟩

/-! ## C33 -/

/-- **C33** `a ^= b` replaces every byte by the exclusive or of the two bytes at its place. -/
theorem C33_xor {N : Nat} (a b : BytesN N) : ∃ c, xorAssign a b = .ok c ∧ c.length = N ∧
    ∀ (i : Nat) (x y : Byte), a.1[i]? = some x → b.1[i]? = some y → c[i]? = some (x ^^^ y) := by
  refine ⟨_, xorAssign_eq a b, by simp [a.2, b.2], fun i x y hx hy => ?_⟩
  simp [List.getElem?_zipWith, hx, hy]

/-- **C33** Applying `^= b` twice restores the array; `a ^= b` and `b ^= a` give the same contents; `a ^= a` clears the array. -/
theorem C33_xor_laws {N : Nat} (a b c : BytesN N) (h : xorAssign a b = .ok c.1) :
    xorAssign c b = .ok a.1 ∧ xorAssign b a = .ok c.1 ∧ xorAssign a a = .ok (List.replicate N 0#8) := by
  rw [xorAssign_eq] at h
  injection h with h
  simp only [xorAssign_eq, ← h, Out.ok.injEq]
  refine ⟨?_, ?_, ?_⟩
  · apply List.ext_getElem (by simp [a.2, b.2])
    intro i h1 h2
    simp [List.getElem_zipWith, BitVec.xor_assoc]
  · apply List.ext_getElem (by simp [a.2, b.2])
    intro i h1 h2
    simp [List.getElem_zipWith, BitVec.xor_comm]
  · apply List.ext_getElem (by simp [a.2])
    intro i h1 h2
    simp

example : xorAssign (N := 2) ⟨[0x0f#8, 0xaa#8], rfl⟩ ⟨[0xff#8, 0x0a#8], rfl⟩ = .ok [0xf0#8, 0xa0#8] := by decide +kernel

/-- **C33** The concatenation holds the bytes of the left and then those of the right operand, whatever was in the uninitialised memory. -/
theorem C33_concat {N M : Nat} (init : BytesN (N + M)) (a : BytesN N) (b : BytesN M) : ∃ c, bytesConcat init a b = .ok c ∧ c.length = N + M ∧
    c.take N = a.1 ∧ c.drop N = b.1 := by
  refine ⟨_, bytesConcat_eq init a b, by simp [a.2, b.2], ?_, ?_⟩
  · rw [List.take_append_of_le_length (by rw [a.2]), List.take_of_length_le (by rw [a.2])]
  · have := List.drop_left (l₁ := a.1) (l₂ := b.1)
    rwa [a.2] at this

example : bytesConcat (N := 1) (M := 2) ⟨[9#8, 9#8, 9#8], rfl⟩ ⟨[1#8], rfl⟩ ⟨[2#8, 3#8], rfl⟩ = .ok [1#8, 2#8, 3#8] := by decide +kernel

/-- **C33** The two comparison operators hold exactly when all bytes agree; comparing with a vector never reads outside either. -/
theorem C33_equality {N : Nat} (a b : BytesN N) (r : List Byte) :
    (bytesEq a b = true ↔ a = b) ∧ bytesEqVec a r = .ok (decide (a.1 = r)) := by
  refine ⟨?_, bytesEqVec_eq a r⟩
  rw [bytesEq, if_neg (by simp), beq_iff_eq, Subtype.ext_iff]

example : bytesEqVec (N := 2) ⟨[1#8, 2#8], rfl⟩ [1#8, 2#8] = .ok true ∧ bytesEqVec (N := 2) ⟨[1#8, 2#8], rfl⟩ [1#8, 3#8] = .ok false ∧
    bytesEqVec (N := 2) ⟨[1#8, 2#8], rfl⟩ [1#8] = .ok false := by decide +kernel

end Mammon
