import Verif.Model.Access
import Verif.Props.Helpers
import Verif.Props.Encoding
import Verif.Props.Decoding
import Verif.Props.Merkle
/-!
# Conversions, element access, stream output and run-time limits: C66
-/

namespace Mammon

open Access

/-! ## C66 -/

/-- **C66** Converting an integer object to `Bytes8` gives its encoding; it is the integer when read back, and decoding it gives the object. -/
theorem C66_slot (s old : Ty.uint64.denote) : ∃ a : BytesN 8, slotBytes8 s = .ok a.1 ∧ a.1 = Spec.encode .uint64 s ∧
    serialize .uint64 s = .ok a.1 ∧ toIntegerLittleEndian a = s.toNat ∧ deserialize .uint64 old a.1 = .ok (true, s) := by
  have hs : s.toNat < 256 ^ 8 := Nat.lt_of_lt_of_le s.isLt (by decide)
  obtain ⟨a, h1, h2, -⟩ := C31_from_int 8 8 s.toNat (by decide) hs
  have h3 : serialize .uint64 s = .ok a := by
    rw [← h1, bytesFromInt, if_pos (by decide), List.replicate_zero, List.append_nil]; rfl
  have h4 : a = Spec.encode .uint64 s := by
    have := C02_encoding .uint64 rfl s rfl
    rw [h3] at this
    injection this
  refine ⟨⟨a, h2⟩, h1, h4, h3, C31_round_trip 8 8 s.toNat (by decide) hs ⟨a, h2⟩ h1, ?_⟩
  obtain ⟨bs, h5, h6⟩ := C01_round_trip .uint64 rfl s old rfl (by rw [← h4, h2]; decide)
  rw [h3] at h5
  injection h5 with h5
  exact h5 ▸ h6

/-- **C66** Converting a `Boolean` to `Bytes1` gives its encoding, one byte of value 0 or 1; decoding it gives the object. -/
theorem C66_boolean (b old : Ty.boolean.denote) : ∃ a : BytesN 1, booleanBytes1 b = .ok a.1 ∧ a.1 = Spec.encode .boolean b ∧
    serialize .boolean b = .ok a.1 ∧ toIntegerLittleEndian a = b.toNat ∧ deserialize .boolean old a.1 = .ok (true, b) := by
  cases b
  · exact ⟨⟨[0#8], rfl⟩, rfl, rfl, rfl, rfl, rfl⟩
  · exact ⟨⟨[1#8], rfl⟩, rfl, rfl, rfl, rfl, rfl⟩

/-- **C66** Converting a `Bytes<N>` to a vector gives its encoding. -/
theorem C66_vector {N : Nat} (a : BytesN N) : bytesVector a = .ok (Spec.encode (.bytes N) a) := by
  rw [bytesVector, slice, if_pos ⟨Nat.zero_le _, Nat.le_of_eq a.2.symm⟩]
  rw [List.drop_zero, Nat.sub_zero, List.take_of_length_le (Nat.le_of_eq a.2)]
  rfl

/-- **C66** Reading element `i` gives byte `i` of the encoding; it is undefined exactly if there is none. -/
theorem C66_read {N : Nat} (a : BytesN N) (i : Nat) :
    (∀ b, bytesAt a i = .ok b ↔ (Spec.encode (.bytes N) a)[i]? = some b) ∧ (bytesAt a i = .ub ↔ N ≤ i) := by
  have he : Spec.encode (.bytes N) a = a.1 := rfl
  rw [he, bytesAt]
  constructor
  · intro b
    cases h : a.1[i]? <;> simp
  · have h2 : N ≤ i ↔ a.1[i]? = none := by rw [List.getElem?_eq_none_iff, a.2]
    rw [h2]
    cases h : a.1[i]? <;> simp

/-- **C66** Assigning to element `i` changes byte `i` of the encoding and no other; it is undefined exactly if there is none. -/
theorem C66_write {N : Nat} (a : BytesN N) (i : Nat) (b : Byte) :
    (bytesAssign a i b = .ub ↔ N ≤ i) ∧ (i < N → ∃ a', bytesAssign a i b = .ok a' ∧
      ∀ j, (Spec.encode (.bytes N) a')[j]? = if j = i then some b else (Spec.encode (.bytes N) a)[j]?) := by
  rw [bytesAssign]
  constructor
  · split <;> simp <;> omega
  · intro h
    rw [if_pos h]
    refine ⟨_, rfl, fun j => ?_⟩
    show (a.1.set i b)[j]? = if j = i then some b else a.1[j]?
    have := a.2
    rw [List.getElem?_set]
    split
    · next e => subst e; rw [if_pos (by omega), if_pos rfl]
    · next e => rw [if_neg (fun h => e h.symm)]

theorem printBits_eq (bits : List Bool) : printBits bits = bits.map printBool := by
  have : ∀ (l : List Bool) (os : List Byte), l.foldl (fun os b => os ++ [printBool b]) os = os ++ l.map printBool := by
    intro l
    induction l with
    | nil => simp
    | cons b l ih => intro os; rw [List.foldl_cons, ih, List.map_cons]; simp
  rw [printBits, this, List.nil_append]

/-- **C66** Printing a bit vector or bit list writes one character per bit, in order: `1` if it is set and `0` if not. -/
theorem C66_print (bits : List Bool) (i : Nat) (c : Byte) :
    (printBits bits)[i]? = some c ↔ (c = 0x31#8 ∧ bits[i]? = some true) ∨ (c = 0x30#8 ∧ bits[i]? = some false) := by
  rw [printBits_eq, List.getElem?_map]
  cases h : bits[i]? with
  | none => simp
  | some b => cases b <;> simp [printBool, eq_comm]

/-- **C66** Different bits are printed differently. -/
theorem C66_print_injective (a b : List Bool) (h : printBits a = printBits b) : a = b := by
  rw [printBits_eq, printBits_eq] at h
  induction a generalizing b with
  | nil => cases b with
    | nil => rfl
    | cons y b => cases h
  | cons x a ih => cases b with
    | nil => cases h
    | cons y b =>
      rw [List.map_cons, List.map_cons] at h
      injection h with h1 h2
      rw [ih b h2]
      cases x <;> cases y <;> first | rfl | cases h1

/-- **C66** Two bit list objects compare equal exactly if they have the same bits and the same limit. -/
theorem C66_bitlist_equal (a b : BitlistObj) : a.eq b = true ↔ a = b := by
  cases a; cases b
  simp [BitlistObj.eq]

/-- **C66** Setting the limit of a bit list changes neither its encoding nor which strings are decoded to what; the object compares equal to the one
before only if the limit is the same; its root is the one of the specification for the new limit. -/
theorem C66_limit (H : Chunk → Chunk → Chunk) (o : BitlistObj) (l : BitVec 64) :
    (o.setLimit l).serialize = o.serialize ∧
    (∀ bs, (o.setLimit l).deserialize bs = (o.deserialize bs).map fun r => (r.1, r.2.setLimit l)) ∧
    ((o.setLimit l).eq o = true ↔ l = o.limit) ∧
    (o.arr.length ≤ l.toNat → l.toNat ≤ 2 ^ 50 → o.arr.length < 2 ^ 31 →
      (o.setLimit l).hashTreeRoot H = .ok (Spec.root H (.bitlist l.toNat) o.arr)) := by
  refine ⟨rfl, fun bs => ?_, ?_, fun h1 h2 h3 => ?_⟩
  · show ((deserialize (.bitlist l.toNat) o.arr bs).map fun r => (r.1, (⟨r.2, l⟩ : BitlistObj))) =
      (((deserialize (.bitlist o.limit.toNat) o.arr bs).map fun r => (r.1, (⟨r.2, o.limit⟩ : BitlistObj)))).map fun r => (r.1, (⟨r.2.arr, l⟩ : BitlistObj))
    rw [deserialize, deserialize]
    cases bitlistDeserialize bs <;> rfl
  · rw [C66_bitlist_equal]
    cases o
    simp [BitlistObj.setLimit]
  · exact C16_hash_tree_root H (.bitlist l.toNat) (by rw [Spec.hashable]; exact decide_eq_true (by show (l.toNat + 255) / 256 ≤ 2 ^ 42; omega)) o.arr (by simp [Spec.withinLimits]; exact h1)
      (by simp [Spec.bitlistsShort]; exact h3)

-- a slot is its eight bytes; writing to the third byte of four; printing three bits; a bit list with another limit is another object
example : slotBytes8 (0x0102#64) = .ok [2#8, 1#8, 0#8, 0#8, 0#8, 0#8, 0#8, 0#8] ∧ booleanBytes1 true = .ok [1#8] := by decide +kernel
example : bytesAssign (N := 4) ⟨[1#8, 2#8, 3#8, 4#8], rfl⟩ 2 9#8 = .ok ⟨[1#8, 2#8, 9#8, 4#8], rfl⟩ ∧
    bytesAt (N := 4) ⟨[1#8, 2#8, 3#8, 4#8], rfl⟩ 3 = .ok 4#8 ∧ bytesAt (N := 4) ⟨[1#8, 2#8, 3#8, 4#8], rfl⟩ 4 = .ub := by decide +kernel
example : printBits [true, false, true] = [0x31#8, 0x30#8, 0x31#8] := by decide +kernel
example : (BitlistObj.mk [true, false] 2048#64).eq (BitlistObj.mk [true, false] 8#64) = false ∧
    [true, false].length ≤ (8#64).toNat ∧ (8#64).toNat ≤ 2 ^ 50 := by decide +kernel

/-- **C66** All checks of `common/bytes_test.cpp` succeed: two of the first test and three of the second. -/
theorem C66_bytes_test : BytesTest.run =
    [("bytes_from_int", List.replicate 2 (.ok true)), ("bytes_to_integer_little_endian", List.replicate 3 (.ok true))] := by decide +kernel

/-- **C66** They would for all other integers: the checks compare the code with itself, in both directions, for any size. -/
theorem C66_bytes_test_any (N n : Nat) (hn : n < 256 ^ N) :
    ∃ a : BytesN N, BytesTest.FromInt.check ⟨N, n, a.1⟩ = .ok true ∧ BytesTest.toIntCheck (a.1, n) = true := by
  obtain ⟨a, h1, h2, -⟩ := C31_from_int N N n (Nat.le_refl _) hn
  refine ⟨⟨a, h2⟩, ?_, ?_⟩
  · rw [BytesTest.FromInt.check, h1]
    show (if he : a.length = N then _ else _) = _
    rw [dif_pos h2, dif_pos h2, bytesEq]
    simp
  · subst h2
    rw [BytesTest.toIntCheck]
    show (n == toIntegerLittleEndian ⟨a, rfl⟩) = true
    rw [C31_round_trip a.length a.length n (Nat.le_refl _) hn ⟨a, rfl⟩ h1]
    simp

example : (12345 : Nat) < 256 ^ 4 := by decide

end Mammon
