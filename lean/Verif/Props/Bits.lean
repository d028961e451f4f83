import Verif.Proofs.Padding
import Verif.Proofs.Offsets
import Verif.Props.Samples
/-!
# Bit lists and bit vectors: C09, C10 and the failure of C06
-/

namespace Mammon

/-- **C09** Serializing a bit list gives a nonempty string with a nonzero last byte, from which the list is recovered. -/
theorem C09_bits_to_bytes (limit : Nat) (bits old : List Bool) (h : bits.length < 2 ^ 31) :
    ∃ bs b, serialize (.bitlist limit) bits = .ok bs ∧ bs.getLast? = some b ∧ b ≠ 0#8 ∧ bs.length = bits.length / 8 + 1 ∧
      deserialize (.bitlist limit) old bs = .ok (true, bits) :=
  ⟨_, _, serialize_of_short (by simpa [Spec.bitlistsShort] using h), List.getLast?_eq_some_getLast (bitlistSerialize_ne_nil bits),
    (bitlistSerialize_last bits).1, length_bitlistSerialize bits, bitlist_roundtrip bits⟩

example : [true, false, true].length < 2 ^ 31 := by decide

/-- **C09** Every nonempty string with a nonzero last byte is accepted, and is the serialization of the resulting bit list (if that has fewer than
2^31 bits) and of no other. -/
theorem C09_bytes_to_bits (limit : Nat) (old : List Bool) (bs : List Byte) (b : Byte) (hb : bs.getLast? = some b) (h0 : b ≠ 0#8)
    (hs : bs.length ≤ 2 ^ 28) :
    ∃ bits, deserialize (.bitlist limit) old bs = .ok (true, bits) ∧ serialize (.bitlist limit) bits = .ok bs ∧
      ∀ other, serialize (.bitlist limit) other = .ok bs → other = bits := by
  have hne : bs ≠ [] := by rintro rfl; simp at hb
  have hlast : bs.getLast hne = b := by rw [List.getLast?_eq_some_getLast hne] at hb; exact Option.some.inj hb
  have h0' : bs.getLast hne ≠ 0#8 := by rw [hlast]; exact h0
  have hc := bitlist_canonical bs hne h0'
  have hd := bitlistDeserialize_ok bs hne h0'
  have hlen : bitlistLen bs < 2 ^ 31 := by
    have := log2_lt_8 (bs.getLastD 0#8)
    have := List.length_pos_iff.2 hne
    rw [bitlistLen]; omega
  refine ⟨_, hd, ?_, ?_⟩
  · rw [serialize_of_short (by simpa [Spec.bitlistsShort] using hlen), serializeBytes, hc]
  · intro other ho
    rw [serialize] at ho
    split at ho
    · cases ho
    · have ho := Out.ok.inj ho
      rw [serializeBytes] at ho
      have hr := bitlist_roundtrip other
      rw [ho, hd] at hr
      simp only [Out.ok.injEq, Prod.mk.injEq, true_and] at hr
      exact hr.symm

example : [0xff#8, 0x13#8].getLast? = some 0x13#8 ∧ (0x13#8 : Byte) ≠ 0#8 ∧ [0xff#8, 0x13#8].length ≤ 2 ^ 28 ∧
    deserialize (.bitlist 2048) [] [0xff#8, 0x13#8] =
      .ok (true, [true, true, true, true, true, true, true, true, true, true, false, false]) := ⟨rfl, by decide, by decide, rfl⟩

/-- **C10** Bit vectors of every length round-trip. -/
theorem C10_round_trip (n : Nat) (old v : Vec Bool n) :
    ∃ bs, serialize (.bitvector n) v = .ok bs ∧ bs.length = (n + 7) / 8 ∧ deserialize (.bitvector n) old bs = .ok (true, v) :=
  ⟨_, serialize_of_short rfl, length_bitvectorSerialize n v.1, bitvector_roundtrip n old v⟩

example : serialize (.bitvector 4) ⟨[true, false, true, true], rfl⟩ = .ok [0x0d#8] := rfl

/-- **C10** Strings of a wrong length are rejected and leave the object unchanged; all strings of the right length are accepted, and bit `i` of the
object is bit `i % 8` of byte `i / 8`. -/
theorem C10_accepted_partial (n : Nat) (old : Vec Bool n) (bs : List Byte) :
    (bs.length ≠ (n + 7) / 8 → deserialize (.bitvector n) old bs = .ok (false, old)) ∧
    (bs.length = (n + 7) / 8 → ∃ v : Vec Bool n, deserialize (.bitvector n) old bs = .ok (true, v) ∧
      ∀ i, i < n → v.1.getD i false = (bs.getD (i / 8) 0#8).getLsbD (i % 8)) := by
  constructor
  · intro h
    rw [deserialize, bitvectorDeserialize, if_pos (by simpa using h)]
  · intro h
    rw [deserialize, bitvectorDeserialize, if_neg (by simpa using h)]
    refine ⟨_, rfl, fun i hi => ?_⟩
    simp only
    rw [bitvectorStore_eq n bs old.1 old.2 h, List.getD_eq_getElem?_getD, List.getElem?_map, List.getElem?_range hi]
    rfl

example : deserialize (.bitvector 4) ⟨[true, true, true, true], rfl⟩ [0xf5#8] = .ok (true, ⟨[true, false, true, false], rfl⟩) := rfl

/-- **C10**, negation: nonzero padding bits are not rejected. For every length that is not a multiple of 8 every bit vector has a second accepted
encoding. -/
theorem C10_padding_ignored (n : Nat) (hn : n % 8 ≠ 0) (old v : Vec Bool n) :
    ∃ bs, bs ≠ Spec.encode (.bitvector n) v ∧ bs.length = (n + 7) / 8 ∧ deserialize (.bitvector n) old bs = .ok (true, v) := by
  refine ⟨flipTop (bitvectorSerialize n v.1), ?_, ?_, bitvectorDeserialize_flipTop n hn old v⟩
  · rw [Spec.encode, ← bitvectorSerialize_eq_spec n v.1 v.2]
    apply flipTop_ne
    apply List.ne_nil_of_length_pos
    rw [length_bitvectorSerialize]
    omega
  · rw [length_flipTop, length_bitvectorSerialize]

example : (4 : Nat) % 8 ≠ 0 := by decide

/-- **C06**, negation: every container with a direct part that is a bit vector of a length not a multiple of 8 accepts a second encoding (of the same
length) of each of its values. -/
theorem C06_not_canonical (s : Nat) (e : Bool) (ps : Parts) (hw : Spec.wf (.container s e ps) = true) (hp : hasPaddedPart ps = true)
    (v old : ps.denote) (hs : (Spec.encode (.container s e ps) v).length < 2 ^ 32) :
    ∃ bs, bs ≠ Spec.encode (.container s e ps) v ∧ bs.length = (Spec.encode (.container s e ps) v).length ∧
      deserialize (.container s e ps) old bs = .ok (true, v) := by
  rw [← serializeBytes_eq_encode _ hw] at hs ⊢
  exact container_second_encoding s e ps hw hp v old hs

-- this applies to the beacon state
example : ∃ ps, Objects.beaconState mainnet = .container 0 true ps ∧ hasPaddedPart ps = true ∧
    Spec.wf (.container 0 true ps) = true := ⟨_, rfl, by decide +kernel, by decide +kernel⟩

end Mammon
