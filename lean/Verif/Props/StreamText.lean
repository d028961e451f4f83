import Verif.Proofs.CppStream
import Verif.Props.HexText
/-!
# C82: the text of `to_string` of `Bitlist` and `Bitvector`, run as C++
-/

namespace Mammon.Cpp
open Nasm Yaml Spec

/-- What is written for a serialization: `0x` and for each byte the fill character `0` and the byte itself, as a character. -/
def rawText (bs : List Byte) : List Byte := [0x30#8, 0x78#8] ++ bs.flatMap fun b => [0x30#8, b]

theorem length_rawText (bs : List Byte) : (rawText bs).length = 2 * bs.length + 2 := by
  rw [rawText, List.length_append, length_raw, List.length_cons, List.length_cons, List.length_nil]
  omega

/-- **C82** The text of `Bitlist::to_string`: for a list of fewer than 2^31 bits it returns `0x` and for each byte of the SSZ encoding the character `0` and the
character whose code is the byte, not the two hexadecimal digits, because the bytes are inserted as characters; the list and the format of `std::cout` stay the
same. For longer lists the behaviour is undefined. -/
theorem C82_bitlist (L : Nat) (v : List Bool) : ∃ f, toStringText (.bitlist L) = some f ∧
    ∀ fs int E fuel d flags, v.length / 8 + 1 < fuel → run fs int none E fuel d f [] (streamGlobals (.bitlist L) v flags) [] =
      if v.length < 2 ^ 31 then .ok (.chars (rawText (Spec.bitlist v)), streamGlobals (.bitlist L) v flags, []) else .ub := by
  refine ⟨_, bitlistStringF_read, fun fs int E fuel d flags hf => ?_⟩
  rw [bitlist_string_run fs int E fuel d (.bitlist L) v flags (fun bs h => ?_), serialize, serializeUB]
  · by_cases hv : v.length < 2 ^ 31
    · rw [if_neg (by simpa using hv), if_pos hv, of_ok, bind_ok, serializeBytes, bitlistSerialize_eq_spec]
      rfl
    · rw [if_pos (by simpa using hv), if_neg hv]
      rfl
  · rw [serialize] at h
    split at h
    · cases h
    · cases h
      rw [serializeBytes, length_bitlistSerialize]
      exact hf

/-- **C82** The text of `Bitvector<N>::to_string` does the same with the SSZ encoding of the bit vector. -/
theorem C82_bitvector (N : Nat) (v : Vec Bool N) : ∃ f, toStringText (.bitvector N) = some f ∧
    ∀ fs int E fuel d flags, (N + 7) / 8 < fuel → run fs int none E fuel d f [] (streamGlobals (.bitvector N) v flags) [] =
      .ok (.chars (rawText (Spec.bitvector N v.1)), streamGlobals (.bitvector N) v flags, []) := by
  refine ⟨_, bitvectorStringF_read, fun fs int E fuel d flags hf => ?_⟩
  rw [bitvector_string_run fs int E fuel d (.bitvector N) v flags (fun bs h => ?_), serialize, serializeUB, if_neg Bool.false_ne_true, of_ok, bind_ok,
    serializeBytes, bitvectorSerialize_eq_spec N v.1 v.2]
  · rfl
  · rw [serialize, serializeUB, if_neg Bool.false_ne_true] at h
    cases h
    rw [serializeBytes, length_bitvectorSerialize]
    exact hf

/-- **C82**, negation of the round trip on the texts: no bit list is left by the text of `from_hexstring` run on what the text of `to_string` returns for it,
whatever the list that `from_hexstring` is called on held before. -/
theorem C82_bitlist_never (L : Nat) (v : List Bool) (hv : v.length < 2 ^ 31) : ∃ f g str, toStringText (.bitlist L) = some f ∧
    hexstringText (.bitlist L) = some g ∧ ∀ int elem E fuel d flags w, 2 * (v.length / 8 + 1) + 2 < fuel → 1 ≤ d →
      run hexCalled int none E fuel d f [] (streamGlobals (.bitlist L) v flags) [] = .ok (.chars str, streamGlobals (.bitlist L) v flags, []) ∧
      run hexCalled int elem E fuel d g [.chars str] (bitlistHexGlobals L w) [] ≠ .ok (.void, bitlistHexGlobals L v, []) := by
  obtain ⟨f, hf, hr⟩ := C82_bitlist L v
  refine ⟨f, _, rawText (Spec.bitlist v), hf, bitlistHexF_read, fun int elem E fuel d flags w hfuel hd => ⟨?_, ?_⟩⟩
  · exact (hr hexCalled int E fuel d flags (by omega)).trans (if_pos hv)
  · obtain ⟨d, rfl⟩ := Nat.exists_eq_add_of_le' hd
    have hl : (rawText (Spec.bitlist v)).length = 2 * (v.length / 8 + 1) + 2 := by
      rw [length_rawText, ← bitlistSerialize_eq_spec, length_bitlistSerialize]
    rw [bitlist_run hexCalled int elem E fuel d hexCalled_eq.1 L w _ (by omega) (by omega), ne_eq,
      of_out_ok _ (fun l => (Val.void, bitlistHexGlobals L l, ([] : List Obj))) (fun a b h => by simpa [bitlistHexGlobals] using h), ← bitlistSerialize_eq_spec]
    exact bitlist_raw_ne v hv

/-- **C82**, negation of the round trip on the texts: a bit vector of fewer than 2^31 bits is left by the text of `from_hexstring` run on what the text of
`to_string` returns for it exactly if all its bits are `false`. -/
theorem C82_bitvector_iff (N : Nat) (hN : N < 2 ^ 31) (v : Vec Bool N) : ∃ f g str, toStringText (.bitvector N) = some f ∧
    hexstringText (.bitvector N) = some g ∧ ∀ int elem E fuel d flags (w : Vec Bool N), 2 * ((N + 7) / 8) + 10 < fuel → 1 ≤ d →
      run hexCalled int none E fuel d f [] (streamGlobals (.bitvector N) v flags) [] = .ok (.chars str, streamGlobals (.bitvector N) v flags, []) ∧
      (run hexCalled int elem E fuel d g [.chars str] (bitvectorHexGlobals N w.1) [] = .ok (.void, bitvectorHexGlobals N v.1, []) ↔ ∀ b ∈ v.1, b = false) := by
  obtain ⟨f, hf, hr⟩ := C82_bitvector N v
  refine ⟨f, _, _, hf, bitvectorHexF_read, fun int elem E fuel d flags w hfuel hd => ⟨hr hexCalled int E fuel d flags (by omega), ?_⟩⟩
  obtain ⟨d, rfl⟩ := Nat.exists_eq_add_of_le' hd
  have hl : (rawText (Spec.bitvector N v.1)).length = 2 * ((N + 7) / 8) + 2 := by
    rw [length_rawText, ← bitvectorSerialize_eq_spec N v.1 v.2, length_bitvectorSerialize]
  rw [bitvector_run hexCalled int elem E fuel d hexCalled_eq.1 N (by omega) w.1 w.2 _ (by omega) (by omega),
    of_out_ok _ (fun l : Vec Bool N => (Val.void, bitvectorHexGlobals N l.1, ([] : List Obj)))
      (fun a b h => Subtype.ext (by simpa [bitvectorHexGlobals] using h)), ← bitvectorSerialize_eq_spec N v.1 v.2]
  refine (bitvector_raw_iff v hN).trans ?_
  rw [List.all_eq_true]
  simp

/-- The characters a run returns. -/
def charsFrom : Res (Val × Frame × List Obj) → Option (List Byte)
  | .ok (.chars l, _, _) => some l
  | _ => none

/-- What running the texts gives: for the bits 101, whose encoding is `0d`, not the four characters `0x0d` but `0x0` and a carriage return. -/
example : charsFrom (run [] none none sevens 300 9 bitlistStringF [] (streamGlobals (.bitlist 8) [true, false, true] 10) []) =
    some [0x30#8, 0x78#8, 0x30#8, 0x0d#8] := by decide +kernel
example : charsFrom (run [] none none sevens 300 9 bitvectorStringF [] (streamGlobals (.bitvector 9) ⟨List.replicate 9 true, rfl⟩ 10) []) =
    some [0x30#8, 0x78#8, 0x30#8, 0xff#8, 0x30#8, 0x01#8] := by decide +kernel
/-- The premises: three bits are fewer than 2^31, and not all of them are `false`. -/
example : [true, false, true].length < 2 ^ 31 ∧ ¬ ∀ b ∈ [true, false, true], b = false := by decide

/-- What a text without `std::setw(2)` returns for the bits 101: running it shows the difference. -/
example : (match (read (codes ["std::string Bitlist::to_string() const {", "    std::stringstream os;", "    auto serial = this->serialize();", "    os << \"0x\";",
      "    for (auto i = serial.cbegin(); i != serial.cend(); ++i) os << std::setfill('0') << std::hex << *i;", "    return os.str();", "};"])).bind
        fun l => freeFunction l (name% "Bitlist") (name% "to_string") with
    | some f => charsFrom (run [] none none sevens 300 9 f [] (streamGlobals (.bitlist 8) [true, false, true] 10) [])
    | none => none) = some [0x30#8, 0x78#8, 0x0d#8] := by decide +kernel

end Mammon.Cpp
