import Verif.Proofs.CppHex
import Verif.Proofs.Fails
import Verif.Proofs.Accepts
import Verif.Props.BytesText
/-!
# C81: the text of `from_hexstring` of `Bitlist` and `Bitvector`, run as C++
-/

namespace Mammon.Cpp
open Nasm Yaml Spec

/-- What the run ends with is what the model says. -/
theorem of_out_ok {α β : Type} (o : Out α) (g : α → β) (hg : ∀ a b, g a = g b → a = b) (a : α) : ((Res.of o).bind fun x => .ok (g x)) = .ok (g a) ↔ o = .ok a := by
  cases o with
  | ok x =>
    rw [of_ok, bind_ok]
    exact ⟨fun h => by rw [hg _ _ (Res.ok.inj h)], fun h => by rw [Out.ok.inj h]⟩
  | throws e => exact ⟨(fun h => nomatch h), (fun h => nomatch h)⟩
  | ub => exact ⟨(fun h => nomatch h), (fun h => nomatch h)⟩

theorem of_out_throws {α β : Type} (o : Out α) (g : α → β) (e : Exc) : ((Res.of o).bind fun x => .ok (g x)) = .throws e ↔ o = .throws e := by
  cases o with
  | ok x => exact ⟨(fun h => nomatch h), (fun h => nomatch h)⟩
  | throws e' => rw [of_throws, bind_throws]; exact ⟨fun h => by rw [Res.throws.inj h], fun h => by rw [Out.throws.inj h]⟩
  | ub => exact ⟨(fun h => nomatch h), (fun h => nomatch h)⟩

theorem of_out_ub {α β : Type} (o : Out α) (g : α → β) : ((Res.of o).bind fun x => .ok (g x)) = .ub ↔ o = .ub := by
  cases o with
  | ok x => exact ⟨(fun h => nomatch h), (fun h => nomatch h)⟩
  | throws e => exact ⟨(fun h => nomatch h), (fun h => nomatch h)⟩
  | ub => exact ⟨fun _ => rfl, fun _ => rfl⟩

theorem failure_throws {α : Type} (o : Out α) (e : Exc) : o = .throws e ↔ failureOf o = some (.throws e) := by
  cases o <;> simp [failureOf]

theorem failure_ub {α : Type} (o : Out α) : o = .ub ↔ failureOf o = some .undefined := by
  cases o <;> simp [failureOf]

/-- **C81** The text of `Bitlist::from_hexstring`, for strings of less than 2 GiB and whatever the object held before: it leaves a bit list exactly if the
string is `0x` and an even number of 7-bit characters that denote the SSZ encoding of that bit list; it raises `std::invalid_argument` exactly if the prefix is
missing or the length odd; and its behaviour is undefined exactly if, prefix and length being right, a character has its high bit set or the last byte is
zero or missing. -/
theorem C81_bitlist (L : Nat) (str : List Byte) (hl : str.length < 2 ^ 31) : ∃ f, hexstringText (.bitlist L) = some f ∧
    ∀ int elem E fuel d v, str.length < fuel → 1 ≤ d → ∃ r, run hexCalled int elem E fuel d f [.chars str] (bitlistHexGlobals L v) [] = r ∧
      (∀ w, r = .ok (.void, bitlistHexGlobals L w, []) ↔ IsLooseHex str (Spec.bitlist w) ∧ str.length % 2 = 0) ∧
      (r = .throws .invalidArgument ↔ ¬ HexMarked str ∨ str.length % 2 = 1) ∧
      (r = .ub ↔ HexMarked str ∧ str.length % 2 = 0 ∧ (HasHigh str ∨ ¬ EndsNonzero (str.drop 2))) ∧
      ((∃ w, r = .ok (.void, bitlistHexGlobals L w, [])) ∨ r = .throws .invalidArgument ∨ r = .ub) := by
  refine ⟨_, bitlistHexF_read, fun int elem E fuel d v hf hd => ?_⟩
  obtain ⟨d, rfl⟩ := Nat.exists_eq_add_of_le' hd
  refine ⟨_, bitlist_run hexCalled int elem E fuel d hexCalled_eq.1 L v str hl hf, fun w => ?_, ?_, ?_, ?_⟩
  · rw [of_out_ok _ (fun l => (Val.void, bitlistHexGlobals L l, ([] : List Obj))) (fun a b h => by simpa [bitlistHexGlobals] using h), bitlistFromHex_iff str hl w]
  · rw [of_out_throws _ (fun l => (Val.void, bitlistHexGlobals L l, ([] : List Obj))), failure_throws, bitlistFromHex_fails, HexFails]
    simp
  · rw [of_out_ub _ (fun l => (Val.void, bitlistHexGlobals L l, ([] : List Obj))), failure_ub, bitlistFromHex_fails, HexFails]
    have : ¬ 2 ^ 31 ≤ str.length := by omega
    simp only [this, false_or]
    simp
    tauto
  · cases hq : bitlistFromHex str with
    | ok w => exact .inl ⟨w, rfl⟩
    | ub => exact .inr (.inr rfl)
    | throws e =>
      have h := (bitlistFromHex_fails str (.throws e)).1 ((failure_throws _ _).1 hq)
      simp [HexFails] at h
      rw [h.1]
      exact .inr (.inl rfl)

/-- **C81** The text of `Bitvector<N>::from_hexstring`, for strings of less than 2 GiB and whatever the object held before: it leaves the bits of the bytes that
the characters denote, the first bit in the lowest bit of the first byte, and `false` where there are no more bytes (with more than 2^29 bytes the 32-bit index
starts again from 0, see `storedByte`); it raises `std::invalid_argument` exactly if the prefix is missing or the length odd; and its behaviour is undefined
exactly if, prefix and length being right, a character has its high bit set. -/
theorem C81_bitvector (N : Nat) (hN : N < 2 ^ 32) (str : List Byte) (hl : str.length < 2 ^ 31) : ∃ f, hexstringText (.bitvector N) = some f ∧
    ∀ int elem E fuel d (v : Vec Bool N), str.length + 8 < fuel → 1 ≤ d → ∃ r, run hexCalled int elem E fuel d f [.chars str] (bitvectorHexGlobals N v.1) [] = r ∧
      (∀ w : Vec Bool N, r = .ok (.void, bitvectorHexGlobals N w.1, []) ↔
        ∃ bs, IsLooseHex str bs ∧ str.length % 2 = 0 ∧ ∀ i < N, w.1[i]? = some ((storedByte bs (i / 8)).getLsbD (i % 8))) ∧
      (r = .throws .invalidArgument ↔ ¬ HexMarked str ∨ str.length % 2 = 1) ∧
      (r = .ub ↔ HexMarked str ∧ str.length % 2 = 0 ∧ HasHigh str) ∧
      ((∃ w : Vec Bool N, r = .ok (.void, bitvectorHexGlobals N w.1, [])) ∨ r = .throws .invalidArgument ∨ r = .ub) := by
  refine ⟨_, bitvectorHexF_read, fun int elem E fuel d v hf hd => ?_⟩
  obtain ⟨d, rfl⟩ := Nat.exists_eq_add_of_le' hd
  have hfail : ∀ f, failureOf (bitvectorFromHex N str) = some f ↔ HexFails str f := fun f => by
    rw [← hexString_fails, bitvectorFromHex]
    cases hexString str <;> rfl
  refine ⟨_, bitvector_run hexCalled int elem E fuel d hexCalled_eq.1 N hN v.1 v.2 str hl hf, fun w => ?_, ?_, ?_, ?_⟩
  · rw [of_out_ok _ (fun l : Vec Bool N => (Val.void, bitvectorHexGlobals N l.1, ([] : List Obj)))
      (fun a b h => Subtype.ext (by simpa [bitvectorHexGlobals] using h)), bitvectorFromHex_iff]
    exact ⟨fun ⟨bs, h1, h2, _, h3⟩ => ⟨bs, h1, h2, h3⟩, fun ⟨bs, h1, h2, h3⟩ => ⟨bs, h1, h2, hl, h3⟩⟩
  · rw [of_out_throws _ (fun l : Vec Bool N => (Val.void, bitvectorHexGlobals N l.1, ([] : List Obj))), failure_throws, hfail, HexFails]
    simp
  · rw [of_out_ub _ (fun l : Vec Bool N => (Val.void, bitvectorHexGlobals N l.1, ([] : List Obj))), failure_ub, hfail, HexFails]
    have : ¬ 2 ^ 31 ≤ str.length := by omega
    simp only [this, false_or]
    simp
  · cases hq : bitvectorFromHex N str with
    | ok w => exact .inl ⟨w, rfl⟩
    | ub => exact .inr (.inr rfl)
    | throws e =>
      have h := (hfail (.throws e)).1 ((failure_throws _ _).1 hq)
      simp [HexFails] at h
      rw [h.1]
      exact .inr (.inl rfl)

/-- The bits an object holds after a run. -/
def bitsIn : Res (Val × Frame × List Obj) → Option (List Bool)
  | .ok (_, (_, .bools l) :: _, _) => some l
  | .ok (_, (_, .obj ⟨.bitlist _, l⟩) :: _, _) => some l
  | _ => none

/-- What running the texts gives: `0x1f03` as a bit list and as ten bits. -/
example : bitsIn (run [hextointF] none none sevens 300 9 bitlistHexF [.chars [0x30#8, 0x78#8, 0x31#8, 0x66#8, 0x30#8, 0x33#8]] (bitlistHexGlobals 8 [true]) []) =
    some [true, true, true, true, true, false, false, false, true] := by decide +kernel
example : bitsIn (run [hextointF] none none sevens 300 9 bitvectorHexF [.chars [0x30#8, 0x78#8, 0x31#8, 0x66#8, 0x30#8, 0x33#8]]
    (bitvectorHexGlobals 10 (List.replicate 10 true)) []) = some [true, true, true, true, true, false, false, false, true, true] := by decide +kernel
/-- Strings of each kind: `0x1f03` and nine bits, `1f03`, `0x`. -/
example : IsLooseHex [0x30#8, 0x78#8, 0x31#8, 0x66#8, 0x30#8, 0x33#8] (Spec.bitlist [true, true, true, true, true, false, false, false, true]) :=
  ⟨[0x31#8, 0x66#8, 0x30#8, 0x33#8], rfl, by decide, by decide⟩
example : ¬ HexMarked [0x31#8, 0x66#8, 0x30#8, 0x33#8] := by rintro ⟨cs, h⟩; cases h
example : HexMarked [0x30#8, 0x78#8] ∧ ¬ EndsNonzero ([0x30#8, 0x78#8].drop 2) := ⟨⟨[], rfl⟩, by simp [EndsNonzero]⟩

/-- What a text with the two digits the wrong way round computes: running it finds the error. -/
example : (match (read (codes ["void Bitlist::from_hexstring(const std::string& str) {", "    std::uint8_t buffer = 0;", "    std::vector<std::uint8_t> hex;",
      "    for (int offset = 2; offset < str.length(); offset += 2) {",
      "        buffer = (helpers::hextoint(str[offset + 1]) << 4) + helpers::hextoint(str[offset]);", "        hex.push_back(buffer);", "    }",
      "    deserialize(hex.begin(), hex.end());", "}"])).bind fun l => freeFunction l (name% "Bitlist") (name% "from_hexstring") with
    | some f => bitsIn (run [hextointF] none none sevens 300 9 f [.chars [0x30#8, 0x78#8, 0x31#8, 0x33#8]] (bitlistHexGlobals 8 []) [])
    | none => none) = some [true, false, false, false, true] := by decide +kernel

end Mammon.Cpp
