import Verif.Proofs.CppScalar
import Verif.Proofs.CppBitlist
import Verif.Proofs.CppContainer
/-!
# C75: the text of the codec functions, run as C++, is the modelled codec
-/

namespace Mammon.Cpp
open Nasm

theorem sizeCalled (t : Ty) (l : Nat) : find (name% "size") (calledText (.listV t l)) = some listVSizeF := by
  rw [calledText, listVSizeF_read]
  kernel_refl

theorem lengthCalled (z : Nat) (o : Bool) (ps : Parts) : find (name% "compute_fixed_length") (calledText (.container z o ps)) = some computeFixedLengthF := by
  rw [calledText, computeFixedLengthF_read]
  kernel_refl

/-- **C75** `serialize` of every class: what the text of its body computes, statement by statement, is the modelled function, undefined behaviour included;
the object and its parts stay as they are. -/
theorem C75_serialize (t : Ty) (v : t.denote) (ht : SizeFits t) (hv : CountFits t v) : ∃ f, serializeText t = some f ∧
    ∃ n, ∀ int est fuel depth, n ≤ fuel → 2 ≤ depth →
      run (calledText t) int (elemOf t) est fuel depth f (pointersOf t) (fields t v ++ consts) (partsIn t v) =
        (Res.of (serialize t v)).bind fun b => .ok (.bytes b, fields t v ++ consts, partsIn t v) := by
  cases t with
  | uint64 => exact ⟨_, slotSerializeF_read, 0, fun int est fuel d _ _ => slot_serialize _ int est fuel d v⟩
  | boolean => exact ⟨_, booleanSerializeF_read, 0, fun int est fuel d _ _ => boolean_serialize _ int est fuel d v⟩
  | bytes n => exact ⟨_, bytesSerializeF_read, 0, fun int est fuel d _ _ => bytes_serialize _ int est fuel d n v⟩
  | bitvector n => exact ⟨_, bitvectorSerializeF_read, n + 1, fun int est fuel d h _ => bitvector_serialize _ int est fuel d n ht v h⟩
  | bitlist l => exact ⟨_, bitlistSerializeF_read, v.length + 1, fun int est fuel d h _ => bitlist_serialize _ int est fuel d l v hv h⟩
  | vector t n => exact ⟨_, vectorSerializeF_read, 0, fun int est fuel d _ _ => vector_serialize _ int est fuel d t n v⟩
  | listF t l => exact ⟨_, listFSerializeF_read, 0, fun int est fuel d _ _ => listF_serialize _ int est fuel d t l v⟩
  | listV t l =>
    refine ⟨_, listVSerializeF_read, 0, fun int est fuel d _ h => ?_⟩
    obtain ⟨d, rfl⟩ := Nat.exists_eq_add_of_le' h
    exact listV_serialize _ int est fuel (d + 1) t l v (sizeCalled t l)
  | container z o ps =>
    refine ⟨_, serializeF_read, 0, fun int est fuel d _ h => ?_⟩
    obtain ⟨d, rfl⟩ := Nat.exists_eq_add_of_le' h
    exact struct_serialize _ int none est fuel d z o ps v ht.1 ht.2 (lengthCalled z o ps)

/-- **C75** `deserialize` of every class, for all bytes: what the text of its body computes is the modelled function - the returned value, the contents of
the object and of its parts afterwards, and undefined behaviour. -/
theorem C75_deserialize (t : Ty) (v : t.denote) (bs : List Byte) (ht : SizeFits t) (hb : bs.length < 2 ^ 63) : ∃ f, deserializeText t = some f ∧
    ∃ n, ∀ int est fuel depth, n ≤ fuel → 2 ≤ depth →
      run (calledText t) int (elemOf t) est fuel depth f (ends bs ++ pointersOf t) (fields t v ++ (consts ++ input bs)) (partsIn t v) =
        (Res.of (deserialize t v bs)).bind fun r => .ok (.bool r.1, fields t r.2 ++ (consts ++ input bs), partsIn t r.2) := by
  cases t with
  | uint64 => exact ⟨_, slotDeserializeF_read, 0, fun int est fuel d _ _ => slot_deserialize _ int est fuel d v bs hb⟩
  | boolean => exact ⟨_, booleanDeserializeF_read, 0, fun int est fuel d _ _ => boolean_deserialize _ int est fuel d v bs hb⟩
  | bytes n => exact ⟨_, bytesDeserializeF_read, 0, fun int est fuel d _ _ => bytes_deserialize _ int est fuel d n ht v bs hb⟩
  | bitvector n => exact ⟨_, bitvectorDeserializeF_read, n + 10, fun int est fuel d h _ => bitvector_deserialize _ int est fuel d n ht v bs hb h⟩
  | bitlist l => exact ⟨_, bitlistDeserializeF_read, bs.length + 33, fun int est fuel d h _ => bitlist_deserialize _ int est fuel d l v bs h⟩
  | vector t n => exact ⟨_, vectorDeserializeF_read, n + 1, fun int est fuel d h _ => vector_deserialize _ int est fuel d t n v bs ht.1 ht.2 hb h⟩
  | listF t l => exact ⟨_, listFDeserializeF_read, bs.length + 1, fun int est fuel d h _ => listF_deserialize _ int est fuel d t l v bs ht hb h⟩
  | listV t l => exact ⟨_, listVDeserializeF_read, bs.length + 1, fun int est fuel d h _ => listV_deserialize _ int est fuel d t l v bs hb h⟩
  | container z o ps =>
    refine ⟨_, deserializeF_read, 0, fun int est fuel d _ h => ?_⟩
    obtain ⟨d, rfl⟩ := Nat.exists_eq_add_of_le' h
    exact struct_deserialize _ int none est fuel d z o ps v bs ht.1 hb (lengthCalled z o ps)

/-- The type of one of the members. -/
def Among (t : Ty) : Parts → Prop
  | .nil => False
  | .cons _ u ps => t = u ∨ Among t ps

/-- A class is used within another one: as its element type, as the type of a member, or it is the class itself. -/
inductive Within : Ty → Ty → Prop
  | self (t : Ty) : Within t t
  | vector {s t : Ty} {n : Nat} : Within s t → Within s (.vector t n)
  | listF {s t : Ty} {n : Nat} : Within s t → Within s (.listF t n)
  | listV {s t : Ty} {n : Nat} : Within s t → Within s (.listV t n)
  | part {s t : Ty} {z : Nat} {o : Bool} {ps : Parts} : Among t ps → Within s t → Within s (.container z o ps)

mutual
/-- The sizes of a class and of those within it, decided. -/
def allFit : Ty → Bool
  | .bytes n => decide (n < 2 ^ 64)
  | .bitvector n => decide (n < 2 ^ 31)
  | .vector t n => decide (n < 2 ^ 31 ∧ n * t.sszSize < 2 ^ 64) && allFit t
  | .listF t _ => decide (t.sszSize < 2 ^ 64) && allFit t
  | .listV t _ => allFit t
  | .container _ _ ps => partsFit ps && decide ((indices ps 0).length < 2 ^ 64)
  | _ => true
/-- The sizes of the members of a class and of those within them, decided. -/
def partsFit : Parts → Bool
  | .nil => true
  | .cons _ t ps => decide (t.sszSize < 2 ^ 64) && allFit t && partsFit ps
end

theorem sizesFit_of : (ps : Parts) → partsFit ps = true → SizesFit ps
  | .nil, _ => trivial
  | .cons _ t ps, h => by
    simp only [partsFit, Bool.and_eq_true, decide_eq_true_eq] at h
    exact ⟨h.1.1, sizesFit_of ps h.2⟩

theorem sizeFits_of (t : Ty) (h : allFit t = true) : SizeFits t := by
  cases t with
  | container z o ps =>
    simp only [allFit, Bool.and_eq_true, decide_eq_true_eq] at h
    exact ⟨sizesFit_of ps h.1, h.2⟩
  | listV t n => exact trivial
  | _ => simp_all [allFit, SizeFits]

theorem allFit_among (t : Ty) : (ps : Parts) → partsFit ps = true → Among t ps → allFit t = true
  | .nil, _, h => h.elim
  | .cons _ u ps, hp, h => by
    simp only [partsFit, Bool.and_eq_true] at hp
    rcases h with rfl | h
    · exact hp.1.2
    · exact allFit_among t ps hp.2 h

theorem allFit_within {s t : Ty} (h : Within s t) (ht : allFit t = true) : allFit s = true := by
  induction h with
  | self => exact ht
  | vector _ ih | listF _ ih =>
    simp only [allFit, Bool.and_eq_true] at ht
    exact ih ht.2
  | listV _ ih => exact ih (by simpa only [allFit] using ht)
  | part ha _ ih =>
    simp only [allFit, Bool.and_eq_true] at ht
    exact ih (allFit_among _ _ ht.1 ha)

/-- **C75** The hypotheses on the sizes hold for every class of the repository and for every class within it, in both configurations. -/
theorem C75_classes (minimal : Bool) : ∀ x ∈ Objects.all (if minimal then Mammon.minimal else mainnet), ∀ t, Within t x.2 → SizeFits t := by
  have h : ∀ x ∈ Objects.all (if minimal then Mammon.minimal else mainnet), allFit x.2 = true := by cases minimal <;> decide +kernel
  exact fun x hx t ht => sizeFits_of t (allFit_within ht (h x hx))

/-- A bit list within a list of attestations within the state. -/
example : ∃ x ∈ Objects.all mainnet, Within (.bitlist 2048) x.2 :=
  ⟨("BeaconState", Objects.beaconState mainnet), by simp [Objects.all],
    .part (t := .listV (Objects.pendingAttestation mainnet) 4096) (by simp [Among, mkParts, mainnet])
      (.listV (.part (t := .bitlist 2048) (by simp [Among, mkParts, mainnet]) (.self _)))⟩

/-- The hypotheses hold for a list of bit lists, one of them empty; its text is found. -/
example : SizeFits (.listV (.bitlist 2048) 128) ∧ CountFits (.listV (.bitlist 2048) 128) [[true, false], []] ∧
    serialize (.listV (.bitlist 2048) 128) [[true, false], []] = .ok [8, 0, 0, 0, 9, 0, 0, 0, 5, 1] ∧
    ∃ f, serializeText (.listV (.bitlist 2048) 128) = some f :=
  ⟨trivial, trivial, by decide +kernel, _, listVSerializeF_read⟩

/-- An object of a class with a part of variable size whose decoding fails after it has changed the object. -/
example : SizeFits (Objects.pendingAttestation mainnet) ∧ ([1, 2, 3] : List Byte).length < 2 ^ 63 ∧
    deserialize (.listF .boolean 4) [true] [1, 0, 2] = .ok (false, [true, false]) ∧ ∃ f, deserializeText (Objects.pendingAttestation mainnet) = some f :=
  ⟨sizeFits_of _ (by decide +kernel), by decide, by decide +kernel, _, deserializeF_read⟩

/-- What the text of a function with a wrong comparison computes: running it finds the error. -/
example : (match (read (codes ["class Slot {", "bool deserialize(ssz::SSZIterator it, ssz::SSZIterator end) {",
      "    if (std::distance(it, end) > 8) return false;", "    value_ = helpers::to_integer_little_endian<std::uint64_t>(&*it);", "    return true; }", "};"])).bind
      fun l => memberFunction l (name% "Slot") (name% "deserialize") with
    | some f => match run [] none none ⟨0, fun a _ => a, fun _ => 0#8⟩ 9 9 f (ends [1, 2]) (fields .uint64 0#64 ++ (consts ++ input [1, 2])) [] with
      | .ub => true
      | _ => false
    | none => false) = true := by decide +kernel

end Mammon.Cpp
