import Verif.Proofs.Yaml
import Verif.Props.Classes
import Verif.Props.Helpers
/-!
# C38, C39, C47, C48, C49: YAML

`toText` is `helpers::bytes_to_string`, whose header is missing from the repository; what is assumed of it is in the hypothesis `IsHexText`: `0x` and two hexadecimal
digits for each byte.
-/

namespace Mammon

open Yaml (Node)

/-! ## A text function for the examples -/

/-- A hexadecimal digit, in lower case. -/
def hexChar (d : Nat) : Byte := if d < 10 then BitVec.ofNat 8 (0x30 + d) else BitVec.ofNat 8 (0x57 + d)

/-- The usual way of writing bytes. -/
def plainText (bs : List Byte) : List Byte := 0x30#8 :: 0x78#8 :: bs.flatMap fun b => [hexChar (b.toNat / 16), hexChar (b.toNat % 16)]

theorem hexDigit_hexChar : ∀ d < 16, Spec.hexDigit (hexChar d).toNat = some d := by decide +kernel

theorem plainText_isHexText (bs : List Byte) : Spec.IsHexText (plainText bs) bs := by
  refine ⟨_, bs.flatMap fun b => [b.toNat / 16, b.toNat % 16], rfl, ?_, ?_, ?_⟩
  · induction bs with
    | nil => rfl
    | cons b bs ih =>
      have := b.isLt
      rw [List.flatMap_cons, List.flatMap_cons, List.map_append, List.map_append, ih]
      simp only [List.map_cons, List.map_nil]
      rw [hexDigit_hexChar _ (by omega), hexDigit_hexChar _ (by omega)]
  · induction bs with
    | nil => rfl
    | cons b bs ih => rw [List.flatMap_cons, List.length_append, ih]; simp; omega
  · induction bs with
    | nil => rfl
    | cons b bs ih =>
      rw [List.flatMap_cons, List.cons_append, List.cons_append, List.nil_append, Spec.pairDigits, ih, List.map_cons]
      congr 1
      omega

/-! ## C38 -/

/-- **C38** Exactly the objects without bit lists and without set bits in bit vectors survive: the tree made by `encode()` is decoded to the same object, whatever
the target held before. -/
theorem C38_round_trip_iff (toText : List Byte → List Byte) (hT : ∀ bs, Spec.IsHexText (toText bs) bs) (t : Ty) (ht : Spec.wellNamed t = true)
    (v old : t.denote) (hb : Spec.bitlistsShort t v = true) :
    ∃ node, Yaml.encode toText t v = .ok node ∧ (Yaml.decode t old (some node) = .ok (true, v) ↔ Spec.noBitsSet t v = true) := by
  obtain ⟨node, hn⟩ := Yaml.encode_ok toText t v (by rw [serializeUB_eq, hb]; rfl)
  exact ⟨node, hn, Yaml.round_trip_iff hT t ht v node hn old⟩

mutual
theorem noBitsSet_of_noBits : (t : Ty) → Spec.noBits t = true → (v : t.denote) → Spec.noBitsSet t v = true ∧ Spec.bitlistsShort t v = true
  | .uint64, _, _ => ⟨rfl, rfl⟩
  | .boolean, _, _ => ⟨rfl, rfl⟩
  | .bytes _, _, _ => ⟨rfl, rfl⟩
  | .bitvector _, h, _ => by simp [Spec.noBits] at h
  | .bitlist _, h, _ => by simp [Spec.noBits] at h
  | .vector t n, h, v => by
    rw [Spec.noBits] at h
    rw [Spec.noBitsSet, Spec.bitlistsShort, List.all_eq_true, List.all_eq_true]
    exact ⟨fun x _ => (noBitsSet_of_noBits t h x).1, fun x _ => (noBitsSet_of_noBits t h x).2⟩
  | .listF t n, h, v => by
    rw [Spec.noBits] at h
    rw [Spec.noBitsSet, Spec.bitlistsShort, List.all_eq_true, List.all_eq_true]
    exact ⟨fun x _ => (noBitsSet_of_noBits t h x).1, fun x _ => (noBitsSet_of_noBits t h x).2⟩
  | .listV t n, h, v => by
    rw [Spec.noBits] at h
    rw [Spec.noBitsSet, Spec.bitlistsShort, List.all_eq_true, List.all_eq_true]
    exact ⟨fun x _ => (noBitsSet_of_noBits t h x).1, fun x _ => (noBitsSet_of_noBits t h x).2⟩
  | .container _ _ ps, h, v => by
    rw [Spec.noBits] at h
    rw [Spec.noBitsSet, Spec.bitlistsShort]
    exact noBitsSetParts_of_noBits ps h v

theorem noBitsSetParts_of_noBits : (ps : Parts) → Spec.noBitsParts ps = true → (v : ps.denote) →
    Spec.noBitsSetParts ps v = true ∧ Spec.bitlistsShortParts ps v = true
  | .nil, _, _ => ⟨rfl, rfl⟩
  | .cons _ t ps, h, v => by
    rw [Spec.noBitsParts, Bool.and_eq_true] at h
    have h1 := noBitsSet_of_noBits t h.1 v.1
    have h2 := noBitsSetParts_of_noBits ps h.2 v.2
    rw [Spec.noBitsSetParts, Spec.bitlistsShortParts, h1.1, h1.2, h2.1, h2.2]
    exact ⟨rfl, rfl⟩
end

/-- **C38** Every object of a type without bit fields is encoded to a tree from which it is decoded again, whatever the target held before. -/
theorem C38_round_trip (toText : List Byte → List Byte) (hT : ∀ bs, Spec.IsHexText (toText bs) bs) (t : Ty) (ht : Spec.wellNamed t = true)
    (hn : Spec.noBits t = true) (v : t.denote) :
    ∃ node, Yaml.encode toText t v = .ok node ∧ ∀ old, Yaml.decode t old (some node) = .ok (true, v) := by
  obtain ⟨h1, h2⟩ := noBitsSet_of_noBits t hn v
  obtain ⟨node, hn, -⟩ := C38_round_trip_iff toText hT t ht v v h2
  exact ⟨node, hn, fun old => (Yaml.round_trip_iff hT t ht v node hn old).2 h1⟩

example : Spec.wellNamed (Objects.signedBeaconBlock mainnet) = true ∧ Spec.wellNamed Objects.depositData = true ∧
    Spec.noBits Objects.depositData = true ∧ ∀ bs, Spec.IsHexText (plainText bs) bs :=
  ⟨by decide +kernel, by decide +kernel, by decide +kernel, plainText_isHexText⟩

/-- The classes of the repository have well-chosen names. -/
theorem InRepo.wellNamed {t : Ty} (h : InRepo t) : Spec.wellNamed t = true := by
  obtain ⟨p, hp, x, hx, rfl⟩ := h
  have : ∀ p ∈ [mainnet, minimal], ∀ x ∈ Objects.all p, Spec.wellNamed x.2 = true := by decide +kernel
  exact this p hp x hx

/-- **C38** for the classes of the repository: those without bit fields round-trip. -/
theorem C38_classes (toText : List Byte → List Byte) (hT : ∀ bs, Spec.IsHexText (toText bs) bs) (p : Preset) (hp : p ∈ [mainnet, minimal])
    (x : String × Ty) (hx : x ∈ Objects.all p) (hn : x.1 ∉ ["Attestation", "PendingAttestation", "BeaconBlockBody", "BeaconBlock", "SignedBeaconBlock", "BeaconState"])
    (v : x.2.denote) : ∃ node, Yaml.encode toText x.2 v = .ok node ∧ ∀ old, Yaml.decode x.2 old (some node) = .ok (true, v) := by
  have : ∀ p ∈ [mainnet, minimal], ∀ x ∈ Objects.all p,
      x.1 ∉ ["Attestation", "PendingAttestation", "BeaconBlockBody", "BeaconBlock", "SignedBeaconBlock", "BeaconState"] → Spec.noBits x.2 = true := by
    decide +kernel
  exact C38_round_trip toText hT x.2 (InRepo.wellNamed ⟨p, hp, x, hx, rfl⟩) (this p hp x hx hn) v

example : ("IndexedAttestation", Objects.indexedAttestation mainnet) ∈ Objects.all mainnet := by simp [Objects.all]

/-! ## C39 -/

/-- **C39**, negation: no bit list is decoded again from its own text. -/
theorem C39_bitlist_never (toText : List Byte → List Byte) (limit : Nat) (v old : (Ty.bitlist limit).denote) (hl : List.length v < 2 ^ 31) :
    ∃ node, Yaml.encode toText (.bitlist limit) v = .ok node ∧ Yaml.decode (.bitlist limit) old (some node) ≠ .ok (true, v) := by
  obtain ⟨node, hn⟩ := Yaml.encode_ok toText (.bitlist limit) v (by rw [serializeUB]; simpa using hl)
  refine ⟨node, hn, fun h => ?_⟩
  have hn' : Yaml.encode plainText (.bitlist limit) v = .ok node := by rw [Yaml.encode] at hn ⊢; exact hn
  have := (Yaml.round_trip_iff plainText_isHexText (.bitlist limit) rfl v node hn' old).1 h
  cases this

example : List.length [true, false, true] < 2 ^ 31 := by decide

/-- **C39**, negation: for a bit vector that happens exactly if it is zero. -/
theorem C39_bitvector_iff (toText : List Byte → List Byte) (n : Nat) (hn : n < 2 ^ 31) (v old : (Ty.bitvector n).denote) :
    ∃ node, Yaml.encode toText (.bitvector n) v = .ok node ∧
      (Yaml.decode (.bitvector n) old (some node) = .ok (true, v) ↔ ∀ b ∈ v.1, b = false) := by
  obtain ⟨node, hn'⟩ := Yaml.encode_ok toText (.bitvector n) v rfl
  refine ⟨node, hn', ?_⟩
  have h := Yaml.round_trip_iff plainText_isHexText (.bitvector n) (by rw [Spec.wellNamed]; simpa using hn) v node (by rw [Yaml.encode] at hn' ⊢; exact hn') old
  rw [h, Spec.noBitsSet, List.all_eq_true]
  simp

-- justification bits 1000
example : (4 : Nat) < 2 ^ 31 ∧ ¬ ∀ b ∈ [true, false, false, false], b = false := by decide

/-- **C39**, what goes wrong: decoding the text of a bit list is undefined as soon as one of the serialized bytes is 128 or more, or the last one
is not the character of a hexadecimal digit other than 0. -/
theorem C39_bitlist_undefined_iff (toText : List Byte → List Byte) (limit : Nat) (v old : (Ty.bitlist limit).denote) (hl : List.length v < 2 ^ 31) :
    ∃ node, Yaml.encode toText (.bitlist limit) v = .ok node ∧
      (Yaml.decode (.bitlist limit) old (some node) = .ub ↔
        (∃ b ∈ Spec.bitlist v, 128 ≤ b.toNat) ∨ ∀ b ∈ (Spec.bitlist v).getLast?, (Spec.hexDigit b.toNat).getD 0 = 0) := by
  rw [← bitlistSerialize_eq_spec]
  refine ⟨.scalar (Yaml.rawString (bitlistSerialize v)), by rw [Yaml.encode, serialize, if_neg (by rw [serializeUB]; simpa using hl)]; rfl, ?_⟩
  have hne := bitlistSerialize_ne_nil v
  have hE : Spec.EndsNonzero ((bitlistSerialize v).flatMap fun b => [0x30#8, b]) ↔
      ¬ (Spec.hexDigit ((bitlistSerialize v).getLast hne).toNat).getD 0 = 0 := by
    generalize bitlistSerialize v = s at hne
    rcases List.eq_nil_or_concat s with rfl | ⟨xs, d, rfl⟩
    · exact absurd rfl hne
    · simp only [List.concat_eq_append, List.flatMap_append, List.flatMap_cons, List.flatMap_nil, List.append_nil, List.getLast_append]
      constructor
      · rintro ⟨ys, c, d', h, hz⟩
        have h' := List.append_inj' h rfl
        simp only [List.cons.injEq, and_true] at h'
        obtain ⟨-, rfl, rfl⟩ := h'
        intro h0
        exact hz ⟨by decide, h0⟩
      · intro h0
        exact ⟨_, _, _, rfl, fun h => h0 h.2⟩
  have hu := Yaml.bitlistFromHex_ub_iff (Yaml.rawString (bitlistSerialize v))
  have hdec : Yaml.decode (.bitlist limit) old (some (.scalar (Yaml.rawString (bitlistSerialize v)))) = .ub ↔
      Yaml.bitlistFromHex (Yaml.rawString (bitlistSerialize v)) = .ub := by
    rw [Yaml.decode]
    simp only [Yaml.scalar?, Out.bind]
    exact ⟨Yaml.map_ub, fun h => by rw [h]; rfl⟩
  have hlen := length_bitlistSerialize v
  rw [hdec, hu, List.getLast?_eq_some_getLast hne]
  simp only [Option.mem_def, Option.some.injEq, forall_eq']
  constructor
  · rintro ⟨cs, h1, h2, h3⟩
    have hcs : (bitlistSerialize v).flatMap (fun b => [0x30#8, b]) = cs := by
      rw [Yaml.rawString, List.cons_append, List.cons_append, List.nil_append] at h1
      simpa using h1
    subst hcs
    rcases h3 with h3 | ⟨c, hc, h3⟩ | h3
    · rw [Yaml.rawString, List.length_append, Yaml.length_raw] at h3
      simp at h3
      have : List.length v = v.length := rfl
      omega
    · left
      apply Classical.byContradiction
      intro hno
      have := (Yaml.mem_raw (bitlistSerialize v)).2 (fun b hb => Nat.lt_of_not_le fun h => hno ⟨b, hb, h⟩) c hc
      omega
    · right
      exact Classical.byContradiction fun h => h3 (hE.2 h)
  · intro h
    refine ⟨(bitlistSerialize v).flatMap fun b => [0x30#8, b], rfl, by rw [Yaml.length_raw]; omega, Or.inr ?_⟩
    rcases h with ⟨b, hb, h⟩ | h
    · exact Or.inl ⟨b, List.mem_flatMap.2 ⟨b, hb, by simp⟩, h⟩
    · exact Or.inr fun h' => hE.1 h' h

-- three bits, serialized as the byte 13, a carriage return
example : Spec.bitlist [true, false, true] = [0x0d#8] ∧ Spec.hexDigit 0x0d = none := by decide +kernel

/-- **C39**, what holds: from the proper hexadecimal text of the serialization, bit lists and bit vectors are decoded correctly. Missing: `encode()` does not
produce that text, see `C39_bitlist_never` and `C39_bitvector_iff`. -/
theorem C39_hex_partial (s : List Byte) :
    (∀ limit (v old : (Ty.bitlist limit).denote), List.length v < 2 ^ 31 → Spec.IsHexText s (Spec.bitlist v) →
      Yaml.decode (.bitlist limit) old (some (.scalar s)) = .ok (true, v)) ∧
    ∀ n (v old : (Ty.bitvector n).denote), n < 2 ^ 31 → Spec.IsHexText s (Spec.encode (.bitvector n) v) →
      Yaml.decode (.bitvector n) old (some (.scalar s)) = .ok (true, v) := by
  refine ⟨fun limit v old hl hs => ?_, fun n v old hn hs => ?_⟩
  · rw [← bitlistSerialize_eq_spec] at hs
    rw [Yaml.decode]
    simp only [Yaml.scalar?, Out.bind]
    rw [Yaml.bitlist_hexText hl hs]; rfl
  · have : Spec.encode (.bitvector n) v = bitvectorSerialize n v.1 := by rw [bitvectorSerialize_eq_spec n v.1 v.2]; rfl
    rw [this] at hs
    rw [Yaml.decode]
    simp only [Yaml.scalar?, Out.bind]
    rw [Yaml.bitvector_hexText hn hs]; rfl

-- "0x0d" for the bits 101
example : Spec.IsHexText [0x30#8, 0x78#8, 0x30#8, 0x64#8] (Spec.bitlist [true, false, true]) := plainText_isHexText [0x0d#8]

/-- **C39**, negation: no object of class `Attestation` is decoded again from its own tree. -/
theorem C39_attestation_never (toText : List Byte → List Byte) (hT : ∀ bs, Spec.IsHexText (toText bs) bs) (p : Preset) (hp : p ∈ [mainnet, minimal])
    (v old : (Objects.attestation p).denote) (hb : Spec.bitlistsShort (Objects.attestation p) v = true) :
    ∃ node, Yaml.encode toText (Objects.attestation p) v = .ok node ∧ Yaml.decode (Objects.attestation p) old (some node) ≠ .ok (true, v) := by
  obtain ⟨node, h1, h2⟩ := C38_round_trip_iff toText hT (Objects.attestation p)
    (InRepo.wellNamed ⟨p, hp, ("Attestation", Objects.attestation p), by simp [Objects.all], rfl⟩) v old hb
  refine ⟨node, h1, fun h => ?_⟩
  have := h2.1 h
  cases this

example : Spec.bitlistsShort (Objects.attestation mainnet) (Samples.attestation [true, false, true]) = true := by decide +kernel

/-! ## C47 -/

/-- **C47** Whether decoding a tree succeeds, fails, throws or is undefined, and the contents after a success, do not depend on what the object held before. -/
theorem C47_independent (t : Ty) (old old' : t.denote) (h : Yaml.Handle) :
    (∀ v, Yaml.decode t old h = .ok (true, v) ↔ Yaml.decode t old' h = .ok (true, v)) ∧
    ((∃ v, Yaml.decode t old h = .ok (false, v)) ↔ ∃ v, Yaml.decode t old' h = .ok (false, v)) ∧
    (∀ e, Yaml.decode t old h = .throws e ↔ Yaml.decode t old' h = .throws e) ∧
    (Yaml.decode t old h = .ub ↔ Yaml.decode t old' h = .ub) := by
  have hA := Yaml.decode_agree t old old' h
  revert hA
  generalize Yaml.decode t old h = x
  generalize Yaml.decode t old' h = y
  rcases x with ⟨_ | _, a⟩ | e | _ <;> rcases y with ⟨_ | _, b⟩ | e' | _ <;> simp [Agree]

-- an object with contents, and the same class freshly constructed
example : Samples.attestation [true, false, true] ≠ (Objects.attestation mainnet).dflt := by
  intro h
  have h' : [true, false, true] = ([] : List Bool) := congrArg (fun x : (Objects.attestation mainnet).denote => x.1) h
  cases h'

/-! ## C48 -/

/-- **C48** Decoding a tree is undefined only if one of its scalars has 2^31 characters or more, or a character with the high bit set, or, for types with bit lists, is
`0x` not ending in a nonzero byte. -/
theorem C48_defined (t : Ty) (old : t.denote) (n : Node) (h : Yaml.decode t old (some n) = .ub) :
    ∃ s, Spec.HasScalar n s ∧ (2 ^ 31 ≤ s.length ∨ (∃ c ∈ s, 128 ≤ c.toNat) ∨
      (Spec.noBitlist t = false ∧ ∃ cs, s = hexPrefix ++ cs ∧ ¬ Spec.EndsNonzero cs)) := by
  obtain ⟨n', s, h1, h2, h3⟩ := Yaml.decode_ub t old (some n) h
  cases h1
  exact ⟨s, h2, h3⟩

-- an attestation whose bits are given by the text "0x00"
example : Yaml.decode (Objects.attestation mainnet) (Objects.attestation mainnet).dflt
    (some (.map [(.scalar (Yaml.chars "aggregation_bits"), .scalar (Yaml.chars "0x00"))])) = .ub := by
  have : Yaml.bitlistFromHex (Yaml.chars "0x00") = .ub := by decide +kernel
  rw [Objects.attestation, Yaml.decode]
  simp only [mkParts]
  rw [Yaml.decodeParts]
  have h : Yaml.subscript (some (.map [(.scalar (Yaml.chars "aggregation_bits"), .scalar (Yaml.chars "0x00"))])) (Yaml.chars "aggregation_bits") =
    .ok (some (.scalar (Yaml.chars "0x00"))) := by simp [Yaml.subscript, Yaml.keyIs]
  rw [h, Out.bind, Yaml.decode]
  simp only [Yaml.scalar?, Out.bind]
  rw [this]
  rfl

/-- **C48** For the text of a bit list, the exact condition. -/
theorem C48_bitlist_undefined_iff (limit : Nat) (old : (Ty.bitlist limit).denote) (s : List Byte) :
    Yaml.decode (.bitlist limit) old (some (.scalar s)) = .ub ↔
      ∃ cs, s = hexPrefix ++ cs ∧ cs.length % 2 = 0 ∧ (2 ^ 31 ≤ s.length ∨ (∃ c ∈ cs, 128 ≤ c.toNat) ∨ ¬ Spec.EndsNonzero cs) := by
  have := Yaml.bitlistFromHex_ub_iff s
  rw [Yaml.decode]
  simp only [Yaml.scalar?, Out.bind]
  exact ⟨fun h => this.1 (Yaml.map_ub h), fun h => by rw [this.2 h]; rfl⟩

-- the text "0x" itself
example : [0x30#8, 0x78#8] = hexPrefix ++ [] ∧ ¬ Spec.EndsNonzero [] := ⟨rfl, by rintro ⟨cs, c, d, h, -⟩; simp at h⟩

/-! ## C49 -/

/-- **C49** Decoding a container looks at nothing but the values of the keys that are names of members: order of the entries and further keys do not matter. -/
theorem C49_keys (size : Nat) (eq : Bool) (ps : Parts) (old : (Ty.container size eq ps).denote) (l l' : List (Node × Node))
    (h : ∀ n ∈ Spec.names ps, (l.find? fun e => Yaml.keyIs (Yaml.chars n) e.1).map (·.2) = (l'.find? fun e => Yaml.keyIs (Yaml.chars n) e.1).map (·.2)) :
    Yaml.decode (.container size eq ps) old (some (.map l)) = Yaml.decode (.container size eq ps) old (some (.map l')) := by
  rw [Yaml.decode, Yaml.decode]
  exact Yaml.decodeParts_lookup ps old _ _ fun n hn => by rw [Yaml.subscript, Yaml.subscript, h n hn]

-- a checkpoint with its keys in the other order, and one more
example : ∀ n ∈ ["epoch", "root"],
    ([(Node.scalar (Yaml.chars "root"), Node.null), (Node.scalar (Yaml.chars "more"), Node.null), (Node.scalar (Yaml.chars "epoch"), Node.seq [])].find?
      fun e => Yaml.keyIs (Yaml.chars n) e.1).map (·.2) =
    ([(Node.scalar (Yaml.chars "epoch"), Node.seq []), (Node.scalar (Yaml.chars "root"), Node.null)].find?
      fun e => Yaml.keyIs (Yaml.chars n) e.1).map (·.2) := by
  intro n hn
  simp only [List.mem_cons, List.not_mem_nil, or_false] at hn
  rcases hn with rfl | rfl <;> rfl

/-- **C49** Entries with different keys may come in any order. -/
theorem C49_order (size : Nat) (eq : Bool) (ps : Parts) (old : (Ty.container size eq ps).denote) (l l' : List (Node × Node)) (hp : l.Perm l')
    (hd : ∀ key, (l.filter fun e => Yaml.keyIs key e.1).length ≤ 1) :
    Yaml.decode (.container size eq ps) old (some (.map l)) = Yaml.decode (.container size eq ps) old (some (.map l')) := by
  refine C49_keys size eq ps old l l' fun n _ => ?_
  congr 1
  rw [← List.head?_filter, ← List.head?_filter]
  have h1 := hp.filter fun e => Yaml.keyIs (Yaml.chars n) e.1
  have h2 := hd (Yaml.chars n)
  revert h1 h2
  generalize l.filter (fun e => Yaml.keyIs (Yaml.chars n) e.1) = a
  generalize l'.filter (fun e => Yaml.keyIs (Yaml.chars n) e.1) = b
  intro h1 h2
  rcases a with _ | ⟨x, _ | ⟨y, a⟩⟩
  · rw [h1.nil_eq]
  · rw [List.singleton_perm.1 h1]
  · simp at h2

example : ∀ key, ([(Node.scalar (Yaml.chars "root"), Node.null), (Node.scalar (Yaml.chars "epoch"), Node.null)].filter
    fun e => Yaml.keyIs key e.1).length ≤ 1 := by
  intro key
  by_cases h1 : Yaml.chars "root" = key
  · subst h1
    simp [Yaml.keyIs, show ¬ Yaml.chars "epoch" = Yaml.chars "root" by decide +kernel]
  · simp [Yaml.keyIs, h1, List.filter_cons]
    split <;> simp

/-- **C49** Every member must be there: without its key, decoding does not succeed. -/
theorem C49_required (size : Nat) (eq : Bool) (ps : Parts) (old v : (Ty.container size eq ps).denote) (n : Node)
    (h : Yaml.decode (.container size eq ps) old (some n) = .ok (true, v)) (name : String) (t : Ty) (hm : (name, t) ∈ Spec.partsList ps)
    (ht : ∀ a b, t ≠ .container a b .nil) :
    ∃ l e, n = .map l ∧ e ∈ l ∧ Yaml.keyIs (Yaml.chars name) e.1 = true := by
  rw [Yaml.decode] at h
  obtain ⟨m, h1⟩ := Yaml.decodeParts_required ps old v _ h name t hm ht
  obtain ⟨l, e, h2, h3, h4, -⟩ := Yaml.subscript_some h1
  cases h2
  exact ⟨l, e, rfl, h3, h4⟩

/-- **C49** Without the key of the first member (which is not an empty container), decoding throws `YAML::InvalidNode`. -/
theorem C49_missing (size : Nat) (eq : Bool) (name : String) (t : Ty) (ps : Parts) (old : (Ty.container size eq (.cons name t ps)).denote)
    (l : List (Node × Node)) (ht : ∀ a b, t ≠ .container a b .nil) (h : ∀ e ∈ l, Yaml.keyIs (Yaml.chars name) e.1 = false) :
    Yaml.decode (.container size eq (.cons name t ps)) old (some (.map l)) = .throws .yamlInvalidNode := by
  rw [Yaml.decode, Yaml.decodeParts]
  have : Yaml.subscript (some (.map l)) (Yaml.chars name) = .ok none := by
    rw [Yaml.subscript, List.find?_eq_none.2 fun e he => by rw [h e he]; simp]; rfl
  rw [this, Out.bind, Yaml.decode_missing t _ ht]
  rfl

-- the empty map for a checkpoint
example : Yaml.decode Objects.checkpoint Objects.checkpoint.dflt (some (.map [])) = .throws .yamlInvalidNode :=
  C49_missing _ _ "epoch" .uint64 _ _ _ (by intro a b h; cases h) (by simp)

example : ("root", Objects.root) ∈ Spec.partsList (.cons "epoch" .uint64 (.cons "root" Objects.root .nil)) := by simp [Spec.partsList]

end Mammon
