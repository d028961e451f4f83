import Verif.Proofs.Offsets
import Verif.Proofs.Safe
import Verif.Proofs.Indep
import Verif.Props.Samples
/-!
# Properties of decoding: C04 - C08, C11, C12, C41, C43, C45
-/

namespace Mammon

/-! ## C04, C05 -/

/-- **C04** Whether decoding runs into undefined behaviour, returns false, or returns true with a given value, does not depend on the previous
contents of the object. -/
theorem C04_independent (t : Ty) (hw : Spec.wf t = true) (old old' : t.denote) (bs : List Byte) :
    (deserialize t old bs = .ub ↔ deserialize t old' bs = .ub) ∧
    ((∃ v, deserialize t old bs = .ok (false, v)) ↔ ∃ v, deserialize t old' bs = .ok (false, v)) ∧
    ∀ v, deserialize t old bs = .ok (true, v) ↔ deserialize t old' bs = .ok (true, v) := by
  have h := deserialize_agree t hw old old' bs
  revert h
  rcases deserialize t old bs with ⟨⟨⟩ | ⟨⟩, a⟩ | _ | _ <;> rcases deserialize t old' bs with ⟨⟨⟩ | ⟨⟩, b⟩ | _ | _ <;>
    simp [Agree]

example : Spec.wf (Objects.beaconBlockBody minimal) = true := by decide +kernel

/-- A sequence of decode attempts on one object; the object afterwards. -/
def decodeAll (t : Ty) : t.denote → List (List Byte) → Out t.denote
  | v, [] => .ok v
  | v, bs :: h => do
    let r ← deserialize t v bs
    decodeAll t r.2 h

/-- **C05** After any history of decode attempts, failed or not, a successful decode leaves the same object as decoding into a fresh one. -/
theorem C05_history (t : Ty) (hw : Spec.wf t = true) (old : t.denote) (history : List (List Byte)) (bs : List Byte) (v x : t.denote)
    (hx : decodeAll t old history = .ok x) (hv : deserialize t x bs = .ok (true, v)) :
    decodeAll t old (history ++ [bs]) = .ok v ∧ deserialize t t.dflt bs = .ok (true, v) := by
  constructor
  · clear hw
    induction history generalizing old with
    | nil =>
      simp only [decodeAll, Out.ok.injEq] at hx
      subst hx
      simp only [List.nil_append, decodeAll, hv, Out.ok_bind]
    | cons b h ih =>
      rw [decodeAll, Out.bind_eq_ok] at hx
      obtain ⟨r, hr, hx⟩ := hx
      rw [List.cons_append, decodeAll, hr, Out.ok_bind]
      exact ih r.2 hx
  · exact ((C04_independent t hw x t.dflt bs).2.2 v).1 hv

-- a failed decode (five bytes), which overwrites the first field, and then a good one
example : ∃ x bs, decodeAll Objects.fork Objects.fork.dflt [[9#8, 9#8, 9#8, 9#8, 9#8]] = .ok x ∧ x ≠ Objects.fork.dflt ∧
    serialize Objects.fork Samples.fork = .ok bs ∧ deserialize Objects.fork x bs = .ok (true, Samples.fork) :=
  ⟨(⟨[9#8, 9#8, 9#8, 9#8], rfl⟩, ⟨[0#8, 0#8, 0#8, 0#8], rfl⟩, 0#64, ()), _, rfl,
    fun h => absurd (congrArg (fun x : Objects.fork.denote => x.1.1) h) (by decide), rfl, rfl⟩

/-! ## C06, C41 -/

/-- **C06** Accepted encodings are canonical, for types without bit vectors of a length that is not a multiple of 8. It fails for the
other types, see `C06_not_canonical`. -/
theorem C06_canonical (t : Ty) (hw : Spec.wf t = true) (hb : Spec.wholeBytes t = true) (old v : t.denote) (bs : List Byte)
    (hl : t.sszSize ≠ 0 → bs.length = t.sszSize) (h : deserialize t old bs = .ok (true, v)) : Spec.encode t v = bs := by
  rw [← serializeBytes_eq_encode t hw]
  exact serializeBytes_deserialize t hw hb old v bs hl h

example : Spec.wf (Objects.signedBeaconBlock mainnet) = true ∧ Spec.wholeBytes (Objects.signedBeaconBlock mainnet) = true := by
  decide +kernel

/-- All classes but `BeaconState` are covered by `C06_canonical`. -/
theorem C06_covered : ∀ p ∈ [mainnet, minimal], ∀ x ∈ Objects.all p, x.1 ≠ "BeaconState" → Spec.wholeBytes x.2 = true := by
  decide +kernel

/-- **C41** A byte string (of exact length for fixed-size types) is accepted if and only if it is the encoding of some value. -/
theorem C41_accepted (t : Ty) (hw : Spec.wf t = true) (hb : Spec.wholeBytes t = true) (old : t.denote) (bs : List Byte)
    (hl : t.sszSize ≠ 0 → bs.length = t.sszSize) (hs : bs.length < 2 ^ 32) :
    (∃ v, deserialize t old bs = .ok (true, v)) ↔ ∃ v, Spec.encode t v = bs := by
  constructor
  · rintro ⟨v, h⟩
    exact ⟨v, C06_canonical t hw hb old v bs hl h⟩
  · rintro ⟨v, rfl⟩
    refine ⟨v, ?_⟩
    rw [← serializeBytes_eq_encode t hw] at hs ⊢
    exact deserialize_serializeBytes t hw v old hs

example : Spec.wf Objects.validator = true ∧ Spec.wholeBytes Objects.validator = true ∧
    (List.replicate 121 1#8).length = Objects.validator.sszSize := by decide +kernel

/-! ## C07, C08 -/

/-- **C07** Decoding a type without bit lists always terminates with true or false, without any read outside the range and without undefined
behaviour. -/
theorem C07_safe (t : Ty) (hw : Spec.wf t = true) (hb : Spec.noBitlist t = true) (old : t.denote) (bs : List Byte) :
    ∃ b v, deserialize t old bs = .ok (b, v) := by
  rcases deserialize_okOr t hw old bs with ⟨⟨b, v⟩, h⟩ | ⟨_, h⟩
  · exact ⟨b, v, h⟩
  · rw [hb] at h; cases h

example : Spec.wf (Objects.attesterSlashing mainnet) = true ∧ Spec.noBitlist (Objects.attesterSlashing mainnet) = true := by decide +kernel

/-- The classes with a bit list somewhere inside; `C07_safe` covers all others. -/
theorem C07_covered : ∀ p ∈ [mainnet, minimal], ∀ x ∈ Objects.all p, Spec.noBitlist x.2 = false ↔
    x.1 ∈ ["PendingAttestation", "Attestation", "BeaconBlockBody", "BeaconBlock", "SignedBeaconBlock", "BeaconState"] := by
  decide +kernel

/-- **C08**, what holds: decoding a bit list has undefined behaviour exactly on the empty string and on strings that end in a zero byte, and
returns true on all others; it never throws. Missing: those inputs should be rejected, see `C08_not_rejected`. -/
theorem C08_bitlist_partial (limit : Nat) (old : (Ty.bitlist limit).denote) (bs : List Byte) :
    (deserialize (.bitlist limit) old bs = .ub ↔ bs = [] ∨ bs.getLast? = some 0#8) ∧
    ((∃ v, deserialize (.bitlist limit) old bs = .ok (true, v)) ↔ ∃ b, bs.getLast? = some b ∧ b ≠ 0#8) := by
  rw [deserialize]
  by_cases hne : bs = []
  · subst hne; simp [bitlistDeserialize_nil]
  · by_cases hl : bs.getLast hne = 0#8
    · rw [bitlistDeserialize_last_zero bs hne hl]
      simp [List.getLast?_eq_some_getLast hne, hl]
    · rw [bitlistDeserialize_ok bs hne hl]
      simp [List.getLast?_eq_some_getLast hne, hl, hne]

/-- **C08**, for every type: decoding has undefined behaviour only if the type contains a bit list, and it never throws. -/
theorem C08_only_bitlists_partial (t : Ty) (hw : Spec.wf t = true) (old : t.denote) (bs : List Byte) :
    (∃ b v, deserialize t old bs = .ok (b, v)) ∨ deserialize t old bs = .ub ∧ Spec.noBitlist t = false := by
  rcases deserialize_okOr t hw old bs with ⟨⟨b, v⟩, h⟩ | h
  · exact Or.inl ⟨b, v, h⟩
  · exact Or.inr h

example : Spec.wf (Objects.beaconState mainnet) = true ∧ Spec.noBitlist (Objects.beaconState mainnet) = false := by decide +kernel

/-- The encoding of an attestation with the given bytes in place of its bit list. -/
def attestationBytes (bits : List Byte) : List Byte :=
  (Spec.encode (Objects.attestation mainnet) (Samples.attestation [])).take 228 ++ bits

set_option maxRecDepth 100000 in
/-- **C08**, negation: malformed bit lists are not rejected: undefined behaviour, by themselves and inside an attestation (offset table and
all other fields well-formed). -/
theorem C08_not_rejected :
    (∀ old, deserialize (.bitlist 2048) old [] = .ub) ∧ (∀ old, deserialize (.bitlist 2048) old [5#8, 0#8] = .ub) ∧
    deserialize (Objects.attestation mainnet) (Objects.attestation mainnet).dflt (attestationBytes []) = .ub ∧
    deserialize (Objects.attestation mainnet) (Objects.attestation mainnet).dflt (attestationBytes [5#8, 0#8]) = .ub :=
  ⟨fun _ => rfl, fun _ => rfl, rfl, rfl⟩

set_option maxRecDepth 100000 in
-- with a proper bit list the same bytes are accepted
example : deserialize (Objects.attestation mainnet) (Objects.attestation mainnet).dflt (attestationBytes [5#8, 1#8]) =
    .ok (true, Samples.attestation [true, false, true, false, false, false, false, false]) := rfl

/-! ## C11 -/

/-- **C11**, what holds: every fixed-size type that is not a container accepts only strings of its declared size. Missing: containers, see
`C11_trailing_bytes`; for them `C11_container_partial`. -/
theorem C11_exact_partial (t : Ty) (ht : Spec.isVariable t = false) (hc : ∀ s e ps, t ≠ .container s e ps) (old v : t.denote) (bs : List Byte)
    (h : deserialize t old bs = .ok (true, v)) : bs.length = t.sszSize := by
  cases t with
  | uint64 => rw [deserialize] at h; split at h <;> simp_all [Ty.sszSize]
  | boolean => rw [deserialize] at h; split at h <;> simp_all [Ty.sszSize]
  | bytes n => rw [deserialize] at h; split at h <;> simp_all [Ty.sszSize]
  | bitvector n =>
    rw [deserialize, bitvectorDeserialize] at h
    split at h
    · simp at h
    · rename_i hl
      simpa [Ty.sszSize] using hl
  | bitlist => simp [Spec.isVariable] at ht
  | vector t n =>
    rw [deserialize] at h
    split at h
    · simp at h
    · rename_i hl
      simpa [Ty.sszSize] using hl
  | listF => simp [Spec.isVariable] at ht
  | listV => simp [Spec.isVariable] at ht
  | container s e ps => exact absurd rfl (hc s e ps)

example : Spec.isVariable (.vector Objects.root 33) = false ∧
    deserialize (.vector .boolean 2) ⟨[false, false], rfl⟩ [1#8, 0#8] = .ok (true, ⟨[true, false], rfl⟩) := ⟨by decide, rfl⟩

/-- **C11**, containers: at least the declared size is needed. -/
theorem C11_container_partial (s : Nat) (e : Bool) (ps : Parts) (hw : Spec.wf (.container s e ps) = true) (old v : ps.denote)
    (bs : List Byte) (h : deserialize (.container s e ps) old bs = .ok (true, v)) : Spec.fixedSizeParts ps ≤ bs.length := by
  simp only [Spec.wf, Bool.and_eq_true, decide_eq_true_eq] at hw
  obtain ⟨⟨⟨hw, h1⟩, h2⟩, h3⟩ := hw
  rw [deserialize, computeFixedLength_eq ps hw, BitVec.zero_add, Out.bind_eq_ok] at h
  obtain ⟨⟨b, pv, w⟩, h, hr⟩ := h
  simp only [Out.ok.injEq, Prod.mk.injEq] at hr
  obtain ⟨rfl, rfl⟩ := hr
  have := (offsets_decode ps hw old w bs (Spec.fixedSizeParts ps) 0 0#32 (p := .boolean) false pv (fun _ => .ub) h1 h2 h).1
  omega

example : deserialize Objects.fork Objects.fork.dflt (List.replicate 16 1#8) =
    .ok (true, (⟨[1#8, 1#8, 1#8, 1#8], rfl⟩, ⟨[1#8, 1#8, 1#8, 1#8], rfl⟩, 0x0101010101010101#64, ())) := rfl

/-- **C11**, negation: every fixed-size container accepts its encodings followed by arbitrary bytes, and ignores them. -/
theorem C11_trailing_bytes (s : Nat) (e : Bool) (ps : Parts) (hw : Spec.wf (.container s e ps) = true) (hf : Spec.anyVariable ps = false)
    (v old : ps.denote) (extra : List Byte) :
    deserialize (.container s e ps) old (Spec.encode (.container s e ps) v ++ extra) = .ok (true, v) := by
  have hw' := hw
  simp only [Spec.wf, Bool.and_eq_true, decide_eq_true_eq] at hw'
  obtain ⟨⟨⟨hwp, h1⟩, h2⟩, h3⟩ := hw'
  have hfl := fixedLenL_partsL ps hwp v
  have htl := tailsL_partsL_nil ps hwp hf v
  have hsmall : ∀ x ∈ partsL ps v, x.1 = false := partsL_fixed ps hwp hf v
  have hlen : (serializeBytes (.container s e ps) v).length < 2 ^ 32 := by
    rw [serializeBytes_container s e ps hw, List.length_append, length_headsL, hfl, htl]; simpa using h2
  have h := deserialize_assemble s e ps hw v old (partsL ps v) extra (partsOK_partsL ps hwp v old (by rw [hfl, htl]; simpa using h2)) hfl (by rw [hfl, htl]; simpa using h2) (Or.inr hsmall)
  rw [← serializeBytes_eq_encode _ hw, serializeBytes_container s e ps hw]
  rwa [List.append_assoc]

example : Spec.wf Objects.fork = true ∧ Spec.isVariable Objects.fork = false ∧
    deserialize Objects.fork Objects.fork.dflt (Spec.encode Objects.fork Samples.fork ++ [7#8, 7#8]) = .ok (true, Samples.fork) :=
  ⟨by decide +kernel, by decide +kernel, rfl⟩

/-! ## C12 -/

/-- **C12**, what holds: the number of elements accepted is determined, hence bounded, by the length of the input. Missing: the declared limit
is not enforced, see `C12_limits_not_enforced`. -/
theorem C12_bounded_by_input_partial (t : Ty) (hw : Spec.wf t = true) (limit : Nat) :
    (∀ (old v : List t.denote) bs, Spec.isVariable t = false → deserialize (.listF t limit) old bs = .ok (true, v) →
      v.length * t.sszSize = bs.length) ∧
    (∀ (old v : List t.denote) bs, Spec.isVariable t = true → deserialize (.listV t limit) old bs = .ok (true, v) → 4 * v.length ≤ bs.length) ∧
    (∀ (old v : List Bool) bs, deserialize (.bitlist limit) old bs = .ok (true, v) → v.length < 8 * bs.length) := by
  refine ⟨fun old v bs ht h => ?_, fun old v bs ht h => ?_, fun old v bs h => ?_⟩
  · have hsz := (sszSize_spec t hw).2 ht
    rw [deserialize, if_neg (by omega)] at h
    split at h
    · cases h
    · have := listFLoop_length _ _ _ _ _ h
      simpa using this
  · rw [deserialize] at h
    by_cases hne : bs = []
    · subst hne
      rw [listVDeserialize, if_pos (by rfl)] at h
      simp only [Out.ok.injEq, Prod.mk.injEq, true_and] at h
      simp [← h]
    · obtain ⟨h1, h2, h3, h4⟩ := listVDeserialize_offsets _ bs v hne h
      exact h4 _ (List.mem_of_mem_head? (by rw [h1]; rfl))
  · rw [deserialize] at h
    by_cases hne : bs = []
    · subst hne; cases h
    · by_cases hl : bs.getLast hne = 0#8
      · rw [bitlistDeserialize_last_zero bs hne hl] at h; cases h
      · rw [bitlistDeserialize_ok bs hne hl] at h
        simp only [Out.ok.injEq, Prod.mk.injEq, true_and] at h
        rw [← h, List.length_map, List.length_range, bitlistLen]
        have := log2_lt_8 (bs.getLastD 0#8)
        have := List.length_pos_iff.2 hne
        omega

example : deserialize (.bitlist 1) [] [0xff#8, 1#8] = .ok (true, List.replicate 8 true) := rfl

/-- **C12**, negation: every value, however far over the limits of its lists, whose encoding is below 2^32 bytes is accepted. -/
theorem C12_limits_not_enforced (t : Ty) (hw : Spec.wf t = true) (v old : t.denote) (_ : Spec.withinLimits t v = false)
    (hs : (Spec.encode t v).length < 2 ^ 32) : deserialize t old (Spec.encode t v) = .ok (true, v) := by
  rw [← serializeBytes_eq_encode t hw] at hs ⊢
  exact deserialize_serializeBytes t hw v old hs

-- for every limit there are such values, of each kind of list; and an attestation with 2049 bits
example (limit : Nat) : Spec.withinLimits (.listF .uint64 limit) (List.replicate (limit + 1) 0#64) = false ∧
    Spec.withinLimits (.listV (.bitlist 1) limit) (List.replicate (limit + 1) ([] : List Bool)) = false ∧
    Spec.withinLimits (.bitlist limit) (List.replicate (limit + 1) true) = false := by
  simp [Spec.withinLimits]

example : Spec.withinLimits (Objects.attestation mainnet) (Samples.attestation (List.replicate 2049 true)) = false ∧
    (Spec.encode (Objects.attestation mainnet) (Samples.attestation (List.replicate 2049 true))).length < 2 ^ 32 := by
  decide +kernel

/-! ## C43 -/

/-- **C43** The offsets in an accepted encoding of a container start at the length of the fixed section, do not decrease and do not exceed
the length of the input. -/
theorem C43_container_offsets (s : Nat) (e : Bool) (ps : Parts) (hw : Spec.wf (.container s e ps) = true) (old v : ps.denote)
    (bs : List Byte) (h : deserialize (.container s e ps) old bs = .ok (true, v)) :
    (∀ o ∈ (Spec.offsets ps bs).head?, o = Spec.fixedSizeParts ps) ∧ (Spec.offsets ps bs).Pairwise (· ≤ ·) ∧
      ∀ o ∈ Spec.offsets ps bs, o ≤ bs.length := by
  simp only [Spec.wf, Bool.and_eq_true, decide_eq_true_eq] at hw
  obtain ⟨⟨⟨hw, h1⟩, h2⟩, h3⟩ := hw
  rw [deserialize, computeFixedLength_eq ps hw, BitVec.zero_add, Out.bind_eq_ok] at h
  obtain ⟨⟨b, pv, w⟩, h, hr⟩ := h
  simp only [Out.ok.injEq, Prod.mk.injEq] at hr
  obtain ⟨rfl, rfl⟩ := hr
  obtain ⟨-, e1, -, e2, e3⟩ := offsets_decode ps hw old w bs (Spec.fixedSizeParts ps) 0 0#32 (p := .boolean) false pv (fun _ => .ub) h1 h2 h
  exact ⟨e1 rfl, e2, e3⟩

example : ∃ ps bs, Objects.attesterSlashing mainnet = .container 0 false ps ∧ bs = Spec.encode _ Samples.attesterSlashing ∧
    (∃ v, deserialize (Objects.attesterSlashing mainnet) Samples.attesterSlashing bs = .ok (true, v)) ∧ Spec.offsets ps bs = [8, 260] :=
  ⟨_, _, rfl, rfl, ⟨_, by
    rw [← serializeBytes_eq_encode _ (by decide +kernel)]
    exact deserialize_serializeBytes _ (by decide +kernel) Samples.attesterSlashing _ (by decide +kernel)⟩, by decide +kernel⟩

/-- **C43** for lists of variable-size elements: the first offset says how many elements there are. -/
theorem C43_list_offsets (t : Ty) (limit : Nat) (old v : (Ty.listV t limit).denote) (bs : List Byte) (hne : bs ≠ [])
    (h : deserialize (.listV t limit) old bs = .ok (true, v)) :
    (Spec.listOffsets bs).head? = some (4 * List.length v) ∧ (Spec.listOffsets bs).length = List.length v ∧
      (Spec.listOffsets bs).Pairwise (· ≤ ·) ∧ ∀ o ∈ Spec.listOffsets bs, o ≤ bs.length :=
  listVDeserialize_offsets _ bs v hne h

example : Spec.listOffsets (Spec.encode (.listV (.bitlist 8) 4) [[true], [], [false, true]]) = [12, 13, 14] := by decide +kernel

/-! ## C45 -/

/-- **C45**, what holds: a failed decode of an integer, boolean, byte array or bit vector leaves it unchanged. Missing: containers, vectors and
lists are modified, see `C45_modified`. -/
theorem C45_unchanged_partial (t : Ty) (ht : t = .uint64 ∨ t = .boolean ∨ (∃ n, t = .bytes n) ∨ ∃ n, t = .bitvector n) (old v : t.denote)
    (bs : List Byte) (h : deserialize t old bs = .ok (false, v)) : v = old := by
  rcases ht with rfl | rfl | ⟨n, rfl⟩ | ⟨n, rfl⟩
  · rw [deserialize] at h; split at h <;> simp_all
  · rw [deserialize] at h; split at h <;> try split at h
    all_goals simp_all
  · rw [deserialize] at h; split at h <;> simp_all
  · rw [deserialize, bitvectorDeserialize] at h; split at h <;> simp_all

example : deserialize .boolean true [2#8] = .ok (false, true) := rfl

/-- **C45**, negation: a failed decode of a `Fork` overwrites its first field; a failed decode of a list clears it; a failed decode of a vector
overwrites its first elements. -/
theorem C45_modified :
    (∃ v, deserialize Objects.fork Samples.fork [9#8, 9#8, 9#8, 9#8] = .ok (false, v) ∧ v.1.1 ≠ Samples.fork.1.1) ∧
    (∀ (old : List (BitVec 64)) (b : Byte), deserialize (.listF .uint64 10) old [b] = .ok (false, [])) ∧
    deserialize (.vector .boolean 2) ⟨[false, false], rfl⟩ [1#8, 2#8] = .ok (false, ⟨[true, false], rfl⟩) :=
  ⟨⟨_, rfl, by decide⟩, fun _ _ => rfl, rfl⟩

end Mammon
