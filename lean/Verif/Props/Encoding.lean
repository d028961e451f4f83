import Verif.Proofs.Offsets
import Verif.Props.Samples
import Verif.Spec.Schema
/-!
# Properties of serialization: C01, C02, C03, C40, C42, C44
-/

namespace Mammon

/-- The classes of the repository, in both presets, are legal types: the theorems below apply to all of them. -/
theorem objects_wf : ∀ p ∈ [mainnet, minimal], ∀ x ∈ Objects.all p, Spec.wf x.2 = true := by decide +kernel

/-- **C01** Round trip: deserializing the serialization of `v` into any object gives `v`. -/
theorem C01_round_trip (t : Ty) (hw : Spec.wf t = true) (v old : t.denote) (hb : Spec.bitlistsShort t v = true)
    (hs : (Spec.encode t v).length < 2 ^ 32) :
    ∃ bs, serialize t v = .ok bs ∧ deserialize t old bs = .ok (true, v) := by
  refine ⟨_, serialize_of_short hb, deserialize_serializeBytes t hw v old ?_⟩
  rwa [serializeBytes_eq_encode t hw]

example : Spec.wf (Objects.attestation mainnet) = true ∧
    Spec.bitlistsShort (Objects.attestation mainnet) (Samples.attestation [true, false, true]) = true ∧
    (Spec.encode (Objects.attestation mainnet) (Samples.attestation [true, false, true])).length < 2 ^ 32 := by
  decide +kernel

/-- The restriction on bit lists in `C01_round_trip` is needed: `serialize` has undefined behaviour beyond it. -/
theorem C01_serialize_ub_iff (t : Ty) (v : t.denote) : serialize t v = .ub ↔ Spec.bitlistsShort t v = false := by
  constructor
  · intro h
    cases hb : Spec.bitlistsShort t v
    · rfl
    · rw [serialize_of_short hb] at h; cases h
  · exact serialize_of_long

example : Spec.bitlistsShort (.bitlist 2048) (List.replicate (2 ^ 31) true) = false := by
  rw [Spec.bitlistsShort, List.length_replicate]; decide

/-- **C02** The bytes are the SSZ encoding of the specification. (For encodings of 2^32 bytes and more `Spec.uintLE 4` truncates the
offsets; the specification has no encoding for such values.) -/
theorem C02_encoding (t : Ty) (hw : Spec.wf t = true) (v : t.denote) (hb : Spec.bitlistsShort t v = true) :
    serialize t v = .ok (Spec.encode t v) := by
  rw [serialize_of_short hb, serializeBytes_eq_encode t hw]

example : Spec.wf (Objects.attesterSlashing mainnet) = true ∧
    Spec.bitlistsShort (Objects.attesterSlashing mainnet) Samples.attesterSlashing = true ∧
    (Spec.encode (Objects.attesterSlashing mainnet) Samples.attesterSlashing).length = 8 + (228 + 24) + (228 + 8) := by
  decide +kernel

/-- **C03** A nonzero `get_ssz_size()` is the length of every encoding. -/
theorem C03_fixed_sizes (t : Ty) (hw : Spec.wf t = true) (h : t.sszSize ≠ 0) (v : t.denote) :
    ∃ bs, serialize t v = .ok bs ∧ bs.length = t.sszSize := by
  have hv : Spec.isVariable t = false := by
    cases hv : Spec.isVariable t
    · rfl
    · exact absurd ((sszSize_eq_zero_iff hw).2 hv) h
  refine ⟨_, serialize_of_short (short_of_fixed t hw hv v), ?_⟩
  rw [length_serializeBytes t hw hv, ((sszSize_spec t hw).2 hv).1]

example : Spec.wf Objects.validator = true ∧ Objects.validator.sszSize = 121 := by decide +kernel

/-- **C03** A type reports the size 0 only if it has two values with encodings of different lengths. -/
theorem C03_variable_sizes (t : Ty) (hw : Spec.wf t = true) (h : t.sszSize = 0) :
    ∃ v w bs cs, serialize t v = .ok bs ∧ serialize t w = .ok cs ∧ bs.length ≠ cs.length := by
  obtain ⟨v, w, h1, h2, h3⟩ := exists_lengths t hw ((sszSize_eq_zero_iff hw).1 h)
  exact ⟨v, w, _, _, serialize_of_short h1, serialize_of_short h2, h3⟩

example : Spec.wf (Objects.beaconState mainnet) = true ∧ (Objects.beaconState mainnet).sszSize = 0 := by decide +kernel

/-- **C40** Distinct values have distinct encodings. -/
theorem C40_injective (t : Ty) (hw : Spec.wf t = true) (v w : t.denote) (bs : List Byte) (hv : serialize t v = .ok bs)
    (hs : bs.length < 2 ^ 32) (h : serialize t w = .ok bs) : v = w := by
  have key : ∀ x : t.denote, serialize t x = .ok bs → serializeBytes t x = bs := by
    intro x hx
    rw [serialize] at hx
    split at hx
    · cases hx
    · exact Out.ok.inj hx
  have h1 := deserialize_serializeBytes t hw v t.dflt (by rw [key v hv]; exact hs)
  have h2 := deserialize_serializeBytes t hw w t.dflt (by rw [key w h]; exact hs)
  rw [key v hv] at h1
  rw [key w h, h1] at h2
  simpa using h2

example : ∃ bs, Spec.wf Objects.fork = true ∧ serialize Objects.fork Samples.fork = .ok bs ∧ bs.length < 2 ^ 32 :=
  ⟨_, by decide +kernel, rfl, by decide +kernel⟩

/-- **C42**, for encodings below 2^32 bytes: the offsets in the encoding of a container point at its variable-size parts, in order. Missing: the
claim fails for longer encodings, see `C42_offsets_wrap`. -/
theorem C42_offsets_partial (s : Nat) (e : Bool) (ps : Parts) (hw : Spec.wf (.container s e ps) = true)
    (v : ps.denote) (bs : List Byte) (h : serialize (.container s e ps) v = .ok bs) (hs : bs.length < 2 ^ 32) :
    List.Forall₂ (fun o b => (bs.drop o).take b.length = b) (Spec.offsets ps bs) (Spec.variableEncodings ps v) := by
  rw [serialize] at h
  split at h
  · cases h
  have h := Out.ok.inj h
  subst h
  have hw' := hw
  simp only [Spec.wf, Bool.and_eq_true] at hw'
  have hfl := fixedLenL_partsL ps hw'.1.1.1 v
  rw [serializeBytes_container s e ps hw] at hs ⊢
  rw [List.length_append, length_headsL, hfl] at hs
  have := offsets_encode ps hw'.1.1.1 v [] [] (Spec.fixedSizeParts ps) (by simp [hfl]) hs
  simp only [List.nil_append, List.length_nil] at this
  rw [Spec.offsets, Spec.variableEncodings, ← partsL_eq_encodeParts ps hw'.1.1.1]
  exact this

example : ∃ bs, serialize (Objects.attesterSlashing mainnet) Samples.attesterSlashing = .ok bs ∧ bs.length < 2 ^ 32 :=
  ⟨_, rfl, by decide +kernel⟩

/-- The parts of `AttesterSlashing`. -/
def slashingParts : Parts := mkParts
  [("attestation_1", Objects.indexedAttestation mainnet), ("attestation_2", Objects.indexedAttestation mainnet)]

/-- An attester slashing whose first attestation lists `n` times the validator 0. -/
def longSlashing (n : Nat) : slashingParts.denote :=
  (Samples.indexedAttestation (List.replicate n 0#64), Samples.indexedAttestation [], ())

theorem flatMap_zeros (n : Nat) : (List.replicate n 0#64).flatMap (fun x => serializeBytes Objects.slot x) = List.replicate (8 * n) 0#8 := by
  induction n with
  | zero => rfl
  | succ n ih =>
    rw [List.replicate_succ, List.flatMap_cons, ih, show 8 * (n + 1) = 8 + 8 * n by omega, ← List.replicate_append_replicate]
    rfl

theorem length_fixedTail : ((serializeBytes Objects.attestationData (Samples.attestationData 6 7)) ++ (Samples.signature 9).1).length = 224 := by
  decide +kernel

theorem serialize_indexed (l : List (BitVec 64)) : serializeBytes (Objects.indexedAttestation mainnet) (Samples.indexedAttestation l) =
    leBytes 4 228 ++ ((serializeBytes Objects.attestationData (Samples.attestationData 6 7)) ++ (Samples.signature 9).1) ++
      l.flatMap (fun x => serializeBytes Objects.slot x) := by
  refine (serializeBytes_container 0 false _ (by decide +kernel) _).trans ?_
  rw [← serializeBytes_listF Objects.slot 2048]
  show (leBytes 4 228 ++ (_ ++ (_ ++ []))) ++ (_ ++ ([] ++ ([] ++ []))) = _
  simp only [List.append_nil, List.append_assoc]
  rfl

theorem longSlashing_short (n : Nat) : Spec.bitlistsShort (.container 0 false slashingParts) (longSlashing n) = true := by
  show ((List.replicate n 0#64).all (fun _ => true) && _ && _) = true
  rw [List.all_eq_true.2 fun _ _ => rfl]
  rfl

theorem partsL_longSlashing (n : Nat) : partsL slashingParts (longSlashing n) =
    [(true, serializeBytes (Objects.indexedAttestation mainnet) (Samples.indexedAttestation (List.replicate n 0#64))),
     (true, serializeBytes (Objects.indexedAttestation mainnet) (Samples.indexedAttestation []))] := rfl

theorem longSlashing_offsets (n : Nat) (h1 : 1 ≤ n) (hoff : (8 + (4 + 224 + 8 * n)) % 256 ^ 4 = 236) :
    ¬ List.Forall₂ (fun o b => ((serializeBytes (.container 0 false slashingParts) (longSlashing n)).drop o).take b.length = b)
      (Spec.offsets slashingParts (serializeBytes (.container 0 false slashingParts) (longSlashing n)))
      (Spec.variableEncodings slashingParts (longSlashing n)) := by
  rw [serializeBytes_container 0 false _ (by decide +kernel), Spec.variableEncodings, ← partsL_eq_encodeParts _ (by decide +kernel),
    partsL_longSlashing, show Spec.fixedSizeParts slashingParts = 8 by decide +kernel, Spec.offsets,
    show Spec.offsetPositions slashingParts 0 = [0, 4] by decide +kernel]
  intro h
  have h := (List.forall₂_cons.1 (List.forall₂_cons.1 h).2).1
  simp only [headsL, tailsL, if_true, List.append_nil, List.append_assoc] at h
  rw [serialize_indexed, serialize_indexed, flatMap_zeros, List.flatMap_nil, List.append_nil] at h
  have hl := length_fixedTail
  generalize serializeBytes Objects.attestationData (Samples.attestationData 6 7) ++ (Samples.signature 9).1 = T at h hl
  have hm : (8 + (leBytes 4 228 ++ T ++ List.replicate (8 * n) 0#8).length) % 256 ^ 4 < 2 ^ 32 := by
    omega
  rw [← leBytes_mod 4 (8 + _), readOffset_append (leBytes 4 8) _ _ 4 (length_leBytes 4 8).symm hm] at h
  simp only [List.length_append, length_leBytes, List.length_replicate, hl] at h
  have h0 := congrArg (·[0]?) h
  rw [List.getElem?_take_of_lt (by omega), List.getElem?_drop, Nat.add_zero] at h0
  rw [hoff] at h0
  rw [List.getElem?_append_right (by simp [length_leBytes])] at h0
  rw [List.getElem?_append_right (by simp [length_leBytes]), List.getElem?_append_left (by
    simp only [List.length_append, length_leBytes, List.length_replicate, hl]; omega), List.getElem?_append_right (by
    simp only [List.length_append, length_leBytes, hl]; omega)] at h0
  simp only [length_leBytes, List.length_append, hl] at h0
  rw [List.getElem?_replicate, if_pos (by omega)] at h0
  revert h0
  simp [leBytes]

/-- **C42**, negation: with 2^29 indices in the first attestation the offset of the second one wraps around and does not point at it. -/
theorem C42_offsets_wrap : Objects.attesterSlashing mainnet = .container 0 false slashingParts ∧
    ∃ (v : slashingParts.denote) (bs : List Byte), serialize (.container 0 false slashingParts) v = .ok bs ∧
      ¬ List.Forall₂ (fun o b => (bs.drop o).take b.length = b) (Spec.offsets slashingParts bs)
        (Spec.variableEncodings slashingParts v) := by
  exact ⟨rfl, longSlashing (2 ^ 29), _, serialize_of_short (longSlashing_short _),
    longSlashing_offsets (2 ^ 29) (by decide) (by decide)⟩

/-- The specification type expression of a type of the model: forgets which list class is used, the declared size and `operator==`. -/
def Ty.schema : Ty → Spec.Schema
  | .uint64 => .uint64
  | .boolean => .boolean
  | .bytes n => .byteVector n
  | .bitvector n => .bitvector n
  | .bitlist l => .bitlist l
  | .vector t n => .vector t.schema n
  | .listF t l => .list t.schema l
  | .listV t l => .list t.schema l
  | .container _ _ ps => schemaParts ps
where
  schemaParts : Parts → Spec.Schema
  | .nil => .nilC
  | .cons n t ps => .fieldC n t.schema (schemaParts ps)

/-- **C44** The containers of the code are the containers of the phase 0 specification, in both presets. -/
theorem C44_schemas :
    (Objects.all mainnet).map (fun x => (x.1, x.2.schema)) = Spec.Schema.containers Spec.Schema.mainnet ∧
    (Objects.all minimal).map (fun x => (x.1, x.2.schema)) = Spec.Schema.containers Spec.Schema.minimal := by
  decide +kernel

/-- **C44** The declared sizes of the fixed-size containers follow from their fields. -/
theorem C44_sizes : ∀ p ∈ [mainnet, minimal], ∀ x ∈ Objects.all p,
    x.2.sszSize = if Spec.isVariable x.2 then 0 else Spec.fixedSize x.2 := by
  decide +kernel

example : (Objects.all mainnet).length = 23 := by decide +kernel

end Mammon
