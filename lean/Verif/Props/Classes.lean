import Verif.Props.Decoding
import Verif.Props.Hasher
import Verif.Props.Merkle
/-!
# The properties for the classes of the repository

The theorems of the other files are about every legal type. Here they are stated for the 23 container classes of `beacon-chain/`, in both
presets, without any hypothesis on the type, so that they also depend on the member lists and the declared sizes of the classes.
-/

namespace Mammon

/-- `t` is the type of one of the container classes of the repository. -/
def InRepo (t : Ty) : Prop := ∃ p ∈ [mainnet, minimal], ∃ x ∈ Objects.all p, x.2 = t

theorem InRepo.wf {t : Ty} (h : InRepo t) : Spec.wf t = true := by
  obtain ⟨p, hp, x, hx, rfl⟩ := h
  exact objects_wf p hp x hx

theorem InRepo.hashable {t : Ty} (h : InRepo t) : Spec.hashable t = true := by
  obtain ⟨p, hp, x, hx, rfl⟩ := h
  exact C16_covered p hp x hx

theorem inRepo_attestation : InRepo (Objects.attestation mainnet) :=
  ⟨mainnet, by simp, ("Attestation", Objects.attestation mainnet), by simp [Objects.all], rfl⟩

/-- **C01** Round trip for every class. -/
theorem C01_classes (t : Ty) (ht : InRepo t) (v old : t.denote) (hb : Spec.bitlistsShort t v = true)
    (hs : (Spec.encode t v).length < 2 ^ 32) : ∃ bs, serialize t v = .ok bs ∧ deserialize t old bs = .ok (true, v) :=
  C01_round_trip t ht.wf v old hb hs

example : InRepo (Objects.attestation mainnet) ∧
    Spec.bitlistsShort (Objects.attestation mainnet) (Samples.attestation [true, false, true]) = true ∧
    (Spec.encode (Objects.attestation mainnet) (Samples.attestation [true, false, true])).length < 2 ^ 32 :=
  ⟨inRepo_attestation, by decide +kernel⟩

/-- **C02** The encoding of every class is the one of the specification. -/
theorem C02_classes (t : Ty) (ht : InRepo t) (v : t.denote) (hb : Spec.bitlistsShort t v = true) : serialize t v = .ok (Spec.encode t v) :=
  C02_encoding t ht.wf v hb

example : InRepo (Objects.attestation mainnet) ∧
    Spec.bitlistsShort (Objects.attestation mainnet) (Samples.attestation [true, false, true]) = true :=
  ⟨inRepo_attestation, by decide +kernel⟩

/-- **C03** For every class: `get_ssz_size()` is zero if and only if encodings have different lengths; otherwise it is the length of every one. -/
theorem C03_classes (t : Ty) (ht : InRepo t) :
    (t.sszSize ≠ 0 → ∀ v, ∃ bs, serialize t v = .ok bs ∧ bs.length = t.sszSize) ∧
    (t.sszSize = 0 → ∃ v w bs cs, serialize t v = .ok bs ∧ serialize t w = .ok cs ∧ bs.length ≠ cs.length) :=
  ⟨C03_fixed_sizes t ht.wf, C03_variable_sizes t ht.wf⟩

example : InRepo (Objects.attestation mainnet) ∧ (Objects.attestation mainnet).sszSize = 0 := ⟨inRepo_attestation, rfl⟩

/-- **C04** For every class the result of a decoding does not depend on the previous contents of the object. -/
theorem C04_classes (t : Ty) (ht : InRepo t) (old old' : t.denote) (bs : List Byte) :
    (deserialize t old bs = .ub ↔ deserialize t old' bs = .ub) ∧
    ((∃ v, deserialize t old bs = .ok (false, v)) ↔ ∃ v, deserialize t old' bs = .ok (false, v)) ∧
    ∀ v, deserialize t old bs = .ok (true, v) ↔ deserialize t old' bs = .ok (true, v) :=
  C04_independent t ht.wf old old' bs

example : InRepo (Objects.attestation mainnet) := inRepo_attestation

/-- **C05** For every class only the last of a sequence of decodings counts. -/
theorem C05_classes (t : Ty) (ht : InRepo t) (old : t.denote) (history : List (List Byte)) (bs : List Byte) (v x : t.denote)
    (hx : decodeAll t old history = .ok x) (hv : deserialize t x bs = .ok (true, v)) :
    decodeAll t old (history ++ [bs]) = .ok v ∧ deserialize t t.dflt bs = .ok (true, v) :=
  C05_history t ht.wf old history bs v x hx hv

example : InRepo (Objects.attestation mainnet) := inRepo_attestation

/-- **C06** Every class but `BeaconState`: what is accepted re-encodes to the same bytes. -/
theorem C06_classes (p : Preset) (hp : p ∈ [mainnet, minimal]) (x : String × Ty) (hx : x ∈ Objects.all p) (hn : x.1 ≠ "BeaconState")
    (old v : x.2.denote) (bs : List Byte) (hl : x.2.sszSize ≠ 0 → bs.length = x.2.sszSize) (h : deserialize x.2 old bs = .ok (true, v)) :
    Spec.encode x.2 v = bs :=
  C06_canonical x.2 (objects_wf p hp x hx) (C06_covered p hp x hx hn) old v bs hl h

example : ("Attestation", Objects.attestation mainnet) ∈ Objects.all mainnet := by simp [Objects.all]

/-- **C41** Every class but `BeaconState`: exactly the encodings are accepted. -/
theorem C41_classes (p : Preset) (hp : p ∈ [mainnet, minimal]) (x : String × Ty) (hx : x ∈ Objects.all p) (hn : x.1 ≠ "BeaconState")
    (old : x.2.denote) (bs : List Byte) (hl : x.2.sszSize ≠ 0 → bs.length = x.2.sszSize) (hs : bs.length < 2 ^ 32) :
    (∃ v, deserialize x.2 old bs = .ok (true, v)) ↔ ∃ v, Spec.encode x.2 v = bs :=
  C41_accepted x.2 (objects_wf p hp x hx) (C06_covered p hp x hx hn) old bs hl hs

example : ("Attestation", Objects.attestation mainnet) ∈ Objects.all mainnet := by simp [Objects.all]

/-- **C07** The classes without a bit list inside: decoding never has undefined behaviour and never throws. -/
theorem C07_classes (p : Preset) (hp : p ∈ [mainnet, minimal]) (x : String × Ty) (hx : x ∈ Objects.all p)
    (hn : x.1 ∉ ["PendingAttestation", "Attestation", "BeaconBlockBody", "BeaconBlock", "SignedBeaconBlock", "BeaconState"])
    (old : x.2.denote) (bs : List Byte) : ∃ b v, deserialize x.2 old bs = .ok (b, v) := by
  refine C07_safe x.2 (objects_wf p hp x hx) ?_ old bs
  cases h : Spec.noBitlist x.2
  · exact absurd ((C07_covered p hp x hx).1 h) hn
  · rfl

example : ("AttesterSlashing", Objects.attesterSlashing minimal) ∈ Objects.all minimal := by simp [Objects.all]

/-- **C08**, for every class: decoding does not throw, and its only undefined behaviour is that of a bit list inside. -/
theorem C08_classes_partial (t : Ty) (ht : InRepo t) (old : t.denote) (bs : List Byte) :
    (∃ b v, deserialize t old bs = .ok (b, v)) ∨ deserialize t old bs = .ub ∧ Spec.noBitlist t = false :=
  C08_only_bitlists_partial t ht.wf old bs

example : InRepo (Objects.attestation mainnet) := inRepo_attestation

/-- **C40** Distinct values of a class have distinct encodings. -/
theorem C40_classes (t : Ty) (ht : InRepo t) (v w : t.denote) (bs : List Byte) (hv : serialize t v = .ok bs) (hs : bs.length < 2 ^ 32)
    (h : serialize t w = .ok bs) : v = w := C40_injective t ht.wf v w bs hv hs h

example : InRepo (Objects.attestation mainnet) := inRepo_attestation

/-- **C16**, **C26** The root of an object of any class, within its limits, is the one of the specification with SHA-256, whichever
implementation the hasher uses. -/
theorem C16_classes (f : HashFn) (H : Chunk → Chunk → Chunk) (hf : f.Computes H) (t : Ty) (ht : InRepo t) (v : t.denote)
    (hl : Spec.withinLimits t v = true) (hb : Spec.bitlistsShort t v = true) : hashTreeRoot H t v = .ok (Spec.root sha256Chunks t v) :=
  C26_root f H hf t ht.hashable v hl hb

example : InRepo (Objects.attestation mainnet) ∧
    Spec.withinLimits (Objects.attestation mainnet) (Samples.attestation [true, false, true]) = true ∧
    Spec.bitlistsShort (Objects.attestation mainnet) (Samples.attestation [true, false, true]) = true :=
  ⟨inRepo_attestation, by decide +kernel⟩

/-- **C17** Two different objects of a class with the same root exhibit a collision. -/
theorem C17_classes (H : Chunk → Chunk → Chunk) (t : Ty) (ht : InRepo t) (v w : t.denote) (hv : Spec.withinLimits t v = true)
    (hw : Spec.withinLimits t w = true) (hbv : Spec.bitlistsShort t v = true) (hbw : Spec.bitlistsShort t w = true)
    (h : hashTreeRoot H t v = hashTreeRoot H t w) : v = w ∨ Spec.Collision H (Spec.rootHashes H t v) (Spec.rootHashes H t w) :=
  C17_binding H t ht.hashable v w hv hw hbv hbw h

example : InRepo (Objects.attestation mainnet) ∧
    Spec.withinLimits (Objects.attestation mainnet) (Samples.attestation [true, false, true]) = true :=
  ⟨inRepo_attestation, by decide +kernel⟩

end Mammon
