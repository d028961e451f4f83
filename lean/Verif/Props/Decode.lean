import Verif.Proofs.Decode
import Verif.Props.Classes
/-!
# What decoding does with every byte string: C60, and the rest of C08
-/

namespace Mammon

/-- **C60** For every type, every byte string and every previous contents, `deserialize` ends as the decoder over unbounded numbers says: true with
the value, false, or undefined behaviour. -/
theorem C60_exact (t : Ty) (hw : Spec.wf t = true) (old : t.denote) (bs : List Byte) :
    match Spec.decode t bs with
    | .accepted v => deserialize t old bs = .ok (true, v)
    | .rejected => ∃ w, deserialize t old bs = .ok (false, w)
    | .undefined => deserialize t old bs = .ub := by
  have h := deserialize_decode t hw old bs
  cases hd : Spec.decode t bs <;> rw [hd] at h <;> exact h

set_option maxRecDepth 100000 in
-- an attestation is accepted, cut short it is rejected, and with a zero byte at the end undefined
example : Spec.wf (Objects.attestation mainnet) = true ∧
    Spec.decode (Objects.attestation mainnet) (attestationBytes [5#8, 1#8]) =
      .accepted (Samples.attestation [true, false, true, false, false, false, false, false]) ∧
    Spec.decode (Objects.attestation mainnet) ((attestationBytes [5#8, 1#8]).take 100) = .rejected ∧
    Spec.decode (Objects.attestation mainnet) (attestationBytes [5#8, 0#8]) = .undefined := ⟨by decide +kernel, rfl, rfl, rfl⟩

/-- **C60**, for every class of the repository. -/
theorem C60_classes (t : Ty) (ht : InRepo t) (old : t.denote) (bs : List Byte) :
    match Spec.decode t bs with
    | .accepted v => deserialize t old bs = .ok (true, v)
    | .rejected => ∃ w, deserialize t old bs = .ok (false, w)
    | .undefined => deserialize t old bs = .ub := C60_exact t ht.wf old bs

example : InRepo (Objects.attestation mainnet) := inRepo_attestation

/-- **C60** The decoder is the inverse of the encoding of the specification: it takes every encoding back to its value, and what it accepts is
the encoding of the value (for types with bit vectors of whole bytes and, for fixed-size types, strings of exact length). -/
theorem C60_inverse (t : Ty) (hw : Spec.wf t = true) (bs : List Byte) (v : t.denote) (hs : bs.length < 2 ^ 32) :
    (Spec.encode t v = bs → Spec.decode t bs = .accepted v) ∧
    (Spec.wholeBytes t = true → (t.sszSize ≠ 0 → bs.length = t.sszSize) → Spec.decode t bs = .accepted v → Spec.encode t v = bs) := by
  have hm := deserialize_decode t hw t.dflt bs
  constructor
  · rintro rfl
    have h : deserialize t t.dflt (Spec.encode t v) = .ok (true, v) := by
      rw [← serializeBytes_eq_encode t hw] at hs ⊢
      exact deserialize_serializeBytes t hw v t.dflt hs
    rw [h] at hm
    revert hm
    cases Spec.decode t (Spec.encode t v) with
    | accepted w =>
      intro hm
      have : Out.ok (true, v) = .ok (true, w) := hm
      simp only [Out.ok.injEq, Prod.mk.injEq, true_and] at this
      rw [this]
    | rejected => rintro ⟨w, hm⟩; simp at hm
    | undefined => intro hm; cases (show Out.ok (true, v) = .ub from hm)
  · intro hb hl h
    rw [h] at hm
    exact C06_canonical t hw hb t.dflt v bs hl hm

set_option maxRecDepth 100000 in
example : Spec.wf (Objects.attestation mainnet) = true ∧ Spec.wholeBytes (Objects.attestation mainnet) = true ∧
    (Spec.encode (Objects.attestation mainnet) (Samples.attestation [true, false, true])).length < 2 ^ 32 := by decide +kernel

/-- The exact outcome of decoding a container of 4 + `n` fixed bytes that begins with a bit list. -/
theorem bitlist_first_outcome (s : Nat) (e : Bool) (n : String) (limit : Nat) (ps : Parts) (hps : anyBytesParts ps = true)
    (hw : Spec.wf (.container s e (.cons n (.bitlist limit) ps)) = true) (old : (Ty.container s e (.cons n (.bitlist limit) ps)).denote)
    (bs : List Byte) (fl : Nat) (hfl : fl = 4 + Spec.fixedSizeParts ps) :
    (deserialize (.container s e (.cons n (.bitlist limit) ps)) old bs = .ub ↔
      Spec.readOffset bs 0 = fl ∧ fl ≤ bs.length ∧ (bs.length = fl ∨ bs.getLast? = some 0#8)) ∧
    ((∃ v, deserialize (.container s e (.cons n (.bitlist limit) ps)) old bs = .ok (true, v)) ↔
      Spec.readOffset bs 0 = fl ∧ fl < bs.length ∧ bs.getLast? ≠ some 0#8) := by
  subst hfl
  have hd := decode_bitlist_first s e n limit ps hps bs
  have hm := deserialize_decode _ hw old bs
  simp only at hd
  rw [← hd.1, ← hd.2]
  revert hm
  generalize Spec.decode (.container s e (.cons n (.bitlist limit) ps)) bs = d
  generalize deserialize (.container s e (.cons n (.bitlist limit) ps)) old bs = x
  intro hm
  cases d with
  | accepted v => rw [show x = .ok (true, v) from hm]; simp
  | rejected => obtain ⟨w, rfl⟩ := hm; simp
  | undefined => rw [show x = .ub from hm]; simp

/-- **C08**, for attestations: undefined behaviour exactly on the strings of at least 228 bytes with the right offset that end there or in a zero
byte; accepted exactly if longer, with the right offset and another last byte. Missing: the former should be rejected, see
`C08_not_rejected`. -/
theorem C08_attestation_partial (p : Preset) (old : (Objects.attestation p).denote) (bs : List Byte) :
    (deserialize (Objects.attestation p) old bs = .ub ↔
      Spec.readOffset bs 0 = 228 ∧ 228 ≤ bs.length ∧ (bs.length = 228 ∨ bs.getLast? = some 0#8)) ∧
    ((∃ v, deserialize (Objects.attestation p) old bs = .ok (true, v)) ↔
      Spec.readOffset bs 0 = 228 ∧ 228 < bs.length ∧ bs.getLast? ≠ some 0#8) :=
  bitlist_first_outcome _ _ _ _ _ (by decide +kernel) rfl old bs 228 (by decide +kernel)

set_option maxRecDepth 100000 in
example : Spec.readOffset (attestationBytes [5#8, 0#8]) 0 = 228 ∧ (attestationBytes [5#8, 0#8]).length = 230 := by decide +kernel

/-- **C08**, for pending attestations, likewise with 148 bytes. -/
theorem C08_pending_partial (p : Preset) (old : (Objects.pendingAttestation p).denote) (bs : List Byte) :
    (deserialize (Objects.pendingAttestation p) old bs = .ub ↔
      Spec.readOffset bs 0 = 148 ∧ 148 ≤ bs.length ∧ (bs.length = 148 ∨ bs.getLast? = some 0#8)) ∧
    ((∃ v, deserialize (Objects.pendingAttestation p) old bs = .ok (true, v)) ↔
      Spec.readOffset bs 0 = 148 ∧ 148 < bs.length ∧ bs.getLast? ≠ some 0#8) :=
  bitlist_first_outcome _ _ _ _ _ (by decide +kernel) rfl old bs 148 (by decide +kernel)

end Mammon
