import Verif.Model.TestDriver
import Verif.Proofs.Denotes
import Verif.Props.Classes
import Verif.Props.Yaml
import Verif.Props.Equality
/-!
# YAML values of the specification and the conformance tests: C51 - C53
-/

namespace Mammon

open Yaml (Node)
open TestDriver

/-! ## C51 -/

/-- **C51** A tree in the form of the `value.yaml` files of the specification is decoded to the value it denotes, whatever was in the object before;
the order of keys and further keys do not matter. -/
theorem C51_decodes (t : Ty) (ht : Spec.wellNamed t = true) (v old : t.denote) (hb : Spec.bitlistsShort t v = true) (node : Node)
    (hn : Spec.Denotes t v node) : Yaml.decode t old (some node) = .ok (true, v) :=
  Yaml.decode_denotes t ht v hb node hn old

/-- **C51** for the classes of the repository. -/
theorem C51_classes (t : Ty) (ht : InRepo t) (v old : t.denote) (hb : Spec.bitlistsShort t v = true) (node : Node)
    (hn : Spec.Denotes t v node) : Yaml.decode t old (some node) = .ok (true, v) :=
  C51_decodes t ht.wellNamed v old hb node hn

/-- **C51** Every value has such a tree. -/
theorem C51_exists (t : Ty) (ht : Spec.wellNamed t = true) (v : t.denote) : ∃ node, Spec.Denotes t v node :=
  Yaml.denotes_exists plainText plainText_isHexText t ht v

/-- **C51** A tree denotes at most one value. -/
theorem C51_unique (t : Ty) (ht : Spec.wellNamed t = true) (v w : t.denote) (hv : Spec.bitlistsShort t v = true)
    (hw : Spec.bitlistsShort t w = true) (node : Node) (h1 : Spec.Denotes t v node) (h2 : Spec.Denotes t w node) : v = w := by
  have h := (C51_decodes t ht v v hv node h1).symm.trans (C51_decodes t ht w v hw node h2)
  exact (Prod.mk.inj (Out.ok.inj h)).2

example : InRepo (Objects.attestation mainnet) ∧
    Spec.bitlistsShort (Objects.attestation mainnet) (Samples.attestation [true, false, true]) = true ∧
    ∃ node, Spec.Denotes (Objects.attestation mainnet) (Samples.attestation [true, false, true]) node :=
  ⟨inRepo_attestation, by decide +kernel, C51_exists _ inRepo_attestation.wellNamed _⟩

-- `{root: 0x.., epoch: 12, extra: ~}` denotes a checkpoint
example : Spec.Denotes Objects.checkpoint (12#64, zeroHash, ()) (.map [(.scalar (Spec.ascii "root"), .scalar (plainText zeroHash.1)),
    (.scalar (Spec.ascii "epoch"), .scalar [0x31#8, 0x32#8]), (.scalar (Spec.ascii "extra"), .null)]) := by
  refine ⟨_, rfl, ⟨[_], _, _, rfl, ?_, ?_⟩, ⟨[], _, _, rfl, by simp, ?_⟩, trivial⟩
  · intro e he h
    rw [List.mem_singleton] at he
    subst he
    exact absurd (Node.scalar.inj h) (by decide +kernel)
  · exact ⟨_, rfl, by decide, by decide +kernel, by decide, by decide⟩
  · exact ⟨_, rfl, plainText_isHexText _⟩

/-! ## C52 -/

/-- The tree of a `roots.yaml` file: a map with the key `root`. -/
def IsRootFile (c : Chunk) (n : Node) : Prop := Spec.Denotes (.container 32 false (.cons "root" (.bytes 32) .nil)) (c, ()) n

theorem readRoot_of_file {c : Chunk} {n : Node} (h : IsRootFile c n) : readRoot n = .ok c := by
  rw [IsRootFile, Spec.Denotes] at h
  obtain ⟨l, rfl, h⟩ := h
  rw [Spec.DenotesParts] at h
  obtain ⟨⟨a, m, b, h1, h2, h3⟩, -⟩ := h
  rw [readRoot, show Yaml.chars "root" = Spec.ascii "root" from rfl, Yaml.subscript_first h1 h2]
  simp only [Out.bind]
  exact (Yaml.asT_iff _ _ _).2 (C51_decodes (.bytes 32) rfl c zeroHash rfl m h3)

/-- **C52** The conformance test of any class passes on every directory that agrees with the specification: `value.yaml` denotes the value, `roots.yaml`
holds its hash tree root and `serialized.ssz_snappy` its encoding. This holds whichever implementation of SHA-256 is used, and whatever the
uninitialised bits of new objects are. -/
theorem C52_passes (f : HashFn) (H : Chunk → Chunk → Chunk) (hf : f.Computes H) (t : Ty) (ht : InRepo t) (old obj v : t.denote)
    (hl : Spec.withinLimits t v = true) (hb : Spec.bitlistsShort t v = true) (hs : (Spec.encode t v).length < 2 ^ 32)
    (value roots : Node) (hv : Spec.Denotes t v value) (hr : IsRootFile (Spec.root sha256Chunks t v) roots) :
    run (opsOf H t old obj) value roots (some (Spec.encode t v)) = .ok ⟨true, true, true⟩ := by
  obtain ⟨bs, h1, h2⟩ := C01_classes t ht v obj hb hs
  have h3 := C02_encoding t ht.wf v hb
  obtain rfl := Out.ok.inj (h1.symm.trans h3)
  rw [run, opsOf]
  simp only
  rw [(Yaml.asT_iff _ value v).2 (C51_classes t ht v old hb value hv), Out.bind, C16_classes f H hf t ht v hl hb, Out.bind, readRoot_of_file hr, Out.bind,
    h3, Out.bind, uncompress, if_neg (by omega), Nat.sub_self]
  simp only [List.replicate_zero, List.append_nil, Out.bind]
  rw [h2]
  simp only [Out.map, C34_reflexive, beq_self_eq_true]

example : ∃ value roots, InRepo (Objects.attestation mainnet) ∧
    Spec.withinLimits (Objects.attestation mainnet) (Samples.attestation [true, false, true]) = true ∧
    Spec.bitlistsShort (Objects.attestation mainnet) (Samples.attestation [true, false, true]) = true ∧
    (Spec.encode (Objects.attestation mainnet) (Samples.attestation [true, false, true])).length < 2 ^ 32 ∧
    Spec.Denotes (Objects.attestation mainnet) (Samples.attestation [true, false, true]) value ∧
    IsRootFile (Spec.root sha256Chunks (Objects.attestation mainnet) (Samples.attestation [true, false, true])) roots := by
  obtain ⟨value, hv⟩ := C51_exists _ inRepo_attestation.wellNamed (Samples.attestation [true, false, true])
  obtain ⟨roots, hr⟩ := C51_exists (.container 32 false (.cons "root" (.bytes 32) .nil)) (by decide +kernel)
    (Spec.root sha256Chunks (Objects.attestation mainnet) (Samples.attestation [true, false, true]), ())
  exact ⟨value, roots, inRepo_attestation, by decide +kernel, by decide +kernel, by decide +kernel, hv, hr⟩

/-! ## C53 -/

/-- **C53** What a passing test says, for any program under test: the root is that of the file, and the serialization is the contents of the file, possibly
followed by zero bytes. -/
theorem C53_meaning {α : Type} (ops : Ops α) (value roots : Node) (raw : Option (List Byte)) (h : run ops value roots raw = .ok ⟨true, true, true⟩) :
    ∃ v root bs k, ops.decode (some value) = .ok (true, v) ∧ readRoot roots = .ok root ∧ ops.hashTreeRoot v = .ok root ∧
      raw = some bs ∧ ops.serialize v = .ok (bs ++ List.replicate k 0#8) := by
  rw [run] at h
  rcases h1 : Yaml.asT ops.decode value with v | e | _ <;> rw [h1] at h <;> try cases h
  simp only [Out.bind] at h
  rcases h2 : ops.hashTreeRoot v with r | e | _ <;> rw [h2] at h <;> try cases h
  simp only at h
  rcases h3 : readRoot roots with r' | e | _ <;> rw [h3] at h <;> try cases h
  simp only at h
  rcases h4 : ops.serialize v with bs | e | _ <;> rw [h4] at h <;> try cases h
  simp only at h
  rcases h5 : uncompress raw bs.length with out | e | _ <;> rw [h5] at h <;> try cases h
  simp only at h
  rcases h6 : ops.deserialize out with obj | e | _ <;> rw [h6] at h <;> try cases h
  simp only [Out.ok.injEq, Checks.mk.injEq, beq_iff_eq] at h
  obtain ⟨rfl, -, rfl⟩ := h
  rw [uncompress.eq_def] at h5
  split at h5
  · cases h5
  · rename_i cs
    split at h5
    · cases h5
    · exact ⟨v, r, cs, _, (Yaml.asT_iff _ _ _).1 h1, rfl, h2, rfl, by rw [h4, ← Out.ok.inj h5]⟩

/-- A program under test whose objects are byte strings: `serialize` appends two zero bytes, `deserialize` and `==` ignore them. -/
def zeroAppending : Ops (List Byte) where
  decode h := .ok (true, match h with | some (.scalar s) => s | _ => [])
  hashTreeRoot _ := .ok zeroHash
  serialize s := .ok (s ++ [0#8, 0#8])
  deserialize bs := .ok (bs.take (bs.length - 2))
  eq a b := a == b

/-- A `roots.yaml` with the root zero. -/
def zeroRootFile : Node := .map [(.scalar (Spec.ascii "root"), .scalar (plainText zeroHash.1))]

theorem readRoot_zeroRootFile : readRoot zeroRootFile = .ok zeroHash :=
  readRoot_of_file ⟨_, rfl, ⟨[], _, _, rfl, by simp, ⟨_, rfl, plainText_isHexText _⟩⟩, trivial⟩

/-- **C53** The comparison of the serializations does not notice zero bytes that a wrong program appends, since the buffer for the contents of the file
has the length of the serialization. -/
theorem C53_trailing_zeros {α : Type} (ops : Ops α) (value roots : Node) (bs : List Byte) (k : Nat) (v obj : α) (root : Chunk)
    (h1 : ops.decode (some value) = .ok (true, v)) (h2 : ops.hashTreeRoot v = .ok root) (h3 : readRoot roots = .ok root)
    (h4 : ops.serialize v = .ok (bs ++ List.replicate k 0#8)) (h5 : ops.deserialize (bs ++ List.replicate k 0#8) = .ok obj) (h6 : ops.eq obj v = true) :
    run ops value roots (some bs) = .ok ⟨true, true, true⟩ := by
  rw [run, (Yaml.asT_iff _ _ _).2 h1, Out.bind, h2, Out.bind, h3, Out.bind, h4, Out.bind, uncompress,
    if_neg (by rw [List.length_append]; omega), Out.bind, List.length_append, List.length_replicate, Nat.add_sub_cancel_left, h5, Out.bind, h6]
  simp

example : run zeroAppending (.scalar [7#8]) zeroRootFile (some [7#8]) = .ok ⟨true, true, true⟩ :=
  C53_trailing_zeros zeroAppending (.scalar [7#8]) zeroRootFile [7#8] 2 [7#8] [7#8] zeroHash rfl rfl readRoot_zeroRootFile rfl rfl rfl

/-- **C53** If the serialization is shorter than the contents of the file, the test does not fail: it writes past the end of its buffer. -/
theorem C53_overflow {α : Type} (ops : Ops α) (value roots : Node) (bs out : List Byte) (v : α) (root computed : Chunk)
    (h1 : ops.decode (some value) = .ok (true, v)) (h2 : ops.hashTreeRoot v = .ok computed) (h3 : readRoot roots = .ok root)
    (h4 : ops.serialize v = .ok out) (h5 : out.length < bs.length) : run ops value roots (some bs) = .ub := by
  rw [run, (Yaml.asT_iff _ _ _).2 h1, Out.bind, h2, Out.bind, h3, Out.bind, h4, Out.bind, uncompress, if_pos h5]
  rfl

example : run { zeroAppending with serialize := fun _ => .ok [] } (.scalar [7#8]) zeroRootFile (some [7#8]) = .ub :=
  C53_overflow { zeroAppending with serialize := fun _ => .ok [] } (.scalar [7#8]) zeroRootFile [7#8] [] [7#8] zeroHash zeroHash rfl rfl readRoot_zeroRootFile
    rfl (by decide)

/-- **C53** For the classes with the inherited `operator==`, the test does not depend on what `deserialize` stores: a program in which `deserialize` does
anything else to the object gets the same results. -/
theorem C53_blind (t : Ty) (ht : ∃ s ps, t = .container s false ps) (ops : Ops t.denote) (heq : ∀ a b, ops.eq a b = eqOp t a b)
    (store : List Byte → t.denote) (value roots : Node) (raw : Option (List Byte)) (c : Checks) (h : run ops value roots raw = .ok c) :
    run { ops with deserialize := fun bs => .ok (store bs) } value roots raw = .ok c := by
  have heq' : ∀ a b, ops.eq a b = true := fun a b => by
    rw [heq]; exact C34_always_true t a b (Or.inr (Or.inr (Or.inr ht)))
  rw [run] at h ⊢
  rcases h1 : Yaml.asT ops.decode value with v | e | _ <;> rw [h1] at h <;> try cases h
  simp only [Out.bind] at h ⊢
  rcases h2 : ops.hashTreeRoot v with r | e | _ <;> rw [h2] at h <;> try cases h
  simp only at h ⊢
  rcases h3 : readRoot roots with r' | e | _ <;> rw [h3] at h <;> try cases h
  simp only at h ⊢
  rcases h4 : ops.serialize v with bs | e | _ <;> rw [h4] at h <;> try cases h
  simp only at h ⊢
  rcases h5 : uncompress raw bs.length with out | e | _ <;> rw [h5] at h <;> try cases h
  simp only at h ⊢
  rcases h6 : ops.deserialize out with obj | e | _ <;> rw [h6] at h <;> try cases h
  simp only [heq']

-- an attestation whose `deserialize` always stores the default object
example (H : Chunk → Chunk → Chunk) (old obj : (Objects.attestation mainnet).denote) : (∃ s ps, Objects.attestation mainnet = .container s false ps) ∧
    ∀ a b, (opsOf H (Objects.attestation mainnet) old obj).eq a b = eqOp (Objects.attestation mainnet) a b := ⟨⟨_, _, rfl⟩, fun _ _ => rfl⟩

/-- **C53** Those are 18 of the 23 classes. -/
theorem C53_blind_classes : ∀ p ∈ [mainnet, minimal], ∀ x ∈ Objects.all p,
    (match x.2 with | .container _ eq _ => eq | _ => true) = false ↔
      x.1 ∉ ["Fork", "BeaconBlockHeader", "VoluntaryExit", "SignedVoluntaryExit", "BeaconState"] := by
  decide +kernel

end Mammon
