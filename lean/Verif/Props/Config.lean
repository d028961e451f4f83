import Verif.Model.Config
import Verif.Model.Source
import Verif.Spec.Config
import Verif.Props.Helpers
/-!
# C62: the constants of the configurations are those of the specification
-/

namespace Mammon
open Config

/-- The constant of the code is the value `v` of the specification: the number itself, or the bytes that the digits denote. -/
def Denotes (x : Out Config.Value) (v : Spec.Config.Value) : Prop :=
  match v with
  | .number n => x = .ok (.int n)
  | .digits s => x = .ok (.bytes ((Spec.Config.bytesOf s).map (BitVec.ofNat 8)))

instance (x : Out Config.Value) (v : Spec.Config.Value) : Decidable (Denotes x v) := by
  unfold Denotes; split <;> infer_instance

/-- **C62** As far as it is true: in both configurations every constant of the specification is declared exactly once, and has the value that the
specification gives, except that of `GENESIS_FORK_VERSION` in the minimal configuration. -/
theorem C62_constants_partial : ∀ minimal : Bool, ∀ r ∈ Spec.Config.table,
    ((build minimal).filter fun d => d.name == r.name).length = 1 ∧
    ((minimal = true ∧ r.name = "GENESIS_FORK_VERSION") ∨ ∃ x, lookup (build minimal) r.name = some x ∧ Denotes x (r.value minimal)) := by
  have h : ∀ minimal : Bool, ∀ r ∈ Spec.Config.table,
      ((build minimal).filter fun d => d.name == r.name).length = 1 ∧
      ((minimal = true ∧ r.name = "GENESIS_FORK_VERSION") ∨ ∃ x ∈ lookup (build minimal) r.name, Denotes x (r.value minimal)) := by decide +kernel
  exact fun m r hr => ⟨(h m r hr).1, (h m r hr).2⟩

example : Spec.Config.two "SLOTS_PER_EPOCH" 32 8 ∈ Spec.Config.table ∧ lookup (build true) "SLOTS_PER_EPOCH" = some (.ok (.int 8)) ∧
    lookup (build false) "SLOTS_PER_EPOCH" = some (.ok (.int 32)) := by
  refine ⟨by simp [Spec.Config.table, Spec.Config.presets, Spec.Config.two], ?_, ?_⟩ <;> decide +kernel

/-- **C62** The exception: the specification's version of the minimal configuration is `00 00 00 01`, the constant of the code is `01 00 00 00`. -/
theorem C62_fork_version_reversed :
    lookup (build true) "GENESIS_FORK_VERSION" = some (.ok (.bytes [1#8, 0#8, 0#8, 0#8])) ∧
    ∃ r ∈ Spec.Config.table, r.name = "GENESIS_FORK_VERSION" ∧ r.minimal = .digits "00000001" ∧
      Denotes (.ok (.bytes [0#8, 0#8, 0#8, 1#8])) (r.value true) ∧ ¬ Denotes (.ok (.bytes [1#8, 0#8, 0#8, 0#8])) (r.value true) := by
  refine ⟨by decide +kernel, ⟨"GENESIS_FORK_VERSION", .digits "00000000", .digits "00000001"⟩, ?_, rfl, rfl, ?_, ?_⟩
  · simp [Spec.Config.table, Spec.Config.configs]
  · decide +kernel
  · decide +kernel

/-- **C62** Why: a version written as a hexadecimal number of eight digits comes out with its bytes in reverse order, so it is the version of the
specification exactly if the four bytes read the same backwards. -/
theorem C62_versions (name : String) (a b c d : Byte) :
    (⟨name, .bytes 4, .hex (((a.toNat * 256 + b.toNat) * 256 + c.toNat) * 256 + d.toNat)⟩ : Decl).value = .ok (.bytes [d, c, b, a]) ∧
    ([d, c, b, a] = [a, b, c, d] ↔ a = d ∧ b = c) := by
  have ha := a.isLt; have hb := b.isLt; have hc := c.isLt; have hd := d.isLt
  refine ⟨?_, ?_⟩
  · have hn : ((a.toNat * 256 + b.toNat) * 256 + c.toNat) * 256 + d.toNat < 2 ^ 32 := by omega
    simp only [Decl.value, ofLiteral, literalSize, if_pos hn, bytesFromInt, Nat.le_refl, if_true, Nat.sub_self, List.replicate_zero,
      List.append_nil, leBytes, Out.map, Out.ok.injEq, Value.bytes.injEq, List.cons.injEq, and_true]
    refine ⟨?_, ?_, ?_, ?_⟩ <;> apply BitVec.eq_of_toNat_eq <;> rw [BitVec.toNat_ofNat] <;> omega
  · simp only [List.cons.injEq, and_true]
    exact ⟨fun h => ⟨h.2.2.2, h.2.2.1⟩, fun h => ⟨h.1.symm, h.2.symm, h.2, h.1⟩⟩

example : (⟨"GENESIS_FORK_VERSION", .bytes 4, .hex (((0x01 * 256 + 0x02) * 256 + 0x03) * 256 + 0x04)⟩ : Decl).value =
    .ok (.bytes [4#8, 3#8, 2#8, 1#8]) := (C62_versions _ 1#8 2#8 3#8 4#8).1

/-- **C62** The code declares no constant besides those of the specification, except one of a later fork in the mainnet configuration. -/
theorem C62_no_other : ∀ minimal : Bool, ∀ d ∈ build minimal,
    (∃ r ∈ Spec.Config.table, r.name = d.name) ∨ (minimal = false ∧ d.name = "MAX_BYTES_PER_TRANSACTION") := by decide +kernel

/-- The preset that the other theorems are about, of the configuration. -/
def presetOf (minimal : Bool) : Preset := if minimal then Mammon.minimal else mainnet

/-- **C62** The arithmetic on the constants in the declarations of the classes, done by the compiler in `int`, `unsigned int` and
`unsigned long long`, neither overflows nor wraps around: each length, limit and size is the product or sum that is written. -/
theorem C62_expressions : ∀ minimal : Bool, ∀ c ∈ Source.all, ∀ e ∈ classExprs c,
    ∃ t n, eval (build minimal) e = .ok (t, n) ∧ e.eval (presetOf minimal) = some n := by
  have h : ∀ minimal : Bool, ∀ c ∈ Source.all, ∀ e ∈ classExprs c,
      ∃ n ∈ e.eval (presetOf minimal), eval (build minimal) e = .ok (.int, n) ∨ eval (build minimal) e = .ok (.uint, n) ∨
        eval (build minimal) e = .ok (.uint64, n) := by decide +kernel
  intro m c hc e he
  obtain ⟨n, hn, h | h | h⟩ := h m c hc e he
  · exact ⟨_, n, h, hn⟩
  · exact ⟨_, n, h, hn⟩
  · exact ⟨_, n, h, hn⟩

example : Source.CExpr.mul (.const "MAX_ATTESTATIONS") (.const "SLOTS_PER_EPOCH") ∈ classExprs Source.beaconState ∧
    eval (build true) (.mul (.const "MAX_ATTESTATIONS") (.const "SLOTS_PER_EPOCH")) = .ok (.uint, 1024) := by decide +kernel

/-- The product would wrap around for larger constants: the arithmetic is that of the machine. -/
example : eval [⟨"A", .uint, .dec 65536⟩] (.mul (.const "A") (.const "A")) = .ok (.uint, 0) := by decide +kernel

end Mammon
