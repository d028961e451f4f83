import Verif.Model.TestTree
import Verif.Props.Programs
/-!
# The loops of the conformance test driver over the file system: C67
-/

namespace Mammon

open TestDriver TestTree Spec.SHA256

/-! ## C67 -/

/-- All three checks succeeded. -/
abbrev allTrue : Checks := ⟨true, true, true⟩

/-- A loop whose rounds all give checks that succeeded. -/
theorem forEach_reported {β : Type} (body : β → Out (List Checks)) (bs : List β) :
    reported (forEach body bs) = .ok true ↔ ∀ b ∈ bs, reported (body b) = .ok true := by
  induction bs with
  | nil => simp [forEach, reported]
  | cons b bs ih =>
    rw [forEach, List.forall_mem_cons, ← ih]
    cases body b with
    | ok c =>
      cases forEach body bs with
      | ok rest =>
        show reported (.ok (c ++ rest)) = _ ↔ _
        simp only [reported, List.all_append, Out.ok.injEq, Bool.and_eq_true]
      | throws e => simp [reported, Out.bind, Out.map]
      | ub => simp [reported, Out.bind, Out.map]
    | throws e => simp [reported, Out.bind]
    | ub => simp [reported, Out.bind]

theorem entriesOf_reported (e : Option Entry) (k : List (String × Entry) → Out (List Checks)) :
    reported ((entriesOf e).bind k) = .ok true ↔ ∃ l, e = some (.dir l) ∧ reported (k l) = .ok true := by
  rcases e with _ | e
  · simp [entriesOf, Out.bind, reported]
  · cases e with
    | file y r => simp [entriesOf, Out.bind, reported]
    | dir l => simp [entriesOf, Out.bind]

theorem reported_single (r : Out Checks) : reported (r.map fun c => [c]) = .ok true ↔ r = .ok allTrue := by
  cases r with
  | ok c => obtain ⟨a, b, d⟩ := c; simp [Out.map, reported, and_assoc]
  | throws e => simp [Out.map, reported]
  | ub => simp [Out.map, reported]

/-- **C67** Exactly when the test of a class succeeds, for any program under test: its directory exists, holds nothing but directories (suites) that hold nothing
but directories (cases), and every case that is not empty passes. -/
theorem C67_succeeds_iff {α : Type} (ops : Ops α) (base : Option Entry) : reported (testSsz ops base) = .ok true ↔
    ∃ suites, base = some (.dir suites) ∧ ∀ p1 ∈ suites, ∃ cases, p1.2 = .dir cases ∧ ∀ p2 ∈ cases, ∃ case, p2.2 = .dir case ∧
      (case ≠ [] → runCase ops case = .ok allTrue) := by
  rw [testSsz, entriesOf_reported]
  simp only [forEach_reported, entriesOf_reported, reported_single, Option.some.injEq]
  refine exists_congr fun suites => and_congr_right fun _ => forall_congr' fun p1 => forall_congr' fun _ => exists_congr fun cases =>
    and_congr_right fun _ => forall_congr' fun p2 => forall_congr' fun _ => exists_congr fun case => and_congr_right fun _ => ?_
  constructor
  · intro h hne
    obtain ⟨e, he⟩ := List.exists_mem_of_ne_nil case hne
    exact h e he
  · intro h e he
    exact h (List.ne_nil_of_mem he)

/-- The three files of a case (beacon-chain/test/test_ssz.cpp:47,50,56). -/
def HasFiles (case : List (String × Entry)) (d : Files) : Prop :=
  (∃ r, lookup case "value.yaml" = some (.file (some d.value) r)) ∧ (∃ r, lookup case "roots.yaml" = some (.file (some d.roots) r)) ∧
    ∃ y, lookup case "serialized.ssz_snappy" = some (.file y d.raw)

theorem runCase_eq {α : Type} (ops : Ops α) (case : List (String × Entry)) (d : Files) (h : HasFiles case d) :
    runCase ops case = run ops d.value d.roots d.raw := by
  obtain ⟨⟨r1, h1⟩, ⟨r2, h2⟩, ⟨y, h3⟩⟩ := h
  rw [runCase, run, loadFile, h1, loadFile, h2, openSnappy, h3]
  rfl

/-- **C67** Whatever the program under test, the checks of a case are made only if its three files are there and the YAML files can be parsed; they depend on
the contents of these files only. -/
theorem C67_files {α : Type} (ops : Ops α) (case : List (String × Entry)) (c : Checks) (h : runCase ops case = .ok c) :
    ∃ d, HasFiles case d ∧ run ops d.value d.roots d.raw = .ok c ∧ ∀ case', HasFiles case' d → runCase ops case' = .ok c := by
  suffices hd : ∃ d, HasFiles case d by
    obtain ⟨d, hd⟩ := hd
    have hr := runCase_eq ops case d hd
    exact ⟨d, hd, hr ▸ h, fun case' h' => by rw [runCase_eq ops case' d h', ← hr, h]⟩
  have hload : ∀ name node, loadFile case name = .ok node → ∃ r, lookup case name = some (.file (some node) r) := by
    intro name node hl
    rw [loadFile] at hl
    split at hl <;> cases hl
    exact ⟨_, by assumption⟩
  rw [runCase] at h
  rcases h1 : loadFile case "value.yaml" with value | e | _ <;> rw [h1] at h <;> simp only [Out.bind] at h <;> try cases h
  rcases h2 : Yaml.asT ops.decode value with v | e | _ <;> rw [h2] at h <;> simp only [Out.bind] at h <;> try cases h
  rcases h3 : ops.hashTreeRoot v with computed | e | _ <;> rw [h3] at h <;> simp only [Out.bind] at h <;> try cases h
  rcases h4 : loadFile case "roots.yaml" with roots | e | _ <;> rw [h4] at h <;> simp only [Out.bind] at h <;> try cases h
  rcases h5 : readRoot roots with root | e | _ <;> rw [h5] at h <;> simp only [Out.bind] at h <;> try cases h
  rcases h6 : ops.serialize v with serialized | e | _ <;> rw [h6] at h <;> simp only [Out.bind] at h <;> try cases h
  rcases h7 : openSnappy case with raw | e | _ <;> rw [h7] at h <;> simp only [Out.bind] at h <;> try cases h
  refine ⟨⟨value, roots, raw⟩, hload _ _ h1, hload _ _ h4, ?_⟩
  rw [openSnappy] at h7
  split at h7 <;> cases h7
  exact ⟨_, by assumption⟩

-- a case without its file of roots is not checked
example : runCase (α := Nat) ⟨fun _ => .ok (true, 0), fun _ => .ok ⟨List.replicate 32 0#8, rfl⟩, fun _ => .ok [], fun _ => .ok 0, fun _ _ => true⟩
    [("value.yaml", .file (some .null) none), ("serialized.ssz_snappy", .file none (some []))] = .throws .yamlBadFile := rfl

theorem lookup_mem {l : List (String × Entry)} {n : String} {e : Entry} (h : lookup l n = some e) : (n, e) ∈ l := by
  rw [lookup, Option.map_eq_some_iff] at h
  obtain ⟨x, h1, rfl⟩ := h
  have h2 := List.find?_some h1
  have h3 := List.mem_of_find?_eq_some h1
  rw [← show x.1 = n by simpa using h2]
  exact h3

theorem three_le {case : List (String × Entry)} {d : Files} (h : HasFiles case d) : 3 ≤ case.length := by
  obtain ⟨⟨r1, h1⟩, ⟨r2, h2⟩, ⟨y, h3⟩⟩ := h
  have h1 := List.mem_map_of_mem (f := Prod.fst) (lookup_mem h1)
  have h2 := List.mem_map_of_mem (f := Prod.fst) (lookup_mem h2)
  have h3 := List.mem_map_of_mem (f := Prod.fst) (lookup_mem h3)
  have h4 : ["value.yaml", "roots.yaml", "serialized.ssz_snappy"] ⊆ case.map Prod.fst := by
    intro x hx
    simp only [List.mem_cons, List.not_mem_nil, or_false] at hx
    rcases hx with rfl | rfl | rfl <;> assumption
  have h5 := List.Nodup.length_le_of_subset (by decide : ["value.yaml", "roots.yaml", "serialized.ssz_snappy"].Nodup) h4
  simpa using h5

/-- **C67** How often the cases are run: once for every file in them. If the test ends (all checks made), the checks are those of the cases in order, each
repeated as often as the case has entries. -/
theorem C67_rounds {α : Type} (ops : Ops α) (suites : List (String × List (String × List (String × Entry)))) (check : List (String × Entry) → Checks)
    (h : ∀ p1 ∈ suites, ∀ p2 ∈ p1.2, runCase ops p2.2 = .ok (check p2.2)) :
    testSsz ops (some (.dir (suites.map fun p1 => (p1.1, .dir (p1.2.map fun p2 => (p2.1, .dir p2.2)))))) =
      .ok (suites.flatMap fun p1 => p1.2.flatMap fun p2 => List.replicate p2.2.length (check p2.2)) := by
  have inner : ∀ (c : Checks) (l : List (String × Entry)),
      forEach (fun _ => (Out.ok c).map fun c => [c]) l = .ok (List.replicate l.length c) := by
    intro c l
    induction l with
    | nil => rfl
    | cons e l ih => rw [forEach, ih]; rfl
  have loop : ∀ {β γ : Type} (body : γ → Out (List Checks)) (g : β → γ) (f : β → List Checks) (l : List β), (∀ b ∈ l, body (g b) = .ok (f b)) →
      forEach body (l.map g) = .ok (l.flatMap f) := by
    intro β γ body g f l
    induction l with
    | nil => intro _; rfl
    | cons b l ih =>
      intro hl
      rw [List.map_cons, forEach, hl b List.mem_cons_self, ih fun x hx => hl x (List.mem_cons_of_mem _ hx)]
      rfl
  rw [testSsz]
  show forEach _ _ = _
  apply loop
  intro p1 h1
  show forEach _ _ = _
  apply loop
  intro p2 h2
  show forEach _ _ = _
  rw [h p1 h1 p2 h2]
  exact inner _ _

/-- **C67** If all cases agree with the specification, the test of the class succeeds, and every case is run at least three times. -/
theorem C67_conforming (f : HashFn) (H : Chunk → Chunk → Chunk) (hf : f.Computes H) (t : Ty) (ht : InRepo t) (old obj : t.denote)
    (suites : List (String × List (String × List (String × Entry))))
    (hc : ∀ p1 ∈ suites, ∀ p2 ∈ p1.2, ∃ d, HasFiles p2.2 d ∧ Conforms t d) :
    testSsz (opsOf H t old obj) (some (.dir (suites.map fun p1 => (p1.1, .dir (p1.2.map fun p2 => (p2.1, .dir p2.2)))))) =
      .ok (suites.flatMap fun p1 => p1.2.flatMap fun p2 => List.replicate p2.2.length allTrue) ∧
    ∀ p1 ∈ suites, ∀ p2 ∈ p1.2, 3 ≤ p2.2.length := by
  refine ⟨C67_rounds _ suites (fun _ => allTrue) fun p1 h1 p2 h2 => ?_, fun p1 h1 p2 h2 => ?_⟩
  · obtain ⟨d, hd, hv⟩ := hc p1 h1 p2 h2
    rw [runCase_eq _ _ d hd]
    obtain ⟨v, h1, h2, h3, h4, h5, h6⟩ := hv
    rw [h6]
    exact C52_passes f H hf t ht old obj v h1 h2 h3 d.value d.roots h4 h5
  · obtain ⟨d, hd, -⟩ := hc p1 h1 p2 h2
    exact three_le hd

-- a tree with two suites, the first with two cases that agree with the specification, one of them with a fourth file
example : ∃ suites : List (String × List (String × List (String × Entry))), (suites.map fun p1 => p1.2.map fun p2 => p2.2.length) = [[3, 4], []] ∧
    ∀ p1 ∈ suites, ∀ p2 ∈ p1.2, ∃ d, HasFiles p2.2 d ∧ Conforms (Objects.attestation mainnet) d := by
  obtain ⟨value, hv⟩ := C51_exists _ inRepo_attestation.wellNamed (Samples.attestation [true, false, true])
  obtain ⟨roots, hr⟩ := C51_exists (.container 32 false (.cons "root" (.bytes 32) .nil)) (by decide +kernel)
    (Spec.root sha256Chunks (Objects.attestation mainnet) (Samples.attestation [true, false, true]), ())
  let d : Files := ⟨value, roots, some (Spec.encode (Objects.attestation mainnet) (Samples.attestation [true, false, true]))⟩
  have hd : Conforms (Objects.attestation mainnet) d := ⟨_, by decide +kernel, by decide +kernel, by decide +kernel, hv, hr, rfl⟩
  refine ⟨[("ssz_random", [("case_0", [("roots.yaml", .file (some roots) none), ("value.yaml", .file (some value) none),
      ("serialized.ssz_snappy", .file none d.raw)]), ("case_1", [("roots.yaml", .file (some roots) none), ("notes", .file none none),
      ("value.yaml", .file (some value) none), ("serialized.ssz_snappy", .file none d.raw)])]), ("ssz_zero", [])], rfl, ?_⟩
  intro p1 h1 p2 h2
  refine ⟨d, ?_, hd⟩
  simp only [List.mem_cons, List.not_mem_nil, or_false] at h1
  rcases h1 with rfl | rfl
  · simp only [List.mem_cons, List.not_mem_nil, or_false] at h2
    rcases h2 with rfl | rfl
    · exact ⟨⟨none, rfl⟩, ⟨none, rfl⟩, ⟨none, rfl⟩⟩
    · exact ⟨⟨none, rfl⟩, ⟨none, rfl⟩, ⟨none, rfl⟩⟩
  · cases h2

/-- **C67** What the loops do not notice: a directory without suites, suites without cases and cases without files make the test succeed without a single check,
whatever the program under test. -/
theorem C67_vacuous {α : Type} (ops : Ops α) (suites : List (String × List String)) :
    testSsz ops (some (.dir (suites.map fun p1 => (p1.1, .dir (p1.2.map fun p2 => (p2, .dir [])))))) = .ok [] ∧
    reported (.ok []) = .ok true := by
  have loop : ∀ {β : Type} (body : β → Out (List Checks)) (l : List β), (∀ b ∈ l, body b = .ok []) → forEach body l = .ok [] := by
    intro β body l
    induction l with
    | nil => intro _; rfl
    | cons b l ih =>
      intro hl
      rw [forEach, hl b List.mem_cons_self, ih fun x hx => hl x (List.mem_cons_of_mem _ hx)]
      rfl
  refine ⟨?_, rfl⟩
  rw [testSsz]
  refine loop _ _ fun p1 h1 => ?_
  obtain ⟨x, -, rfl⟩ := List.mem_map.1 h1
  refine loop _ _ fun p2 h2 => ?_
  obtain ⟨y, -, rfl⟩ := List.mem_map.1 h2
  rfl

-- a checkout without the test vectors but with their directories
example {α : Type} (ops : Ops α) : reported (testSsz ops (some (.dir [("ssz_random", .dir [("case_0", .dir [])])]))) = .ok true := rfl

/-- **C67** A file beside the suites or the cases makes the test fail (or end before, for another reason). -/
theorem C67_stray {α : Type} (ops : Ops α) (suites : List (String × Entry)) (n : String) (y r)
    (h : (n, .file y r) ∈ suites ∨ ∃ m cases, (m, .dir cases) ∈ suites ∧ (n, .file y r) ∈ cases) :
    reported (testSsz ops (some (.dir suites))) ≠ .ok true := by
  rw [Ne, C67_succeeds_iff]
  rintro ⟨s, hs, h1⟩
  cases hs
  rcases h with h | ⟨m, cases, h2, h3⟩
  · obtain ⟨c, hc, -⟩ := h1 _ h
    cases hc
  · obtain ⟨c, hc, h4⟩ := h1 _ h2
    cases hc
    obtain ⟨d, hd, -⟩ := h4 _ h3
    cases hd

-- a README beside the suites
example {α : Type} (ops : Ops α) : reported (testSsz ops (some (.dir [("README", .file none none)]))) = .ok false := rfl

end Mammon
