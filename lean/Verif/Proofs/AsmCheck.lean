import Verif.Proofs.AsmSteps
import Verif.Model.Sha256Code
/-!
# Comparing assembled code with the model's
-/

namespace Mammon.Nasm
open X86

deriving instance DecidableEq for X86.Term

/-- Are the instructions the same? -/
def sameBody : List Instr → List Instr → Bool
  | [], [] => true
  | i :: is, j :: js => if i = j then sameBody is js else false
  | _, _ => false

/-- Are the pieces those of the model at the given labels? -/
def samePieces : List (Label × Block) → List Label → Bool
  | [], [] => true
  | (l, b) :: ps, k :: ks => decide (l = k) && decide (b.term = (code k).term) && sameBody b.body (code k).body && samePieces ps ks
  | _, _ => false

/-- Are the words the same? -/
def sameWords : List (BitVec 32) → List (BitVec 32) → Bool
  | [], [] => true
  | v :: vs, w :: ws => if v.toNat = w.toNat then sameWords vs ws else false
  | _, _ => false

/-- Is the program in the statements that of the model at the given labels, and are the contents of the section the given ones? -/
def checkCode (f : Names) (c : List Stmt) (ls : List Label) (sec : Nat) (ws : List (BitVec 32)) : Bool :=
  (match pieces f.label none f.anon (items f.region (symbols c) c) with
    | some ps => samePieces ps ls
    | none => false) && sameWords (words sec c) ws

/-- Is the program in the preprocessed lines that of the model at the given labels, and are the contents of the section the given ones? -/
def check (f : Names) (ts : List (List Tok)) (ls : List Label) (sec : Nat) (ws : List (BitVec 32)) : Bool :=
  checkCode f (statements ⟨name% ".text", [], none⟩ ts) ls sec ws

theorem sameBody_eq : ∀ {is js : List Instr}, sameBody is js = true → is = js
  | [], [], _ => rfl
  | i :: is, j :: js, h => by
    rw [sameBody] at h
    split at h
    · next e => rw [e, sameBody_eq h]
    · exact absurd h (by decide)
  | [], _ :: _, h => absurd h (by simp [sameBody])
  | _ :: _, [], h => absurd h (by simp [sameBody])

theorem samePieces_eq : ∀ {ps : List (Label × Block)} {ls : List Label}, samePieces ps ls = true → ps = ls.map fun l => (l, code l)
  | [], [], _ => rfl
  | (l, b) :: ps, k :: ks, h => by
    simp only [samePieces, Bool.and_eq_true, decide_eq_true_eq] at h
    obtain ⟨⟨⟨h1, h2⟩, h3⟩, h4⟩ := h
    rw [List.map_cons, ← samePieces_eq h4, h1]
    have : b = code k := by
      have h5 := sameBody_eq h3
      cases b
      generalize code k = c at *
      cases c
      simp_all
    rw [this]
  | [], _ :: _, h => absurd h (by simp [samePieces])
  | _ :: _, [], h => absurd h (by simp [samePieces])

theorem sameWords_eq : ∀ {vs ws : List (BitVec 32)}, sameWords vs ws = true → vs = ws
  | [], [], _ => rfl
  | v :: vs, w :: ws, h => by
    rw [sameWords] at h
    split at h
    · next e => rw [BitVec.eq_of_toNat_eq e, sameWords_eq h]
    · exact absurd h (by decide)
  | [], _ :: _, h => absurd h (by simp [sameWords])
  | _ :: _, [], h => absurd h (by simp [sameWords])

theorem assembled {f : Names} {g : List (List Tok)} {ts : List (List Tok)} (hf : lookupFile f.file sourcesT = some g)
    (h : preprocess sourcesT fileFuel begin_ (linesOf sourcesT f.file) = ts) : assemble sources [] f.file = statements ⟨name% ".text", [], none⟩ ts := by
  rw [sources_lexed, assemble_eq hf, ← h, linesOf, hf]

theorem check_eq {f : Names} {g : List (List Tok)} {ts : List (List Tok)} {ls : List Label} {sec : Nat} {ws : List (BitVec 32)}
    (hf : lookupFile f.file sourcesT = some g) (hl : preprocess sourcesT fileFuel begin_ (linesOf sourcesT f.file) = ts)
    (h : check f ts ls sec ws = true) : program f = some (ls.map fun l => (l, code l)) ∧ contents f sec = ws := by
  rw [check, checkCode, Bool.and_eq_true] at h
  rw [program, contents, assembled hf hl]
  refine ⟨?_, sameWords_eq h.2⟩
  have h1 := h.1
  split at h1
  · next e => rw [e, samePieces_eq h1]
  · exact absurd h1 (by decide)

end Mammon.Nasm
