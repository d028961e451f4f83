import Verif.Proofs.AsmPack
/-!
# Preprocessing in several parts

The kernel keeps what it has computed until a theorem is done. To bound what it keeps, files are preprocessed in several parts; the states in between are
computed by the elaborator and checked by the kernel.
-/

namespace Mammon.Nasm

/-- The lines that come out of the next `n` steps of the preprocessor, its state and the lines to be read after them. -/
def advance (files : List (Nat × List (List Tok))) : (n : Nat) → PP → List Line → Option (List (List Tok) × PP × List Line)
  | 0, s, ls => some ([], s, ls)
  | _ + 1, _, [] => none
  | n + 1, ⟨defs, locals, macros, calls⟩, .done m :: ls => advance files n ⟨defs, forget m locals, macros, calls⟩ ls
  | n + 1, ⟨defs, locals, macros, calls⟩, .text ts :: ls => match ts with
    | [] => advance files n ⟨defs, locals, macros, calls⟩ ls
    | .dir d :: us => match directive files ⟨defs, locals, macros, calls⟩ d us ls with
      | none => none
      | some (s', ls') => advance files n s' ls'
    | t :: us => match expand lineFuel ⟨defs, locals, macros, calls⟩ [] (t :: us) with
      | .id i :: vs => match findMacro i (operands vs).length macros with
        | some b =>
          advance files n ⟨defs, locals, macros, calls + 1⟩
            (b.map (fun l => .text (instantiate (calls + 1) (operands vs) l)) ++ .done (calls + 1) :: ls)
        | none => match advance files n ⟨defs, locals, macros, calls⟩ ls with
          | none => none
          | some (o, s', ls') => some ((.id i :: vs) :: o, s', ls')
      | vs => match advance files n ⟨defs, locals, macros, calls⟩ ls with
        | none => none
        | some (o, s', ls') => some (vs :: o, s', ls')

theorem preprocess_advance {files : List (Nat × List (List Tok))} (fuel : Nat) : ∀ (n : Nat) {s s' : PP} {ls ls' : List Line} {o : List (List Tok)},
    advance files n s ls = some (o, s', ls') → preprocess files (fuel + n) s ls = o ++ preprocess files fuel s' ls'
  | 0, s, s', ls, ls', o, h => by
    simp only [advance, Option.some.injEq, Prod.mk.injEq] at h
    obtain ⟨rfl, rfl, rfl⟩ := h
    rfl
  | n + 1, s, s', [], ls', o, h => by simp [advance] at h
  | n + 1, ⟨defs, locals, macros, calls⟩, s', .done m :: ls, ls', o, h => by
    rw [advance] at h
    exact preprocess_advance fuel n h
  | n + 1, ⟨defs, locals, macros, calls⟩, s', .text ts :: ls, ls', o, h => by
    show preprocess files ((fuel + n) + 1) _ _ = _
    rw [advance.eq_def] at h
    rw [preprocess.eq_def]
    dsimp only at h ⊢
    split at h
    · exact preprocess_advance fuel n h
    · split at h
      · cases h
      · next e =>
        simp only [e]
        exact preprocess_advance fuel n h
    · split at h
      · next e =>
        split at h
        · next e' =>
          simp only [e, e']
          exact preprocess_advance fuel n h
        · next e' =>
          split at h
          · cases h
          · next e'' =>
            simp only [Option.some.injEq, Prod.mk.injEq] at h
            obtain ⟨rfl, rfl, rfl⟩ := h
            simp only [e, e', preprocess_advance fuel n e'', List.cons_append]
      · next hx =>
        split at h
        · cases h
        · next e'' =>
          simp only [Option.some.injEq, Prod.mk.injEq] at h
          obtain ⟨rfl, rfl, rfl⟩ := h
          split
          · next e => cases e
          · next e =>
            cases e
            simp_all
          · next e =>
            cases e
            split
            · next e => exact absurd e (hx _ _)
            · rw [preprocess_advance fuel n e'', List.cons_append]

/-- The state of the preprocessor in the beginning. -/
def begin_ : PP := ⟨Oct.all (Oct.all []), [], [], 0⟩

/-- The lines of a file. -/
def linesOf (files : List (Nat × List (List Tok))) (file : Nat) : List Line := match lookupFile file files with
  | none => []
  | some f => f.map .text

theorem assemble_eq {files : List (Nat × List (List Tok))} {file : Nat} {f : List (List Tok)} (h : lookupFile file files = some f) :
    assemble files [] file = statements ⟨name% ".text", [], none⟩ (preprocess files fileFuel begin_ (f.map .text)) := by
  rw [assemble, h]
  rfl

open Lean Meta Elab

deriving instance ToExpr for Def
deriving instance ToExpr for Oct
deriving instance ToExpr for PP
deriving instance ToExpr for Line

/-- What the preprocessor does in the `n` steps after the first `m`, in the file with the given names. -/
def stepsOf (f : Names) (m n : Nat) : List (List Tok) × PP × List Line :=
  match advance sourcesT m begin_ (linesOf sourcesT f.file) with
  | none => ([], begin_, [])
  | some (_, s, ls) => (advance sourcesT n s ls).getD ([], begin_, [])

/-- The files with code. -/
def fileNames : Nat → Names
  | 0 => one
  | 1 => four
  | 2 => eight
  | _ => shani

/-- `out% i m n`: the lines that come out of the `n` steps after the first `m`. -/
elab "out% " f:num m:num n:num : term => return toExpr (stepsOf (fileNames f.getNat) m.getNat n.getNat).1
/-- `state% i m`: the state after the first `m` steps. -/
elab "state% " f:num m:num : term => return toExpr (stepsOf (fileNames f.getNat) 0 m.getNat).2.1
/-- `rest% i m`: the lines to be read after the first `m` steps. -/
elab "rest% " f:num m:num : term => return toExpr (stepsOf (fileNames f.getNat) 0 m.getNat).2.2

end Mammon.Nasm
