import Lean.Elab.Tactic
import Verif.Model.Nasm
/-!
# The text of the assembly files as numbers and as tokens

The kernel computes with numbers much faster than with strings, so every line is packed into a number. The packed lines and their tokens are computed by
the elaborator; that the lines unpack to the text and have these tokens is checked by the kernel (`avx_lexed`, ...).
-/

namespace Mammon.Nasm

/-- The bytes of a number, lowest first. -/
def unpack : Nat → Nat → List Nat
  | 0, _ => []
  | k + 1, n => match n with
    | 0 => []
    | n + 1 => (n + 1) % 256 :: unpack k ((n + 1) / 256)

open Lean Meta Elab

/-- `packed% text`: the list of the lines of `text`, each packed into a number. -/
elab "packed% " i:ident : term => do
  let c ← realizeGlobalConstNoOverload i
  let some v := (← getConstInfo c).value? | throwError "no value"
  let mut e := v
  let mut l := #[]
  for _ in [0:5000] do
    e ← whnfR e
    match e.getAppFnArgs with
    | (``List.cons, #[_, .lit (.strVal s), t]) =>
      l := l.push (s.toList.foldr (fun c n => c.toNat + 256 * n) 0)
      e := t
    | _ => break
  return toExpr l.toList

/-- Close `a = b` by reflexivity, checked by the kernel only. -/
elab "kernel_refl" : tactic => Tactic.liftMetaTactic fun g => do
  let some (_, a, _) := (← g.getType).eq? | throwError "not an equation"
  g.assign (← mkEqRefl a)
  return []

/-- A text from its packed lines. -/
def ofPacked (l : List Nat) : List String := l.map fun n => String.ofList ((unpack 200 n).map Char.ofNat)

def regSizesP : List Nat := packed% Text.regSizes
def transposeP : List Nat := packed% Text.transpose
def oneBlockP : List Nat := packed% Text.oneBlock
def avxP : List Nat := packed% Text.avx
def avx2P : List Nat := packed% Text.avx2
def shaniP : List Nat := packed% Text.shani

theorem regSizes_packed : Text.regSizes = ofPacked regSizesP := by kernel_refl
theorem transpose_packed : Text.transpose = ofPacked transposeP := by kernel_refl
theorem oneBlock_packed : Text.oneBlock = ofPacked oneBlockP := by kernel_refl
theorem avx_packed : Text.avx = ofPacked avxP := by kernel_refl
theorem avx2_packed : Text.avx2 = ofPacked avx2P := by kernel_refl
theorem shani_packed : Text.shani = ofPacked shaniP := by kernel_refl

theorem unpack_lt : ∀ (k n : Nat), ∀ c ∈ unpack k n, c < 256
  | 0, _ => by simp [unpack]
  | k + 1, 0 => by simp [unpack]
  | k + 1, n + 1 => by
    intro c h
    rw [unpack] at h
    rcases List.mem_cons.mp h with rfl | h
    · exact Nat.mod_lt _ (by decide)
    · exact unpack_lt k _ c h

theorem toNat_ofNat {c : Nat} (h : c < 256) : (Char.ofNat c).toNat = c := by
  have hv : c.isValidChar := Or.inl (by omega)
  rw [Char.ofNat, dif_pos hv]
  rfl

theorem codes_ofPacked (l : List Nat) : codes (ofPacked l) = l.map (unpack 200) := by
  rw [codes, ofPacked, List.map_map]
  refine List.map_congr_left fun n _ => ?_
  show ((String.ofList ((unpack 200 n).map Char.ofNat)).toList).map Char.toNat = unpack 200 n
  rw [String.toList_ofList, List.map_map]
  refine (List.map_congr_left fun c hc => ?_).trans (List.map_id _)
  exact toNat_ofNat (unpack_lt 200 n c hc)

deriving instance ToExpr for Tok

/-- `lexed% f`: the tokens of the lines of the file. -/
elab "lexed% " i:ident : term => do
  let l : List String ← match i.getId with
    | `regSizes => pure Text.regSizes
    | `transpose => pure Text.transpose
    | `oneBlock => pure Text.oneBlock
    | `avx => pure Text.avx
    | `avx2 => pure Text.avx2
    | `shani => pure Text.shani
    | _ => throwError "unknown file"
  return toExpr (readLines (codes l))

def regSizesT : List (List Tok) := lexed% regSizes
def transposeT : List (List Tok) := lexed% transpose
def oneBlockT : List (List Tok) := lexed% oneBlock
def avxT : List (List Tok) := lexed% avx
def avx2T : List (List Tok) := lexed% avx2
def shaniT : List (List Tok) := lexed% shani

theorem regSizes_lexed : readLines (regSizesP.map (unpack 200)) = regSizesT := by kernel_refl
theorem transpose_lexed : readLines (transposeP.map (unpack 200)) = transposeT := by kernel_refl
theorem oneBlock_lexed : readLines (oneBlockP.map (unpack 200)) = oneBlockT := by kernel_refl
theorem avx_lexed : readLines (avxP.map (unpack 200)) = avxT := by kernel_refl
theorem avx2_lexed : readLines (avx2P.map (unpack 200)) = avx2T := by kernel_refl
theorem shani_lexed : readLines (shaniP.map (unpack 200)) = shaniT := by kernel_refl

/-- The files as tokens. -/
def sourcesT : List (Nat × List (List Tok)) :=
  [(name% "ssz/reg_sizes.asm", regSizesT), (name% "ssz/transpose_avx2.asm", transposeT),
   (name% "ssz/sha256_avx_one_block.asm", oneBlockT), (name% "ssz/sha256_avx.asm", avxT),
   (name% "ssz/sha256_avx2.asm", avx2T), (name% "ssz/sha256_shani.asm", shaniT)]

theorem sources_lexed : sources = sourcesT := by
  rw [sources, sourcesT, regSizes_packed, transpose_packed, oneBlock_packed, avx_packed, avx2_packed, shani_packed]
  simp only [codes_ofPacked, regSizes_lexed, transpose_lexed, oneBlock_lexed, avx_lexed, avx2_lexed, shani_lexed]

end Mammon.Nasm
