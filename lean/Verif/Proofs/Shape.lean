import Verif.Spec.Shape
import Verif.Proofs.HashCalls
import Verif.Proofs.Strict
/-!
# The calls of the hasher depend on the shape only
-/

namespace Mammon

open Spec (SameShape SameShapeParts SameLists SameKind)
open Hashing

variable (H H' : Chunk → Chunk → Chunk)

/-- Outcomes of the same kind with related values. -/
def OutSim {α β : Type} (R : α → β → Prop) : Out α → Out β → Prop
  | .ok a, .ok b => R a b
  | .throws e, .throws e' => e = e'
  | .ub, .ub => True
  | _, _ => False

/-- The same events, and outcomes of the same kind with related values. -/
def Sim {α β : Type} (R : α → β → Prop) (x : Hashing α) (y : Hashing β) : Prop := x.events = y.events ∧ OutSim R x.out y.out

/-- Lists of the same length. -/
def SameLen {α : Type} (a b : List α) : Prop := a.length = b.length

theorem Sim.of {α β : Type} {R : α → β → Prop} {x : Out α} {y : Out β} (h : OutSim R x y) : Sim R (Hashing.of x) (Hashing.of y) := ⟨rfl, h⟩

theorem Sim.event {α β : Type} {R : α → β → Prop} {x : Out α} {y : Out β} (e : HashEvent) (h : OutSim R x y) :
    Sim R (Hashing.event e x) (Hashing.event e y) := ⟨rfl, h⟩

theorem Sim.bind {α β γ δ : Type} {R : α → β → Prop} {S : γ → δ → Prop} {x : Hashing α} {y : Hashing β} {f : α → Hashing γ} {g : β → Hashing δ}
    (h : Sim R x y) (hf : ∀ a b, R a b → Sim S (f a) (g b)) : Sim S (x.bind f) (y.bind g) := by
  obtain ⟨xe, xo⟩ := x
  obtain ⟨ye, yo⟩ := y
  obtain ⟨h1, h2⟩ := h
  cases h1
  cases xo <;> cases yo <;> try exact h2.elim
  · obtain ⟨e1, e2⟩ := hf _ _ h2
    exact ⟨congrArg (xe ++ ·) e1, e2⟩
  · exact ⟨rfl, h2⟩
  · exact ⟨rfl, trivial⟩

theorem getElem?_sim {α : Type} {a b : List α} (h : a.length = b.length) (i : Nat) :
    (a[i]? = none ∧ b[i]? = none) ∨ ∃ x y, a[i]? = some x ∧ b[i]? = some y := by
  by_cases hi : i < a.length
  · exact .inr ⟨_, _, List.getElem?_eq_getElem hi, List.getElem?_eq_getElem (h ▸ hi)⟩
  · exact .inl ⟨List.getElem?_eq_none (by omega), List.getElem?_eq_none (by omega)⟩

theorem zeroHashAt_sim (i : Nat) : OutSim (fun _ _ => True) (zeroHashAt H i) (zeroHashAt H' i) := by
  have hl : (zeroHashArray H).length = (zeroHashArray H').length := by
    rw [zeroHashArray, zeroHashArray, length_zeroHashesFrom, length_zeroHashesFrom]
  rw [zeroHashAt, zeroHashAt]
  rcases getElem?_sim hl i with ⟨h1, h2⟩ | ⟨x, y, h1, h2⟩ <;> rw [h1, h2] <;> trivial

theorem getAt_sim {a b : List Chunk} (h : SameLen a b) (i : Nat) : OutSim (fun _ _ => True) (getAt a i) (getAt b i) := by
  rw [getAt, getAt]
  rcases getElem?_sim h i with ⟨h1, h2⟩ | ⟨x, y, h1, h2⟩ <;> rw [h1, h2] <;> trivial

theorem setAt_sim {a b : List Chunk} (h : SameLen a b) (i : Nat) (c d : Chunk) : OutSim SameLen (setAt a i c) (setAt b i d) := by
  rw [setAt, setAt]
  have h' : a.length = b.length := h
  by_cases hi : i < a.length
  · rw [if_pos hi, if_pos (h' ▸ hi)]
    show (a.set i c).length = (b.set i d).length
    rw [List.length_set, List.length_set, h']
  · rw [if_neg hi, if_neg (h' ▸ hi)]; trivial

theorem hashBlocks_sim {src src' : List Chunk} (hs : SameLen src src') : ∀ (k di si : Nat) (dst dst' : List Chunk), SameLen dst dst' →
    OutSim SameLen (hashBlocks H src k di si dst) (hashBlocks H' src' k di si dst')
  | 0, _, _, _, _, h => h
  | k + 1, di, si, dst, dst', h => by
    rw [hashBlocks, hashBlocks]
    have h' : dst.length = dst'.length := h
    rcases getElem?_sim hs si with ⟨h1, h2⟩ | ⟨x, y, h1, h2⟩
    · rw [h1, h2]; trivial
    rcases getElem?_sim hs (si + 1) with ⟨h3, h4⟩ | ⟨x', y', h3, h4⟩
    · rw [h1, h2, h3, h4]; trivial
    rw [h1, h2, h3, h4]
    by_cases hi : di < dst.length
    · simp only [if_pos hi, if_pos (h' ▸ hi)]
      exact hashBlocks_sim hs k _ _ _ _ (show (dst.set _ _).length = (dst'.set _ _).length by rw [List.length_set, List.length_set, h'])
    · simp only [if_neg hi, if_neg (h' ▸ hi)]; trivial

theorem hashBlocksInPlace_sim {a b : List Chunk} (h : SameLen a b) (k di si : Nat) :
    OutSim SameLen (hashBlocksInPlace H k di si a) (hashBlocksInPlace H' k di si b) := by
  rw [hashBlocksInPlace, hashBlocksInPlace]
  split
  · exact hashBlocks_sim H H' h k di si _ _ h
  · trivial

theorem merkleLoopE_sim {a b : List Chunk} (h : SameLen a b) (first last height : Nat) :
    Sim (fun x y => SameLen x.1 y.1 ∧ x.2 = y.2) (merkleLoopE H a first last height) (merkleLoopE H' b first last height) := by
  rw [merkleLoopE, merkleLoopE]
  by_cases hd : 1 < last - first
  · rw [if_pos hd, if_pos hd]
    refine (Sim.event _ (hashBlocksInPlace_sim H H' h _ _ _)).bind fun a b h => ?_
    refine Sim.bind (R := SameLen) ?_ fun a b h => merkleLoopE_sim h _ _ _
    by_cases ho : (last - first) % 2 = 1
    · rw [if_pos ho, if_pos ho]
      exact (Sim.of (zeroHashAt_sim H H' _)).bind fun _ _ _ => (Sim.of (getAt_sim h _)).bind fun _ _ _ => Sim.event _ (setAt_sim h _ _ _)
    · rw [if_neg ho, if_neg ho]; exact Sim.of h
  · rw [if_neg hd, if_neg hd]; exact Sim.of ⟨h, rfl⟩
termination_by last - first
decreasing_by omega

theorem extendLoopE_sim (depth : Nat) {a b : List Chunk} (h : SameLen a b) (last height : Nat) :
    Sim (fun x y => SameLen x.1 y.1 ∧ x.2 = y.2) (extendLoopE H depth a last height) (extendLoopE H' depth b last height) := by
  rw [extendLoopE, extendLoopE]
  by_cases hd : height < depth
  · rw [if_pos hd, if_pos hd]
    exact (Sim.of (zeroHashAt_sim H H' _)).bind fun _ _ _ => (Sim.of (getAt_sim h _)).bind fun _ _ _ =>
      (Sim.event _ (setAt_sim h _ _ _)).bind fun _ _ h => extendLoopE_sim depth h _ _
  · rw [if_neg hd, if_neg hd]; exact Sim.of ⟨h, rfl⟩
termination_by depth - height

theorem merkleizeE_sim {v w a b : List Chunk} (hv : SameLen v w) (h : SameLen a b) (limit : BitVec 64) :
    Sim SameLen (merkleizeE H v a limit) (merkleizeE H' w b limit) := by
  have hv' : v.length = w.length := hv
  simp only [merkleizeE, ← hv']
  refine Sim.bind (R := SameLen) ?_ fun a b h => Sim.bind (R := SameLen) ?_ fun a b h =>
    (merkleLoopE_sim H H' h _ _ _).bind fun x y hx => ?_
  · by_cases h1 : 1 < v.length
    · rw [if_pos h1, if_pos h1]; exact Sim.event _ (hashBlocks_sim H H' hv _ _ _ _ _ h)
    · rw [if_neg h1, if_neg h1]; exact Sim.of h
  · by_cases h1 : v.length % 2 = 1
    · rw [if_pos h1, if_pos h1]; exact (Sim.of (getAt_sim hv _)).bind fun _ _ _ => Sim.event _ (setAt_sim h _ _ _)
    · rw [if_neg h1, if_neg h1]; exact Sim.of h
  · rw [hx.2]
    refine (extendLoopE_sim H H' _ hx.1 _ _).bind fun p q hp => Sim.of ?_
    have hl : p.1.length = q.1.length := hp.1
    show List.length (_ ++ _) = List.length (_ ++ _)
    rw [List.length_append, List.length_append, List.length_take, List.length_take, List.length_replicate, List.length_replicate, hl, hp.2]

theorem hashTreeOfChunksE_sim {v w : List Chunk} (hv : SameLen v w) (limit : BitVec 64) :
    Sim SameLen (hashTreeOfChunksE H v limit) (hashTreeOfChunksE H' w limit) := by
  have hv' : v.length = w.length := hv
  have he : v = [] ↔ w = [] := by rw [← List.length_eq_zero_iff, ← List.length_eq_zero_iff, hv']
  simp only [hashTreeOfChunksE, ← hv', ← he]
  split
  · exact Sim.of hv
  · split
    · exact Sim.of rfl
    · have hb : OutSim (fun a b => a = b) (bitCeil v.length) (bitCeil v.length) := by cases bitCeil v.length <;> first | rfl | trivial
      refine (Sim.of hb).bind fun a b hab => ?_
      cases hab
      exact (Sim.event (R := SameLen) _ (show OutSim SameLen (.ok _) (.ok _) from (rfl : List.length _ = List.length _))).bind fun _ _ h => merkleizeE_sim H H' hv h _

theorem length_packLoop : (bs : List Byte) → (packLoop bs).length = (bs.length + 31) / 32
  | bs => by
    rw [packLoop]
    split
    · rename_i h; rw [h]; rfl
    · rename_i h
      have := List.length_pos_iff.2 h
      rw [List.length_cons, length_packLoop, List.length_drop, BYTES_PER_CHUNK]
      omega
termination_by bs => bs.length
decreasing_by
  rename_i h
  have := List.length_pos_iff.2 h
  simp only [List.length_drop, BYTES_PER_CHUNK]
  omega

theorem hashTreeOfBytesE_sim {v w : List Byte} (hv : SameLen v w) (limit : BitVec 64) :
    Sim SameLen (hashTreeOfBytesE H v limit) (hashTreeOfBytesE H' w limit) := by
  refine hashTreeOfChunksE_sim H H' ?_ limit
  have hv' : v.length = w.length := hv
  have he : v = [] ↔ w = [] := by rw [← List.length_eq_zero_iff, ← List.length_eq_zero_iff, hv']
  show (packAndPad v).length = (packAndPad w).length
  rw [packAndPad, packAndPad]
  by_cases h : v = []
  · rw [if_pos h, if_pos (he.1 h)]
  · rw [if_neg h, if_neg (fun hw => h (he.2 hw)), length_packLoop, length_packLoop, hv']

theorem treeRoot_sim {a b : List Chunk} (h : SameLen a b) : OutSim (fun _ _ => True) (treeRoot a) (treeRoot b) := by
  have h' : a.length = b.length := h
  rw [treeRoot, treeRoot, List.getLast?_eq_getElem?, List.getLast?_eq_getElem?, ← h']
  rcases getElem?_sim h' (a.length - 1) with ⟨h1, h2⟩ | ⟨x, y, h1, h2⟩ <;> rw [h1, h2] <;> trivial

theorem mixInE_sim {a b : List Chunk} (h : SameLen a b) (n : Nat) : Sim SameLen (mixInE H a n) (mixInE H' b n) :=
  (Sim.of (treeRoot_sim h)).bind fun _ _ _ => Sim.event _ (by
    show List.length (_ ++ _) = List.length (_ ++ _)
    rw [List.length_append, List.length_append, show a.length = b.length from h]; rfl)

theorem rootsLoopE_sim {α : Type} {f g : α → Hashing (List Chunk)} : ∀ (v w : List α), SameLists (fun a b => Sim SameLen (f a) (g b)) v w →
    Sim SameLen (rootsLoopE f v) (rootsLoopE g w)
  | [], [], _ => Sim.of rfl
  | [], _ :: _, h => by cases h.1
  | _ :: _, [], h => by cases h.1
  | a :: v, b :: w, h => by
    rw [rootsLoopE, rootsLoopE]
    refine (h.2 0 a b rfl rfl).bind fun _ _ ht => (Sim.of (treeRoot_sim ht)).bind fun _ _ _ =>
      (rootsLoopE_sim v w ⟨Nat.succ.inj h.1, fun i x y hx hy => h.2 (i + 1) x y hx hy⟩).bind fun _ _ hr => Sim.of ?_
    exact congrArg (· + 1) hr

theorem listTreeE_sim (limit : Nat) {v w : List Chunk} (hv : SameLen v w) (n : Nat) : Sim SameLen (listTreeE H limit v n) (listTreeE H' limit w n) := by
  have hz : SameLen (orZeroChunk v) (orZeroChunk w) := by
    have hv' : v.length = w.length := hv
    show (orZeroChunk v).length = (orZeroChunk w).length
    cases v <;> cases w <;> first | rfl | exact hv' | exact absurd hv' (by simp)
  exact (hashTreeOfChunksE_sim H H' hz _).bind fun _ _ h => mixInE_sim H H' h n

theorem serialize_sim {t : Ty} {v w : t.denote} (hv : serializeUB t v = false) (hw : serializeUB t w = false)
    (hl : (serializeBytes t v).length = (serializeBytes t w).length) : OutSim SameLen (serialize t v) (serialize t w) := by
  rw [serialize, serialize, hv, hw]; exact hl

theorem basic_uint64 {t : Ty} (h : isBasicObject t = true) : t = .uint64 := by
  cases t <;> first | rfl | cases h

theorem length_slots_from : ∀ (l : List (BitVec 64)) (acc : List Byte),
    (l.foldl (fun ret p => ret ++ serializeBytes .uint64 p) acc).length = acc.length + 8 * l.length
  | [], acc => rfl
  | x :: l, acc => by
    rw [List.foldl_cons, length_slots_from l, List.length_append, show (serializeBytes .uint64 x).length = 8 from rfl, List.length_cons]
    omega

mutual
theorem hashTreeE_sim : (t : Ty) → (v w : t.denote) → SameShape t v w → Sim SameLen (hashTreeE H t v) (hashTreeE H' t w)
  | .uint64, v, w, _ => by rw [hashTreeE, hashTreeE]; exact Sim.of rfl
  | .boolean, v, w, _ => by
    rw [hashTreeE, hashTreeE]
    exact (Sim.of (serialize_sim (t := .boolean) (v := v) (w := w) rfl rfl rfl)).bind fun _ _ h => hashTreeOfBytesE_sim H H' h _
  | .bytes n, v, w, _ => by
    rw [hashTreeE, hashTreeE]
    exact (Sim.of (serialize_sim (t := .bytes n) (v := v) (w := w) rfl rfl (v.2.trans w.2.symm))).bind fun _ _ h => hashTreeOfBytesE_sim H H' h _
  | .bitvector n, v, w, _ => by
    rw [hashTreeE, hashTreeE]
    refine (Sim.of (serialize_sim rfl rfl ?_)).bind fun _ _ h => hashTreeOfBytesE_sim H H' h _
    rw [serializeBytes, serializeBytes, bitvectorSerialize, bitvectorSerialize, length_orBitsFrom, length_orBitsFrom]
  | .bitlist limit, v, w, h => by
    have h' : List.length v = List.length w := by rw [SameShape] at h; exact h
    rw [hashTreeE, hashTreeE, bitlistHashTreeE, bitlistHashTreeE, h']
    split
    · exact Sim.of trivial
    · refine (hashTreeOfBytesE_sim H H' ?_ _).bind fun _ _ h => mixInE_sim H H' h _
      show List.length _ = List.length _
      rw [length_orBitsFrom, length_orBitsFrom]
  | .vector t n, v, w, h => by
    rw [SameShape] at h
    rw [hashTreeE, hashTreeE]
    split
    · rename_i hb
      cases basic_uint64 hb
      refine (Sim.of (serialize_sim (t := .vector .uint64 n) (v := v) (w := w) (any_slots _) (any_slots _) ?_)).bind fun _ _ h => hashTreeOfBytesE_sim H H' h _
      rw [serializeBytes, serializeBytes, length_slots_from, length_slots_from, h.1]
    · refine (rootsLoopE_sim v.1 w.1 ⟨h.1, fun i a b ha hb => hashTreeE_sim t a b (h.2 i a b ha hb)⟩).bind fun _ _ hc => ?_
      split
      · exact Sim.of hc
      · exact hashTreeOfChunksE_sim H H' hc _
  | .listF t limit, v, w, h => by
    rw [SameShape] at h
    rw [hashTreeE, hashTreeE, h.1]
    split
    · rename_i hb
      cases basic_uint64 hb
      refine (Sim.of (serialize_sim (t := .listF .uint64 limit) (v := v) (w := w) (any_slots _) (any_slots _) ?_)).bind fun _ _ h => (hashTreeOfBytesE_sim H H' h _).bind fun _ _ h => mixInE_sim H H' h _
      rw [serializeBytes, serializeBytes, length_slots_from, length_slots_from, h.1]
    · exact (rootsLoopE_sim v w ⟨h.1, fun i a b ha hb => hashTreeE_sim t a b (h.2 i a b ha hb)⟩).bind fun _ _ hc => listTreeE_sim H H' limit hc _
  | .listV t limit, v, w, h => by
    rw [SameShape] at h
    rw [hashTreeE, hashTreeE, h.1]
    exact (rootsLoopE_sim v w ⟨h.1, fun i a b ha hb => hashTreeE_sim t a b (h.2 i a b ha hb)⟩).bind fun _ _ hc => listTreeE_sim H H' limit hc _
  | .container _ _ .nil, v, w, _ => by rw [hashTreeE, hashTreeE]; exact Sim.of rfl
  | .container _ _ (.cons name t ps), v, w, h => by
    rw [SameShape] at h
    rw [hashTreeE, hashTreeE]
    exact (hashTreePartsE_sim (.cons name t ps) v w h).bind fun _ _ hc => hashTreeOfChunksE_sim H H' hc _

theorem hashTreePartsE_sim : (ps : Parts) → (v w : ps.denote) → SameShapeParts ps v w → Sim SameLen (hashTreePartsE H ps v) (hashTreePartsE H' ps w)
  | .nil, _, _, _ => by rw [hashTreePartsE, hashTreePartsE]; exact Sim.of rfl
  | .cons _ t ps, v, w, h => by
    rw [SameShapeParts] at h
    rw [hashTreePartsE, hashTreePartsE]
    exact (hashTreeE_sim t v.1 w.1 h.1).bind fun _ _ ht => (Sim.of (treeRoot_sim ht)).bind fun _ _ _ =>
      (hashTreePartsE_sim ps v.2 w.2 h.2).bind fun _ _ hr => Sim.of (congrArg (· + 1) hr)
end

theorem OutSim.kind {α β : Type} {R : α → β → Prop} {x : Out α} {y : Out β} (h : OutSim R x y) : SameKind x y := by
  cases x <;> cases y <;> first | exact h | trivial

/-! ## Every call hashes at least one block -/

/-- No call of the hasher for no blocks. -/
def Busy {α : Type} (x : Hashing α) : Prop := ∀ k, .call k ∈ x.events → 0 < k

theorem busy_of {α : Type} (x : Out α) : Busy (of x) := fun _ h => nomatch h
theorem busy_call {α : Type} {k : Nat} (h : 0 < k) (x : Out α) : Busy (event (.call k) x) := fun j hj => by cases List.mem_singleton.1 hj; exact h
theorem busy_alloc {α : Type} (k : Nat) (x : Out α) : Busy (event (.alloc k) x) := fun _ hj => nomatch List.mem_singleton.1 hj
theorem Busy.bind {α β : Type} {x : Hashing α} {f : α → Hashing β} (h : Busy x) (hf : ∀ a, Busy (f a)) : Busy (x.bind f) := by
  intro k hk
  rw [Hashing.bind] at hk
  split at hk
  · rcases List.mem_append.1 hk with hk | hk
    · exact h k hk
    · exact hf _ k hk
  · exact h k hk
  · exact h k hk

theorem merkleLoopE_busy (buf : List Chunk) (first last height : Nat) : Busy (merkleLoopE H buf first last height) := by
  rw [merkleLoopE]
  by_cases hd : 1 < last - first
  · rw [if_pos hd]
    refine (busy_call (by omega) _).bind fun _ => Busy.bind ?_ fun _ => merkleLoopE_busy _ _ _ _
    split
    · exact (busy_of _).bind fun _ => (busy_of _).bind fun _ => busy_call (by omega) _
    · exact busy_of _
  · rw [if_neg hd]; exact busy_of _
termination_by last - first
decreasing_by omega

theorem extendLoopE_busy (depth : Nat) (buf : List Chunk) (last height : Nat) : Busy (extendLoopE H depth buf last height) := by
  rw [extendLoopE]
  split
  · exact (busy_of _).bind fun _ => (busy_of _).bind fun _ => (busy_call (by omega) _).bind fun _ => extendLoopE_busy depth _ _ _
  · exact busy_of _
termination_by depth - height

theorem hashTreeOfChunksE_busy (v : List Chunk) (limit : BitVec 64) : Busy (hashTreeOfChunksE H v limit) := by
  rw [hashTreeOfChunksE]
  split
  · exact busy_of _
  split
  · exact busy_of _
  refine (busy_of _).bind fun _ => (busy_alloc _ _).bind fun _ => ?_
  rw [merkleizeE]
  refine Busy.bind ?_ fun _ => Busy.bind ?_ fun _ => (merkleLoopE_busy H _ _ _ _).bind fun _ => (extendLoopE_busy H _ _ _ _).bind fun _ => busy_of _
  · split
    · exact busy_call (by omega) _
    · exact busy_of _
  · split
    · exact (busy_of _).bind fun _ => busy_call (by omega) _
    · exact busy_of _

theorem mixInE_busy (a : List Chunk) (n : Nat) : Busy (mixInE H a n) := (busy_of _).bind fun _ => busy_call (by omega) _

theorem rootsLoopE_busy {α : Type} {f : α → Hashing (List Chunk)} (hf : ∀ x, Busy (f x)) : ∀ l, Busy (rootsLoopE f l)
  | [] => busy_of _
  | x :: l => by
    rw [rootsLoopE]
    exact (hf x).bind fun _ => (busy_of _).bind fun _ => (rootsLoopE_busy hf l).bind fun _ => busy_of _

mutual
theorem hashTreeE_busy : (t : Ty) → (v : t.denote) → Busy (hashTreeE H t v)
  | .uint64, v => by rw [hashTreeE]; exact busy_of _
  | .boolean, v => by rw [hashTreeE]; exact (busy_of _).bind fun _ => hashTreeOfChunksE_busy H _ _
  | .bytes n, v => by rw [hashTreeE]; exact (busy_of _).bind fun _ => hashTreeOfChunksE_busy H _ _
  | .bitvector n, v => by rw [hashTreeE]; exact (busy_of _).bind fun _ => hashTreeOfChunksE_busy H _ _
  | .bitlist limit, v => by
    rw [hashTreeE, bitlistHashTreeE]
    split
    · exact busy_of _
    · exact (hashTreeOfChunksE_busy H _ _).bind fun _ => mixInE_busy H _ _
  | .vector t n, v => by
    rw [hashTreeE]
    split
    · exact (busy_of _).bind fun _ => hashTreeOfChunksE_busy H _ _
    · refine (rootsLoopE_busy (fun x => hashTreeE_busy t x) _).bind fun _ => ?_
      split
      · exact busy_of _
      · exact hashTreeOfChunksE_busy H _ _
  | .listF t limit, v => by
    rw [hashTreeE]
    split
    · exact (busy_of _).bind fun _ => (hashTreeOfChunksE_busy H _ _).bind fun _ => mixInE_busy H _ _
    · exact (rootsLoopE_busy (fun x => hashTreeE_busy t x) _).bind fun _ => (hashTreeOfChunksE_busy H _ _).bind fun _ => mixInE_busy H _ _
  | .listV t limit, v => by
    rw [hashTreeE]
    exact (rootsLoopE_busy (fun x => hashTreeE_busy t x) _).bind fun _ => (hashTreeOfChunksE_busy H _ _).bind fun _ => mixInE_busy H _ _
  | .container _ _ .nil, v => by rw [hashTreeE]; exact busy_of _
  | .container _ _ (.cons name t ps), v => by
    rw [hashTreeE]; exact (hashTreePartsE_busy (.cons name t ps) v).bind fun _ => hashTreeOfChunksE_busy H _ _

theorem hashTreePartsE_busy : (ps : Parts) → (v : ps.denote) → Busy (hashTreePartsE H ps v)
  | .nil, _ => by rw [hashTreePartsE]; exact busy_of _
  | .cons _ t ps, v => by
    rw [hashTreePartsE]
    exact (hashTreeE_busy t v.1).bind fun _ => (busy_of _).bind fun _ => (hashTreePartsE_busy ps v.2).bind fun _ => busy_of _
end

end Mammon
