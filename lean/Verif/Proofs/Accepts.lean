import Verif.Spec.Accepts
import Verif.Proofs.Denotes
/-!
# Decoding succeeds exactly on the accepted trees
-/

namespace Mammon.Yaml

open Spec (IsDigits IsMagnitude IsBlank IsNumeral IsLooseHex Accepts AcceptsParts noEmpty noEmptyParts ascii HasScalar storedByte)

/-! ## Integers -/

theorem digitOf_eq (base : Nat) (c : Byte) : digitOf base c = (Spec.hexDigit c.toNat).bind fun v => if v < base then some v else none := rfl

/-- The value read from digits with an initial value. -/
theorem takeDigits_eq (base : Nat) {cs : List Byte} {ds : List Nat} (h : IsDigits base cs ds) (rest : List Byte)
    (hr : ∀ c ∈ rest.head?, digitOf base c = none) (acc : Nat) (found : Bool) :
    takeDigits base (cs ++ rest) acc found = (ds.foldl (fun n d => base * n + d) acc, found || !cs.isEmpty, rest) := by
  induction cs generalizing ds acc found with
  | nil =>
    obtain ⟨h1, -⟩ := h
    have : ds = [] := by cases ds with | nil => rfl | cons d ds => simp at h1
    subst this
    cases rest with
    | nil => simp [takeDigits]
    | cons c rest => rw [List.nil_append, takeDigits, hr c rfl]; simp
  | cons c cs ih =>
    obtain ⟨h1, h2⟩ := h
    cases ds with
    | nil => simp at h1
    | cons d ds =>
      simp only [List.map_cons, List.cons.injEq] at h1
      have hd := h2 d (by simp)
      have : digitOf base c = some d := by rw [digitOf_eq, h1.1, Option.bind, if_pos hd]
      rw [List.cons_append, takeDigits, this]
      simp only
      rw [ih ⟨h1.2, fun x hx => h2 x (by simp [hx])⟩, Nat.mul_comm acc base]
      simp

/-- What `takeDigits` reads is digits. -/
theorem takeDigits_split (base : Nat) (s : List Byte) : ∃ cs rest ds, s = cs ++ rest ∧ IsDigits base cs ds ∧ ∀ c ∈ rest.head?, digitOf base c = none := by
  induction s with
  | nil => exact ⟨[], [], [], rfl, ⟨rfl, by simp⟩, by simp⟩
  | cons c s ih =>
    cases hc : digitOf base c with
    | none => exact ⟨[], c :: s, [], rfl, ⟨rfl, by simp⟩, by simp [hc]⟩
    | some d =>
      obtain ⟨cs, rest, ds, rfl, ⟨h1, h2⟩, h3⟩ := ih
      rw [digitOf_eq] at hc
      cases hh : Spec.hexDigit c.toNat with
      | none => rw [hh] at hc; cases hc
      | some d' =>
        rw [hh, Option.bind] at hc
        split at hc
        · cases hc
          exact ⟨c :: cs, rest, d :: ds, rfl, ⟨by simp [hh, h1], by
            intro x hx
            rcases List.mem_cons.1 hx with rfl | hx
            · assumption
            · exact h2 x hx⟩, h3⟩
        · cases hc

theorem isSpace_iff (c : Byte) : isSpace c = true ↔ IsBlank c := by
  revert c
  have : ∀ n < 256, isSpace (BitVec.ofNat 8 n) = true ↔ (n = 0x20 ∨ n = 0x09 ∨ n = 0x0a ∨ n = 0x0b ∨ n = 0x0c ∨ n = 0x0d) := by decide +kernel
  intro c
  have h := this c.toNat c.isLt
  rw [BitVec.ofNat_toNat, BitVec.setWidth_eq] at h
  rw [h, IsBlank]
  simp

theorem blank_not_digit {c : Byte} (h : IsBlank c) (base : Nat) : digitOf base c = none := by
  have : Spec.hexDigit c.toNat = none := by
    simp only [IsBlank, List.mem_cons, List.not_mem_nil, or_false] at h
    rcases h with h | h | h | h | h | h <;> rw [h] <;> rfl
  rw [digitOf_eq, this]
  rfl

theorem digit_head {base : Nat} {c : Byte} {cs : List Byte} {ds : List Nat} (h : IsDigits base (c :: cs) ds) (hb : base ≤ 10) :
    0x30 ≤ c.toNat ∧ c.toNat ≤ 0x39 := by
  obtain ⟨h1, h2⟩ := h
  cases ds with
  | nil => simp at h1
  | cons d ds =>
    simp only [List.map_cons, List.cons.injEq] at h1
    have hd := h2 d (by simp)
    have := h1.1
    rw [Spec.hexDigit] at this
    split at this
    · assumption
    · split at this
      · cases this; omega
      · split at this
        · cases this; omega
        · cases this

/-- `takeNumber` on a number followed by blanks. -/
theorem takeNumber_eq {cs blanks : List Byte} {n : Nat} (h : IsMagnitude cs n) (hb : ∀ c ∈ blanks, IsBlank c) :
    takeNumber (cs ++ blanks) = (n, true, blanks) := by
  have hr : ∀ base, ∀ c ∈ blanks.head?, digitOf base c = none := fun base c hc => blank_not_digit (hb c (List.mem_of_mem_head? hc)) base
  rcases h with ⟨ds, h1, h2, h3, rfl⟩ | ⟨x, hs, ds, rfl, hx, h2, h3, rfl⟩ | ⟨os, ds, rfl, h3, rfl⟩
  · cases cs with
    | nil => exact absurd rfl h1
    | cons c cs =>
      have hc0 : c ≠ 0x30#8 := fun e => h2 (by rw [e]; rfl)
      have hn : takeNumber (c :: cs ++ blanks) = takeDigits 10 (c :: cs ++ blanks) 0 false := by
        rw [List.cons_append, takeNumber]
        · exact fun x h => hc0 (List.cons.inj h).1
        · exact fun x h => hc0 (List.cons.inj h).1
        · exact fun x h => hc0 (List.cons.inj h).1
      rw [hn, takeDigits_eq 10 h3 blanks (hr 10)]
      simp [Spec.value]
  · have hn : takeNumber (0x30#8 :: x :: hs ++ blanks) = takeDigits 16 (hs ++ blanks) 0 false := by
      rcases hx with rfl | rfl <;> rfl
    rw [hn, takeDigits_eq 16 h3 blanks (hr 16)]
    cases hs with
    | nil => exact absurd rfl h2
    | cons => simp [Spec.value]
  · have hn : takeNumber (0x30#8 :: os ++ blanks) = takeDigits 8 (os ++ blanks) 0 true := by
      have hx : ∀ c ∈ (os ++ blanks).head?, c ≠ 0x78#8 ∧ c ≠ 0x58#8 := by
        intro c hc
        cases os with
        | nil =>
          have := hb c (List.mem_of_mem_head? hc)
          simp only [IsBlank, List.mem_cons, List.not_mem_nil, or_false] at this
          constructor <;> (rintro rfl; revert this; decide)
        | cons o os =>
          obtain rfl : o = c := by simpa using hc
          have := digit_head h3 (by decide)
          constructor <;> (rintro rfl; revert this; decide)
      cases hq : os ++ blanks with
      | nil => rw [List.cons_append, hq]; rfl
      | cons c q =>
        rw [hq] at hx
        obtain ⟨h5, h6⟩ := hx c rfl
        rw [List.cons_append, hq, takeNumber]
        · rintro y h; cases h; exact h5 rfl
        · rintro y h; cases h; exact h6 rfl
    rw [hn, takeDigits_eq 8 h3 blanks (hr 8)]
    simp [Spec.value]

/-- What `takeNumber` reads is a number. -/
theorem takeNumber_split {s rest : List Byte} {n : Nat} (h : takeNumber s = (n, true, rest)) : ∃ cs, s = cs ++ rest ∧ IsMagnitude cs n := by
  unfold takeNumber at h
  split at h
  · rename_i cs
    obtain ⟨hs, r, ds, rfl, h1, h2⟩ := takeDigits_split 16 cs
    rw [takeDigits_eq 16 h1 r h2] at h
    simp only [Bool.false_or, Prod.mk.injEq, Bool.not_eq_true'] at h
    obtain ⟨rfl, h3, rfl⟩ := h
    exact ⟨0x30#8 :: 0x78#8 :: hs, rfl, Or.inr (Or.inl ⟨_, hs, ds, rfl, Or.inl rfl, by rintro rfl; simp at h3, h1, rfl⟩)⟩
  · rename_i cs
    obtain ⟨hs, r, ds, rfl, h1, h2⟩ := takeDigits_split 16 cs
    rw [takeDigits_eq 16 h1 r h2] at h
    simp only [Bool.false_or, Prod.mk.injEq, Bool.not_eq_true'] at h
    obtain ⟨rfl, h3, rfl⟩ := h
    exact ⟨0x30#8 :: 0x58#8 :: hs, rfl, Or.inr (Or.inl ⟨_, hs, ds, rfl, Or.inr rfl, by rintro rfl; simp at h3, h1, rfl⟩)⟩
  · rename_i cs _ _
    obtain ⟨hs, r, ds, rfl, h1, h2⟩ := takeDigits_split 8 cs
    rw [takeDigits_eq 8 h1 r h2] at h
    simp only [Bool.true_or, Prod.mk.injEq, true_and] at h
    obtain ⟨rfl, rfl⟩ := h
    exact ⟨0x30#8 :: hs, rfl, Or.inr (Or.inr ⟨hs, ds, rfl, h1, rfl⟩)⟩
  · rename_i h5
    obtain ⟨hs, r, ds, rfl, h1, h2⟩ := takeDigits_split 10 s
    rw [takeDigits_eq 10 h1 r h2] at h
    simp only [Bool.false_or, Prod.mk.injEq, Bool.not_eq_true'] at h
    obtain ⟨rfl, h3, rfl⟩ := h
    refine ⟨hs, rfl, Or.inl ⟨ds, by rintro rfl; simp at h3, ?_, h1, rfl⟩⟩
    cases hs with
    | nil => simp
    | cons c hs =>
      intro e
      obtain rfl : c = 0x30#8 := by simpa using e
      exact h5 _ rfl

theorem magnitude_head {cs : List Byte} {n : Nat} (h : IsMagnitude cs n) : ∃ c cs', cs = c :: cs' ∧ 0x30 ≤ c.toNat ∧ c.toNat ≤ 0x39 := by
  rcases h with ⟨ds, h1, h2, h3, rfl⟩ | ⟨x, hs, ds, rfl, hx, h2, h3, rfl⟩ | ⟨os, ds, rfl, h3, rfl⟩
  · cases cs with
    | nil => exact absurd rfl h1
    | cons c cs => exact ⟨c, cs, rfl, digit_head h3 (by decide)⟩
  · exact ⟨_, _, rfl, by decide, by decide⟩
  · exact ⟨_, _, rfl, by decide, by decide⟩

theorem readU64_iff (s : List Byte) (old v : BitVec 64) : readU64 s old = (true, v) ↔ IsNumeral s v.toNat := by
  constructor
  · intro h
    rw [readU64.eq_def] at h
    split at h
    · cases h
    · simp only at h
      have key : ∀ body, (match takeNumber body with
          | (_, false, _) => (false, 0#64)
          | (n, true, rest) => if 2 ^ 64 ≤ n then (false, BitVec.ofNat 64 (2 ^ 64 - 1)) else (rest.all isSpace, BitVec.ofNat 64 n)) = (true, v) →
          ∃ cs blanks, body = cs ++ blanks ∧ IsMagnitude cs v.toNat ∧ ∀ c ∈ blanks, IsBlank c := by
        intro body h
        rcases hq : takeNumber body with ⟨n, _ | _, rest⟩
        · rw [hq] at h; cases h
        · rw [hq] at h
          simp only at h
          split at h
          · cases h
          · rename_i hn
            simp only [Prod.mk.injEq] at h
            obtain ⟨h1, rfl⟩ := h
            obtain ⟨cs, h2, h3⟩ := takeNumber_split hq
            refine ⟨cs, rest, h2, ?_, fun c hc => (isSpace_iff c).1 (List.all_eq_true.1 h1 c hc)⟩
            rw [BitVec.toNat_ofNat, Nat.mod_eq_of_lt (by omega)]
            exact h3
      obtain ⟨cs, blanks, h1, h2, h3⟩ := key _ h
      split at h1
      · exact ⟨[0x2b#8], cs, blanks, by rw [h1]; rfl, Or.inr rfl, h2, h3⟩
      · exact ⟨[], cs, blanks, by rw [h1]; rfl, Or.inl rfl, h2, h3⟩
  · rintro ⟨sign, cs, blanks, rfl, hs, hm, hb⟩
    obtain ⟨c, cs', rfl, hc⟩ := magnitude_head hm
    have hc1 : c ≠ 0x2d#8 := by rintro rfl; simp at hc
    have hc2 : c ≠ 0x2b#8 := by rintro rfl; simp at hc
    have hv := v.isLt
    have key : readU64 (sign ++ c :: cs' ++ blanks) old = match takeNumber (c :: cs' ++ blanks) with
          | (_, false, _) => (false, 0#64)
          | (n, true, rest) => if 2 ^ 64 ≤ n then (false, BitVec.ofNat 64 (2 ^ 64 - 1)) else (rest.all isSpace, BitVec.ofNat 64 n) := by
      rcases hs with rfl | rfl
      · rw [readU64.eq_def]
        split
        · rename_i h2; cases h2; exact absurd rfl hc1
        · simp only
          have hbody : (match [] ++ c :: cs' ++ blanks with | 0x2b#8 :: cs => cs | cs => cs) = c :: cs' ++ blanks := by
            split
            · rename_i h2; cases h2; exact absurd rfl hc2
            · rfl
          exact congrArg (fun b => match takeNumber b with
            | (_, false, _) => (false, 0#64)
            | (n, true, rest) => if 2 ^ 64 ≤ n then (false, BitVec.ofNat 64 (2 ^ 64 - 1)) else (rest.all isSpace, BitVec.ofNat 64 n)) hbody
      · rfl
    rw [key, takeNumber_eq hm hb]
    simp only
    rw [if_neg (by omega), List.all_eq_true.2 fun c hc => (isSpace_iff c).2 (hb c hc)]
    simp

/-! ## Booleans -/

/-- All ways to write a word of lower case letters with letters of both cases. -/
def variants : List Byte → List (List Byte)
  | [] => [[]]
  | x :: xs => (variants xs).flatMap fun r => [x :: r, (x - 0x20#8) :: r]

theorem toLower_inv {c x : Byte} (h : toLower c = x) : c = x ∨ c = x - 0x20#8 := by
  rw [toLower] at h
  split at h
  · right; rw [← h, BitVec.add_sub_cancel]
  · left; exact h

theorem mem_variants : ∀ {s w : List Byte}, s.map toLower = w → s ∈ variants w
  | [], w, h => by subst h; simp [variants]
  | c :: s, w, h => by
    subst h
    rw [List.map_cons, variants, List.mem_flatMap]
    refine ⟨s, mem_variants rfl, ?_⟩
    rcases toLower_inv (c := c) rfl with h | h
    · rw [← h]; simp
    · rw [← h]; simp

theorem readBool_iff (s : List Byte) (b : Bool) : readBool s = some b ↔ ∃ w ∈ Spec.boolWords b, s = ascii w := by
  have ht : ∀ w ∈ [chars "y", chars "yes", chars "true", chars "on"], ∀ s ∈ variants w, isFlexibleCase s = true →
      s ∈ (Spec.boolWords true).map ascii := by decide +kernel
  have hf : ∀ w ∈ [chars "n", chars "no", chars "false", chars "off"], ∀ s ∈ variants w, isFlexibleCase s = true →
      s ∈ (Spec.boolWords false).map ascii := by decide +kernel
  have hb : ∀ b : Bool, ∀ w ∈ Spec.boolWords b, readBool (ascii w) = some b := by decide +kernel
  constructor
  · intro h
    rw [readBool] at h
    split at h
    · cases h
    · rename_i hc
      have hc : isFlexibleCase s = true := by simpa using hc
      split at h
      · rename_i hw
        cases h
        obtain ⟨w, h1, h2⟩ := List.mem_map.1 (ht _ hw s (mem_variants rfl) hc)
        exact ⟨w, h1, h2.symm⟩
      · split at h
        · rename_i hw
          cases h
          obtain ⟨w, h1, h2⟩ := List.mem_map.1 (hf _ hw s (mem_variants rfl) hc)
          exact ⟨w, h1, h2.symm⟩
        · cases h
  · rintro ⟨w, hw, rfl⟩
    exact hb b w hw

/-! ## Hexadecimal text -/

theorem looseHex_iff (s bs : List Byte) : IsLooseHex s bs ↔ ∃ cs, s = 0x30#8 :: 0x78#8 :: cs ∧ (∀ c ∈ cs, c.toNat < 128) ∧ bs = hexBytes cs := Iff.rfl

theorem take_two {s : List Byte} (h : s.take 2 = [0x30#8, 0x78#8]) : s = 0x30#8 :: 0x78#8 :: s.drop 2 := by
  conv => lhs; rw [← List.take_append_drop 2 s, h]
  rfl

theorem bytesFromStr_iff (n : Nat) (s l : List Byte) : bytesFromStr n s = .ok l ↔
    ∃ bs, IsLooseHex s bs ∧ bs.length ≤ n ∧ l = bs ++ List.replicate (n - bs.length) 0#8 := by
  constructor
  · intro h
    rw [bytesFromStr_eq] at h
    split at h
    · cases h
    · rename_i h1
      have h1 := take_two (by simpa using h1)
      split at h
      · cases h
      · rename_i h2
        split at h
        · rename_i h3
          cases h
          refine ⟨hexBytes (s.drop 2), ⟨_, h1, h3, rfl⟩, ?_, rfl⟩
          rw [length_hexBytes, List.length_drop]
          omega
        · cases h
  · rintro ⟨_, ⟨cs, rfl, h2, rfl⟩, h3, rfl⟩
    have hl := length_hexBytes cs
    rw [hexBytes] at hl
    have hl' : (List.map (BitVec.ofNat 8) (Spec.pairDigits (cs.map fun c => (Spec.hexDigit c.toNat).getD 0))).length = (cs.length + 1) / 2 := hl
    rw [hl'] at h3
    rw [bytesFromStr_eq, if_neg (by simp), if_neg (by simp only [List.length_cons]; omega),
      show List.drop 2 (0x30#8 :: 0x78#8 :: cs) = cs from rfl, if_pos h2]
    rfl

theorem hexString_iff (s bs : List Byte) (hs : s.length < 2 ^ 31) : hexString s = .ok bs ↔ IsLooseHex s bs ∧ s.length % 2 = 0 := by
  constructor
  · intro h
    obtain ⟨cs, rfl, h1, rfl⟩ := hexString_ok h
    refine ⟨⟨cs, rfl, ?_, rfl⟩, by simp only [List.length_cons]; omega⟩
    rw [hexString_eq cs h1 (by simpa using hs)] at h
    split at h
    · assumption
    · cases h
  · rintro ⟨⟨cs, rfl, h1, rfl⟩, h2⟩
    simp only [List.length_cons] at h2 hs
    rw [hexString_eq cs (by omega) (by omega), if_pos h1]
    rfl

theorem bitlistFromHex_iff (s : List Byte) (hs : s.length < 2 ^ 31) (v : List Bool) :
    bitlistFromHex s = .ok v ↔ IsLooseHex s (Spec.bitlist v) ∧ s.length % 2 = 0 := by
  rw [← hexString_iff s _ hs, bitlistFromHex, ← bitlistSerialize_eq_spec]
  constructor
  · intro h
    rcases hq : hexString s with bs | e | _
    · rw [hq, Out.bind] at h
      congr 1
      by_cases hne : bs = []
      · rw [hne, bitlistDeserialize_nil] at h; cases h
      by_cases hlast : bs.getLast hne = 0#8
      · rw [bitlistDeserialize_last_zero bs hne hlast] at h; cases h
      rw [bitlistDeserialize_ok bs hne hlast, Out.map] at h
      cases h
      exact (bitlist_canonical bs hne hlast).symm
    · rw [hq] at h; cases h
    · rw [hq] at h; cases h
  · intro h
    rw [h, Out.bind, bitlist_roundtrip, Out.map]

/-- Longer text is undefined. -/
theorem hexString_length {s bs : List Byte} (h : hexString s = .ok bs) : s.length < 2 ^ 31 := by
  rw [hexString] at h
  split at h
  · cases h
  · split at h
    · cases h
    · split at h
      · cases h
      · omega

theorem bitlistFromHex_iff' (s : List Byte) (v : List Bool) :
    bitlistFromHex s = .ok v ↔ IsLooseHex s (Spec.bitlist v) ∧ s.length % 2 = 0 ∧ s.length < 2 ^ 31 := by
  by_cases hs : s.length < 2 ^ 31
  · rw [bitlistFromHex_iff s hs]
    simp only [hs, and_true]
  · refine ⟨fun h => ?_, fun h => absurd h.2.2 hs⟩
    rw [bitlistFromHex] at h
    rcases hq : hexString s with bs | e | _
    · exact absurd (hexString_length hq) hs
    · rw [hq] at h; cases h
    · rw [hq] at h; cases h

theorem hexStoreFrom_append (n : Nat) (bs cs : List Byte) (i : Nat) (arr : List Bool) :
    hexStoreFrom n i (bs ++ cs) arr = hexStoreFrom n (i + bs.length) cs (hexStoreFrom n i bs arr) := by
  induction bs generalizing i arr with
  | nil => rfl
  | cons b bs ih =>
    rw [List.cons_append, hexStoreFrom, ih, hexStoreFrom, List.length_cons]
    congr 1
    omega

/-- The index starts over after 2^29 bytes. -/
theorem hexStoreFrom_wrap (n : Nat) (bs : List Byte) (i : Nat) (arr : List Bool) :
    hexStoreFrom n (2 ^ 29 + i) bs arr = hexStoreFrom n i bs arr := by
  induction bs generalizing i arr with
  | nil => rfl
  | cons b bs ih =>
    have : hexStoreByte n (2 ^ 29 + i) b arr = hexStoreByte n i b arr := by
      unfold hexStoreByte
      have : ∀ j, (BITS_PER_BYTE * (2 ^ 29 + i) + j) % 2 ^ 32 = (BITS_PER_BYTE * i + j) % 2 ^ 32 := by
        intro j
        simp only [BITS_PER_BYTE]
        omega
      simp only [this]
    rw [hexStoreFrom, hexStoreFrom, this, Nat.add_assoc, ih]

theorem getElem?_hexStoreFrom (n : Nat) (bs : List Byte) (hl : bs.length < 2 ^ 30) (i : Nat) (hi : i < n) :
    (hexStoreFrom n 0 bs (List.replicate n false))[i]? = some ((storedByte bs (i / 8)).getLsbD (i % 8)) := by
  have e : bs = bs.take (2 ^ 29) ++ bs.drop (2 ^ 29) := (List.take_append_drop _ _).symm
  have h1 : (bs.take (2 ^ 29)).length = min (2 ^ 29) bs.length := List.length_take
  have h2 : (bs.drop (2 ^ 29)).length = bs.length - 2 ^ 29 := List.length_drop
  have key : ∀ cs : List Byte, cs.length ≤ 2 ^ 29 → ∀ arr : List Bool, arr.length = n → (hexStoreFrom n 0 cs arr)[i]? =
      if i / 8 < cs.length then some ((cs.getD (i / 8) 0#8).getLsbD (i % 8)) else arr[i]? := by
    intro cs hc arr ha
    rw [hexStoreFrom_eq _ _ _ _ (by omega), getElem?_bitvectorStoreFrom _ _ _ _ ha]
    simp only [hi, Nat.zero_le, true_and, Nat.zero_add, Nat.mul_zero, Nat.sub_zero]
    rfl
  have htake : (hexStoreFrom n 0 (bs.take (2 ^ 29)) (List.replicate n false))[i]? =
      some (((bs.take (2 ^ 29)).getD (i / 8) 0#8).getLsbD (i % 8)) := by
    rw [key _ (by omega) _ List.length_replicate]
    split
    · rfl
    · rename_i h
      rw [List.getElem?_replicate, if_pos hi, List.getD_eq_default _ _ (by omega)]
      simp
  have hget : ∀ q, (bs.take (2 ^ 29)).getD q 0#8 = if q < 2 ^ 29 then bs.getD q 0#8 else 0#8 := by
    intro q
    rw [List.getD_eq_getElem?_getD, List.getElem?_take]
    split
    · rw [List.getD_eq_getElem?_getD]
    · rfl
  rw [storedByte]
  by_cases hb : bs.length ≤ 2 ^ 29
  · rw [List.take_of_length_le hb] at htake hget
    rw [htake]
    split
    · rw [List.getD_eq_default _ _ (by omega)]
    · rw [if_neg (by omega)]
  · have hs : hexStoreFrom n 0 bs (List.replicate n false) =
        hexStoreFrom n 0 (bs.drop (2 ^ 29)) (hexStoreFrom n 0 (bs.take (2 ^ 29)) (List.replicate n false)) := by
      conv_lhs => rw [e]
      rw [hexStoreFrom_append, h1, Nat.min_eq_left (by omega), Nat.zero_add]
      exact hexStoreFrom_wrap n _ 0 _
    rw [hs, key _ (by omega) _ ((length_hexStoreFrom _ _ _ _).trans List.length_replicate), htake, hget, h2]
    by_cases h3 : i / 8 < bs.length - 2 ^ 29
    · rw [if_pos h3, if_neg (by omega), if_pos (by omega)]
      simp only [List.getD_eq_getElem?_getD, List.getElem?_drop]
    · rw [if_neg h3]
      by_cases h4 : 2 ^ 29 ≤ i / 8
      · rw [if_pos h4, if_neg (by omega)]
      · rw [if_neg h4, if_pos (by omega), if_neg (by omega)]

/-- Below 2^30 characters nothing is overwritten. -/
theorem storedByte_short {bs : List Byte} (h : bs.length ≤ 2 ^ 29) (q : Nat) : storedByte bs q = bs.getD q 0#8 := by
  rw [storedByte]
  split
  · rw [List.getD_eq_default _ _ (by omega)]
  · rw [if_neg (by omega)]

theorem bitvectorFromHex_iff (n : Nat) (s : List Byte) (v : Vec Bool n) : bitvectorFromHex n s = .ok v ↔
    ∃ bs, IsLooseHex s bs ∧ s.length % 2 = 0 ∧ s.length < 2 ^ 31 ∧ ∀ i < n, v.1[i]? = some ((storedByte bs (i / 8)).getLsbD (i % 8)) := by
  have key : ∀ bs, IsLooseHex s bs → s.length < 2 ^ 31 → bs.length < 2 ^ 30 := by
    rintro bs ⟨cs, rfl, -, rfl⟩ hs
    have hl : (List.map (BitVec.ofNat 8) (Spec.pairDigits (cs.map fun c => (Spec.hexDigit c.toNat).getD 0))).length = (cs.length + 1) / 2 :=
      length_hexBytes cs
    simp only [List.length_cons] at hs
    rw [hl]
    omega
  rw [bitvectorFromHex]
  constructor
  · intro h
    rcases hq : hexString s with bs | e | _
    · rw [hq] at h
      have hs := hexString_length hq
      obtain ⟨h1, h2⟩ := (hexString_iff s bs hs).1 hq
      cases h
      exact ⟨bs, h1, h2, hs, fun i hi => getElem?_hexStoreFrom n bs (key bs h1 hs) i hi⟩
    · rw [hq] at h; cases h
    · rw [hq] at h; cases h
  · rintro ⟨bs, h1, h2, hs, h3⟩
    rw [(hexString_iff s bs hs).2 ⟨h1, h2⟩, Out.map]
    congr 1
    apply Subtype.ext
    apply List.ext_getElem?
    intro i
    by_cases hi : i < n
    · rw [h3 i hi]
      exact getElem?_hexStoreFrom n bs (key bs h1 hs) i hi
    · have hv := v.2
      rw [List.getElem?_eq_none, List.getElem?_eq_none]
      · omega
      · simp only [length_hexStoreFrom, List.length_replicate]
        omega

/-! ## Trees -/

theorem decodeElems_iff {α : Type} {R : α → Node → Prop} {f : Handle → Out (Bool × α)} :
    ∀ {ns : List Node} {l : List α}, (∀ n ∈ ns, ∀ x, f (some n) = .ok (true, x) ↔ R x n) → (decodeElems f ns = .ok l ↔ List.Forall₂ R l ns)
  | [], l, _ => by simp [decodeElems, eq_comm]
  | n :: ns, l, h => by
    have ih : ∀ l, decodeElems f ns = .ok l ↔ List.Forall₂ R l ns := fun l => decodeElems_iff fun m hm => h m (by simp [hm])
    rw [decodeElems]
    constructor
    · intro h1
      rcases hq : asT f n with x | e | _
      · rw [hq, Out.bind] at h1
        rcases hr : decodeElems f ns with xs | e | _
        · rw [hr, Out.map] at h1
          cases h1
          exact .cons ((h n (by simp) x).1 ((asT_iff f n x).1 hq)) ((ih xs).1 hr)
        · rw [hr] at h1; cases h1
        · rw [hr] at h1; cases h1
      · rw [hq] at h1; cases h1
      · rw [hq] at h1; cases h1
    · intro h1
      cases h1 with
      | cons h2 h3 =>
        rw [(asT_iff f n _).2 ((h n (by simp) _).2 h2), Out.bind, (ih _).2 h3]
        rfl

theorem keyIs_iff (key : List Byte) (n : Node) : keyIs key n = true ↔ n = .scalar key := by
  cases n <;> simp [keyIs]

theorem subscript_iff (l : List (Node × Node)) (key : List Byte) (m : Node) : subscript (some (.map l)) key = .ok (some m) ↔
    ∃ a b, l = a ++ (.scalar key, m) :: b ∧ ∀ e ∈ a, e.1 ≠ .scalar key := by
  constructor
  · intro h
    simp only [subscript, Out.ok.injEq, Option.map_eq_some_iff] at h
    obtain ⟨e, h1, rfl⟩ := h
    obtain ⟨h2, a, b, rfl, h3⟩ := List.find?_eq_some_iff_append.1 h1
    refine ⟨a, b, ?_, fun x hx hk => ?_⟩
    · rw [← (keyIs_iff key e.1).1 h2]
    · have := h3 x hx
      rw [(keyIs_iff key x.1).2 hk] at this
      cases this
  · rintro ⟨a, b, h1, h2⟩
    exact subscript_first h1 h2

mutual
theorem decode_iff : (t : Ty) → noEmpty t = true → (v old : t.denote) → (node : Node) →
    (decode t old (some node) = .ok (true, v) ↔ Accepts t v node)
  | .uint64, _, v, old, node => by
    rw [decode, Accepts]
    cases node with
    | scalar s => simp only [scalar?, Out.map, Out.ok.injEq, Node.scalar.injEq, exists_eq_left', readU64_iff]
    | _ => simp [scalar?, Out.map]
  | .boolean, _, v, old, node => by
    rw [decode, Accepts]
    cases node with
    | scalar s =>
      simp only [scalar?, Out.map, Out.ok.injEq, Node.scalar.injEq]
      rw [← readBool_iff]
      cases readBool s <;> simp
    | _ => simp [scalar?, Out.map]
  | .bytes n, _, v, old, node => by
    rw [decode, Accepts]
    cases node with
    | scalar s =>
      simp only [scalar?, Out.bind, Node.scalar.injEq]
      rw [map_vec_iff _ (fun l h => length_bytesFromStr h), bytesFromStr_iff]
      constructor
      · rintro ⟨bs, h⟩; exact ⟨s, bs, rfl, h⟩
      · rintro ⟨s, bs, rfl, h⟩; exact ⟨bs, h⟩
    | _ => simp [scalar?, Out.bind]
  | .bitvector n, _, v, old, node => by
    rw [decode, Accepts]
    cases node with
    | scalar s =>
      simp only [scalar?, Out.bind, Node.scalar.injEq]
      rw [map_list_iff _ _ _ (fun _ => rfl), bitvectorFromHex_iff n s]
      constructor
      · rintro ⟨bs, h⟩; exact ⟨s, bs, rfl, h⟩
      · rintro ⟨s, bs, rfl, h⟩; exact ⟨bs, h⟩
    | _ => simp [scalar?, Out.bind]
  | .bitlist n, _, v, old, node => by
    rw [decode, Accepts]
    cases node with
    | scalar s =>
      simp only [scalar?, Out.bind, Node.scalar.injEq]
      rw [map_list_iff _ _ _ (fun _ => rfl), bitlistFromHex_iff' s]
      simp only [exists_eq_left']
    | _ => simp [scalar?, Out.bind]
  | .vector t n, ht, v, old, node => by
    rw [noEmpty] at ht
    rw [decode, Accepts]
    cases node with
    | seq l =>
      have ih := decodeElems_iff (ns := l) (l := v.1) (f := fun x => decode t t.dflt x) (R := fun x m => Accepts t x m)
        fun m hm x => decode_iff t ht x _ m
      simp only [seq?, Out.bind, Node.seq.injEq, exists_eq_left']
      split
      · rename_i hl
        rw [map_vec_iff _ (fun l h => (length_decodeElems h).trans hl), ih]
      · rename_i hl
        refine ⟨fun h => (by cases h), fun h => absurd ?_ hl⟩
        rw [← h.length_eq]
        exact v.2
    | _ => simp [seq?, Out.bind]
  | .listF t n, ht, v, old, node => by
    rw [noEmpty] at ht
    rw [decode, Accepts]
    cases node with
    | seq l =>
      have ih := decodeElems_iff (ns := l) (l := v) (f := fun x => decode t t.dflt x) (R := fun x m => Accepts t x m)
        fun m hm x => decode_iff t ht x _ m
      simp only [seq?, Out.bind, Node.seq.injEq, exists_eq_left']
      rw [map_list_iff _ _ _ (fun _ => rfl), ih]
    | _ => simp [seq?, Out.bind]
  | .listV t n, ht, v, old, node => by
    rw [noEmpty] at ht
    rw [decode, Accepts]
    cases node with
    | seq l =>
      have ih := decodeElems_iff (ns := l) (l := v) (f := fun x => decode t t.dflt x) (R := fun x m => Accepts t x m)
        fun m hm x => decode_iff t ht x _ m
      simp only [seq?, Out.bind, Node.seq.injEq, exists_eq_left']
      rw [map_list_iff _ _ _ (fun _ => rfl), ih]
    | _ => simp [seq?, Out.bind]
  | .container _ _ ps, ht, v, old, node => by
    rw [decode, Accepts]
    cases ps with
    | nil => cases ht
    | cons name t ps =>
      have ht' : noEmptyParts (.cons name t ps) = true := ht
      constructor
      · intro h
        have hne : ∀ a b, t ≠ .container a b .nil := by rintro a b rfl; simp [noEmpty] at ht
        obtain ⟨m, h1⟩ := decodeParts_required _ old v _ h name t (by simp [Spec.partsList]) hne
        obtain ⟨l, e, h2, -⟩ := subscript_some h1
        cases h2
        exact ⟨l, rfl, (decodeParts_iff _ ht' v old l).1 h⟩
      · rintro ⟨l, rfl, h⟩
        exact (decodeParts_iff _ ht' v old l).2 h

theorem decodeParts_iff : (ps : Parts) → noEmptyParts ps = true → (v old : ps.denote) → (l : List (Node × Node)) → (decodeParts ps old (some (.map l)) = .ok (true, v) ↔ AcceptsParts ps v l)
  | .nil, _, v, old, l => by
    rw [decodeParts, AcceptsParts]
    simp
  | .cons name t ps, ht, v, old, l => by
    rw [noEmptyParts, Bool.and_eq_true] at ht
    have hne : ∀ a b, t ≠ .container a b .nil := by rintro a b rfl; simp [noEmpty] at ht
    have ih2 := decodeParts_iff ps ht.2 v.2 old.2 l
    rw [decodeParts, AcceptsParts, ← ih2, show chars name = ascii name from rfl]
    constructor
    · intro h
      rcases hq : subscript (some (.map l)) (ascii name) with x | e | _
      · rw [hq, Out.bind] at h
        cases x with
        | none => rw [decode_missing t _ hne] at h; cases h
        | some m =>
          rcases hr : decode t old.1 (some m) with ⟨_ | _, w⟩ | e | _
          · rw [hr] at h; cases h
          · rw [hr, Out.bind] at h
            simp only [if_true] at h
            rcases hp : decodeParts ps old.2 (some (.map l)) with ⟨b, ws⟩ | e | _
            · rw [hp, Out.map] at h
              cases h
              obtain ⟨a, b, h1, h2⟩ := (subscript_iff l _ m).1 hq
              exact ⟨⟨a, m, b, h1, h2, (decode_iff t ht.1 _ _ m).1 hr⟩, rfl⟩
            · rw [hp] at h; cases h
            · rw [hp] at h; cases h
          · rw [hr] at h; cases h
          · rw [hr] at h; cases h
      · rw [hq] at h; cases h
      · rw [hq] at h; cases h
    · rintro ⟨⟨a, m, b, h1, h2, h3⟩, h4⟩
      have hq := (subscript_iff l _ m).2 ⟨a, b, h1, h2⟩
      rw [hq, Out.bind, (decode_iff t ht.1 v.1 old.1 m).2 h3, Out.bind]
      simp only [if_true]
      rw [h4]
      rfl
end

end Mammon.Yaml
