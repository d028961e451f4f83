import Verif.Proofs.CppBytes
import Verif.Props.Helpers
/-!
# C80: the text of the operators and constructors of `Bytes` and of the reading of hexadecimal digits, run as C++
-/

namespace Mammon.Cpp
open Nasm

/-- **C80** The text of `operator^=` replaces every byte by the exclusive or of the two bytes at its place and leaves the other operand as it is; an array
combined with itself becomes zero. (`int i < N` is why `N` has to be less than `2 ^ 31`.) -/
theorem C80_xor {N : Nat} (hN : N < 2 ^ 31) (a b : BytesN N) : ∃ f, bytesOperator (name% "^=") 0 = some f ∧
    ∃ c : BytesN N, (∀ (i : Nat) (x y : Byte), a.1[i]? = some x → b.1[i]? = some y → c.1[i]? = some (x ^^^ y)) ∧
    ∀ fs int elem E fuel d, N < fuel →
      run fs int elem E fuel d f [.ref (.glob 1)] (bytesGlobals N N (.bytes a.1) (.bytes b.1)) [] = .ok (.void, bytesGlobals N N (.bytes c.1) (.bytes b.1), []) ∧
      run fs int elem E fuel d f [.ref (.glob 0)] (bytesGlobals N N (.bytes a.1) (.bytes b.1)) [] =
        .ok (.void, bytesGlobals N N (.bytes (List.replicate N 0#8)) (.bytes b.1), []) := by
  obtain ⟨c, h, hl, hc⟩ := C33_xor a b
  refine ⟨_, xorF_read, ⟨c, hl⟩, hc, fun fs int elem E fuel d hf => ⟨?_, ?_⟩⟩
  · rw [xor_run fs int elem E fuel d N N a.1 b.1 hN a.2 b.2 hf, show xorLoop b.1 (List.range N) a.1 = .ok c from h]
    rfl
  · exact xor_self_run fs int elem E fuel d N N a.1 _ hN a.2 hf

/-- **C80** The texts of the two operators `==` compare all bytes, and the number of bytes of a vector; they change nothing. -/
theorem C80_equal {N : Nat} (hN : N < 2 ^ 31) (a b : BytesN N) (r : List Byte) (hr : r.length < 2 ^ 64) : ∃ f g,
    bytesOperator (name% "==") 0 = some f ∧ bytesOperator (name% "==") 1 = some g ∧ ∀ fs int elem E fuel d, N < fuel →
      run fs int elem E fuel d f [.ref (.glob 1)] (bytesGlobals N N (.bytes a.1) (.bytes b.1)) [] =
        .ok (.bool (decide (a = b)), bytesGlobals N N (.bytes a.1) (.bytes b.1), []) ∧
      run fs int elem E fuel d g [.ref (.glob 1)] (bytesGlobals N N (.bytes a.1) (.bytes r)) [] =
        .ok (.bool (decide (a.1 = r)), bytesGlobals N N (.bytes a.1) (.bytes r), []) := by
  refine ⟨_, _, equalF_read, equalVectorF_read, fun fs int elem E fuel d hf => ⟨?_, equal_vector_run fs int elem E fuel d N N a.1 r hN a.2 hr hf⟩⟩
  rw [equal_run fs int elem E fuel d N a.1 b.1, show (a.1 == b.1) = decide (a = b) by rw [Bool.beq_eq_decide_eq]; exact decide_eq_decide.mpr Subtype.ext_iff.symm]

/-- **C80** The text of `operator+` returns the bytes of the left and then those of the right operand, whatever the uninitialised array holds. -/
theorem C80_concat {N M : Nat} (hN : N + M < 2 ^ 64) (a : BytesN N) (b : BytesN M) : ∃ f, bytesOperator (name% "+") 0 = some f ∧ ∀ fs int elem E fuel d,
    run fs int elem E fuel d f [.ref (.glob 1)] (bytesGlobals N M (.bytes a.1) (.bytes b.1)) [] =
      .ok (.bytes (a.1 ++ b.1), bytesGlobals N M (.bytes a.1) (.bytes b.1), []) :=
  ⟨_, concatF_read, fun fs int elem E fuel d => concat_run fs int elem E fuel d N M a.1 b.1 hN a.2 b.2⟩

/-- **C80** The text of `bytes_from_int` returns an array with the `i`-th base 256 digit of the value at index `i`, if the type of the value has at most `N`
bytes, for values of every unsigned type; and has undefined behaviour otherwise. -/
theorem C80_from_int (N : Nat) (hN : N < 2 ^ 64) (t : IT) : ∃ f, bytesText (name% "bytes_from_int") = some f ∧
    (t.bits / 8 ≤ N → ∀ x : Nat, x < 2 ^ t.bits → ∃ a : BytesN N, (∀ i, i < N → a.1[i]? = some (BitVec.ofNat 8 (x / 256 ^ i))) ∧ ∀ fs int elem E fuel d,
      run fs int elem E fuel d f [.int t x] (hexGlobals N) [] = .ok (.bytes a.1, hexGlobals N, [])) ∧
    (N < t.bits / 8 → ∀ (x : Int) fs int elem E fuel d, run fs int elem E fuel d f [.int t x] (hexGlobals N) [] = .ub) := by
  refine ⟨_, fromIntF_read, fun hk x hx => ?_, fun hk x fs int elem E fuel d => ?_⟩
  · have e : 2 ^ t.bits = 256 ^ (t.bits / 8) := by cases t <;> decide
    obtain ⟨a, h, hl, ha⟩ := C31_from_int N (t.bits / 8) x hk (e ▸ hx)
    refine ⟨⟨a, hl⟩, ha, fun fs int elem E fuel d => ?_⟩
    rw [from_int_run fs int elem E fuel d N t x hN, BitVec.ofInt_natCast, BitVec.toNat_ofNat, Nat.mod_eq_of_lt hx, h]
    rfl
  · rw [from_int_run fs int elem E fuel d N t x hN, bytesFromInt, if_neg (by omega)]
    rfl

/-- **C80** The text of the constructor of `Table` fills the table of the digits, whatever was in the memory; the text of its `operator[]` returns the value of a character that is a
hexadecimal digit and 0 for the other characters up to 127; for a negative `char` the behaviour is undefined. -/
theorem C80_table : ∃ f g, tableText = (some f, some g) ∧ ∀ fs int elem E fuel d,
    (∀ l : List Int, l.length = 128 → run fs int elem E fuel d f [] [(name% "tab", .longs l)] [] = .ok (.void, [(name% "tab", .longs (hexTable.map Int.ofNat))], [])) ∧
    ∀ c : Byte, run fs int elem E fuel d g [.int .i8 c.toInt] [(name% "tab", .longs (hexTable.map Int.ofNat))] [] =
      if c.toNat < 128 then .ok (.int .i64 ((Spec.hexDigit c.toNat).getD 0 : Nat), [(name% "tab", .longs (hexTable.map Int.ofNat))], []) else .ub := by
  refine ⟨tableF, tableAtF, by rw [tableText, tableF_read, tableAtF_read], fun fs int elem E fuel d => ⟨table_run fs int elem E fuel d, fun c => ?_⟩⟩
  rw [table_at_run fs int elem E fuel d c _ rfl, ← hexVal]
  by_cases h : c.toNat < 128
  · rw [hextoint_of_lt h, if_pos h]; rfl
  · rw [hextoint_of_ge h, if_neg h]; rfl

theorem hexCalled_eq : find (name% "hextoint") hexCalled = some hextointF ∧ find (name% "strhex2int") hexCalled = some strhexF ∧
    find (name% "chars_to_byte") hexCalled = some charsF := by
  rw [hexCalled, bytesText, helperText, helperText, charsF_read, strhexF_read, hextointF_read]
  exact ⟨by kernel_refl, by kernel_refl, by kernel_refl⟩

/-- **C80** The text of `bytes_from_str`, with the functions it calls, does what the model says, for strings of less than 2 GiB: in particular C32 speaks of the text. -/
theorem C80_from_str (N : Nat) (hN : 2 * N + 2 < 2 ^ 64) (str : List Byte) (hl : str.length + 2 < 2 ^ 31) : ∃ f, bytesText (name% "bytes_from_str") = some f ∧
    ∀ int elem E fuel d, str.length + 3 < fuel → 3 ≤ d →
      run hexCalled int elem E fuel d f [.chars str] (hexGlobals N) [] = (Res.of (bytesFromStr N str)).bind fun l => .ok (.bytes l, hexGlobals N, []) := by
  refine ⟨_, fromStrF_read, fun int elem E fuel d hf hd => ?_⟩
  obtain ⟨d, rfl⟩ := Nat.exists_eq_add_of_le' hd
  obtain ⟨h1, h2, h3⟩ := hexCalled_eq
  exact from_str_run hexCalled int elem E fuel d h1 h2 h3 N hN str hl hf

/-- **C80** So the text of `bytes_from_str` accepts `0x` and at most `2 * N` hexadecimal digits and returns the bytes they denote, followed by zeros; it raises an
exception if the prefix is missing or the string is longer, and its behaviour is undefined exactly if, prefix and length being right, a character has its high bit set. -/
theorem C80_parse (N : Nat) (hN : 2 * N + 2 < 2 ^ 64) (str : List Byte) (hl : str.length + 2 < 2 ^ 31) : ∃ f, bytesText (name% "bytes_from_str") = some f ∧
    ∀ int elem E fuel d, str.length + 3 < fuel → 3 ≤ d → ∃ r, run hexCalled int elem E fuel d f [.chars str] (hexGlobals N) [] = r ∧
      (∀ s ds, str = hexPrefix ++ s → isDigits s ds → s.length ≤ 2 * N →
        r = .ok (.bytes ((Spec.pairDigits ds).map (BitVec.ofNat 8) ++ List.replicate (N - (ds.length + 1) / 2) 0#8), hexGlobals N, [])) ∧
      ((¬ ∃ s, str = hexPrefix ++ s) → r = .throws .invalidArgument) ∧
      (∀ s, str = hexPrefix ++ s → s.length > 2 * N → r = .throws .outOfRange) ∧
      (r = .ub ↔ ∃ s, str = hexPrefix ++ s ∧ s.length ≤ 2 * N ∧ ∃ c ∈ s, 128 ≤ c.toNat) := by
  obtain ⟨f, hf, h⟩ := C80_from_str N hN str hl
  obtain ⟨h1, h2, h3⟩ := C32_parse_partial N str
  refine ⟨f, hf, fun int elem E fuel d hfu hd => ⟨_, h int elem E fuel d hfu hd, fun s ds e hs hn => ?_, fun hs => ?_, fun s e hs => ?_, ?_⟩⟩
  · rw [h1 s ds e hs hn]; rfl
  · rw [h2 hs]; rfl
  · rw [h3 s e hs]; rfl
  · rw [← C32_undefined_iff N str]
    cases bytesFromStr N str with
    | ok l => exact ⟨(fun h => nomatch h), (fun h => nomatch h)⟩
    | throws e => exact ⟨(fun h => nomatch h), (fun h => nomatch h)⟩
    | ub => exact ⟨fun _ => rfl, fun _ => rfl⟩

/-- The value of a result that is an array. -/
def arrayIn : Res (Val × Frame × List Obj) → Option (List Byte)
  | .ok (.bytes l, _) => some l
  | _ => none

/-- Something to run with: the uninitialised bytes are 7. -/
def sevens : Env := ⟨0, fun a _ => a, fun _ => 7#8⟩

/-- What running the texts gives: `0xaB1` as four bytes, -2 as a `std::int32_t` in six bytes. -/
example : arrayIn (run [charsF, strhexF, hextointF] none none sevens 300 9 fromStrF [.chars [0x30#8, 0x78#8, 0x61#8, 0x42#8, 0x31#8]] (hexGlobals 4) []) = some [0xab#8, 1#8, 0#8, 0#8] := by
  decide +kernel
example : arrayIn (run [charsF, strhexF, hextointF] none none sevens 300 9 fromIntF [.int .i32 (-2)] (hexGlobals 6) []) = some [0xfe#8, 0xff#8, 0xff#8, 0xff#8, 0#8, 0#8] := by
  decide +kernel
example : arrayIn (run [] none none sevens 300 9 concatF [.ref (.glob 1)] (bytesGlobals 2 1 (.bytes [1#8, 2#8]) (.bytes [3#8])) []) = some [1#8, 2#8, 3#8] := by
  decide +kernel
/-- The hypotheses hold: arrays of 48 bytes, and the string above. -/
example : 48 < 2 ^ 31 ∧ IT.u64.bits / 8 ≤ 48 ∧ 8 < (48 : Nat) ∧ 2 * 48 + 2 < 2 ^ 64 ∧ [0x30#8, 0x78#8, 0x61#8, 0x42#8, 0x31#8].length + 2 < 2 ^ 31 ∧
    isDigits [0x61#8, 0x42#8, 0x31#8] [10, 11, 1] := ⟨by decide, by decide, by decide, by decide, by decide, by simp [isDigits, Spec.hexDigit]⟩

/-- What a text that starts from the first digit computes: running it finds the error. -/
example : (match (read (codes ["class Bytes {", "    static auto bytes_from_str(const std::string_view &str) -> std::array<std::uint8_t, N> {",
      "        std::array<std::uint8_t, N> ret_arr{};", "        for (int i = 0; i < str.size(); i += 2) ret_arr[i / 2] = chars_to_byte(str.substr(i, 2));",
      "        return ret_arr;", "    }", "};"])).bind fun l => memberFunction l (name% "Bytes") (name% "bytes_from_str") with
    | some f => arrayIn (run [charsF, strhexF, hextointF] none none sevens 300 9 f [.chars [0x30#8, 0x78#8, 0x61#8, 0x42#8]] (hexGlobals 2) [])
    | none => none) = some [0#8, 0xab#8] := by decide +kernel

end Mammon.Cpp
