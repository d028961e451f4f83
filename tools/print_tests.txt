import Verif.Model.Programs
import Verif.Model.Access
/-! Prints the tables of the test programs of the model (see `compare_tests.py`). -/
open Mammon

def bytes (l : List Byte) : String := " ".intercalate (l.map fun b => toString b.toNat)

def main : IO Unit := do
  IO.println ("test_8_block " ++ bytes ShaTest.test_8_block)
  IO.println ("test_1_digest " ++ bytes ShaTest.test_1_digest)
  IO.println ("test_4_digests " ++ bytes ShaTest.test_4_digests)
  IO.println ("test_8_digests " ++ bytes ShaTest.test_8_digests)
  for (n, c, d) in TestDriver.tests do
    IO.println s!"test {n} {c} {d}"
  IO.println s!"BENCH_ROUNDS {Bench.BENCH_ROUNDS}"
  for c in BytesTest.fromInt do
    IO.println s!"from_int {c.size} {c.value} {bytes c.expected}"
  for c in BytesTest.toInt do
    IO.println s!"to_int {c.1.length} {c.2} {bytes c.1}"
  for t in BytesTest.run do
    IO.println s!"bytes_test {t.1}"
