import Verif.Model.TestDriver
/-!
# The loops of the conformance test driver over the file system (beacon-chain/test/test_ssz.cpp:44-46)

The directory of a class holds suites, these hold cases, and these hold files.
-/

namespace Mammon.TestTree

open Yaml (Node Handle)
open TestDriver

/-- An entry of a directory (beacon-chain/test/test_ssz.cpp:44-46). Of a file the model has what the driver can make of its contents: the tree `YAML::LoadFile`
reads from it, `none` if it does not parse, and the bytes `snappy::RawUncompress` makes of it, `none` if it fails. A directory has its entries by name, in the
order in which `fs::directory_iterator` goes through them. -/
inductive Entry : Type
  | file (yaml : Option Node) (raw : Option (List Byte))
  | dir (entries : List (String × Entry))

/-- `fs::directory_iterator(p)` (beacon-chain/test/test_ssz.cpp:44-46): throws `std::filesystem::filesystem_error` unless `p` is a directory. -/
def entriesOf : Option Entry → Out (List (String × Entry))
  | some (.dir l) => .ok l
  | some (.file _ _) => .throws .filesystemError
  | none => .throws .filesystemError

/-- The entry of a directory with a given name (the paths of beacon-chain/test/test_ssz.cpp:47,50,56). -/
def lookup (entries : List (String × Entry)) (name : String) : Option Entry :=
  (entries.find? fun e => e.1 == name).map fun e => e.2

/-- `YAML::LoadFile(p2.path().string() + name)` (beacon-chain/test/test_ssz.cpp:47,50): throws `YAML::BadFile` if there is no such file and
`YAML::ParserException` if it does not parse. A directory of that name is taken for no file. -/
def loadFile (case : List (String × Entry)) (name : String) : Out Node :=
  match lookup case name with
  | some (.file (some n) _) => .ok n
  | some (.file none _) => .throws .yamlParserException
  | some (.dir _) => .throws .yamlBadFile
  | none => .throws .yamlBadFile

/-- Opening and reading `serialized.ssz_snappy` (beacon-chain/test/test_ssz.cpp:56-65): throws `std::filesystem::filesystem_error` if it cannot be
opened, or, by `file_size`, if it is a directory. -/
def openSnappy (case : List (String × Entry)) : Out (Option (List Byte)) :=
  match lookup case "serialized.ssz_snappy" with
  | some (.file _ raw) => .ok raw
  | some (.dir _) => .throws .filesystemError
  | none => .throws .filesystemError

/-- The body of the loops of `test_ssz` for the case `p2` (beacon-chain/test/test_ssz.cpp:47-86). It does not look at `p3`. -/
def runCase {α : Type} (ops : Ops α) (case : List (String × Entry)) : Out Checks :=
  (loadFile case "value.yaml").bind fun value =>
  (Yaml.asT ops.decode value).bind fun v =>
  (ops.hashTreeRoot v).bind fun computed =>
  (loadFile case "roots.yaml").bind fun roots =>
  (readRoot roots).bind fun root =>
  (ops.serialize v).bind fun serialized =>
  (openSnappy case).bind fun raw =>
  (uncompress raw serialized.length).bind fun output =>
  (ops.deserialize output).bind fun obj =>
  .ok ⟨computed == root, ops.eq obj v, serialized == output⟩

/-- A loop over the entries of a directory (beacon-chain/test/test_ssz.cpp:44-46): the checks of all rounds, in order. An exception ends it. -/
def forEach {β : Type} (body : β → Out (List Checks)) : List β → Out (List Checks)
  | [] => .ok []
  | b :: bs => (body b).bind fun cs => (forEach body bs).map fun rest => cs ++ rest

/-- `test_ssz` (beacon-chain/test/test_ssz.cpp:42-87) with the three loops; `base` is what there is at `base_path`. -/
def testSsz {α : Type} (ops : Ops α) (base : Option Entry) : Out (List Checks) :=
  (entriesOf base).bind fun suites =>
  forEach (fun p1 => (entriesOf (some p1.2)).bind fun cases =>
    forEach (fun p2 => (entriesOf (some p2.2)).bind fun case =>
      forEach (fun _p3 => (runCase ops case).map fun c => [c]) case) cases) suites

/-- Whether acutest reports success of a test (include/acutest.h:993-1087, 1118-1121): the test ended without an exception (1060-1080 count one as a failed
check) and no `TEST_CHECK` had the value false (1057). Whatever undefined behaviour does to the test is left undefined. -/
def reported (r : Out (List Checks)) : Out Bool :=
  match r with
  | .ok cs => .ok (cs.all fun c => c.root && c.object && c.serialization)
  | .throws _ => .ok false
  | .ub => .ub

end Mammon.TestTree
