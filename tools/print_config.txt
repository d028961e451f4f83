import Verif.Model.Config
open Mammon Config
-- Prints the declarations of the constants of the model, one per line; see compare_config.py.

def kind : Kind → String
  | .uint64 => "uint64" | .uint => "uint" | .int => "int" | .slot => "slot" | .bytes n => s!"bytes{n}"

def init : Init → String
  | .dec n => s!"dec {n}" | .hex n => s!"hex {n}" | .hexULL n => s!"hexull {n}" | .str s => s!"str {s}"

def main : IO Unit := do
  for (f, ds) in [("config/mainnet.hpp.in", mainnetDecls), ("config/minimal.hpp.in", minimalDecls), ("config/constants.hpp", constantDecls),
      ("ssz/ssz.hpp", sszDecls)] do
    for d in ds do IO.println s!"{f} {d.name} {kind d.kind} {init d.init}"
