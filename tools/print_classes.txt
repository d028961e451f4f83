import Verif.Model.Source
/-! Prints the class declarations and constants of the model in the format of `extract_classes.py` (see `compare_classes.py`). -/
open Mammon Mammon.Source

def ex : CExpr → String
  | .lit n => toString n
  | .const s => s
  | .add a b => ex a ++ " + " ++ ex b
  | .mul a b => ex a ++ " * " ++ ex b

def ty : CType → String × String
  | .named s => (s, "")
  | .bitlist l => ("Bitlist", ex l)
  | .bitvector n => (s!"Bitvector<{ex n}>", "")
  | .vector e n => (s!"VectorFixedSizedParts<{e}, {ex n}>", "")
  | .listFixed e l => (s!"ListFixedSizedParts<{e}>", ex l)
  | .listVariable e l => (s!"ListVariableSizedParts<{e}>", ex l)

def main : IO Unit := do
  for c in Source.all do
    IO.println s!"class {c.name}"
    for (n, t) in c.members do
      let (a, i) := ty t
      let init := if i = "" then "" else "{" ++ i ++ "}"
      IO.println s!"  member {n} : {a} {init}"
    IO.println ("  size " ++ (match c.sszSize with | some e => ex e | none => "-"))
    IO.println ("  equality " ++ if c.ownEq then "defaulted" else "inherited")
    IO.println ("  serialize " ++ " ".intercalate c.serialize)
    IO.println ("  deserialize " ++ " ".intercalate c.deserialize)
    IO.println ("  hash_tree " ++ " ".intercalate c.hashTree)
    IO.println ("  encode " ++ " ".intercalate (c.encode.map fun x => x.1 ++ "=" ++ x.2))
    IO.println ("  decode " ++ " ".intercalate (c.decode.map fun x => x.1 ++ "=" ++ x.2))
    IO.println ("  getters " ++ " ".intercalate (c.getters.map fun x => x.1 ++ "=" ++ x.2))
  for (n, p) in [("mainnet", mainnet), ("minimal", minimal)] do
    for s in ["MAX_VALIDATORS_PER_COMMITTEE", "SLOTS_PER_EPOCH", "EPOCHS_PER_ETH1_VOTING_PERIOD", "SLOTS_PER_HISTORICAL_ROOT",
        "EPOCHS_PER_HISTORICAL_VECTOR", "EPOCHS_PER_SLASHINGS_VECTOR", "HISTORICAL_ROOTS_LIMIT", "VALIDATOR_REGISTRY_LIMIT",
        "MAX_PROPOSER_SLASHINGS", "MAX_ATTESTER_SLASHINGS", "MAX_ATTESTATIONS", "MAX_DEPOSITS", "MAX_VOLUNTARY_EXITS"] do
      IO.println s!"preset {n} {s} {(constant p s).get!}"
  for s in ["DEPOSIT_CONTRACT_TREE_DEPTH", "JUSTIFICATION_BITS_LENGTH"] do
    IO.println s!"constant {s} {(constant mainnet s).get!}"
