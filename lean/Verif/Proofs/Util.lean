import Mathlib.Tactic.ByContra
import Mathlib.Tactic.SplitIfs
import Mathlib.Tactic.Ring
import Mathlib.Tactic.Set
import Mathlib.Data.List.GetD
import Verif.Model.Basic
