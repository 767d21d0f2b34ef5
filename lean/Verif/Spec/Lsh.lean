import Verif.Model.Lsh
/-
Specification of the LSH tables: every cell (table, index) has its own list of ids.
-/
namespace Goslide.Spec
open Lsh (Op)

/-- The ids that one operation puts into cell (t, i), given the ids `h` already there. -/
def cellStep (t i : Nat) (h : List Int) : Op → List Int
  | .add indices id => if indices[t]? = some (i : Int) then h ++ [id] else h
  | .addSingle t' i' id => if t' = (t : Int) ∧ i' = (i : Int) then h ++ [id] else h
  | .clear => []

/-- All ids added to cell (t, i) since the last Clear, oldest first. -/
def cellHistory (ops : List Op) (t i : Nat) : List Int := ops.foldl (cellStep t i) []

end Goslide.Spec
