import Verif.Go.Real
import Verif.Spec.Active
/-
Nodes of the first layer that do not react to the examples.
-/
namespace Goslide.Spec.Network
open Goslide.Layer Goslide.Spec.Node Goslide.Node Configuration Xcrepo

/-- The node does not react to the features: `bias + Σ weight*value` is negative. -/
def Dead (m : Memory ℝ) (data : List (Pair ℝ)) : Prop :=
  m.bias + (data.map (fun x => (m.weights[x.Index.toNat]?).getD 0 * x.Value)).sum < 0

/-- The number of examples for which node `i` of layer `j` is active. -/
def timesActive (T : List (List (List Int))) (j i : Nat) : Nat := T.countP (fun S => decide ((i : Int) ∈ (S[j]?).getD []))

end Goslide.Spec.Network
