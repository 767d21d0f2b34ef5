import Verif.Spec.Node
/-
The scores by which mode 3 orders the nodes of a softmax layer.
-/
namespace Goslide.Spec.Layer
open Spec.Node
variable {F : Type} [GoFloat F]

/-- `Σ value*weight + bias` in the order of `data`. -/
def score (P : Params F) (data : List (Pair F)) : F :=
  GoFloat.add (data.foldl (fun acc x =>
    GoFloat.add acc (GoFloat.mul x.Value ((P.weights[x.Index.toNat]?).getD GoFloat.zero))) GoFloat.zero) P.bias

/-- The sorting key of node `i`: minus its score, and -10^9 for labels. -/
def rank (P : Nat → Params F) (data : List (Pair F)) (label : List Int) (i : Nat) : F :=
  if (i : Int) ∈ label then GoFloat.const (-1000000000) else GoFloat.neg (score (P i) data)

/-- Node `i` precedes node `j`: smaller key, or no greater key and smaller number. -/
def Before (P : Nat → Params F) (data : List (Pair F)) (label : List Int) (i j : Nat) : Prop :=
  GoFloat.lt (rank P data label i) (rank P data label j) = true ∨
  GoFloat.lt (rank P data label j) (rank P data label i) = false ∧ i < j

end Goslide.Spec.Layer
