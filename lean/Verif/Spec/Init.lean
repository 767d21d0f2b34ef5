import Verif.Spec.Order
/-
The parameters of a new network as a function of the normally distributed draws.
-/
namespace Goslide.Spec.Network
open Goslide
variable {F : Type} [GoFloat F]

/-- A draw of the standard normal distribution, brought to standard deviation 1/100 and mean 0. -/
def scaled (z : F) : F := GoFloat.add (GoFloat.mul z (GoFloat.const (1 / 100))) GoFloat.zero

/-- Node `i` of a new layer of `n` nodes with `inputs` inputs: the draws are used for the weights of the first node, of the second node, ..., and then for the biases. -/
def initialNode (adam : Bool) (f : Nat → F) (inputs n i : Nat) : Memory F :=
  { weights := (List.range inputs).map (fun k => scaled (f (inputs * i + k)))
    bias := scaled (f (n * inputs + i))
    mom := if adam then List.replicate inputs GoFloat.zero else []
    vel := if adam then List.replicate inputs GoFloat.zero else []
    momBias := GoFloat.zero, velBias := GoFloat.zero }

/-- New layers of the given sizes, the first of them with `inputs` inputs; each layer goes on with the draws that the one before has left. -/
def initialLayers (adam : Bool) : (Nat → F) → Nat → List Int → List (List (Memory F))
  | _, _, [] => []
  | f, inputs, size :: sizes => (List.range size.toNat).map (initialNode adam f inputs size.toNat) ::
      initialLayers adam (fun i => f (i + size.toNat + size.toNat * inputs)) size.toNat sizes

/-- The number of weights and biases of layers of the given sizes. -/
def parameterCount : Nat → List Int → Nat
  | _, [] => 0
  | inputs, size :: sizes => size.toNat * inputs + size.toNat + parameterCount size.toNat sizes

/-- All weights and biases: for each layer the weights of its nodes, then their biases. -/
def parametersOf (M : List (List (Memory F))) : List F := M.flatMap (fun l => l.flatMap Memory.weights ++ l.map Memory.bias)

end Goslide.Spec.Network
