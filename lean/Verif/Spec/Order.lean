import Verif.Spec.Train
/-
What training depends on if all layers are full.
-/
namespace Goslide.Spec.Network
open Goslide.Layer Goslide.Spec.Node Xcrepo
variable {F : Type} [GoFloat F]

/-- The weights, the bias and their moments. -/
structure Memory (F : Type) where
  weights : List F
  bias : F
  mom : List F
  vel : List F
  momBias : F
  velBias : F

/-- The weights, bias and moments of a node. -/
def memory (P : Params F) : Memory F := ⟨P.weights, P.bias, P.mom, P.vel, P.momBias, P.velBias⟩

/-- The weights, biases and moments of every node, layer by layer, read through the network pointer `p`. -/
def memoryOf (w : World F) (p : Ptr) : Option (List (List (Memory F))) := (learned w p).map (List.map (fun x => x.1.map memory))

/-- The batches among the calls, with their iteration numbers. -/
def batches (calls : List (NetCall F)) : List (List (Example F) × Int) :=
  calls.filterMap (fun c => match c with
    | .train es iter _ _ => some (es, iter)
    | .predict _ => none)

/-- The same batches one after the other, up to the order of the examples inside a batch; the other calls and the flags `rehash` and `rebuild` are
free. -/
def Reordered (calls calls' : List (NetCall F)) : Prop :=
  (batches calls).length = (batches calls').length ∧
    ∀ (k : Nat) (x y : List (Example F) × Int), (batches calls)[k]? = some x → (batches calls')[k]? = some y → x.1.Perm y.1 ∧ x.2 = y.2

end Goslide.Spec.Network
