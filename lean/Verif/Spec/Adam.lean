import Verif.Spec.Train
import Verif.Go.Real
/-
How far a training step moves the weights and biases.
-/
namespace Goslide.Spec.Network
open Goslide.Layer

/-- The weights and the bias of every node, layer by layer, read through the network pointer `p`. -/
def weightsOf {F : Type} (w : World F) (p : Ptr) : Option (List (List (List F × F))) :=
  (learned w p).map (List.map (fun x => x.1.map (fun P => (P.weights, P.bias))))

/-- Two networks of the same shape in which no weight and no bias differs by more than `d`. -/
def Near (d : ℝ) (X Y : List (List (List ℝ × ℝ))) : Prop :=
  List.Forall₂ (List.Forall₂ (fun x y => List.Forall₂ (fun a b => |b - a| ≤ d) x.1 y.1 ∧ |y.2 - x.2| ≤ d)) X Y

/-- The training steps among the calls. -/
def steps {F : Type} (calls : List (NetCall F)) : Nat :=
  calls.countP (fun c => match c with
    | .train _ _ _ _ => true
    | .predict _ => false)

/-- The iterations are counted from 0. -/
def Counted {F : Type} (calls : List (NetCall F)) : Prop := ∀ es iter rehash rebuild, NetCall.train es iter rehash rebuild ∈ calls → 0 ≤ iter

end Goslide.Spec.Network
