import Verif.Props.NetworkCow
import Verif.Spec.Order
/-
What is stored in the nodes of a network, by the views of its layers.
-/
namespace Goslide.Network
open Goslide Node Lsh Configuration Spec.Node Spec.Network Layer Xcrepo

theorem memoryOf_at {F : Type} [GoFloat F] {w : World F} {p : Ptr} {n : Network F} {Q : List (State F)} (N : NetAt w p n Q) :
    memoryOf w p = some (Q.map (fun g => g.views.map (fun v => memory v.params))) := by
  unfold memoryOf
  rw [Props.learned_at N]
  simp [Function.comp_def]

end Goslide.Network
