import Verif.Spec.Order
/-
Training on empty batches, which the program does when the training file has fewer examples than the configuration says.
-/
namespace Goslide.Spec.Network
open Goslide.Layer Goslide.Spec.Node Xcrepo
variable {F : Type} [GoFloat F]

/-- A node after an Adam step with gradients 0: the moments decay, and the weights and the bias go on moving. -/
def drift (lr : F) (m : Memory F) : Memory F :=
  let mom (x : F) := GoFloat.add (GoFloat.mul (GoFloat.const (9 / 10)) x) (GoFloat.mul (GoFloat.const (1 / 10)) GoFloat.zero)
  let vel (x : F) := GoFloat.add (GoFloat.mul (GoFloat.const (999 / 1000)) x) (GoFloat.mul (GoFloat.mul (GoFloat.const (1 / 1000)) GoFloat.zero) GoFloat.zero)
  let move (w m v : F) := GoFloat.add w (GoFloat.div (GoFloat.mul (GoFloat.mul GoFloat.one lr) m) (GoFloat.add (GoFloat.sqrt v) (GoFloat.const (1 / 100000000))))
  { weights := List.zipWith (fun w x => move w x.1 x.2) m.weights ((m.mom.map mom).zip (m.vel.map vel))
    bias := move m.bias (mom m.momBias) (vel m.velBias)
    mom := m.mom.map mom
    vel := m.vel.map vel
    momBias := mom m.momBias
    velBias := vel m.velBias }

end Goslide.Spec.Network
