import Verif.Spec.Order
/-
The weights of one feature, and training data in which the feature does not occur.
-/
namespace Goslide.Spec.Network
open Goslide.Layer Goslide.Spec.Node Xcrepo
variable {F : Type} [GoFloat F]

/-- The weight of feature `f` and its two moments, for every node of the first layer of the network at `p` (`none` where the vector is too short). -/
def column (w : World F) (p : Ptr) (f : Nat) : Option (List (Option F × Option F × Option F)) :=
  (memoryOf w p).bind (fun M => M.head?.map (List.map (fun m => (m.weights[f]?, m.mom[f]?, m.vel[f]?))))

/-- Feature `f` occurs in no example; there are no negative indices (the code would panic). -/
def Absent (f : Nat) (es : List (Example F)) : Prop := ∀ ex ∈ es, ∀ x ∈ ex.Features, 0 ≤ x.Index ∧ x.Index ≠ f

/-- A weight with its moments after an Adam step with gradient 0. -/
def coast (lr : F) : Option F × Option F × Option F → Option F × Option F × Option F
  | (some w, some m, some v) =>
    let m' := GoFloat.add (GoFloat.mul (GoFloat.const (9 / 10)) m) (GoFloat.mul (GoFloat.const (1 / 10)) GoFloat.zero)
    let v' := GoFloat.add (GoFloat.mul (GoFloat.const (999 / 1000)) v) (GoFloat.mul (GoFloat.mul (GoFloat.const (1 / 1000)) GoFloat.zero) GoFloat.zero)
    (some (GoFloat.add w (GoFloat.div (GoFloat.mul (GoFloat.mul GoFloat.one lr) m') (GoFloat.add (GoFloat.sqrt v') (GoFloat.const (1 / 100000000))))), some m', some v')
  | x => x

end Goslide.Spec.Network
