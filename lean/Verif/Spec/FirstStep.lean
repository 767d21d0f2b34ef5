import Verif.Spec.Loss
/-
What the first training step should do.
-/
namespace Goslide.Spec.Network
open Goslide.Node Goslide.Spec.Node Goslide.Network Goslide.Layer

/-- A step of length (almost) `r` in the direction of the sign of the derivative `d`; very small derivatives give smaller steps. -/
noncomputable def signStep (r x d : ℝ) : ℝ := x + r * (d / (|d| + √1000 / 100000000))

/-- Between the memories `w` and `w'` every weight and bias `x` of the network `p` has become `signStep a.rate x d`, where `d` is the partial derivative of
`J` at the parameters in `w` (`J` as in `Ascends`, the active nodes `T` too). -/
def Climbs (cfg : Configuration.Config ℝ) (a : NetArgs ℝ) (es : List (Example ℝ)) (p : Ptr) (w w' : World ℝ)
    (J : List (List (View ℝ)) → List (List (List Int)) → List (List (View ℝ)) → ℝ) : Prop :=
  ∃ n Q Q' T, NetAt w p n Q ∧ NetAt w' p n Q' ∧ T.length = es.length ∧
    (∀ (k : Nat) (S : List (List Int)), T[k]? = some S → TrainedOn a.sparsity Q k S ∧ ∀ ex, es[k]? = some ex → ActiveSets cfg a ex S) ∧
    ((∀ ex S, (ex, S) ∈ es.zip T → Smooth (Q.map State.views) ex.Features S) →
      ∀ (j i : Nat) (g : State ℝ) (v : View ℝ), Q[j]? = some g → g.views[i]? = some v →
        ∃ g' v', Q'[j]? = some g' ∧ g'.views[i]? = some v' ∧
          (∀ (q : Nat) (y : ℝ), v.params.weights[q]? = some y → ∃ d,
            HasDerivAt (fun u => J (Q.map State.views) T (withWeight (Q.map State.views) j i q u)) d y ∧ v'.params.weights[q]? = some (signStep a.rate y d)) ∧
          ∃ d, HasDerivAt (fun u => J (Q.map State.views) T (withBias (Q.map State.views) j i u)) d v.params.bias ∧ v'.params.bias = signStep a.rate v.params.bias d)

end Goslide.Spec.Network
