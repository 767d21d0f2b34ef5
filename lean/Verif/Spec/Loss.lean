import Verif.Spec.Gradient
import Verif.Spec.Active
import Verif.Go.Real
import Mathlib.Analysis.SpecialFunctions.Log.Basic
import Mathlib.Analysis.Calculus.Deriv.Basic
/-
What training maximizes, over the real numbers: a function of the weights and biases, without memory and training states; and what
it should maximize.
-/
namespace Goslide.Spec.Network
open Goslide.Node Goslide.Spec.Node

/-- What the last layer contributes for the values `z` of its active nodes `ids`: the mean over the labels (only active labels
count) of the values, minus the logarithm of the sum of the exponentials divided by the batch size. -/
noncomputable def score (b m : ℝ) (labels ids : List Int) (z : Int → ℝ) : ℝ :=
  ((ids.filter (fun id => id ∈ labels)).map z).sum / labels.length
    - Real.log ((ids.map (fun id => Real.exp (z id - m))).sum + 1 / 10000000) / b

/-- The score of an example, as a function of the layers: all but the last are ReLU layers, `S` are the active nodes. -/
noncomputable def objective (b m : ℝ) (labels : List Int) : List (List (View ℝ)) → List (Pair ℝ) → List (List Int) → ℝ
  | [vs], data, ids :: _ => score b m labels ids (valueOf vs data)
  | vs :: us :: L, data, ids :: S => objective b m labels (us :: L) (outputs false vs data ids) S
  | _, _, _ => 0

/-- The largest value of an active node of the last layer, or 0. -/
noncomputable def topMax : List (List (View ℝ)) → List (Pair ℝ) → List (List Int) → ℝ
  | [vs], data, ids :: _ => maxValue vs data ids
  | vs :: us :: L, data, ids :: S => topMax (us :: L) (outputs false vs data ids) S
  | _, _, _ => 0

/-- No active node of a hidden layer has the pre-activation 0, where ReLU has no derivative. -/
def Smooth : List (List (View ℝ)) → List (Pair ℝ) → List (List Int) → Prop
  | vs :: us :: L, data, ids :: S =>
    (∀ id ∈ ids, ∀ v, vs[id.toNat]? = some v → preActivation v.params data ≠ 0) ∧ Smooth (us :: L) (outputs false vs data ids) S
  | _, _, _ => True

/-- Weight `q` of node `k` of layer `j` replaced by `u`. -/
def withWeight (V : List (List (View ℝ))) (j k q : Nat) (u : ℝ) : List (List (View ℝ)) :=
  V.modify j (fun vs => vs.modify k (fun v => { v with params := { v.params with weights := v.params.weights.set q u } }))

/-- The bias of node `k` of layer `j` replaced by `u`. -/
def withBias (V : List (List (View ℝ))) (j k : Nat) (u : ℝ) : List (List (View ℝ)) :=
  V.modify j (fun vs => vs.modify k (fun v => { v with params := { v.params with bias := u } }))

/-- The score of a batch of size `b`; the shifts are those of the layers `V0`. -/
noncomputable def batchObjective (b : ℝ) (V0 : List (List (View ℝ))) (es : List (Example ℝ)) (T : List (List (List Int)))
    (V : List (List (View ℝ))) : ℝ :=
  ((es.zip T).map (fun e => objective b (topMax V0 e.1.Features e.2) e.1.Labels V e.1.Features e.2)).sum

/-- The probability that the softmax function with the shift `m` gives to node `y`; the code adds `1e-7` to the sum. -/
noncomputable def prob (m : ℝ) (ids : List Int) (z : Int → ℝ) (y : Int) : ℝ :=
  Real.exp (z y - m) / ((ids.map (fun id => Real.exp (z id - m))).sum + 1 / 10000000)

/-- The mean over the labels of the logarithm of the probability: the negative cross entropy of the output and the uniform distribution
on the labels. -/
noncomputable def meanLog (m : ℝ) (labels ids : List Int) (z : Int → ℝ) : ℝ :=
  (labels.map (fun y => Real.log (prob m ids z y))).sum / labels.length

/-- The mean log-likelihood of the labels of an example. -/
noncomputable def likelihood (m : ℝ) (labels : List Int) : List (List (View ℝ)) → List (Pair ℝ) → List (List Int) → ℝ
  | [vs], data, ids :: _ => meanLog m labels ids (valueOf vs data)
  | vs :: us :: L, data, ids :: S => likelihood m labels (us :: L) (outputs false vs data ids) S
  | _, _, _ => 0

/-- The mean over the labels of the values of the label nodes. -/
noncomputable def labelMean (labels : List Int) : List (List (View ℝ)) → List (Pair ℝ) → List (List Int) → ℝ
  | [vs], data, _ :: _ => (labels.map (valueOf vs data)).sum / labels.length
  | vs :: us :: L, data, ids :: S => labelMean labels (us :: L) (outputs false vs data ids) S
  | _, _, _ => 0

/-- The log-likelihood of a batch. -/
noncomputable def batchLikelihood (V0 : List (List (View ℝ))) (es : List (Example ℝ)) (T : List (List (List Int))) (V : List (List (View ℝ))) : ℝ :=
  ((es.zip T).map (fun e => likelihood (topMax V0 e.1.Features e.2) e.1.Labels V e.1.Features e.2)).sum

/-- The biases of the last layer increased by `u`. -/
noncomputable def shiftLast (u : ℝ) : List (List (View ℝ)) → List (List (View ℝ))
  | [] => []
  | [vs] => [vs.map (fun v => { v with params := { v.params with bias := v.params.bias + u } })]
  | vs :: us :: L => vs :: shiftLast u (us :: L)

/-- All labels are active in the last layer. -/
def TopActive (labels : List Int) : List (List (View ℝ)) → List (List Int) → Prop
  | [_], ids :: _ => ids.Nodup ∧ ∀ y ∈ labels, y ∈ ids
  | _ :: us :: L, _ :: S => TopActive labels (us :: L) S
  | _, _ => False

/-- The active nodes of the last layer are softmax nodes. -/
def TopSoft : List (List (View ℝ)) → List (List Int) → Prop
  | [vs], ids :: _ => ∀ id ∈ ids, ∃ v, vs[id.toNat]? = some v ∧ v.params.nodeType = 1
  | _ :: us :: L, _ :: S => TopSoft (us :: L) S
  | _, _ => False

open Goslide.Network Goslide.Layer in
/-- Between the memories `w` and `w'` the network `p` has done an Adam update of every weight and bias with the partial derivatives of `J`
at the parameters in `w` (`J` is given the layers in `w` and the active nodes as parameters, and is a function of the layers). The active nodes `T` are
as `ActiveSets` says, and nothing is said if an active hidden node has pre-activation 0. -/
def Ascends (cfg : Configuration.Config ℝ) (a : NetArgs ℝ) (es : List (Example ℝ)) (iter : Int) (p : Ptr) (w w' : World ℝ)
    (J : List (List (View ℝ)) → List (List (List Int)) → List (List (View ℝ)) → ℝ) : Prop :=
  ∃ n Q Q' T, NetAt w p n Q ∧ NetAt w' p n Q' ∧ T.length = es.length ∧
    (∀ (k : Nat) (S : List (List Int)), T[k]? = some S → TrainedOn a.sparsity Q k S ∧ ∀ ex, es[k]? = some ex → ActiveSets cfg a ex S) ∧
    ((∀ ex S, (ex, S) ∈ es.zip T → Smooth (Q.map State.views) ex.Features S) →
      ∀ (j i : Nat) (g : State ℝ) (v : View ℝ), Q[j]? = some g → g.views[i]? = some v →
        ∃ g' v' G gb, Q'[j]? = some g' ∧ g'.views[i]? = some v' ∧ AdamStep (adamRate a.rate iter) v.params G gb v'.params ∧
          (∀ (q : Nat) (y : ℝ), v.params.weights[q]? = some y → ∃ gq, G[q]? = some gq ∧
            HasDerivAt (fun u => J (Q.map State.views) T (withWeight (Q.map State.views) j i q u)) gq y) ∧
          HasDerivAt (fun u => J (Q.map State.views) T (withBias (Q.map State.views) j i u)) gb v.params.bias)

/-- The labels of an example are distinct nodes of the last layer, and there is a label. -/
structure LabelsOk (a : NetArgs ℝ) (labels : List Int) : Prop where
  nodup : labels.Nodup
  nonempty : labels ≠ []
  range : ∀ size, a.sizes[(a.layers - 1).toNat]? = some size → ∀ y ∈ labels, 0 ≤ y ∧ y < size

end Goslide.Spec.Network
