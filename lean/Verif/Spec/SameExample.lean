import Verif.Go.Real
import Verif.Spec.Order
/-
Different ways of writing the same example.
-/
namespace Goslide.Spec.Network
open Goslide.Xcrepo

/-- The value of feature `f`: the sum of the values that are given for it. -/
noncomputable def featureValue (data : List (Pair ℝ)) (f : Int) : ℝ := ((data.filter (fun x => x.Index = f)).map Pair.Value).sum

/-- The same features with the same values and the same labels, as many times, in any order. A feature may be split into several parts, and features of value 0 may be left
out. -/
structure SameExample (ex ex' : Example ℝ) : Prop where
  features : ∀ f, featureValue ex.Features f = featureValue ex'.Features f
  labels : ∀ y, y ∈ ex.Labels ↔ y ∈ ex'.Labels
  count : ex.Labels.length = ex'.Labels.length

/-- Training steps with the same iteration number on the same examples in the same order. -/
def SameCall : NetCall ℝ → NetCall ℝ → Prop
  | .train es iter _ _, .train es' iter' _ _ => iter = iter' ∧ List.Forall₂ SameExample es es'
  | _, _ => False

end Goslide.Spec.Network
