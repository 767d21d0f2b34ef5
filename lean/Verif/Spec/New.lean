import Verif.Spec.Train
/-
Arguments with which a network can be built.
-/
namespace Goslide.Spec.Network
variable {F : Type} [GoFloat F]

/-- Nothing is negative, there is an entry for every layer, and the hash codes of every layer fit its tables. -/
structure NewOk (cfg : Configuration.Config F) (a : NetArgs F) : Prop where
  layers : 0 ≤ a.layers
  batch : 0 ≤ a.batch
  dim : 0 ≤ a.dim
  entries : ∀ j : Nat, (j : Int) < a.layers → j < a.sizes.length ∧ j < a.types.length ∧ j < a.k.length ∧ j < a.l.length ∧
    j < a.rangePow.length ∧ j < a.sparsity.length
  layer : ∀ (j : Nat) (size k l rp : Int), (j : Int) < a.layers → a.sizes[j]? = some size → a.k[j]? = some k → a.l[j]? = some l →
    a.rangePow[j]? = some rp → 0 ≤ size ∧ 0 ≤ k ∧ 0 ≤ l ∧ 0 ≤ rp ∧ HashParams cfg (a.inputs j) k l rp

end Goslide.Spec.Network
