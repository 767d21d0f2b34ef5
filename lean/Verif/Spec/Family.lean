import Verif.Spec.Train
/-
The hash functions of the layers.
-/
namespace Goslide.Spec.Network
open Goslide.Layer
variable {F : Type} [GoFloat F]

/-- Layer `j` of the network at `p`. -/
def layerNo (w : World F) (p : Ptr) (j : Nat) : Option Layer := do
  let n ← w.networks[p]?
  let ptrs ← readSlice w.layerArrs n.hiddenLayers
  let q ← ptrs[j]?
  w.layers[q]?

/-- The number of inputs of layer `j`: the size of the previous layer, or the number of features. -/
def inputsOf (a : NetArgs F) : Nat → Option Int
  | 0 => some a.dim
  | j + 1 => a.sizes[j]?

/-- A hash function of family `f` (1 winner-take-all, 2 densified winner-take-all, 3 densified minwise hashing, 4 sparse random projections) that computes
`count` codes of vectors with `dim` components. -/
def Family (f : Int) (count dim : Nat) : Hasher → Prop
  | .wta h => f = 1 ∧ h.numHashes = count ∧ h.rangePow = dim
  | .dwta h => f = 2 ∧ h.numHashes = count ∧ h.rangePow = dim
  | .minhash h bins => f = 3 ∧ h.numHashes = count ∧ h.rangePow = dim ∧ bins.length = dim
  | .srp h => f = 4 ∧ h.numHashes = count ∧ h.dim = dim

/-- The function of strings to numbers that a minwise hash function uses (in Go: the seed of its `maphash.Hash`). -/
def seedOf : Hasher → Option (Nat → BitVec 64)
  | .minhash h _ => some h.hash
  | _ => none

end Goslide.Spec.Network
