import Verif.Go.Basic
/-
Specification vocabulary for minhash: which positions fall into a bin.
-/
namespace Goslide.Spec

/-- Index `i` is mapped to bin `b`. -/
def InBin (binIds : List Int) (i : Int) (b : Nat) : Prop :=
  0 ≤ i ∧ binIds[i.toNat]? = some (b : Int)

/-- Index `i` has a bin below `numHashes`. -/
def ValidIndex (numHashes : Nat) (binIds : List Int) (i : Int) : Prop :=
  ∃ b, b < numHashes ∧ InBin binIds i b

/-- `v` is the largest of the `active` indices in bin `b`. -/
def IsBinMax (binIds : List Int) (active : List Int) (b : Nat) (v : Int) : Prop :=
  v ∈ active ∧ InBin binIds v b ∧ ∀ i ∈ active, InBin binIds i b → i ≤ v

/-- No active index is in bin `b`. -/
def EmptyBin (binIds : List Int) (active : List Int) (b : Nat) : Prop :=
  ∀ i ∈ active, ¬ InBin binIds i b

end Goslide.Spec
