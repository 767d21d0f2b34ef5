import Verif.Go.Float
/-
When a list of index/value pairs denotes a dense vector.
-/
namespace Goslide.Spec
variable {F : Type} [GoFloat F]

/-- `pairs` is a sparse encoding of `data`: the indices are distinct and in range, and coordinate
`i` of `data` is the value listed for `i`, or `0` when `i` is not listed. -/
def Denotes (pairs : List (Pair F)) (data : List F) : Prop :=
  (pairs.map (·.Index)).Nodup ∧
  (∀ p ∈ pairs, 0 ≤ p.Index ∧ p.Index < data.length) ∧
  (∀ i : Nat, i < data.length →
    (∀ p ∈ pairs, p.Index = i → data[i]? = some p.Value) ∧
    ((∀ p ∈ pairs, p.Index ≠ i) → data[i]? = some GoFloat.zero))

/-- The pairs `(0,x₀), (1,x₁), …` listing every coordinate in order. -/
def densePairs (data : List F) : List (Pair F) :=
  data.zipIdx.map (fun p => { Index := (p.2 : Int), Value := p.1 })

end Goslide.Spec
