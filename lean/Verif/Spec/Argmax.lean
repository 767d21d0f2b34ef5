/-
Arg-max with ties broken to the first candidate, independent of the code.
-/
namespace Goslide.Spec

/-- `c` is the first candidate of `feats` with maximal value: earlier candidates have a strictly
smaller value (or no comparable value, i.e. NaN), later ones are not larger. -/
def IsFirstArgmax {α F : Type} (isNaN : F → Bool) (lt : F → F → Bool) (val : α → F)
    (feats : List α) (c : α) : Prop :=
  ∃ pre post, feats = pre ++ c :: post ∧
    (∀ x ∈ pre, isNaN (val x) = true ∨ lt (val x) (val c) = true) ∧
    (∀ x ∈ post, lt (val c) (val x) = false)

end Goslide.Spec
