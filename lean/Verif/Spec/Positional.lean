/-
Positional notation: the number spelled by a list of codes, most significant first.
-/
namespace Goslide.Spec

/-- The number spelled by `codes` in base `base`, most significant code first. -/
def positional (base : Int) (codes : List Int) : Int :=
  codes.foldl (fun acc c => acc * base + c) 0

/-- The `i`-th group of `k` codes (the codes used for table `i`). -/
def group (k : Nat) (hashes : List Int) (i : Nat) : List Int := (hashes.drop (k * i)).take k

end Goslide.Spec
