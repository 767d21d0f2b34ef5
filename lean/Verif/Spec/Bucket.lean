/-
Specification of a bounded FIFO bucket, independent of the code.
-/
namespace Goslide.Spec

/-- What a client can do to a bucket. -/
inductive BucketOp where
  | add (id : Int)
  | reset
deriving Repr, DecidableEq

/-- The ids added since the last reset, oldest first. -/
def sinceReset : List BucketOp → List Int :=
  List.foldl (fun h op => match op with | .add id => h ++ [id] | .reset => []) []

/-- The newest `min(n,128)` ids of a history, oldest first. -/
def newest128 (h : List Int) : List Int := h.drop (h.length - 128)

/-- `xs` is the ring-buffer layout of the history `h`: as many cells as ids kept, and the id
added at position `p` (among the newest 128) sits in cell `p % 128`. -/
def IsRing (h xs : List Int) : Prop :=
  xs.length = min h.length 128 ∧
  ∀ p, p < h.length → h.length ≤ p + 128 → xs[p % 128]? = h[p]?

end Goslide.Spec
