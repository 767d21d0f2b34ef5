import Verif.Go.Float
/-
Model of sparse_random_projection/sparse_random_projection.go.
-/
namespace Goslide.Srp
variable {F : Type} [GoFloat F]

/-- sparse_random_projection/sparse_random_projection.go:16-22. Row `i` lists
`(indices[i][j], randBits[i][j])` for `j < samSize`; both Go slices have length `samSize`. -/
structure SparseRandomProjection where
  dim : Nat
  numHashes : Nat
  samSize : Nat
  rows : List (List (Nat × Bool))
deriving Repr, DecidableEq

/-- Insertion into a sorted list, for `sortInts`. -/
def insertInt (x : Nat) : List Nat → List Nat
  | [] => [x]
  | y :: ys => if x ≤ y then x :: y :: ys else y :: insertInt x ys

/-- `sort.Ints`: the sorted rearrangement (the algorithm is irrelevant, the result is unique). -/
def sortInts (l : List Nat) : List Nat := l.foldr insertInt []

/-- The loop sparse_random_projection/sparse_random_projection.go:37-49, `n` rounds to go. One draw of
`rand.Int()` per bit; `sort.Ints` sorts the indices only. -/
def rowsLoop (samSize : Nat) : (n : Nat) → (a : List Nat) → Rng → Go (List (List (Nat × Bool)) × Rng)
  | 0, _, r => .ok ([], r)
  | n + 1, a, r => do
    let (a', r1) := shuffle a r
    let sampled ← (List.range samSize).mapM (fun (j : Nat) => goGet a' (j : Int))
    let bits := (List.range samSize).map (fun j => decide (r1 j % 2 = 0))
    let row := (sortInts sampled).zip bits
    let (rest, r2) ← rowsLoop samSize n a' (fun j => r1 (j + samSize))
    return (row :: rest, r2)

/-- `New`, sparse_random_projection/sparse_random_projection.go:24-58. `make` panics for a negative
`samSize` (only reached when there is at least one hash). -/
def new (F : Type) [GoFloat F] (dimension numOfHashes ratio : Nat) (r : Rng) :
    Go (SparseRandomProjection × Rng) := do
  let samSize : Int :=
    GoFloat.ceilInt (GoFloat.div (GoFloat.ofInt (dimension : Int) : F) (GoFloat.ofInt (ratio : Int)))
  if samSize < 0 ∧ 0 < numOfHashes then .error .makeLen
  else
    let (rows, r') ← rowsLoop samSize.toNat numOfHashes (List.range dimension) r
    return ({ dim := dimension, numHashes := numOfHashes, samSize := samSize.toNat, rows }, r')

/-- `s += v` or `s -= v`, sparse_random_projection/sparse_random_projection.go:68-72, 97-101. -/
def signed (s v : F) (rb : Bool) : F := if rb then GoFloat.add s v else GoFloat.sub s v

/-- `if s >= 0 { 0 } else { 1 }`, sparse_random_projection/sparse_random_projection.go:75-79, 111-115. -/
def signBit (s : F) : Int := if GoFloat.le GoFloat.zero s then 0 else 1

/-- The inner loop of `GetHash`, sparse_random_projection/sparse_random_projection.go:65-73. -/
def denseSum (row : List (Nat × Bool)) (vector : List F) : Go F :=
  row.foldlM (fun s (x : Nat × Bool) => do
    let v ← goGet vector (x.1 : Int)
    return signed s v x.2) GoFloat.zero

/-- `GetHash`, sparse_random_projection/sparse_random_projection.go:60-83. -/
def getHash (srp : SparseRandomProjection) (vector : List F) : Go (List Int) :=
  srp.rows.mapM (fun row => do return signBit (← denseSum row vector))

/-- The merge loop of `GetHashSparse`, sparse_random_projection/sparse_random_projection.go:94-109, on
the remaining pairs (`data[i:]`) and the remaining sampled features (`indices[p][j:]`). Every
iteration advances `i` or `j`, so `fuel = len + samSize` iterations suffice. -/
def mergeLoop : (fuel : Nat) → List (Pair F) → List (Nat × Bool) → F → F
  | 0, _, _, s => s
  | _ + 1, [], _, s => s
  | _ + 1, _ :: _, [], s => s
  | fuel + 1, p :: ps, x :: xs, s =>
    if p.Index = (x.1 : Int) then mergeLoop fuel ps xs (signed s p.Value x.2)
    else if p.Index < (x.1 : Int) then mergeLoop fuel ps (x :: xs) s
    else mergeLoop fuel (p :: ps) xs s

/-- `GetHashSparse`, sparse_random_projection/sparse_random_projection.go:85-119. -/
def getHashSparse (srp : SparseRandomProjection) (data : List (Pair F)) : List Int :=
  srp.rows.map (fun row => signBit (mergeLoop (data.length + row.length) data row GoFloat.zero))

end Goslide.Srp
