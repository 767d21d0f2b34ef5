import Verif.Go.Float
/-
Model of wta_hash/wta_hash.go.
-/
namespace Goslide.Wta
variable {F : Type} [GoFloat F]

/-- wta_hash/wta_hash.go:23 -/
def binSize : Nat := 8

/-- wta_hash/wta_hash.go:25-29 -/
structure WtaHash where
  indices : List Nat
  numHashes : Nat
  rangePow : Nat
deriving Repr, DecidableEq

/-- `permute` of wta_hash/wta_hash.go:34-35 and densified_wta_hash/densified_wta_hash.go:39-40:
`int(math.Ceil(float64(numHashes) * 8 / float64(dim)))`. The float computation equals the exact
ceiling for `numHashes*8 < 2^53`; larger sizes do not fit in memory. For `dim = 0` Go evaluates an
infinity or NaN (implementation-defined conversion); the model takes 0 (as on amd64, where the loop
does not run). -/
def permuteCount (numHashes dim : Nat) : Nat := (numHashes * binSize + dim - 1) / dim

/-- The loop wta_hash/wta_hash.go:47-53 with `p` rounds to go: shuffle the same array again and
append it to `indices` (the blocks `copy`'d are consecutive and disjoint). -/
def permLoop : (p : Nat) → (nArray : List Nat) → Rng → List Nat × Rng
  | 0, _, r => ([], r)
  | p + 1, nArray, r =>
    let (nArray', r') := shuffle nArray r
    let (rest, r'') := permLoop p nArray' r'
    (nArray' ++ rest, r'')

/-- `New`, wta_hash/wta_hash.go:31-60 (`rand.Seed` has no effect in the model: all streams are
considered). -/
def new (numHashes dim : Nat) (r : Rng) : WtaHash × Rng :=
  let (indices, r') := permLoop (permuteCount numHashes dim) (List.range dim) r
  ({ indices, numHashes, rangePow := dim }, r')

/-- `math.MinInt64` as a float64, wta_hash/wta_hash.go:68 and :95. -/
def floorValue : F := GoFloat.const (-9223372036854775808)

/-- One iteration of the inner loop, wta_hash/wta_hash.go:101-109 (:74-82 for `GetHash`),
`value` being how the data is read; the state is `(hashes[i], values[i])`. -/
def binStep (wh : WtaHash) (value : Nat → Go F) (i : Nat) (st : Int × F) (j : Nat) : Go (Int × F) := do
  let curIndex ← goGet wh.indices ((i * binSize + j : Nat) : Int)
  let v ← value curIndex
  if GoFloat.lt st.2 v then return ((curIndex : Int), v) else return st

/-- One iteration of the outer loop, wta_hash/wta_hash.go:98-110 (:71-83). -/
def bin (wh : WtaHash) (value : Nat → Go F) (i : Nat) : Go Int := do
  let st ← (List.range binSize).foldlM (binStep wh value i) (minInt64, floorValue)
  return st.1

/-- `GetHashDense`, wta_hash/wta_hash.go:89-113. -/
def getHashDense (wh : WtaHash) (data : List F) : Go (List Int) :=
  (List.range wh.numHashes).mapM (bin wh (fun c => goGet data (c : Int)))

/-- `GetHash`, wta_hash/wta_hash.go:62-86: `data[curIndex].Value`, a *position* in the pair list. -/
def getHash (wh : WtaHash) (data : List (Pair F)) : Go (List Int) :=
  (List.range wh.numHashes).mapM (bin wh (fun c => do return (← goGet data (c : Int)).Value))

end Goslide.Wta
