import Verif.Go.Basic
import Verif.Spec.Bucket
/-
Model of bucket/bucket.go. The constant `fifo` is `true` (bucket/bucket.go:10), so the reservoir
branch of `Add` (lines 48-65) is dead code; it is modelled apart (`addReservoir`) and not part of the histories.
-/
namespace Goslide.Bucket

/-- bucket/bucket.go:9 -/
def bucketSize : Nat := 128

/-- bucket/bucket.go:14-19 (`index` is only used by the dead branch; kept for `New`/`Reset`). -/
structure Bucket where
  arr : List Int
  isInit : BitVec 64
  index : Int
  counts : BitVec 64
deriving Repr, DecidableEq

/-- `resetArr`, bucket/bucket.go:12 -/
def resetArr : List Int := List.replicate bucketSize 0

/-- `New`, bucket/bucket.go:21-28. -/
def new : Bucket :=
  { arr := List.replicate bucketSize 0, isInit := -1#64, index := 0, counts := 0#64 }

/-- `Reset`, bucket/bucket.go:30-35. `copy(b.arr, resetArr)` overwrites all the 128 cells. -/
def reset (_b : Bucket) : Bucket :=
  { arr := resetArr, isInit := -1#64, index := 0, counts := 0#64 }

/-- `GetSize`, bucket/bucket.go:37-39. -/
def getSize (b : Bucket) : Int := b.counts.toInt

/-- `Add`, bucket/bucket.go:41-47 (FIFO branch). -/
def add (b : Bucket) (id : Int) : Int × Bucket :=
  let index := b.counts &&& 127#64
  (index.toInt,
   { b with isInit := b.isInit + 1#64, counts := b.counts + 1#64, arr := b.arr.set index.toNat id })

/-- `Retrieve`, bucket/bucket.go:68-73. -/
def retrieve (b : Bucket) (index : Int) : Go Int :=
  if index ≥ (bucketSize : Int) then .ok (-1)
  else goGet b.arr index

/-- `GetAll`, bucket/bucket.go:75-83: `none` is the nil slice; writes the sentinel -1 into
the first unused cell (a wrapped, negative counter panics there). -/
def getAll (b : Bucket) : Go (Option (List Int) × Bucket) :=
  if b.isInit = -1#64 then .ok (none, b)
  else if b.counts.toInt < (bucketSize : Int) then do
    let arr ← goSet b.arr b.counts.toInt (-1)
    return (some arr, { b with arr := arr })
  else .ok (some b.arr, b)

/-- The branch of `Add` for `fifo = false`, bucket/bucket.go:48-65. `rand.Intn` panics for a counter that has wrapped around. -/
def addReservoir (b : Bucket) (id : Int) (r : Rng) : Go (Int × Bucket × Rng) :=
  let counts := b.counts + 1#64
  if b.index = (bucketSize : Int) then
    if counts.toInt ≤ 0 then .error .randArg
    else do
      let (n, r) ← randIntn r counts.toInt.toNat
      let randNum : Int := n + 1
      if randNum = 2 then
        let (randIndex, r) ← randIntn r bucketSize
        let arr ← goSet b.arr (randIndex : Int) id
        .ok ((randIndex : Int), { b with counts := counts, arr := arr }, r)
      else .ok (-1, { b with counts := counts }, r)
  else do
    let arr ← goSet b.arr b.index id
    .ok (b.index, { b with counts := counts, arr := arr, index := b.index + 1 }, r)

/-- Run one client operation (Add/Reset). -/
def step (b : Bucket) : Spec.BucketOp → Bucket
  | .add id => (add b id).2
  | .reset => reset b

/-- The bucket after a history of Add/Reset. -/
def run (ops : List Spec.BucketOp) : Bucket := ops.foldl step new

/-- Client operations including `GetAll` (which mutates this bucket). -/
inductive FullOp where
  | add (id : Int)
  | reset
  | getAll

/-- Run one client operation, including `GetAll`. -/
def stepFull (b : Bucket) : FullOp → Go Bucket
  | .add id => .ok (add b id).2
  | .reset => .ok (reset b)
  | .getAll => do return (← getAll b).2

/-- The bucket after a history of Add/Reset/GetAll (or the panic that ended it). -/
def runFull (ops : List FullOp) : Go Bucket := ops.foldlM stepFull new

end Goslide.Bucket
