import Verif.Go.Basic
import Verif.Spec.Bucket
/-
Model of bucket/fifo/fifo.go.

The bucket's slice is modelled with its backing array (`back`, always 128 cells because
`make([]int, 0, bucketSize)` reserves them and `append` below capacity writes in place),
so that the aliasing of slices returned by `GetAll` is visible.
-/
namespace Goslide.Fifo

/-- bucket/fifo/fifo.go:8 -/
def bucketSize : Nat := 128
/-- bucket/fifo/fifo.go:9 (`bucketSize - 1`), as a 64-bit int -/
def bitMask : BitVec 64 := 127#64

/-- bucket/fifo/fifo.go:12-15. `slice` = (`back`, `len`); `count` is a Go `int` (wraps). -/
structure FifoBucket where
  back : List Int
  len : Nat
  count : BitVec 64
deriving Repr, DecidableEq

/-- `New`, bucket/fifo/fifo.go:17-22. -/
def new : FifoBucket := { back := List.replicate bucketSize 0, len := 0, count := 0#64 }

/-- `Reset`, bucket/fifo/fifo.go:24-27: `b.slice[:0]` keeps the backing array. -/
def reset (b : FifoBucket) : FifoBucket := { b with len := 0, count := 0#64 }

/-- `Add`, bucket/fifo/fifo.go:29-40. Returns the slot and the updated bucket.
The index `b.count & bitMask` is below 128, hence in range of the full slice. -/
def add (b : FifoBucket) (id : Int) : Int × FifoBucket :=
  if b.len = bucketSize then
    let index := b.count &&& bitMask
    (index.toInt, { b with back := b.back.set index.toNat id, count := b.count + 1#64 })
  else
    ((b.len : Int), { back := b.back.set b.len id, len := b.len + 1, count := b.count + 1#64 })

/-- The content of the bucket's slice. -/
def content (b : FifoBucket) : List Int := b.back.take b.len

/-- `Retrieve`, bucket/fifo/fifo.go:42-50 (a negative index panics at the slice access). -/
def retrieve (b : FifoBucket) (index : Int) : Go Int :=
  if index ≥ (bucketSize : Int) then .ok (-1)
  else if index ≥ (b.len : Int) then .ok 0
  else goGet (content b) index

/-- `GetAll`, bucket/fifo/fifo.go:52-54: the live slice (its current content). -/
def getAll (b : FifoBucket) : List Int := content b

/-- What a slice header of length `n`, obtained earlier from `GetAll`, reads now:
it still points at the bucket's backing array (bucket/fifo/fifo.go:52-54 returns `b.slice`). -/
def readView (b : FifoBucket) (n : Nat) : List Int := b.back.take n

/-- Run one client operation. -/
def step (b : FifoBucket) : Spec.BucketOp → FifoBucket
  | .add id => (add b id).2
  | .reset => reset b

/-- The bucket after a history of operations. -/
def run (ops : List Spec.BucketOp) : FifoBucket := ops.foldl step new

end Goslide.Fifo
