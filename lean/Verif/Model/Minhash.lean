import Verif.Go.Heap
import Verif.Go.Float
import Verif.Model.Dwta
/-
Model of densified_minhash/densified_minhash.go and index_value_pairs.go.
-/
namespace Goslide.Minhash
open Lsh (positiveOddRandomInt randInt)
variable {F : Type} [GoFloat F]

/-- densified_minhash/densified_minhash.go:18-25. `seed` is replaced by the hash function it selects:
`hash i` is the 64-bit `maphash` of the varint encoding of `i` (arbitrary in theorems). -/
structure DensifiedMinhash where
  randHash0 : BitVec 64
  randHash1 : BitVec 64
  randa : BitVec 64
  numHashes : Nat
  rangePow : Nat
  logNumHash : Nat
  hash : Nat → BitVec 64

/-- `New`, densified_minhash/densified_minhash.go:27-39. `int(math.Log2(float64(numHashes)))` is the
floor of the logarithm (see `Dwta.new`). -/
def new (numHashes numOfBitsToHash : Nat) (hash : Nat → BitVec 64) (r : Rng) : DensifiedMinhash × Rng :=
  ({ randHash0 := positiveOddRandomInt (randInt (r 0)),
     randHash1 := positiveOddRandomInt (randInt (r 1)),
     randa := positiveOddRandomInt (randInt (r 2)),
     numHashes, rangePow := numOfBitsToHash, logNumHash := Nat.log2 numHashes, hash },
   fun i => r (i + 3))

/-- The loop body `if hashes[binId] < index { hashes[binId] = index }` with `binId := binIds[index]`,
densified_minhash/densified_minhash.go:54-57, 110-114, 168-172. -/
def maxStep (binIds : List Int) (hashes : List Int) (index : Int) : Go (List Int) := do
  let binId ← goGet binIds index
  let h ← goGet hashes binId
  if h < index then goSet hashes binId index else return hashes

/-- The probing loop densified_minhash/densified_minhash.go:66-73 (identical: 123-130, 181-188) with
`n+1` iterations left (`count = 101 - n`): the code read at count 101 is used even if empty. -/
def probe (dm : DensifiedMinhash) (hashes : List Int) (i : Nat) : (n : Nat) → Go Int
  | 0 => do
    let index := minInt (← Dwta.getRandDoubleHash dm.randHash0 dm.logNumHash i 101) (dm.numHashes - 1)
    goGet hashes index
  | n + 1 => do
    let index := minInt (← Dwta.getRandDoubleHash dm.randHash0 dm.logNumHash i (100 - n)) (dm.numHashes - 1)
    let next ← goGet hashes index
    if next = minInt64 then probe dm hashes i n else return next

/-- The final loop densified_minhash/densified_minhash.go:60-76 (identical: 117-133, 175-191). -/
def densify (dm : DensifiedMinhash) (hashes : List Int) : Go (List Int) :=
  hashes.zipIdx.mapM (fun (x : Int × Nat) =>
    if x.1 ≠ minInt64 then .ok x.1 else probe dm hashes x.2 100)

/-- `hashes` before the first loop, densified_minhash/densified_minhash.go:46-51. -/
def emptyHashes (dm : DensifiedMinhash) : List Int := List.replicate dm.numHashes minInt64

/-- `GetHash`, densified_minhash/densified_minhash.go:41-79: the loop runs over the positions of
`data` and reads `indices[i]`; the data values are not used. -/
def getHash (dm : DensifiedMinhash) (indices : List Int) (data : List F) (binIds : List Int) :
    Go (List Int) := do
  let hashes ← (List.range data.length).foldlM
    (fun hashes (i : Nat) => do maxStep binIds hashes (← goGet indices (i : Int))) (emptyHashes dm)
  densify dm hashes

/-- densified_minhash/index_value_pairs.go:9-12 -/
structure IndexValue (F : Type) where
  index : Nat
  value : F
deriving Repr, DecidableEq

/-- `Less`, densified_minhash/index_value_pairs.go:22-25. -/
def less (a b : IndexValue F) : Bool := GoFloat.lt b.value a.value

/-- The values `data` (a slice; `spare` are the cells between its length and its capacity) seen by
the slice expression `data[0:topK]`, densified_minhash/densified_minhash.go:90, 148: Go checks
`topK` against the capacity, not the length. -/
def firstK (data spare : List F) (topK : Nat) : Go (List F) :=
  if topK ≤ data.length + spare.length then .ok ((data ++ spare).take topK) else .error .slice

/-- The queue after `heap.Init`, densified_minhash/densified_minhash.go:89-93, 147-151. -/
def initQueue (data spare : List F) (topK : Nat) : Go (List (IndexValue F)) := do
  let first ← firstK data spare topK
  return GoHeap.init less (first.zipIdx.map (fun (x : F × Nat) => { index := x.2, value := x.1 }))

/-- One round `heap.Push(..); heap.Pop(..)`, densified_minhash/densified_minhash.go:97-98, 155-156. -/
def pushPop (pq : List (IndexValue F)) (x : IndexValue F) : Go (List (IndexValue F)) :=
  GoHeap.pop less (GoHeap.push less pq x)

/-- The selection of positions, densified_minhash/densified_minhash.go:89-99, 147-157. -/
def selectTop (data spare : List F) (topK : Nat) : Go (List (IndexValue F)) := do
  let pq ← initQueue data spare topK
  ((data.zipIdx).drop topK).foldlM
    (fun pq (x : F × Nat) => pushPop pq { index := x.2, value := x.1 }) pq

/-- `GetHashEasyDense`, densified_minhash/densified_minhash.go:139-194. The method `Pop` called
directly on the queue (line 167) returns its last element. -/
def getHashEasyDense (dm : DensifiedMinhash) (binIds : List Int) (data spare : List F) (topK : Nat) :
    Go (List Int) := do
  let pq ← selectTop data spare topK
  let hashes ← pq.reverse.foldlM (fun hashes (x : IndexValue F) => maxStep binIds hashes x.index)
    (emptyHashes dm)
  densify dm hashes

/-- `GetHashEasy`, densified_minhash/densified_minhash.go:81-136: the same with the values of the
pairs; the position in the list is used, `value.Index` is never read. -/
def getHashEasy (dm : DensifiedMinhash) (binIds : List Int) (data spare : List (Pair F)) (topK : Nat) :
    Go (List Int) :=
  getHashEasyDense dm binIds (data.map (·.Value)) (spare.map (·.Value)) topK

/-- `1 << rangePow` as a Go `int`, densified_minhash/densified_minhash.go:204. -/
def rangeOf (rangePow : Nat) : Int := (1#64 <<< rangePow).toInt

/-- `GetMap`, densified_minhash/densified_minhash.go:201-226. The varint encoding of `i` fits the
8-byte buffer for every `i < 2^55`; larger `n` are not modelled. -/
def getMap (F : Type) [GoFloat F] (dm : DensifiedMinhash) (n : Nat) : List Int :=
  let rng := rangeOf dm.rangePow
  let binSize : Int := GoFloat.ceilInt (GoFloat.div (GoFloat.ofInt rng : F) (GoFloat.ofInt (dm.numHashes : Int)))
  (List.range n).map (fun i =>
    let curHash := dm.hash i &&& ((1#64 <<< dm.rangePow) - 1#64)
    GoFloat.floorInt (GoFloat.div (GoFloat.ofInt (curHash.toNat : Int) : F) (GoFloat.ofInt binSize)))

end Goslide.Minhash
