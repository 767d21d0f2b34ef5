import Verif.Model.Wta
import Verif.Model.Lsh
/-
Model of densified_wta_hash/densified_wta_hash.go.
-/
namespace Goslide.Dwta
open Wta (permuteCount floorValue)
open Lsh (positiveOddRandomInt randInt)
variable {F : Type} [GoFloat F]

/-- densified_wta_hash/densified_wta_hash.go:23 -/
def binSize : Nat := 8

/-- densified_wta_hash/densified_wta_hash.go:25-34 (`randHash[1]` and `randa` are never read; they
are kept so that the draws are accounted for). -/
structure DensifiedWtaHash where
  randHash0 : BitVec 64
  randHash1 : BitVec 64
  randa : BitVec 64
  numHashes : Nat
  rangePow : Nat
  logNumHash : Nat
  indices : List Nat
  pos : List Nat
  permute : Nat
deriving Repr, DecidableEq

/-- The inner loop densified_wta_hash/densified_wta_hash.go:56-59 over the rest of `nArray`,
`off = p*numOfBitsToHash`, first position `j`. The targets are in range because the array is a
permutation of `0..dim-1` and the slices have `dim*permute` cells. -/
def fillBlock (off : Nat) : (j : Nat) → (nArray : List Nat) → List Nat × List Nat → List Nat × List Nat
  | _, [], t => t
  | j, value :: rest, (indices, pos) =>
    fillBlock off (j + 1) rest
      (indices.set (off + value) ((off + j) / binSize), pos.set (off + value) ((off + j) % binSize))

/-- The loop densified_wta_hash/densified_wta_hash.go:53-60, `n` rounds to go from round `p`. -/
def fillLoop (dim : Nat) : (n p : Nat) → (nArray : List Nat) → List Nat × List Nat → Rng →
    (List Nat × List Nat) × Rng
  | 0, _, _, t, r => (t, r)
  | n + 1, p, nArray, t, r =>
    let (nArray', r') := shuffle nArray r
    fillLoop dim n (p + 1) nArray' (fillBlock (p * dim) 0 nArray' t) r'

/-- `New`, densified_wta_hash/densified_wta_hash.go:36-73. `logNumHash` is
`int(math.Log2(float64(numHashes)))`, the exact floor for realistic sizes (`math.Log2` is exact on
powers of two); for `numHashes = 0` it is not used. -/
def new (numHashes dim : Nat) (r : Rng) : DensifiedWtaHash × Rng :=
  let permute := permuteCount numHashes dim
  let zeros := List.replicate (dim * permute) 0
  let ((indices, pos), r') := fillLoop dim permute 0 (List.range dim) (zeros, zeros) r
  ({ randHash0 := positiveOddRandomInt (randInt (r' 0)),
     randHash1 := positiveOddRandomInt (randInt (r' 1)),
     randa := positiveOddRandomInt (randInt (r' 2)),
     numHashes, rangePow := dim, logNumHash := Nat.log2 numHashes, indices, pos, permute },
   fun i => r' (i + 3))

/-- `GetRandDoubleHash`, densified_wta_hash/densified_wta_hash.go:165-168 (identical:
densified_minhash/densified_minhash.go:196-199). `*` and `<<` have the same precedence in Go, so
the product is shifted left by 3. A negative shift count panics. -/
def getRandDoubleHash (randHash0 : BitVec 64) (logNumHash : Nat) (binId count : Nat) : Go Int :=
  let toHash := ((BitVec.ofNat 64 binId + 1#64) <<< 6) + BitVec.ofNat 64 count
  if logNumHash ≤ 32 then .ok (((randHash0 * toHash) <<< 3) >>> (32 - logNumHash)).toInt
  else .error .shift

/-- densified_wta_hash/densified_wta_hash.go:76-80 -/
structure Item (F : Type) where
  hash : Int
  value : F
  init : Bool
deriving Repr, DecidableEq

/-- One iteration of the inner loop of `GetHash`, densified_wta_hash/densified_wta_hash.go:87-96:
`i` is the position in `data`, not the feature index. -/
def itemStep (dw : DensifiedWtaHash) (p : Nat) (items : List (Item F)) (x : F × Nat) :
    Go (List (Item F)) := do
  let innerIndex := p * dw.rangePow + x.2
  let binId ← goGet dw.indices (innerIndex : Int)
  if binId < dw.numHashes then
    let it ← goGet items (binId : Int)
    if !it.init || GoFloat.lt it.value x.1 then
      let h ← goGet dw.pos (innerIndex : Int)
      return items.set binId { hash := (h : Int), value := x.1, init := true }
    else return items
  else return items

/-- The first loop of `GetHash`, densified_wta_hash/densified_wta_hash.go:85-97. -/
def fillItems (dw : DensifiedWtaHash) (data : List F) : Go (List (Item F)) :=
  (List.range dw.permute).foldlM
    (fun items p => data.zipIdx.foldlM (itemStep dw p) items)
    (List.replicate dw.numHashes { hash := 0, value := GoFloat.zero, init := false })

/-- The probing loop, densified_wta_hash/densified_wta_hash.go:105-113, with `n` iterations left
before `count > 100` (`count = 101 - n`): read the probed item, give up with hash 0 at count 101. -/
def probe (dw : DensifiedWtaHash) (items : List (Item F)) (i : Nat) : (n : Nat) → Go Int
  | 0 => do
    let index := minInt (← getRandDoubleHash dw.randHash0 dw.logNumHash i 101) (dw.numHashes - 1)
    let _ ← goGet items index
    return 0
  | n + 1 => do
    let index := minInt (← getRandDoubleHash dw.randHash0 dw.logNumHash i (100 - n)) (dw.numHashes - 1)
    let next ← goGet items index
    if next.init then return next.hash else probe dw items i n

/-- One iteration of the second loop of `GetHash`, densified_wta_hash/densified_wta_hash.go:99-116. -/
def finish (dw : DensifiedWtaHash) (items : List (Item F)) (x : Item F × Nat) : Go Int :=
  if x.1.init then .ok x.1.hash else probe dw items x.2 100

/-- `GetHash`, densified_wta_hash/densified_wta_hash.go:75-119. Only the values of the pairs are
read. -/
def getHash (dw : DensifiedWtaHash) (data : List (Pair F)) : Go (List Int) := do
  let items ← fillItems dw (data.map (·.Value))
  items.zipIdx.mapM (finish dw items)

/-- One iteration of the inner loop of `GetHashEasy`, densified_wta_hash/densified_wta_hash.go:133-140;
the state is `(hashes, values)`. -/
def easyStep (dw : DensifiedWtaHash) (p : Nat) (st : List Int × List F) (x : F × Nat) :
    Go (List Int × List F) := do
  let innerIndex := p * dw.rangePow + x.2
  let binId ← goGet dw.indices (innerIndex : Int)
  if binId < dw.numHashes then
    let v ← goGet st.2 (binId : Int)
    if GoFloat.lt v x.1 then
      let h ← goGet dw.pos (innerIndex : Int)
      return (st.1.set binId (h : Int), st.2.set binId x.1)
    else return st
  else return st

/-- The first loop of `GetHashEasy`, densified_wta_hash/densified_wta_hash.go:126-141. -/
def fillEasy (dw : DensifiedWtaHash) (data : List F) : Go (List Int × List F) :=
  (List.range dw.permute).foldlM
    (fun st p => data.zipIdx.foldlM (easyStep dw p) st)
    (List.replicate dw.numHashes minInt64, List.replicate dw.numHashes floorValue)

/-- The probing loop of `GetHashEasy`, densified_wta_hash/densified_wta_hash.go:149-157. -/
def probeEasy (dw : DensifiedWtaHash) (hashes : List Int) (i : Nat) : (n : Nat) → Go Int
  | 0 => do
    let index := minInt (← getRandDoubleHash dw.randHash0 dw.logNumHash i 101) (dw.numHashes - 1)
    let _ ← goGet hashes index
    return 0
  | n + 1 => do
    let index := minInt (← getRandDoubleHash dw.randHash0 dw.logNumHash i (100 - n)) (dw.numHashes - 1)
    let next ← goGet hashes index
    if next ≠ minInt64 then return next else probeEasy dw hashes i n

/-- One iteration of densified_wta_hash/densified_wta_hash.go:143-160. -/
def finishEasy (dw : DensifiedWtaHash) (hashes : List Int) (x : Int × Nat) : Go Int :=
  if x.1 ≠ minInt64 then .ok x.1 else probeEasy dw hashes x.2 100

/-- `GetHashEasy`, densified_wta_hash/densified_wta_hash.go:121-163 (`topK` is not used). -/
def getHashEasy (dw : DensifiedWtaHash) (data : List F) : Go (List Int) := do
  let st ← fillEasy dw data
  st.1.zipIdx.mapM (finishEasy dw st.1)

end Goslide.Dwta
