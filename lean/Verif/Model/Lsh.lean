import Verif.Model.Fifo
/-
Model of lsh/lsh.go.
-/
namespace Goslide

/-- configuration/configuration.go:43-50. `other` is any other int8 value. -/
inductive HashFunction where
  | wta | densifiedWta | densifiedMinhash | sparseRandomProjection
  | other (n : Int)
deriving Repr, DecidableEq

namespace Lsh
open Fifo (FifoBucket)

/-- `binSize`, lsh/lsh.go:15 -/
def binSize : Nat := 8
/-- `logBinSize`, lsh/lsh.go:17: `int(math.Floor(math.Log(8)))`; `math.Log` is the natural
logarithm, so the value is ⌊2.079…⌋ = 2 (see `Props.C10_logBinSize`). -/
def logBinSize : Nat := 2

/-- lsh/lsh.go:19-25 -/
structure LSH where
  buckets : List (List FifoBucket)
  k : Nat
  l : Nat
  rangePow : Nat
  rand1 : List Int
deriving Repr, DecidableEq

/-- `positiveOddRandomInt`, lsh/lsh.go:123-129 (identical copies:
densified_wta_hash/densified_wta_hash.go:170-176, densified_minhash/densified_minhash.go:228-234).
`n` is the draw `rand.Int()`, in `[0, 2^63)`; `+ 1` is 64-bit signed addition. -/
def positiveOddRandomInt (n : BitVec 64) : BitVec 64 :=
  if n.toInt % 2 = 0 then n + 1#64 else n

/-- `rand.Int()`: an arbitrary value in `[0, 2^63)`. -/
def randInt (r : Nat) : BitVec 64 := BitVec.ofNat 64 (r % 2 ^ 63)

/-- The number of buckets `1<<rangePow` (a Go `int`) of lsh/lsh.go:32, or the panic of `make`. -/
def numBuckets (rangePow : Nat) : Go Nat :=
  if rangePow < 63 then .ok (2 ^ rangePow)
  else if rangePow = 63 then .error .makeLen
  else .ok 0

/-- `rand1` of lsh/lsh.go:39-44: `n` draws. -/
def drawMultipliers (n : Nat) (r : Rng) : List Int × Rng :=
  ((List.range n).map (fun i => (positiveOddRandomInt (randInt (r i))).toInt), fun i => r (i + n))

/-- `New`, lsh/lsh.go:27-53. Memory exhaustion for large `rangePow` is not modelled. -/
def new (k l rangePow : Nat) (r : Rng) : Go (LSH × Rng) := do
  let n ← if l = 0 then .ok 0 else numBuckets rangePow
  let (rand1, r') := drawMultipliers (k * l) r
  return ({ buckets := List.replicate l (List.replicate n Fifo.new), k, l, rangePow, rand1 }, r')

/-- `Clear`, lsh/lsh.go:55-61. -/
def clear (s : LSH) : LSH := { s with buckets := s.buckets.map (fun bs => bs.map Fifo.reset) }

/-- The contribution of code `j` of table `i` to the index: lsh/lsh.go:72-85
(unknown hash functions contribute nothing: the `switch` has no default). -/
def term (hf : HashFunction) (s : LSH) (hashes : List Int) (i j : Nat) : Go (BitVec 64) :=
  match hf with
  | .wta | .densifiedWta => do
    let h := BitVec.ofInt 64 (← goGet hashes ((s.k * i + j : Nat) : Int))
    return h <<< ((s.k - 1 - j) * logBinSize)
  | .densifiedMinhash => do
    let randVal := BitVec.ofInt 64 (← goGet s.rand1 ((s.k * i + j : Nat) : Int))
    let h := randVal * randVal
    let h := h ^^^ (h >>> 13)
    let h := h ^^^ BitVec.ofInt 64 (← goGet s.rand1 ((s.k * i + j : Nat) : Int))
    return h * BitVec.ofInt 64 (← goGet hashes ((s.k * i + j : Nat) : Int))
  | .sparseRandomProjection => do
    let h := BitVec.ofInt 64 (← goGet hashes ((s.k * i + j : Nat) : Int))
    return h <<< (s.k - 1 - j)
  | .other _ => return 0#64

/-- The loop over `j`, lsh/lsh.go:71-86, from `j` with `n` codes to go. -/
def indexLoop (hf : HashFunction) (s : LSH) (hashes : List Int) (i : Nat) :
    (n j : Nat) → BitVec 64 → Go (BitVec 64)
  | 0, _, index => .ok index
  | n + 1, j, index => do
    let t ← term hf s hashes i j
    indexLoop hf s hashes i n (j + 1) (index + t)

/-- One iteration of the outer loop, lsh/lsh.go:69-92. The mask `(1 << rangePow) - 1` is a
`uint` expression (all ones when `rangePow >= 64`). -/
def tableIndex (hf : HashFunction) (s : LSH) (hashes : List Int) (i : Nat) : Go Int := do
  let index ← indexLoop hf s hashes i s.k 0 0#64
  let index := if hf = .densifiedMinhash then index &&& ((1#64 <<< s.rangePow) - 1#64) else index
  return index.toInt

/-- `HashesToIndex`, lsh/lsh.go:63-96; the global configuration is the argument `hf`. -/
def hashesToIndex (hf : HashFunction) (s : LSH) (hashes : List Int) : Go (List Int) :=
  (List.range s.l).mapM (fun i => tableIndex hf s hashes i)

/-- `AddSingle`, lsh/lsh.go:106-108. -/
def addSingle (s : LSH) (tableId index id : Int) : Go (Int × LSH) := do
  let table ← goGet s.buckets tableId
  let bucket ← goGet table index
  let (slot, bucket') := Fifo.add bucket id
  let buckets := s.buckets.set tableId.toNat (table.set index.toNat bucket')
  return (slot, { s with buckets := buckets })

/-- The loop of `Add`, lsh/lsh.go:100-102: tables `i, i+1, ..` (`n` of them). -/
def addLoop (indices : List Int) (id : Int) : (n i : Nat) → LSH → Go (List Int × LSH)
  | 0, _, s => .ok ([], s)
  | n + 1, i, s => do
    let index ← goGet indices (i : Int)
    let (slot, s') ← addSingle s (i : Int) index id
    let (slots, s'') ← addLoop indices id n (i + 1) s'
    return (slot :: slots, s'')

/-- `Add`, lsh/lsh.go:98-104. A panic in the middle leaves the earlier tables updated; the
model drops the state on panic (the program is dead then: nothing recovers). -/
def add (s : LSH) (indices : List Int) (id : Int) : Go (List Int × LSH) :=
  addLoop indices id s.l 0 s

/-- `RetrieveRaw`, lsh/lsh.go:111-117 (contents of the live slices). -/
def retrieveRaw (s : LSH) (indices : List Int) : Go (List (List Int)) :=
  (List.range s.l).mapM (fun (i : Nat) => do
    let table ← goGet s.buckets (i : Int)
    let index ← goGet indices (i : Int)
    let bucket ← goGet table index
    return Fifo.getAll bucket)

/-- `Retrieve`, lsh/lsh.go:119-121. -/
def retrieve (s : LSH) (table index bucket : Int) : Go Int := do
  let t ← goGet s.buckets table
  let b ← goGet t index
  Fifo.retrieve b bucket

/-- Client operations that change the tables. -/
inductive Op where
  | add (indices : List Int) (id : Int)
  | addSingle (table index id : Int)
  | clear
deriving Repr, DecidableEq

/-- Run one client operation. -/
def step (s : LSH) : Op → Go LSH
  | .add indices id => do return (← add s indices id).2
  | .addSingle t i id => do return (← addSingle s t i id).2
  | .clear => .ok (clear s)

/-- Run a history of client operations (stops at the first panic). -/
def run (s : LSH) (ops : List Op) : Go LSH := ops.foldlM step s

end Lsh
end Goslide
