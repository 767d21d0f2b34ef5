/-
The small fragment of Go semantics shared by all model files:
run-time panics, checked slice access, `math/rand` draws and `rand.Shuffle`.
-/
namespace Goslide

/-- Go run-time panics (and explicit `panic(..)` calls) that the modelled code can raise.
`outOfFuel` is not a Go panic: it marks a loop of the model which was cut off (only the
sampling loop of layer mode 2, layer/layer.go:372-379, can be cut off). -/
inductive Panic where
  | index            -- index out of range
  | slice            -- slice bounds out of range
  | divZero          -- integer divide by zero
  | shift            -- negative shift amount
  | makeLen          -- makeslice: len out of range
  | randArg          -- invalid argument to rand.Intn / rand.Shuffle
  | nilDeref         -- nil pointer dereference
  | msg (s : String) -- explicit panic(...)
  | exit             -- not a panic: the process ends through log.Fatal / log.Fatalf
  | outOfFuel
deriving Repr, DecidableEq

/-- A Go computation that either panics or returns a value. -/
abbrev Go (α : Type) := Except Panic α

deriving instance DecidableEq for Except

/-- Go `s[i]` for a slice (modelled as a list) and an `int` index. -/
def goGet (l : List α) (i : Int) : Go α :=
  if i < 0 then .error .index
  else match l[i.toNat]? with
    | some a => .ok a
    | none => .error .index

/-- Go `s[i] = v`; the new slice content is returned. -/
def goSet (l : List α) (i : Int) (v : α) : Go (List α) :=
  if i < 0 then .error .index
  else if i.toNat < l.length then .ok (l.set i.toNat v)
  else .error .index

/-- The smallest Go `int` (`math.MinInt64`). -/
def minInt64 : Int := -9223372036854775808

/-- The outcomes of the global `math/rand` source: an arbitrary infinite stream of draws.
Every theorem quantifies over the stream, i.e. over everything the source could return. -/
abbrev Rng := Nat → Nat

/-- Remaining stream after one draw. -/
def Rng.tail (r : Rng) : Rng := fun n => r (n + 1)

/-- `rand.Intn(n)` for `n > 0`: some value in `[0,n)`. Taking an arbitrary draw modulo `n`
covers exactly all the possible outcomes. -/
def randIntn (r : Rng) (n : Nat) : Go (Nat × Rng) :=
  if n = 0 then .error .randArg else .ok (r 0 % n, r.tail)

/-- Swap two positions of a list (the `swap` closures used with `rand.Shuffle`);
out-of-range positions leave the list unchanged (never happens in `shuffle`). -/
def swapAt (l : List α) (i j : Nat) : List α :=
  match l[i]?, l[j]? with
  | some a, some b => (l.set i b).set j a
  | _, _ => l

/-- `rand.Shuffle(n, swap)` of the Go standard library: Fisher–Yates from `i = n-1` down to 1,
each time drawing `j` in `[0,i]` and swapping. `shuffleFrom i` performs the steps `i, i-1, .., 1`. -/
def shuffleFrom (l : List α) : Nat → Rng → List α × Rng
  | 0, r => (l, r)
  | i + 1, r => shuffleFrom (swapAt l (i + 1) (r 0 % (i + 2))) i r.tail

/-- `rand.Shuffle(len(l), swap)`. -/
def shuffle (l : List α) (r : Rng) : List α × Rng := shuffleFrom l (l.length - 1) r

/-- Go's `intSliceContains` (node/node.go:533-540, layer/layer.go:647-654,
network/network.go:331-338): linear search with early return. -/
def intSliceContains : List Int → Int → Bool
  | [], _ => false
  | v :: vs, x => if v = x then true else intSliceContains vs x

/-- Go's `minInt` (densified_wta_hash/densified_wta_hash.go:178-183,
densified_minhash/densified_minhash.go:236-241). -/
def minInt (a b : Int) : Int := if a < b then a else b

end Goslide
