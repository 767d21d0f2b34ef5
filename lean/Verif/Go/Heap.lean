import Verif.Go.Basic
/-
`container/heap` of the Go standard library (src/container/heap/heap.go) over a slice, for a
comparison `less`. All indices computed by these functions are within the slice, so no index panic
can occur. The loops carry fuel equal to the slice length, which always suffices (the heap
invariants proved in `Proofs/Heap.lean` would be false otherwise).
-/
namespace Goslide.GoHeap
variable {α : Type} (less : α → α → Bool)

/-- `h.Less(i, j)` of the heap's elements. -/
def lessAt (h : List α) (i j : Nat) : Bool :=
  match h[i]?, h[j]? with
  | some a, some b => less a b
  | _, _ => false

/-- `up(h, j)`: swap with the parent `(j-1)/2` while less than it. -/
def up : (fuel : Nat) → List α → Nat → List α
  | 0, h, _ => h
  | fuel + 1, h, j =>
    let i := (j - 1) / 2
    if i = j ∨ lessAt less h j i = false then h else up fuel (swapAt h i j) i

/-- `down(h, i, n)`: swap with the smaller child (within the first `n`) while that is less. -/
def down : (fuel : Nat) → List α → Nat → (n : Nat) → List α
  | 0, h, _, _ => h
  | fuel + 1, h, i, n =>
    let j1 := 2 * i + 1
    if n ≤ j1 then h
    else
      let j2 := j1 + 1
      let j := if j2 < n ∧ lessAt less h j2 j1 = true then j2 else j1
      if lessAt less h j i = false then h else down fuel (swapAt h i j) j n

/-- The loop of `heap.Init`: `down` from `i-1` down to `0`. -/
def initFrom (h : List α) : (i : Nat) → List α
  | 0 => h
  | i + 1 => initFrom (down less h.length h i h.length) i

/-- `heap.Init`. -/
def init (h : List α) : List α := initFrom less h (h.length / 2)

/-- `heap.Push` with `Push` appending (densified_minhash/index_value_pairs.go:31-33). -/
def push (h : List α) (x : α) : List α :=
  up less (h ++ [x]).length (h ++ [x]) ((h ++ [x]).length - 1)

/-- `heap.Pop` with `Pop` cutting off the last element (densified_minhash/index_value_pairs.go:35-39);
panics on an empty heap. Returns the remaining heap (the popped value is not used by the callers). -/
def pop (h : List α) : Go (List α) :=
  if h.length = 0 then .error .index
  else .ok ((down less h.length (swapAt h 0 (h.length - 1)) 0 (h.length - 1)).take (h.length - 1))

end Goslide.GoHeap
