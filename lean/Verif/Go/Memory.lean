import Verif.Go.Basic
/-
Go memory: computations that read and change a state, slices that share their backing arrays.
-/
namespace Goslide

/-- A Go computation on the memory `S`. A panic ends the program, so it carries no memory. -/
def M (S : Type) (α : Type) := S → Go (α × S)

namespace M
variable {S α β : Type}
/-- Return a value. -/
def pure (a : α) : M S α := fun s => .ok (a, s)
/-- Run one computation after another. -/
def bind (x : M S α) (f : α → M S β) : M S β := fun s =>
  match x s with
  | .ok (a, s') => f a s'
  | .error e => .error e
instance : Monad (M S) where
  pure := pure
  bind := bind
/-- Panic. -/
def throw (e : Panic) : M S α := fun _ => .error e
/-- The memory. -/
def get : M S S := fun s => .ok (s, s)
/-- Replace the memory. -/
def set (s : S) : M S Unit := fun _ => .ok ((), s)
/-- A computation that does not depend on the memory. -/
def lift (x : Go α) : M S α := fun s => match x with
  | .ok a => .ok (a, s)
  | .error e => .error e
end M

/-- A pointer: the position of the object in its store. -/
abbrev Ptr := Nat

/-- A slice header (a nil slice has length 0). The capacity reaches to the end of the array. -/
structure Slice where
  arr : Ptr
  off : Nat
  len : Nat
deriving Repr, DecidableEq

/-- The nil slice. -/
def nilSlice : Slice := { arr := 0, off := 0, len := 0 }

/-- No cell belongs to both slices. -/
def Slice.Disjoint (s s' : Slice) : Prop :=
  s.len = 0 ∨ s'.len = 0 ∨ s.arr ≠ s'.arr ∨ s.off + s.len ≤ s'.off ∨ s'.off + s'.len ≤ s.off

instance (s s' : Slice) : Decidable (s.Disjoint s') := by unfold Slice.Disjoint; infer_instance

/-- The content of a slice; `none` if it does not lie within its array (this cannot happen in Go). -/
def readSlice (store : List (List α)) (s : Slice) : Option (List α) :=
  if s.len = 0 then some []
  else match store[s.arr]? with
    | none => none
    | some a => if s.off + s.len ≤ a.length then some ((a.drop s.off).take s.len) else none

/-- `s[i]` -/
def readCell (store : List (List α)) (s : Slice) (i : Int) : Go α :=
  if 0 ≤ i ∧ i < s.len then
    match store[s.arr]? with
    | none => .error .nilDeref
    | some a =>
      match a[s.off + i.toNat]? with
      | none => .error .nilDeref
      | some v => .ok v
  else .error .index

/-- `s[i] = v` -/
def writeCell (store : List (List α)) (s : Slice) (i : Int) (v : α) : Go (List (List α)) :=
  if 0 ≤ i ∧ i < s.len then
    match store[s.arr]? with
    | none => .error .nilDeref
    | some a =>
      if s.off + i.toNat < a.length then .ok (store.set s.arr (a.set (s.off + i.toNat) v)) else .error .nilDeref
  else .error .index

/-- `*p` -/
def deref (store : List α) (p : Ptr) : Go α :=
  match store[p]? with
  | some a => .ok a
  | none => .error .nilDeref

end Goslide
