import Verif.Go.Basic
/-
Probabilities by counting: the outcomes of finitely many draws, each uniform below its bound and independent of the others.
-/
namespace Goslide.Spec

/-- All sequences of draws with the given bounds. Under uniform independent draws they are equally likely. -/
def outcomes : List Nat → List (List Nat)
  | [] => [[]]
  | b :: bs => (List.range b).flatMap (fun d => (outcomes bs).map (d :: ·))

/-- The random source that delivers `ds` and then continues as `r`. -/
def fed (ds : List Nat) (r : Rng) : Rng := fun n => if n < ds.length then ds.getD n 0 else r (n - ds.length)

/-- In how many outcomes the event happens. -/
def countOutcomes (bounds : List Nat) (event : List Nat → Prop) [DecidablePred event] : Nat := (outcomes bounds).countP (fun d => decide (event d))

/-- The bounds of the draws of a shuffle of `i + 1` items: `i + 1, i, …, 2`. -/
def shuffleBounds : Nat → List Nat
  | 0 => []
  | i + 1 => (i + 2) :: shuffleBounds i

/-- `n!` -/
def fact : Nat → Nat
  | 0 => 1
  | n + 1 => (n + 1) * fact n

end Goslide.Spec
