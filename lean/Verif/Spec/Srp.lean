import Verif.Spec.Vector
/-
Specification vocabulary for signed random projections.
-/
namespace Goslide.Spec

/-- `i` exceeds the largest index seen so far (`none` at the start). -/
def above (m : Option Int) (i : Int) : Bool :=
  match m with
  | none => true
  | some k => decide (k < i)

/-- The pairs whose index exceeds all the indices before them (left-to-right maxima); `m` is the
largest index seen so far. -/
def recordsFrom {F : Type} (m : Option Int) : List (Pair F) → List (Pair F)
  | [] => []
  | p :: ps =>
    if above m p.Index then p :: recordsFrom (some p.Index) ps
    else recordsFrom m ps

def records {F : Type} (ps : List (Pair F)) : List (Pair F) := recordsFrom none ps

/-- The indices are strictly increasing. -/
def Increasing {F : Type} (ps : List (Pair F)) : Prop := ps.Pairwise (fun p q => p.Index < q.Index)

/-- Exact signed sum of the sampled coordinates. -/
def signedSum (row : List (Nat × Bool)) (v : Nat → Rat) : Rat :=
  (row.map (fun x => if x.2 then v x.1 else - v x.1)).foldr (· + ·) 0

end Goslide.Spec
