import Verif.Go.Basic
namespace Goslide

theorem swapAt_perm (l : List α) (i j : Nat) : (swapAt l i j).Perm l := by
  unfold swapAt
  split
  · rename_i a b ha hb
    obtain ⟨hi, rfl⟩ := List.getElem?_eq_some_iff.mp ha
    obtain ⟨hj, rfl⟩ := List.getElem?_eq_some_iff.mp hb
    exact List.set_set_perm hi hj
  · exact List.Perm.refl _

theorem shuffleFrom_perm (i : Nat) : ∀ (l : List α) (r : Rng), (shuffleFrom l i r).1.Perm l := by
  induction i with
  | zero => intro l r; exact List.Perm.refl _
  | succ i ih =>
    intro l r
    rw [shuffleFrom]
    exact (ih _ _).trans (swapAt_perm _ _ _)

theorem shuffle_perm (l : List α) (r : Rng) : (shuffle l r).1.Perm l := shuffleFrom_perm _ _ _

theorem shuffle_length (l : List α) (r : Rng) : (shuffle l r).1.length = l.length :=
  (shuffle_perm l r).length_eq

end Goslide
