import Verif.Go.Float
import Mathlib.Analysis.SpecialFunctions.Pow.Real
/-
The real numbers as an instance of `GoFloat`: exact arithmetic with the true `exp`, `sqrt` and `pow`.
-/
namespace Goslide

noncomputable instance exactReal : GoFloat ℝ where
  const := fun q => (q : ℝ)
  add := (· + ·)
  sub := (· - ·)
  mul := (· * ·)
  div := (· / ·)
  neg := (- ·)
  lt a b := @decide (a < b) (Classical.propDecidable _)
  le a b := @decide (a ≤ b) (Classical.propDecidable _)
  eq a b := @decide (a = b) (Classical.propDecidable _)
  floorInt := Int.floor
  ceilInt := Int.ceil
  exp := Real.exp
  sqrt := Real.sqrt
  pow := fun a b => a ^ b

noncomputable instance exactRealOrder : FloatOrder ℝ where
  isNaN := fun _ => false
  lt_nan_left := by intro a b h; simp at h
  lt_nan_right := by intro a b h; simp at h
  lt_irrefl := by intro a; simp [GoFloat.lt]
  lt_trans := by
    intro a b c h1 h2
    simp only [GoFloat.lt, decide_eq_true_eq] at *
    exact lt_trans h1 h2
  lt_weak := by
    intro a b c _ h
    simp only [GoFloat.lt, decide_eq_true_eq] at *
    by_cases hac : a < c
    · exact Or.inl hac
    · exact Or.inr (lt_of_le_of_lt (not_lt.mp hac) h)

instance exactRealIntDiv : FloatIntDiv ℝ where
  floor_div := by
    intro a b _ _ hb _
    show Int.floor (((a : ℚ) : ℝ) / ((b : ℚ) : ℝ)) = a / b
    lift b to ℕ using hb.le
    rw [← Rat.cast_div, Rat.floor_cast]
    exact Rat.floor_intCast_div_natCast a b
  ceil_div := by
    intro a b _ _ hb _
    show Int.ceil (((a : ℚ) : ℝ) / ((b : ℚ) : ℝ)) = -(-a / b)
    lift b to ℕ using hb.le
    rw [← Rat.cast_div, Rat.ceil_cast]
    exact Rat.ceil_intCast_div_natCast a b

end Goslide
