import Verif.Go.Exact
/-
Equality of floats.
-/
namespace Goslide

/-- IEEE-754 `==` on numbers that are not NaN: neither is less than the other (`+0 == -0`). -/
class FloatEq (F : Type) [GoFloat F] [FloatOrder F] : Prop where
  eq_iff : ∀ a b : F, FloatOrder.isNaN a = false → FloatOrder.isNaN b = false →
    (GoFloat.eq a b = true ↔ GoFloat.lt a b = false ∧ GoFloat.lt b a = false)

instance exactRatEq : FloatEq Rat where
  eq_iff a b _ _ := by
    show decide (a = b) = true ↔ decide (a < b) = false ∧ decide (b < a) = false
    simp only [decide_eq_true_eq, decide_eq_false_iff_not]
    constructor
    · rintro rfl; exact ⟨Std.lt_irrefl, Std.lt_irrefl⟩
    · rintro ⟨h1, h2⟩
      exact Std.le_antisymm (Std.not_lt.mp h2) (Std.not_lt.mp h1)

end Goslide
