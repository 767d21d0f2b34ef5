import Verif.Go.Float
/-
Exact rational arithmetic as an instance of `GoFloat`, for concrete witnesses that do not round.
`exp` and `sqrt` have no exact rational value, and `pow` only for natural exponents: they are placeholders here. Witnesses that
go through them (softmax layers, Adam) show that hypotheses can be met and calls return; their numbers mean nothing.
-/
namespace Goslide

instance exactRat : GoFloat Rat where
  const := id
  add := (· + ·)
  sub := (· - ·)
  mul := (· * ·)
  div := (· / ·)
  neg := (- ·)
  lt a b := decide (a < b)
  le a b := decide (a ≤ b)
  eq a b := decide (a = b)
  floorInt := Rat.floor
  ceilInt := Rat.ceil
  exp := fun _ => 1
  sqrt := fun _ => 1
  pow := fun a b => a ^ b.num.toNat

instance exactRatOrder : FloatOrder Rat where
  isNaN := fun _ => false
  lt_nan_left := by intro a b h; simp at h
  lt_nan_right := by intro a b h; simp at h
  lt_irrefl := by intro a; simp [GoFloat.lt]
  lt_trans := by
    intro a b c h1 h2
    simp only [GoFloat.lt, decide_eq_true_eq] at *
    exact Std.lt_trans h1 h2
  lt_weak := by
    intro a b c _ h
    simp only [GoFloat.lt, decide_eq_true_eq] at *
    by_cases hac : a < c
    · exact Or.inl hac
    · right
      have : c ≤ a := Rat.not_lt.mp hac
      exact Std.lt_of_le_of_lt this h

theorem rat_floor_div (a b : Int) (hb : 0 < b) : ((a : Rat) / (b : Rat)).floor = a / b := by
  have hb' : (0 : Rat) < (b : Rat) := Rat.intCast_pos.mpr hb
  have key : ∀ x : Int, x ≤ ((a : Rat) / (b : Rat)).floor ↔ x ≤ a / b := by
    intro x
    rw [Rat.le_floor_iff, Int.le_ediv_iff_mul_le hb]
    rw [← Rat.not_lt, Rat.div_lt_iff hb', Rat.not_lt, ← Rat.intCast_mul, Rat.intCast_le_intCast]
  exact Int.le_antisymm ((key _).mp (Int.le_refl _)) ((key _).mpr (Int.le_refl _))

instance exactRatIntDiv : FloatIntDiv Rat where
  floor_div := fun a b _ _ hb _ => rat_floor_div a b hb
  ceil_div := by
    intro a b _ _ hb _
    show ((a : Rat) / (b : Rat)).ceil = _
    rw [Rat.ceil_eq_neg_floor_neg]
    have : -((a : Rat) / (b : Rat)) = ((-a : Int) : Rat) / (b : Rat) := by
      rw [Rat.div_def, Rat.div_def, Rat.intCast_neg, Rat.neg_mul]
    rw [this, rat_floor_div _ _ hb]

instance exactRatZero : FloatZero Rat where
  NotNegZero := fun _ => True
  zero_ok := trivial
  add_ok := fun _ _ _ => trivial
  sub_ok := fun _ _ _ => trivial
  add_zero := fun s _ => Rat.add_zero s
  sub_zero := fun s _ => by
    show s - 0 = s
    rw [Rat.sub_eq_add_neg, Rat.neg_zero, Rat.add_zero]

end Goslide
