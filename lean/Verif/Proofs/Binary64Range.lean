import Verif.Proofs.Binary64
/-
Where rounding overflows and underflows.
-/
set_option exponentiation.threshold 3000
namespace Goslide.Binary64

theorem pow_lt_iff {a b : ℤ} : (2 : ℚ) ^ a < 2 ^ b ↔ a < b := zpow_lt_zpow_iff_right₀ (by norm_num)
theorem pow_le_iff {a b : ℤ} : (2 : ℚ) ^ a ≤ 2 ^ b ↔ a ≤ b := zpow_le_zpow_iff_right₀ (by norm_num)
theorem pow_succ' (a : ℤ) : (2 : ℚ) ^ (a + 1) = 2 * 2 ^ a := by rw [zpow_add₀ (by norm_num), zpow_one, mul_comm]

theorem abs_mant (v : ℚ) : |(mant v : ℚ) * 2 ^ expo v| = ((|mant v| : ℤ) : ℚ) * 2 ^ expo v := by
  rw [abs_mul, abs_of_pos (two_pos _), Int.cast_abs]

theorem abs_diff (v : ℚ) : |(|v| - |(mant v : ℚ) * 2 ^ expo v|)| ≤ 2 ^ expo v / 2 := (abs_abs_sub_abs_le _ _).trans (mant_error v)

/-- Numbers that round to a finite one. -/
theorem mant_lt_iff {v : ℚ} (h0 : v ≠ 0) : |(mant v : ℚ) * 2 ^ expo v| < 2 ^ (1024 : ℤ) ↔ |v| < 2 ^ (1024 : ℤ) - 2 ^ (970 : ℤ) := by
  have e1 : (2 : ℚ) ^ (971 : ℤ) = 2 * 2 ^ (970 : ℤ) := pow_succ' 970
  have e2 : (2 : ℚ) ^ (1024 : ℤ) = 2 * 2 ^ (1023 : ℤ) := pow_succ' 1023
  have e3 : (2 : ℚ) ^ (1024 : ℤ) = 2 ^ 53 * 2 ^ (971 : ℤ) := by rw [← zpow_natCast, ← zpow_add₀ (by norm_num)]; norm_num
  have p970 := two_pos 970
  have lt970 : (2 : ℚ) ^ (970 : ℤ) < 2 ^ (1023 : ℤ) := pow_lt_iff.mpr (by norm_num)
  have hd := abs_le.mp (abs_diff v)
  constructor
  · intro h
    by_contra hv
    rw [not_lt] at hv
    have hexp : 971 ≤ expo v := by
      have : (2 : ℚ) ^ (1023 : ℤ) < 2 ^ (expo v + 53) := lt_of_lt_of_le (by linarith) (hv.trans abs_lt_expo.le)
      have := pow_lt_iff.mp this
      omega
    have hge := mant_abs_ge h0 (by omega)
    rw [abs_mant] at h hd
    rcases hexp.lt_or_eq with hexp | hexp
    · have : (2 : ℚ) ^ (1024 : ℤ) ≤ 2 ^ (52 : ℤ) * 2 ^ expo v := by
        rw [← zpow_add₀ (by norm_num)]; exact pow_le_iff.mpr (by omega)
      have h2 : (2 : ℚ) ^ (52 : ℤ) ≤ ((|mant v| : ℤ) : ℚ) := by exact_mod_cast hge
      have := mul_le_mul_of_nonneg_right h2 (two_pos (expo v)).le
      linarith
    · rw [← hexp] at h hd
      have hm : |mant v| = 2 ^ 53 - 1 := by
        have h1 : ((|mant v| : ℤ) : ℚ) < 2 ^ 53 := by
          rw [e3] at h
          exact lt_of_mul_lt_mul_right h (two_pos 971).le
        have h2 : (2 : ℚ) ^ 53 - 1 ≤ ((|mant v| : ℤ) : ℚ) := by
          have : ((2 : ℚ) ^ 53 - 1) * 2 ^ (971 : ℤ) ≤ ((|mant v| : ℤ) : ℚ) * 2 ^ (971 : ℤ) := by linarith [hd.2]
          exact le_of_mul_le_mul_right this (two_pos 971)
        have h1 : |mant v| < 2 ^ 53 := by exact_mod_cast h1
        have h2 : 2 ^ 53 - 1 ≤ |mant v| := by exact_mod_cast h2
        omega
      have hmq : ((|mant v| : ℤ) : ℚ) = 2 ^ 53 - 1 := by rw [hm]; norm_num
      have htie : |v - mant v * 2 ^ expo v| = 2 ^ expo v / 2 := by
        refine le_antisymm (mant_error v) ?_
        refine le_trans ?_ ((le_abs_self _).trans (abs_abs_sub_abs_le _ _))
        rw [abs_mant, hmq, ← hexp]
        linarith
      have := mant_even htie
      have : |mant v| % 2 = 0 := by rcases abs_choice (mant v) with h | h <;> rw [h] <;> omega
      rw [hm] at this
      norm_num at this
  · intro hv
    by_cases hexp : expo v ≤ 970
    · have h1 : ((|mant v| : ℤ) : ℚ) ≤ 2 ^ (53 : ℤ) := by exact_mod_cast mant_abs_le v
      rw [abs_mant]
      have h2 := mul_le_mul_of_nonneg_right h1 (two_pos (expo v)).le
      have h3 : (2 : ℚ) ^ (53 : ℤ) * 2 ^ expo v ≤ 2 ^ (1023 : ℤ) := by
        rw [← zpow_add₀ (by norm_num)]; exact pow_le_iff.mpr (by omega)
      linarith [two_pos 1023]
    · have h1 := expo_le_abs h0 (by omega)
      have : (2 : ℚ) ^ (expo v + 52) < 2 ^ (1024 : ℤ) := by linarith
      have := pow_lt_iff.mp this
      have he : expo v = 971 := by omega
      have h2 := hd.1
      generalize |(mant v : ℚ) * 2 ^ expo v| = A at h2 ⊢
      rw [he, e1] at h2
      generalize (2 : ℚ) ^ (1024 : ℤ) = B at hv ⊢
      generalize (2 : ℚ) ^ (970 : ℤ) = C at hv h2
      linarith

/-- Numbers that round to zero. -/
theorem mant_zero_iff {v : ℚ} (h0 : v ≠ 0) : mant v = 0 ↔ |v| ≤ 2 ^ (-1075 : ℤ) := by
  have e1 : (2 : ℚ) ^ (-1074 : ℤ) = 2 * 2 ^ (-1075 : ℤ) := by
    rw [show (-1074 : ℤ) = -1075 + 1 by norm_num]; exact pow_succ' _
  have hp := two_pos (-1075)
  have hge := expo_ge v
  constructor
  · intro h
    have he : expo v = -1074 := by
      by_contra hne
      have := mant_abs_ge h0 (by omega)
      rw [h] at this
      norm_num at this
    have := mant_error v
    rw [h, he] at this
    simp only [Int.cast_zero, zero_mul, sub_zero] at this
    rw [e1] at this
    generalize (2 : ℚ) ^ (-1075 : ℤ) = B at this ⊢
    linarith
  · intro hv
    have he : expo v = -1074 := by
      by_contra hne
      have := (expo_le_abs h0 (by omega)).trans hv
      have := pow_le_iff.mp this
      omega
    have hd := abs_le.mp (abs_diff v)
    rw [abs_mant, he] at hd
    have h1 : ((|mant v| : ℤ) : ℚ) ≤ 1 := by
      have : ((|mant v| : ℤ) : ℚ) * 2 ^ (-1074 : ℤ) ≤ 1 * 2 ^ (-1074 : ℤ) := by
        have h1 := hd.1
        generalize ((|mant v| : ℤ) : ℚ) * 2 ^ (-1074 : ℤ) = A at h1 ⊢
        rw [e1] at h1 ⊢
        generalize (2 : ℚ) ^ (-1075 : ℤ) = B at hv h1 ⊢
        linarith
      exact le_of_mul_le_mul_right this (two_pos _)
    have h1 : |mant v| ≤ 1 := by exact_mod_cast h1
    by_contra hne
    have h2 : |mant v| = 1 := by have := abs_pos.mpr hne; omega
    have htie : |v - mant v * 2 ^ expo v| = 2 ^ expo v / 2 := by
      refine le_antisymm (mant_error v) ?_
      refine le_trans ?_ ((neg_le_abs _).trans (abs_abs_sub_abs_le _ _))
      rw [abs_mant, h2, he]
      rw [Int.cast_one, one_mul, e1]
      generalize (2 : ℚ) ^ (-1075 : ℤ) = B at hv ⊢
      linarith
    have := mant_even htie
    have : |mant v| % 2 = 0 := by rcases abs_choice (mant v) with h | h <;> rw [h] <;> omega
    omega

end Goslide.Binary64
