import Verif.Go.Binary64
/-
The rounding of `Go/Binary64.lean` is to the nearest number, ties to even.
-/
namespace Goslide.Binary64

theorem nearest_best (x : ℚ) (k : ℤ) : |x - nearest x| ≤ |x - k| := by
  have h := nearest_near x
  rw [abs_sub_comm] at h
  by_cases hk : k = nearest x
  · rw [hk]
  · have h1 : (1 : ℚ) ≤ |(nearest x : ℚ) - k| := by
      have : 1 ≤ |nearest x - k| := Int.one_le_abs (sub_ne_zero.mpr (Ne.symm hk))
      exact_mod_cast this
    have h2 : |(nearest x : ℚ) - k| ≤ |(nearest x : ℚ) - x| + |x - k| := abs_sub_le _ _ _
    rw [abs_sub_comm _ x] at h2
    linarith

theorem nearest_even (x : ℚ) (h : |x - nearest x| = 1 / 2) : nearest x % 2 = 0 := by
  have h1 := Int.floor_le x
  have h2 := Int.lt_floor_add_one x
  unfold nearest at h ⊢
  split_ifs at h ⊢ with c1 c2 c3
  · rw [abs_of_nonneg (by linarith)] at h; linarith
  · push_cast at h
    rw [abs_of_nonpos (by linarith)] at h; linarith
  · exact c3
  · omega

theorem abs_sub_mant (q : ℚ) (y : ℚ) : |q - y * 2 ^ expo q| = |q / 2 ^ expo q - y| * 2 ^ expo q := by
  conv_rhs => rw [← abs_of_pos (two_pos (expo q))]
  rw [abs_of_pos (two_pos (expo q)), ← abs_of_pos (two_pos (expo q)), ← abs_mul, abs_of_pos (two_pos (expo q)), sub_mul,
    div_mul_cancel₀ _ (two_pos _).ne']

/-- The value chosen by rounding is nearest among all numbers. -/
theorem mant_best {q : ℚ} (h0 : q ≠ 0) {s : ℚ} (hs : Rep s) : |q - mant q * 2 ^ expo q| ≤ |q - s| := by
  have mult : ∀ k : ℤ, |q - mant q * 2 ^ expo q| ≤ |q - k * 2 ^ expo q| := by
    intro k
    rw [abs_sub_mant, abs_sub_mant]
    exact mul_le_mul_of_nonneg_right (nearest_best _ _) (two_pos _).le
  obtain ⟨-, m, e, hm, he, -, hq⟩ := hs
  by_cases hle : expo q ≤ e
  · obtain ⟨k, hk⟩ := Int.eq_ofNat_of_zero_le (show 0 ≤ e - expo q by omega)
    have : s = ((m * 2 ^ k : ℤ) : ℚ) * 2 ^ expo q := by
      have he' : e = (k : ℤ) + expo q := by omega
      rw [hq, he', zpow_add₀ (by norm_num), zpow_natCast]
      push_cast
      ring
    rw [this]
    exact mult _
  · have h1 := expo_le_abs h0 (by omega)
    have h2 : |s| ≤ 2 ^ (expo q + 52) := by
      have h3 : (2 : ℚ) ^ (53 + e) ≤ 2 ^ (expo q + 52) := zpow_le_zpow_right₀ (by norm_num) (by omega)
      refine le_trans ?_ h3
      rw [hq, abs_mul, abs_of_pos (two_pos e), zpow_add₀ (by norm_num)]
      apply mul_le_mul_of_nonneg_right _ (two_pos e).le
      exact_mod_cast hm.le
    have h4 : (2 : ℚ) ^ (expo q + 52) = ((2 ^ 52 : ℤ) : ℚ) * 2 ^ expo q := by
      rw [add_comm, zpow_add₀ (by norm_num)]
      norm_num
    rw [abs_le] at h2
    rcases lt_or_gt_of_ne h0 with hneg | hpos
    · rw [abs_of_neg hneg] at h1
      have := mult (-2 ^ 52)
      have h5 : ((-2 ^ 52 : ℤ) : ℚ) * 2 ^ expo q = -(2 ^ (expo q + 52)) := by rw [h4]; push_cast; ring
      rw [h5] at this
      refine this.trans ?_
      rw [abs_of_nonpos (by linarith), abs_of_nonpos (by linarith [h2.1])]
      linarith [h2.1]
    · rw [abs_of_pos hpos] at h1
      have := mult (2 ^ 52)
      rw [← h4] at this
      refine this.trans ?_
      rw [abs_of_nonneg (by linarith), abs_of_nonneg (by linarith [h2.2])]
      linarith [h2.2]

/-- If another number is as near, the chosen last place is even. -/
theorem mant_even {q : ℚ} (h : |q - mant q * 2 ^ expo q| = 2 ^ expo q / 2) : mant q % 2 = 0 := by
  apply nearest_even
  rw [abs_sub_mant] at h
  have := two_pos (expo q)
  have h2 : |q / 2 ^ expo q - mant q| * 2 ^ expo q = 1 / 2 * 2 ^ expo q := by rw [h]; ring
  exact mul_right_cancel₀ this.ne' h2

/-- Half a unit in the last place. -/
theorem mant_error (q : ℚ) : |q - mant q * 2 ^ expo q| ≤ 2 ^ expo q / 2 := by
  rw [abs_sub_mant]
  have h := nearest_near (q / 2 ^ expo q)
  rw [abs_sub_comm] at h
  have := mul_le_mul_of_nonneg_right h (two_pos (expo q)).le
  unfold mant
  linarith

end Goslide.Binary64
