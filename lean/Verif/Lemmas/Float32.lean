/- Rounding to float32. -/
import Verif.Model.Proto
import Verif.Lemmas.Lists

set_option linter.unusedSectionVars false
set_option linter.unusedSimpArgs false

namespace PD
variable {K : Type} [Field K] [LinearOrder K] [IsStrictOrderedRing K] [FloorRing K]

theorem ulp32_pos (x : K) : 0 < ulp32 x := by unfold ulp32; positivity

theorem abs_f32_sub_le_ulp (x : K) : |f32 x - x| ≤ ulp32 x / 2 := by
  have hu := ulp32_pos x
  have h := abs_roundHalfEven_sub_le (x / ulp32 x)
  have e : f32 x - x = ((roundHalfEven (x / ulp32 x) : K) - x / ulp32 x) * ulp32 x := by
    unfold f32; field_simp
  rw [e, abs_mul, abs_of_pos hu]
  nlinarith

theorem zpow_log_le (x : K) (hx : x ≠ 0) : (2 : K) ^ Int.log 2 |x| ≤ |x| := by
  have := Int.zpow_log_le_self (R := K) (b := 2) (by norm_num) (abs_pos.2 hx)
  exact_mod_cast this

theorem lt_zpow_log (x : K) : |x| < (2 : K) ^ (Int.log 2 |x| + 1) := by
  have := Int.lt_zpow_succ_log_self (R := K) (b := 2) (by norm_num) |x|
  exact_mod_cast this

/-- The relative error, for normal numbers. -/
theorem abs_f32_sub_le (x : K) (hx : (2 : K) ^ (-126 : ℤ) ≤ |x|) : |f32 x - x| ≤ |x| / 2 ^ 24 := by
  have hx0 : x ≠ 0 := by
    rintro rfl
    rw [abs_zero] at hx
    exact absurd hx (not_le.2 (by positivity))
  have hl : -126 ≤ Int.log 2 |x| := by
    by_contra hc
    push Not at hc
    have h1 := lt_zpow_log x
    have h2 : (2 : K) ^ (Int.log 2 |x| + 1) ≤ 2 ^ (-126 : ℤ) :=
      zpow_le_zpow_right₀ (by norm_num) (by omega)
    linarith
  have h1 := abs_f32_sub_le_ulp x
  have h2 := zpow_log_le x hx0
  have h3 : ulp32 x = 2 ^ Int.log 2 |x| / 2 ^ 23 := by
    unfold ulp32
    rw [max_eq_left hl, zpow_sub₀ (by norm_num)]
    norm_cast
  rw [h3] at h1
  have e : (2 : K) ^ Int.log 2 |x| / 2 ^ 23 / 2 = 2 ^ Int.log 2 |x| / 2 ^ 24 := by
    rw [div_div]; norm_num
  rw [e] at h1
  exact h1.trans (div_le_div_of_nonneg_right h2 (by positivity))

/-- The absolute error, for subnormal numbers. -/
theorem abs_f32_sub_le_small (x : K) (hx : |x| < (2 : K) ^ (-126 : ℤ)) :
    |f32 x - x| ≤ 2 ^ (-150 : ℤ) := by
  have h1 := abs_f32_sub_le_ulp x
  by_cases hx0 : x = 0
  · subst hx0
    have : f32 (0 : K) = 0 := by
      unfold f32
      rw [zero_div]
      have := roundHalfEven_intCast (K := K) 0
      rw [Int.cast_zero] at this
      rw [this]
      simp
    rw [this, sub_zero, abs_zero]
    positivity
  have hl : Int.log 2 |x| < -126 := by
    have h2 := zpow_log_le x hx0
    have h3 := lt_of_le_of_lt h2 hx
    exact (zpow_lt_zpow_iff_right₀ (by norm_num)).1 h3
  have h3 : ulp32 x = 2 ^ (-149 : ℤ) := by
    unfold ulp32
    rw [max_eq_right (by omega)]
    norm_num
  rw [h3] at h1
  have : (2 : K) ^ (-149 : ℤ) / 2 = 2 ^ (-150 : ℤ) := by
    rw [show (-149 : ℤ) = -150 + 1 by norm_num, zpow_add_one₀ (by norm_num)]
    field_simp
  rwa [this] at h1

/-- Multiples of a large enough power of two are not changed. -/
theorem f32_of_mul (m k : ℤ) (hm : |m| ≤ 2 ^ 24) (hk : -149 ≤ k) :
    f32 ((m : K) * 2 ^ k) = m * 2 ^ k := by
  by_cases hm0 : m = 0
  · subst hm0
    simp only [Int.cast_zero, zero_mul]
    unfold f32
    rw [zero_div]
    have := roundHalfEven_intCast (K := K) 0
    rw [Int.cast_zero] at this
    rw [this]; simp
  set x : K := (m : K) * 2 ^ k with hx
  have hxne : x ≠ 0 := by
    rw [hx]; exact mul_ne_zero (by exact_mod_cast hm0) (by positivity)
  have hax : |x| = (|m| : ℤ) * (2 : K) ^ k := by
    rw [hx, abs_mul, abs_of_pos (show (0 : K) < 2 ^ k by positivity)]
    push_cast; rfl
  -- an integral number of ulps
  have key : ∃ n : ℤ, x / ulp32 x = n := by
    rcases lt_or_eq_of_le hm with hlt | heq
    · have hl : Int.log 2 |x| ≤ k + 23 := by
        have h2 := zpow_log_le x hxne
        have h3 : |x| < (2 : K) ^ (k + 24) := by
          rw [hax, zpow_add₀ (by norm_num), mul_comm ((2 : K) ^ k)]
          apply mul_lt_mul_of_pos_right _ (by positivity)
          exact_mod_cast hlt
        have h4 := lt_of_le_of_lt h2 h3
        have h5 := (zpow_lt_zpow_iff_right₀ (show (1 : K) < 2 by norm_num)).1 h4
        omega
      obtain ⟨d, hd⟩ : ∃ d : ℕ, k = (max (Int.log 2 |x|) (-126) - 23) + d :=
        ⟨(k - (max (Int.log 2 |x|) (-126) - 23)).toNat, by omega⟩
      refine ⟨m * 2 ^ d, ?_⟩
      unfold ulp32
      rw [div_eq_iff (by positivity), hx]
      conv_lhs => rw [hd, zpow_add₀ (by norm_num)]
      push_cast
      rw [zpow_natCast]
      ring
    · have hp : |x| = (2 : K) ^ (k + 24) := by
        rw [hax, heq, zpow_add₀ (by norm_num), mul_comm]
        norm_cast
      have hl : Int.log 2 |x| = k + 24 := by
        rw [hp]
        have := Int.log_zpow (R := K) (b := 2) (by norm_num) (k + 24)
        exact_mod_cast this
      have hmax : max (Int.log 2 |x|) (-126) - 23 = k + 1 := by omega
      have hm' : m = 2 ^ 24 ∨ m = -2 ^ 24 := by
        rcases abs_choice m with h | h
        · left; rw [← heq, h]
        · right; rw [← heq, h]; ring
      refine ⟨if 0 < m then 2 ^ 23 else -2 ^ 23, ?_⟩
      unfold ulp32
      rw [hmax, div_eq_iff (by positivity), hx, zpow_add_one₀ (by norm_num)]
      rcases hm' with rfl | rfl
      · norm_num; ring
      · norm_num; ring
  obtain ⟨n, hn⟩ := key
  unfold f32
  rw [hn, roundHalfEven_intCast, ← hn, div_mul_cancel₀ _ (ulp32_pos x).ne']

/-- The form of a float32 number. -/
theorem f32_form (x : K) : ∃ m k : ℤ, f32 x = m * 2 ^ k ∧ |m| ≤ 2 ^ 24 ∧ -149 ≤ k ∧ (2 : K) ^ k = ulp32 x := by
  refine ⟨roundHalfEven (x / ulp32 x), max (Int.log 2 |x|) (-126) - 23, rfl, ?_, by omega, rfl⟩
  have hb : |x / ulp32 x| ≤ ((2 ^ 24 : ℤ) : K) := by
    rw [abs_div, abs_of_pos (ulp32_pos x), div_le_iff₀ (ulp32_pos x)]
    refine (lt_zpow_log x).le.trans ?_
    unfold ulp32
    have : ((2 ^ 24 : ℤ) : K) = (2 : K) ^ (24 : ℤ) := by norm_cast
    rw [this, ← zpow_add₀ (by norm_num)]
    exact zpow_le_zpow_right₀ (by norm_num) (by omega)
  rw [abs_le] at hb ⊢
  constructor
  · have := roundHalfEven_mono (x := ((-2 ^ 24 : ℤ) : K)) (y := x / ulp32 x) (by push_cast at hb ⊢; exact hb.1)
    rwa [roundHalfEven_intCast] at this
  · have := roundHalfEven_mono (x := x / ulp32 x) (y := ((2 ^ 24 : ℤ) : K)) hb.2
    rwa [roundHalfEven_intCast] at this

/-- Rounding twice is rounding once. -/
theorem f32_idem (x : K) : f32 (f32 x) = f32 x := by
  obtain ⟨m, k, h, hm, hk, _⟩ := f32_form x
  rw [h, f32_of_mul m k hm hk]

theorem f32_int (n : ℤ) (hn : |n| ≤ 2 ^ 24) : f32 (n : K) = n := by
  have := f32_of_mul (K := K) n 0 hn (by norm_num)
  simpa using this

end PD
