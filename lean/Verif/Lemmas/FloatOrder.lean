/- Rounding to floating point numbers keeps the order. -/
import Verif.Lemmas.Floats

set_option linter.unusedSectionVars false
set_option linter.unusedSimpArgs false

namespace PD
variable {K : Type} [Field K] [LinearOrder K] [IsStrictOrderedRing K] [FloorRing K]

theorem roundTo_le_mul {b e : ℤ} {x : K} (m : ℤ) (h : x ≤ m * ulpOf b e x) : roundTo b e x ≤ m * ulpOf b e x := by
  have hu := ulpOf_pos b e x
  have h1 := roundHalfEven_mono ((div_le_iff₀ hu).2 h)
  rw [roundHalfEven_intCast] at h1
  unfold roundTo
  exact mul_le_mul_of_nonneg_right (by exact_mod_cast h1) hu.le

theorem mul_le_roundTo {b e : ℤ} {x : K} (m : ℤ) (h : m * ulpOf b e x ≤ x) : m * ulpOf b e x ≤ roundTo b e x := by
  have hu := ulpOf_pos b e x
  have h1 := roundHalfEven_mono ((le_div_iff₀ hu).2 h)
  rw [roundHalfEven_intCast] at h1
  unfold roundTo
  exact mul_le_mul_of_nonneg_right (by exact_mod_cast h1) hu.le

/-- The binary exponent used for a number. -/
def expOf (e : ℤ) (x : K) : ℤ := max (Int.log 2 |x|) e

theorem abs_lt_expOf (e : ℤ) (x : K) : |x| < (2 : K) ^ (expOf e x + 1) := by
  refine (lt_zpow_log x).trans_le (zpow_le_zpow_right₀ (by norm_num) ?_)
  unfold expOf
  omega

theorem zpow_expOf_le {e : ℤ} {x : K} (h : e < expOf e x) : (2 : K) ^ expOf e x ≤ |x| ∨ x = 0 := by
  by_cases hx : x = 0
  · exact .inr hx
  left
  have : expOf e x = Int.log 2 |x| := by unfold expOf at h ⊢; omega
  rw [this]
  exact zpow_log_le x hx

theorem zpow_eq_mul_ulp {b e : ℤ} (hb : 0 ≤ b) (x : K) :
    (2 : K) ^ (expOf e x + 1) = ((2 ^ b.toNat : ℤ) : K) * ulpOf b e x := by
  have : ((2 ^ b.toNat : ℤ) : K) = (2 : K) ^ b := by
    push_cast
    rw [← zpow_natCast, Int.toNat_of_nonneg hb]
  rw [this]
  unfold ulpOf
  rw [← zpow_add₀ (by norm_num)]
  congr 1
  unfold expOf
  ring

theorem zpow_eq_mul_ulp' {b e : ℤ} (hb : 1 ≤ b) (x : K) :
    (2 : K) ^ (expOf e x) = ((2 ^ (b - 1).toNat : ℤ) : K) * ulpOf b e x := by
  have : ((2 ^ (b - 1).toNat : ℤ) : K) = (2 : K) ^ (b - 1) := by
    push_cast
    rw [← zpow_natCast, Int.toNat_of_nonneg (by omega)]
  rw [this]
  unfold ulpOf
  rw [← zpow_add₀ (by norm_num)]
  congr 1
  unfold expOf
  ring

theorem roundTo_nonpos (b e : ℤ) {x : K} (hx : x ≤ 0) : roundTo b e x ≤ 0 := by
  have := roundTo_le_mul (b := b) (e := e) (x := x) 0 (by simpa using hx)
  simpa using this

theorem roundTo_le_zpow {b e : ℤ} (hb : 0 ≤ b) (x : K) : roundTo b e x ≤ 2 ^ (expOf e x + 1) := by
  rw [zpow_eq_mul_ulp hb x]
  apply roundTo_le_mul
  rw [← zpow_eq_mul_ulp hb x]
  exact (le_abs_self x).trans (abs_lt_expOf e x).le

theorem neg_zpow_le_roundTo {b e : ℤ} (hb : 0 ≤ b) (x : K) : -2 ^ (expOf e x + 1) ≤ roundTo b e x := by
  have h := mul_le_roundTo (b := b) (e := e) (x := x) (-(2 ^ b.toNat)) (by
    rw [Int.cast_neg, neg_mul, ← zpow_eq_mul_ulp hb x]
    have := (neg_abs_le x)
    have := abs_lt_expOf e x
    linarith)
  rwa [Int.cast_neg, neg_mul, ← zpow_eq_mul_ulp hb x] at h

theorem expOf_mono {e : ℤ} {x y : K} (h : |x| ≤ |y|) (hx : x ≠ 0) : expOf e x ≤ expOf e y := by
  unfold expOf
  have := Int.log_mono_right (b := 2) (abs_pos.2 hx) h
  omega

/-- Rounding keeps the order. -/
theorem roundTo_mono {b e : ℤ} (hb : 1 ≤ b) {x y : K} (h : x ≤ y) : roundTo b e x ≤ roundTo b e y := by
  rcases le_total 0 y with hy | hy
  · rcases le_total x 0 with hx | hx
    · exact (roundTo_nonpos b e hx).trans (roundTo_nonneg b e hy)
    by_cases hx0 : x = 0
    · rw [hx0, roundTo_zero]
      exact roundTo_nonneg b e hy
    have hk : expOf e x ≤ expOf e y := expOf_mono (by rw [abs_of_nonneg hx, abs_of_nonneg hy]; exact h) hx0
    rcases hk.lt_or_eq with hk | hk
    · have he : e ≤ expOf e x := by unfold expOf; omega
      rcases zpow_expOf_le (lt_of_le_of_lt he hk) with h1 | h1
      · refine (roundTo_le_zpow (by omega) x).trans ?_
        refine (zpow_le_zpow_right₀ (by norm_num) (show expOf e x + 1 ≤ expOf e y by omega)).trans ?_
        rw [zpow_eq_mul_ulp' hb y] at h1 ⊢
        apply mul_le_roundTo
        rwa [abs_of_nonneg hy] at h1
      · exact absurd (le_antisymm (h1 ▸ h) hx) hx0
    · have hu : ulpOf b e x = ulpOf b e y := by
        unfold ulpOf
        unfold expOf at hk
        rw [hk]
      unfold roundTo
      rw [hu]
      have hup := ulpOf_pos b e y
      have := roundHalfEven_mono (div_le_div_of_nonneg_right h hup.le)
      exact mul_le_mul_of_nonneg_right (by exact_mod_cast this) hup.le
  · have hx : x ≤ 0 := h.trans hy
    by_cases hy0 : y = 0
    · rw [hy0, roundTo_zero]
      exact roundTo_nonpos b e hx
    have hk : expOf e y ≤ expOf e x := expOf_mono (by rw [abs_of_nonpos hx, abs_of_nonpos hy]; linarith) hy0
    rcases hk.lt_or_eq with hk | hk
    · have he : e ≤ expOf e y := by unfold expOf; omega
      rcases zpow_expOf_le (lt_of_le_of_lt he hk) with h1 | h1
      · refine le_trans ?_ (neg_zpow_le_roundTo (by omega) y)
        have h2 := zpow_le_zpow_right₀ (show (1 : K) ≤ 2 by norm_num) (show expOf e y + 1 ≤ expOf e x by omega)
        refine le_trans ?_ (neg_le_neg h2)
        rw [abs_of_nonpos hx, zpow_eq_mul_ulp' hb x] at h1
        rw [zpow_eq_mul_ulp' hb x]
        have h3 := roundTo_le_mul (b := b) (e := e) (x := x) (-(2 ^ (b - 1).toNat)) (by
          rw [Int.cast_neg, neg_mul]; linarith)
        rwa [Int.cast_neg, neg_mul] at h3
      · exact absurd (le_antisymm hy (h1 ▸ h)) hy0
    · have hu : ulpOf b e x = ulpOf b e y := by
        unfold ulpOf
        unfold expOf at hk
        rw [hk]
      unfold roundTo
      rw [hu]
      have hup := ulpOf_pos b e y
      have := roundHalfEven_mono (div_le_div_of_nonneg_right h hup.le)
      exact mul_le_mul_of_nonneg_right (by exact_mod_cast this) hup.le

theorem f64_mono {x y : K} (h : x ≤ y) : f64 x ≤ f64 y := roundTo_mono (by norm_num) h
theorem f32_mono {x y : K} (h : x ≤ y) : f32 x ≤ f32 y := by
  rw [f32_eq_roundTo, f32_eq_roundTo]; exact roundTo_mono (by norm_num) h

theorem f64_one : f64 (1 : K) = 1 := by
  have := roundTo_of_mul (K := K) 53 (-1022) 1 0 (by decide) (by norm_num) (by norm_num)
  simpa [f64] using this

theorem f32_one : f32 (1 : K) = 1 := by
  have := roundTo_of_mul (K := K) 24 (-126) 1 0 (by decide) (by norm_num) (by norm_num)
  rw [f32_eq_roundTo]
  simpa using this

/-- The smallest positive number. -/
theorem f64_tiny : f64 ((2 : K) ^ (-1074 : ℤ)) = 2 ^ (-1074 : ℤ) := by
  have := roundTo_of_mul (K := K) 53 (-1022) 1 (-1074) (by decide) (by norm_num) (by norm_num)
  rw [Int.cast_one, one_mul] at this
  exact this

/-- Float64 numbers are multiples of the smallest one. -/
theorem f64_multiple (x : K) : ∃ m : ℤ, f64 x = m * 2 ^ (-1074 : ℤ) := by
  refine ⟨roundHalfEven (x / ulpOf 53 (-1022) x) * 2 ^ (max (Int.log 2 |x|) (-1022) + 1022).toNat, ?_⟩
  unfold f64 roundTo
  have : ulpOf 53 (-1022) x = (2 : K) ^ (max (Int.log 2 |x|) (-1022) + 1022).toNat * 2 ^ (-1074 : ℤ) := by
    rw [← zpow_natCast, Int.toNat_of_nonneg (by omega), ← zpow_add₀ (by norm_num)]
    unfold ulpOf
    congr 1
    ring
  conv_lhs => rw [this]
  rw [← this, this]
  push_cast
  ring

/-- Two different float64 numbers have a difference that does not vanish. -/
theorem f64_sub_pos {x y : K} (hx : f64 x = x) (hy : f64 y = y) (h : x < y) : 0 < f64 (y - x) := by
  obtain ⟨m, hm⟩ := f64_multiple x
  obtain ⟨n, hn⟩ := f64_multiple y
  rw [hx] at hm
  rw [hy] at hn
  obtain ⟨t, ht⟩ : ∃ t : K, t = 2 ^ (-1074 : ℤ) := ⟨_, rfl⟩
  have htp : 0 < t := by rw [ht]; positivity
  rw [← ht] at hm hn
  have hmn : m < n := by
    have : (m : K) * t < n * t := by rw [← hm, ← hn]; exact h
    exact_mod_cast lt_of_mul_lt_mul_right this htp.le
  have h1 : t ≤ y - x := by
    rw [hm, hn, ← sub_mul]
    have : (1 : K) ≤ (n : K) - m := by
      have : ((m + 1 : ℤ) : K) ≤ n := by exact_mod_cast hmn
      push_cast at this
      linarith
    nlinarith
  have h2 := f64_mono h1
  rw [ht, f64_tiny, ← ht] at h2
  linarith

end PD
