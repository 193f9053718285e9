/- C137: dwell times computed with floating point numbers. -/
import Verif.Lemmas.Floats
import Verif.Lemmas.Lists

set_option linter.unusedSectionVars false
set_option linter.unusedSimpArgs false

namespace PD.Props
open PD
variable {K : Type} [Field K] [LinearOrder K] [IsStrictOrderedRing K] [FloorRing K]

/-- Seconds of at most a few days are rounded by less than 2⁻³⁴ seconds. -/
theorem f64_day {x : K} (hx : |x| ≤ 2 ^ 18) : |f64 x - x| ≤ 2 ^ (-34 : ℤ) := by
  have h := abs_f64_sub_le x
  have h1 : |x| * (2 : K) ^ (-53 : ℤ) ≤ 2 ^ 18 * 2 ^ (-53 : ℤ) := mul_le_mul_of_nonneg_right hx (by positivity)
  have h2 : (2 : K) ^ (-1075 : ℤ) ≤ 2 ^ (-53 : ℤ) := zpow_le_zpow_right₀ (by norm_num) (by norm_num)
  generalize (2 : K) ^ (-1075 : ℤ) = θ at h h2
  norm_num at h h1 h2 ⊢
  linarith

theorem timedeltaOf_err (x : K) : ∃ d, timedeltaOf .double x = .ok d ∧ |(d : K) - x * 1000000| ≤ 1 / 2 + 1 / 1000 := by
  refine ⟨_, rfl, ?_⟩
  have f0 : 0 ≤ x - ⌊x⌋ := by linarith [Int.floor_le x]
  have f1 : x - ⌊x⌋ < 1 := by linarith [Int.lt_floor_add_one x]
  obtain ⟨n, hn⟩ : ∃ n : ℤ, n = ⌊x⌋ := ⟨_, rfl⟩
  rw [← hn] at f0 f1 ⊢
  obtain ⟨w, hw⟩ : ∃ w : K, w = (x - n) * 1000000 := ⟨_, rfl⟩
  rw [← hw]
  have h := abs_f64_sub_le w
  have hx : |w| ≤ 1000000 := by
    rw [hw, abs_of_nonneg (by positivity)]
    linarith
  have h1 : |w| * (2 : K) ^ (-53 : ℤ) ≤ 1000000 * 2 ^ (-53 : ℤ) := mul_le_mul_of_nonneg_right hx (by positivity)
  have h2 : (2 : K) ^ (-1075 : ℤ) ≤ 2 ^ (-53 : ℤ) := zpow_le_zpow_right₀ (by norm_num) (by norm_num)
  generalize (2 : K) ^ (-1075 : ℤ) = θ at h h2
  have h3 := abs_roundHalfEven_sub_le (f64 w)
  have h4 : |f64 w - w| ≤ 1 / 1000 := by
    norm_num at h h1 h2 ⊢
    linarith
  push_cast
  rw [abs_le] at h3 h4 ⊢
  constructor <;> linarith [h4.1, h4.2, h3.1, h3.2]

/-- An integer that is within a little more than a half of a number between two integers is between them. -/
theorem int_between {d lo hi : ℤ} {e : K} (h : |(d : K) - e| ≤ 1 / 2 + 1 / 400) (h1 : (lo : K) ≤ e) (h2 : e ≤ hi) :
    lo ≤ d ∧ d ≤ hi := by
  rw [abs_le] at h
  constructor
  · have : (lo : K) < ((d + 1 : ℤ) : K) := by push_cast; linarith [h.1]
    have : lo < d + 1 := by exact_mod_cast this
    omega
  · have : (d : K) < ((hi + 1 : ℤ) : K) := by push_cast; linarith [h.2]
    have : d < hi + 1 := by exact_mod_cast this
    omega

theorem floatSeconds_err {t : Timedelta} (h0 : 0 ≤ t) (h1 : t ≤ 86400000000) :
    |(floatSeconds t : K) - (t : K) / 1000000| ≤ 2 ^ (-34 : ℤ) ∧ 0 ≤ (t : K) / 1000000 ∧
      (t : K) / 1000000 ≤ 86400 := by
  have k0 : (0 : K) ≤ (t : K) := by exact_mod_cast h0
  have k1 : (t : K) ≤ 86400000000 := by exact_mod_cast h1
  have k2 : (t : K) / 1000000 ≤ 86400 := by rw [div_le_iff₀ (by norm_num)]; linarith
  refine ⟨f64_day ?_, by positivity, k2⟩
  rw [abs_of_nonneg (by positivity)]
  norm_num
  linarith

/-! ### C137 rounding and dwell times -/

/-- With numpy 1, and with actions of type float64, the dwell time of an action is within the range of the adapter, of
up to a day, and within a microsecond of what exact arithmetic gives; a fixed dwell time is exact, and actions without
a third entry are refused as before. -/
theorem C137_dwell_partial (v : NumpyVersion) (p : Precision) (h : v = .one ∨ p = .double) (minDwell maxDwell : Timedelta)
    (h0 : 0 ≤ minDwell) (hm : minDwell ≤ maxDwell) (h1 : maxDwell ≤ 86400000000) (action : List K) :
    (∀ d, dwellOf minDwell maxDwell action = .ok d → ∃ d', floatDwell v p minDwell maxDwell action = .ok d' ∧
      minDwell ≤ d' ∧ d' ≤ maxDwell ∧ |d' - d| ≤ 1) ∧
    (∀ e, dwellOf minDwell maxDwell action = .error e → floatDwell v p minDwell maxDwell action = .error e) := by
  have hq : withPythonNumber v p = .double := by
    rcases h with rfl | rfl
    · rfl
    · cases v <;> rfl
  obtain ⟨em, m0, m1⟩ := floatSeconds_err (K := K) h0 (hm.trans h1)
  obtain ⟨eM, M0, M1⟩ := floatSeconds_err (K := K) (h0.trans hm) h1
  set m : K := floatSeconds minDwell
  set M : K := floatSeconds maxDwell
  by_cases heq : minDwell = maxDwell
  · unfold dwellOf floatDwell
    simp only [if_pos heq]
    refine ⟨fun d hd => ?_, fun e he => (by cases he)⟩
    cases hd
    obtain ⟨d', hd', hb⟩ := timedeltaOf_err m
    refine ⟨d', hd', ?_⟩
    have hn := abs_roundHalfEven_sub_le ((totalSeconds minDwell : K) * 1000000)
    have hts : (totalSeconds minDwell : K) * 1000000 = minDwell := by
      unfold totalSeconds; field_simp
    have hex : (ofSeconds (totalSeconds minDwell : K)) = minDwell := by
      show roundHalfEven _ = _
      rw [hts, roundHalfEven_intCast]
    have hb2 := int_between (d := d') (lo := minDwell) (hi := minDwell) (e := (minDwell : K)) (by
      rw [abs_le] at em hb ⊢
      norm_num at em hb ⊢
      constructor <;> linarith [em.1, em.2, hb.1, hb.2]) le_rfl le_rfl
    rw [hex]
    have : d' = minDwell := le_antisymm hb2.2 hb2.1
    subst this
    exact ⟨le_rfl, hm, by simp⟩
  · unfold dwellOf floatDwell
    simp only [if_neg heq]
    cases ha : action[2]? with
    | none => exact ⟨fun d hd => (by cases hd), fun e he => he⟩
    | some a =>
      refine ⟨fun d hd => ?_, fun e he => (by cases he)⟩
      cases hd
      simp only [hq]
      obtain ⟨c0, c1⟩ := clip_mem a (zero_le_one (α := K))
      set c := clip a 0 1
      have tm : (totalSeconds minDwell : K) = minDwell / 1000000 := rfl
      have tM : (totalSeconds maxDwell : K) = maxDwell / 1000000 := rfl
      rw [tm, tM]
      set s : K := (minDwell : K) / 1000000 with hs
      set S : K := (maxDwell : K) / 1000000 with hSd
      have hsS : s ≤ S := by
        rw [hs, hSd]
        exact div_le_div_of_nonneg_right (by exact_mod_cast hm) (by norm_num)
      obtain ⟨ε, hε⟩ : ∃ ε : K, ε = 2 ^ (-34 : ℤ) := ⟨_, rfl⟩
      have hεs : ε * 1000000 ≤ 1 / 10000 := by rw [hε]; norm_num
      have hε0 : 0 < ε := by rw [hε]; positivity
      rw [← hε, abs_le] at em eM
      show ∃ d', timedeltaOf .double (f64 (f64 (c * f64 (f64 (M - m))) + f64 m)) = .ok d' ∧ _
      have e1 := f64_day (K := K) (x := M - m) (by
        rw [abs_le]; norm_num; constructor <;> linarith [em.1, em.2, eM.1, eM.2])
      set r := f64 (M - m)
      rw [← hε, abs_le] at e1
      have e2 := f64_day (K := K) (x := r) (by
        rw [abs_le]; norm_num; constructor <;> linarith [em.1, em.2, eM.1, eM.2])
      set r' := f64 r
      rw [← hε, abs_le] at e2
      have hcr : |c * r' - c * (S - s)| ≤ 4 * ε := by
        rw [← mul_sub, abs_mul, abs_of_nonneg c0]
        have : |r' - (S - s)| ≤ 4 * ε := by
          rw [abs_le]; constructor <;> linarith [em.1, em.2, eM.1, eM.2]
        calc c * |r' - (S - s)| ≤ 1 * |r' - (S - s)| := mul_le_mul_of_nonneg_right c1 (abs_nonneg _)
          _ ≤ 4 * ε := by rw [one_mul]; exact this
      rw [abs_le] at hcr
      have hcs0 : 0 ≤ c * (S - s) := mul_nonneg c0 (by linarith)
      have hcs1 : c * (S - s) ≤ S - s := by
        calc c * (S - s) ≤ 1 * (S - s) := mul_le_mul_of_nonneg_right c1 (by linarith)
          _ = S - s := one_mul _
      have e3 := f64_day (K := K) (x := c * r') (by
        rw [abs_le]; norm_num; constructor <;> linarith)
      set y := f64 (c * r')
      rw [← hε, abs_le] at e3
      have e4 := f64_day (K := K) (x := m) (by
        rw [abs_le]; norm_num; constructor <;> linarith [em.1, em.2])
      set m' := f64 m
      rw [← hε, abs_le] at e4
      have e5 := f64_day (K := K) (x := y + m') (by
        rw [abs_le]; norm_num; constructor <;> linarith [em.1, em.2])
      set x := f64 (y + m')
      rw [← hε, abs_le] at e5
      obtain ⟨d', hd', hb⟩ := timedeltaOf_err x
      refine ⟨d', hd', ?_⟩
      have hE : |(d' : K) - (c * (S - s) + s) * 1000000| ≤ 1 / 2 + 1 / 400 := by
        rw [abs_le] at hb ⊢
        constructor <;> linarith [em.1, em.2, hb.1, hb.2]
      have hs6 : s * 1000000 = minDwell := by rw [hs]; field_simp
      have hS6 : S * 1000000 = maxDwell := by rw [hSd]; field_simp
      obtain ⟨b1, b2⟩ := int_between hE (lo := minDwell) (hi := maxDwell) (by rw [← hs6]; linarith)
        (by rw [← hS6]; linarith)
      refine ⟨b1, b2, ?_⟩
      have hr := abs_roundHalfEven_sub_le ((c * (S - s) + s) * 1000000)
      show |d' - roundHalfEven ((c * (S - s) + s) * 1000000)| ≤ 1
      set D := roundHalfEven ((c * (S - s) + s) * 1000000)
      rw [abs_le] at hE hr ⊢
      constructor
      · have : (D : K) < ((d' + 2 : ℤ) : K) := by push_cast; linarith [hE.1, hr.2]
        have : D < d' + 2 := by exact_mod_cast this
        omega
      · have : (d' : K) < ((D + 2 : ℤ) : K) := by push_cast; linarith [hE.2, hr.1]
        have : d' < D + 2 := by exact_mod_cast this
        omega

/-- With numpy 2 and actions of type float32, the type that the adapter's specification asks for, an adapter with a
range of dwell times raises `TypeError` for every action. -/
theorem C137_refused (minDwell maxDwell : Timedelta) (h : minDwell ≠ maxDwell) (x y a : K) (rest : List K) :
    floatDwell .two .single minDwell maxDwell (x :: y :: a :: rest) = .error .typeError := by
  unfold floatDwell
  rw [if_neg h]
  rfl

/-- The adapter of `relative_random_long`, with dwell times from one to five seconds: an action of 1/3. -/
example : ∃ d, floatDwell (K := ℚ) .two .double 1000000 5000000 [0, 0, 1 / 3] = .ok d ∧ 1000000 ≤ d ∧ d ≤ 5000000 ∧
    |d - 2333333| ≤ 1 :=
  (C137_dwell_partial (K := ℚ) .two .double (.inr rfl) 1000000 5000000 (by norm_num) (by norm_num) (by norm_num)
    [0, 0, 1 / 3]).1 2333333 (by decide +kernel)

end PD.Props
