/- Lemmas about the human prior with floating point numbers. -/
import Verif.Model.FloatPrior
import Verif.Spec.FloatPrior
import Verif.Lemmas.FloatPristine
import Mathlib.Analysis.Complex.ExponentialBounds

set_option linter.unusedSectionVars false
set_option linter.unusedSimpArgs false

namespace PD
open PD.Spec PD.Props

theorem f64_tight (x : ℝ) : |f64 x - x| ≤ |x| / 10 ^ 15 + 1 / 10 ^ 60 := by
  have h := abs_f64_sub_le x
  have h1 : (2 : ℝ) ^ (-1075 : ℤ) ≤ 2 ^ (-210 : ℤ) := zpow_le_zpow_right₀ (by norm_num) (by norm_num)
  have h2 : (2 : ℝ) ^ (-210 : ℤ) ≤ 1 / 10 ^ 60 := by norm_num
  have h3 : |x| * (2 : ℝ) ^ (-53 : ℤ) ≤ |x| / 10 ^ 15 := by
    rw [div_eq_mul_one_div]
    exact mul_le_mul_of_nonneg_left (by norm_num) (abs_nonneg x)
  exact h.trans (add_le_add h3 (h1.trans h2))

/-! ### The place of the peak -/

/-- 0.85 in the direction of the mirror image of `u`. -/
noncomputable def mirrored (u : V2 ℝ) : V2 ℝ := ⟨85 / 100 * (u.x / len u), -(85 / 100 * (u.y / len u))⟩

theorem rotate_mean (b : ℝ) {u : V2 ℝ} (hu : 0 < len u) :
    rotate ⟨b, 0⟩ (-getAngle u) = ⟨b * (u.x / len u), -(b * (u.y / len u))⟩ := by
  have h1 := len_cos_angle u
  have h2 := len_sin_angle u
  have e1 : Real.cos (getAngle u) = u.x / len u := by field_simp; linarith
  have e2 : Real.sin (getAngle u) = u.y / len u := by field_simp; linarith
  unfold rotate
  rw [Real.cos_neg, Real.sin_neg, e1, e2]
  apply V2.ext <;> simp

theorem abs_x_le_len (v : V2 ℝ) : |v.x| ≤ len v := by
  unfold len
  rw [← Real.sqrt_sq_eq_abs]
  exact Real.sqrt_le_sqrt (by nlinarith [sq_nonneg v.y])

theorem abs_y_le_len (v : V2 ℝ) : |v.y| ≤ len v := by
  unfold len
  rw [← Real.sqrt_sq_eq_abs]
  exact Real.sqrt_le_sqrt (by nlinarith [sq_nonneg v.x])

theorem ratio_close {a a' l l' : ℝ} (hl : 14 / 10 ≤ l) (ha : |a' - a| ≤ 2 / 10 ^ 15) (hll : |l' - l| ≤ 2 / 10 ^ 15)
    (hal : |a'| ≤ l') : |a' / l' - a / l| ≤ 1 / 10 ^ 14 := by
  have hl0 : 0 < l := by linarith
  have hl' : 0 < l' := by
    rw [abs_le] at hll
    norm_num at hll
    linarith [hll.1]
  have e : a' / l' - a / l = ((a' - a) - a' / l' * (l' - l)) / l := by field_simp; ring
  have h1 : |a' / l'| ≤ 1 := by rw [abs_div, abs_of_pos hl', div_le_one hl']; exact hal
  rw [e, abs_div, abs_of_pos hl0, div_le_iff₀ hl0]
  have h2 : |a' / l' * (l' - l)| ≤ 2 / 10 ^ 15 := by
    rw [abs_mul]
    exact (mul_le_of_le_one_left (abs_nonneg _) h1).trans hll
  refine (abs_sub _ _).trans ?_
  generalize |a' / l' * (l' - l)| = q at h2
  generalize |a' - a| = r at ha
  norm_num at h2 ha ⊢
  linarith

theorem floatMean_err (L : FloatLib) {u v : V2 ℝ} (hu : 14 / 10 ≤ len u) (h : len (v - u) ≤ 2 / 10 ^ 15) :
    Spec.dist (floatRotate L ⟨f64 (85 / 100), 0⟩ (-L.angle.arctan2 v.y v.x)) (mirrored u) ≤ 3 / 10 ^ 9 := by
  have hll := (len_close' v u).trans h
  have hv : 0 < len v := by
    have := abs_le.1 hll
    norm_num at this
    linarith [this.1]
  have hb := f64_tight (85 / 100)
  have hb' : |f64 (85 / 100 : ℝ) - 85 / 100| ≤ 1 / 10 ^ 15 := hb.trans (by rw [abs_of_pos (by norm_num)]; norm_num)
  have hb1 : |f64 (85 / 100 : ℝ)| ≤ 1 := by
    rw [abs_le] at hb' ⊢
    norm_num at hb' ⊢
    constructor <;> linarith [hb'.1, hb'.2]
  have e1 := floatRotate_err L v (b := ⟨f64 (85 / 100), 0⟩) (hb1.trans (by norm_num)) (by simp)
  rw [rotate_mean _ hv] at e1
  refine (dist_tri _ _ _).trans ((add_le_add e1 (dist_le_abs _ _)).trans ?_)
  have hx := ratio_close hu ((abs_x_le_len (v - u)).trans h) hll (abs_x_le_len v)
  have hy := ratio_close hu ((abs_y_le_len (v - u)).trans h) hll (abs_y_le_len v)
  have key : ∀ {b r s : ℝ}, |b - 85 / 100| ≤ 1 / 10 ^ 15 → |r - s| ≤ 1 / 10 ^ 14 → |r| ≤ 1 →
      |85 / 100 * s - b * r| ≤ 2 / 10 ^ 14 := by
    intro b r s h1 h2 h3
    have e : 85 / 100 * s - b * r = -(85 / 100 * (r - s)) - (b - 85 / 100) * r := by ring
    rw [e]
    refine (abs_sub _ _).trans ?_
    rw [abs_neg, abs_mul, abs_mul, abs_of_pos (by norm_num : (0 : ℝ) < 85 / 100)]
    have := mul_le_of_le_one_right (abs_nonneg (b - 85 / 100)) h3
    generalize |b - 85 / 100| * |r| = q at this
    generalize |r - s| = w at h2
    generalize |b - 85 / 100| = z at h1 this
    norm_num at *
    linarith
  have rx : |v.x / len v| ≤ 1 := by rw [abs_div, abs_of_pos hv, div_le_one hv]; exact abs_x_le_len v
  have ry : |v.y / len v| ≤ 1 := by rw [abs_div, abs_of_pos hv, div_le_one hv]; exact abs_y_le_len v
  have k1 := key hb' hx rx
  have k2 := key hb' hy ry
  have k2' : |(mirrored u).y - -(f64 (85 / 100) * (v.y / len v))| ≤ 2 / 10 ^ 14 := by
    have : (mirrored u).y - -(f64 (85 / 100) * (v.y / len v)) =
        -(85 / 100 * (u.y / len u) - f64 (85 / 100) * (v.y / len v)) := by simp only [mirrored]; ring
    rw [this, abs_neg]
    exact k2
  refine (add_le_add_right (add_le_add k1 k2') _).trans (by norm_num)

/-! ### The place of the beam -/

theorem bond_quotient (x : ℝ) : |f64 (f64 x / f64 (BOND : ℝ)) - x / (142 / 100)| ≤ |x / (142 / 100)| * (2 / 10 ^ 14) + 1 / 10 ^ 50 := by
  have hB : |f64 (BOND : ℝ) - 142 / 100| ≤ 2 / 10 ^ 15 := by
    have h := f64_tight (142 / 100)
    rw [abs_of_pos (by norm_num : (0 : ℝ) < 142 / 100)] at h
    refine le_trans (le_of_eq ?_) (h.trans (by norm_num))
    simp [BOND]
  have h1 := f64_tight x
  have h2 := f64_tight (f64 x / f64 (BOND : ℝ))
  generalize f64 (f64 x / f64 (BOND : ℝ)) = z at h2 ⊢
  generalize f64 (BOND : ℝ) = B at hB h2
  generalize f64 x = y at h1 h2
  have hB0 : 14 / 10 ≤ B := by
    rw [abs_le] at hB
    norm_num at hB ⊢
    linarith [hB.1]
  have hBp : 0 < B := by linarith
  obtain ⟨c, hc⟩ : ∃ c, c = x / (142 / 100) := ⟨_, rfl⟩
  have hx : x = c * (142 / 100) := by rw [hc]; ring
  rw [← hc]
  have hyc : |y / B - c| ≤ |c| * (3 / 10 ^ 15) + 1 / 10 ^ 60 := by
    have e : y / B - c = ((y - x) - c * (B - 142 / 100)) / B := by rw [hx]; field_simp; ring
    rw [e, abs_div, abs_of_pos hBp, div_le_iff₀ hBp]
    refine (abs_sub _ _).trans ?_
    rw [abs_mul]
    have q1 := mul_le_mul_of_nonneg_left hB (abs_nonneg c)
    have q2 : |x| = |c| * (142 / 100) := by rw [hx, abs_mul, abs_of_pos (by norm_num : (0 : ℝ) < 142 / 100)]
    rw [q2] at h1
    have hc0 := abs_nonneg c
    have q3 : (|c| * (3 / 10 ^ 15) + 1 / 10 ^ 60) * (14 / 10) ≤ (|c| * (3 / 10 ^ 15) + 1 / 10 ^ 60) * B :=
      mul_le_mul_of_nonneg_left hB0 (by positivity)
    refine le_trans ?_ q3
    generalize |c| * |B - 142 / 100| = w at q1
    generalize |y - x| = t at h1
    have hδ : (0 : ℝ) ≤ 1 / 10 ^ 60 := by positivity
    generalize (1 : ℝ) / 10 ^ 60 = δ at h1 hδ
    generalize |c| = a at *
    norm_num at h1 q1 ⊢
    linarith
  have hyb : |y / B| ≤ |c| * (1 + 3 / 10 ^ 15) + 1 / 10 ^ 60 := by
    have := abs_sub_abs_le_abs_sub (y / B) c
    linarith
  have hδ : (1 : ℝ) / 10 ^ 60 * 3 ≤ 1 / 10 ^ 50 := by norm_num
  have hδ0 : (0 : ℝ) ≤ 1 / 10 ^ 60 := by positivity
  refine (abs_sub_le z (y / B) c).trans ?_
  have hc0 := abs_nonneg c
  generalize (1 : ℝ) / 10 ^ 60 = δ at *
  generalize (1 : ℝ) / 10 ^ 50 = ε at *
  generalize |c| = a at *
  generalize |y / B - c| = w at *
  generalize |y / B| = t at *
  norm_num at *
  linarith

/-- How far the beam is from the peak, in bonds. -/
theorem offPeak_err {c c' m m' : V2 ℝ} (hx : |c'.x - c.x| ≤ |c.x| * (2 / 10 ^ 14) + 1 / 10 ^ 50)
    (hy : |c'.y - c.y| ≤ |c.y| * (2 / 10 ^ 14) + 1 / 10 ^ 50) (hm : Spec.dist m' m ≤ 3 / 10 ^ 9) (hm1 : len m ≤ 1) :
    |Spec.dist c' m' - Spec.dist c m| ≤ 4 / 10 ^ 9 + Spec.dist c m / 10 ^ 13 := by
  have hc : len c ≤ Spec.dist c m + 1 := by
    have h1 := len_close' c m
    rw [← dist_eq_len] at h1
    have := abs_le.1 h1
    linarith [this.2]
  have hcc : Spec.dist c c' ≤ len c * (4 / 10 ^ 14) + 2 / 10 ^ 50 := by
    refine (dist_le_abs _ _).trans ((add_le_add hx hy).trans ?_)
    have q1 := abs_x_le_len c
    have q2 := abs_y_le_len c
    generalize |c.x| = a at *
    generalize |c.y| = b at *
    have e : (2 : ℝ) / 10 ^ 50 = 1 / 10 ^ 50 + 1 / 10 ^ 50 := by norm_num
    rw [e]
    generalize (1 : ℝ) / 10 ^ 50 = ε
    norm_num at *
    linarith
  have t1 := dist_tri c' c m'
  have t2 := dist_tri c m m'
  have t3 := dist_tri c c' m
  have t4 := dist_tri c' m' m
  rw [dist_comm' c' c] at t1
  rw [dist_comm' m m'] at t2
  have hε : (2 : ℝ) / 10 ^ 50 ≤ 1 / 10 ^ 30 := by norm_num
  have hd := PD.dist_nonneg' c m
  rw [abs_le]
  generalize Spec.dist c' m' = D' at *
  generalize Spec.dist c m = D at *
  generalize Spec.dist c c' = A at *
  generalize Spec.dist m' m = B at *
  generalize len c = l at *
  generalize (2 : ℝ) / 10 ^ 50 = ε at *
  norm_num at *
  constructor <;> linarith

/-! ### The rate -/

theorem mul_close {a A b B ε η δ : ℝ} (hA : 0 ≤ A) (hB : 0 ≤ B) (ha : |a - A| ≤ A * ε + δ) (hb : |b - B| ≤ B * η)
    (hη : η ≤ 1) (hB1 : B ≤ 1 / 2) (hd : 0 ≤ δ) : |a * b - A * B| ≤ A * B * (ε + η + ε * η) + δ := by
  have e : a * b - A * B = (a - A) * b + A * (b - B) := by ring
  have hδ : 0 ≤ A * ε + δ := (abs_nonneg _).trans ha
  have hb' : |b| ≤ B * (1 + η) := by
    have := abs_sub_abs_le_abs_sub b B
    rw [abs_of_nonneg hB] at this
    linarith
  have hBη : B * (1 + η) ≤ 1 := by nlinarith
  have hBη0 : 0 ≤ B * (1 + η) := (abs_nonneg _).trans hb'
  rw [e]
  refine (abs_add_le _ _).trans ?_
  rw [abs_mul, abs_mul, abs_of_nonneg hA]
  have h1 : |a - A| * |b| ≤ (A * ε + δ) * (B * (1 + η)) := mul_le_mul ha hb' (abs_nonneg _) hδ
  have h2 : A * |b - B| ≤ A * (B * η) := mul_le_mul_of_nonneg_left hb hA
  have h3 : δ * (B * (1 + η)) ≤ δ := mul_le_of_le_one_right hd hBη
  nlinarith

theorem kappa_bounds : 1 ≤ 10 / (2 * Real.pi) ∧ 10 / (2 * Real.pi) ≤ 2 := by
  have p1 := Real.pi_gt_three
  have p2 := Real.pi_lt_four
  constructor
  · rw [le_div_iff₀ (by positivity)]; linarith
  · rw [div_le_iff₀ (by positivity)]; linarith

theorem floatMaxRate_err : |floatMaxRate - Real.log 2 / 3| ≤ Real.log 2 / 3 * (1 / 10 ^ 14) := by
  have l1 := Real.log_two_gt_d9
  have l2 := Real.log_two_lt_d9
  have h1 := f64_tight (Real.log 2)
  have h2 := f64_tight (f64 (Real.log 2) / 3)
  unfold floatMaxRate
  generalize f64 (f64 (Real.log 2) / 3) = z at *
  generalize f64 (Real.log 2) = y at *
  generalize Real.log 2 = x at *
  rw [abs_of_nonneg (by linarith : 0 ≤ x)] at h1
  rw [abs_le] at h1
  have hy : 0 ≤ y / 3 := by
    norm_num at h1 l1 l2
    linarith [h1.1]
  rw [abs_of_nonneg hy] at h2
  rw [abs_le] at h2 ⊢
  norm_num at *
  constructor <;> linarith [h1.1, h1.2, h2.1, h2.2]

/-- The rate computed from densities is the exact one for the same beam and peak. -/
theorem floatSinglePrior_err (D : FloatDensity) {c m : V2 ℝ} (hx : |c.x| ≤ 2 ^ 18) (hy : |c.y| ≤ 2 ^ 18) (hmx : |m.x| ≤ 1)
    (hmy : |m.y| ≤ 1) :
    |floatSinglePrior D c m - Real.log 2 / 3 * Real.exp (-(5 * V2.distSq c m))| ≤
      Real.log 2 / 3 * Real.exp (-(5 * V2.distSq c m)) * (1 / 10 ^ 8) + 1 / 10 ^ 59 := by
  obtain ⟨k1, k2⟩ := kappa_bounds
  have l1 := Real.log_two_gt_d9
  have l2 := Real.log_two_lt_d9
  have hM := floatMaxRate_err
  have hP := D.err m m (hmx.trans (by norm_num)) (hmy.trans (by norm_num)) hmx hmy
  have hQ := D.err c m hx hy hmx hmy
  have d0 : V2.distSq m m = 0 := by simp [V2.distSq, V2.normSq]
  unfold normalDensity at hP hQ
  rw [d0] at hP
  simp only [mul_zero, neg_zero, Real.exp_zero, mul_one] at hP
  have he0 := (Real.exp_pos (-(5 * V2.distSq c m))).le
  have he1 : Real.exp (-(5 * V2.distSq c m)) ≤ 1 := by
    rw [Real.exp_le_one_iff]
    have : 0 ≤ V2.distSq c m := by rw [distSq_of_dist]; positivity
    linarith
  unfold floatSinglePrior
  dsimp only
  generalize Real.exp (-(5 * V2.distSq c m)) = e at *
  generalize D.pdf m m = P at *
  generalize D.pdf c m = Q at *
  generalize 10 / (2 * Real.pi) = κ at *
  generalize floatMaxRate = M at *
  obtain ⟨R, hR⟩ : ∃ R, R = Real.log 2 / 3 := ⟨_, rfl⟩
  rw [← hR] at hM ⊢
  have r1 : 2 / 10 ≤ R := by rw [hR]; norm_num at l1 ⊢; linarith
  have r2 : R ≤ 3 / 10 := by rw [hR]; norm_num at l2 ⊢; linarith
  clear hR l1 l2
  -- the factor
  have hP0 : κ * (99 / 100) ≤ P := by
    rw [abs_le] at hP
    norm_num at hP ⊢
    linarith [hP.1]
  have hPp : 0 < P := by linarith
  have hκ : 0 < κ := by linarith
  obtain ⟨N, hN⟩ : ∃ N, N = R / κ := ⟨_, rfl⟩
  have hN0 : 0 ≤ N := by rw [hN]; positivity
  have hNκ : N * κ = R := by rw [hN]; field_simp
  have hN1 : N ≤ 3 / 10 := by nlinarith
  have hN2 : 1 / 10 ≤ N := by nlinarith
  have hq : |M / P - N| ≤ N * (2 / 10 ^ 9) := by
    have e : M / P - N = ((M - R) - N * (P - κ)) / P := by rw [← hNκ]; field_simp; ring
    rw [e, abs_div, abs_of_pos hPp, div_le_iff₀ hPp]
    refine (abs_sub _ _).trans ?_
    rw [abs_mul, abs_of_nonneg hN0]
    have q1 := mul_le_mul_of_nonneg_left hP hN0
    have q2 := mul_le_mul_of_nonneg_left hP0 (by positivity : 0 ≤ N * (2 / 10 ^ 9))
    refine le_trans ?_ q2
    have q3 : N * (κ / 10 ^ 9 + 1 / 10 ^ 60) = R / 10 ^ 9 + N / 10 ^ 60 := by rw [← hNκ]; ring
    have q4 : N * (2 / 10 ^ 9) * (κ * (99 / 100)) = R * (2 / 10 ^ 9 * (99 / 100)) := by rw [← hNκ]; ring
    rw [q3] at q1
    rw [q4]
    generalize N * |P - κ| = w at q1
    generalize |M - R| = t at hM
    norm_num at hM q1 ⊢
    linarith
  have hn := f64_tight (M / P)
  have hn' : |f64 (M / P) - N| ≤ N * (3 / 10 ^ 9) := by
    have a1 : |M / P| ≤ N * 2 := by
      have := abs_sub_abs_le_abs_sub (M / P) N
      rw [abs_of_nonneg hN0] at this
      norm_num at this hq ⊢
      linarith
    refine (abs_sub_le _ (M / P) _).trans ?_
    generalize |f64 (M / P) - M / P| = w at *
    generalize |M / P - N| = t at *
    generalize |M / P| = z at *
    norm_num at *
    linarith
  -- the product
  have hQ' : |Q - κ * e| ≤ κ * e * (1 / 10 ^ 9) + 1 / 10 ^ 60 := hQ.trans (by rw [div_eq_mul_one_div])
  have hp := mul_close (by positivity) hN0 hQ' hn' (by norm_num) (by linarith) (by positivity)
  have hAB : κ * e * N = R * e := by rw [← hNκ]; ring
  rw [hAB] at hp
  have hf := f64_tight (Q * f64 (M / P))
  generalize f64 (Q * f64 (M / P)) = z at *
  generalize Q * f64 (M / P) = y at *
  have hRe : 0 ≤ R * e := by positivity
  generalize R * e = x at *
  have hy : |y| ≤ x * 2 + 1 := by
    have := abs_sub_abs_le_abs_sub y x
    rw [abs_of_nonneg hRe] at this
    norm_num at this hp ⊢
    linarith
  have hy' : |y| ≤ x * 2 + 1 / 10 ^ 60 := by
    have := abs_sub_abs_le_abs_sub y x
    rw [abs_of_nonneg hRe] at this
    norm_num at this hp ⊢
    linarith
  refine (abs_sub_le z y x).trans ?_
  generalize |z - y| = w at *
  generalize |y - x| = t at *
  generalize |y| = v at *
  norm_num at *
  linarith

/-- The rates of nearly equal distances from the peak are nearly equal, or both are tiny. -/
theorem gauss_close {d d' : ℝ} (hd : 0 ≤ d) (hd' : 0 ≤ d') (h : |d' - d| ≤ 4 / 10 ^ 9 + d / 10 ^ 13) (hn : d ^ 2 ≤ 22) :
    |Real.exp (-(5 * d' ^ 2)) - Real.exp (-(5 * d ^ 2))| ≤ Real.exp (-(5 * d ^ 2)) * (22 / 10 ^ 8) := by
  have h1 : d ≤ 47 / 10 := by nlinarith
  have h2 : |d' - d| ≤ 41 / 10 ^ 10 := h.trans (by norm_num; linarith)
  have hx : |5 * d ^ 2 - 5 * d' ^ 2| ≤ 2 / 10 ^ 7 := by
    have e : 5 * d ^ 2 - 5 * d' ^ 2 = -((d' - d) * (5 * (d' + d))) := by ring
    have h3 : |5 * (d' + d)| ≤ 47 + 1 / 100 := by
      rw [abs_of_nonneg (by positivity)]
      rw [abs_le] at h2
      norm_num at h2 ⊢
      linarith [h2.2]
    rw [e, abs_neg, abs_mul]
    refine (mul_le_mul h2 h3 (abs_nonneg _) (by norm_num)).trans (by norm_num)
  have e : Real.exp (-(5 * d' ^ 2)) = Real.exp (-(5 * d ^ 2)) * Real.exp (5 * d ^ 2 - 5 * d' ^ 2) := by
    rw [← Real.exp_add]; congr 1; ring
  generalize 5 * d ^ 2 - 5 * d' ^ 2 = x at hx e
  have hq := Real.abs_exp_sub_one_sub_id_le (x := x) (hx.trans (by norm_num))
  have hp := Real.exp_pos (-(5 * d ^ 2))
  generalize Real.exp (-(5 * d ^ 2)) = g at *
  have e2 : g * Real.exp x - g = g * (Real.exp x - 1) := by ring
  rw [e, e2, abs_mul, abs_of_pos hp]
  refine mul_le_mul_of_nonneg_left ?_ hp.le
  have hxx : x ^ 2 ≤ 1 / 10 ^ 12 := by
    rw [← sq_abs]
    have := pow_le_pow_left₀ (abs_nonneg x) hx 2
    refine this.trans (by norm_num)
  rw [abs_le] at hq hx ⊢
  norm_num at *
  constructor <;> linarith [hq.1, hq.2, hx.1, hx.2]

theorem exp_tiny {x : ℝ} (hx : 109 ≤ x) : Real.exp (-x) ≤ 2 ^ (-156 : ℤ) := by
  have h1 : Real.exp (-x) ≤ Real.exp (-109) := Real.exp_le_exp.2 (by linarith)
  refine h1.trans ?_
  have h2 := Real.exp_one_gt_d9
  have h3 : (27 / 10 : ℝ) ≤ Real.exp 1 := by norm_num at h2 ⊢; linarith
  have h4 : Real.exp (-109) = (Real.exp 1 ^ 109)⁻¹ := by
    rw [← Real.exp_nat_mul, ← Real.exp_neg]; norm_num
  rw [h4]
  have h5 : (27 / 10 : ℝ) ^ 109 ≤ Real.exp 1 ^ 109 := pow_le_pow_left₀ (by norm_num) h3 109
  refine (inv_anti₀ (by positivity) h5).trans (by norm_num)

theorem f32_vanishes {x : ℝ} (h0 : 0 ≤ x) (hx : x ≤ 2 ^ (-151 : ℤ)) : f32 x = 0 := by
  have h := abs_f32_sub_le_all x
  rw [abs_of_nonneg h0] at h
  obtain ⟨m, hm⟩ := grained_f32 (f32_idem x)
  have hp : (0 : ℝ) < 2 ^ (-149 : ℤ) := by positivity
  have e1 : (2 : ℝ) ^ (-150 : ℤ) = 2 ^ (-149 : ℤ) / 2 := by rw [show (-150 : ℤ) = -149 - 1 by norm_num, zpow_sub₀ (by norm_num)]; norm_num
  have e2 : (2 : ℝ) ^ (-151 : ℤ) = 2 ^ (-149 : ℤ) / 4 := by rw [show (-151 : ℤ) = -149 - 2 by norm_num, zpow_sub₀ (by norm_num)]; norm_num
  have e3 : (2 : ℝ) ^ (-24 : ℤ) ≤ 1 / 2 := by norm_num
  have h4 := mul_le_mul_of_nonneg_left e3 h0
  have hn := f32_nonneg h0
  rw [e1] at h
  rw [e2] at hx
  rw [hm] at h hn ⊢
  generalize (2 : ℝ) ^ (-149 : ℤ) = t at *
  have hm0 : (0 : ℝ) ≤ m := nonneg_of_mul_nonneg_left hn hp
  have hm1 : (m : ℝ) < 1 := by
    by_contra hc
    rw [abs_le] at h
    nlinarith [h.2]
  have : m = 0 := by
    have a : 0 ≤ m := by exact_mod_cast hm0
    have b : m < 1 := by exact_mod_cast hm1
    omega
  rw [this]; simp

theorem mirrored_len {u : V2 ℝ} (hu : 0 < len u) : len (mirrored u) = 85 / 100 := by
  have h : len u * len u = u.x ^ 2 + u.y ^ 2 := len_sq u
  have e : (mirrored u).x ^ 2 + (mirrored u).y ^ 2 = (85 / 100) ^ 2 := by
    simp only [mirrored]
    field_simp
    nlinarith
  unfold len
  rw [e, Real.sqrt_sq (by norm_num)]

/-- The beam's distance from the peak, in bonds. -/
theorem offPeak_eq (beam si p : V2 ℝ) :
    Spec.dist ⟨(beam.x - si.x) / (142 / 100), (beam.y - si.y) / (142 / 100)⟩ (mirrored (p - si)) =
      Spec.dist beam (priorPeak si p) / (142 / 100) := by
  have hl : len (p - si) = Spec.dist si p := by rw [dist_comm' si p]; rfl
  have h : ∀ a b : V2 ℝ, Spec.dist a b / (142 / 100) = Spec.dist ⟨a.x / (142 / 100), a.y / (142 / 100)⟩ ⟨b.x / (142 / 100), b.y / (142 / 100)⟩ := by
    intro a b
    unfold Spec.dist
    rw [eq_comm, ← Real.sqrt_sq (by norm_num : (0 : ℝ) ≤ 142 / 100), ← Real.sqrt_div' _ (by positivity)]
    congr 1
    rw [Real.sqrt_sq (by norm_num)]
    ring
  rw [h]
  unfold Spec.dist
  congr 1
  simp only [mirrored, priorPeak, hl, V2.sub_x, V2.sub_y]
  ring

theorem floatPriorRate_core (L : FloatLib) (D : FloatDensity) {beam si p : V2 ℝ} (hb : Near16 beam) (hs : Near16 si)
    (hp : |Spec.dist si p - 142 / 100| ≤ 2 / 1000) :
    ∃ d', 0 ≤ d' ∧ |d' - Spec.dist beam (priorPeak si p) / (142 / 100)| ≤
        4 / 10 ^ 9 + Spec.dist beam (priorPeak si p) / (142 / 100) / 10 ^ 13 ∧
      |floatPriorRate L D beam si p - Real.log 2 / 3 * Real.exp (-(5 * d' ^ 2))| ≤
        Real.log 2 / 3 * Real.exp (-(5 * d' ^ 2)) * (1 / 10 ^ 8) + 1 / 10 ^ 59 := by
  have hl : len (p - si) = Spec.dist si p := by rw [dist_comm' si p]; rfl
  rw [← hl, abs_le] at hp
  have hu : 14 / 10 ≤ len (p - si) := by linarith [hp.1]
  have hx2 : |p.x - si.x| ≤ 2 := (abs_x_le_len (p - si)).trans (by linarith [hp.2])
  have hy2 : |p.y - si.y| ≤ 2 := (abs_y_le_len (p - si)).trans (by linarith [hp.2])
  have hm := floatMean_err L hu (floatSub_small hx2 hy2)
  have hmir := mirrored_len (u := p - si) (by linarith)
  have cx := bond_quotient (beam.x - si.x)
  have cy := bond_quotient (beam.y - si.y)
  have hoff := offPeak_err (c := ⟨(beam.x - si.x) / (142 / 100), (beam.y - si.y) / (142 / 100)⟩)
    (c' := ⟨f64 (f64 (beam.x - si.x) / f64 (BOND : ℝ)), f64 (f64 (beam.y - si.y) / f64 (BOND : ℝ))⟩) cx cy hm
    (by rw [hmir]; norm_num)
  rw [offPeak_eq] at hoff
  refine ⟨_, PD.dist_nonneg' _ _, hoff, ?_⟩
  have hmx := (abs_x_le_len _).trans (le_of_eq (dist_eq_len _ _).symm) |>.trans hm
  have hmy := (abs_y_le_len _).trans (le_of_eq (dist_eq_len _ _).symm) |>.trans hm
  have big : ∀ {a b z : ℝ}, |a| ≤ 2 ^ 16 → |b| ≤ 2 ^ 16 →
      |z - (a - b) / (142 / 100)| ≤ |(a - b) / (142 / 100)| * (2 / 10 ^ 14) + 1 / 10 ^ 50 → |z| ≤ 2 ^ 18 := by
    intro a b z ha hb hz
    have h1 : |(a - b) / (142 / 100)| ≤ 2 ^ 17 := by
      rw [abs_div, abs_of_pos (by norm_num : (0 : ℝ) < 142 / 100), div_le_iff₀ (by norm_num)]
      have := abs_sub a b
      norm_num at ha hb ⊢
      linarith
    have h2 := abs_sub_abs_le_abs_sub z ((a - b) / (142 / 100))
    generalize |(a - b) / (142 / 100)| = w at *
    norm_num at *
    linarith
  have small : ∀ {a b : ℝ}, |a - b| ≤ 3 / 10 ^ 9 → |b| ≤ 85 / 100 → |a| ≤ 1 := by
    intro a b h1 h2
    have := abs_sub_abs_le_abs_sub a b
    norm_num at h1 h2
    linarith
  have := floatSinglePrior_err D
    (c := ⟨f64 (f64 (beam.x - si.x) / f64 (BOND : ℝ)), f64 (f64 (beam.y - si.y) / f64 (BOND : ℝ))⟩) (big hb.1 hs.1 cx) (big hb.2 hs.2 cy)
    (small hmx ((abs_x_le_len _).trans hmir.le)) (small hmy ((abs_y_le_len _).trans hmir.le))
  rw [distSq_of_dist] at this
  exact this

theorem priorRateAt_eq (beam si p : V2 ℝ) :
    priorRateAt beam si p = Real.log 2 / 3 * Real.exp (-(5 * (Spec.dist beam (priorPeak si p) / (142 / 100)) ^ 2)) := by
  unfold priorRateAt
  congr 3
  ring

theorem floatPriorRate_nonneg (L : FloatLib) (D : FloatDensity) (beam si p : V2 ℝ) : 0 ≤ floatPriorRate L D beam si p := by
  unfold floatPriorRate floatSinglePrior
  have hM : 0 ≤ floatMaxRate := f64_nonneg (div_nonneg (f64_nonneg (Real.log_nonneg (by norm_num))) (by norm_num))
  exact f64_nonneg (mul_nonneg (D.nonneg _ _) (f64_nonneg (div_nonneg hM (D.nonneg _ _))))

/-- Beyond the reach of float32 the rate is zero. -/
theorem castPrior_zero (L : FloatLib) (D : FloatDensity) {beam si p : V2 ℝ} (hb : Near16 beam) (hs : Near16 si)
    (hp : |Spec.dist si p - 142 / 100| ≤ 2 / 1000) (hfar : 22 ≤ (Spec.dist beam (priorPeak si p) / (142 / 100)) ^ 2) :
    f32 (floatPriorRate L D beam si p) = 0 := by
  obtain ⟨d', h0, h1, h2⟩ := floatPriorRate_core L D hb hs hp
  have hd := div_nonneg (PD.dist_nonneg' beam (priorPeak si p)) (by norm_num : (0 : ℝ) ≤ 142 / 100)
  generalize Spec.dist beam (priorPeak si p) / (142 / 100) = d at *
  have hd1 : 469 / 100 ≤ d := by nlinarith
  have hd2 : 468 / 100 ≤ d' := by
    rw [abs_le] at h1
    norm_num at *
    linarith [h1.1]
  have he := exp_tiny (x := 5 * d' ^ 2) (by nlinarith)
  have he0 := (Real.exp_pos (-(5 * d' ^ 2))).le
  refine f32_vanishes (floatPriorRate_nonneg _ _ _ _ _) ?_
  have l2 := Real.log_two_lt_d9
  have l1 := Real.log_two_gt_d9
  generalize Real.exp (-(5 * d' ^ 2)) = e at *
  have hr : Real.log 2 / 3 * e ≤ e := mul_le_of_le_one_left he0 (by norm_num at l2 ⊢; linarith)
  have hr0 : 0 ≤ Real.log 2 / 3 * e := mul_nonneg (by norm_num at l1; linarith) he0
  generalize Real.log 2 / 3 * e = r at *
  rw [abs_le] at h2
  norm_num at *
  linarith [h2.2]

theorem castPrior_err (L : FloatLib) (D : FloatDensity) {beam si p : V2 ℝ} (hb : Near16 beam) (hs : Near16 si)
    (hp : |Spec.dist si p - 142 / 100| ≤ 2 / 1000) :
    |f32 (floatPriorRate L D beam si p) - priorRateAt beam si p| ≤ priorRateAt beam si p * (3 / 10 ^ 7) + 2 ^ (-149 : ℤ) := by
  have l2 := Real.log_two_lt_d9
  have l1 := Real.log_two_gt_d9
  by_cases hfar : 22 ≤ (Spec.dist beam (priorPeak si p) / (142 / 100)) ^ 2
  · rw [castPrior_zero L D hb hs hp hfar, priorRateAt_eq]
    have he := exp_tiny (x := 5 * (Spec.dist beam (priorPeak si p) / (142 / 100)) ^ 2) (by linarith)
    have he0 := (Real.exp_pos (-(5 * (Spec.dist beam (priorPeak si p) / (142 / 100)) ^ 2))).le
    generalize Real.exp (-(5 * (Spec.dist beam (priorPeak si p) / (142 / 100)) ^ 2)) = e at *
    have hr : Real.log 2 / 3 * e ≤ e := mul_le_of_le_one_left he0 (by norm_num at l2 ⊢; linarith)
    have hr0 : 0 ≤ Real.log 2 / 3 * e := mul_nonneg (by norm_num at l1; linarith) he0
    generalize Real.log 2 / 3 * e = r at *
    rw [zero_sub, abs_neg, abs_of_nonneg hr0]
    norm_num at *
    linarith
  · obtain ⟨d', h0, h1, h2⟩ := floatPriorRate_core L D hb hs hp
    have hd := div_nonneg (PD.dist_nonneg' beam (priorPeak si p)) (by norm_num : (0 : ℝ) ≤ 142 / 100)
    have hf := abs_f32_sub_le_all (floatPriorRate L D beam si p)
    rw [abs_of_nonneg (floatPriorRate_nonneg _ _ _ _ _)] at hf
    rw [priorRateAt_eq]
    generalize Spec.dist beam (priorPeak si p) / (142 / 100) = d at *
    have hg := gauss_close hd h0 h1 (not_le.1 hfar).le
    have he0 := (Real.exp_pos (-(5 * d ^ 2))).le
    generalize Real.exp (-(5 * d ^ 2)) = e at *
    generalize Real.exp (-(5 * d' ^ 2)) = e' at *
    have hR0 : 0 ≤ Real.log 2 / 3 := by norm_num at l1; linarith
    generalize Real.log 2 / 3 = R at *
    have hg' : |R * e' - R * e| ≤ R * e * (22 / 10 ^ 8) := by
      rw [← mul_sub, abs_mul, abs_of_nonneg hR0, mul_assoc]
      exact mul_le_mul_of_nonneg_left hg hR0
    have hr0 : 0 ≤ R * e := mul_nonneg hR0 he0
    generalize R * e = r at *
    generalize R * e' = r' at *
    generalize floatPriorRate L D beam si p = q at *
    generalize f32 q = z at *
    rw [abs_le] at *
    norm_num at *
    constructor <;> linarith [hf.1, hf.2, h2.1, h2.2, hg'.1, hg'.2]

end PD
