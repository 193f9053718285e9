/- Lemmas about the simple rate function with floating point numbers. -/
import Verif.Model.FloatRates
import Verif.Lemmas.FloatData
import Verif.Props.Rates

set_option linter.unusedSectionVars false
set_option linter.unusedSimpArgs false

namespace PD
open PD.Spec PD.Props

theorem f64_rel (x : ℝ) : |f64 x - x| ≤ |x| / 10 ^ 15 + 1 / 10 ^ 40 := by
  have h := abs_f64_sub_le x
  have h1 : (2 : ℝ) ^ (-1075 : ℤ) ≤ 2 ^ (-150 : ℤ) := zpow_le_zpow_right₀ (by norm_num) (by norm_num)
  have h2 : (2 : ℝ) ^ (-150 : ℤ) ≤ 1 / 10 ^ 40 := by norm_num
  have h3 : |x| * (2 : ℝ) ^ (-53 : ℤ) ≤ |x| / 10 ^ 15 := by
    rw [div_eq_mul_inv]
    exact mul_le_mul_of_nonneg_left (by norm_num) (abs_nonneg _)
  exact h.trans (add_le_add h3 (h1.trans h2))

/-- All coordinates are at most a hundred thousand in size. -/
def WellPlaced (p : V2 ℝ) : Prop := |p.x| ≤ 100000 ∧ |p.y| ≤ 100000

theorem diff_err {b s n : ℝ} (hb : |b| ≤ 100000) (hs : |s| ≤ 100000) (hn : |n| ≤ 100000) :
    |f64 (f64 (b - s) - f64 (n - s)) - (b - n)| ≤ 1 / 10 ^ 9 := by
  have e1 := f64_rel (b - s)
  have e2 := f64_rel (n - s)
  have e3 := f64_rel (f64 (b - s) - f64 (n - s))
  have a1 : |b - s| ≤ 200000 := (abs_sub _ _).trans (by linarith)
  have a2 : |n - s| ≤ 200000 := (abs_sub _ _).trans (by linarith)
  have e1' : |f64 (b - s) - (b - s)| ≤ 2 / 10 ^ 10 + 1 / 10 ^ 12 := by
    norm_num at e1 a1 ⊢; linarith
  have e2' : |f64 (n - s) - (n - s)| ≤ 2 / 10 ^ 10 + 1 / 10 ^ 12 := by
    norm_num at e2 a2 ⊢; linarith
  obtain ⟨x, hx⟩ : ∃ x, x = f64 (b - s) := ⟨_, rfl⟩
  obtain ⟨y, hy⟩ : ∃ y, y = f64 (n - s) := ⟨_, rfl⟩
  rw [← hx] at e1' e3
  rw [← hy] at e2' e3
  rw [← hx, ← hy]
  have a3 : |x - y| ≤ 200001 := by
    rw [abs_le] at *
    norm_num at e1' e2' ⊢
    constructor <;> linarith [hb.1, hb.2, hn.1, hn.2, e1'.1, e1'.2, e2'.1, e2'.2]
  have e3' : |f64 (x - y) - (x - y)| ≤ 3 / 10 ^ 10 := by
    norm_num at e3 a3 ⊢; linarith
  rw [abs_le] at *
  norm_num at e1' e2' e3' ⊢
  constructor <;> linarith [e1'.1, e1'.2, e2'.1, e2'.2, e3'.1, e3'.2]

theorem len_close_of {u w : V2 ℝ} {ε : ℝ} (hx : |u.x - w.x| ≤ ε) (hy : |u.y - w.y| ≤ ε) : |len u - len w| ≤ 2 * ε := by
  have h1 : ∀ u : V2 ℝ, len u = Spec.dist ⟨0, 0⟩ u := by
    intro u
    unfold len Spec.dist
    congr 1
    ring
  have h2 := dist_le_abs u w
  have h3 := dist_tri ⟨0, 0⟩ u w
  have h4 := dist_tri ⟨0, 0⟩ w u
  rw [dist_comm' w u] at h4
  have h5 : Spec.dist u w ≤ 2 * ε := by
    rw [abs_sub_comm] at hx hy
    linarith [h2]
  rw [h1, h1, abs_le]
  constructor <;> linarith

/-- The distance between beam and neighbour, over a quarter of a bond. -/
noncomputable def quarters (beam nbr : V2 ℝ) : ℝ := Spec.dist beam nbr / (142 / 100) * 4

theorem simpleRate_quarters (beam si nbr : V2 ℝ) : simpleRate beam si nbr = 1 / (quarters beam nbr ^ 2 + 1) := by
  unfold simpleRate quarters Spec.dist norm2 BOND
  have : ((beam - si - (nbr - si)).x * (beam - si - (nbr - si)).x + (beam - si - (nbr - si)).y * (beam - si - (nbr - si)).y) =
      (beam.x - nbr.x) ^ 2 + (beam.y - nbr.y) ^ 2 := by
    simp only [V2.sub_x, V2.sub_y]
    ring
  dsimp only
  rw [this]

theorem quarters_nonneg (beam nbr : V2 ℝ) : 0 ≤ quarters beam nbr := by
  unfold quarters
  have := PD.Props.dist_nonneg beam nbr
  positivity

theorem quarters_le {beam nbr : V2 ℝ} (hb : WellPlaced beam) (hn : WellPlaced nbr) : quarters beam nbr ≤ 1200000 := by
  have h := dist_le_abs beam nbr
  have h1 := abs_sub beam.x nbr.x
  have h2 := abs_sub beam.y nbr.y
  have h3 := abs_sub nbr.x beam.x
  have h4 := abs_sub nbr.y beam.y
  have : Spec.dist beam nbr ≤ 400000 := by linarith [hb.1, hb.2, hn.1, hn.2]
  unfold quarters
  rw [div_mul_eq_mul_div, div_le_iff₀ (by norm_num)]
  linarith

theorem quarters_err {beam si nbr : V2 ℝ} (hb : WellPlaced beam) (hs : WellPlaced si) (hn : WellPlaced nbr) :
    |f64 (f64 (floatNorm .plain (floatSub (floatSub beam si) (floatSub nbr si)) / f64 BOND) * 4) - quarters beam nbr| ≤
      (quarters beam nbr + 1) / 10 ^ 8 := by
  have ex := diff_err hb.1 hs.1 hn.1
  have ey := diff_err hb.2 hs.2 hn.2
  obtain ⟨u, hu⟩ : ∃ u, u = floatSub (floatSub beam si) (floatSub nbr si) := ⟨_, rfl⟩
  have hc := len_close_of (u := u) (w := ⟨beam.x - nbr.x, beam.y - nbr.y⟩) (ε := 1 / 10 ^ 9)
    (by rw [hu]; exact ex) (by rw [hu]; exact ey)
  have hr := floatNorm_rel u
  rw [← hu]
  have hd : len (⟨beam.x - nbr.x, beam.y - nbr.y⟩ : V2 ℝ) = Spec.dist beam nbr := rfl
  rw [hd] at hc
  have hd0 := PD.Props.dist_nonneg beam nbr
  obtain ⟨d, hdd⟩ : ∃ d, d = Spec.dist beam nbr := ⟨_, rfl⟩
  have hl0 := len_nonneg u
  obtain ⟨l, hl⟩ : ∃ l, l = len u := ⟨_, rfl⟩
  obtain ⟨m, hm⟩ : ∃ m, m = floatNorm .plain u := ⟨_, rfl⟩
  rw [← hl] at hc hr hl0
  rw [← hm] at hr ⊢
  unfold quarters
  rw [← hdd] at hc hd0 ⊢
  have em : |m - d| ≤ (d + 1) / 10 ^ 9 * (201 / 100) := by
    rw [abs_le] at *
    norm_num at hc hr ⊢
    constructor <;> linarith [hc.1, hc.2, hr.1, hr.2]
  have hB := f64_rel (BOND : ℝ)
  have hB' : |f64 (BOND : ℝ) - 142 / 100| ≤ 2 / 10 ^ 15 := by
    have : |(BOND : ℝ)| = 142 / 100 := by
      unfold BOND
      rw [abs_of_pos (by norm_num)]
    rw [this] at hB
    unfold BOND at hB ⊢
    norm_num at hB ⊢
    linarith
  obtain ⟨B, hBe⟩ : ∃ B, B = f64 (BOND : ℝ) := ⟨_, rfl⟩
  rw [← hBe] at hB' ⊢
  have hB1 : 141 / 100 < B := by rw [abs_le] at hB'; norm_num at hB'; linarith [hB'.1]
  have hB2 : B < 2 := by rw [abs_le] at hB'; norm_num at hB'; linarith [hB'.2]
  -- the quotient
  have e1 : |m / B - d / (142 / 100)| ≤ (d + 1) / 10 ^ 9 * (3 / 2) := by
    have : m / B - d / (142 / 100) = ((m - d) + d * (142 / 100 - B) / (142 / 100)) / B := by
      have := hB1
      field_simp
      ring
    rw [this, abs_div, abs_of_pos (by linarith : 0 < B), div_le_iff₀ (by linarith)]
    have h1 : |d * (142 / 100 - B) / (142 / 100)| ≤ d * (2 / 10 ^ 15) := by
      rw [abs_div, abs_mul, abs_of_nonneg hd0, abs_sub_comm, abs_of_pos (by norm_num : (0 : ℝ) < 142 / 100),
        div_le_iff₀ (by norm_num)]
      have := mul_le_mul_of_nonneg_left hB' hd0
      have h0 : 0 ≤ d * (2 / 10 ^ 15) := by positivity
      linarith
    have h2 := abs_add_le (m - d) (d * (142 / 100 - B) / (142 / 100))
    have h3 : (d + 1) / 10 ^ 9 * (3 / 2) * (141 / 100) ≤ (d + 1) / 10 ^ 9 * (3 / 2) * B := by
      have : 0 ≤ (d + 1) / 10 ^ 9 * (3 / 2) := by positivity
      nlinarith
    norm_num at em h1 h2 h3 ⊢
    linarith
  have q0 : 0 ≤ d / (142 / 100) := by positivity
  have qd : d = d / (142 / 100) * (142 / 100) := by field_simp
  obtain ⟨q, hq⟩ : ∃ q, q = d / (142 / 100) := ⟨_, rfl⟩
  rw [← hq] at e1 q0 qd ⊢
  have e2 := f64_rel (m / B)
  obtain ⟨t, ht⟩ : ∃ t, t = m / B := ⟨_, rfl⟩
  rw [← ht] at e1 e2 ⊢
  have e2' : |f64 t - q| ≤ (q + 1) / 10 ^ 8 * (24 / 100) := by
    have h1 : |t| ≤ 2 * q + 1 := by
      rw [abs_le] at *
      norm_num at e1 ⊢
      constructor <;> linarith [e1.1, e1.2]
    have h2 := abs_add_le (f64 t - t) (t - q)
    rw [sub_add_sub_cancel] at h2
    norm_num at e1 e2 h2 ⊢
    linarith
  obtain ⟨w, hw⟩ : ∃ w, w = f64 t := ⟨_, rfl⟩
  rw [← hw] at e2' ⊢
  have e3 := f64_rel (w * 4)
  have h1 : |w * 4| ≤ 8 * q + 1 := by
    rw [abs_le] at *
    norm_num at e2' ⊢
    constructor <;> linarith [e2'.1, e2'.2]
  have e3' : |f64 (w * 4) - w * 4| ≤ (8 * q + 1) / 10 ^ 15 + 1 / 10 ^ 40 := e3.trans (by gcongr)
  clear e3
  generalize f64 (w * 4) = z at e3' ⊢
  rw [abs_le] at e2' e3' ⊢
  norm_num at e2' e3' ⊢
  constructor <;> linarith [e2'.1, e2'.2, e3'.1, e3'.2]

/-- Before the cast: the rate is within a part in ten million. -/
theorem floatSimpleRate_err {beam si nbr : V2 ℝ} (hb : WellPlaced beam) (hs : WellPlaced si) (hn : WellPlaced nbr) :
    |floatSimpleRate beam si nbr - simpleRate beam si nbr| ≤ simpleRate beam si nbr * (1 / 10 ^ 7) := by
  have h := quarters_err hb hs hn
  have h0 := quarters_nonneg beam nbr
  have h1 := quarters_le hb hn
  rw [simpleRate_quarters]
  unfold floatSimpleRate
  dsimp only
  generalize f64 (f64 (floatNorm .plain (floatSub (floatSub beam si) (floatSub nbr si)) / f64 BOND) * 4) = w at h ⊢
  generalize quarters beam nbr = q at h h0 h1 ⊢
  have hA0 : 1 ≤ q ^ 2 + 1 := by nlinarith
  have hq : q ≤ q ^ 2 + 1 := by nlinarith [sq_nonneg (q - 1)]
  have hA1 : q ^ 2 + 1 ≤ 2 * 10 ^ 12 := by nlinarith
  -- the square
  have e1 : |w * w - q ^ 2| ≤ (q ^ 2 + 1) * (5 / 10 ^ 8) := by
    have k1 : w * w - q ^ 2 = (w - q) * (w - q) + 2 * q * (w - q) := by ring
    have k2 : |w - q| ≤ (q + 1) / 10 ^ 8 := h
    have k3 : |(w - q) * (w - q)| ≤ ((q + 1) / 10 ^ 8) * ((q + 1) / 10 ^ 8) := by
      rw [abs_mul]
      exact mul_le_mul k2 k2 (abs_nonneg _) (by positivity)
    have k4 : |2 * q * (w - q)| ≤ 2 * q * ((q + 1) / 10 ^ 8) := by
      rw [abs_mul, abs_of_nonneg (by positivity : 0 ≤ 2 * q)]
      exact mul_le_mul_of_nonneg_left k2 (by positivity)
    rw [k1]
    refine (abs_add_le _ _).trans ((add_le_add k3 k4).trans ?_)
    have : 2 * q ≤ q ^ 2 + 1 := by nlinarith [sq_nonneg (q - 1)]
    norm_num
    nlinarith
  generalize hA : q ^ 2 + 1 = A at hA0 hA1 hq e1 ⊢
  have hqA : q ^ 2 = A - 1 := by linarith
  rw [hqA] at e1
  have e2 := f64_rel (w * w)
  have k1 : |w * w| ≤ 2 * A := by
    rw [abs_le] at e1 ⊢
    norm_num at e1
    constructor <;> linarith [e1.1, e1.2]
  have e2' : |f64 (w * w) - w * w| ≤ 2 * A / 10 ^ 15 + 1 / 10 ^ 40 := e2.trans (by gcongr)
  clear e2
  generalize w * w = x at e1 e2' k1 ⊢
  generalize f64 x = y at e2' ⊢
  have e3 := f64_rel (y + 1)
  have k2 : |y + 1 - A| ≤ A * (6 / 10 ^ 8) := by
    rw [abs_le] at e1 e2' ⊢
    norm_num at e1 e2' ⊢
    constructor <;> linarith [e1.1, e1.2, e2'.1, e2'.2]
  have k3 : |y + 1| ≤ 2 * A := by
    rw [abs_le] at k2 ⊢
    norm_num at k2
    constructor <;> linarith [k2.1, k2.2]
  have e3' : |f64 (y + 1) - (y + 1)| ≤ 2 * A / 10 ^ 15 + 1 / 10 ^ 40 := e3.trans (by gcongr)
  clear e3
  generalize f64 (y + 1) = z at e3' ⊢
  have k4 : |z - A| ≤ A * (7 / 10 ^ 8) := by
    rw [abs_le] at k2 e3' ⊢
    norm_num at k2 e3' ⊢
    constructor <;> linarith [k2.1, k2.2, e3'.1, e3'.2]
  have hz : A * (99 / 100) ≤ z := by
    rw [abs_le] at k4
    norm_num at k4 ⊢
    linarith [k4.1]
  have hz0 : 0 < z := by linarith
  have e4 := f64_rel (1 / z)
  have hA' : 0 < A := by linarith
  have k5 : |1 / z - 1 / A| ≤ 1 / A * (8 / 10 ^ 8) := by
    have : 1 / z - 1 / A = (A - z) / z * (1 / A) := by field_simp
    rw [this, abs_mul, abs_of_pos (by positivity : 0 < 1 / A), mul_comm]
    refine mul_le_mul_of_nonneg_left ?_ (by positivity)
    rw [abs_div, abs_of_pos hz0, div_le_iff₀ hz0, abs_sub_comm]
    norm_num at k4 hz ⊢
    linarith
  have hI : 1 / (2 * 10 ^ 12) ≤ 1 / A := one_div_le_one_div_of_le hA' hA1
  have hI0 : 0 < 1 / A := by positivity
  generalize 1 / A = I at k5 hI hI0 ⊢
  generalize 1 / z = J at k5 e4 ⊢
  have k6 : |J| ≤ 2 * I := by
    rw [abs_le] at k5 ⊢
    norm_num at k5
    constructor <;> linarith [k5.1, k5.2]
  have e4' : |f64 J - J| ≤ 2 * I / 10 ^ 15 + 1 / 10 ^ 40 := e4.trans (by gcongr)
  clear e4
  generalize f64 J = R at e4' ⊢
  rw [abs_le] at k5 e4' ⊢
  norm_num at k5 e4' hI ⊢
  constructor <;> linarith [k5.1, k5.2, e4'.1, e4'.2]

theorem simpleRate_ge {beam si nbr : V2 ℝ} (hb : WellPlaced beam) (hn : WellPlaced nbr) :
    1 / (2 * 10 ^ 12) ≤ simpleRate beam si nbr := by
  rw [simpleRate_quarters]
  have h0 := quarters_nonneg beam nbr
  have h1 := quarters_le hb hn
  exact one_div_le_one_div_of_le (by positivity) (by nlinarith)

theorem simpleRate_le (beam si nbr : V2 ℝ) : simpleRate beam si nbr ≤ 1 := by
  rw [simpleRate_quarters]
  have : 0 ≤ quarters beam nbr ^ 2 := sq_nonneg _
  rw [div_le_one (by linarith)]
  linarith

/-- After the cast: the rate is within two parts in ten million. -/
theorem castRate_err {beam si nbr : V2 ℝ} (hb : WellPlaced beam) (hs : WellPlaced si) (hn : WellPlaced nbr) :
    |f32 (floatSimpleRate beam si nbr) - simpleRate beam si nbr| ≤ simpleRate beam si nbr * (2 / 10 ^ 7) := by
  have h1 := floatSimpleRate_err hb hs hn
  have h2 := simpleRate_ge (si := si) hb hn
  have h3 := abs_f32_sub_le_all (floatSimpleRate beam si nbr)
  generalize simpleRate beam si nbr = r at h1 h2 ⊢
  generalize floatSimpleRate beam si nbr = x at h1 h3 ⊢
  have k1 : |x| ≤ r * (1 + 1 / 10 ^ 7) := by
    rw [abs_le] at h1 ⊢
    norm_num at h1 h2 ⊢
    constructor <;> linarith [h1.1, h1.2]
  have h4 : |f32 x - x| ≤ r * (1 + 1 / 10 ^ 7) * 2 ^ (-24 : ℤ) + 2 ^ (-150 : ℤ) := h3.trans (by gcongr)
  clear h3
  generalize f32 x = y at h4 ⊢
  rw [abs_le] at h1 h4 ⊢
  norm_num at h1 h2 h4 ⊢
  constructor <;> linarith [h1.1, h1.2, h4.1, h4.2]

end PD
