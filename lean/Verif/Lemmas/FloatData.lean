/- Errors in the floating point operations that make data points. -/
import Verif.Model.FloatData
import Verif.Props.FloatSheet
import Verif.Props.NearData
import Mathlib.Analysis.Real.Pi.Bounds

set_option linter.unusedSectionVars false
set_option linter.unusedSimpArgs false

namespace PD.Props
open PD PD.Spec
variable {Img : Type}

/-! ### Lengths -/

theorem len_le_abs (v : V2 ℝ) : len v ≤ |v.x| + |v.y| := by
  unfold len
  rw [Real.sqrt_le_left (by positivity)]
  nlinarith [sq_abs v.x, sq_abs v.y, abs_nonneg v.x, abs_nonneg v.y]

theorem abs_le_len (v : V2 ℝ) : |v.x| ≤ len v ∧ |v.y| ≤ len v := by
  unfold len
  constructor <;> refine Real.abs_le_sqrt ?_ <;> nlinarith [sq_nonneg v.x, sq_nonneg v.y]

theorem dist_le_abs (p q : V2 ℝ) : Spec.dist p q ≤ |q.x - p.x| + |q.y - p.y| := by
  rw [dist_len]; exact len_le_abs _

theorem sqrt_add_le' {a b : ℝ} (ha : 0 ≤ a) (hb : 0 ≤ b) : Real.sqrt (a + b) ≤ Real.sqrt a + Real.sqrt b := by
  rw [Real.sqrt_le_left (by positivity)]
  nlinarith [Real.sq_sqrt ha, Real.sq_sqrt hb, Real.sqrt_nonneg a, Real.sqrt_nonneg b]

theorem theta_small : (2 : ℝ) ^ (-1075 : ℤ) ≤ 1 / 10 ^ 40 :=
  (zpow_le_zpow_right₀ (by norm_num) (show (-1075 : ℤ) ≤ -140 by norm_num)).trans (by norm_num)

/-- The error of one rounding. -/
theorem f64_err_rel (x : ℝ) : |f64 x - x| ≤ |x| / 10 ^ 15 + 1 / 10 ^ 40 := by
  have h := abs_f64_sub_le x
  have h1 : |x| * (2 : ℝ) ^ (-53 : ℤ) ≤ |x| * (1 / 10 ^ 15) := mul_le_mul_of_nonneg_left (by norm_num) (abs_nonneg x)
  have h2 := theta_small
  generalize (2 : ℝ) ^ (-1075 : ℤ) = θ at h h2
  generalize |x| * (2 : ℝ) ^ (-53 : ℤ) = w at h h1
  linarith

theorem f64_err_rel' {x : ℝ} (hx : 0 ≤ x) :
    x - x / 10 ^ 15 - 1 / 10 ^ 40 ≤ f64 x ∧ f64 x ≤ x + x / 10 ^ 15 + 1 / 10 ^ 40 := by
  have h := f64_err_rel x
  rw [abs_of_nonneg hx, abs_le] at h
  constructor <;> linarith [h.1, h.2]

theorem floatDot_rel (v : V2 ℝ) :
    (1 - 1 / 10 ^ 14) * (v.x ^ 2 + v.y ^ 2) - 1 / 10 ^ 36 ≤ floatDot .plain v ∧
      floatDot .plain v ≤ (1 + 1 / 10 ^ 14) * (v.x ^ 2 + v.y ^ 2) + 1 / 10 ^ 36 := by
  have hx : 0 ≤ v.x * v.x := mul_self_nonneg _
  have hy : 0 ≤ v.y * v.y := mul_self_nonneg _
  have fx := f64_err_rel' hx
  have fy := f64_err_rel' hy
  have gx : 0 ≤ f64 (v.x * v.x) := f64_nonneg hx
  have gy : 0 ≤ f64 (v.y * v.y) := f64_nonneg hy
  have fs := f64_err_rel' (add_nonneg gx gy)
  have e : floatDot .plain v = f64 (f64 (v.x * v.x) + f64 (v.y * v.y)) := rfl
  rw [e, show v.x ^ 2 = v.x * v.x by ring, show v.y ^ 2 = v.y * v.y by ring]
  clear e
  generalize v.x * v.x = a at *
  generalize v.y * v.y = b at *
  generalize f64 a = a' at *
  generalize f64 b = b' at *
  generalize f64 (a' + b') = s at *
  obtain ⟨fx1, fx2⟩ := fx
  obtain ⟨fy1, fy2⟩ := fy
  obtain ⟨fs1, fs2⟩ := fs
  constructor <;> linarith

/-- The error of a length. -/
theorem floatNorm_rel (v : V2 ℝ) : |floatNorm .plain v - len v| ≤ len v / 10 ^ 13 + 1 / 10 ^ 13 := by
  obtain ⟨h1, h2⟩ := floatDot_rel v
  have hs : 0 ≤ v.x ^ 2 + v.y ^ 2 := by positivity
  have hd : 0 ≤ floatDot .plain v := f64_nonneg (add_nonneg (f64_nonneg (mul_self_nonneg _)) (f64_nonneg (mul_self_nonneg _)))
  have hl : len v = Real.sqrt (v.x ^ 2 + v.y ^ 2) := rfl
  have hl0 := len_nonneg v
  have hsq : len v ^ 2 = v.x ^ 2 + v.y ^ 2 := by rw [hl, Real.sq_sqrt hs]
  obtain ⟨r, hr⟩ : ∃ r, r = Real.sqrt (floatDot .plain v) := ⟨_, rfl⟩
  have hr0 : 0 ≤ r := by rw [hr]; exact Real.sqrt_nonneg _
  have hrsq : r ^ 2 = floatDot .plain v := by rw [hr, Real.sq_sqrt hd]
  have f := f64_err_rel' hr0
  have e : floatNorm .plain v = f64 r := by rw [hr]; rfl
  rw [e]
  rw [← hsq, ← hrsq] at h1 h2
  generalize len v = l at *
  have u1 : r ≤ l * (1 + 1 / 10 ^ 14) + 1 / 10 ^ 18 := by
    apply le_of_sq_le_sq ?_ (by positivity)
    norm_num at h2 ⊢
    nlinarith
  have u2 : l ≤ r * (1 + 2 / 10 ^ 14) + 1 / 10 ^ 17 := by
    apply le_of_sq_le_sq ?_ (by positivity)
    norm_num at h1 ⊢
    nlinarith
  rw [abs_le]
  norm_num at f u1 u2 ⊢
  constructor <;> linarith [f.1, f.2]
where
  le_of_sq_le_sq {a b : ℝ} (h : a ^ 2 ≤ b ^ 2) (hb : 0 ≤ b) : a ≤ b := le_of_sq_le_sq' h hb
  le_of_sq_le_sq' {a b : ℝ} (h : a ^ 2 ≤ b ^ 2) (hb : 0 ≤ b) : a ≤ b := by
    by_contra hc
    push Not at hc
    nlinarith

/-! ### Differences -/

theorem floatSub_small {a b : V2 ℝ} (hx : |a.x - b.x| ≤ 2) (hy : |a.y - b.y| ≤ 2) :
    len (floatSub a b - (a - b)) ≤ 2 / 10 ^ 15 := by
  refine (len_le_abs _).trans ?_
  have h1 := f64_err_small hx
  have h2 := f64_err_small hy
  simp only [floatSub, V2.sub_x, V2.sub_y]
  linarith

theorem floatSub_big {a b : V2 ℝ} (hx : |a.x - b.x| ≤ 65536) (hy : |a.y - b.y| ≤ 65536) :
    len (floatSub a b - (a - b)) ≤ 2 / 10 ^ 10 := by
  refine (len_le_abs _).trans ?_
  have h1 := f64_err_big hx
  have h2 := f64_err_big hy
  simp only [floatSub, V2.sub_x, V2.sub_y]
  linarith

theorem len_close' (v w : V2 ℝ) : |len v - len w| ≤ len (v - w) := by
  rw [← norm_toC, ← norm_toC, ← norm_toC, toC_sub]
  exact abs_norm_sub_norm_le _ _

/-- The error of a distance. -/
theorem floatDist_err {a b : V2 ℝ} (hx : |a.x - b.x| ≤ 65536) (hy : |a.y - b.y| ≤ 65536) :
    |floatNorm .plain (floatSub a b) - Spec.dist a b| ≤ 1 / 10 ^ 7 := by
  have h1 := floatSub_big hx hy
  have h2 := (abs_le.1 (len_close' (floatSub a b) (a - b)))
  have h3 := abs_le.1 (floatNorm_rel (floatSub a b))
  have h4 : len (a - b) = Spec.dist a b := by rw [dist_comm', dist_len]
  have h5 : len (a - b) ≤ 131072 := (len_le_abs _).trans (by simp only [V2.sub_x, V2.sub_y]; linarith)
  rw [← h4, abs_le]
  norm_num at h1 h3 ⊢
  constructor <;> linarith [h2.1, h2.2, h3.1, h3.2]

/-- A length is not much smaller than it should be, however large. -/
theorem floatDist_lower {a b : V2 ℝ} (hx : |a.x - b.x| ≤ 65536) (hy : |a.y - b.y| ≤ 65536) {r : ℝ}
    (h : r ≤ Spec.dist a b) : r - 1 / 10 ^ 7 ≤ floatNorm .plain (floatSub a b) := by
  linarith [(abs_le.1 (floatDist_err hx hy)).1]

/-! ### Conversion -/

theorem floatScale_err {lo hi p : ℝ} (hlo : |lo| ≤ 10000) (hhi : |hi| ≤ 10000) (hp : |p| ≤ 1) :
    |floatScale lo hi p - (lo + p * (hi - lo))| ≤ 4 / 10 ^ 10 ∧ |floatScale lo hi p| ≤ 32000 := by
  have hs : |hi - lo| ≤ 20000 := by
    rw [abs_le] at *
    constructor <;> linarith [hlo.1, hlo.2, hhi.1, hhi.2]
  have e1 := f64_err_big (x := hi - lo) (by linarith)
  have hq : |p * f64 (hi - lo) - p * (hi - lo)| ≤ 1 / 10 ^ 10 := by
    rw [← mul_sub, abs_mul]
    have := mul_le_mul hp e1 (abs_nonneg _) (by norm_num)
    linarith
  have hm : |p * (hi - lo)| ≤ 20000 := by
    rw [abs_mul]
    have := mul_le_mul hp hs (abs_nonneg _) (by norm_num)
    linarith
  have e2 := f64_err_big (x := p * f64 (hi - lo)) (by
    rw [abs_le] at *
    norm_num at hq ⊢
    constructor <;> linarith [hq.1, hq.2, hm.1, hm.2])
  unfold floatScale
  generalize f64 (p * f64 (hi - lo)) = s at *
  have e3 := f64_err_big (x := s + lo) (by
    rw [abs_le] at *
    norm_num at hq e2 ⊢
    constructor <;> linarith [hq.1, hq.2, hm.1, hm.2, e2.1, e2.2])
  generalize f64 (s + lo) = r at *
  rw [abs_le, abs_le]
  rw [abs_le] at hq e2 e3 hm hlo
  norm_num at hq e2 e3 ⊢
  constructor
  · constructor <;> linarith [e2.1, e2.2, e3.1, e3.2, hq.1, hq.2]
  · constructor <;> linarith [e2.1, e2.2, e3.1, e3.2, hq.1, hq.2, hm.1, hm.2]

theorem floatToMaterial_err {f : Fov ℝ} (hf : WithinMicrometre f) {p : V2 ℝ} (hp : |p.x| ≤ 1 ∧ |p.y| ≤ 1) :
    Spec.dist (lerp f.lowerLeft f.upperRight p) (f.floatToMaterial p) ≤ 1 / 10 ^ 9 ∧
      |(f.floatToMaterial p).x| ≤ 32000 ∧ |(f.floatToMaterial p).y| ≤ 32000 := by
  obtain ⟨⟨h1, h2⟩, h3, h4⟩ := hf
  have ex := floatScale_err h1 h3 hp.1
  have ey := floatScale_err h2 h4 hp.2
  refine ⟨(dist_le_abs _ _).trans ?_, ex.2, ey.2⟩
  have := add_le_add ex.1 ey.1
  refine this.trans (by norm_num)

/-! ### Angles -/

theorem floatTurn_err : |floatTurn - 2 * Real.pi| ≤ 2 / 10 ^ 14 := by
  have h1 := Real.pi_gt_three
  have h2 := Real.pi_lt_d2
  have e1 := f64_err_rel Real.pi
  rw [abs_of_pos Real.pi_pos] at e1
  have e2 := f64_err_rel (2 * f64 Real.pi)
  unfold floatTurn
  generalize f64 Real.pi = a at *
  generalize f64 (2 * a) = b at *
  have ha : |2 * a| ≤ 7 := by
    rw [abs_le] at e1 ⊢
    norm_num at e1 h2 ⊢
    constructor <;> linarith [e1.1, e1.2]
  have e3 : |b - 2 * a| ≤ 8 / 10 ^ 15 := e2.trans (by
    generalize |2 * a| = w at ha
    norm_num; linarith)
  rw [abs_le] at e1 e3 ⊢
  norm_num at e1 e3 h2 ⊢
  constructor <;> linarith [e1.1, e1.2, e3.1, e3.2]

theorem floatTurn_bounds : 628 / 100 ≤ floatTurn ∧ floatTurn ≤ 629 / 100 := by
  have h := abs_le.1 floatTurn_err
  have h1 := Real.pi_gt_d4
  have h2 := Real.pi_lt_d4
  norm_num at h h1 h2 ⊢
  constructor <;> linarith [h.1, h.2]

theorem floatMod_zero (m : ℝ) : floatMod 0 m = 0 := by simp [floatMod]

theorem floatMod_spec {x : ℝ} (hx : |x| ≤ 9) :
    (∃ n : ℤ, |floatMod x floatTurn - (x + n * (2 * Real.pi))| ≤ 1 / 10 ^ 13) ∧ 0 ≤ floatMod x floatTurn ∧
      floatMod x floatTurn ≤ 63 / 10 := by
  obtain ⟨m1, m2⟩ := floatTurn_bounds
  have he := abs_le.1 floatTurn_err
  have hx' := abs_le.1 hx
  unfold floatMod
  generalize floatTurn = m at *
  have hm : 0 < m := by linarith
  by_cases h0 : 0 ≤ x
  · simp only [h0, if_true]
    have f1 := Int.floor_le (x / m)
    have f2 := Int.lt_floor_add_one (x / m)
    have f3 : 0 ≤ ⌊x / m⌋ := Int.floor_nonneg.2 (by positivity)
    have f4 : ⌊x / m⌋ ≤ 1 := by
      rw [← Int.lt_add_one_iff, Int.floor_lt, div_lt_iff₀ hm]
      push_cast; linarith
    rw [le_div_iff₀ hm] at f1
    rw [div_lt_iff₀ hm] at f2
    generalize ⌊x / m⌋ = n at *
    have f3' : (0 : ℝ) ≤ n := by exact_mod_cast f3
    have f4' : (n : ℝ) ≤ 1 := by exact_mod_cast f4
    have hr : ¬ x - m * n < 0 := by rw [not_lt]; linarith
    rw [if_neg hr]
    refine ⟨⟨-n, ?_⟩, by linarith, by linarith⟩
    push_cast
    rw [abs_le]
    norm_num at he ⊢
    constructor <;> nlinarith [he.1, he.2]
  · simp only [h0, if_false]
    push Not at h0
    have f1 := Int.le_ceil (x / m)
    have f2 := Int.ceil_lt_add_one (x / m)
    have f3 : ⌈x / m⌉ ≤ 0 := Int.ceil_le.2 (by push_cast; exact div_nonpos_of_nonpos_of_nonneg h0.le hm.le)
    have f4 : -1 ≤ ⌈x / m⌉ := by
      have : (-2 : ℤ) < ⌈x / m⌉ := by
        rw [Int.lt_ceil, lt_div_iff₀ hm]
        push_cast; linarith
      omega
    rw [div_le_iff₀ hm] at f1
    rw [← sub_lt_iff_lt_add, lt_div_iff₀ hm] at f2
    generalize ⌈x / m⌉ = n at *
    have f3' : (n : ℝ) ≤ 0 := by exact_mod_cast f3
    have f4' : (-1 : ℝ) ≤ n := by exact_mod_cast f4
    by_cases hr : x - m * n < 0
    · rw [if_pos hr]
      have hpos : 0 ≤ x - m * n + m := by linarith
      have e := f64_err_rel' hpos
      refine ⟨⟨-n + 1, ?_⟩, f64_nonneg hpos, ?_⟩
      · push_cast
        generalize f64 (x - m * n + m) = y at *
        rw [abs_le]
        norm_num at he e ⊢
        constructor <;> nlinarith [he.1, he.2, e.1, e.2]
      · generalize f64 (x - m * n + m) = y at *
        norm_num at e ⊢
        linarith [e.2]
    · rw [if_neg hr]
      push Not at hr
      refine ⟨⟨-n, ?_⟩, hr, by linarith⟩
      push_cast
      rw [abs_le]
      norm_num at he ⊢
      constructor <;> nlinarith [he.1, he.2]

/-- The computed angle from `u` to `v`, if they are not nearly parallel. -/
theorem floatAngle_err (A : FloatAngle) (u v : V2 ℝ)
    (h1 : Real.pi / 2 < pyMod (getAngle v + -getAngle u) (2 * Real.pi))
    (h2 : pyMod (getAngle v + -getAngle u) (2 * Real.pi) < 3 * Real.pi / 2) :
    |floatMod (f64 (A.arctan2 v.y v.x + -A.arctan2 u.y u.x)) floatTurn -
      pyMod (getAngle v + -getAngle u) (2 * Real.pi)| ≤ 1 / 10 ^ 12 := by
  obtain ⟨i, hi⟩ := A.err v.y v.x
  obtain ⟨j, hj⟩ := A.err u.y u.x
  have si := A.size v.y v.x
  have sj := A.size u.y u.x
  replace hi := abs_le.1 (trig_err hi)
  replace hj := abs_le.1 (trig_err hj)
  change -_ ≤ A.arctan2 v.y v.x - (getAngle v + i * (2 * Real.pi)) ∧ _ at hi
  change -_ ≤ A.arctan2 u.y u.x - (getAngle u + j * (2 * Real.pi)) ∧ _ at hj
  generalize A.arctan2 v.y v.x = t at *
  generalize A.arctan2 u.y u.x = a at *
  have hs : |t + -a| ≤ 8 := by
    rw [abs_le] at si sj ⊢
    constructor <;> linarith [si.1, si.2, sj.1, sj.2]
  have e := f64_err_rel (t + -a)
  have hx : |f64 (t + -a)| ≤ 9 := by
    rw [abs_le] at hs ⊢
    have e' : |f64 (t + -a) - (t + -a)| ≤ 1 := e.trans (by
      have : |t + -a| ≤ 8 := abs_le.2 hs
      norm_num; linarith)
    rw [abs_le] at e'
    constructor <;> linarith [e'.1, e'.2, hs.1, hs.2]
  obtain ⟨⟨n, hn⟩, y0, y1⟩ := floatMod_spec hx
  generalize floatMod (f64 (t + -a)) floatTurn = y at *
  generalize f64 (t + -a) = x at *
  obtain ⟨φ, hφ⟩ : ∃ φ, φ = pyMod (getAngle v + -getAngle u) (2 * Real.pi) := ⟨_, rfl⟩
  rw [← hφ] at h1 h2 ⊢
  unfold pyMod at hφ
  generalize ⌊(getAngle v + -getAngle u) / (2 * Real.pi)⌋ = k at *
  have p1 := Real.pi_gt_d2
  have p2 := Real.pi_lt_d2
  have hd : |y - φ - ((n + i - j + k : ℤ) : ℝ) * (2 * Real.pi)| ≤ 5 / 10 ^ 13 := by
    push_cast
    rw [hφ]
    have e' : |x - (t + -a)| ≤ 2 / 10 ^ 14 := e.trans (by norm_num; linarith)
    rw [abs_le] at hn e' ⊢
    norm_num at hi hj hn e' ⊢
    constructor <;> linarith [hi.1, hi.2, hj.1, hj.2, hn.1, hn.2, e'.1, e'.2]
  generalize n + i - j + k = N at hd
  have hN : N = 0 := by
    rw [abs_le] at hd
    norm_num at hd p1 p2
    by_contra hne
    rcases lt_or_gt_of_ne hne with h | h
    · have : (N : ℝ) ≤ -1 := by exact_mod_cast (by omega : N ≤ -1)
      nlinarith [hd.1, hd.2]
    · have : (1 : ℝ) ≤ N := by exact_mod_cast (by omega : 1 ≤ N)
      nlinarith [hd.1, hd.2]
  rw [hN] at hd
  refine le_trans ?_ (hd.trans (by norm_num))
  simp

/-! ### Turning the frame -/

theorem floatPair_err (k : DotKind) {a b b' c d d' : ℝ} (ha : |a| ≤ 65537) (hc : |c| ≤ 65537)
    (hb : |b' - b| ≤ 3 / 10 ^ 15) (hB : |b| ≤ 1) (hd : |d' - d| ≤ 3 / 10 ^ 15) (hD : |d| ≤ 1) :
    |floatPair k a b' c d' - (a * b + c * d)| ≤ 1 / 10 ^ 9 := by
  have prod : ∀ {a b b' : ℝ}, |a| ≤ 65537 → |b' - b| ≤ 3 / 10 ^ 15 → |b| ≤ 1 →
      |a * b' - a * b| ≤ 2 / 10 ^ 10 ∧ |a * b'| ≤ 65538 ∧ |f64 (a * b') - a * b'| ≤ 1 / 10 ^ 10 := by
    intro a b b' ha hb hB
    have h1 : |a * b' - a * b| ≤ 2 / 10 ^ 10 := by
      rw [← mul_sub, abs_mul]
      have := mul_le_mul ha hb (abs_nonneg _) (by norm_num)
      norm_num at this ⊢
      linarith
    have h2 : |a * b| ≤ 65537 := by
      rw [abs_mul]
      have := mul_le_mul ha hB (abs_nonneg _) (by norm_num)
      linarith
    have h3 : |a * b'| ≤ 65538 := by
      rw [abs_le] at h1 h2 ⊢
      norm_num at h1 ⊢
      constructor <;> linarith [h1.1, h1.2, h2.1, h2.2]
    refine ⟨h1, h3, (f64_err_rel _).trans ?_⟩
    generalize |a * b'| = w at h3
    norm_num; linarith
  obtain ⟨u1, u2, u3⟩ := prod ha hb hB
  obtain ⟨v1, v2, v3⟩ := prod hc hd hD
  have sum : ∀ {s t : ℝ}, |s - a * b'| ≤ 1 / 10 ^ 10 → |t - c * d'| ≤ 1 / 10 ^ 10 →
      |f64 (s + t) - (a * b + c * d)| ≤ 1 / 10 ^ 9 := by
    intro s t hs ht
    have hst : |s + t| ≤ 140000 := by
      rw [abs_le] at hs ht u2 v2 ⊢
      norm_num at hs ht ⊢
      constructor <;> linarith [hs.1, hs.2, ht.1, ht.2, u2.1, u2.2, v2.1, v2.2]
    have e := f64_err_rel (s + t)
    have e' : |f64 (s + t) - (s + t)| ≤ 2 / 10 ^ 10 := e.trans (by norm_num; linarith)
    rw [abs_le] at hs ht u1 v1 e' ⊢
    norm_num at hs ht u1 v1 e' ⊢
    constructor <;> linarith [hs.1, hs.2, ht.1, ht.2, u1.1, u1.2, v1.1, v1.2, e'.1, e'.2]
  cases k with
  | plain => exact sum u3 v3
  | fusedFirst => exact sum (by simp) v3
  | fusedSecond => exact sum u3 (by simp)

theorem floatRotate_err (L : FloatLib) (u : V2 ℝ) {b : V2 ℝ} (hx : |b.x| ≤ 65537) (hy : |b.y| ≤ 65537) :
    Spec.dist (floatRotate L b (-L.angle.arctan2 u.y u.x)) (rotate b (-getAngle u)) ≤ 2 / 10 ^ 9 := by
  obtain ⟨j, hj⟩ := L.angle.err u.y u.x
  replace hj := trig_err hj
  change |L.angle.arctan2 u.y u.x - (getAngle u + j * (2 * Real.pi))| ≤ _ at hj
  generalize L.angle.arctan2 u.y u.x = a at *
  have hd : |(-a) - (-getAngle u + ((-j : ℤ) : ℝ) * (2 * Real.pi))| ≤ 1 / 10 ^ 15 := by
    push_cast
    have e : -a - (-getAngle u + -(j : ℝ) * (2 * Real.pi)) = -(a - (getAngle u + j * (2 * Real.pi))) := by ring
    rw [e, abs_neg]; exact hj
  have hc : |L.trig.cos (-a) - Real.cos (-getAngle u)| ≤ 3 / 10 ^ 15 := by
    have e1 := trig_err (L.trig.cos_err (-a))
    have e2 := Real.abs_cos_sub_cos_le (-a) (-getAngle u + ((-j : ℤ) : ℝ) * (2 * Real.pi))
    rw [Real.cos_add_int_mul_two_pi] at e2
    have e3 := e2.trans hd
    rw [abs_le] at e1 e3 ⊢
    norm_num at e1 e3 ⊢
    constructor <;> linarith [e1.1, e1.2, e3.1, e3.2]
  have hs : |L.trig.sin (-a) - Real.sin (-getAngle u)| ≤ 3 / 10 ^ 15 := by
    have e1 := trig_err (L.trig.sin_err (-a))
    have e2 := Real.abs_sin_sub_sin_le (-a) (-getAngle u + ((-j : ℤ) : ℝ) * (2 * Real.pi))
    rw [Real.sin_add_int_mul_two_pi] at e2
    have e3 := e2.trans hd
    rw [abs_le] at e1 e3 ⊢
    norm_num at e1 e3 ⊢
    constructor <;> linarith [e1.1, e1.2, e3.1, e3.2]
  have hs' : |-L.trig.sin (-a) - -Real.sin (-getAngle u)| ≤ 3 / 10 ^ 15 := by
    rw [← neg_sub', abs_neg]; exact hs
  have c1 := Real.abs_cos_le_one (-getAngle u)
  have s1 := Real.abs_sin_le_one (-getAngle u)
  have s1' : |-Real.sin (-getAngle u)| ≤ 1 := by rw [abs_neg]; exact s1
  rw [dist_comm']
  refine (dist_le_abs _ _).trans ?_
  have ex := floatPair_err L.dots hx hy hc c1 hs' s1'
  have ey := floatPair_err L.dots hx hy hs s1 hc c1
  simp only [floatRotate, rotate]
  linarith

end PD.Props
