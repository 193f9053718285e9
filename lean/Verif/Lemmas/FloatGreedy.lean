/- Lemmas about the features and the greedy agent with floating point numbers. -/
import Verif.Model.FloatGreedy
import Verif.Spec.FloatGreedy
import Verif.Lemmas.FloatPristine
import Verif.Lemmas.FloatPlay
import Verif.Lemmas.FloatPrior
import Verif.Props.FloatEnv

set_option linter.unusedSectionVars false
set_option linter.unusedSimpArgs false

namespace PD.Props
open PD PD.Spec
variable {G O P Img F : Type}

/-! ### Roundings -/

theorem f32_rel (x : ℝ) : |f32 x - x| ≤ |x| * (6 / 10 ^ 8) + 1 / 10 ^ 42 := by
  refine (abs_f32_sub_le_all x).trans ?_
  have h1 : (2 : ℝ) ^ (-24 : ℤ) ≤ 6 / 10 ^ 8 := by norm_num
  have h2 : (2 : ℝ) ^ (-150 : ℤ) ≤ 1 / 10 ^ 42 := by norm_num
  gcongr

/-- A difference of two positions, rounded twice. -/
theorem delta_single {A B a b : ℝ} (hA : |A - a| ≤ 1 / 10 ^ 9) (hB : |B - b| ≤ 1 / 10 ^ 9) :
    |f32 (f64 (A - B)) - (a - b)| ≤ (1 + |a - b|) / 10 ^ 7 := by
  obtain ⟨D, hD⟩ : ∃ D, D = |a - b| := ⟨_, rfl⟩
  have h0 : |A - B| ≤ D + 2 / 10 ^ 9 := by
    have : A - B = (a - b) + (A - a) - (B - b) := by ring
    rw [this, hD]
    refine (abs_sub _ _).trans ((add_le_add ((abs_add_le _ _).trans (add_le_add le_rfl hA)) hB).trans ?_)
    linarith
  have h1 := f64_near h0
  have h2 : |f64 (A - B)| ≤ 2 * D + 1 := by
    have : f64 (A - B) = (f64 (A - B) - (A - B)) + (A - B) := by ring
    rw [this]
    refine (abs_add_le _ _).trans ((add_le_add h1 h0).trans ?_)
    have : 0 ≤ D := by rw [hD]; exact abs_nonneg _
    norm_num
    linarith
  have h2' : |f64 (A - B)| ≤ D * (1 + 1 / 10 ^ 10) + 1 / 10 ^ 8 := by
    have : f64 (A - B) = (f64 (A - B) - (A - B)) + (A - B) := by ring
    rw [this]
    refine (abs_add_le _ _).trans ((add_le_add h1 h0).trans ?_)
    have : 0 ≤ D := by rw [hD]; exact abs_nonneg _
    norm_num
    linarith
  have h3 := f32_rel (f64 (A - B))
  have e : f32 (f64 (A - B)) - (a - b) = (f32 (f64 (A - B)) - f64 (A - B)) + (f64 (A - B) - (A - B)) + (A - a) - (B - b) := by
    ring
  rw [e, ← hD]
  refine (abs_sub _ _).trans ?_
  refine (add_le_add ((abs_add_le _ _).trans (add_le_add ((abs_add_le _ _).trans (add_le_add h3 h1)) hA)) hB).trans ?_
  have : 0 ≤ D := by rw [hD]; exact abs_nonneg _
  norm_num at h2' ⊢
  linarith

/-- A coordinate, rounded. -/
theorem single_place {A a : ℝ} (ha : |a| ≤ 60020) (h : |A - a| ≤ 1 / 10 ^ 9) : |f32 A - a| ≤ 1 / 100 := by
  have h1 := f32_rel A
  have h2 : |A| ≤ 60021 := by
    rw [abs_le] at *
    norm_num at h
    constructor <;> linarith [h.1, h.2, ha.1, ha.2]
  have : f32 A - a = (f32 A - A) + (A - a) := by ring
  rw [this]
  refine (abs_add_le _ _).trans ((add_le_add h1 h).trans ?_)
  norm_num
  linarith

/-- The norm of two float32 numbers. -/
theorem singleNorm_err (v : V2 ℝ) : |singleNorm v - len v| ≤ len v * (5 / 10 ^ 7) + 1 / 10 ^ 10 := by
  have hl : len v ^ 2 = v.x * v.x + v.y * v.y := by
    unfold len
    rw [Real.sq_sqrt (by positivity)]
    ring
  have hl0 : 0 ≤ len v := len_nonneg v
  have hx := f32_rel (v.x * v.x)
  have hy := f32_rel (v.y * v.y)
  rw [abs_of_nonneg (mul_self_nonneg v.x)] at hx
  rw [abs_of_nonneg (mul_self_nonneg v.y)] at hy
  have hs : |(f32 (v.x * v.x) + f32 (v.y * v.y)) - len v ^ 2| ≤ len v ^ 2 * (6 / 10 ^ 8) + 2 / 10 ^ 42 := by
    rw [hl]
    have : f32 (v.x * v.x) + f32 (v.y * v.y) - (v.x * v.x + v.y * v.y) =
        (f32 (v.x * v.x) - v.x * v.x) + (f32 (v.y * v.y) - v.y * v.y) := by ring
    rw [this]
    refine (abs_add_le _ _).trans ((add_le_add hx hy).trans ?_)
    linarith
  unfold singleNorm
  generalize f32 (v.x * v.x) + f32 (v.y * v.y) = w at hs
  have hw := f32_rel w
  generalize f32 w = u at hw
  obtain ⟨N, hN⟩ : ∃ N, N = len v := ⟨_, rfl⟩
  rw [← hN] at hl0 hs ⊢
  have hN2 : 0 ≤ N ^ 2 := by positivity
  have hu : |u - N ^ 2| ≤ N ^ 2 * (2 / 10 ^ 7) + 1 / 10 ^ 40 := by
    have hw2 : |w| ≤ 2 * N ^ 2 + 1 / 10 ^ 40 := by
      rw [abs_le] at hs ⊢
      norm_num at hs ⊢
      constructor <;> linarith [hs.1, hs.2]
    have hw3 : |w| ≤ N ^ 2 * (1 + 1 / 10 ^ 7) + 1 / 10 ^ 41 := by
      rw [abs_le] at hs ⊢
      norm_num at hs ⊢
      constructor <;> linarith [hs.1, hs.2]
    have : u - N ^ 2 = (u - w) + (w - N ^ 2) := by ring
    rw [this]
    refine (abs_add_le _ _).trans ((add_le_add hw hs).trans ?_)
    norm_num at hw3 ⊢
    linarith
  have hup : Real.sqrt u ≤ N * (1 + 2 / 10 ^ 7) + 1 / 10 ^ 20 := by
    rw [Real.sqrt_le_left (by positivity)]
    rw [abs_le] at hu
    have h2 := hu.2
    have hc : 0 ≤ N * (1 / 10 ^ 20 : ℝ) := by positivity
    norm_num at h2 hc ⊢
    nlinarith
  have hlow : N * (1 - 2 / 10 ^ 7) - 1 / 10 ^ 20 ≤ Real.sqrt u := by
    by_cases hneg : N * (1 - 2 / 10 ^ 7) - 1 / 10 ^ 20 ≤ 0
    · exact hneg.trans (Real.sqrt_nonneg _)
    push Not at hneg
    apply Real.le_sqrt_of_sq_le
    rw [abs_le] at hu
    have h1 := hu.1
    obtain ⟨z, hz⟩ : ∃ z, z = N * (1 - 2 / 10 ^ 7) := ⟨_, rfl⟩
    rw [← hz] at hneg ⊢
    have hz2 : z ^ 2 ≤ N ^ 2 * (1 - 2 / 10 ^ 7) := by
      rw [hz]
      have : (N * (1 - 2 / 10 ^ 7)) ^ 2 = N ^ 2 * (1 - 2 / 10 ^ 7) * (1 - 2 / 10 ^ 7) := by ring
      rw [this]
      exact mul_le_of_le_one_right (mul_nonneg hN2 (by norm_num)) (by norm_num)
    have hz3 : (z - 1 / 10 ^ 20) ^ 2 ≤ z ^ 2 - 1 / 10 ^ 40 := by
      norm_num at hneg ⊢
      nlinarith
    linarith
  have hr := f32_rel (Real.sqrt u)
  rw [abs_of_nonneg (Real.sqrt_nonneg u)] at hr
  generalize Real.sqrt u = r at *
  rw [abs_le] at hr ⊢
  norm_num at hr hup hlow ⊢
  constructor <;> linarith [hr.1, hr.2]

theorem len_apart {u v : V2 ℝ} : |len u - len v| ≤ |u.x - v.x| + |u.y - v.y| := by
  have key : ∀ u v : V2 ℝ, len u ≤ len v + (|u.x - v.x| + |u.y - v.y|) := by
    intro u v
    have h := dist_tri ⟨0, 0⟩ v u
    have e : ∀ w : V2 ℝ, Spec.dist ⟨0, 0⟩ w = len w := by
      intro w
      rw [dist_len]
      congr 1
      apply V2.ext <;> simp
    rw [e, e] at h
    exact h.trans (add_le_add le_rfl (dist_le_abs v u))
  rw [abs_le]
  have h1 := key u v
  have h2 := key v u
  rw [abs_sub_comm v.x, abs_sub_comm v.y] at h2
  constructor <;> linarith

/-- The score of a neighbour is its distance from the goal, up to little. -/
theorem score_err {d gd si p b : V2 ℝ} (hp : Spec.dist si p ≤ 3 / 2)
    (d1 : |d.x - (p.x - si.x)| ≤ (1 + Spec.dist si p) / 10 ^ 7) (d2 : |d.y - (p.y - si.y)| ≤ (1 + Spec.dist si p) / 10 ^ 7)
    (g1 : |gd.x - (b.x - si.x)| ≤ (1 + Spec.dist si b) / 10 ^ 7)
    (g2 : |gd.y - (b.y - si.y)| ≤ (1 + Spec.dist si b) / 10 ^ 7) :
    |singleNorm (singleSub d gd) - Spec.dist p b| ≤ 3 * (1 + Spec.dist si b) / 10 ^ 6 := by
  obtain ⟨D, hD⟩ : ∃ D, D = Spec.dist si b := ⟨_, rfl⟩
  have hD0 : 0 ≤ D := by rw [hD]; exact Real.sqrt_nonneg _
  rw [← hD] at g1 g2 ⊢
  have hpb : Spec.dist p b ≤ 3 / 2 + D := by
    have := dist_tri p si b
    rw [dist_comm' p si] at this
    linarith
  have e0 : len (p - b) = Spec.dist p b := by rw [dist_comm', dist_len]
  have coord : ∀ {dx gx px bx sx : ℝ}, |px - bx| ≤ Spec.dist p b → |dx - (px - sx)| ≤ (1 + Spec.dist si p) / 10 ^ 7 →
      |gx - (bx - sx)| ≤ (1 + D) / 10 ^ 7 → |f32 (dx - gx) - (px - bx)| ≤ (5 + 2 * D) / 10 ^ 7 := by
    intro dx gx px bx sx h0 h1 h2
    have h3 : |(dx - gx) - (px - bx)| ≤ (7 / 2 + D) / 10 ^ 7 := by
      have : (dx - gx) - (px - bx) = (dx - (px - sx)) - (gx - (bx - sx)) := by ring
      rw [this]
      refine (abs_sub _ _).trans ((add_le_add h1 h2).trans ?_)
      norm_num
      linarith
    have h4 := f32_rel (dx - gx)
    have h5 : |dx - gx| ≤ 2 + 2 * D := by
      have : dx - gx = ((dx - gx) - (px - bx)) + (px - bx) := by ring
      rw [this]
      refine (abs_add_le _ _).trans ((add_le_add h3 (h0.trans hpb)).trans ?_)
      norm_num
      linarith
    have h6 : |dx - gx| ≤ 2 + D * (1 + 1 / 10 ^ 6) := by
      have : dx - gx = ((dx - gx) - (px - bx)) + (px - bx) := by ring
      rw [this]
      refine (abs_add_le _ _).trans ((add_le_add h3 (h0.trans hpb)).trans ?_)
      norm_num
      linarith
    have : f32 (dx - gx) - (px - bx) = (f32 (dx - gx) - (dx - gx)) + ((dx - gx) - (px - bx)) := by ring
    rw [this]
    refine (abs_add_le _ _).trans ((add_le_add h4 h3).trans ?_)
    norm_num at h6 ⊢
    linarith
  have cx := coord (by rw [← e0]; exact abs_x_le_len (p - b)) d1 g1
  have cy := coord (by rw [← e0]; exact abs_y_le_len (p - b)) d2 g2
  have hc : |len (singleSub d gd) - Spec.dist p b| ≤ (10 + 4 * D) / 10 ^ 7 := by
    rw [← e0]
    refine len_apart.trans ((add_le_add cx cy).trans ?_)
    norm_num
    linarith
  have hn := singleNorm_err (singleSub d gd)
  generalize singleNorm (singleSub d gd) = s at *
  generalize len (singleSub d gd) = l at *
  have hl : l ≤ 2 + 2 * D := by
    rw [abs_le] at hc
    norm_num at hc
    linarith [hc.2]
  rw [abs_le] at *
  norm_num at hn hc ⊢
  constructor <;> linarith [hn.1, hn.2, hc.1, hc.2]

/-! ### The direction of a bond -/

theorem single_direction (T : SingleLib) {d u : V2 ℝ} (hu : 1 ≤ len u) (hx : |d.x - u.x| ≤ 3 / 10 ^ 7)
    (hy : |d.y - u.y| ≤ 3 / 10 ^ 7) :
    |T.cos (T.arctan2 d.y d.x) - u.x / len u| ≤ 4 / 10 ^ 6 ∧ |T.sin (T.arctan2 d.y d.x) - u.y / len u| ≤ 4 / 10 ^ 6 := by
  obtain ⟨n, hn⟩ := T.angle_err d.y d.x
  have hs := T.size d.y d.x
  generalize T.arctan2 d.y d.x = t at *
  have hc1 := T.cos_err t hs
  have hs1 := T.sin_err t hs
  have hc2 : |Real.cos t - Real.cos (getAngle d)| ≤ 1 / 10 ^ 6 := by
    have := Real.abs_cos_sub_cos_le t (getAngle ⟨d.x, d.y⟩ + n * (2 * Real.pi))
    rw [Real.cos_add_int_mul_two_pi] at this
    exact this.trans hn
  have hs2 : |Real.sin t - Real.sin (getAngle d)| ≤ 1 / 10 ^ 6 := by
    have := Real.abs_sin_sub_sin_le t (getAngle ⟨d.x, d.y⟩ + n * (2 * Real.pi))
    rw [Real.sin_add_int_mul_two_pi] at this
    exact this.trans hn
  have hll : |len d - len u| ≤ 6 / 10 ^ 7 := len_apart.trans ((add_le_add hx hy).trans (by norm_num))
  have hd : 0 < len d := by
    rw [abs_le] at hll
    norm_num at hll
    linarith [hll.1]
  have e1 : Real.cos (getAngle d) = d.x / len d := by rw [eq_div_iff hd.ne', mul_comm]; exact len_cos_angle d
  have e2 : Real.sin (getAngle d) = d.y / len d := by rw [eq_div_iff hd.ne', mul_comm]; exact len_sin_angle d
  have ratio : ∀ {a a' l l' : ℝ}, 1 ≤ l → 0 < l' → |a' - a| ≤ 3 / 10 ^ 7 → |l' - l| ≤ 6 / 10 ^ 7 → |a'| ≤ l' →
      |a' / l' - a / l| ≤ 1 / 10 ^ 6 := by
    intro a a' l l' h1 h2 h3 h4 h5
    have hl : 0 < l := by linarith
    have : a' / l' - a / l = ((a' - a) + a' / l' * (l - l')) / l := by field_simp; ring
    rw [this, abs_div, abs_of_pos hl, div_le_iff₀ hl]
    have h6 : |a' / l'| ≤ 1 := by rw [abs_div, abs_of_pos h2]; exact (div_le_one h2).2 h5
    refine (abs_add_le _ _).trans ?_
    rw [abs_mul, abs_sub_comm l]
    have h7 := mul_le_mul h6 h4 (abs_nonneg _) (by norm_num)
    refine (add_le_add h3 h7).trans ?_
    norm_num
    linarith
  have r1 := ratio hu hd hx hll (abs_x_le_len d)
  have r2 := ratio hu hd hy hll (abs_y_le_len d)
  rw [e1] at hc2
  rw [e2] at hs2
  rw [abs_le] at hc1 hs1 hc2 hs2 r1 r2
  norm_num at hc1 hs1 hc2 hs2 r1 r2
  refine ⟨abs_le.2 ⟨?_, ?_⟩, abs_le.2 ⟨?_, ?_⟩⟩ <;> norm_num <;> linarith [hc1.1, hc1.2, hs1.1, hs1.2, hc2.1, hc2.2, hs2.1, hs2.2, r1.1, r1.2, r2.1, r2.2]

/-- A sum of two products of small numbers. -/
theorem small_pair (k : DotKind) {a b c d : ℝ} (ha : |a| ≤ 3) (hb : |b| ≤ 2) (hc : |c| ≤ 3) (hd : |d| ≤ 2) :
    |floatPair k a b c d - (a * b + c * d)| ≤ 1 / 10 ^ 10 := by
  have h1 : |a * b| ≤ 6 := by rw [abs_mul]; nlinarith [abs_nonneg a, abs_nonneg b]
  have h2 : |c * d| ≤ 6 := by rw [abs_mul]; nlinarith [abs_nonneg c, abs_nonneg d]
  have e1 := f64_near h1
  have e2 := f64_near h2
  have last : ∀ {u u' v v' : ℝ}, |u| ≤ 6 → |v| ≤ 6 → |u' - u| ≤ 1 / 10 ^ 14 → |v' - v| ≤ 1 / 10 ^ 14 →
      |f64 (u' + v') - (u + v)| ≤ 1 / 10 ^ 10 := by
    intro u u' v v' h1 h2 e1 e2
    have e3 := f64_near (x := u' + v') (b := 20) (by
      rw [abs_le] at *
      norm_num at *
      constructor <;> linarith [e1.1, e1.2, e2.1, e2.2, h1.1, h1.2, h2.1, h2.2])
    generalize f64 (u' + v') = z at e3 ⊢
    rw [abs_le] at e1 e2 e3 ⊢
    norm_num at e1 e2 e3 ⊢
    constructor <;> linarith [e1.1, e1.2, e2.1, e2.2, e3.1, e3.2]
  have e1' : |f64 (a * b) - a * b| ≤ 1 / 10 ^ 14 := e1.trans (by norm_num)
  have e2' : |f64 (c * d) - c * d| ≤ 1 / 10 ^ 14 := e2.trans (by norm_num)
  have z : ∀ x : ℝ, |x - x| ≤ 1 / 10 ^ 14 := fun x => by simp
  cases k
  · exact last h1 h2 e1' e2'
  · exact last h1 h2 (z _) e2'
  · exact last h1 h2 e1' (z _)

/-- A product with a direction that is off by little. -/
theorem small_turn (k : DotKind) {a a' b b' c c' d d' : ℝ} (ha : |a| ≤ 5 / 2) (ha' : |a' - a| ≤ 1 / 10 ^ 10)
    (hb : |b| ≤ 1) (hb' : |b' - b| ≤ 4 / 10 ^ 6) (hc : |c| ≤ 5 / 2) (hc' : |c' - c| ≤ 1 / 10 ^ 10)
    (hd : |d| ≤ 1) (hd' : |d' - d| ≤ 4 / 10 ^ 6) :
    |floatPair k a' b' c' d' - (a * b + c * d)| ≤ 3 / 10 ^ 5 := by
  have near : ∀ {x x' B ε : ℝ}, |x| ≤ B → |x' - x| ≤ ε → |x'| ≤ B + ε := by
    intro x x' B ε h1 h2
    have : x' = x + (x' - x) := by ring
    rw [this]
    exact (abs_add_le _ _).trans (add_le_add h1 h2)
  have hA := near ha ha'
  have hB := near hb hb'
  have hC := near hc hc'
  have hD := near hd hd'
  have h0 := small_pair k (hA.trans (by norm_num)) (hB.trans (by norm_num)) (hC.trans (by norm_num)) (hD.trans (by norm_num))
  have prod : ∀ {a a' b b' : ℝ}, |a| ≤ 5 / 2 → |a' - a| ≤ 1 / 10 ^ 10 → |b'| ≤ 1 + 4 / 10 ^ 6 → |b' - b| ≤ 4 / 10 ^ 6 →
      |a' * b' - a * b| ≤ 11 / 10 ^ 6 := by
    intro a a' b b' h1 h2 h3 h4
    have : a' * b' - a * b = (a' - a) * b' + a * (b' - b) := by ring
    rw [this]
    refine (abs_add_le _ _).trans ?_
    rw [abs_mul, abs_mul]
    have i1 := mul_le_mul h2 h3 (abs_nonneg _) (by norm_num)
    have i2 := mul_le_mul h1 h4 (abs_nonneg _) (by norm_num)
    refine (add_le_add i1 i2).trans ?_
    norm_num
  have p1 := prod ha ha' hB hb'
  have p2 := prod hc hc' hD hd'
  have : floatPair k a' b' c' d' - (a * b + c * d) = (floatPair k a' b' c' d' - (a' * b' + c' * d')) +
      ((a' * b' - a * b) + (c' * d' - c * d)) := by ring
  rw [this]
  refine (abs_add_le _ _).trans ((add_le_add h0 ((abs_add_le _ _).trans (add_le_add p1 p2))).trans ?_)
  norm_num

/-! ### Neighbours -/

/-- As `pristine_bonded`, with more leeway. -/
theorem loose_bonded (knn : FloatKnn) {ps : List (V2 ℝ)} {si : V2 ℝ} {nbrs : List (V2 ℝ)} (hps : ps.Nodup) (hmem : si ∈ ps)
    (h3 : nbrs.length = 3) (hnbrs : nbrs.Nodup)
    (hbonds : ∀ p ∈ nbrs, p ∈ ps ∧ 1 ≤ Spec.dist si p ∧ Spec.dist si p ≤ 3 / 2)
    (hfar : ∀ p ∈ ps, p ≠ si → p ∉ nbrs → 23 / 10 ≤ Spec.dist si p) (hbox : ∀ p ∈ ps, Near16 p) :
    ∃ idx R, knn.kneighbors ps si 4 = .ok idx ∧ takeRows ps (idx.drop 1) = .ok R ∧ R.Perm nbrs := by
  have hother : si ∉ nbrs := by
    intro h
    have := (hbonds si h).2.1
    rw [dist_self'] at this
    norm_num at this
  have hnd : (si :: nbrs).Nodup := List.nodup_cons.2 ⟨hother, hnbrs⟩
  have hsub : ∀ x ∈ si :: nbrs, x ∈ ps := by
    intro x hx
    rcases List.mem_cons.1 hx with rfl | hx
    · exact hmem
    · exact (hbonds x hx).1
  have h4 : 4 ≤ ps.length := by
    have := (hnd.subperm hsub).length_le
    rw [List.length_cons, h3] at this
    exact this
  have hk : knn.kneighbors ps si 4 = .ok (knn.query ps si 4) := by
    unfold FloatKnn.kneighbors
    rw [if_pos h4]
  obtain ⟨R, hR, hl, hRn, hRs, hRp, hRf, _⟩ := knn_rows hps (knn.spec ps si 4 h4 hbox (hbox si hmem))
  have d0 : V2.distSq si si = 0 := by rw [distSq_of_dist, dist_self']; norm_num
  have dist1 : ∀ p ∈ ps, p ≠ si → 1 ≤ Spec.dist si p := by
    intro p hp hne
    by_cases h : p ∈ nbrs
    · exact (hbonds p h).2.1
    · linarith [hfar p hp hne h]
  have hone : (R.take 1).Perm [si] := rows_prefix (xs := [si]) hRn hRs hRp hRf (by simp) (by simpa using hmem)
    (by rw [hl]; simp) (by
      intro x hx p hp hne
      rw [List.mem_singleton] at hx
      subst hx
      have h1 := dist1 p hp (by simpa using hne)
      rw [d0, distSq_of_dist]
      nlinarith)
  have hall : (R.take 4).Perm (si :: nbrs) := by
    have := rows_prefix (xs := si :: nbrs) hRn hRs hRp hRf hnd hsub (by rw [hl, List.length_cons, h3]) (by
      intro x hx p hp hne
      simp only [List.mem_cons, not_or] at hne
      have hp2 := hfar p hp hne.1 hne.2
      have hx2 : Spec.dist si x ≤ 3 / 2 := by
        rcases List.mem_cons.1 hx with rfl | hx
        · rw [dist_self']; norm_num
        · exact (hbonds x hx).2.2
      rw [distSq_of_dist, distSq_of_dist]
      have := dist_nonneg' si x
      nlinarith)
    rwa [List.length_cons, h3] at this
  obtain ⟨a, R', rfl⟩ : ∃ a R', R = a :: R' := by
    cases R with
    | nil => simp at hl
    | cons a R' => exact ⟨a, R', rfl⟩
  have ha : a = si := by simpa using hone
  subst ha
  rw [List.take_of_length_le (by rw [hl])] at hall
  exact ⟨_, R', hk, takeRows_tail hR, List.Perm.cons_inv hall⟩

/-! ### Features -/

/-- The place at which an atom is shown, in Ångströms. -/
noncomputable def shownAt (f : Fov ℝ) (p : V2 ℝ) : V2 ℝ := f.floatToMaterial (f.floatToMicroscope p)

theorem shownAt_err {f : Fov ℝ} (hf : SoundView f) (hc : CornersWithin 60020 f) {p : V2 ℝ}
    (hp : Inside f.lowerLeft f.upperRight p) :
    |(shownAt f p).x - p.x| ≤ 1 / 10 ^ 9 ∧ |(shownAt f p).y - p.y| ≤ 1 / 10 ^ 9 := by
  obtain ⟨h4, h5⟩ := C139_round_trip f hf.rect 60020 (by
    have : (2 : ℝ) ^ (-900 : ℤ) ≤ 2 ^ (0 : ℤ) := zpow_le_zpow_right₀ (by norm_num) (by norm_num)
    rw [zpow_zero] at this
    linarith) hc p hp
  exact ⟨h4.trans (by norm_num), h5.trans (by norm_num)⟩

theorem shownAt_dist {f : Fov ℝ} (hf : SoundView f) (hc : CornersWithin 60020 f) {p : V2 ℝ}
    (hp : Inside f.lowerLeft f.upperRight p) : Spec.dist p (shownAt f p) ≤ 1 / 10 ^ 8 := by
  obtain ⟨h1, h2⟩ := shownAt_err hf hc hp
  exact (dist_le_abs _ _).trans ((add_le_add h1 h2).trans (by norm_num))

theorem shownAt_near16 {f : Fov ℝ} (hf : SoundView f) (hc : CornersWithin 60020 f) {p : V2 ℝ}
    (hp : Inside f.lowerLeft f.upperRight p) : Near16 (shownAt f p) := by
  obtain ⟨h1, h2⟩ := shownAt_err hf hc hp
  obtain ⟨⟨c1, c2⟩, c3, c4⟩ := hc
  obtain ⟨i1, i2⟩ := hp
  unfold Near16
  simp only [abs_le] at *
  norm_num at *
  refine ⟨⟨?_, ?_⟩, ?_, ?_⟩ <;>
    linarith [h1.1, h1.2, h2.1, h2.2, c1.1, c1.2, c2.1, c2.2, c3.1, c3.2, c4.1, c4.2, i1.1, i1.2, i2.1, i2.2]

theorem sheet_apart {n : ℕ} {offset : V2 ℝ} {angle : ℝ} {qs : List (V2 ℝ)}
    (hD : Displaced (1 / 1000) (layOutSheet n offset angle) qs) {a b : V2 ℝ} (ha : a ∈ qs) (hb : b ∈ qs) (hne : a ≠ b) :
    9 / 10 ≤ Spec.dist a b := by
  obtain ⟨i, hi⟩ := List.mem_iff_getElem?.1 ha
  obtain ⟨j, hj⟩ := List.mem_iff_getElem?.1 hb
  have hij : i ≠ j := by
    rintro rfl
    rw [hi] at hj
    exact hne (Option.some.inj hj)
  have h1 := displaced_apart n offset angle (displaced_mono (by norm_num) hD) hi hj hij
  norm_num at h1
  linarith

/-- What the features are made of: the atoms in view, as they are shown. -/
theorem shown_grid {n : ℕ} {offset : V2 ℝ} {angle : ℝ} {s : Sim ℝ G O P} {sheet : Grid ℝ} {o : Observation ℝ Img}
    (h : Viewing s sheet o) (hD : Displaced (1 / 1000) (layOutSheet n offset angle) sheet.positions)
    (hnd : sheet.positions.Nodup) {si : V2 ℝ} (hsi : silicons sheet = [si]) :
    (o.fov.floatGridToMaterial o.grid).positions = (sheet.positions.filter
      (fun p => decide (Inside o.fov.lowerLeft o.fov.upperRight p))).map (shownAt o.fov) ∧
    (o.fov.floatGridToMaterial o.grid).positions.Nodup ∧
    (∀ p ∈ (o.fov.floatGridToMaterial o.grid).positions, Near16 p) ∧
    getSingleSiliconPosition (o.fov.floatGridToMaterial o.grid) = .ok (shownAt o.fov si) ∧
    getSiliconPositions o.grid = [o.fov.floatToMicroscope si] := by
  have hv := h.ready.sound
  have hc := sound_corners h.ready
  obtain ⟨_, hs, _⟩ := h.safe si hsi
  have e1 : (o.fov.floatGridToMaterial o.grid).positions = (sheet.positions.filter
      (fun p => decide (Inside o.fov.lowerLeft o.fov.upperRight p))).map (shownAt o.fov) := by
    unfold Fov.floatGridToMaterial
    dsimp only
    rw [viewing_positions h, List.map_map]
    rfl
  refine ⟨e1, ?_, ?_, ?_, ?_⟩
  · rw [e1]
    refine List.Nodup.map_on ?_ (hnd.filter _)
    intro x hx y hy he
    obtain ⟨x1, x2⟩ := List.mem_filter.1 hx
    obtain ⟨y1, y2⟩ := List.mem_filter.1 hy
    by_contra hne
    have h1 := sheet_apart hD x1 y1 hne
    have h2 := shownAt_dist hv hc (of_decide_eq_true x2)
    have h3 := shownAt_dist hv hc (of_decide_eq_true y2)
    rw [dist_comm', ← he] at h3
    have := h1.trans ((dist_tri x (shownAt o.fov x) y).trans (add_le_add h2 h3))
    norm_num at this
  · intro p hp
    rw [e1] at hp
    obtain ⟨x, hx, rfl⟩ := List.mem_map.1 hp
    exact shownAt_near16 hv hc (of_decide_eq_true (List.mem_filter.1 hx).2)
  · apply getSingleSiliconPosition_of_singleton
    have hw : (o.fov.floatGridToMaterial o.grid).WF := by
      have := h.wf
      unfold Grid.WF Fov.floatGridToMaterial at *
      simpa using this
    rw [getSiliconPositions_eq_silicons hw]
    have : silicons (o.fov.floatGridToMaterial o.grid) = (silicons o.grid).map o.fov.floatToMaterial := by
      unfold silicons atoms Fov.floatGridToMaterial
      dsimp only
      rw [List.zip_map_left, List.filter_map, List.map_map, List.map_map]
      rfl
    rw [this, hs]
    rfl
  · rw [getSiliconPositions_eq_silicons h.wf]
    exact hs

/-- The features can be computed wherever the silicon is. -/
theorem features_defined (knn : FloatKnn) {n : ℕ} (hn : 5 ≤ n) {offset : V2 ℝ} {angle : ℝ} {s : Sim ℝ G O P} {sheet : Grid ℝ}
    {o : Observation ℝ Img} (h : Viewing s sheet o)
    (hD : Displaced (1 / 1000) (layOutSheet n offset angle) sheet.positions) (hnd : sheet.positions.Nodup)
    (goal : GoalState ℝ) :
    ∃ obs, floatMaterialFeatures knn o (.singleSilicon goal) = .ok obs ∧ obs.length = 10 := by
  obtain ⟨si, hsi, _, hmem⟩ := doped_silicon h.ready.doped
  obtain ⟨e1, e2, e3, e4, e5⟩ := shown_grid h hD hnd hsi
  obtain ⟨r4, _, _⟩ := viewing_regular hn h hD hnd
  obtain ⟨hin, _, _⟩ := h.safe si hsi
  have hm : shownAt o.fov si ∈ (o.fov.floatGridToMaterial o.grid).positions := by
    rw [e1]
    exact List.mem_map_of_mem (List.mem_filter.2 ⟨hmem, by simpa using hin⟩)
  obtain ⟨idx, R, k1, k2, k3, _⟩ := pristine_rows knn (ps := (o.fov.floatGridToMaterial o.grid).positions) (by
    unfold Fov.floatGridToMaterial
    simpa using r4) e3 hm
  obtain ⟨a, b, c, rfl⟩ := List.length_eq_three.1 k3
  unfold floatMaterialFeatures floatGoalDelta
  simp only [e4, e5, k1, k2]
  exact ⟨_, rfl, by simp [flatten2]⟩

theorem perm_of_map {α β : Type} {f : α → β} {R : List β} {l : List α} (h : R.Perm (l.map f)) :
    ∃ R' : List α, R'.Perm l ∧ R = R'.map f := by
  have h2 : List.Forall₂ (fun b a => b = f a) (l.map f) l := by
    rw [List.forall₂_map_left_iff]
    exact List.forall₂_same.2 (fun _ _ => rfl)
  obtain ⟨R', h3, h4⟩ := List.perm_comp_forall₂ h h2
  refine ⟨R', h4, ?_⟩
  clear h h2 h4
  induction h3 with
  | nil => rfl
  | cons h _ ih => rw [h, List.map_cons, ← ih]

/-- What the features are in the midst of the sheet. -/
theorem features_tell (knn : FloatKnn) {n : ℕ} {offset : V2 ℝ} {angle : ℝ} {s : Sim ℝ G O P} {sheet : Grid ℝ}
    {o : Observation ℝ Img} (h : Viewing s sheet o)
    (hD : Displaced (1 / 1000) (layOutSheet n offset angle) sheet.positions) {goal : GoalState ℝ} {b : V2 ℝ}
    (hb : GoalOn sheet goal.goal b) {si : V2 ℝ} (hsi : silicons sheet = [si]) {nbrs : List (V2 ℝ)}
    (hbond : BondedTo sheet.positions si nbrs) :
    ∃ obs, floatMaterialFeatures knn o (.singleSilicon goal) = .ok obs ∧ TellsNeighbours obs si nbrs b := by
  obtain ⟨e1, e2, e3, e4, e5⟩ := shown_grid h hD hbond.distinct hsi
  obtain ⟨hin, _, hsafe⟩ := h.safe si hsi
  have hv := h.ready.sound
  have hc := sound_corners h.ready
  have inside : ∀ p ∈ nbrs, Inside o.fov.lowerLeft o.fov.upperRight p := by
    intro p hp
    have hd := (hbond.bonds p hp).2
    rw [abs_le] at hd
    have hd2 : Spec.dist si p ≤ 374 / 100 := by linarith [hd.2]
    refine safe_margin hv hin hsafe p ?_ ?_
    · rw [abs_sub_comm]; exact (abs_x_le_dist si p).trans hd2
    · rw [abs_sub_comm]; exact (abs_y_le_dist si p).trans hd2
  have memps : ∀ p ∈ sheet.positions, Inside o.fov.lowerLeft o.fov.upperRight p →
      shownAt o.fov p ∈ (o.fov.floatGridToMaterial o.grid).positions := by
    intro p hp hpi
    rw [e1]
    exact List.mem_map_of_mem (List.mem_filter.2 ⟨hp, by simpa using hpi⟩)
  have shift : ∀ p, Inside o.fov.lowerLeft o.fov.upperRight p →
      |Spec.dist (shownAt o.fov si) (shownAt o.fov p) - Spec.dist si p| ≤ 2 / 10 ^ 8 := by
    intro p hp
    have h1 := shownAt_dist hv hc hin
    have h2 := shownAt_dist hv hc hp
    have t1 := dist_tri (shownAt o.fov si) si (shownAt o.fov p)
    have t2 := dist_tri si p (shownAt o.fov p)
    have t3 := dist_tri si (shownAt o.fov si) p
    have t4 := dist_tri (shownAt o.fov si) (shownAt o.fov p) p
    rw [dist_comm' (shownAt o.fov si) si] at t1
    rw [dist_comm' (shownAt o.fov p) p] at t4
    rw [abs_le]
    norm_num at h1 h2 ⊢
    constructor <;> linarith
  have inj : ∀ x ∈ sheet.positions, ∀ y ∈ sheet.positions, Inside o.fov.lowerLeft o.fov.upperRight x →
      Inside o.fov.lowerLeft o.fov.upperRight y → shownAt o.fov x = shownAt o.fov y → x = y := by
    intro x hx y hy ix iy he
    by_contra hne
    have h1 := sheet_apart hD hx hy hne
    have h2 := shownAt_dist hv hc ix
    have h3 := shownAt_dist hv hc iy
    rw [dist_comm', ← he] at h3
    have := h1.trans ((dist_tri x (shownAt o.fov x) y).trans (add_le_add h2 h3))
    norm_num at this
  obtain ⟨idx, R, k1, k2, k3⟩ := loose_bonded knn (nbrs := nbrs.map (shownAt o.fov)) e2 (memps si hbond.mem hin)
    (by rw [List.length_map]; exact hbond.three)
    (List.Nodup.map_on (fun x hx y hy he => inj x (hbond.bonds x hx).1 y (hbond.bonds y hy).1 (inside x hx) (inside y hy) he)
      hbond.nodup)
    (by
      intro q hq
      obtain ⟨p, hp, rfl⟩ := List.mem_map.1 hq
      have h1 := shift p (inside p hp)
      have h2 := (hbond.bonds p hp).2
      rw [abs_le] at h1 h2
      norm_num at h1 h2
      refine ⟨memps p (hbond.bonds p hp).1 (inside p hp), ?_, ?_⟩ <;> linarith [h1.1, h1.2, h2.1, h2.2])
    (by
      intro q hq hne hnot
      rw [e1] at hq
      obtain ⟨p, hp, rfl⟩ := List.mem_map.1 hq
      obtain ⟨p1, p2⟩ := List.mem_filter.1 hp
      have p3 := of_decide_eq_true p2
      have h1 := shift p p3
      have h2 := hbond.far p p1 (fun e => hne (by rw [e])) (fun hm => hnot (List.mem_map_of_mem hm))
      rw [abs_le] at h1
      norm_num at h1
      linarith [h1.1, h1.2])
    e3
  obtain ⟨R', hR', rfl⟩ := perm_of_map k3
  obtain ⟨p₁, p₂, p₃, rfl⟩ := List.length_eq_three.1 (hR'.length_eq.trans hbond.three)
  have hnb : ∀ p ∈ [p₁, p₂, p₃], p ∈ nbrs := fun p hp => hR'.mem_iff.1 hp
  obtain ⟨s1, s2⟩ := shownAt_err hv hc hin
  unfold floatMaterialFeatures floatGoalDelta
  simp only [e4, e5, k1, k2]
  refine ⟨_, rfl, _, _, _, _, _, _, _, _, _, _, p₁, p₂, p₃, rfl, hR', ?_, ?_, ?_⟩
  · exact single_place (by
      obtain ⟨⟨c1, _⟩, c3, _⟩ := hc
      rw [abs_le] at *
      constructor <;> linarith [c1.1, c1.2, c3.1, c3.2, hin.1.1, hin.1.2]) s1
  · exact single_place (by
      obtain ⟨⟨_, c1⟩, _, c3⟩ := hc
      rw [abs_le] at *
      constructor <;> linarith [c1.1, c1.2, c3.1, c3.2, hin.2.1, hin.2.2]) s2
  · have nb : ∀ p ∈ nbrs, |f32 (f64 ((shownAt o.fov p).x - (shownAt o.fov si).x)) - (p.x - si.x)| ≤
          (1 + Spec.dist si p) / 10 ^ 7 ∧
        |f32 (f64 ((shownAt o.fov p).y - (shownAt o.fov si).y)) - (p.y - si.y)| ≤ (1 + Spec.dist si p) / 10 ^ 7 := by
      intro p hp
      obtain ⟨q1, q2⟩ := shownAt_err hv hc (inside p hp)
      have a1 := abs_x_le_dist si p
      have a2 := abs_y_le_dist si p
      rw [abs_sub_comm] at a1 a2
      refine ⟨(delta_single q1 s1).trans ?_, (delta_single q2 s2).trans ?_⟩ <;> gcongr
    have gl : |f32 (f64 (goal.goal.x - (shownAt o.fov si).x)) - (b.x - si.x)| ≤ (1 + Spec.dist si b) / 10 ^ 7 ∧
        |f32 (f64 (goal.goal.y - (shownAt o.fov si).y)) - (b.y - si.y)| ≤ (1 + Spec.dist si b) / 10 ^ 7 := by
      have g0 := hb.near
      have g1 := (abs_x_le_dist goal.goal b).trans g0
      have g2 := (abs_y_le_dist goal.goal b).trans g0
      have a1 := abs_x_le_dist si b
      have a2 := abs_y_le_dist si b
      rw [abs_sub_comm] at a1 a2
      refine ⟨(delta_single g1 s1).trans ?_, (delta_single g2 s2).trans ?_⟩ <;> gcongr
    intro d hd
    simp only [List.mem_cons, List.not_mem_nil, or_false] at hd
    rcases hd with rfl | rfl | rfl | rfl
    · exact nb p₁ (hnb p₁ (by simp))
    · exact nb p₂ (hnb p₂ (by simp))
    · exact nb p₃ (hnb p₃ (by simp))
    · exact gl

end PD.Props
