/- C140: goals and the ends of episodes with floating point numbers. -/
import Verif.Model.FloatGoals
import Verif.Props.FloatFrames
import Verif.Props.Displaced

set_option linter.unusedSectionVars false
set_option linter.unusedSimpArgs false

namespace PD.Props
open PD PD.Spec

/-- A rough bound on the error of rounding. -/
theorem f64_rough (x : ℝ) : |f64 x - x| ≤ |x| / 1000 + 1 / 1000000 := by
  have h := abs_f64_sub_le x
  have h1 : |x| * (2 : ℝ) ^ (-53 : ℤ) ≤ |x| * (1 / 1000) := mul_le_mul_of_nonneg_left (by norm_num) (abs_nonneg x)
  have h2 : (2 : ℝ) ^ (-1075 : ℤ) ≤ 1 / 1000000 :=
    (zpow_le_zpow_right₀ (by norm_num) (show (-1075 : ℤ) ≤ -20 by norm_num)).trans (by norm_num)
  generalize (2 : ℝ) ^ (-1075 : ℤ) = θ at h h2
  generalize |x| * (2 : ℝ) ^ (-53 : ℤ) = a at h h1
  linarith

theorem f64_rough' {x : ℝ} (hx : 0 ≤ x) :
    999 / 1000 * x - 1 / 1000000 ≤ f64 x ∧ f64 x ≤ 1001 / 1000 * x + 1 / 1000000 := by
  have h := f64_rough x
  rw [abs_of_nonneg hx, abs_le] at h
  constructor <;> linarith [h.1, h.2]

theorem floatDot_rough (k : DotKind) (v : V2 ℝ) :
    99 / 100 * (v.x ^ 2 + v.y ^ 2) - 1 / 100000 ≤ floatDot k v ∧
      floatDot k v ≤ 101 / 100 * (v.x ^ 2 + v.y ^ 2) + 1 / 100000 := by
  have hx : 0 ≤ v.x * v.x := mul_self_nonneg _
  have hy : 0 ≤ v.y * v.y := mul_self_nonneg _
  have fx := f64_rough' hx
  have fy := f64_rough' hy
  have px := f64_nonneg hx
  have py := f64_nonneg hy
  rw [sq, sq]
  cases k
  · have := f64_rough' (add_nonneg px py)
    simp only [floatDot]
    constructor <;> linarith [this.1, this.2, fx.1, fx.2, fy.1, fy.2]
  · have := f64_rough' (add_nonneg hx py)
    simp only [floatDot]
    constructor <;> linarith [this.1, this.2, fx.1, fx.2, fy.1, fy.2]
  · have := f64_rough' (add_nonneg px hy)
    simp only [floatDot]
    constructor <;> linarith [this.1, this.2, fx.1, fx.2, fy.1, fy.2]

/-- The computed length of a vector is right up to two percent. -/
theorem floatNorm_rough (k : DotKind) {v : V2 ℝ} {r : ℝ} (hr : 0 ≤ r) :
    (Spec.dist ⟨0, 0⟩ v ≤ r → floatNorm k v ≤ 102 / 100 * r + 1 / 100) ∧
    (r ≤ Spec.dist ⟨0, 0⟩ v → 98 / 100 * r - 1 / 100 ≤ floatNorm k v) := by
  have hD : Spec.dist ⟨0, 0⟩ v = Real.sqrt (v.x ^ 2 + v.y ^ 2) := by
    unfold Spec.dist
    congr 1
    ring
  have hn : 0 ≤ v.x ^ 2 + v.y ^ 2 := by positivity
  obtain ⟨d1, d2⟩ := floatDot_rough k v
  have hf := f64_rough' (Real.sqrt_nonneg (floatDot k v))
  rw [hD]
  unfold floatNorm
  constructor
  · intro h
    have h2 : v.x ^ 2 + v.y ^ 2 ≤ r ^ 2 := (Real.sqrt_le_left hr).1 h
    have : Real.sqrt (floatDot k v) ≤ 101 / 100 * r + 5 / 1000 := by
      rw [Real.sqrt_le_left (by positivity)]
      nlinarith
    linarith [hf.2]
  · intro h
    by_cases hs : 99 / 100 * r - 5 / 1000 ≤ 0
    · have := f64_nonneg (Real.sqrt_nonneg (floatDot k v))
      linarith
    · push Not at hs
      have h2 : r ^ 2 ≤ v.x ^ 2 + v.y ^ 2 := (Real.le_sqrt hr hn).1 h
      have : 99 / 100 * r - 5 / 1000 ≤ Real.sqrt (floatDot k v) := by
        apply Real.le_sqrt_of_sq_le
        nlinarith
      linarith [hf.1]

/-- Two vectors whose coordinates are close have nearly the same length. -/
theorem len_close {v w : V2 ℝ} {ε : ℝ} (hx : |v.x - w.x| ≤ ε) (hy : |v.y - w.y| ≤ ε) :
    |Spec.dist ⟨0, 0⟩ v - Spec.dist ⟨0, 0⟩ w| ≤ 2 * ε := by
  have he : 0 ≤ ε := (abs_nonneg _).trans hx
  have hd : Spec.dist v w ≤ 2 * ε := by
    unfold Spec.dist
    rw [Real.sqrt_le_left (by linarith)]
    have e1 := sq_le_sq' (by linarith [(abs_le.1 hx).1]) (abs_le.1 hx).2
    have e2 := sq_le_sq' (by linarith [(abs_le.1 hy).1]) (abs_le.1 hy).2
    nlinarith [e1, e2]
  have h1 := dist_tri ⟨0, 0⟩ v w
  have h2 := dist_tri ⟨0, 0⟩ w v
  rw [dist_comm' w v] at h2
  rw [abs_le]
  constructor <;> linarith

/-- Coordinates up to 2⁴⁰ Å (11 m), with errors below a hundredth of an Ångström. -/
theorem trip_coarse {f : Fov ℝ} (hf : FloatRect f) (hc : CornersWithin (2 ^ 40) f) {p : V2 ℝ}
    (hp : Inside f.lowerLeft f.upperRight p) :
    |(f.floatToMaterial (f.floatToMicroscope p)).x - p.x| ≤ 1 / 1000 ∧
    |(f.floatToMaterial (f.floatToMicroscope p)).y - p.y| ≤ 1 / 1000 := by
  have h := C139_round_trip f hf (2 ^ 40) ((zpow_le_zpow_right₀ (by norm_num) (show (-900 : ℤ) ≤ 0 by norm_num)).trans
    (by norm_num)) hc p hp
  have e : (2 : ℝ) ^ 40 * 2 ^ (-50 : ℤ) ≤ 1 / 1000 := by norm_num
  exact ⟨h.1.trans e, h.2.trans e⟩

theorem inside_size {f : Fov ℝ} (hc : CornersWithin (2 ^ 40) f) {p : V2 ℝ}
    (hp : Inside f.lowerLeft f.upperRight p) : |p.x| ≤ 2 ^ 40 ∧ |p.y| ≤ 2 ^ 40 := by
  obtain ⟨⟨a, b⟩, c, d⟩ := hc
  obtain ⟨⟨h1, h2⟩, h3, h4⟩ := hp
  rw [abs_le] at a b c d ⊢
  refine ⟨⟨by linarith [a.1], by linarith [c.2]⟩, ?_⟩
  rw [abs_le]
  exact ⟨by linarith [b.1], by linarith [d.2]⟩

/-- Atoms of a sheet that are displaced by at most a quarter of an Ångström are still 0.92 Å apart. -/
theorem displaced_apart (n : ℕ) (offset : V2 ℝ) (angle : ℝ) {qs : List (V2 ℝ)}
    (hd : Displaced (1 / 4) (layOutSheet n offset angle) qs) {i j : ℕ} {a b : V2 ℝ} (hi : qs[i]? = some a)
    (hj : qs[j]? = some b) (hij : i ≠ j) : 92 / 100 ≤ Spec.dist a b := by
  obtain ⟨p, hp, hpa⟩ := displaced_get hd i hi
  obtain ⟨r, hr, hrb⟩ := displaced_get hd j hj
  have hne : p ≠ r := by
    rintro rfl
    obtain ⟨l1, e1⟩ := List.getElem?_eq_some_iff.1 hp
    obtain ⟨l2, e2⟩ := List.getElem?_eq_some_iff.1 hr
    exact hij ((List.Nodup.getElem_inj_iff (C40_honeycomb n offset angle).1).1 (e1.trans e2.symm))
  have h1 := C40_min_distance n offset angle p r (List.mem_of_getElem? hp) (List.mem_of_getElem? hr) hne
  have h2 := abs_le.1 (displaced_dist hpa hrb)
  linarith [h2.1]

theorem dist_zero_sub (a b : V2 ℝ) : Spec.dist ⟨0, 0⟩ ⟨a.x - b.x, a.y - b.y⟩ = Spec.dist a b := by
  unfold Spec.dist
  congr 1
  ring

/-! ### C140 episodes end where they should -/

/-- The goal is the place of an atom as it was seen in the field of view `f₀`, the silicon is seen in `f`.  Computed
with floating point numbers, in whatever way the squares are added, the silicon is at the goal exactly if it is that
atom. -/
theorem C140_ends (n : ℕ) (offset : V2 ℝ) (angle : ℝ) {qs : List (V2 ℝ)}
    (hd : Displaced (1 / 4) (layOutSheet n offset angle) qs) {i j : ℕ} {a b : V2 ℝ} (hi : qs[i]? = some a)
    (hj : qs[j]? = some b) (f₀ f : Fov ℝ) (hf₀ : FloatRect f₀) (hf : FloatRect f) (hc₀ : CornersWithin (2 ^ 40) f₀)
    (hc : CornersWithin (2 ^ 40) f) (ha : Inside f.lowerLeft f.upperRight a)
    (hb : Inside f₀.lowerLeft f₀.upperRight b) (k : DotKind) :
    floatAtGoal k f (f.floatToMicroscope a) (f₀.floatToMaterial (f₀.floatToMicroscope b)) = true ↔ i = j := by
  have ta := trip_coarse hf hc ha
  have tb := trip_coarse hf₀ hc₀ hb
  have sa := inside_size hc ha
  have sb := inside_size hc₀ hb
  have hrad := f64_rough' (show (0 : ℝ) ≤ f64 (142 / 100) * f64 (1 / 2) from
    mul_nonneg (f64_nonneg (by norm_num)) (f64_nonneg (by norm_num)))
  have r1 := f64_rough' (show (0 : ℝ) ≤ 142 / 100 by norm_num)
  have r2 := f64_rough' (show (0 : ℝ) ≤ 1 / 2 by norm_num)
  set R := f64 (f64 (142 / 100 : ℝ) * f64 (1 / 2)) with hR
  have hRlo : 70 / 100 ≤ R := by
    have := mul_le_mul r1.1 r2.1 (by norm_num) (f64_nonneg (by norm_num))
    norm_num at this
    linarith [hrad.1]
  have hRhi : R ≤ 72 / 100 := by
    have := mul_le_mul r1.2 r2.2 (f64_nonneg (by norm_num)) (by norm_num)
    norm_num at this
    linarith [hrad.2]
  have key : ∀ x y p q : ℝ, |x - p| ≤ 1 / 1000 → |y - q| ≤ 1 / 1000 → |p| ≤ 2 ^ 40 → |q| ≤ 2 ^ 40 →
      |f64 (x - y) - (p - q)| ≤ 1 / 100 := by
    intro x y p q h1 h2 h3 h4
    have h := abs_f64_sub_le (x - y)
    rw [abs_le] at h1 h2 h3 h4
    have hs : |x - y| ≤ 2 ^ 42 := by
      rw [abs_le]
      constructor <;> norm_num at * <;> linarith
    have h5 : |x - y| * (2 : ℝ) ^ (-53 : ℤ) ≤ 2 ^ 42 * 2 ^ (-53 : ℤ) := mul_le_mul_of_nonneg_right hs (by positivity)
    have h6 : (2 : ℝ) ^ 42 * 2 ^ (-53 : ℤ) ≤ 1 / 1000 := by norm_num
    have h7 : (2 : ℝ) ^ (-1075 : ℤ) ≤ 1 / 1000 :=
      (zpow_le_zpow_right₀ (by norm_num) (show (-1075 : ℤ) ≤ -20 by norm_num)).trans (by norm_num)
    have h8 := h.trans (add_le_add (h5.trans h6) h7)
    rw [abs_le] at h8 ⊢
    constructor <;> linarith [h8.1, h8.2, h1.1, h1.2, h2.1, h2.2]
  have hx := key _ _ _ _ ta.1 tb.1 sa.1 sb.1
  have hy := key _ _ _ _ ta.2 tb.2 sa.2 sb.2
  obtain ⟨v, hv⟩ : ∃ v : V2 ℝ, v = ⟨f64 ((f.floatToMaterial (f.floatToMicroscope a)).x -
      (f₀.floatToMaterial (f₀.floatToMicroscope b)).x), f64 ((f.floatToMaterial (f.floatToMicroscope a)).y -
      (f₀.floatToMaterial (f₀.floatToMicroscope b)).y)⟩ := ⟨_, rfl⟩
  have hl := len_close (v := v) (w := ⟨a.x - b.x, a.y - b.y⟩) (ε := 1 / 100) (by rw [hv]; exact hx) (by rw [hv]; exact hy)
  rw [dist_zero_sub, abs_le] at hl
  unfold floatAtGoal
  simp only [decide_eq_true_eq, ← hR, ← hv]
  constructor
  · intro h
    by_contra hij
    have h1 := displaced_apart n offset angle hd hi hj hij
    have h2 := (floatNorm_rough k (v := v) (r := 9 / 10) (by norm_num)).2 (by linarith [hl.1])
    linarith
  · rintro rfl
    rw [hi] at hj
    cases hj
    rw [dist_self'] at hl
    have h2 := (floatNorm_rough k (v := v) (r := 2 / 100) (by norm_num)).1 (by linarith [hl.2])
    linarith

/-- The computed distance along one axis, from normalised coordinates. -/
theorem range_err {lo hi p q : ℝ} (hlo : |lo| ≤ 2 ^ 40) (hhi : |hi| ≤ 2 ^ 40) (hs : 0 < f64 (hi - lo))
    (hp : lo ≤ p ∧ p ≤ hi) (hq : lo ≤ q ∧ q ≤ hi) :
    |f64 (f64 (hi - lo) * f64 (floatNormalise lo hi p - floatNormalise lo hi q)) - (p - q)| ≤ 1 / 100 := by
  have hθ : (2 : ℝ) ^ (-1075 : ℤ) ≤ 2 ^ (-70 : ℤ) := zpow_le_zpow_right₀ (by norm_num) (by norm_num)
  have big : ∀ x : ℝ, |x| ≤ 2 ^ 42 → |f64 x - x| ≤ 1 / 2000 := by
    intro x hx
    have h := abs_f64_sub_le x
    have h5 : |x| * (2 : ℝ) ^ (-53 : ℤ) ≤ 2 ^ 42 * 2 ^ (-53 : ℤ) := mul_le_mul_of_nonneg_right hx (by positivity)
    refine h.trans ((add_le_add h5 hθ).trans ?_)
    norm_num
  have small : ∀ x : ℝ, |x| ≤ 1 → |f64 x - x| ≤ 2 ^ (-52 : ℤ) := by
    intro x hx
    have h := abs_f64_sub_le x
    have h5 : |x| * (2 : ℝ) ^ (-53 : ℤ) ≤ 1 * 2 ^ (-53 : ℤ) := mul_le_mul_of_nonneg_right hx (by positivity)
    refine h.trans ((add_le_add h5 hθ).trans ?_)
    norm_num
  rw [abs_le] at hlo hhi
  have hw : |hi - lo| ≤ 2 ^ 41 := by
    rw [abs_le]
    constructor <;> norm_num at * <;> linarith
  have es := big (hi - lo) (hw.trans (by norm_num))
  obtain ⟨s, hs'⟩ : ∃ s, s = f64 (hi - lo) := ⟨_, rfl⟩
  have hsb : s ≤ 2 ^ 42 := by
    rw [← hs'] at es
    rw [abs_le] at es hw
    norm_num at hw ⊢
    linarith [es.2, hw.2]
  have hss : s * 2 ^ (-52 : ℤ) ≤ 1 / 1000 := by
    have := mul_le_mul_of_nonneg_right hsb (show (0 : ℝ) ≤ 2 ^ (-52 : ℤ) by positivity)
    refine this.trans ?_
    norm_num
  have one : ∀ z : ℝ, lo ≤ z ∧ z ≤ hi → |floatNormalise lo hi z * s - (z - lo)| ≤ 2 / 1000 := by
    intro z hz
    have e1 := big (z - lo) (by
      rw [abs_of_nonneg (by linarith)]
      norm_num at *
      linarith)
    have d0 : 0 ≤ f64 (z - lo) := f64_nonneg (by linarith)
    have d1 : f64 (z - lo) ≤ f64 (hi - lo) := f64_mono (by linarith)
    have e2 := small (f64 (z - lo) / f64 (hi - lo)) (by
      rw [abs_of_nonneg (div_nonneg d0 hs.le)]
      exact (div_le_one hs).2 d1)
    unfold floatNormalise
    rw [← hs'] at e2 hs ⊢
    have e : f64 (f64 (z - lo) / s) * s - (z - lo) =
        (f64 (f64 (z - lo) / s) - f64 (z - lo) / s) * s + (f64 (z - lo) - (z - lo)) := by
      field_simp
      ring
    rw [e]
    refine (abs_add_le _ _).trans ?_
    rw [abs_mul, abs_of_pos hs]
    have := mul_le_mul_of_nonneg_right e2 hs.le
    rw [mul_comm ((2 : ℝ) ^ (-52 : ℤ)) s] at this
    linarith
  have up := floatNormalise_unit hs hp
  have uq := floatNormalise_unit hs hq
  have op := one p hp
  have oq := one q hq
  rw [← hs'] at hs ⊢
  generalize floatNormalise lo hi p = P at up op ⊢
  generalize floatNormalise lo hi q = Q at uq oq ⊢
  have hPQ : |P - Q| ≤ 1 := by
    rw [abs_le]
    constructor <;> linarith [up.1, up.2, uq.1, uq.2]
  have e3 := small (P - Q) hPQ
  have e4 : |s * f64 (P - Q) - (p - q)| ≤ 5 / 1000 := by
    have e : s * f64 (P - Q) - (p - q) =
        (f64 (P - Q) - (P - Q)) * s + ((P * s - (p - lo)) - (Q * s - (q - lo))) := by ring
    rw [e]
    refine (abs_add_le _ _).trans ?_
    rw [abs_mul, abs_of_pos hs]
    have h1 := mul_le_mul_of_nonneg_right e3 hs.le
    rw [mul_comm ((2 : ℝ) ^ (-52 : ℤ)) s] at h1
    have h2 := abs_sub (P * s - (p - lo)) (Q * s - (q - lo))
    have h3 := h1.trans hss
    linarith
  have e5 := big (s * f64 (P - Q)) (by
    have hpq : |p - q| ≤ 2 ^ 41 := by
      rw [abs_le]
      constructor <;> norm_num at * <;> linarith
    rw [abs_le] at e4 hpq ⊢
    constructor <;> norm_num at * <;> linarith [e4.1, e4.2])
  rw [abs_le] at e4 e5 ⊢
  constructor <;> linarith [e4.1, e4.2, e5.1, e5.2]

/-- When a goal is chosen, the silicon is not eligible, and every other atom in view is that is at most 48 Å away, and
none that is 52 Å away. -/
theorem C140_goals (n : ℕ) (offset : V2 ℝ) (angle : ℝ) {qs : List (V2 ℝ)}
    (hd : Displaced (1 / 4) (layOutSheet n offset angle) qs) {i j : ℕ} {a b : V2 ℝ} (hi : qs[i]? = some a)
    (hj : qs[j]? = some b) (f : Fov ℝ) (hf : FloatRect f) (hc : CornersWithin (2 ^ 40) f)
    (ha : Inside f.lowerLeft f.upperRight a) (hb : Inside f.lowerLeft f.upperRight b) :
    (i = j → floatValidGoal f (f.floatToMicroscope a) (f.floatToMicroscope b) = false) ∧
    (i ≠ j → Spec.dist a b ≤ 48 → floatValidGoal f (f.floatToMicroscope a) (f.floatToMicroscope b) = true) ∧
    (52 ≤ Spec.dist a b → floatValidGoal f (f.floatToMicroscope a) (f.floatToMicroscope b) = false) := by
  obtain ⟨px, py⟩ := hf.pos
  have hx := range_err hc.1.1 hc.2.1 px hb.1 ha.1
  have hy := range_err hc.1.2 hc.2.2 py hb.2 ha.2
  have r50 := f64_rough' (show (0 : ℝ) ≤ 50 by norm_num)
  have r01 := f64_rough' (show (0 : ℝ) ≤ 1 / 10 by norm_num)
  unfold floatValidGoal floatGoalRange
  obtain ⟨v, hv⟩ : ∃ v : V2 ℝ, v = ⟨f64 (f64 (f.upperRight.x - f.lowerLeft.x) *
      f64 ((f.floatToMicroscope b).x - (f.floatToMicroscope a).x)), f64 (f64 (f.upperRight.y - f.lowerLeft.y) *
      f64 ((f.floatToMicroscope b).y - (f.floatToMicroscope a).y))⟩ := ⟨_, rfl⟩
  rw [← hv]
  have hl := len_close (v := v) (w := ⟨b.x - a.x, b.y - a.y⟩) (ε := 1 / 100) (by rw [hv]; exact hx) (by rw [hv]; exact hy)
  rw [dist_zero_sub, dist_comm' b a, abs_le] at hl
  refine ⟨?_, ?_, ?_⟩
  · rintro rfl
    rw [hi] at hj
    cases hj
    rw [dist_self'] at hl
    have h2 := (floatNorm_rough .plain (v := v) (r := 2 / 100) (by norm_num)).1 (by linarith [hl.2])
    rw [Bool.and_eq_false_iff]
    right
    simp only [decide_eq_false_iff_not, not_lt]
    linarith [r01.1]
  · intro hij h48
    have h1 := displaced_apart n offset angle hd hi hj hij
    have h2 := (floatNorm_rough .plain (v := v) (r := 9 / 10) (by norm_num)).2 (by linarith [hl.1])
    have h3 := (floatNorm_rough .plain (v := v) (r := 4802 / 100) (by norm_num)).1 (by linarith [hl.2])
    simp only [Bool.and_eq_true, decide_eq_true_eq]
    exact ⟨by linarith [r50.1], by linarith [r01.2]⟩
  · intro h52
    have h2 := (floatNorm_rough .plain (v := v) (r := 5198 / 100) (by norm_num)).2 (by linarith [hl.1])
    rw [Bool.and_eq_false_iff]
    left
    simp only [decide_eq_false_iff_not, not_lt]
    linarith [r50.2]

/-- The case is met by a generated sheet of twelve columns and a field of view of 16 by 16 Å: it shows at least two
atoms. -/
example : ∃ (f : Fov ℝ) (i j : ℕ) (a b : V2 ℝ), FloatRect f ∧ CornersWithin (2 ^ 40) f ∧ i ≠ j ∧
    Displaced (1 / 4) (layOutSheet 12 ⟨0, 0⟩ 0) (layOutSheet 12 ⟨0, 0⟩ 0) ∧
    (layOutSheet 12 ⟨0, 0⟩ 0)[i]? = some a ∧ (layOutSheet 12 ⟨0, 0⟩ 0)[j]? = some b ∧
    Inside f.lowerLeft f.upperRight a ∧ Inside f.lowerLeft f.upperRight b := by
  have h8 : f64 (8 : ℝ) = 8 := by
    have := roundTo_of_mul (K := ℝ) 53 (-1022) 1 3 (by decide) (by norm_num) (by norm_num)
    norm_num at this
    exact this
  have h8' : f64 (-8 : ℝ) = -8 := by
    have := roundTo_of_mul (K := ℝ) 53 (-1022) (-1) 3 (by decide) (by norm_num) (by norm_num)
    norm_num at this
    exact this
  obtain ⟨p, hp, hd⟩ := atom_near_origin 12 le_rfl ⟨0, 0⟩ 0 (by norm_num) (by norm_num)
  obtain ⟨nbrs, hH⟩ := C123_disc 12 ⟨0, 0⟩ 0 (by norm_num) (by norm_num) p hp (by norm_num; linarith)
  obtain ⟨q, hq⟩ : ∃ q, q ∈ nbrs := by
    have := hH.three
    cases nbrs with
    | nil => simp at this
    | cons q _ => exact ⟨q, by simp⟩
  obtain ⟨hqm, hpq⟩ := hH.bonds q hq
  obtain ⟨i, hi⟩ := List.getElem?_of_mem hp
  obtain ⟨j, hj⟩ := List.getElem?_of_mem hqm
  have hqd : Spec.dist ⟨0, 0⟩ q ≤ 8 := by linarith [dist_tri ⟨0, 0⟩ p q]
  have hin : ∀ r : V2 ℝ, Spec.dist ⟨0, 0⟩ r ≤ 8 → Inside (⟨-8, -8⟩ : V2 ℝ) ⟨8, 8⟩ r := by
    intro r hr
    unfold Spec.dist at hr
    have := (Real.sqrt_le_left (by norm_num)).1 hr
    simp only at this
    refine ⟨⟨?_, ?_⟩, ?_, ?_⟩ <;> nlinarith [sq_nonneg r.x, sq_nonneg r.y]
  refine ⟨⟨⟨-8, -8⟩, ⟨8, 8⟩⟩, i, j, p, q, ⟨⟨h8', h8', h8, h8⟩, by norm_num, by norm_num⟩, ?_, ?_, ?_, hi, hj,
    hin p (by linarith), hin q hqd⟩
  · unfold CornersWithin
    norm_num
  · rintro rfl
    rw [hi] at hj
    cases hj
    exact hH.other hq
  · unfold Displaced
    rw [List.forall₂_same]
    intro r _
    rw [dist_self']
    norm_num

end PD.Props
