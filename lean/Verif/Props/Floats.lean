/- C136: what rounding does to the choice of a transition. -/
import Verif.Lemmas.Floats
import Verif.Props.Mixtures

set_option linter.unusedSectionVars false
set_option linter.unusedSimpArgs false

namespace PD.Props
open Spec
variable {K : Type} [Field K] [LinearOrder K] [IsStrictOrderedRing K] [FloorRing K]

theorem _root_.PD.Precision.round_err (q : Precision) (x : K) :
    |q.round x - x| ≤ |x| * 2 ^ (-24 : ℤ) + 2 ^ (-150 : ℤ) := by
  cases q
  · exact abs_f32_sub_le_all x
  · refine (abs_f64_sub_le x).trans ?_
    have h1 : (2 : K) ^ (-53 : ℤ) ≤ 2 ^ (-24 : ℤ) := zpow_le_zpow_right₀ (by norm_num) (by norm_num)
    have h2 : (2 : K) ^ (-1075 : ℤ) ≤ 2 ^ (-150 : ℤ) := zpow_le_zpow_right₀ (by norm_num) (by norm_num)
    have := mul_le_mul_of_nonneg_left h1 (abs_nonneg x)
    linarith

theorem _root_.PD.Precision.round_f32 (q : Precision) (x : K) : q.round (f32 x) = f32 x := by
  cases q
  · exact f32_idem x
  · exact f64_f32 x

/-- The smallest numbers do not matter beside a total that is not tiny. -/
theorem tiny_le {S : K} (hS : 2 ^ (-100 : ℤ) ≤ S) {k : ℤ} (hk : k ≤ -150) : (2 : K) ^ k ≤ 2 ^ (-50 : ℤ) * S := by
  have h1 : (2 : K) ^ k ≤ 2 ^ (-50 + -100 : ℤ) := zpow_le_zpow_right₀ (by norm_num) (by omega)
  rw [zpow_add₀ (by norm_num)] at h1
  exact h1.trans (mul_le_mul_of_nonneg_left hS (by positivity))

/-- A rate cast to float32. -/
theorem cast_err {r S : K} (hr : 0 ≤ r) (hrS : r ≤ S) (hS : 2 ^ (-100 : ℤ) ≤ S) :
    |f32 r - r| ≤ 2 ^ (-23 : ℤ) * S := by
  have h := abs_f32_sub_le_all r
  rw [abs_of_nonneg hr] at h
  have h1 : r * (2 : K) ^ (-24 : ℤ) ≤ S * 2 ^ (-24 : ℤ) := mul_le_mul_of_nonneg_right hrS (by positivity)
  have h2 := tiny_le hS (k := -150) le_rfl
  have hS0 : 0 < S := lt_of_lt_of_le (by positivity) hS
  norm_num at h h1 h2 ⊢
  linarith

theorem floatTotalRate_err (v : NumpyVersion) (p : Precision) {a b c : K} (ha : 0 ≤ a) (hb : 0 ≤ b) (hc : 0 ≤ c)
    (hS : 2 ^ (-100 : ℤ) ≤ a + b + c) :
    |(probPrecision v p).round (floatTotalRate v p [a, b, c]) - (a + b + c)| ≤ 2 ^ (-21 : ℤ) * (a + b + c) := by
  have hS0 : 0 < a + b + c := lt_of_lt_of_le (by positivity) hS
  have h1 := three_sum_err (fl := (withPythonNumber v p).round) (fun x => Precision.round_err _ x) (by positivity)
    (by norm_num) (by positivity) ha hb hc
  have h2 := tiny_le hS (k := -150) le_rfl
  show |(probPrecision v p).round ((withPythonNumber v p).round ((withPythonNumber v p).round
    ((withPythonNumber v p).round (0 + a) + b) + c)) - (a + b + c)| ≤ _
  set T := (withPythonNumber v p).round ((withPythonNumber v p).round
    ((withPythonNumber v p).round (0 + a) + b) + c)
  have h3 := (probPrecision v p).round_err T
  have h4 : |T| ≤ 2 * (a + b + c) := by
    have := abs_add_le (T - (a + b + c)) (a + b + c)
    rw [sub_add_cancel, abs_of_pos hS0] at this
    norm_num at h1 h2 ⊢
    linarith
  have h5 : |T| * (2 : K) ^ (-24 : ℤ) ≤ 2 * (a + b + c) * 2 ^ (-24 : ℤ) := mul_le_mul_of_nonneg_right h4 (by positivity)
  have h6 := abs_add_le ((probPrecision v p).round T - T) (T - (a + b + c))
  rw [sub_add_sub_cancel] at h6
  norm_num at h1 h2 h3 h5 ⊢
  linarith

/-- Each probability is nearly the rate over the total rate, if rates and total are nearly right. -/
theorem prob_err_of (v : NumpyVersion) (p : Precision) {a b c r : K} (hS0 : 0 < a + b + c) (hr0 : 0 ≤ r)
    (hr : r ≤ a + b + c)
    (h1 : |(probPrecision v p).round (floatTotalRate v p [a, b, c]) - (a + b + c)| ≤ 2 ^ (-21 : ℤ) * (a + b + c))
    (h2' : |f32 r - r| ≤ 2 ^ (-21 : ℤ) * (a + b + c)) :
    |(probPrecision v p).round ((probPrecision v p).round (f32 r) /
      (probPrecision v p).round (floatTotalRate v p [a, b, c])) - r / (a + b + c)| ≤ 2 ^ (-19 : ℤ) := by
  rw [Precision.round_f32]
  obtain ⟨-, h3⟩ := quotient_err hS0 hr0 hr (δ := 2 ^ (-21 : ℤ)) (by positivity) (by norm_num) h2' h1
  set x := f32 r / (probPrecision v p).round (floatTotalRate v p [a, b, c])
  have h4 := (probPrecision v p).round_err x
  have hq0 : 0 ≤ r / (a + b + c) := by positivity
  have hq1 : r / (a + b + c) ≤ 1 := (div_le_one hS0).2 hr
  have h5 : |x| ≤ 2 := by
    rw [abs_le] at h3 ⊢
    norm_num at h3
    constructor <;> linarith [h3.1, h3.2]
  have h6 : |x| * (2 : K) ^ (-24 : ℤ) ≤ 2 * 2 ^ (-24 : ℤ) := mul_le_mul_of_nonneg_right h5 (by positivity)
  have h7 : (2 : K) ^ (-150 : ℤ) ≤ 2 ^ (-24 : ℤ) := zpow_le_zpow_right₀ (by norm_num) (by norm_num)
  have h8 := abs_add_le ((probPrecision v p).round x - x) (x - r / (a + b + c))
  rw [sub_add_sub_cancel] at h8
  norm_num at h3 h4 h6 h7 ⊢
  linarith

/-- Each probability is nearly the rate over the total rate. -/
theorem prob_err (v : NumpyVersion) (p : Precision) {a b c r : K} (ha : 0 ≤ a) (hb : 0 ≤ b) (hc : 0 ≤ c)
    (hS : 2 ^ (-100 : ℤ) ≤ a + b + c) (hr0 : 0 ≤ r) (hr : r ≤ a + b + c) :
    |(probPrecision v p).round ((probPrecision v p).round (f32 r) /
      (probPrecision v p).round (floatTotalRate v p [a, b, c])) - r / (a + b + c)| ≤ 2 ^ (-19 : ℤ) := by
  have hS0 : 0 < a + b + c := lt_of_lt_of_le (by positivity) hS
  refine prob_err_of v p hS0 hr0 hr (floatTotalRate_err v p ha hb hc hS) ?_
  refine (cast_err hr0 hr hS).trans (mul_le_mul_of_nonneg_right ?_ hS0.le)
  exact zpow_le_zpow_right₀ (by norm_num) (by norm_num)

/-- The total of float32 numbers, however small they are. -/
theorem smallTotal_err (v : NumpyVersion) (p : Precision) {a b c : K} (ha : 0 ≤ a) (hb : 0 ≤ b) (hc : 0 ≤ c)
    (ga : f32 a = a) (gb : f32 b = b) (gc : f32 c = c) :
    |floatTotalRate v p [a, b, c] - (a + b + c)| ≤ 2 ^ (-22 : ℤ) * (a + b + c) ∧
    |(probPrecision v p).round (floatTotalRate v p [a, b, c]) - (a + b + c)| ≤ 2 ^ (-21 : ℤ) * (a + b + c) := by
  have h1 := three_sum_grained (withPythonNumber v p) ha hb hc (grained_f32 ga) (grained_f32 gb) (grained_f32 gc)
  show |(withPythonNumber v p).round ((withPythonNumber v p).round ((withPythonNumber v p).round (0 + a) + b) + c) -
    (a + b + c)| ≤ _ ∧ |(probPrecision v p).round ((withPythonNumber v p).round ((withPythonNumber v p).round
    ((withPythonNumber v p).round (0 + a) + b) + c)) - (a + b + c)| ≤ _
  set T := (withPythonNumber v p).round ((withPythonNumber v p).round
    ((withPythonNumber v p).round (0 + a) + b) + c)
  have h3 := ((probPrecision v p).grained h1.1).2
  have h1' := h1.2
  have h4 : |T| ≤ 2 * (a + b + c) := by
    have := abs_add_le (T - (a + b + c)) (a + b + c)
    rw [sub_add_cancel, abs_of_nonneg (by linarith : 0 ≤ a + b + c)] at this
    norm_num at h1' ⊢
    linarith
  have h5 : |T| * (2 : K) ^ (-24 : ℤ) ≤ 2 * (a + b + c) * 2 ^ (-24 : ℤ) := mul_le_mul_of_nonneg_right h4 (by positivity)
  have h6 := abs_add_le ((probPrecision v p).round T - T) (T - (a + b + c))
  rw [sub_add_sub_cancel] at h6
  norm_num at h1' h3 h5 ⊢
  constructor <;> linarith

theorem floatTotalRate_nonneg (v : NumpyVersion) (p : Precision) {a b c : K} (ha : 0 ≤ a) (hb : 0 ≤ b) (hc : 0 ≤ c) :
    0 ≤ floatTotalRate v p [a, b, c] := by
  show 0 ≤ (withPythonNumber v p).round ((withPythonNumber v p).round
    ((withPythonNumber v p).round (0 + a) + b) + c)
  have h1 := (withPythonNumber v p).round_nonneg (x := 0 + a) (by linarith)
  have h2 := (withPythonNumber v p).round_nonneg (add_nonneg h1 hb)
  exact (withPythonNumber v p).round_nonneg (add_nonneg h2 hc)

theorem probs_nonneg (v : NumpyVersion) (p : Precision) {a b c : K} (ha : 0 ≤ a) (hb : 0 ≤ b) (hc : 0 ≤ c) :
    ∀ x ∈ successorProbs v p [a, b, c], 0 ≤ x := by
  intro x hx
  unfold successorProbs at hx
  rw [List.mem_map] at hx
  obtain ⟨r, hr, rfl⟩ := hx
  have hr0 : 0 ≤ r := by
    simp only [List.mem_cons, List.not_mem_nil, or_false] at hr
    rcases hr with rfl | rfl | rfl <;> assumption
  exact (probPrecision v p).round_nonneg (div_nonneg ((probPrecision v p).round_nonneg (f32_nonneg hr0))
    ((probPrecision v p).round_nonneg (floatTotalRate_nonneg v p ha hb hc)))

theorem checkProbs_of_nonneg {q : Precision} {probs : List K} (h : ∀ x ∈ probs, 0 ≤ x) :
    checkProbs q probs = if q.eps < (kahanSum probs - 1) ^ 2 then .error .valueError else .ok () := by
  unfold checkProbs
  rw [if_neg]
  simp only [List.any_eq_true, decide_eq_true_eq, not_exists, not_and, not_lt]
  exact h

/-! ### C136 rounding and the choice of a transition -/

/-- With rates of type float32, and with numpy 1 whatever their type, numpy accepts the rounded probabilities of three
neighbours, if the total is not tiny, or the rates are float32 numbers, however small, that are not all zero.  Each is
within 2⁻¹⁹ of the rate over the total rate, and zero for a rate of zero. -/
theorem C136_accepted_partial (v : NumpyVersion) (p : Precision) (h : v = .one ∨ p = .single) {a b c : K}
    (ha : 0 ≤ a) (hb : 0 ≤ b) (hc : 0 ≤ c)
    (hS : 2 ^ (-100 : ℤ) ≤ a + b + c ∨ (0 < a + b + c ∧ f32 a = a ∧ f32 b = b ∧ f32 c = c)) :
    ∃ x y z, transitionProbs v p [a, b, c] = .ok [x, y, z] ∧
      |x - a / (a + b + c)| ≤ 2 ^ (-19 : ℤ) ∧ |y - b / (a + b + c)| ≤ 2 ^ (-19 : ℤ) ∧
      |z - c / (a + b + c)| ≤ 2 ^ (-19 : ℤ) ∧
      (a = 0 → x = 0) ∧ (b = 0 → y = 0) ∧ (c = 0 → z = 0) := by
  have hS0 : 0 < a + b + c := hS.elim (lt_of_lt_of_le (by positivity)) And.left
  have herr : ∀ r, r = a ∨ r = b ∨ r = c → 0 ≤ r → r ≤ a + b + c → |(probPrecision v p).round
      ((probPrecision v p).round (f32 r) / (probPrecision v p).round (floatTotalRate v p [a, b, c])) - r / (a + b + c)| ≤
      2 ^ (-19 : ℤ) := by
    intro r hr h0 h1
    rcases hS with hS | ⟨_, ga, gb, gc⟩
    · exact prob_err v p ha hb hc hS h0 h1
    · refine prob_err_of v p hS0 h0 h1 (smallTotal_err v p ha hb hc ga gb gc).2 ?_
      have : f32 r = r := by rcases hr with rfl | rfl | rfl <;> assumption
      rw [this, sub_self, abs_zero]
      positivity
  have hx := herr a (.inl rfl) ha (by linarith)
  have hy := herr b (.inr (.inl rfl)) hb (by linarith)
  have hz := herr c (.inr (.inr rfl)) hc (by linarith)
  have hnn := probs_nonneg v p ha hb hc
  have hlist : successorProbs v p [a, b, c] =
      [(probPrecision v p).round ((probPrecision v p).round (f32 a) /
          (probPrecision v p).round (floatTotalRate v p [a, b, c])),
       (probPrecision v p).round ((probPrecision v p).round (f32 b) /
          (probPrecision v p).round (floatTotalRate v p [a, b, c])),
       (probPrecision v p).round ((probPrecision v p).round (f32 c) /
          (probPrecision v p).round (floatTotalRate v p [a, b, c]))] := rfl
  have hzero : ∀ r : K, r = 0 → (probPrecision v p).round ((probPrecision v p).round (f32 r) /
          (probPrecision v p).round (floatTotalRate v p [a, b, c])) = 0 := by
    rintro r rfl
    rw [f32_of_zero, Precision.round_zero, zero_div, Precision.round_zero]
  refine ⟨_, _, _, ?_, hx, hy, hz, hzero a, hzero b, hzero c⟩
  rw [← hlist]
  rw [hlist] at hnn
  set x := (probPrecision v p).round ((probPrecision v p).round (f32 a) /
          (probPrecision v p).round (floatTotalRate v p [a, b, c]))
  set y := (probPrecision v p).round ((probPrecision v p).round (f32 b) /
          (probPrecision v p).round (floatTotalRate v p [a, b, c]))
  set z := (probPrecision v p).round ((probPrecision v p).round (f32 c) /
          (probPrecision v p).round (floatTotalRate v p [a, b, c]))
  have hsum : a / (a + b + c) + b / (a + b + c) + c / (a + b + c) = 1 := by field_simp
  have la : 0 ≤ a / (a + b + c) := by positivity
  have lb : 0 ≤ b / (a + b + c) := by positivity
  have lc : 0 ≤ c / (a + b + c) := by positivity
  have x0 : 0 ≤ x := hnn x (by simp)
  have y0 : 0 ≤ y := hnn y (by simp)
  have z0 : 0 ≤ z := hnn z (by simp)
  rw [abs_le] at hx hy hz
  norm_num at hx hy hz
  have hk := kahanSum_err (a := x) (b := y) (c := z) ⟨x0, by linarith⟩ ⟨y0, by linarith⟩ ⟨z0, by linarith⟩
  rw [abs_le] at hk
  norm_num at hk
  have hq : probPrecision v p = .single := by
    rcases h with rfl | rfl
    · rfl
    · cases v <;> rfl
  unfold transitionProbs
  rw [hlist, checkProbs_of_nonneg hnn, hq, if_neg]
  rw [not_lt]
  show (kahanSum [x, y, z] - 1) ^ 2 ≤ 2 ^ (-23 : ℤ)
  have hd : |kahanSum [x, y, z] - 1| ≤ 1 / 10000 := by
    rw [abs_le]; constructor <;> linarith
  rw [← sq_abs]
  have : |kahanSum [x, y, z] - 1| ^ 2 ≤ (1 / 10000) ^ 2 := pow_le_pow_left₀ (abs_nonneg _) hd 2
  norm_num at this ⊢
  linarith

/-- The sum of the probabilities with numpy 2 and rates of type float64: the sum of the rates cast to float32, over
the sum of the rates. -/
theorem newer_sum {a b c : K} (ha : 0 ≤ a) (hb : 0 ≤ b) (hc : 0 ≤ c) (hS : 2 ^ (-100 : ℤ) ≤ a + b + c) :
    |kahanSum (successorProbs .two .double [a, b, c]) - (f32 a + f32 b + f32 c) / (a + b + c)| ≤ 2 ^ (-44 : ℤ) := by
  have hS0 : 0 < a + b + c := lt_of_lt_of_le (by positivity) hS
  have hnn := probs_nonneg .two .double ha hb hc
  have hpr : ∀ r : K, 0 ≤ r → r ≤ a + b + c → _ := fun r h1 h2 => prob_err .two .double ha hb hc hS h1 h2
  set T := floatTotalRate .two .double [a, b, c] with hT
  have hlist : successorProbs .two .double [a, b, c] =
      [f64 (f64 (f32 a) / f64 T), f64 (f64 (f32 b) / f64 T), f64 (f64 (f32 c) / f64 T)] := rfl
  have hpr' : ∀ r : K, 0 ≤ r → r ≤ a + b + c → |f64 (f64 (f32 r) / f64 T) - r / (a + b + c)| ≤ 2 ^ (-19 : ℤ) := hpr
  rw [hlist] at hnn ⊢
  have hle2 : ∀ r : K, 0 ≤ r → r ≤ a + b + c → f64 (f64 (f32 r) / f64 T) ≤ 2 := by
    intro r h1 h2
    have h3 := hpr' r h1 h2
    have h4 : r / (a + b + c) ≤ 1 := (div_le_one hS0).2 h2
    rw [abs_le] at h3
    norm_num at h3
    linarith [h3.2]
  have hk := kahanSum_err ⟨hnn _ (by simp), hle2 a ha (by linarith)⟩ ⟨hnn _ (by simp), hle2 b hb (by linarith)⟩
    ⟨hnn _ (by simp), hle2 c hc (by linarith)⟩
  have hTe : |f64 T - (a + b + c)| ≤ 2 ^ (-49 : ℤ) * (a + b + c) := by
    have h1 : |T - (a + b + c)| ≤ _ := three_sum_err (fl := f64) (fun x => abs_f64_sub_le x) (by positivity)
      (by norm_num) (by positivity) ha hb hc
    have h2 : (2 : K) ^ (-1075 : ℤ) ≤ 2 ^ (-60 : ℤ) * (a + b + c) := by
      have h1 : (2 : K) ^ (-1075 : ℤ) ≤ 2 ^ (-60 + -100 : ℤ) := zpow_le_zpow_right₀ (by norm_num) (by omega)
      rw [zpow_add₀ (by norm_num)] at h1
      exact h1.trans (mul_le_mul_of_nonneg_left hS (by positivity))
    have h3 := abs_f64_sub_le T
    generalize (2 : K) ^ (-1075 : ℤ) = θ at h1 h2 h3
    have h4 : |T| ≤ 2 * (a + b + c) := by
      have := abs_add_le (T - (a + b + c)) (a + b + c)
      rw [sub_add_cancel, abs_of_pos hS0] at this
      norm_num at h1 h2 ⊢
      linarith
    have h5 : |T| * (2 : K) ^ (-53 : ℤ) ≤ 2 * (a + b + c) * 2 ^ (-53 : ℤ) := mul_le_mul_of_nonneg_right h4 (by positivity)
    have h6 := abs_add_le (f64 T - T) (T - (a + b + c))
    rw [sub_add_sub_cancel] at h6
    norm_num at h1 h2 h3 h5 ⊢
    linarith
  have hone : ∀ r : K, 0 ≤ r → r ≤ a + b + c →
      |f64 (f64 (f32 r) / f64 T) - f32 r / (a + b + c)| ≤ 2 ^ (-46 : ℤ) := by
    intro r h1 h2
    have hc := cast_err h1 h2 hS
    rw [f64_f32]
    have hF0 := f32_nonneg h1
    have hFS : f32 r ≤ 2 * (a + b + c) := by
      rw [abs_le] at hc
      norm_num at hc
      linarith [hc.2]
    obtain ⟨hD, hq⟩ := quotient_err (n := f32 r / 2) (r := f32 r / 2) hS0 (by linarith) (by linarith)
      (δ := 2 ^ (-49 : ℤ)) (by positivity) (by norm_num) (by simp; positivity) hTe
    have e : f32 r / f64 T - f32 r / (a + b + c) = 2 * (f32 r / 2 / f64 T - f32 r / 2 / (a + b + c)) := by
      ring
    have hx : |f32 r / f64 T - f32 r / (a + b + c)| ≤ 6 * 2 ^ (-49 : ℤ) := by
      rw [e, abs_mul, abs_two]
      linarith
    have h4 := abs_f64_sub_le (f32 r / f64 T)
    have h5 : |f32 r / f64 T| ≤ 3 := by
      have h6 : f32 r / (a + b + c) ≤ 2 := (div_le_iff₀ hS0).2 hFS
      have h7 : 0 ≤ f32 r / (a + b + c) := by positivity
      rw [abs_le] at hx ⊢
      norm_num at hx
      constructor <;> linarith [hx.1, hx.2]
    have h6 : |f32 r / f64 T| * (2 : K) ^ (-53 : ℤ) ≤ 3 * 2 ^ (-53 : ℤ) := mul_le_mul_of_nonneg_right h5 (by positivity)
    have h7 : (2 : K) ^ (-1075 : ℤ) ≤ 2 ^ (-53 : ℤ) := zpow_le_zpow_right₀ (by norm_num) (by norm_num)
    generalize (2 : K) ^ (-1075 : ℤ) = θ at h4 h7
    have h8 := abs_add_le (f64 (f32 r / f64 T) - f32 r / f64 T) (f32 r / f64 T - f32 r / (a + b + c))
    rw [sub_add_sub_cancel] at h8
    norm_num at h4 h6 h7 hx ⊢
    linarith
  have ea := hone a ha (by linarith)
  have eb := hone b hb (by linarith)
  have ec := hone c hc (by linarith)
  rw [add_div, add_div]
  rw [abs_le] at ea eb ec hk ⊢
  norm_num at ea eb ec hk ⊢
  constructor <;> linarith [ea.1, ea.2, eb.1, eb.2, ec.1, ec.2, hk.1, hk.2]

/-- With numpy 2 and rates of type float64, as a mixture of Gaussians gives them, it depends on the rounding: numpy
accepts the probabilities if casting the rates to float32 changes their sum by less than a part in 2²⁶, and refuses
them with `ValueError` if by more.  (In between there is a gap of less than a part in 2⁴².) -/
theorem C136_newer_numpy {a b c : K} (ha : 0 ≤ a) (hb : 0 ≤ b) (hc : 0 ≤ c) (hS : 2 ^ (-100 : ℤ) ≤ a + b + c) :
    (|f32 a + f32 b + f32 c - (a + b + c)| ≤ (2 ^ (-26 : ℤ) - 2 ^ (-44 : ℤ)) * (a + b + c) →
      transitionProbs .two .double [a, b, c] = .ok (successorProbs .two .double [a, b, c])) ∧
    ((2 ^ (-26 : ℤ) + 2 ^ (-43 : ℤ)) * (a + b + c) ≤ |f32 a + f32 b + f32 c - (a + b + c)| →
      transitionProbs .two .double [a, b, c] = .error .valueError) := by
  have hS0 : 0 < a + b + c := lt_of_lt_of_le (by positivity) hS
  have hk := newer_sum ha hb hc hS
  have hnn := probs_nonneg .two .double ha hb hc
  set s := kahanSum (successorProbs .two .double [a, b, c])
  have hq : |(f32 a + f32 b + f32 c) / (a + b + c) - 1| = |f32 a + f32 b + f32 c - (a + b + c)| / (a + b + c) := by
    rw [div_sub_one hS0.ne', abs_div, abs_of_pos hS0]
  have heps : Precision.eps (K := K) (probPrecision .two .double) = (2 ^ (-26 : ℤ)) ^ 2 := by
    show (2 : K) ^ (-52 : ℤ) = _
    norm_num
  constructor
  · intro h
    rw [← div_le_iff₀ hS0, ← hq] at h
    have h1 := abs_add_le (s - (f32 a + f32 b + f32 c) / (a + b + c)) ((f32 a + f32 b + f32 c) / (a + b + c) - 1)
    rw [sub_add_sub_cancel] at h1
    have h2 : |s - 1| ≤ 2 ^ (-26 : ℤ) := by
      norm_num at h hk ⊢
      linarith
    unfold transitionProbs
    rw [checkProbs_of_nonneg hnn, if_neg]
    rw [not_lt, heps, ← sq_abs]
    exact pow_le_pow_left₀ (abs_nonneg _) h2 2
  · intro h
    rw [← le_div_iff₀ hS0, ← hq] at h
    have h1 := abs_add_le ((f32 a + f32 b + f32 c) / (a + b + c) - s) (s - 1)
    rw [sub_add_sub_cancel, abs_sub_comm _ s] at h1
    have h2 : (2 : K) ^ (-26 : ℤ) < |s - 1| := by
      norm_num at h hk ⊢
      linarith
    unfold transitionProbs
    rw [checkProbs_of_nonneg hnn, if_pos]
    rw [heps, ← sq_abs (kahanSum _ - 1)]
    exact pow_lt_pow_left₀ h2 (by positivity) (n := 2) (by norm_num)

/-- Just above a half, numbers are rounded to a half. -/
theorem f32_above_half {m : K} (h1 : 1 / 2 ≤ m) (h2 : m < 1 / 2 + 2 ^ (-25 : ℤ)) : f32 m = 1 / 2 := by
  have hm : 0 < m := by linarith
  have hlog : Int.log 2 |m| = -1 := by
    rw [abs_of_pos hm]
    have h3 := zpow_log_le m hm.ne'
    have h4 := lt_zpow_log m
    rw [abs_of_pos hm] at h3 h4
    have h5 : (2 : K) ^ Int.log 2 m < 2 ^ (0 : ℤ) := by
      refine h3.trans_lt (h2.trans ?_)
      norm_num
    have h6 : (2 : K) ^ (-1 : ℤ) < 2 ^ (Int.log 2 m + 1) := by
      refine lt_of_le_of_lt ?_ h4
      norm_num at h1 ⊢
      exact h1
    have h7 := (zpow_lt_zpow_iff_right₀ (by norm_num)).1 h5
    have h8 := (zpow_lt_zpow_iff_right₀ (by norm_num)).1 h6
    omega
  have hu : ulp32 m = 2 ^ (-24 : ℤ) := by
    unfold ulp32
    rw [hlog]
    norm_num
  unfold f32
  rw [hu, roundHalfEven_eq_of_abs_lt (n := 2 ^ 23)]
  · norm_num
  · rw [abs_lt]
    norm_num at h1 h2 ⊢
    constructor <;> linarith

/-- Three rates of `1/2 + 2⁻²⁶`, or a little more, are refused by numpy 2. -/
theorem C136_refused {m : K} (h1 : 1 / 2 + 2 ^ (-26 : ℤ) ≤ m) (h2 : m < 1 / 2 + 2 ^ (-25 : ℤ)) :
    transitionProbs .two .double [m, m, m] = .error .valueError := by
  have hp : (0 : K) < 2 ^ (-26 : ℤ) := by positivity
  have hm : 0 ≤ m := by linarith
  have h100 : (2 : K) ^ (-100 : ℤ) ≤ 2 ^ (-1 : ℤ) := zpow_le_zpow_right₀ (by norm_num) (by norm_num)
  refine (C136_newer_numpy hm hm hm ?_).2 ?_
  · norm_num at h100 ⊢
    linarith
  · rw [f32_above_half (by linarith) h2, abs_of_nonpos (by linarith)]
    norm_num at h1 h2 ⊢
    linarith

/-- One Gaussian centred on the silicon: with the beam there, the rates towards the three neighbours are all the
maximal rate. -/
theorem centred_rates (knn : Knn ℝ) {m : ℝ} (hm : 0 < m) (grid : Grid ℝ) (hd : SingleDoped grid)
    (h4 : 4 ≤ grid.positions.length) (hnd : grid.positions.Nodup) :
    ∃ beam ss, getSingleSiliconPosition grid = .ok beam ∧
      (Gmm.mk m [⟨1, 0, ⟨1, 1⟩⟩]).call knn grid beam = .ok ss ∧ ss.map (·.rate) = [m, m, m] := by
  have hg : ValidMixture (Gmm.mk m [⟨1, 0, ⟨1, 1⟩⟩]) :=
    ⟨hm, by simp, ⟨_, List.mem_cons_self, by norm_num⟩, by simp⟩
  obtain ⟨i, si, hi, hn, hsi⟩ := hd.exists_index
  have hsp := getSingleSiliconPosition_of_singleton hsi
  obtain ⟨i', si', nbrs, ss, norm, k1, k2, k3, k4, k5, k6, k7, k8, k9, k10, k11⟩ :=
    gmm_call knn (Gmm.mk m [⟨1, 0, ⟨1, 1⟩⟩]) hg grid si hd h4 hnd
  have hsame : si' = si := by
    have hii : i' = i := by
      rw [hn] at k1
      have hl := (List.getElem?_eq_some_iff.1 k2).1
      rw [doped_get _ _ _ hl] at k1
      by_contra hne
      rw [if_neg hne] at k1
      exact absurd k1 (by decide)
    rw [hii, hi] at k2
    exact (Option.some.inj k2).symm
  subst hsame
  refine ⟨si', ss, hsp, k5, ?_⟩
  obtain ⟨norm', n1, n2, n3, c, hc, n4⟩ := normalizingFactor_ok hg
  rw [k3] at n1
  cases n1
  have hc' : c = ⟨1, 0, ⟨1, 1⟩⟩ := by simpa using hc
  subst hc'
  have hall : ∀ x ∈ ss, x.rate = m := by
    intro x hx
    obtain ⟨n, hn⟩ := List.getElem?_of_mem hx
    have hlt : n < nbrs.length := by
      rw [k8, ← k6]; exact (List.getElem?_eq_some_iff.1 hn).1
    obtain ⟨y, p, hy, hp, hps, -, hrate, -⟩ := k11 n nbrs[n] (by simp)
    rw [hn] at hy
    cases hy
    have hdne : p - si' ≠ 0 := by
      intro h
      apply hps
      have e1 := congrArg V2.x h; have e2 := congrArg V2.y h
      simp at e1 e2
      ext <;> linarith
    obtain ⟨r, r1, -, -, r2⟩ := mixtureRate_ok n2.le si' si' hdne (c := ⟨1, 0, ⟨1, 1⟩⟩) (by norm_num) (by norm_num)
      (by norm_num)
    have r3 := r2 (by ext <;> simp [V2.smul])
    simp only [Gmm.neighborRate, r1, zero_add, Except.ok.injEq] at hrate
    rw [← hrate, r3]
    exact n4
  match ss, k6, hall with
  | [x, y, z], _, hall =>
    simp only [List.map_cons, List.map_nil]
    rw [hall x (by simp), hall y (by simp), hall z (by simp)]

/-- So not every environment with a random mixture can be played with numpy 2.  There is a mixture that can come up
with which, on every regular sheet, a transition while the beam is on the silicon ends in `ValueError`; with numpy 1
the same transition is made, each neighbour with probability one third up to 2⁻¹⁹. -/
theorem C136_mixture_fails : ∃ p : GmmParams, Sampled 1 p ∧
    ∀ (knn : Knn ℝ) (grid : Grid ℝ), SingleDoped grid → 4 ≤ grid.positions.length → grid.positions.Nodup →
      ∃ beam ss, getSingleSiliconPosition grid = .ok beam ∧ p.toGmm.call knn grid beam = .ok ss ∧
        transitionProbs .two .double (ss.map (·.rate)) = .error .valueError ∧
        ∃ x y z, transitionProbs .one .double (ss.map (·.rate)) = .ok [x, y, z] ∧
          |x - 1 / 3| ≤ 2 ^ (-19 : ℤ) ∧ |y - 1 / 3| ≤ 2 ^ (-19 : ℤ) ∧ |z - 1 / 3| ≤ 2 ^ (-19 : ℤ) := by
  refine ⟨⟨1 / 2 + 2 ^ (-26 : ℤ), [1], [0], [⟨1, 1⟩]⟩, ⟨rfl, rfl, rfl, by norm_num, by simp, by simp, by simp, by
    intro v hv; rw [List.mem_singleton] at hv; subst hv; norm_num⟩, ?_⟩
  intro knn grid hd h4 hnd
  have hm : (0 : ℝ) < 1 / 2 + 2 ^ (-26 : ℤ) := by positivity
  obtain ⟨beam, ss, h1, h2, h3⟩ := centred_rates knn hm grid hd h4 hnd
  refine ⟨beam, ss, h1, h2, by rw [h3]; exact C136_refused le_rfl (by norm_num), ?_⟩
  obtain ⟨x, y, z, e1, e2, e3, e4, -⟩ := C136_accepted_partial .one .double (.inl rfl) hm.le hm.le hm.le
    (by norm_num)
  rw [h3]
  have e : (1 / 2 + 2 ^ (-26 : ℤ) : ℝ) / (1 / 2 + 2 ^ (-26 : ℤ) + (1 / 2 + 2 ^ (-26 : ℤ)) + (1 / 2 + 2 ^ (-26 : ℤ))) = 1 / 3 := by
    norm_num
  rw [e] at e2 e3 e4
  exact ⟨x, y, z, e1, e2, e3, e4⟩

/-- Three unequal rates, one of them zero, meet the hypotheses. -/
example : ∃ x y z : ℚ, transitionProbs .two .single [1 / 3, 0, 2] = .ok [x, y, z] ∧ y = 0 ∧
    |z - 6 / 7| ≤ 2 ^ (-19 : ℤ) := by
  obtain ⟨x, y, z, h, -, -, hz, -, hy, -⟩ := C136_accepted_partial (K := ℚ) .two .single (.inr rfl)
    (a := 1 / 3) (b := 0) (c := 2) (by norm_num) le_rfl (by norm_num) (by norm_num)
  refine ⟨x, y, z, h, hy rfl, ?_⟩
  norm_num at hz ⊢
  exact hz

/-- The smallest float32 number, twice, and zero: numpy accepts the probabilities. -/
example : ∃ x y z, transitionProbs (K := ℚ) .two .single [2 ^ (-149 : ℤ), 2 ^ (-149 : ℤ), 0] = .ok [x, y, z] ∧ z = 0 ∧
    |x - 1 / 2| ≤ 2 ^ (-19 : ℤ) := by
  have e : f32 ((2 : ℚ) ^ (-149 : ℤ)) = 2 ^ (-149 : ℤ) := by
    simpa using f32_of_mul (K := ℚ) 1 (-149) (by norm_num) (by norm_num)
  obtain ⟨x, y, z, h, hx, -, -, -, -, hz⟩ := C136_accepted_partial (K := ℚ) .two .single (.inr rfl)
    (a := 2 ^ (-149 : ℤ)) (b := 2 ^ (-149 : ℤ)) (c := 0) (by positivity) (by positivity) le_rfl
    (.inr ⟨by positivity, e, e, f32_of_zero⟩)
  refine ⟨x, y, z, h, hz rfl, ?_⟩
  rwa [add_zero, show (2 : ℚ) ^ (-149 : ℤ) / (2 ^ (-149 : ℤ) + 2 ^ (-149 : ℤ)) = 1 / 2 by
    rw [← two_mul, div_mul_cancel_right₀ (by positivity)]; norm_num] at hx

/-- Numpy 2 accepts rates that are float32 numbers already. -/
example : transitionProbs (K := ℚ) .two .double [1, 2, 5] = .ok (successorProbs .two .double [1, 2, 5]) := by
  refine (C136_newer_numpy (by norm_num) (by norm_num) (by norm_num) (by norm_num)).1 ?_
  have e1 : f32 (1 : ℚ) = 1 := by simpa using f32_int (K := ℚ) 1 (by norm_num)
  have e2 : f32 (2 : ℚ) = 2 := by simpa using f32_int (K := ℚ) 2 (by norm_num)
  have e5 : f32 (5 : ℚ) = 5 := by simpa using f32_int (K := ℚ) 5 (by norm_num)
  rw [e1, e2, e5, sub_self, abs_zero]
  norm_num

end PD.Props
