/- C126: training rewards the true rates. -/
import Verif.Spec.Scoring
import Verif.Props.Learn
import Mathlib.Analysis.SpecialFunctions.Log.Deriv
import Mathlib.Analysis.Complex.ExponentialBounds
import Mathlib.Algebra.BigOperators.Field

set_option linter.unusedSectionVars false
set_option linter.unusedSimpArgs false

namespace PD.Props
open PD PD.Spec

/-! ### Gibbs' inequality -/

/-- One term: `p log p - p log w ≥ p - w`, with equality for `w = p` only. -/
theorem gibbs_term {p w : ℝ} (hp : 0 < p) (hw : 0 < w) :
    p - w ≤ p * Real.log p - p * Real.log w ∧ (p * Real.log p - p * Real.log w = p - w → w = p) := by
  have hq : 0 < w / p := div_pos hw hp
  have hl : Real.log (w / p) = Real.log w - Real.log p := Real.log_div hw.ne' hp.ne'
  have h1 := Real.log_le_sub_one_of_pos hq
  have e : p * (w / p - 1) = w - p := by field_simp
  constructor
  · have := mul_le_mul_of_nonneg_left h1 hp.le
    rw [e, hl] at this
    linarith
  · intro h
    by_contra hne
    have hne' : w / p ≠ 1 := fun hc => hne ((div_eq_one_iff_eq hp.ne').1 hc)
    have h2 := Real.log_lt_sub_one_of_pos hq hne'
    have := mul_lt_mul_of_pos_left h2 hp
    rw [e, hl] at this
    linarith

theorem gibbs {n : ℕ} (p w : ℕ → ℝ) (hp : ∀ i < n, 0 < p i) (hw : ∀ i < n, 0 < w i)
    (hs : ∑ i ∈ Finset.range n, p i = ∑ i ∈ Finset.range n, w i) :
    ∑ i ∈ Finset.range n, p i * -Real.log (p i) ≤ ∑ i ∈ Finset.range n, p i * -Real.log (w i) ∧
    (∑ i ∈ Finset.range n, p i * -Real.log (p i) = ∑ i ∈ Finset.range n, p i * -Real.log (w i) →
      ∀ i < n, w i = p i) := by
  have key : ∀ i ∈ Finset.range n, p i - w i ≤ p i * Real.log (p i) - p i * Real.log (w i) := fun i hi =>
    (gibbs_term (hp i (Finset.mem_range.1 hi)) (hw i (Finset.mem_range.1 hi))).1
  have h0 : ∑ i ∈ Finset.range n, (p i - w i) = 0 := by rw [Finset.sum_sub_distrib, hs, sub_self]
  have e : ∑ i ∈ Finset.range n, (p i * Real.log (p i) - p i * Real.log (w i)) =
      ∑ i ∈ Finset.range n, p i * -Real.log (w i) - ∑ i ∈ Finset.range n, p i * -Real.log (p i) := by
    rw [← Finset.sum_sub_distrib]
    exact Finset.sum_congr rfl (fun i _ => by ring)
  have h1 := Finset.sum_le_sum key
  rw [h0, e] at h1
  refine ⟨by linarith, fun heq i hi => ?_⟩
  have h2 : ∑ i ∈ Finset.range n, (p i - w i) =
      ∑ i ∈ Finset.range n, (p i * Real.log (p i) - p i * Real.log (w i)) := by
    rw [h0, e, heq, sub_self]
  have h3 := (Finset.sum_eq_sum_iff_of_le key).1 h2 i (Finset.mem_range.2 hi)
  exact (gibbs_term (hp i hi) (hw i hi)).2 h3.symm

/-! ### The rate term -/

/-- The average of the rate term when the silicon leaves with probability `q`. -/
noncomputable def avgRateLoss (q t T : ℝ) : ℝ := (1 - q) * (T * t) + q * -Real.log (1 - noTransitionProb T t)

theorem log_million : 1 < Real.log 1000000 := by
  rw [Real.lt_log_iff_exp_lt (by norm_num)]
  have := Real.exp_one_lt_d9
  linarith

/-- If leaving is not too rare, the true total rate is the best one, and the only one. -/
theorem avgRateLoss_best {q t R T : ℝ} (ht : 0 < t) (hT : 0 < T) (hqe : q = 1 - Real.exp (-(R * t)))
    (hq : 3 / 1000000 ≤ q) :
    avgRateLoss q t R ≤ avgRateLoss q t T ∧ (avgRateLoss q t R = avgRateLoss q t T → T = R) := by
  have hq0 : 0 < q := by linarith
  have hq1 : 0 < 1 - q := by rw [hqe]; simpa using Real.exp_pos _
  have hRt : R * t = -Real.log (1 - q) := by rw [hqe]; simp
  have hR : avgRateLoss q t R = (1 - q) * -Real.log (1 - q) + q * -Real.log q := by
    unfold avgRateLoss noTransitionProb
    rw [hRt, neg_mul, min_eq_left (by rw [hRt, neg_neg, Real.exp_log hq1]; linarith), hRt, neg_neg,
      Real.exp_log hq1]
    congr 4
    ring
  have hTt : 0 < T * t := mul_pos hT ht
  rcases le_or_gt (Real.exp (-(T * t))) (1 - 1 / 1000000) with h | h
  · -- not clipped: Gibbs for two outcomes
    set s := 1 - Real.exp (-(T * t)) with hs
    have hs0 : 0 < s := by rw [hs]; linarith
    have hs1 : 0 < 1 - s := by rw [hs]; simpa using Real.exp_pos _
    have hTs : T * t = -Real.log (1 - s) := by rw [hs]; simp
    have hm : avgRateLoss q t T = (1 - q) * -Real.log (1 - s) + q * -Real.log s := by
      unfold avgRateLoss noTransitionProb
      rw [neg_mul, min_eq_left h, ← hs, hTs]
    obtain ⟨a1, a2⟩ := gibbs_term hq0 hs0
    obtain ⟨b1, b2⟩ := gibbs_term hq1 hs1
    rw [hR, hm]
    refine ⟨by linarith, fun heq => ?_⟩
    have hsq : s = q := a2 (by linarith)
    have : T * t = R * t := by rw [hTs, hRt, hsq]
    exact mul_right_cancel₀ ht.ne' this
  · -- clipped: worse than predicting nothing, which is worse than the truth
    have hm : avgRateLoss q t T = (1 - q) * (T * t) + q * Real.log 1000000 := by
      unfold avgRateLoss noTransitionProb
      rw [neg_mul, min_eq_right h.le]
      have : (1 : ℝ) - (1 - 1 / 1000000) = (1000000 : ℝ)⁻¹ := by norm_num
      rw [this, Real.log_inv, neg_neg]
    have hent : (1 - q) * -Real.log (1 - q) ≤ q := by
      have h1 := Real.log_le_sub_one_of_pos (inv_pos.2 hq1)
      rw [Real.log_inv] at h1
      have h2 := mul_le_mul_of_nonneg_left h1 hq1.le
      have e : (1 - q) * ((1 - q)⁻¹ - 1) = q := by field_simp; ring
      rwa [e] at h2
    have hlog : 1 - Real.log q ≤ Real.log 1000000 := by
      have h1 : Real.log (Real.exp 1 / 1000000) ≤ Real.log q := by
        apply Real.log_le_log (by positivity)
        have := Real.exp_one_lt_d9
        have : Real.exp 1 / 1000000 ≤ 3 / 1000000 := by linarith
        linarith
      rw [Real.log_div (Real.exp_ne_zero 1) (by norm_num), Real.log_exp] at h1
      linarith
    have hlt : avgRateLoss q t R < avgRateLoss q t T := by
      rw [hR, hm]
      have h1 := mul_le_mul_of_nonneg_left hlog hq0.le
      have h2 := mul_pos hq1 hTt
      nlinarith
    exact ⟨hlt.le, fun heq => absurd heq hlt.ne⟩

/-- If leaving is very rare, any smaller total rate is better. -/
theorem avgRateLoss_rare {q t R T : ℝ} (ht : 0 < t) (hR : 0 < R) (hqe : q = 1 - Real.exp (-(R * t)))
    (hq : q ≤ 1 / 1000000) (hT : T < R) : avgRateLoss q t T < avgRateLoss q t R := by
  have hq1 : 0 < 1 - q := by linarith
  have hlt : T * t < R * t := mul_lt_mul_of_pos_right hT ht
  have clip : ∀ S : ℝ, S ≤ R → avgRateLoss q t S = (1 - q) * (S * t) + q * Real.log 1000000 := by
    intro S hS
    have : 1 - 1 / 1000000 ≤ Real.exp (-(S * t)) := by
      have h1 : Real.exp (-(R * t)) ≤ Real.exp (-(S * t)) :=
        Real.exp_le_exp.2 (neg_le_neg (mul_le_mul_of_nonneg_right hS ht.le))
      linarith
    unfold avgRateLoss noTransitionProb
    rw [neg_mul, min_eq_right this]
    have : (1 : ℝ) - (1 - 1 / 1000000) = (1000000 : ℝ)⁻¹ := by norm_num
    rw [this, Real.log_inv, neg_neg]
  rw [clip T hT.le, clip R le_rfl]
  have := mul_lt_mul_of_pos_left hlt hq1
  linarith

/-! ### The expected loss -/

theorem getD_real {l : List ℝ} {i : ℕ} (h : i < l.length) : l.getD i 0 = l[i] := by
  rw [List.getD_eq_getElem?_getD, List.getElem?_eq_getElem h, Option.getD_some]


section
variable {rates z : List ℝ}

theorem networkOutput_last (hz : z.length = rates.length + 1) :
    0 < ((networkOutput z).getLast?).getD 0 := by
  have hne : networkOutput z ≠ [] := by
    intro h
    have := congrArg List.length h
    simp [networkOutput, hz] at this
  rw [List.getLast?_eq_some_getLast hne, Option.getD_some]
  have := List.getLast_mem hne
  simp only [networkOutput, List.mem_map] at this
  obtain ⟨y, -, h⟩ := this
  have h' : (networkOutput z).getLast hne = softplus y := h.symm
  rw [h']
  exact softplus_pos y

theorem dropLast_len (hz : z.length = rates.length + 1) :
    (networkOutput z).dropLast.length = rates.length := by
  simp [networkOutput, hz]

/-- The expected loss in terms of the total and the shares. -/
theorem expectedLoss_eq (wc wr t : ℝ) (hz : z.length = rates.length + 1) :
    expectedLoss wc wr rates t z =
      wc * (leaveProb rates t * ∑ i ∈ Finset.range rates.length,
        rates.getD i 0 / rates.sum * -Real.log ((softmax (networkOutput z).dropLast).getD i 0)) +
      wr * ((Real.exp (-(rates.sum * t))) * (((networkOutput z).getLast?).getD 0 * t) +
        ∑ i ∈ Finset.range rates.length, leaveProb rates t * (rates.getD i 0 / rates.sum) *
          -Real.log (1 - noTransitionProb (((networkOutput z).getLast?).getD 0) t)) := by
  unfold expectedLoss
  rw [Finset.sum_range_succ']
  have h0 : labelProb rates t 0 * exampleLoss wc wr ⟨networkOutput z, 0, t⟩ =
      wr * (Real.exp (-(rates.sum * t)) * (((networkOutput z).getLast?).getD 0 * t)) := by
    simp [labelProb, exampleLoss, classLoss, rateLoss, didTransition]
    ring
  have h1 : ∀ i ∈ Finset.range rates.length,
      labelProb rates t (i + 1) * exampleLoss wc wr ⟨networkOutput z, i + 1, t⟩ =
      wc * (leaveProb rates t *
        (rates.getD i 0 / rates.sum * -Real.log ((softmax (networkOutput z).dropLast).getD i 0))) +
      wr * (leaveProb rates t * (rates.getD i 0 / rates.sum) *
        -Real.log (1 - noTransitionProb (((networkOutput z).getLast?).getD 0) t)) := by
    intro i hi
    have hi' : i < (softmax (networkOutput z).dropLast).length := by
      rw [softmax_length, dropLast_len hz]; exact Finset.mem_range.1 hi
    have hls : (logSoftmax (networkOutput z).dropLast).getD i 0 =
        Real.log ((softmax (networkOutput z).dropLast).getD i 0) := by
      rw [List.getD_eq_getElem?_getD, logSoftmax_getElem?, List.getD_eq_getElem?_getD,
        List.getElem?_eq_getElem hi']
      rfl
    simp only [labelProb, exampleLoss, classLoss, rateLoss, didTransition, leaveProb, Nat.add_one_ne_zero, if_false,
      ne_eq, not_false_eq_true, if_true, Nat.add_sub_cancel, hls]
    ring
  rw [Finset.sum_congr rfl h1, h0, Finset.sum_add_distrib, ← Finset.mul_sum, ← Finset.mul_sum, ← Finset.mul_sum]
  ring

theorem sum_range_getD (l : List ℝ) : ∑ i ∈ Finset.range l.length, l.getD i 0 = l.sum := by
  induction l with
  | nil => simp
  | cons a l ih =>
    rw [List.length_cons, Finset.sum_range_succ']
    simp only [List.getD_cons_succ, List.getD_cons_zero, ih, List.sum_cons]
    ring

theorem shares_sum (hR : 0 < rates.sum) : ∑ i ∈ Finset.range rates.length, rates.getD i 0 / rates.sum = 1 := by
  rw [← Finset.sum_div, sum_range_getD, div_self hR.ne']

/-- The expected loss is the cross entropy of the shares and the average of the rate term. -/
theorem expectedLoss_split (wc wr t : ℝ) (hR : 0 < rates.sum) (hz : z.length = rates.length + 1) :
    expectedLoss wc wr rates t z =
      wc * (leaveProb rates t * ∑ i ∈ Finset.range rates.length,
        rates.getD i 0 / rates.sum * -Real.log ((softmax (networkOutput z).dropLast).getD i 0)) +
      wr * avgRateLoss (leaveProb rates t) t (((networkOutput z).getLast?).getD 0) := by
  rw [expectedLoss_eq wc wr t hz, ← Finset.sum_mul, ← Finset.mul_sum, shares_sum hR]
  unfold avgRateLoss
  have : 1 - leaveProb rates t = Real.exp (-(rates.sum * t)) := by unfold leaveProb; ring
  rw [this, mul_one]

theorem predicted_iff (hR : 0 < rates.sum) (hz : z.length = rates.length + 1) :
    predictedRates z = rates ↔ ((networkOutput z).getLast?).getD 0 = rates.sum ∧
      ∀ i < rates.length, (softmax (networkOutput z).dropLast).getD i 0 = rates.getD i 0 / rates.sum := by
  have hlen : (softmax (networkOutput z).dropLast).length = rates.length := by rw [softmax_length, dropLast_len hz]
  have hlo : (networkOutput z).length = rates.length + 1 := by simp [networkOutput, hz]
  have hne : rates ≠ [] := by rintro rfl; simp at hR
  have h2 : 2 ≤ (networkOutput z).length := by
    have := List.length_pos_iff.2 hne
    omega
  have get : ∀ i, (predictedRates z).getD i 0 =
      ((networkOutput z).getLast?).getD 0 * (softmax (networkOutput z).dropLast).getD i 0 := by
    intro i
    unfold predictedRates splitRates
    rw [List.getD_eq_getElem?_getD, List.getElem?_map, List.getD_eq_getElem?_getD]
    cases (softmax (networkOutput z).dropLast)[i]? <;> simp
  constructor
  · intro h
    have hs : ((networkOutput z).getLast?).getD 0 = rates.sum := by
      rw [← splitRates_sum h2]
      exact congrArg List.sum h
    refine ⟨hs, fun i _ => ?_⟩
    have := get i
    rw [h, hs] at this
    rw [this]
    field_simp
  · rintro ⟨hs, hw⟩
    apply List.ext_getElem?
    intro i
    by_cases hi : i < rates.length
    · have hi' : i < (predictedRates z).length := by
        simp only [predictedRates, splitRates_length]; omega
      rw [List.getElem?_eq_getElem hi', List.getElem?_eq_getElem hi, Option.some.injEq]
      have := get i
      rw [hw i hi, hs, getD_real hi, getD_real hi'] at this
      rw [this]
      field_simp
    · rw [List.getElem?_eq_none (by simp only [predictedRates, splitRates_length]; omega),
        List.getElem?_eq_none (by omega)]

end

/-! ### C126 -/

theorem softplus_surj {y : ℝ} (hy : 0 < y) : ∃ x, softplus x = y := by
  have h : 0 < Real.exp y - 1 := by
    have := Real.add_one_lt_exp hy.ne'
    linarith
  refine ⟨Real.log (Real.exp y - 1), ?_⟩
  unfold softplus
  rw [Real.exp_log h]
  simp

/-- A network can express every combination of positive rates. -/
theorem C126_expressible (rates : List ℝ) (hpos : ∀ r ∈ rates, 0 < r) (hne : rates ≠ []) :
    ∃ z : List ℝ, z.length = rates.length + 1 ∧ predictedRates z = rates := by
  have hR : 0 < rates.sum := sum_pos_of_mem hpos hne
  -- a shift that makes all logarithms positive
  obtain ⟨c, hc⟩ : ∃ c : ℝ, ∀ r ∈ rates, 0 < Real.log r + c := by
    clear hR hne
    induction rates with
    | nil => exact ⟨0, by simp⟩
    | cons r rates ih =>
      obtain ⟨c, hc⟩ := ih (fun r hr => hpos r (List.mem_cons_of_mem _ hr))
      refine ⟨max c (1 - Real.log r), ?_⟩
      intro s hs
      rcases List.mem_cons.1 hs with rfl | hs
      · have := le_max_right c (1 - Real.log s); linarith
      · have := le_max_left c (1 - Real.log r); have := hc s hs; linarith
  have surj : ∀ l : List ℝ, (∀ y ∈ l, 0 < y) → ∃ z : List ℝ, z.map softplus = l := by
    intro l
    induction l with
    | nil => intro _; exact ⟨[], rfl⟩
    | cons y l ih =>
      intro h
      obtain ⟨z, hz⟩ := ih (fun y hy => h y (List.mem_cons_of_mem _ hy))
      obtain ⟨x, hx⟩ := softplus_surj (h y List.mem_cons_self)
      exact ⟨x :: z, by simp [hx, hz]⟩
  obtain ⟨z, hz⟩ := surj (rates.map (fun r => Real.log r + c) ++ [rates.sum]) (by
    intro y hy
    rcases List.mem_append.1 hy with hy | hy
    · obtain ⟨r, hr, rfl⟩ := List.mem_map.1 hy
      exact hc r hr
    · rw [List.mem_singleton.1 hy]; exact hR)
  have hlen : z.length = rates.length + 1 := by
    have := congrArg List.length hz
    simpa using this
  refine ⟨z, hlen, (predicted_iff hR hlen).2 ⟨?_, fun i hi => ?_⟩⟩
  · simp [networkOutput, hz]
  · have e : (networkOutput z).dropLast = rates.map (fun r => Real.log r + c) := by
      simp [networkOutput, hz]
    have hsum : ((rates.map (fun r => Real.log r + c)).map Real.exp).sum = Real.exp c * rates.sum := by
      rw [← sum_map_mul, List.map_map]
      congr 1
      apply List.map_congr_left
      intro r hr
      simp only [Function.comp, Real.exp_add, Real.exp_log (hpos r hr)]
      ring
    rw [e, List.getD_eq_getElem?_getD, softmax_getElem?, List.getElem?_map, List.getElem?_eq_getElem hi, hsum,
      getD_real hi]
    simp only [Option.map_some, Option.getD_some, Real.exp_add, Real.exp_log (hpos _ (List.getElem_mem hi))]
    rw [mul_comm, mul_div_mul_left _ _ (Real.exp_ne_zero c)]

/-- The loss rewards the truth.  If the silicon leaves with the given positive rates, and leaves within the exposure
with a probability of at least 3 in a million, then no network output has a smaller loss on average than one
that stands for these rates, and any output that does as well stands for these rates too, whatever the positive weights
of the two terms.  (What is missing: rarer departures, see `C126_rare`.) -/
theorem C126_truth_partial (wc wr : ℝ) (hwc : 0 < wc) (hwr : 0 < wr) (rates : List ℝ) (hpos : ∀ r ∈ rates, 0 < r)
    (hne : rates ≠ []) (t : ℝ) (ht : 0 < t) (hq : 3 / 1000000 ≤ leaveProb rates t)
    (best z : List ℝ) (hb : best.length = rates.length + 1) (hbest : predictedRates best = rates)
    (hz : z.length = rates.length + 1) :
    expectedLoss wc wr rates t best ≤ expectedLoss wc wr rates t z ∧
    (expectedLoss wc wr rates t best = expectedLoss wc wr rates t z ↔ predictedRates z = rates) := by
  have hR : 0 < rates.sum := sum_pos_of_mem hpos hne
  have hq0 : 0 < leaveProb rates t := by linarith
  obtain ⟨b1, b2⟩ := (predicted_iff hR hb).1 hbest
  rw [expectedLoss_split wc wr t hR hb, expectedLoss_split wc wr t hR hz, b1,
    Finset.sum_congr rfl (fun i hi => by rw [b2 i (Finset.mem_range.1 hi)])]
  set w := softmax (networkOutput z).dropLast with hw
  have hwl : w.length = rates.length := by rw [hw, softmax_length, dropLast_len hz]
  have hdl : (networkOutput z).dropLast ≠ [] := by
    intro hc
    have := dropLast_len hz
    rw [hc] at this
    exact hne (List.length_eq_zero_iff.1 this.symm)
  obtain ⟨g1, g2⟩ := gibbs (n := rates.length) (fun i => rates.getD i 0 / rates.sum) (fun i => w.getD i 0)
    (fun i hi => div_pos (by rw [getD_real hi]; exact hpos _ (List.getElem_mem hi)) hR)
    (fun i hi => by
      rw [getD_real (hwl ▸ hi)]
      exact softmax_pos _ (List.getElem_mem _))
    (by rw [shares_sum hR]; rw [← hwl, sum_range_getD, hw, softmax_sum hdl])
  beta_reduce at g1 g2
  obtain ⟨r1, r2⟩ := avgRateLoss_best (q := leaveProb rates t) (R := rates.sum) ht (networkOutput_last hz) rfl hq
  have m1 := mul_le_mul_of_nonneg_left (mul_le_mul_of_nonneg_left g1 hq0.le) hwc.le
  have m2 := mul_le_mul_of_nonneg_left r1 hwr.le
  refine ⟨add_le_add m1 m2, fun heq => ?_, fun h => ?_⟩
  · have e1 := le_antisymm m1 (by linarith)
    have e2 := le_antisymm m2 (by linarith)
    exact (predicted_iff hR hz).2 ⟨r2 (mul_left_cancel₀ hwr.ne' e2),
      g2 (mul_left_cancel₀ hq0.ne' (mul_left_cancel₀ hwc.ne' e1))⟩
  · obtain ⟨z1, z2⟩ := (predicted_iff hR hz).1 h
    rw [z1]
    congr 3
    exact Finset.sum_congr rfl (fun i hi => by rw [hw, z2 i (Finset.mem_range.1 hi)])

/-- Training on many exposures.  The network `f` is trained on exposures with various contexts and lengths, in each of
which the silicon leaves with the rates that belong to the context.  On average over what can happen, the loss of a
batch of them is at least that of a network `best` that predicts the true rates, and equal only if `f` predicts the
true rates for every context of the batch. -/
theorem C126_training_partial {X : Type} (wc wr : ℝ) (hwc : 0 < wc) (hwr : 0 < wr) (truth : X → List ℝ)
    (best f : X → List ℝ) (batch : List (X × ℝ))
    (hb : ∀ e ∈ batch, truth e.1 ≠ [] ∧ (∀ r ∈ truth e.1, 0 < r) ∧ 0 < e.2 ∧
      3 / 1000000 ≤ leaveProb (truth e.1) e.2 ∧ (best e.1).length = (truth e.1).length + 1 ∧
      (f e.1).length = (truth e.1).length + 1 ∧ predictedRates (best e.1) = truth e.1) :
    (batch.map (fun e => expectedLoss wc wr (truth e.1) e.2 (best e.1))).sum / batch.length ≤
      (batch.map (fun e => expectedLoss wc wr (truth e.1) e.2 (f e.1))).sum / batch.length ∧
    ((batch.map (fun e => expectedLoss wc wr (truth e.1) e.2 (best e.1))).sum / batch.length =
      (batch.map (fun e => expectedLoss wc wr (truth e.1) e.2 (f e.1))).sum / batch.length ↔
      ∀ e ∈ batch, predictedRates (f e.1) = truth e.1) := by
  have key : ∀ l : List (X × ℝ), (∀ e ∈ l, e ∈ batch) →
      (l.map (fun e => expectedLoss wc wr (truth e.1) e.2 (best e.1))).sum ≤
        (l.map (fun e => expectedLoss wc wr (truth e.1) e.2 (f e.1))).sum ∧
      ((l.map (fun e => expectedLoss wc wr (truth e.1) e.2 (best e.1))).sum =
        (l.map (fun e => expectedLoss wc wr (truth e.1) e.2 (f e.1))).sum ↔
        ∀ e ∈ l, predictedRates (f e.1) = truth e.1) := by
    intro l
    induction l with
    | nil => intro _; simp
    | cons e l ih =>
      intro h
      obtain ⟨i1, i2⟩ := ih (fun e he => h e (List.mem_cons_of_mem _ he))
      obtain ⟨a1, a2, a3, a4, a5, a6, a7⟩ := hb e (h e List.mem_cons_self)
      obtain ⟨c1, c2⟩ := C126_truth_partial wc wr hwc hwr (truth e.1) a2 a1 e.2 a3 a4 (best e.1) (f e.1) a5 a7 a6
      simp only [List.map_cons, List.sum_cons, List.forall_mem_cons]
      refine ⟨add_le_add c1 i1, fun heq => ⟨c2.1 (by linarith), i2.1 (by linarith)⟩, fun ⟨h1, h2⟩ => ?_⟩
      rw [c2.2 h1, i2.2 h2]
  obtain ⟨k1, k2⟩ := key batch (fun _ h => h)
  rcases batch.eq_nil_or_concat with hnil | ⟨l, x, hl⟩
  · subst hnil; simp
  · have hlen : (0 : ℝ) < batch.length := by rw [hl]; simp; positivity
    refine ⟨div_le_div_of_nonneg_right k1 hlen.le, ?_⟩
    rw [← k2]
    constructor
    · intro h
      exact (div_left_inj' hlen.ne').1 h
    · intro h; rw [h]

/-- If the silicon leaves within the exposure with a probability of at most one in a million, then every output with
the true shares and a smaller total rate does better than the truth: the loss drives the rate to zero. -/
theorem C126_rare (wc wr : ℝ) (hwr : 0 < wr) (rates : List ℝ) (hpos : ∀ r ∈ rates, 0 < r) (hne : rates ≠ [])
    (t : ℝ) (ht : 0 < t) (hq : leaveProb rates t ≤ 1 / 1000000) (best z : List ℝ)
    (hb : best.length = rates.length + 1) (hbest : predictedRates best = rates) (hz : z.length = rates.length + 1)
    (c : ℝ) (hc0 : 0 < c) (hc : c < 1) (hzr : predictedRates z = rates.map (fun r => c * r)) :
    expectedLoss wc wr rates t z < expectedLoss wc wr rates t best := by
  have hR : 0 < rates.sum := sum_pos_of_mem hpos hne
  obtain ⟨b1, b2⟩ := (predicted_iff hR hb).1 hbest
  have hsum : (rates.map (fun r => c * r)).sum = c * rates.sum := sum_map_mul rates c
  have hR' : 0 < (rates.map (fun r => c * r)).sum := by rw [hsum]; positivity
  obtain ⟨z1, z2⟩ := (predicted_iff (rates := rates.map (fun r => c * r)) hR' (by simpa using hz)).1 hzr
  have z2' : ∀ i < rates.length, (softmax (networkOutput z).dropLast).getD i 0 = rates.getD i 0 / rates.sum := by
    intro i hi
    rw [z2 i (by simpa using hi), hsum, getD_real (by simpa using hi), List.getElem_map,
      getD_real hi]
    field_simp
  rw [expectedLoss_split wc wr t hR hb, expectedLoss_split wc wr t hR hz, b1, z1, hsum,
    Finset.sum_congr rfl (fun i hi => by rw [(z2' i (Finset.mem_range.1 hi)).trans (b2 i (Finset.mem_range.1 hi)).symm])]
  have := mul_lt_mul_of_pos_left (avgRateLoss_rare (q := leaveProb rates t) (T := c * rates.sum) ht hR rfl hq (by nlinarith)) hwr
  linarith

/-- With the default weights and the rates 0.1, 0.2 and 0.3 per second, an exposure of 1.5 s. -/
example : (∃ best : List ℝ, best.length = 4 ∧ predictedRates best = [1/10, 2/10, 3/10] ∧
    ∀ z : List ℝ, z.length = 4 → expectedLoss 1 1 [1/10, 2/10, 3/10] (3/2) best ≤
      expectedLoss 1 1 [1/10, 2/10, 3/10] (3/2) z) := by
  have hpos : ∀ r ∈ ([1/10, 2/10, 3/10] : List ℝ), 0 < r := by
    intro r hr
    simp only [List.mem_cons, List.not_mem_nil, or_false] at hr
    rcases hr with rfl | rfl | rfl <;> norm_num
  obtain ⟨best, h1, h2⟩ := C126_expressible [1/10, 2/10, 3/10] hpos (by simp)
  refine ⟨best, h1, h2, fun z hz => (C126_truth_partial 1 1 one_pos one_pos _ hpos (by simp) (3/2) (by norm_num) ?_
    best z h1 h2 hz).1⟩
  unfold leaveProb
  have h3 : Real.exp (-(([1/10, 2/10, 3/10] : List ℝ).sum * (3/2))) ≤ 1 / 2 := by
    rw [Real.exp_neg, ← one_div]
    apply one_div_le_one_div_of_le (by norm_num)
    have := Real.quadratic_le_exp_of_nonneg (x := ([1/10, 2/10, 3/10] : List ℝ).sum * (3/2)) (by norm_num)
    norm_num at this ⊢
    linarith
  linarith

/-- Rates of 10⁻⁷ per second: a departure in a second has a probability below one in a million. -/
example : (∀ r ∈ ([1/10000000, 1/10000000, 1/10000000] : List ℝ), 0 < r) ∧
    leaveProb [1/10000000, 1/10000000, 1/10000000] 1 ≤ 1 / 1000000 := by
  refine ⟨fun r hr => ?_, ?_⟩
  · simp only [List.mem_cons, List.not_mem_nil, or_false, or_self] at hr
    rw [hr]; norm_num
  · unfold leaveProb
    have := Real.add_one_le_exp (-(([1/10000000, 1/10000000, 1/10000000] : List ℝ).sum * 1))
    norm_num at this ⊢
    linarith

end PD.Props
