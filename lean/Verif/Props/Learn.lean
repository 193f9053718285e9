/- Properties C46, C47 and C70: predicted rates, their loss, and the predictor given to the simulator. -/
import Verif.Model.Learn
import Verif.Props.DataPoints

set_option linter.unusedSectionVars false
set_option linter.unusedSimpArgs false

namespace PD.Props
open PD PD.Spec

theorem softplus_pos (x : ℝ) : 0 < softplus x :=
  Real.log_pos (by have := Real.exp_pos x; linarith)

theorem sum_pos_of_mem {l : List ℝ} (h : ∀ x ∈ l, 0 < x) (hne : l ≠ []) : 0 < l.sum :=
  List.sum_pos _ h hne

theorem sum_map_div (l : List ℝ) (c : ℝ) : (l.map (fun a => a / c)).sum = l.sum / c := by
  induction l with
  | nil => simp
  | cons a l ih => simp only [List.map_cons, List.sum_cons, ih]; ring

theorem sum_map_mul (l : List ℝ) (c : ℝ) : (l.map (fun a => c * a)).sum = c * l.sum := by
  induction l with
  | nil => simp
  | cons a l ih => simp only [List.map_cons, List.sum_cons, ih]; ring

theorem exps_sum (xs : List ℝ) (m : ℝ) :
    (xs.map (fun x => Real.exp (x - m))).sum = (xs.map Real.exp).sum * Real.exp (-m) := by
  induction xs with
  | nil => simp
  | cons x xs ih =>
    rw [List.map_cons, List.sum_cons, ih, List.map_cons, List.sum_cons, sub_eq_add_neg, Real.exp_add]; ring

theorem exps_pos {xs : List ℝ} (h : xs ≠ []) : 0 < (xs.map Real.exp).sum := by
  apply sum_pos_of_mem
  · intro x hx
    obtain ⟨y, -, rfl⟩ := List.mem_map.1 hx
    exact Real.exp_pos y
  · simpa using h

/-- The softmax is the share of each exponential. -/
theorem softmax_getElem? (xs : List ℝ) (k : ℕ) :
    (softmax xs)[k]? = (xs[k]?).map (fun x => Real.exp x / (xs.map Real.exp).sum) := by
  unfold softmax
  simp only [List.map_map, List.getElem?_map]
  cases hx : xs[k]? with
  | none => rfl
  | some x =>
    simp only [Option.map_some, Option.some.injEq, Function.comp]
    rw [exps_sum, sub_eq_add_neg, Real.exp_add]
    exact mul_div_mul_right _ _ (Real.exp_ne_zero _)

theorem softmax_length (xs : List ℝ) : (softmax xs).length = xs.length := by simp [softmax]

theorem softmax_sum {xs : List ℝ} (h : xs ≠ []) : (softmax xs).sum = 1 := by
  unfold softmax
  simp only
  rw [sum_map_div]
  apply div_self
  rw [exps_sum]
  exact (mul_pos (exps_pos h) (Real.exp_pos _)).ne'

theorem softmax_pos {xs : List ℝ} (w : ℝ) (hw : w ∈ softmax xs) : 0 < w := by
  obtain ⟨k, hk⟩ := List.getElem?_of_mem hw
  rw [softmax_getElem?, Option.map_eq_some_iff] at hk
  obtain ⟨x, hx, rfl⟩ := hk
  exact div_pos (Real.exp_pos x) (exps_pos (by rintro rfl; simp at hx))

theorem softmax_le_one {xs : List ℝ} (w : ℝ) (hw : w ∈ softmax xs) : w ≤ 1 := by
  have hne : xs ≠ [] := by rintro rfl; simp [softmax] at hw
  rw [← softmax_sum hne]
  exact List.single_le_sum (fun x hx => (softmax_pos x hx).le) w hw

theorem logSoftmax_getElem? {xs : List ℝ} (k : ℕ) :
    (logSoftmax xs)[k]? = ((softmax xs)[k]?).map Real.log := by
  rw [softmax_getElem?]
  unfold logSoftmax
  rw [List.getElem?_map]
  cases hx : xs[k]? with
  | none => rfl
  | some x =>
    have hne : xs ≠ [] := by rintro rfl; simp at hx
    simp only [Option.map_some, Option.some.injEq]
    rw [exps_sum, Real.log_mul (exps_pos hne).ne' (Real.exp_ne_zero _), Real.log_exp,
      Real.log_div (Real.exp_ne_zero _) (exps_pos hne).ne', Real.log_exp]
    ring

theorem range_sum_getD (r : List ℝ) : ((List.range r.length).map (fun j => r.getD j 0)).sum = r.sum := by
  rw [map_getD_range]

theorem columnMeans_sum (s : ℕ) (rows : List (List ℝ)) (h : ∀ r ∈ rows, r.length = s) :
    (columnMeans s rows).sum = (rows.map List.sum).sum / rows.length := by
  unfold columnMeans
  have : ((List.range s).map (fun j => ((rows.map (fun r => r.getD j 0)).sum))).sum =
      (rows.map List.sum).sum := by
    induction rows with
    | nil => simp
    | cons r rows ih =>
      simp only [List.map_cons, List.sum_cons]
      rw [List.sum_map_add, ih (fun r hr => h r (List.mem_cons_of_mem _ hr))]
      congr 1
      have := h r (by simp)
      subst this
      exact range_sum_getD r
  rw [← this, ← sum_map_div, List.map_map]
  rfl

theorem splitRates_length (out : List ℝ) : (splitRates out).length = out.length - 1 := by
  simp [splitRates, softmax_length]

theorem splitRates_sum {out : List ℝ} (h : 2 ≤ out.length) :
    (splitRates out).sum = (out.getLast?).getD 0 := by
  unfold splitRates
  rw [sum_map_mul, softmax_sum, mul_one]
  intro hc
  have := congrArg List.length hc
  simp at this
  omega

/-! ### C46 -/

/-- The rates of the ensemble, for any raw network outputs: one for each of the `s` neighbours, all
positive, and together the mean over the models of the total rate. -/
theorem C46_split_of_total (s : ℕ) (hs : 1 ≤ s) (zs : List (List ℝ)) (hne : zs ≠ [])
    (hz : ∀ z ∈ zs, z.length = s + 1) :
    (applyModel s (zs.map networkOutput)).length = s ∧
    (∀ r ∈ applyModel s (zs.map networkOutput), 0 < r) ∧
    (applyModel s (zs.map networkOutput)).sum =
      (zs.map (fun z => (z.getLast?.map softplus).getD 0)).sum / zs.length := by
  have hlen : ∀ r ∈ (zs.map networkOutput).map splitRates, r.length = s := by
    intro r hr
    simp only [List.map_map, List.mem_map, Function.comp] at hr
    obtain ⟨z, hz', rfl⟩ := hr
    simp [splitRates_length, networkOutput, hz z hz']
  have hlast : ∀ z : List ℝ, ((networkOutput z).getLast?).getD 0 = (z.getLast?.map softplus).getD 0 := by
    intro z; simp [networkOutput]
  refine ⟨by simp [applyModel, columnMeans], ?_, ?_⟩
  · intro r hr
    simp only [applyModel, columnMeans, List.mem_map, List.mem_range] at hr
    obtain ⟨j, hj, rfl⟩ := hr
    apply div_pos
    · apply sum_pos_of_mem
      · intro x hx
        simp only [List.map_map, List.mem_map, Function.comp] at hx
        obtain ⟨z, hz', rfl⟩ := hx
        have hl : (splitRates (networkOutput z)).length = s := hlen _ (by
          simp only [List.map_map, List.mem_map, Function.comp]; exact ⟨z, hz', rfl⟩)
        rw [List.getD_eq_getElem?_getD, List.getElem?_eq_getElem (by omega), Option.getD_some]
        have hmem : (splitRates (networkOutput z))[j] ∈ splitRates (networkOutput z) :=
          List.getElem_mem _
        unfold splitRates at hmem
        obtain ⟨w, hw, hwe⟩ := List.mem_map.1 hmem
        unfold splitRates
        rw [← hwe]
        apply mul_pos _ (softmax_pos w hw)
        rw [hlast]
        obtain ⟨y, hy⟩ : ∃ y, z.getLast? = some y := by
          cases hg : z.getLast? with
          | none => rw [List.getLast?_eq_none_iff] at hg; rw [hg] at hz'; have := hz _ hz'; simp at this
          | some y => exact ⟨y, rfl⟩
        rw [hy]
        exact softplus_pos y
      · simpa using hne
    · simp only [List.length_map]
      exact_mod_cast List.length_pos_iff.2 hne
  · unfold applyModel
    rw [columnMeans_sum s _ hlen]
    simp only [List.map_map, List.length_map]
    congr 2
    apply List.map_congr_left
    intro z hz'
    simp only [Function.comp]
    rw [splitRates_sum (by simp [networkOutput, hz z hz']; omega), hlast]

/-- With a single model (as after distillation, or when one is selected) the rate of neighbour `j` is the
total rate times the share of its exponential among all neighbours. -/
theorem C46_one_model (s : ℕ) (out : List ℝ) (total : ℝ) (logits : List ℝ) (hl : logits.length = s)
    (ho : out = logits ++ [total]) (j : ℕ) (x : ℝ) (hx : logits[j]? = some x) :
    (applyModel s [out])[j]? = some (total * (Real.exp x / (logits.map Real.exp).sum)) := by
  subst ho
  have hj : j < s := by rw [← hl]; exact (List.getElem?_eq_some_iff.1 hx).1
  have h1 : (splitRates (logits ++ [total]))[j]? =
      some (total * (Real.exp x / (logits.map Real.exp).sum)) := by
    simp [splitRates, softmax_getElem?, hx]
  simp only [applyModel, columnMeans, List.getElem?_map, List.getElem?_range hj, Option.map_some,
    List.map_cons, List.map_nil, List.sum_cons, List.sum_nil, List.length_cons, List.length_nil]
  rw [List.getD_eq_getElem?_getD, h1]
  simp

example : applyModel 1 [[0, 3], [0, 5]] = [4] := by
  norm_num [applyModel, columnMeans, splitRates, softmax, listMax]

/-! ### C47 -/

theorem noTransitionProb_range (total elapsed : ℝ) :
    0 < noTransitionProb total elapsed ∧ noTransitionProb total elapsed ≤ 1 - 1 / 1000000 := by
  unfold noTransitionProb
  refine ⟨lt_min (Real.exp_pos _) (by norm_num), min_le_right _ _⟩

/-- The rate loss.  Its logarithm is only ever taken of a number in [10⁻⁶, 1); for non-negative rate and
time the loss is non-negative and at most the larger of log 10⁶ and rate × time.  Without a transition it
is rate × time, minus the logarithm of the probability of no event; with one it is minus the logarithm of
the probability of an event, taken as at least 10⁻⁶. -/
theorem C47_rate_loss (total elapsed : ℝ) (ht : 0 ≤ total) (he : 0 ≤ elapsed) (nextState : ℕ) :
    (1 / 1000000 ≤ 1 - noTransitionProb total elapsed ∧ 1 - noTransitionProb total elapsed < 1) ∧
    0 ≤ rateLoss total elapsed (didTransition nextState) ∧
    rateLoss total elapsed (didTransition nextState) ≤ max (Real.log 1000000) (total * elapsed) ∧
    (nextState = 0 → rateLoss total elapsed (didTransition nextState) = total * elapsed) ∧
    (nextState ≠ 0 → Real.exp (-rateLoss total elapsed (didTransition nextState)) =
      max (1 - Real.exp (-(total * elapsed))) (1 / 1000000)) := by
  obtain ⟨h1, h2⟩ := noTransitionProb_range total elapsed
  have hlo : 1 / 1000000 ≤ 1 - noTransitionProb total elapsed := by linarith
  have hhi : 1 - noTransitionProb total elapsed < 1 := by linarith
  have hp : 0 < 1 - noTransitionProb total elapsed := by linarith
  have hneg := Real.log_nonpos hp.le hhi.le
  have hbd : -Real.log 1000000 ≤ Real.log (1 - noTransitionProb total elapsed) := by
    rw [← Real.log_inv]
    exact Real.log_le_log (by norm_num) (by linarith)
  have hte := mul_nonneg ht he
  refine ⟨⟨hlo, hhi⟩, ?_⟩
  by_cases hn : nextState = 0
  · have : rateLoss total elapsed (didTransition nextState) = total * elapsed := by
      simp [rateLoss, didTransition, hn]
    rw [this]
    exact ⟨hte, le_max_right _ _, fun _ => rfl, fun h => absurd hn h⟩
  · have : rateLoss total elapsed (didTransition nextState) =
        -Real.log (1 - noTransitionProb total elapsed) := by
      simp [rateLoss, didTransition, hn]
    rw [this]
    refine ⟨by linarith, le_trans (by linarith) (le_max_left _ _), fun h => absurd h hn, fun _ => ?_⟩
    rw [neg_neg, Real.exp_log hp]
    unfold noTransitionProb
    rw [neg_mul]
    rcases le_total (Real.exp (-(total * elapsed))) (1 - 1 / 1000000) with h | h
    · rw [min_eq_left h, max_eq_left (by linarith)]
    · rw [min_eq_right h, max_eq_right (by linarith)]; ring

/-- The neighbour loss: nothing without a transition; with a transition to neighbour `l` it is minus the
logarithm of the predicted probability of that neighbour, which is positive and at most one, so the loss
is non-negative. -/
theorem C47_class_loss (logits : List ℝ) (nextState : ℕ) (hn : nextState ≤ logits.length) :
    0 ≤ classLoss logits nextState (didTransition nextState) ∧
    (nextState = 0 → classLoss logits nextState (didTransition nextState) = 0) ∧
    (nextState ≠ 0 → ∃ p, (softmax logits)[nextState - 1]? = some p ∧ 0 < p ∧ p ≤ 1 ∧
      classLoss logits nextState (didTransition nextState) = -Real.log p) := by
  by_cases h : nextState = 0
  · have : classLoss logits nextState (didTransition nextState) = 0 := by
      simp [classLoss, didTransition, h]
    rw [this]
    exact ⟨le_rfl, fun _ => rfl, fun hc => absurd h hc⟩
  · have hl : nextState - 1 < (softmax logits).length := by rw [softmax_length]; omega
    have hp := List.getElem?_eq_getElem hl
    have hm : (softmax logits)[nextState - 1] ∈ softmax logits := List.getElem_mem _
    have h1 := softmax_pos _ hm
    have h2 := softmax_le_one _ hm
    have hc : classLoss logits nextState (didTransition nextState) =
        -Real.log (softmax logits)[nextState - 1] := by
      simp only [classLoss, didTransition, h, if_false, ne_eq, not_false_eq_true, if_true, mul_one]
      rw [List.getD_eq_getElem?_getD, logSoftmax_getElem?, hp]
      rfl
    refine ⟨?_, fun hh => absurd hh h, fun _ => ⟨_, hp, h1, h2, hc⟩⟩
    rw [hc]
    have := Real.log_nonpos h1.le h2
    linarith

/-- The loss of a minibatch of raw network outputs with non-negative times, labels between 0 and the
number of neighbours and non-negative weights is non-negative. -/
theorem C47_loss_nonneg (wc wr : ℝ) (hc : 0 ≤ wc) (hr : 0 ≤ wr)
    (es : List (List ℝ × ℕ × ℝ)) (hl : ∀ e ∈ es, e.2.1 < e.1.length ∧ 0 ≤ e.2.2) :
    0 ≤ batchedLoss wc wr (es.map (fun e => ⟨networkOutput e.1, e.2.1, e.2.2⟩)) := by
  unfold batchedLoss
  apply div_nonneg _ (Nat.cast_nonneg _)
  apply List.sum_nonneg
  intro x hx
  simp only [List.map_map, List.mem_map, Function.comp] at hx
  obtain ⟨⟨z, l, t⟩, he, rfl⟩ := hx
  obtain ⟨h1, h2⟩ := hl _ he
  simp only at h1 h2
  have htot : 0 ≤ ((networkOutput z).getLast?).getD 0 := by
    simp only [networkOutput, List.getLast?_map]
    cases z.getLast? with
    | none => simp
    | some y => simpa using (softplus_pos y).le
  have h3 := (C47_rate_loss _ t htot h2 l).2.1
  have h4 := (C47_class_loss (networkOutput z).dropLast l (by simp [networkOutput]; omega)).1
  simp only [exampleLoss]
  exact add_nonneg (mul_nonneg h4 hc) (mul_nonneg h3 hr)

/-- What the loss reports as the predicted rates is the total rate alone, whatever the neighbours'
outputs. -/
theorem C47_reported_rates (logits : List ℝ) (total : ℝ) :
    reportedRates (logits ++ [total]) = [total] := by
  simp [reportedRates, softmax, listMax]

example : (0 : ℝ) ≤ 1 ∧ ∀ e ∈ [(([0, 0, 0, 0] : List ℝ), 3, (2 : ℝ))], e.2.1 < e.1.length ∧ 0 ≤ e.2.2 := by
  norm_num

/-! ### C70 -/

theorem standardize_total (beam : V2 ℝ) {nbrs : List (V2 ℝ)} (hne : nbrs ≠ []) :
    ∃ b rs order, standardize beam nbrs = .ok (b, rs, order) ∧ order.Perm (List.range nbrs.length) := by
  unfold standardize
  obtain ⟨k, hk⟩ := argmin?_isSome (l := nbrs.map (fun n => norm2 (n - beam))) (by simpa using hne)
  have hkl := argmin?_lt hk
  simp only [List.length_map] at hkl
  rw [hk]
  simp only [getAngles, List.getElem?_map, List.getElem?_eq_getElem hkl, Option.map_some]
  refine ⟨_, _, _, rfl, ?_⟩
  have := argsort_perm ((nbrs.map getAngle).map
    (fun t => pyMod (t + -getAngle nbrs[k]) (2 * Real.pi)))
  simpa using this

/-- With the default configuration the predictor never returns rates: the voltage and the current are
numbers, which cannot be concatenated with the position. -/
theorem C70_default_raises (useVoltage useCurrent : Bool) (nets : List (V2 ℝ → List ℝ))
    (grid : Grid ℝ) (beam current : V2 ℝ) (idx : List ℕ)
    (h : useVoltage = true ∨ useCurrent = true) (hi : ∀ i ∈ idx, i < grid.positions.length)
    (hne : idx ≠ []) :
    learnedPredict useVoltage useCurrent nets grid beam current idx = .error .valueError := by
  obtain ⟨nbrs, hn⟩ := takeRows_inRange hi
  have hl := (takeRows_ok hn).1
  have hne' : nbrs.map (fun p => p - current) ≠ [] := by
    intro hc
    simp only [List.map_eq_nil_iff] at hc
    rw [hc] at hl
    exact hne (List.length_eq_zero_iff.1 hl.symm)
  obtain ⟨b, rs, order, hs, -⟩ := standardize_total
    (⟨(beam - current).x / BOND, (beam - current).y / BOND⟩ : V2 ℝ) hne'
  simp only [learnedPredict, predictInput, hn, hs]
  cases useVoltage <;> cases useCurrent <;> simp at h ⊢

/-- Nor does it for an ensemble of several models, whatever the configuration. -/
theorem C70_ensemble_raises (useVoltage useCurrent : Bool) (nets : List (V2 ℝ → List ℝ))
    (grid : Grid ℝ) (beam current : V2 ℝ) (idx : List ℕ)
    (h : nets.length ≠ 1) (rates : List ℝ) :
    learnedPredict useVoltage useCurrent nets grid beam current idx ≠ .ok rates := by
  intro hc
  unfold learnedPredict at hc
  split at hc
  · cases hc
  · match nets, h with
    | [], _ => cases hc
    | _ :: _ :: _, _ => cases hc

/-- With one model and neither voltage nor current, the prediction for neighbour `k` is the raw output of
the network numbered by the neighbours in counter-clockwise order, starting from the one nearest to the
beam after its offset has been divided by the bond length, for the position of that scaled beam in the
frame in which this nearest neighbour lies on the first axis.  (The property asks for that share of the
last output: `C70_not_split`.) -/
theorem C70_raw_outputs_partial (net : V2 ℝ → List ℝ) (grid : Grid ℝ) (beam si : V2 ℝ) (idx : List ℕ)
    (nbrs : List (V2 ℝ)) (hn : takeRows grid.positions idx = .ok nbrs) (hne : nbrs ≠ [])
    (hsi : ∀ p ∈ nbrs, p ≠ si) (hnet : ∀ x, nbrs.length ≤ (net x).length) :
    ∃ rates, learnedPredict false false [net] grid beam si idx = .ok rates ∧
      rates.length = nbrs.length ∧
      let b : V2 ℝ := ⟨(beam - si).x / BOND, (beam - si).y / BOND⟩
      ∃ q ∈ nbrs, (∀ p ∈ nbrs, Spec.dist b (q - si) ≤ Spec.dist b (p - si)) ∧
      ∃ θs : List ℝ, List.Forall₂ (fun p θ => CcwAngle (q - si) (p - si) θ) nbrs θs ∧
        (θs.Nodup → ∀ (k : ℕ) (θ : ℝ), θs[k]? = some θ →
          rates[k]? = (net (along (q - si) b))[(θs.filter (fun t => decide (t < θ))).length]?) := by
  set b : V2 ℝ := ⟨(beam - si).x / BOND, (beam - si).y / BOND⟩ with hb
  have hst : ∃ q ∈ nbrs, (∀ p ∈ nbrs, Spec.dist b (q - si) ≤ Spec.dist b (p - si)) ∧
      ∃ rs, standardize b (nbrs.map (fun p => p - si)) = .ok (along (q - si) b, rs,
        argsort (nbrs.map (fun p => pyMod (getAngle (p - si) + -getAngle (q - si)) (2 * Real.pi)))) := by
    unfold standardize
    obtain ⟨k, hk⟩ := argmin?_isSome (l := (nbrs.map (fun p => p - si)).map (fun n => norm2 (n - b)))
      (by simpa using hne)
    have hkl := argmin?_lt hk
    simp only [List.length_map] at hkl
    have hqm : nbrs[k] ∈ nbrs := List.getElem_mem _
    refine ⟨nbrs[k], hqm, ?_, ?_⟩
    · obtain ⟨v, hv, hmin, -⟩ := argmin?_eq_some hk
      rw [List.map_map] at hv hmin
      rw [List.getElem?_map, List.getElem?_eq_getElem hkl] at hv
      simp only [Option.map_some, Option.some.injEq, Function.comp] at hv
      intro p hp
      have := hmin _ (List.mem_map_of_mem hp)
      simp only [Function.comp] at this
      rw [norm2_sub] at this hv
      rwa [dist_comm', dist_comm' b, hv]
    · rw [hk]
      have hlen : len (nbrs[k] - si) ≠ 0 := by
        intro h0
        apply hsi _ hqm
        have h1 := len_cos_angle (nbrs[k] - si); have h2 := len_sin_angle (nbrs[k] - si)
        rw [h0, zero_mul] at h1 h2
        ext
        · exact (sub_eq_zero.1 h1.symm)
        · exact (sub_eq_zero.1 h2.symm)
      simp only [getAngles, List.getElem?_map, List.getElem?_eq_getElem hkl, Option.map_some]
      refine ⟨rotateCoordinates (nbrs.map (fun p => p - si)) (-getAngle (nbrs[k] - si)), ?_⟩
      rw [rotate_along hlen, List.map_map, List.map_map]
      rfl
  obtain ⟨q, hq, hnear, rs, hs⟩ := hst
  set θs := nbrs.map (fun p => pyMod (getAngle (p - si) + -getAngle (q - si)) (2 * Real.pi)) with hθ
  have hperm : (argsort θs).Perm (List.range nbrs.length) := by
    have := argsort_perm θs
    rwa [hθ, List.length_map] at this
  have hperm2 : (argsort (argsort θs)).Perm (List.range nbrs.length) := by
    have := argsort_perm (argsort θs)
    rwa [argsort_length, hθ, List.length_map] at this
  obtain ⟨rates, hr⟩ := takeRows_inRange (rows := net (along (q - si) b)) (idx := argsort (argsort θs))
    (fun i hi => by
      have := List.mem_range.1 (hperm2.mem_iff.1 hi)
      exact lt_of_lt_of_le this (hnet _))
  obtain ⟨hl, hget⟩ := takeRows_ok hr
  refine ⟨rates, ?_, ?_, q, hq, hnear, θs, ?_, ?_⟩
  · simp only [learnedPredict, predictInput, hn, ← hb, hs, packagedModel]
    exact hr
  · rw [hl, hperm2.length_eq, List.length_range]
  · rw [hθ, List.forall₂_map_right_iff]
    exact List.forall₂_same.2 (fun p _ => ccwAngle_pyMod _ _)
  · intro hnd k θ hk
    have hkl : k < (argsort (argsort θs)).length := by
      rw [argsort_length, argsort_length]; exact (List.getElem?_eq_some_iff.1 hk).1
    have h1 := List.getElem?_eq_getElem hkl
    rw [hget k, h1, Option.bind_some, ← argsort_rank hnd (argsort_inverse hperm h1) hk]

/-- The prediction is not the split of the total rate that `apply_model` reports: a network whose outputs
are `a` for the three neighbours and `t` for the total predicts rates of sum `3a`, while `apply_model`
splits `t`. -/
theorem C70_not_split (a t : ℝ) (grid : Grid ℝ) (beam si : V2 ℝ) (idx : List ℕ) (hidx : idx.length = 3)
    (hi : ∀ i ∈ idx, i < grid.positions.length) :
    learnedPredict false false [fun _ => [a, a, a, t]] grid beam si idx = .ok [a, a, a] ∧
    (applyModel 3 [[a, a, a, t]]).sum = t := by
  constructor
  · obtain ⟨nbrs, hn⟩ := takeRows_inRange hi
    have hl := (takeRows_ok hn).1
    have hne' : nbrs.map (fun p => p - si) ≠ [] := by
      intro hc
      simp only [List.map_eq_nil_iff] at hc
      rw [hc, hidx] at hl
      simp at hl
    obtain ⟨b, rs, order, hs, hp⟩ := standardize_total
      (⟨(beam - si).x / BOND, (beam - si).y / BOND⟩ : V2 ℝ) hne'
    rw [List.length_map, hl, hidx] at hp
    simp only [learnedPredict, predictInput, hn, hs, packagedModel]
    have hp2 : (argsort order).Perm (List.range 3) := by
      have := argsort_perm order
      rwa [show order.length = 3 by simpa using hp.length_eq] at this
    have hlt : ∀ i ∈ argsort order, i < 3 := fun i hi => List.mem_range.1 (hp2.mem_iff.1 hi)
    have hlen : (argsort order).length = 3 := by simpa using hp2.length_eq
    match h : argsort order, hlen with
    | [i, j, k], _ =>
      rw [h] at hlt
      have get : ∀ n, n < 3 → [a, a, a, t][n]? = some a := by
        intro n hn
        match n, hn with
        | 0, _ => rfl
        | 1, _ => rfl
        | 2, _ => rfl
      simp [takeRows, h, get i (hlt i (by simp)), get j (hlt j (by simp)), get k (hlt k (by simp))]
  · unfold applyModel
    rw [columnMeans_sum 3 _ (by simp [splitRates_length])]
    simp only [List.map_cons, List.map_nil, List.sum_cons, List.sum_nil, List.length_cons,
      List.length_nil]
    rw [splitRates_sum (by simp)]
    simp

/-- The hypotheses of `C70_raw_outputs_partial`: a silicon with two neighbours. -/
example : takeRows ([⟨0, 0⟩, ⟨1, 0⟩, ⟨0, 1⟩] : List (V2 ℝ)) [1, 2] = .ok [⟨1, 0⟩, ⟨0, 1⟩] ∧
    ∀ p ∈ ([⟨1, 0⟩, ⟨0, 1⟩] : List (V2 ℝ)), p ≠ ⟨0, 0⟩ := by
  refine ⟨rfl, ?_⟩
  intro p hp
  simp only [List.mem_cons, List.not_mem_nil, or_false] at hp
  rcases hp with rfl | rfl <;> simp [V2.ext_iff]

end PD.Props
