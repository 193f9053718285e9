/- C108: the standardisation of the inputs of the rate predictor. -/
import Verif.Model.BatchNorm
import Verif.Props.Learn
import Mathlib.Algebra.Order.Field.GeomSum
import Mathlib.Algebra.BigOperators.Field
import Mathlib.Tactic.FieldSimp
import Mathlib.Tactic.Positivity

set_option linter.unusedSectionVars false
set_option linter.unusedSimpArgs false

namespace PD.Props
open PD

/-! ### Specification -/

/-- The values of feature `j` in some rows. -/
def feature (j : ℕ) (rows : List (List ℝ)) : List ℝ := rows.map (fun r => r.getD j 0)

/-- The arithmetic mean. -/
noncomputable def arithMean (xs : List ℝ) : ℝ := xs.sum / xs.length

/-- The variance: the mean squared distance from the mean. -/
noncomputable def variance (xs : List ℝ) : ℝ := arithMean (xs.map (fun x => (x - arithMean xs) ^ 2))

/-- How much batch `i` of `n` counts: the later, the more. -/
noncomputable def batchWeight (n i : ℕ) : ℝ := (1 / 10) * (9 / 10) ^ (n - 1 - i) / (1 - (9 / 10) ^ n)

/-! ### Lemmas -/

theorem sum_map_sub_const (xs : List ℝ) (c : ℝ) :
    (xs.map (fun x => x - c)).sum = xs.sum - xs.length * c := by
  induction xs with
  | nil => simp
  | cons x xs ih => simp only [List.map_cons, List.sum_cons, ih, List.length_cons]; push_cast; ring

theorem variance_eq {xs : List ℝ} (h : xs ≠ []) :
    variance xs = arithMean (xs.map (fun x => x ^ 2)) - arithMean xs ^ 2 := by
  have hl : (xs.length : ℝ) ≠ 0 := by
    have : 0 < xs.length := List.length_pos_iff.2 h
    positivity
  have key : ∀ m : ℝ, (xs.map (fun x => (x - m) ^ 2)).sum =
      (xs.map (fun x => x ^ 2)).sum - 2 * m * xs.sum + xs.length * m ^ 2 := by
    intro m
    clear hl h
    induction xs with
    | nil => simp
    | cons x xs ih => simp only [List.map_cons, List.sum_cons, ih, List.length_cons]; push_cast; ring
  unfold variance
  rw [arithMean, key]
  simp only [arithMean, List.length_map]
  field_simp
  ring

theorem arithMean_le {xs : List ℝ} (h : xs ≠ []) {hi : ℝ} (hx : ∀ x ∈ xs, x ≤ hi) : arithMean xs ≤ hi := by
  have hl : (0 : ℝ) < xs.length := by exact_mod_cast List.length_pos_iff.2 h
  rw [arithMean, div_le_iff₀ hl]
  clear h hl
  induction xs with
  | nil => simp
  | cons x xs ih =>
    simp only [List.sum_cons, List.length_cons]
    have := hx x (by simp)
    have := ih (fun y hy => hx y (by simp [hy]))
    push_cast
    linarith

theorem le_arithMean {xs : List ℝ} (h : xs ≠ []) {lo : ℝ} (hx : ∀ x ∈ xs, lo ≤ x) : lo ≤ arithMean xs := by
  have hl : (0 : ℝ) < xs.length := by exact_mod_cast List.length_pos_iff.2 h
  rw [arithMean, le_div_iff₀ hl]
  clear h hl
  induction xs with
  | nil => simp
  | cons x xs ih =>
    simp only [List.sum_cons, List.length_cons]
    have := hx x (by simp)
    have := ih (fun y hy => hx y (by simp [hy]))
    push_cast
    linarith

theorem variance_nonneg (xs : List ℝ) : 0 ≤ variance xs := by
  unfold variance arithMean
  apply div_nonneg
  · apply List.sum_nonneg
    intro y hy
    obtain ⟨x, _, rfl⟩ := List.mem_map.1 hy
    positivity
  · positivity

theorem variance_le {xs : List ℝ} (h : xs ≠ []) {lo hi : ℝ} (hx : ∀ x ∈ xs, lo ≤ x ∧ x ≤ hi) :
    variance xs ≤ (hi - lo) ^ 2 / 4 := by
  rw [variance_eq h]
  have h1 : arithMean (xs.map (fun x => x ^ 2)) ≤ (lo + hi) * arithMean xs - lo * hi := by
    have hl : (0 : ℝ) < xs.length := by exact_mod_cast List.length_pos_iff.2 h
    simp only [arithMean, List.length_map]
    rw [div_le_iff₀ hl, sub_mul, mul_assoc, div_mul_cancel₀ _ (ne_of_gt hl)]
    clear h hl
    induction xs with
    | nil => simp
    | cons x xs ih =>
      simp only [List.map_cons, List.sum_cons, List.length_cons]
      have h1 := hx x (by simp)
      have h2 := ih (fun y hy => hx y (by simp [hy]))
      have h3 : 0 ≤ (x - lo) * (hi - x) := mul_nonneg (by linarith [h1.1]) (by linarith [h1.2])
      push_cast
      nlinarith
  nlinarith [sq_nonneg (arithMean xs - (lo + hi) / 2)]

theorem columnMeans_length (d : ℕ) (rows : List (List ℝ)) : (columnMeans d rows).length = d := by
  simp [columnMeans]

theorem columnMeans_getD {d j : ℕ} (hj : j < d) (rows : List (List ℝ)) :
    (columnMeans d rows).getD j 0 = arithMean (feature j rows) := by
  simp [columnMeans, List.getD_eq_getElem?_getD, hj, arithMean, feature]

theorem columnVars_length (d : ℕ) (rows : List (List ℝ)) : (columnVars d rows).length = d := by
  simp [columnVars, columnMeans_length]

theorem getD_map_sq (r : List ℝ) (j : ℕ) : (r.map (fun x => x ^ 2)).getD j 0 = (r.getD j 0) ^ 2 := by
  simp only [List.getD_eq_getElem?_getD, List.getElem?_map]
  cases r[j]? <;> simp

theorem columnVars_getD {d j : ℕ} (hj : j < d) {rows : List (List ℝ)} (h : rows ≠ []) :
    (columnVars d rows).getD j 0 = variance (feature j rows) := by
  have hne : feature j rows ≠ [] := by simpa [feature] using h
  rw [variance_eq hne, ← columnMeans_getD hj]
  have : (columnMeans d (rows.map (fun r => r.map (fun x => x ^ 2)))).getD j 0 =
      arithMean ((feature j rows).map (fun x => x ^ 2)) := by
    rw [columnMeans_getD hj]
    congr 1
    simp only [feature, List.map_map]
    apply List.map_congr_left
    intro r _
    exact getD_map_sq r j
  rw [← this]
  have h1 : j < (columnMeans d (rows.map (fun r => r.map (fun x => x ^ 2)))).length := by
    rw [columnMeans_length]; exact hj
  have h2 : j < (columnMeans d rows).length := by rw [columnMeans_length]; exact hj
  simp only [columnVars, List.getD_eq_getElem?_getD, List.getElem?_zipWith,
    List.getElem?_eq_getElem h1, List.getElem?_eq_getElem h2, Option.getD_some]

/-- Running means after some values. -/
noncomputable def updates (e : RunningMean) (vs : List (List ℝ)) : RunningMean :=
  vs.foldl (fun e v => e.update v) e

theorem updates_hidden {d : ℕ} (vs : List (List ℝ)) (hv : ∀ v ∈ vs, v.length = d) :
    ∀ e : RunningMean, e.hidden.length = d →
      (updates e vs).hidden.length = d ∧ (updates e vs).counter = e.counter + vs.length ∧
      ∀ j < d, (updates e vs).hidden.getD j 0 = e.hidden.getD j 0 * bnDecay ^ vs.length +
        ∑ i ∈ Finset.range vs.length, (1 - bnDecay) * bnDecay ^ (vs.length - 1 - i) * (vs.getD i []).getD j 0 := by
  induction vs with
  | nil => intro e he; simp [updates, he]
  | cons v vs ih =>
    intro e he
    have hvl : v.length = d := hv v (by simp)
    have hl : (e.update v).hidden.length = d := by simp [RunningMean.update, he, hvl]
    obtain ⟨h1, h2, h3⟩ := ih (fun w hw => hv w (by simp [hw])) (e.update v) hl
    have hfold : updates e (v :: vs) = updates (e.update v) vs := rfl
    rw [hfold]
    refine ⟨h1, ?_, ?_⟩
    · rw [h2]; simp [RunningMean.update]; omega
    · intro j hj
      rw [h3 j hj]
      have hh : (e.update v).hidden.getD j 0 = e.hidden.getD j 0 * bnDecay + v.getD j 0 * (1 - bnDecay) := by
        have a1 : j < e.hidden.length := by omega
        have a2 : j < v.length := by omega
        simp only [RunningMean.update, List.getD_eq_getElem?_getD, List.getElem?_zipWith,
          List.getElem?_eq_getElem a1, List.getElem?_eq_getElem a2, Option.getD_some]
      rw [hh, List.length_cons, Finset.sum_range_succ']
      have hs : ∑ i ∈ Finset.range vs.length,
          (1 - bnDecay) * bnDecay ^ (vs.length + 1 - 1 - (i + 1)) * ((v :: vs).getD (i + 1) []).getD j 0 =
          ∑ i ∈ Finset.range vs.length, (1 - bnDecay) * bnDecay ^ (vs.length - 1 - i) * (vs.getD i []).getD j 0 := by
        apply Finset.sum_congr rfl
        intro i _
        have : vs.length + 1 - 1 - (i + 1) = vs.length - 1 - i := by omega
        rw [this]
        simp
      rw [hs]
      simp only [Nat.add_sub_cancel, Nat.sub_zero, List.getD_cons_zero]
      ring

theorem updates_average {d : ℕ} {vs : List (List ℝ)} (hv : ∀ v ∈ vs, v.length = d) (hne : vs ≠ [])
    (avg : List ℝ) {j : ℕ} (hj : j < d) :
    (updates ⟨List.replicate d 0, avg, 0⟩ vs).average.getD j 0 =
      ∑ i ∈ Finset.range vs.length, batchWeight vs.length i * (vs.getD i []).getD j 0 := by
  have hav : ∀ (us : List (List ℝ)) (e : RunningMean), us ≠ [] →
      (updates e us).average = (updates e us).hidden.map (fun h => h / (1 - bnDecay ^ (updates e us).counter)) := by
    intro us
    induction us with
    | nil => simp
    | cons u us ih =>
      intro e _
      by_cases hu : us = []
      · subst hu; simp [updates, RunningMean.update]
      · exact ih (e.update u) hu
  rw [hav vs _ hne]
  obtain ⟨h1, h2, h3⟩ := updates_hidden vs hv ⟨List.replicate d 0, avg, 0⟩ (by simp)
  have hl : j < (updates ⟨List.replicate d 0, avg, 0⟩ vs).hidden.length := by omega
  have hh := h3 j hj
  rw [List.getD_eq_getElem?_getD, List.getElem?_eq_getElem hl, Option.getD_some] at hh
  rw [List.getD_eq_getElem?_getD, List.getElem?_map, List.getElem?_eq_getElem hl, Option.map_some,
    Option.getD_some, hh, h2]
  have hz : (List.replicate d (0 : ℝ)).getD j 0 = 0 := by simp [List.getD_eq_getElem?_getD, hj]
  simp only [hz, zero_mul, zero_add, Finset.sum_div]
  apply Finset.sum_congr rfl
  intro i _
  unfold batchWeight bnDecay
  ring

theorem one_sub_pow_pos {n : ℕ} (hn : n ≠ 0) : (0 : ℝ) < 1 - (9 / 10) ^ n := by
  have : ((9 : ℝ) / 10) ^ n < 1 := pow_lt_one₀ (by norm_num) (by norm_num) hn
  linarith

theorem batchWeight_pos {n : ℕ} (hn : n ≠ 0) (i : ℕ) : 0 < batchWeight n i := by
  unfold batchWeight
  have := one_sub_pow_pos hn
  positivity

theorem batchWeight_sum {n : ℕ} (hn : n ≠ 0) : ∑ i ∈ Finset.range n, batchWeight n i = 1 := by
  have h := one_sub_pow_pos hn
  unfold batchWeight
  rw [← Finset.sum_div, div_eq_one_iff_eq (ne_of_gt h), ← Finset.mul_sum,
    Finset.sum_range_reflect (fun i => ((9 : ℝ) / 10) ^ i) n, geom_sum_eq (by norm_num)]
  ring

theorem bnAfter_eq (d : ℕ) (p : BnParams) (batches : List (List (List ℝ))) : ∀ s : BnState,
    bnAfter d p s batches = ⟨updates s.mean (batches.map (columnMeans d)), updates s.var (batches.map (columnVars d))⟩ := by
  induction batches with
  | nil => intro s; rfl
  | cons b bs ih =>
    intro s
    have : bnAfter d p s (b :: bs) = bnAfter d p ((bnTrain d p s b).2) bs := rfl
    rw [this, ih]
    rfl

/-! ### C108 -/

/-- After training on any batches, the standardisation used for predictions has, for every feature, the
weighted average of the batches' means and that of their variances.  The weights are positive, later
batches count more, and together the weights are one: nothing of the initial state is left. -/
theorem C108_running {d : ℕ} (p : BnParams) (rows0 : List (List ℝ)) {batches : List (List (List ℝ))}
    (hne : batches ≠ []) (hb : ∀ b ∈ batches, b ≠ []) :
    (∀ i, 0 < batchWeight batches.length i) ∧
    (∑ i ∈ Finset.range batches.length, batchWeight batches.length i) = 1 ∧
    (∀ i, i + 1 < batches.length → batchWeight batches.length i < batchWeight batches.length (i + 1)) ∧
    ∀ j < d,
      (bnAfter d p (bnInit d rows0) batches).mean.average.getD j 0 =
        ∑ i ∈ Finset.range batches.length,
          batchWeight batches.length i * arithMean (feature j (batches.getD i [])) ∧
      (bnAfter d p (bnInit d rows0) batches).var.average.getD j 0 =
        ∑ i ∈ Finset.range batches.length,
          batchWeight batches.length i * variance (feature j (batches.getD i [])) := by
  have hn : batches.length ≠ 0 := by simpa using hne
  refine ⟨batchWeight_pos hn, batchWeight_sum hn, ?_, ?_⟩
  · intro i hi
    have h := one_sub_pow_pos hn
    unfold batchWeight
    have e : batches.length - 1 - i = (batches.length - 1 - (i + 1)) + 1 := by omega
    rw [e, pow_succ]
    apply div_lt_div_of_pos_right _ h
    have : (0 : ℝ) < (9 / 10) ^ (batches.length - 1 - (i + 1)) := by positivity
    linarith
  · intro j hj
    rw [bnAfter_eq]
    constructor
    · have := updates_average (d := d) (vs := batches.map (columnMeans d))
        (by intro v hv; obtain ⟨b, _, rfl⟩ := List.mem_map.1 hv; exact columnMeans_length d b)
        (by simpa using hne) (columnMeans d rows0) hj
      simp only [bnInit, List.length_map] at this ⊢
      rw [this]
      apply Finset.sum_congr rfl
      intro i hi
      have hi' : i < batches.length := Finset.mem_range.1 hi
      congr 1
      have hg : (batches.map (columnMeans d)).getD i [] = columnMeans d (batches[i]) := by
        rw [List.getD_eq_getElem?_getD, List.getElem?_map, List.getElem?_eq_getElem hi', Option.map_some,
          Option.getD_some]
      rw [hg, columnMeans_getD hj, List.getD_eq_getElem?_getD, List.getElem?_eq_getElem hi',
        Option.getD_some]
    · have := updates_average (d := d) (vs := batches.map (columnVars d))
        (by intro v hv; obtain ⟨b, _, rfl⟩ := List.mem_map.1 hv; exact columnVars_length d b)
        (by simpa using hne) (columnVars d rows0) hj
      simp only [bnInit, List.length_map] at this ⊢
      rw [this]
      apply Finset.sum_congr rfl
      intro i hi
      have hi' : i < batches.length := Finset.mem_range.1 hi
      congr 1
      have hg : (batches.map (columnVars d)).getD i [] = columnVars d (batches[i]) := by
        rw [List.getD_eq_getElem?_getD, List.getElem?_map, List.getElem?_eq_getElem hi', Option.map_some,
          Option.getD_some]
      rw [hg, columnVars_getD hj (hb _ (List.getElem_mem hi')), List.getD_eq_getElem?_getD,
        List.getElem?_eq_getElem hi', Option.getD_some]

/-- Two batches of two rows. -/
example : ([[[0, 1], [2, 3]], [[1, 1], [5, 0]]] : List (List (List ℝ))) ≠ [] ∧
    ∀ b ∈ ([[[0, 1], [2, 3]], [[1, 1], [5, 0]]] : List (List (List ℝ))), b ≠ [] := by simp

theorem weighted_le {n : ℕ} (hn : n ≠ 0) (f : ℕ → ℝ) {hi : ℝ} (hf : ∀ i < n, f i ≤ hi) :
    ∑ i ∈ Finset.range n, batchWeight n i * f i ≤ hi := by
  calc ∑ i ∈ Finset.range n, batchWeight n i * f i
      ≤ ∑ i ∈ Finset.range n, batchWeight n i * hi := by
        apply Finset.sum_le_sum
        intro i h
        exact mul_le_mul_of_nonneg_left (hf i (Finset.mem_range.1 h)) (batchWeight_pos hn i).le
    _ = hi := by rw [← Finset.sum_mul, batchWeight_sum hn, one_mul]

theorem le_weighted {n : ℕ} (hn : n ≠ 0) (f : ℕ → ℝ) {lo : ℝ} (hf : ∀ i < n, lo ≤ f i) :
    lo ≤ ∑ i ∈ Finset.range n, batchWeight n i * f i := by
  calc lo = ∑ i ∈ Finset.range n, batchWeight n i * lo := by
        rw [← Finset.sum_mul, batchWeight_sum hn, one_mul]
    _ ≤ ∑ i ∈ Finset.range n, batchWeight n i * f i := by
        apply Finset.sum_le_sum
        intro i h
        exact mul_le_mul_of_nonneg_left (hf i (Finset.mem_range.1 h)) (batchWeight_pos hn i).le

theorem getD_mem {α : Type} {l : List α} {i : ℕ} (h : i < l.length) (x : α) : l.getD i x ∈ l := by
  rw [List.getD_eq_getElem?_getD, List.getElem?_eq_getElem h, Option.getD_some]
  exact List.getElem_mem h

/-- If all values of a feature that were seen in training lie between `lo` and `hi`, so does the mean that
predictions subtract, and the variance they divide by is between zero and what is possible for such
values.  So a value in the range is never more than the range, over √ε, away from the middle. -/
theorem C108_range {d : ℕ} (p : BnParams) (rows0 : List (List ℝ)) {batches : List (List (List ℝ))}
    (hne : batches ≠ []) (hb : ∀ b ∈ batches, b ≠ []) {j : ℕ} (hj : j < d) {lo hi : ℝ}
    (hx : ∀ b ∈ batches, ∀ x ∈ feature j b, lo ≤ x ∧ x ≤ hi) :
    let s := bnAfter d p (bnInit d rows0) batches
    (lo ≤ s.mean.average.getD j 0 ∧ s.mean.average.getD j 0 ≤ hi) ∧
    (0 ≤ s.var.average.getD j 0 ∧ s.var.average.getD j 0 ≤ (hi - lo) ^ 2 / 4) ∧
    ∀ x : List ℝ, x.length = d → lo ≤ x.getD j 0 → x.getD j 0 ≤ hi →
      |(bnEval p s x).getD j 0 - p.offset.getD j 0| ≤ (hi - lo) * |p.scale.getD j 0| / Real.sqrt bnEps := by
  intro s
  have hn : batches.length ≠ 0 := by simpa using hne
  obtain ⟨_, _, _, h⟩ := C108_running (d := d) p rows0 hne hb
  obtain ⟨hm, hv⟩ := h j hj
  have hfe : ∀ i < batches.length, feature j (batches.getD i []) ≠ [] := by
    intro i hi
    have := hb _ (getD_mem hi [])
    simpa [feature] using this
  have hmr : lo ≤ s.mean.average.getD j 0 ∧ s.mean.average.getD j 0 ≤ hi := by
    rw [show s.mean.average.getD j 0 = _ from hm]
    exact ⟨le_weighted hn _ (fun i hi => le_arithMean (hfe i hi) (fun x hx' => (hx _ (getD_mem hi []) x hx').1)),
      weighted_le hn _ (fun i hi => arithMean_le (hfe i hi) (fun x hx' => (hx _ (getD_mem hi []) x hx').2))⟩
  have hvr : 0 ≤ s.var.average.getD j 0 ∧ s.var.average.getD j 0 ≤ (hi - lo) ^ 2 / 4 := by
    rw [show s.var.average.getD j 0 = _ from hv]
    exact ⟨le_weighted hn _ (fun i hi => variance_nonneg _),
      weighted_le hn _ (fun i hi => variance_le (hfe i hi) (hx _ (getD_mem hi [])))⟩
  refine ⟨hmr, hvr, ?_⟩
  intro x hl h1 h2
  have he : (0 : ℝ) < bnEps := by unfold bnEps; norm_num
  have hval : (bnEval p s x).getD j 0 = (x.getD j 0 - s.mean.average.getD j 0) *
      (p.scale.getD j 0 * (1 / Real.sqrt (s.var.average.getD j 0 + bnEps))) + p.offset.getD j 0 := by
    have : j < x.length := by omega
    simp only [bnEval, bnNormalise, List.getD_eq_getElem?_getD, List.getElem?_map, List.getElem?_range this,
      Option.map_some, Option.getD_some]
  rw [hval, add_sub_cancel_right, abs_mul, abs_mul]
  have hs : 0 < Real.sqrt bnEps := Real.sqrt_pos.2 he
  have hq : |1 / Real.sqrt (s.var.average.getD j 0 + bnEps)| ≤ 1 / Real.sqrt bnEps := by
    rw [abs_of_nonneg (by positivity)]
    apply one_div_le_one_div_of_le hs
    exact Real.sqrt_le_sqrt (by linarith [hvr.1])
  have hd : |x.getD j 0 - s.mean.average.getD j 0| ≤ hi - lo := by
    rw [abs_le]; constructor <;> linarith [hmr.1, hmr.2]
  have hhl : 0 ≤ hi - lo := le_trans (abs_nonneg _) hd
  calc |x.getD j 0 - s.mean.average.getD j 0| * (|p.scale.getD j 0| * |1 / Real.sqrt (s.var.average.getD j 0 + bnEps)|)
      ≤ (hi - lo) * (|p.scale.getD j 0| * (1 / Real.sqrt bnEps)) := by
        apply mul_le_mul hd _ (by positivity) hhl
        exact mul_le_mul_of_nonneg_left hq (abs_nonneg _)
    _ = (hi - lo) * |p.scale.getD j 0| / Real.sqrt bnEps := by ring

example : ∀ b ∈ ([[[0, 1], [2, 3]], [[1, 1], [5, 0]]] : List (List (List ℝ))), ∀ x ∈ feature 0 b,
    (0 : ℝ) ≤ x ∧ x ≤ 5 := by
  simp [feature]; norm_num

theorem bnTrain_feature {d j : ℕ} (hj : j < d) (p : BnParams) (s : BnState) {rows : List (List ℝ)}
    (hne : rows ≠ []) (hl : ∀ r ∈ rows, r.length = d) :
    feature j (bnTrain d p s rows).1 = (feature j rows).map (fun x => (x - arithMean (feature j rows)) *
      (p.scale.getD j 0 * (1 / Real.sqrt (variance (feature j rows) + bnEps))) + p.offset.getD j 0) := by
  simp only [feature, bnTrain, List.map_map]
  apply List.map_congr_left
  intro r hr
  have : j < r.length := by rw [hl r hr]; exact hj
  have hc := columnMeans_getD hj rows
  have hv := columnVars_getD hj hne
  simp only [feature] at hc hv
  simp only [Function.comp_apply, bnNormalise]
  rw [List.getD_eq_getElem?_getD, List.getElem?_map, List.getElem?_range this, Option.map_some, Option.getD_some,
    hc, hv]

theorem arithMean_affine {xs : List ℝ} (h : xs ≠ []) (a b c : ℝ) :
    arithMean (xs.map (fun x => (x - c) * a + b)) = (arithMean xs - c) * a + b := by
  have hl : (xs.length : ℝ) ≠ 0 := by
    have : 0 < xs.length := List.length_pos_iff.2 h
    positivity
  have key : (xs.map (fun x => (x - c) * a + b)).sum = (xs.sum - xs.length * c) * a + xs.length * b := by
    clear hl h
    induction xs with
    | nil => simp
    | cons x xs ih => simp only [List.map_cons, List.sum_cons, ih, List.length_cons]; push_cast; ring
  rw [arithMean, key]
  simp only [arithMean, List.length_map]
  field_simp

/-- In training, every feature of a batch is moved to mean `offset` and to a variance of at most `scale²`:
exactly `scale² · v / (v + ε)` if it was `v`. -/
theorem C108_standardised {d j : ℕ} (hj : j < d) (p : BnParams) (s : BnState) {rows : List (List ℝ)}
    (hne : rows ≠ []) (hl : ∀ r ∈ rows, r.length = d) :
    arithMean (feature j (bnTrain d p s rows).1) = p.offset.getD j 0 ∧
    variance (feature j (bnTrain d p s rows).1) =
      (p.scale.getD j 0) ^ 2 * (variance (feature j rows) / (variance (feature j rows) + bnEps)) ∧
    variance (feature j (bnTrain d p s rows).1) ≤ (p.scale.getD j 0) ^ 2 := by
  have hf : feature j rows ≠ [] := by simpa [feature] using hne
  rw [bnTrain_feature hj p s hne hl]
  set xs := feature j rows
  have he : (0 : ℝ) < bnEps := by unfold bnEps; norm_num
  have hv : 0 ≤ variance xs := variance_nonneg xs
  have hm := arithMean_affine hf (p.scale.getD j 0 * (1 / Real.sqrt (variance xs + bnEps))) (p.offset.getD j 0) (arithMean xs)
  rw [sub_self, zero_mul, zero_add] at hm
  have hvar : variance (xs.map (fun x => (x - arithMean xs) *
      (p.scale.getD j 0 * (1 / Real.sqrt (variance xs + bnEps))) + p.offset.getD j 0)) =
      (p.scale.getD j 0) ^ 2 * (variance xs / (variance xs + bnEps)) := by
    rw [variance, hm, List.map_map]
    have : (fun x => (x - p.offset.getD j 0) ^ 2) ∘ (fun x => (x - arithMean xs) *
        (p.scale.getD j 0 * (1 / Real.sqrt (variance xs + bnEps))) + p.offset.getD j 0) =
        fun x => (p.scale.getD j 0 * (1 / Real.sqrt (variance xs + bnEps))) ^ 2 * (x - arithMean xs) ^ 2 := by
      funext x
      simp only [Function.comp_apply]
      ring
    rw [this]
    have hsum : ∀ c : ℝ, arithMean (xs.map (fun x => c * (x - arithMean xs) ^ 2)) = c * variance xs := by
      intro c
      unfold variance
      simp only [arithMean, List.length_map]
      have := sum_map_mul (xs.map (fun x => (x - xs.sum / xs.length) ^ 2)) c
      rw [List.map_map] at this
      rw [show (xs.map (fun x => c * (x - xs.sum / xs.length) ^ 2)).sum = _ from this]
      ring
    rw [hsum, mul_pow, div_pow, Real.sq_sqrt (by linarith)]
    ring
  refine ⟨hm, hvar, ?_⟩
  rw [hvar]
  apply mul_le_of_le_one_right (sq_nonneg _)
  rw [div_le_one (by linarith)]
  linarith

example : (1 : ℕ) < 2 ∧ ([[0, 1], [2, 3]] : List (List ℝ)) ≠ [] ∧
    ∀ r ∈ ([[0, 1], [2, 3]] : List (List ℝ)), r.length = 2 := by simp

/-- If all batches had the same means and variances, predicting standardises as training did: a row of a
batch is standardised alike in both. -/
theorem C108_modes_agree {d : ℕ} (p : BnParams) (rows0 : List (List ℝ)) (s : BnState) {batches : List (List (List ℝ))}
    (hne : batches ≠ []) (hb : ∀ b ∈ batches, b ≠ []) {rows : List (List ℝ)} (hr : rows ≠ [])
    (hl : ∀ r ∈ rows, r.length = d)
    (hm : ∀ b ∈ batches, ∀ j < d, arithMean (feature j b) = arithMean (feature j rows))
    (hv : ∀ b ∈ batches, ∀ j < d, variance (feature j b) = variance (feature j rows)) :
    (bnTrain d p s rows).1 = rows.map (bnEval p (bnAfter d p (bnInit d rows0) batches)) := by
  have hn : batches.length ≠ 0 := by simpa using hne
  obtain ⟨_, hw, _, h⟩ := C108_running (d := d) p rows0 hne hb
  simp only [bnTrain]
  apply List.map_congr_left
  intro r hrm
  simp only [bnEval, bnNormalise]
  apply List.map_congr_left
  intro j hj
  have hj' : j < d := by rw [← hl r hrm]; exact List.mem_range.1 hj
  obtain ⟨h1, h2⟩ := h j hj'
  rw [h1, h2, columnMeans_getD hj', columnVars_getD hj' hr]
  have e1 : ∑ i ∈ Finset.range batches.length, batchWeight batches.length i * arithMean (feature j (batches.getD i [])) =
      arithMean (feature j rows) := by
    rw [Finset.sum_congr rfl (fun i hi => by rw [hm _ (getD_mem (Finset.mem_range.1 hi) []) j hj']),
      ← Finset.sum_mul, hw, one_mul]
  have e2 : ∑ i ∈ Finset.range batches.length, batchWeight batches.length i * variance (feature j (batches.getD i [])) =
      variance (feature j rows) := by
    rw [Finset.sum_congr rfl (fun i hi => by rw [hv _ (getD_mem (Finset.mem_range.1 hi) []) j hj']),
      ← Finset.sum_mul, hw, one_mul]
  rw [e1, e2]

/-- A batch seen twice. -/
example : ∀ b ∈ ([[[0, 1], [2, 3]], [[2, 3], [0, 1]]] : List (List (List ℝ))), ∀ j < 2,
    arithMean (feature j b) = arithMean (feature j [[0, 1], [2, 3]]) ∧
    variance (feature j b) = variance (feature j [[0, 1], [2, 3]]) := by
  intro b hb j hj
  simp only [List.mem_cons, List.not_mem_nil, or_false] at hb
  rcases hb with rfl | rfl
  · exact ⟨rfl, rfl⟩
  · have : j = 0 ∨ j = 1 := by omega
    rcases this with rfl | rfl <;> simp [feature, arithMean, variance] <;> norm_num

/-- A feature that was the same number in all training data (a beam current that was never changed, say)
says nothing in training, but a prediction for another value `x` is made with the difference times
`scale / √ε`, that is times more than 316. -/
theorem C108_constant {d j : ℕ} (hj : j < d) (p : BnParams) (rows0 : List (List ℝ)) (s : BnState)
    {batches : List (List (List ℝ))} (hne : batches ≠ []) (hb : ∀ b ∈ batches, b ≠ [])
    (hl : ∀ b ∈ batches, ∀ r ∈ b, r.length = d) {c : ℝ}
    (hc : ∀ b ∈ batches, ∀ x ∈ feature j b, x = c) :
    (∀ b ∈ batches, ∀ y ∈ feature j (bnTrain d p s b).1, y = p.offset.getD j 0) ∧
    (∀ x : List ℝ, x.length = d → (bnEval p (bnAfter d p (bnInit d rows0) batches) x).getD j 0 =
      (x.getD j 0 - c) * (p.scale.getD j 0 / Real.sqrt bnEps) + p.offset.getD j 0) ∧
    316 < 1 / Real.sqrt bnEps := by
  have hn : batches.length ≠ 0 := by simpa using hne
  have hmean : ∀ b ∈ batches, arithMean (feature j b) = c := by
    intro b hbm
    have hf : feature j b ≠ [] := by simpa [feature] using hb b hbm
    exact le_antisymm (arithMean_le hf (fun x hx => (hc b hbm x hx).le)) (le_arithMean hf (fun x hx => (hc b hbm x hx).ge))
  have hvar : ∀ b ∈ batches, variance (feature j b) = 0 := by
    intro b hbm
    have hf : feature j b ≠ [] := by simpa [feature] using hb b hbm
    apply le_antisymm _ (variance_nonneg _)
    have := variance_le hf (lo := c) (hi := c) (fun x hx => ⟨(hc b hbm x hx).ge, (hc b hbm x hx).le⟩)
    simpa using this
  refine ⟨?_, ?_, ?_⟩
  · intro b hbm y hy
    rw [bnTrain_feature hj p s (hb b hbm) (hl b hbm), hmean b hbm] at hy
    obtain ⟨x, hx, rfl⟩ := List.mem_map.1 hy
    rw [hc b hbm x hx]
    ring
  · intro x hxl
    obtain ⟨_, hw, _, h⟩ := C108_running (d := d) p rows0 hne hb
    obtain ⟨h1, h2⟩ := h j hj
    have : j < x.length := by omega
    simp only [bnEval, bnNormalise]
    rw [List.getD_eq_getElem?_getD, List.getElem?_map, List.getElem?_range this, Option.map_some, Option.getD_some,
      h1, h2,
      Finset.sum_congr rfl (fun i hi => by rw [hmean _ (getD_mem (Finset.mem_range.1 hi) [])]),
      Finset.sum_congr (f := fun i => batchWeight batches.length i * variance (feature j (batches.getD i []))) rfl
        (fun i hi => by rw [hvar _ (getD_mem (Finset.mem_range.1 hi) [])]),
      ← Finset.sum_mul, hw, one_mul]
    simp only [mul_zero, Finset.sum_const_zero, zero_add]
    ring
  · have he : (0 : ℝ) < bnEps := by unfold bnEps; norm_num
    have : Real.sqrt bnEps < 1 / 316 := by
      rw [Real.sqrt_lt' (by norm_num)]
      unfold bnEps
      norm_num
    rw [lt_div_iff₀ (Real.sqrt_pos.2 he)]
    linarith

example : ∀ b ∈ ([[[7, 1], [7, 3]], [[7, 2], [7, 0]]] : List (List (List ℝ))), ∀ x ∈ feature 0 b, x = 7 := by
  simp [feature]

end PD.Props
