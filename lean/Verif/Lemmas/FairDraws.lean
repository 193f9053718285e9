/- The row of exponential numbers also gives even draws. -/
import Verif.Spec.Draws
import Verif.Lemmas.FairRng
import Mathlib.MeasureTheory.Function.Floor

set_option linter.unusedSectionVars false
set_option linter.unusedSimpArgs false

namespace PD.Witness
open PD PD.Spec MeasureTheory ProbabilityTheory

theorem unitPart_ge {c : ℝ} (h0 : 0 ≤ c) (h1 : c ≤ 1) : expMeasure 1 {x | c ≤ unitPart x} = ENNReal.ofReal (1 - c) := by
  have e : {x | c ≤ unitPart x} = {x | unitPart x < c}ᶜ := by
    ext x
    simp
  rw [e, measure_compl (measurableSet_lt unitPart_measurable measurable_const) (measure_ne_top _ _), measure_univ,
    unitPart_law h0 h1, ENNReal.ofReal_sub _ h0, ENNReal.ofReal_one]

theorem even_law {lo hi : ℝ} (h : lo < hi) :
    (expMeasure 1).map (fun x => lo + (hi - lo) * unitPart x) = evenOn lo hi := by
  have hmeas : Measurable (fun x : ℝ => lo + (hi - lo) * unitPart x) := (unitPart_measurable.const_mul _).const_add _
  have : IsProbabilityMeasure ((expMeasure 1).map (fun x : ℝ => lo + (hi - lo) * unitPart x)) :=
    Measure.isProbabilityMeasure_map hmeas.aemeasurable
  apply Measure.ext_of_Ici
  intro a
  rw [Measure.map_apply hmeas measurableSet_Ici]
  unfold evenOn
  rw [cond_apply measurableSet_Icc, Real.volume_Icc]
  have hd : 0 < hi - lo := by linarith
  rcases le_or_gt a lo with ha | ha
  · have e1 : (fun x : ℝ => lo + (hi - lo) * unitPart x) ⁻¹' Set.Ici a = Set.univ := by
      apply Set.eq_univ_of_forall
      intro x
      simp only [Set.mem_preimage, Set.mem_Ici]
      nlinarith [(unitPart_mem x).1]
    have e2 : Set.Icc lo hi ∩ Set.Ici a = Set.Icc lo hi := by
      apply Set.inter_eq_left.2
      intro x hx
      exact ha.trans hx.1
    rw [e1, e2, measure_univ, Real.volume_Icc, ENNReal.inv_mul_cancel (by simpa using h) ENNReal.ofReal_ne_top]
  rcases le_or_gt a hi with ha' | ha'
  · have e1 : (fun x : ℝ => lo + (hi - lo) * unitPart x) ⁻¹' Set.Ici a = {x | (a - lo) / (hi - lo) ≤ unitPart x} := by
      ext x
      simp only [Set.mem_preimage, Set.mem_Ici, Set.mem_ofPred_eq]
      rw [div_le_iff₀ hd]
      constructor <;> intro h <;> linarith
    have e2 : Set.Icc lo hi ∩ Set.Ici a = Set.Icc a hi := by
      ext x
      simp only [Set.mem_inter_iff, Set.mem_Icc, Set.mem_Ici]
      constructor
      · rintro ⟨⟨_, h2⟩, h3⟩
        exact ⟨h3, h2⟩
      · rintro ⟨h1, h2⟩
        exact ⟨⟨by linarith, h2⟩, h1⟩
    rw [e1, e2, Real.volume_Icc, unitPart_ge (by apply div_nonneg <;> linarith) (by rw [div_le_one hd]; linarith),
      ← ENNReal.ofReal_inv_of_pos hd, ← ENNReal.ofReal_mul (by positivity)]
    congr 1
    field_simp
    ring
  · have e1 : (fun x : ℝ => lo + (hi - lo) * unitPart x) ⁻¹' Set.Ici a = ∅ := by
      ext x
      simp only [Set.mem_preimage, Set.mem_Ici, Set.mem_empty_iff_false, iff_false, not_le]
      nlinarith [(unitPart_mem x).2]
    have e2 : Set.Icc lo hi ∩ Set.Ici a = ∅ := by
      ext x
      simp only [Set.mem_inter_iff, Set.mem_Icc, Set.mem_Ici, Set.mem_empty_iff_false, iff_false]
      rintro ⟨⟨_, h2⟩, h3⟩
      linarith
    rw [e1, e2]
    simp

theorem index_law {n i : ℕ} (hi : i < n) :
    expMeasure 1 {x | ⌊(n : ℝ) * unitPart x⌋₊ = i} = (n : ENNReal)⁻¹ := by
  have hn : (0 : ℝ) < n := by exact_mod_cast (Nat.zero_le i).trans_lt hi
  have e : {x | ⌊(n : ℝ) * unitPart x⌋₊ = i} = {x | unitPart x < (i + 1) / n} \ {x | unitPart x < i / n} := by
    ext x
    obtain ⟨h0, h1⟩ := unitPart_mem x
    simp only [Set.mem_ofPred_eq, Set.mem_sdiff, not_lt]
    rw [Nat.floor_eq_iff (by positivity), lt_div_iff₀ hn, div_le_iff₀ hn, mul_comm (n : ℝ)]
    exact and_comm
  have hi' : (i : ℝ) + 1 ≤ n := by exact_mod_cast hi
  rw [e, measure_sdiff _ (measurableSet_lt unitPart_measurable measurable_const).nullMeasurableSet (measure_ne_top _ _),
    unitPart_law (by positivity) (by rw [div_le_one hn]; exact hi'),
    unitPart_law (by positivity) (by rw [div_le_one hn]; linarith), ← ENNReal.ofReal_sub _ (by positivity)]
  · rw [← sub_div, add_sub_cancel_left, one_div, ENNReal.ofReal_inv_of_pos hn, ENNReal.ofReal_natCast]
  · intro x hx
    simp only [Set.mem_ofPred_eq] at hx ⊢
    refine hx.trans_le ?_
    gcongr
    linarith

theorem streamRng_fairDraws : FairDraws streamRng streamLaw where
  toFair := streamRng_fair
  uniform_measurable lo hi _ :=
    ((((unitPart_measurable.comp (measurable_pi_apply 0)).const_mul _).const_add _)).prodMk
      (measurable_pi_iff.2 fun n => measurable_pi_apply (n + 1))
  uniform lo hi h A hA E hE := by
    have hmeas : Measurable (fun x : ℝ => lo + (hi - lo) * unitPart x) := (unitPart_measurable.const_mul _).const_add _
    rw [← even_law h, Measure.map_apply hmeas hA, ← streamLaw_head_tail (hmeas hA) hE]
    rfl
  choice_measurable n :=
    (Nat.measurable_floor.comp ((unitPart_measurable.comp (measurable_pi_apply 0)).const_mul _)).prodMk
      (measurable_pi_iff.2 fun n => measurable_pi_apply (n + 1))
  choice n i hi E hE := by
    have hmeas : MeasurableSet {x : ℝ | ⌊(n : ℝ) * unitPart x⌋₊ = i} :=
      (Nat.measurable_floor.comp (unitPart_measurable.const_mul _)) (measurableSet_singleton i)
    rw [← index_law hi, ← streamLaw_head_tail hmeas hE]
    rfl

end PD.Witness
