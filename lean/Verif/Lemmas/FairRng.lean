/- A perfect generator: an endless row of independent exponential numbers. -/
import Verif.Lemmas.Chance
import Mathlib.Probability.ProductMeasure

set_option linter.unusedSectionVars false
set_option linter.unusedSimpArgs false

namespace PD.Witness
open PD PD.Spec MeasureTheory ProbabilityTheory

/-- The index of the interval of cumulative sums that holds `u`. -/
noncomputable def interval : List ℝ → ℝ → ℕ
  | [], _ => 0
  | p :: ps, u => if u < p then 0 else interval ps (u - p) + 1

/-- A number between zero and one. -/
noncomputable def unitPart (x : ℝ) : ℝ := 1 - Real.exp (-max x 0)

/-- A generator whose state is the row of numbers it will use. -/
noncomputable def streamRng : Rng ℝ (ℕ → ℝ) where
  uniform lo hi g := (lo + (hi - lo) * unitPart (g 0), fun n => g (n + 1))
  exponential mean g := (mean * max (g 0) 0, fun n => g (n + 1))
  choiceP ps g := (interval ps (unitPart (g 0)), fun n => g (n + 1))
  choice n g := (⌊n * unitPart (g 0)⌋₊, fun n => g (n + 1))

/-- The law of the row of numbers. -/
noncomputable def streamLaw : Measure (ℕ → ℝ) := Measure.infinitePi (fun _ => expMeasure 1)

theorem unitPart_mem (x : ℝ) : 0 ≤ unitPart x ∧ unitPart x < 1 := by
  unfold unitPart
  have h : Real.exp (-max x 0) ≤ 1 := by
    rw [Real.exp_le_one_iff, Left.neg_nonpos_iff]
    exact le_max_right _ _
  exact ⟨by linarith, by linarith [Real.exp_pos (-max x 0)]⟩

theorem interval_pos (ps : List ℝ) (hp : ∀ p ∈ ps, 0 ≤ p) (u : ℝ) (h0 : 0 ≤ u) (h1 : u < ps.sum) :
    ∃ q, ps[interval ps u]? = some q ∧ 0 < q := by
  induction ps generalizing u with
  | nil => simp at h1; linarith
  | cons p ps ih =>
    unfold interval
    split_ifs with h
    · exact ⟨p, by simp, by linarith⟩
    · obtain ⟨q, hq, hq0⟩ := ih (fun p' hp' => hp p' (List.mem_cons_of_mem _ hp')) (u - p) (by linarith)
        (by rw [List.sum_cons] at h1; linarith)
      exact ⟨q, by simpa using hq, hq0⟩

theorem streamRng_lawful : streamRng.Lawful where
  uniform_mem lo hi g h := by
    simp only [streamRng]
    obtain ⟨h0, h1⟩ := unitPart_mem (g 0)
    have : 0 ≤ hi - lo := by linarith
    constructor
    · linarith [mul_nonneg this h0]
    · linarith [mul_le_mul_of_nonneg_left h1.le this]
  exponential_nonneg s g h := mul_nonneg h (le_max_right _ _)
  choiceP_lt p g hp hs := by
    obtain ⟨h0, h1⟩ := unitPart_mem (g 0)
    exact interval_pos p hp _ h0 (by rw [hs]; exact h1)
  choice_lt n g hn := by
    simp only [streamRng]
    obtain ⟨h0, h1⟩ := unitPart_mem (g 0)
    have hn' : (0 : ℝ) < n := by exact_mod_cast hn
    rw [Nat.floor_lt (by positivity)]
    nlinarith

/-! ### The law -/

instance : IsProbabilityMeasure (expMeasure 1) := isProbabilityMeasure_expMeasure zero_lt_one

instance : IsProbabilityMeasure streamLaw := by unfold streamLaw; infer_instance

/-- Put a number before a row. -/
def before (x : ℝ × (ℕ → ℝ)) : ℕ → ℝ
  | 0 => x.1
  | n + 1 => x.2 n

theorem before_measurable : Measurable before := by
  rw [measurable_pi_iff]
  intro n
  cases n with
  | zero => exact measurable_fst
  | succ n => exact (measurable_pi_apply n).comp measurable_snd

theorem streamLaw_split : ((expMeasure 1).prod streamLaw).map before = streamLaw := by
  classical
  apply Measure.eq_infinitePi
  intro s t ht
  rw [Measure.map_apply before_measurable (MeasurableSet.pi s.countable_toSet (fun i _ => ht i))]
  have e : before ⁻¹' Set.pi s t = (if 0 ∈ s then t 0 else Set.univ) ×ˢ
      Set.pi ((s.preimage Nat.succ Nat.succ_injective.injOn : Finset ℕ) : Set ℕ) (fun i => t (i + 1)) := by
    ext ⟨x, g⟩
    simp only [Set.mem_preimage, Set.mem_pi, Set.mem_prod, Finset.mem_coe, Finset.mem_preimage]
    constructor
    · intro h
      refine ⟨?_, fun i hi => h (i + 1) hi⟩
      split_ifs with h0
      · exact h 0 h0
      · trivial
    · rintro ⟨h0, h1⟩ i hi
      cases i with
      | zero => rw [if_pos hi] at h0; exact h0
      | succ i => exact h1 i hi
  rw [e, Measure.prod_prod]
  unfold streamLaw
  rw [Measure.infinitePi_pi _ (fun i _ => ht (i + 1)), Finset.prod_preimage' Nat.succ s Nat.succ_injective.injOn
    (fun i => expMeasure 1 (t i))]
  by_cases h0 : 0 ∈ s
  · rw [if_pos h0, ← Finset.mul_prod_erase s _ h0]
    congr 1
    apply Finset.prod_congr _ (fun _ _ => rfl)
    ext i
    cases i <;> simp
  · rw [if_neg h0, measure_univ, one_mul]
    apply Finset.prod_congr _ (fun _ _ => rfl)
    ext i
    cases i with
    | zero => simp [h0]
    | succ i => simp

theorem streamLaw_head_tail {A : Set ℝ} (hA : MeasurableSet A) {E : Set (ℕ → ℝ)} (hE : MeasurableSet E) :
    streamLaw {g | g 0 ∈ A ∧ (fun n => g (n + 1)) ∈ E} = expMeasure 1 A * streamLaw E := by
  have hm : MeasurableSet {g : ℕ → ℝ | g 0 ∈ A ∧ (fun n => g (n + 1)) ∈ E} :=
    (measurable_pi_apply 0 hA).inter
      ((measurable_pi_iff.2 fun n => measurable_pi_apply (n + 1) : Measurable (fun g : ℕ → ℝ => fun n => g (n + 1))) hE)
  rw [← streamLaw_split, Measure.map_apply before_measurable hm, streamLaw_split, ← Measure.prod_prod]
  rfl

theorem scaled (mean : ℝ) (hm : 0 < mean) :
    (expMeasure 1).map (fun x => mean * max x 0) = expMeasure (1 / mean) := by
  have hmeas : Measurable (fun x : ℝ => mean * max x 0) := (measurable_id.max measurable_const).const_mul mean
  have : IsProbabilityMeasure (expMeasure (1 / mean)) := isProbabilityMeasure_expMeasure (by positivity)
  have : IsProbabilityMeasure ((expMeasure 1).map (fun x : ℝ => mean * max x 0)) :=
    Measure.isProbabilityMeasure_map hmeas.aemeasurable
  apply Measure.eq_of_cdf
  ext x
  rw [cdf_eq_real, cdf_expMeasure_eq (by positivity), measureReal_def, Measure.map_apply hmeas measurableSet_Iic]
  by_cases hx : 0 ≤ x
  · have e : (fun x : ℝ => mean * max x 0) ⁻¹' Set.Iic x = Set.Iic (x / mean) := by
      ext y
      simp only [Set.mem_preimage, Set.mem_Iic]
      rw [le_div_iff₀ hm, mul_comm y]
      constructor
      · intro h
        exact (mul_le_mul_of_nonneg_left (le_max_left y 0) hm.le).trans h
      · intro h
        rcases max_cases y 0 with ⟨h1, _⟩ | ⟨h1, _⟩ <;> rw [h1]
        · exact h
        · simpa using hx
    rw [e, ← measureReal_def, ← cdf_eq_real, cdf_expMeasure_eq zero_lt_one, if_pos (by positivity), if_pos hx]
    congr 3
    ring
  · have e : (fun x : ℝ => mean * max x 0) ⁻¹' Set.Iic x = ∅ := by
      ext y
      simp only [Set.mem_preimage, Set.mem_Iic, Set.mem_empty_iff_false, iff_false]
      have : 0 ≤ mean * max y 0 := mul_nonneg hm.le (le_max_right _ _)
      push Not at hx ⊢
      linarith
    rw [e, if_neg hx]
    simp

theorem unitPart_measurable : Measurable unitPart :=
  ((measurable_id.max measurable_const).neg.exp).const_sub 1

theorem interval_measurable (ps : List ℝ) : Measurable (interval ps) := by
  induction ps with
  | nil => exact measurable_const
  | cons p ps ih =>
    exact Measurable.ite measurableSet_Iio measurable_const
      ((measurable_from_nat (f := fun n => n + 1)).comp (ih.comp (measurable_id.sub_const p)))

theorem unitPart_law {c : ℝ} (h0 : 0 ≤ c) (h1 : c ≤ 1) : expMeasure 1 {x | unitPart x < c} = ENNReal.ofReal c := by
  rcases h0.eq_or_lt with rfl | hc
  · have : {x | unitPart x < 0} = ∅ := by
      ext x
      simpa using (unitPart_mem x).1
    rw [this]
    simp
  rcases h1.eq_or_lt with rfl | hc1
  · have : {x | unitPart x < 1} = Set.univ := Set.eq_univ_of_forall fun x => (unitPart_mem x).2
    rw [this, measure_univ, ENNReal.ofReal_one]
  have hL : 0 < -Real.log (1 - c) := by
    have := Real.log_neg (x := 1 - c) (by linarith) (by linarith)
    linarith
  have e : {x | unitPart x < c} = Set.Iic (-Real.log (1 - c)) \ {-Real.log (1 - c)} := by
    ext x
    have h2 : unitPart x < c ↔ max x 0 < -Real.log (1 - c) := by
      unfold unitPart
      rw [sub_lt_comm, ← Real.log_lt_iff_lt_exp (by linarith)]
      constructor <;> intro h <;> linarith
    simp only [Set.mem_ofPred_eq, Set.mem_sdiff, Set.mem_Iic, Set.mem_singleton_iff]
    rw [h2, max_lt_iff]
    constructor
    · rintro ⟨h, _⟩
      exact ⟨h.le, h.ne⟩
    · rintro ⟨h, h'⟩
      exact ⟨lt_of_le_of_ne h h', hL⟩
  rw [e, measure_sdiff_null (Props.exp_point 1 _), ← ofReal_cdf, cdf_expMeasure_eq zero_lt_one, if_pos hL.le, one_mul,
    neg_neg, Real.exp_log (by linarith)]
  congr 1
  ring

theorem interval_law (ps : List ℝ) (hp : ∀ p ∈ ps, 0 ≤ p) (i : ℕ) : ∀ a : ℝ, 0 ≤ a → a + ps.sum ≤ 1 →
    expMeasure 1 {x | a ≤ unitPart x ∧ unitPart x < a + ps.sum ∧ interval ps (unitPart x - a) = i} =
      ENNReal.ofReal (ps.getD i 0) := by
  induction ps generalizing i with
  | nil =>
    intro a ha hs
    have : {x | a ≤ unitPart x ∧ unitPart x < a + ([] : List ℝ).sum ∧ interval [] (unitPart x - a) = i} = ∅ := by
      ext x
      simp only [List.sum_nil, Set.mem_ofPred_eq, Set.mem_empty_iff_false, iff_false]
      rintro ⟨h1, h2, -⟩
      linarith
    rw [this]
    simp
  | cons p ps ih =>
    intro a ha hs
    rw [List.sum_cons] at hs ⊢
    have hp0 : 0 ≤ p := hp p List.mem_cons_self
    have hps : ∀ q ∈ ps, 0 ≤ q := fun q hq => hp q (List.mem_cons_of_mem _ hq)
    have hsum : 0 ≤ ps.sum := List.sum_nonneg hps
    cases i with
    | zero =>
      have e : {x | a ≤ unitPart x ∧ unitPart x < a + (p + ps.sum) ∧ interval (p :: ps) (unitPart x - a) = 0} =
          {x | unitPart x < a + p} \ {x | unitPart x < a} := by
        ext x
        simp only [Set.mem_ofPred_eq, Set.mem_sdiff, interval, not_lt]
        constructor
        · rintro ⟨h1, h2, h3⟩
          split_ifs at h3 with h4
          exact ⟨by linarith, h1⟩
        · rintro ⟨h1, h2⟩
          exact ⟨h2, by linarith, if_pos (by linarith)⟩
      rw [e, measure_sdiff (fun x hx => by simp only [Set.mem_ofPred_eq] at hx ⊢; linarith)
        (measurableSet_lt unitPart_measurable measurable_const).nullMeasurableSet (measure_ne_top _ _),
        unitPart_law (by linarith) (by linarith), unitPart_law ha (by linarith), ← ENNReal.ofReal_sub _ ha]
      simp
    | succ i =>
      have e : {x | a ≤ unitPart x ∧ unitPart x < a + (p + ps.sum) ∧ interval (p :: ps) (unitPart x - a) = i + 1} =
          {x | a + p ≤ unitPart x ∧ unitPart x < a + p + ps.sum ∧ interval ps (unitPart x - (a + p)) = i} := by
        ext x
        simp only [Set.mem_ofPred_eq, interval]
        have e1 : unitPart x - a - p = unitPart x - (a + p) := by ring
        rw [e1]
        constructor
        · rintro ⟨h1, h2, h3⟩
          split_ifs at h3 with h4
          exact ⟨by linarith, by linarith, by omega⟩
        · rintro ⟨h1, h2, h3⟩
          refine ⟨by linarith, by linarith, ?_⟩
          rw [if_neg (by linarith)]
          omega
      rw [e, ih hps i (a + p) (by linarith) (by linarith)]
      simp

theorem streamRng_fair : Fair streamRng streamLaw where
  total := by unfold streamLaw; exact measure_univ
  waits_measurable mean _ := by
    have h1 : Measurable (fun x : ℝ => mean * max x 0) := (measurable_id.max measurable_const).const_mul mean
    have h2 : Measurable (fun g : ℕ → ℝ => fun n => g (n + 1)) :=
      measurable_pi_iff.2 fun n => measurable_pi_apply (n + 1)
    exact (h1.comp (measurable_pi_apply 0)).prodMk h2
  waits mean hm A hA E hE := by
    have hmeas : Measurable (fun x : ℝ => mean * max x 0) := (measurable_id.max measurable_const).const_mul mean
    rw [← scaled mean hm, Measure.map_apply hmeas hA, ← streamLaw_head_tail (hmeas hA) hE]
    rfl
  pause_measurable := measurable_pi_iff.2 fun n => measurable_pi_apply (n + 1)
  pause E hE := by
    have := streamLaw_head_tail MeasurableSet.univ hE
    rw [measure_univ, one_mul] at this
    rw [← this]
    simp [streamRng]
  picks_measurable ps :=
    ((interval_measurable ps).comp (unitPart_measurable.comp (measurable_pi_apply 0))).prodMk
      (measurable_pi_iff.2 fun n => measurable_pi_apply (n + 1))
  picks ps hp hs i E hE := by
    have hmeas : MeasurableSet {x : ℝ | interval ps (unitPart x) = i} :=
      ((interval_measurable ps).comp unitPart_measurable) (measurableSet_singleton i)
    have law := interval_law ps hp i 0 le_rfl (by rw [hs]; norm_num)
    have e : {x | 0 ≤ unitPart x ∧ unitPart x < 0 + ps.sum ∧ interval ps (unitPart x - 0) = i} =
        {x : ℝ | interval ps (unitPart x) = i} := by
      ext x
      obtain ⟨h0, h1⟩ := unitPart_mem x
      simp [h0, h1, hs]
    rw [e] at law
    rw [← law, ← streamLaw_head_tail hmeas hE]
    rfl

end PD.Witness
