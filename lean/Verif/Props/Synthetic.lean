/- Property C71: synthetic data and the prior they are drawn from. -/
import Verif.Model.Synthetic
import Verif.Props.Augment
import Verif.Props.Rates
import Mathlib.MeasureTheory.Measure.Lebesgue.Basic

set_option linter.unusedSectionVars false
set_option linter.unusedSimpArgs false

namespace PD.Props
open PD PD.Spec

/-- The prior's rate of a canonical position: at most ln 2 / 3, reached only at the peak. -/
noncomputable def prior (q : V2 ℝ) : ℝ :=
  match singleSiliconPriorRates q HumanPrior.default.mean HumanPrior.default.cov
    HumanPrior.default.maxRate with
  | .ok r => r
  | .error _ => 0

theorem default_max_pos : 0 < HumanPrior.default.maxRate := by
  have := Real.log_pos (by norm_num : (1 : ℝ) < 2)
  simp only [HumanPrior.default]; positivity

theorem prior_spec (q : V2 ℝ) : singleSiliconPriorRates q HumanPrior.default.mean
    HumanPrior.default.cov HumanPrior.default.maxRate = .ok (prior q) ∧ 0 < prior q ∧
    prior q ≤ Real.log 2 / 3 ∧ (prior q = Real.log 2 / 3 ↔ q = ⟨85 / 100, 0⟩) := by
  obtain ⟨r, h1, h2, h3, h4⟩ := singleSiliconPriorRates_le default_posDef q HumanPrior.default.mean
    default_max_pos
  have : prior q = r := by unfold prior; rw [h1]
  rw [this]
  exact ⟨h1, h2, h3, h4⟩

theorem priorRates_eq (m : ℕ) (p : V2 ℝ) :
    priorRates m p = .ok ((positionRotations m p).map prior) := by
  unfold priorRates
  obtain ⟨bs, h1, h2, h3⟩ := mapM_ok (P := fun a b => b = prior a) (l := positionRotations m p)
    (f := fun q => singleSiliconPriorRates q HumanPrior.default.mean HumanPrior.default.cov
      HumanPrior.default.maxRate) (fun a _ => ⟨_, (prior_spec a).1, rfl⟩)
  rw [h1]
  congr 1
  apply List.ext_getElem?
  intro k
  rw [List.getElem?_map]
  cases hk : (positionRotations m p)[k]? with
  | none =>
    rw [List.getElem?_eq_none_iff] at hk
    rw [Option.map_none, List.getElem?_eq_none_iff]; omega
  | some a =>
    obtain ⟨b, hb, -, rfl⟩ := h3 k a hk
    exact hb

theorem rates_length (m : ℕ) (p : V2 ℝ) : ((positionRotations m p).map prior).length = m := by
  simp [positionRotations]

theorem rates_getElem? (m : ℕ) (p : V2 ℝ) {i : ℕ} (hi : i < m) :
    ((positionRotations m p).map prior)[i]? = some (prior (rotate p (2 * (i : ℝ) * Real.pi / m))) := by
  simp [positionRotations, hi]

/-- The exponential waiting time made from a uniform number is shorter than the observation exactly when
the number exceeds the probability of seeing no transition. -/
theorem happened_iff {u total observed : ℝ} (hu : 0 ≤ u) (ht : 0 < total) :
    happened u total observed = true ↔ Real.exp (-(total * observed)) < u := by
  unfold happened
  rcases hu.eq_or_lt with rfl | hu
  · simp only [if_true, Bool.false_eq_true, false_iff, not_lt]
    exact (Real.exp_pos _).le
  · rw [if_neg hu.ne', decide_eq_true_iff, div_lt_iff₀ ht, ← Real.lt_log_iff_exp_lt hu]
    constructor <;> intro h <;> linarith [mul_comm total observed]

/-- An example is always produced, with one positive rate for each of the `m` neighbours and the length
of the observation as its time; its label is 0 unless the uniform draw exceeds the probability
`exp (-total * time)` that nothing happens, and
else that of a neighbour whose stored rate is the one it was chosen with.  If the draw turns the example
by no step, its rates are those of the prior at its position (for other turns see
`C71_rates_not_of_position`). -/
theorem C71_example_partial (m : ℕ) (d : SynthDraws) (hc : d.chosen < m) (hu : 0 ≤ d.unif) :
    ∃ label rates position, sampleFromPrior m d = .ok (label, d.observed, rates, position) ∧
      rates.length = m ∧ (∀ r ∈ rates, 0 < r ∧ r ≤ Real.log 2 / 3) ∧
      (d.turn = 0 → position = d.position ∧ priorRates m position = .ok rates) ∧
      ∃ drawn, priorRates m d.position = .ok drawn ∧ rates.Perm drawn ∧
        if Real.exp (-(drawn.sum * d.observed)) < d.unif then
          ∃ j : ℕ, j < m ∧ label = j + 1 ∧ rates[j]? = drawn[d.chosen]?
        else label = 0 := by
  have hm : 0 < m := by omega
  refine ⟨_, _, _, by simp only [sampleFromPrior, priorRates_eq]; rfl, ?_, ?_, ?_, _,
    priorRates_eq m _, ?_, ?_⟩
  · rw [roll_length, rates_length]
  · intro r hr
    unfold roll at hr
    rw [List.mem_rotate] at hr
    obtain ⟨q, -, rfl⟩ := List.mem_map.1 hr
    exact ⟨(prior_spec q).2.1, (prior_spec q).2.2.1⟩
  · intro ht
    have : rotate d.position (2 * ((d.turn : ℕ) : ℝ) * Real.pi / m) = d.position := by
      rw [ht]; ext <;> simp [rotate]
    rw [this]
    refine ⟨rfl, ?_⟩
    rw [priorRates_eq, ht]
    simp only [roll, Nat.zero_mod, Nat.sub_zero, List.rotate_length]
  · exact List.rotate_perm _ _
  · have hpos : 0 < ((positionRotations m d.position).map prior).sum := by
      apply List.sum_pos
      · intro r hr
        obtain ⟨q, -, rfl⟩ := List.mem_map.1 hr
        exact (prior_spec q).2.1
      · intro h0
        have := rates_length m d.position
        rw [h0] at this
        simp at this
        omega
    simp only [← happened_iff hu hpos]
    split
    · rename_i h
      refine ⟨(d.chosen + d.turn) % m, Nat.mod_lt _ hm, ?_, ?_⟩
      · simp [rotateIndex]
      · have := roll_getElem? ((positionRotations m d.position).map prior) d.turn d.chosen
          (by rw [rates_length]; exact hc)
        rwa [rates_length] at this
    · rfl

/-- So the share of the uniform draws in [0, 1) that give a transition is `1 - exp (-total * time)`, where
`total` is the sum of the stored rates: transitions are drawn with the stored rates. -/
theorem C71_probability (m : ℕ) (d : SynthDraws) (hc : d.chosen < m) (ho : 0 ≤ d.observed) :
    ∃ rates position, (∀ u ∈ Set.Ico (0 : ℝ) 1, ∃ label,
        sampleFromPrior m { d with unif := u } = .ok (label, d.observed, rates, position)) ∧
      MeasureTheory.volume {u ∈ Set.Ico (0 : ℝ) 1 | ∃ label, label ≠ 0 ∧
        sampleFromPrior m { d with unif := u } = .ok (label, d.observed, rates, position)} =
        ENNReal.ofReal (1 - Real.exp (-(rates.sum * d.observed))) := by
  obtain ⟨l0, rates, position, h0, hl, hr, -⟩ := C71_example_partial m { d with unif := 0 } hc le_rfl
  have heq : ∀ u ∈ Set.Ico (0 : ℝ) 1, ∃ label,
      sampleFromPrior m { d with unif := u } = .ok (label, d.observed, rates, position) ∧
      (label ≠ 0 ↔ Real.exp (-(rates.sum * d.observed)) < u) := by
    intro u hu
    obtain ⟨label, rates', position', h1, h2, h3, -, drawn, -, hp, h4⟩ :=
      C71_example_partial m { d with unif := u } hc hu.1
    have e : rates' = rates ∧ position' = position := by
      simp only [sampleFromPrior, priorRates_eq, Except.ok.injEq, Prod.mk.injEq] at h0 h1
      exact ⟨h1.2.2.1.symm.trans h0.2.2.1, h1.2.2.2.symm.trans h0.2.2.2⟩
    obtain ⟨rfl, rfl⟩ := e
    refine ⟨label, h1, ?_⟩
    rw [hp.sum_eq]
    split at h4
    · rename_i h
      obtain ⟨j, -, rfl, -⟩ := h4
      exact ⟨fun _ => h, fun _ => by omega⟩
    · rename_i h
      subst h4
      exact ⟨fun h' => absurd rfl h', fun h' => absurd h' h⟩
  refine ⟨rates, position, fun u hu => ?_, ?_⟩
  · obtain ⟨label, h1, -⟩ := heq u hu
    exact ⟨label, h1⟩
  · have hs : 0 ≤ rates.sum := List.sum_nonneg (fun r h => (hr r h).1.le)
    have : {u ∈ Set.Ico (0 : ℝ) 1 | ∃ label, label ≠ 0 ∧
        sampleFromPrior m { d with unif := u } = .ok (label, d.observed, rates, position)} =
        Set.Ioo (Real.exp (-(rates.sum * d.observed))) 1 := by
      ext u
      simp only [Set.mem_ofPred_eq, Set.mem_Ioo]
      constructor
      · rintro ⟨hu, label, hne, h⟩
        obtain ⟨label', h1, h2⟩ := heq u hu
        rw [h1, Except.ok.injEq, Prod.mk.injEq] at h
        rw [h.1] at h2
        exact ⟨h2.1 hne, hu.2⟩
      · rintro ⟨h1, h2⟩
        have hu : u ∈ Set.Ico (0 : ℝ) 1 := ⟨((Real.exp_pos _).trans h1).le, h2⟩
        obtain ⟨label', g1, g2⟩ := heq u hu
        exact ⟨hu, label', g2.2 h1, g1⟩
    rw [this, Real.volume_Ioo]

theorem rotate_full (p : V2 ℝ) (θ : ℝ) (k : ℕ) : rotate p (θ + k * (2 * Real.pi)) = rotate p θ := by
  simp [rotate]

/-- Turning a position other than the silicon's by a fraction of a full turn moves it. -/
theorem rotate_ne (c : ℝ) (hc : 0 < c) (m a : ℕ) (hm : 0 < m) (ha : a % m ≠ 0) :
    rotate ⟨c, 0⟩ (2 * (a : ℝ) * Real.pi / m) ≠ ⟨c, 0⟩ := by
  intro h
  have h1 := congrArg V2.x h
  simp only [rotate, zero_mul, add_zero] at h1
  have h2 : Real.cos (2 * (a : ℝ) * Real.pi / m) = 1 := by
    have := mul_left_cancel₀ hc.ne' (h1.trans (mul_one c).symm)
    exact this
  rw [Real.cos_eq_one_iff] at h2
  obtain ⟨n, hn⟩ := h2
  have hmR : (m : ℝ) ≠ 0 := by exact_mod_cast hm.ne'
  have : (n : ℝ) * m = a := by
    have hpi := Real.pi_ne_zero
    field_simp at hn
    linarith
  have h3 : n * (m : ℤ) = a := by exact_mod_cast this
  apply ha
  have h4 : (m : ℤ) ∣ (a : ℤ) := ⟨n, by rw [← h3]; ring⟩
  exact Nat.mod_eq_zero_of_dvd (by exact_mod_cast h4)

/-- The property does not hold of the code: unless the turn is half a circle or none, there are draws for
which the stored rates are not the prior's at the stored position. -/
theorem C71_rates_not_of_position (m turn : ℕ) (hm : 0 < m) (h2 : (2 * turn) % m ≠ 0) :
    ∃ p, ∀ d : SynthDraws, d.position = p → d.turn = turn → ∀ label t rates position,
      sampleFromPrior m d = .ok (label, t, rates, position) → priorRates m position ≠ .ok rates := by
  have hmR : (m : ℝ) ≠ 0 := by exact_mod_cast hm.ne'
  -- the drawn position is the peak turned by `turn` steps
  refine ⟨rotate ⟨85 / 100, 0⟩ (2 * (turn : ℝ) * Real.pi / m), ?_⟩
  intro d hp ht label t rates position h hcon
  simp only [sampleFromPrior, priorRates_eq, Except.ok.injEq, Prod.mk.injEq] at h
  obtain ⟨-, -, rfl, rfl⟩ := h
  rw [priorRates_eq, Except.ok.injEq, hp, ht] at hcon
  -- entry 0 of the stored rates is the maximum
  have hr := Nat.mod_lt turn hm
  set k := (m - turn % m) % m with hk
  have hkm : k < m := Nat.mod_lt _ hm
  have hsum : ∃ c : ℕ, turn + k = c * m := by
    have h1 := Nat.mod_add_div turn m
    rcases Nat.eq_zero_or_pos (turn % m) with h0 | hpos
    · refine ⟨turn / m, ?_⟩
      rw [hk, h0]; simp; rw [h0] at h1; linarith
    · refine ⟨turn / m + 1, ?_⟩
      have : k = m - turn % m := by rw [hk, Nat.mod_eq_of_lt (by omega)]
      rw [this, add_mul, one_mul, mul_comm (turn / m)]
      omega
  obtain ⟨c, hcm⟩ := hsum
  have e1 := roll_getElem? ((positionRotations m (rotate ⟨85 / 100, 0⟩
    (2 * (turn : ℝ) * Real.pi / m))).map prior) turn k (by rw [rates_length]; exact hkm)
  rw [rates_length, Nat.add_comm k, hcm, Nat.mul_mod_left, ← hcon, rates_getElem? m _ hm,
    rates_getElem? m _ hkm, Option.some.injEq] at e1
  simp only [C35_composition] at e1
  have hz : 2 * ((0 : ℕ) : ℝ) * Real.pi / m = 0 := by simp
  rw [hz] at e1
  have hA : 2 * (turn : ℝ) * Real.pi / m + 2 * (k : ℝ) * Real.pi / m = 0 + (c : ℕ) * (2 * Real.pi) := by
    have : (turn : ℝ) + k = c * m := by exact_mod_cast hcm
    field_simp
    linear_combination (2 * Real.pi) * this
  have hB : 2 * (turn : ℝ) * Real.pi / m + 2 * (turn : ℝ) * Real.pi / m + 0 =
      2 * ((2 * turn : ℕ) : ℝ) * Real.pi / m := by push_cast; ring
  rw [hA, rotate_full, hB] at e1
  have hpeak : prior (rotate ⟨85 / 100, 0⟩ 0) = Real.log 2 / 3 := by
    apply (prior_spec _).2.2.2.2
    ext <;> simp [rotate]
  rw [hpeak] at e1
  exact rotate_ne (85 / 100) (by norm_num) m (2 * turn) hm h2 ((prior_spec _).2.2.2.1 e1)

example : (0 < 3) ∧ (2 * 1) % 3 ≠ 0 ∧ (2 * 2) % 3 ≠ 0 := by decide

end PD.Props
