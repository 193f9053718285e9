/- C97: the learning rate during training. -/
import Verif.Model.Schedule
import Mathlib.Analysis.SpecialFunctions.Trigonometric.Bounds

set_option linter.unusedSectionVars false
set_option linter.unusedSimpArgs false

namespace PD.Props
open PD

theorem cos_half_range (x : ℝ) : 0 ≤ 1 / 2 * (1 + Real.cos x) ∧ 1 / 2 * (1 + Real.cos x) ≤ 1 := by
  constructor <;> linarith [Real.neg_one_le_cos x, Real.cos_le_one x]

/-- The angle of the cosine. -/
theorem cosine_angle {d s : ℕ} (hd : 0 < d) :
    0 ≤ Real.pi * (((min s d : ℕ) : ℝ) / d) ∧ Real.pi * (((min s d : ℕ) : ℝ) / d) ≤ Real.pi := by
  have hd' : (0 : ℝ) < d := by exact_mod_cast hd
  have h1 : ((min s d : ℕ) : ℝ) / d ≤ 1 := by
    rw [div_le_one hd']
    exact_mod_cast Nat.min_le_right s d
  have h0 : 0 ≤ ((min s d : ℕ) : ℝ) / d := by positivity
  constructor
  · positivity
  · nlinarith [Real.pi_pos]

/-- C97: training is refused exactly if there is nothing to train. -/
theorem C97_rejects (peak : ℝ) (epochs n : ℕ) :
    learningRate peak epochs n = .error .valueError ↔ epochs = 0 ∨ n = 0 := by
  unfold learningRate
  simp only
  split
  · rename_i h
    simp only [true_iff]
    by_contra hc
    push Not at hc
    have h1 : 1 ≤ epochs := Nat.one_le_iff_ne_zero.2 hc.1
    have h2 : (n : ℤ) ≤ epochs * n := by
      have : (1 : ℤ) * n ≤ epochs * n := mul_le_mul_of_nonneg_right (by exact_mod_cast h1) (by positivity)
      linarith
    have h3 := hc.2
    push_cast at h
    omega
  · rename_i h
    constructor
    · intro h'; cases h'
    · rintro (rfl | rfl) <;> exfalso <;> apply h <;> push_cast <;> omega

theorem learningRate_ok {peak : ℝ} {epochs n : ℕ} {lr : ℕ → ℝ} (h : learningRate peak epochs n = .ok lr) :
    0 < n ∧ 0 < epochs ∧ 2 * (n / 5) < epochs * n ∧
    (∀ s, s < n / 5 → lr s = peak * (s / (n / 5 : ℕ))) ∧
    (∀ s, n / 5 ≤ s → lr s = cosineSchedule peak (epochs * n - 2 * (n / 5)) (s - n / 5)) := by
  have hne : ¬ (epochs = 0 ∨ n = 0) := by
    intro hc
    rw [(C97_rejects peak epochs n).2 hc] at h
    cases h
  push Not at hne
  unfold learningRate at h
  simp only at h
  split at h
  · cases h
  · rename_i hd
    cases h
    have hd' : 2 * (n / 5) < epochs * n := by
      push_cast at hd
      zify
      push_cast
      omega
    have e : ((epochs * n : ℤ) - (n / 5 : ℕ) - (n / 5 : ℕ)).toNat = epochs * n - 2 * (n / 5) := by
      have : (epochs * n : ℤ) - (n / 5 : ℕ) - (n / 5 : ℕ) = ((epochs * n - 2 * (n / 5) : ℕ) : ℤ) := by
        rw [Nat.cast_sub hd'.le]
        push_cast
        ring
      rw [this, Int.toNat_natCast]
    refine ⟨Nat.pos_of_ne_zero hne.2, Nat.pos_of_ne_zero hne.1, hd', ?_, ?_⟩
    · intro s hs
      simp only [hs, if_true, linearSchedule]
      rw [if_neg (by omega), Nat.min_eq_left hs.le]
      ring
    · intro s hs
      simp only [not_lt.2 hs, if_false, e]

/-- C97: the learning rate rises in equal steps from 0 to the given rate during the first fifth of an epoch, never
rises after that, and never leaves this range. -/
theorem C97_schedule (peak : ℝ) (hp : 0 < peak) (epochs n : ℕ) (lr : ℕ → ℝ) (h : learningRate peak epochs n = .ok lr) :
    (∀ s, 0 ≤ lr s ∧ lr s ≤ peak) ∧ (∀ s, s < n / 5 → lr s = peak * (s / (n / 5 : ℕ))) ∧ lr (n / 5) = peak ∧
    ∀ s t, n / 5 ≤ s → s ≤ t → lr t ≤ lr s := by
  obtain ⟨hn, he, hd, h1, h2⟩ := learningRate_ok h
  have hd' : 0 < epochs * n - 2 * (n / 5) := by omega
  refine ⟨?_, h1, ?_, ?_⟩
  · intro s
    by_cases hs : s < n / 5
    · rw [h1 s hs]
      have h0 : (0 : ℝ) ≤ s / (n / 5 : ℕ) := by positivity
      have h3 : (s : ℝ) / (n / 5 : ℕ) ≤ 1 := by
        have : (0 : ℝ) < (n / 5 : ℕ) := by exact_mod_cast lt_of_le_of_lt (Nat.zero_le _) hs
        rw [div_le_one this]
        exact_mod_cast hs.le
      constructor
      · positivity
      · nlinarith
    · rw [h2 s (not_lt.1 hs), cosineSchedule]
      obtain ⟨a, b⟩ := cos_half_range (Real.pi * (((min (s - n / 5) (epochs * n - 2 * (n / 5)) : ℕ) : ℝ) /
        (epochs * n - 2 * (n / 5) : ℕ)))
      constructor
      · exact mul_nonneg hp.le a
      · nlinarith
  · rw [h2 _ le_rfl, cosineSchedule]
    simp
    ring
  · intro s t hs hst
    rw [h2 s hs, h2 t (le_trans hs hst), cosineSchedule, cosineSchedule]
    apply mul_le_mul_of_nonneg_left _ hp.le
    have hc := Real.cos_le_cos_of_nonneg_of_le_pi (cosine_angle (s := s - n / 5) hd').1
      (cosine_angle (s := t - n / 5) hd').2 ?_
    · linarith
    · apply mul_le_mul_of_nonneg_left _ Real.pi_pos.le
      apply div_le_div_of_nonneg_right _ (by positivity)
      have : min (s - n / 5) (epochs * n - 2 * (n / 5)) ≤ min (t - n / 5) (epochs * n - 2 * (n / 5)) := by omega
      exact_mod_cast this

/-- C97, the whole course: the rate is positive from the second step on until a fifth of an epoch before the
end, and zero from there on. -/
theorem C97_positive_partial (peak : ℝ) (hp : 0 < peak) (epochs n : ℕ) (lr : ℕ → ℝ)
    (h : learningRate peak epochs n = .ok lr) (s : ℕ) :
    (0 < s → s < epochs * n - n / 5 → 0 < lr s) ∧ (epochs * n - n / 5 ≤ s → lr s = 0) := by
  obtain ⟨hn, he, hd, h1, h2⟩ := learningRate_ok h
  have hd' : 0 < epochs * n - 2 * (n / 5) := by omega
  have hdr : (0 : ℝ) < ((epochs * n - 2 * (n / 5) : ℕ) : ℝ) := by exact_mod_cast hd'
  constructor
  · intro h0 hs
    by_cases hw : s < n / 5
    · rw [h1 s hw]
      have : (0 : ℝ) < (n / 5 : ℕ) := by exact_mod_cast lt_of_le_of_lt (Nat.zero_le _) hw
      have h0' : (0 : ℝ) < s := by exact_mod_cast h0
      positivity
    · rw [h2 s (not_lt.1 hw), cosineSchedule]
      have hlt : s - n / 5 < epochs * n - 2 * (n / 5) := by omega
      rw [Nat.min_eq_left hlt.le]
      have ha : Real.pi * (((s - n / 5 : ℕ) : ℝ) / (epochs * n - 2 * (n / 5) : ℕ)) < Real.pi := by
        have : ((s - n / 5 : ℕ) : ℝ) / (epochs * n - 2 * (n / 5) : ℕ) < 1 := by
          rw [div_lt_one hdr]
          exact_mod_cast hlt
        nlinarith [Real.pi_pos]
      have hb : 0 ≤ Real.pi * (((s - n / 5 : ℕ) : ℝ) / (epochs * n - 2 * (n / 5) : ℕ)) := by positivity
      have := Real.cos_lt_cos_of_nonneg_of_le_pi hb le_rfl ha
      rw [Real.cos_pi] at this
      apply mul_pos hp
      linarith
  · intro hs
    rw [h2 s (by omega), cosineSchedule, Nat.min_eq_right (by omega), div_self hdr.ne', mul_one, Real.cos_pi]
    simp

theorem step_zero {M B : Type} (o : AdamW M B) {lr : ℕ → ℝ} {s : OptState M} (h : lr s.count = 0) (b : B) :
    (s.step o lr b).params = s.params := by
  simp only [OptState.step, h]
  have : (fun (_ : ℕ) (p : ℝ) => p) = fun (i : ℕ) p =>
      p + -0 * ((o.direction s.moments s.params b).getD i 0 + o.weightDecay * p) := by
    funext i p
    ring
  rw [← this]
  apply List.ext_getElem?
  intro i
  rw [List.getElem?_mapIdx]
  cases s.params[i]? <;> rfl

theorem steps_count {M B : Type} (o : AdamW M B) (lr : ℕ → ℝ) (bs : List B) (s : OptState M) :
    (s.steps o lr bs).count = s.count + bs.length := by
  induction bs generalizing s with
  | nil => rfl
  | cons b bs ih =>
    show ((s.step o lr b).steps o lr bs).count = _
    rw [ih]
    simp only [OptState.step, List.length_cons]
    omega

theorem steps_zero {M B : Type} (o : AdamW M B) {lr : ℕ → ℝ} (bs : List B) {s : OptState M}
    (h : ∀ k, s.count ≤ k → lr k = 0) : (s.steps o lr bs).params = s.params := by
  induction bs generalizing s with
  | nil => rfl
  | cons b bs ih =>
    show ((s.step o lr b).steps o lr bs).params = _
    rw [ih]
    · exact step_zero o (h _ le_rfl) b
    · intro k hk
      apply h
      simp only [OptState.step] at hk
      omega

/-- C97 fails at the end of training: the batches of the last fifth of an epoch change nothing, whatever they
are. -/
theorem C97_idle {M B : Type} (peak : ℝ) (hp : 0 < peak) (epochs n : ℕ) (lr : ℕ → ℝ)
    (h : learningRate peak epochs n = .ok lr) (o : AdamW M B) (params : List ℝ) (m : M) (bs : List B)
    (hb : bs.length = epochs * n) :
    ∃ useful idle, bs = useful ++ idle ∧ idle.length = n / 5 ∧
      (OptState.steps o lr ⟨params, m, 0⟩ bs).params = (OptState.steps o lr ⟨params, m, 0⟩ useful).params := by
  obtain ⟨hn, he, hd, -, -⟩ := learningRate_ok h
  refine ⟨bs.take (epochs * n - n / 5), bs.drop (epochs * n - n / 5), (List.take_append_drop _ _).symm, ?_, ?_⟩
  · rw [List.length_drop, hb]; omega
  · conv_lhs => rw [← List.take_append_drop (epochs * n - n / 5) bs, OptState.steps, List.foldl_append]
    apply steps_zero
    intro k hk
    apply (C97_positive_partial peak hp epochs n lr h k).2
    have := steps_count o lr (bs.take (epochs * n - n / 5)) ⟨params, m, 0⟩
    simp only [OptState.steps, List.length_take, hb] at this hk ⊢
    omega

/-- With the settings of the detector 781 of 390600 steps are idle. -/
example : (∃ lr, learningRate (1 / 1000) 100 3906 = .ok lr) ∧ stepsPerEpoch 500000 128 = .ok 3906 ∧ 3906 / 5 = 781 := by
  refine ⟨?_, by decide, by decide⟩
  cases h : learningRate (1 / 1000) 100 3906 with
  | ok lr => exact ⟨lr, rfl⟩
  | error e =>
    exfalso
    unfold learningRate at h
    simp only at h
    split at h
    · rename_i h'; revert h'; decide
    · cases h

end PD.Props
