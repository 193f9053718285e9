/- C66: the tables of experiments. -/
import Verif.Model.Registry

set_option linter.unusedSectionVars false
set_option linter.unusedSimpArgs false

namespace PD.Props
open PD
variable {Mic Train Eval : Type}

theorem registerEval_lookup (r : Registry Mic Train Eval) (name : String) (e : Eval) (q : String) :
    ((r.registerEval name e).eval.lookup q) =
      (r.eval.lookup q).or (if q = name then some e else none) := by
  unfold Registry.registerEval
  by_cases h : (r.eval.lookup name).isNone
  · rw [if_pos h]
    simp only [List.lookup_cons]
    by_cases hq : q = name
    · subst hq
      have : r.eval.lookup q = none := by simpa using h
      simp [this]
    · have : (q == name) = false := by simpa using hq
      rw [this]
      simp [hq]
  · rw [if_neg h]
    by_cases hq : q = name
    · subst hq
      cases hl : r.eval.lookup q with
      | none => simp [hl] at h
      | some x => simp
    · simp [hq]

theorem registerAll_lookup (r : Registry Mic Train Eval) (rs : List (String × Eval)) (q : String) :
    ((r.registerAll rs).eval.lookup q) = (r.eval.lookup q).or (rs.lookup q) := by
  induction rs generalizing r with
  | nil => simp [Registry.registerAll]
  | cons x rs ih =>
    have : r.registerAll (x :: rs) = (r.registerEval x.1 x.2).registerAll rs := rfl
    rw [this, ih, registerEval_lookup, Option.or_assoc]
    congr 1
    obtain ⟨n, e⟩ := x
    simp only [List.lookup_cons]
    by_cases hq : q = n
    · subst hq; simp
    · have : (q == n) = false := by simpa using hq
      simp [hq, this]

/-- C66: after any sequence of registrations, a name finds the experiment it found before, if any; else
the one first registered under it; else `ValueError`. -/
theorem C66_lookup (r : Registry Mic Train Eval) (rs : List (String × Eval)) (name : String) :
    (∀ e, r.createEval name = .ok e → (r.registerAll rs).createEval name = .ok e) ∧
    (∀ pre e post, rs = pre ++ (name, e) :: post → (∀ x ∈ pre, x.1 ≠ name) →
      (∀ e', r.createEval name ≠ .ok e') → (r.registerAll rs).createEval name = .ok e) ∧
    ((∀ e, r.createEval name ≠ .ok e) → (∀ x ∈ rs, x.1 ≠ name) →
      (r.registerAll rs).createEval name = .error .valueError) := by
  have hnone : (∀ e, r.createEval name ≠ .ok e) → r.eval.lookup name = none := by
    intro h
    cases hl : r.eval.lookup name with
    | none => rfl
    | some e => exact absurd (by simp [Registry.createEval, createFrom, hl]) (h e)
  have hpre : ∀ pre : List (String × Eval), (∀ x ∈ pre, x.1 ≠ name) → pre.lookup name = none := by
    intro pre h
    rw [List.lookup_eq_none_iff]
    intro x hx
    have := h x hx
    simp only [beq_eq_false_iff_ne, ne_eq, bne_iff_ne]
    exact fun hc => this hc.symm
  refine ⟨?_, ?_, ?_⟩
  · intro e h
    simp only [Registry.createEval, createFrom, registerAll_lookup] at h ⊢
    cases hl : r.eval.lookup name with
    | none => rw [hl] at h; cases h
    | some x => rw [hl] at h; simpa using h
  · intro pre e post hrs hp hn
    subst hrs
    simp only [Registry.createEval, createFrom, registerAll_lookup, hnone hn, Option.none_or]
    rw [List.lookup_append, hpre pre hp]
    simp [List.lookup_cons]
  · intro hn hp
    simp only [Registry.createEval, createFrom, registerAll_lookup, hnone hn, Option.none_or, hpre rs hp]

/-- C66: registrations do not change the other tables, and unknown names in them raise `ValueError`. -/
theorem C66_other_tables (r : Registry Mic Train Eval) (rs : List (String × Eval)) (name : String) :
    (r.registerAll rs).createMicroscope name = r.createMicroscope name ∧
    (r.registerAll rs).createTrain name = r.createTrain name ∧
    ((∀ x ∈ r.microscope, x.1 ≠ name) → r.createMicroscope name = .error .valueError) ∧
    ((∀ x ∈ r.train, x.1 ≠ name) → r.createTrain name = .error .valueError) := by
  have key : (r.registerAll rs).microscope = r.microscope ∧ (r.registerAll rs).train = r.train := by
    induction rs generalizing r with
    | nil => exact ⟨rfl, rfl⟩
    | cons x rs ih =>
      have h := ih (r.registerEval x.1 x.2)
      have h2 : (r.registerEval x.1 x.2).microscope = r.microscope ∧
          (r.registerEval x.1 x.2).train = r.train := by
        unfold Registry.registerEval
        split <;> exact ⟨rfl, rfl⟩
      exact ⟨h.1.trans h2.1, h.2.trans h2.2⟩
  have hl : ∀ {E : Type} (t : List (String × E)), (∀ x ∈ t, x.1 ≠ name) → createFrom t name = .error .valueError := by
    intro E t h
    have : t.lookup name = none := by
      rw [List.lookup_eq_none_iff]
      intro x hx
      have := h x hx
      simp only [beq_eq_false_iff_ne, ne_eq, bne_iff_ne]
      exact fun hc => this hc.symm
    simp [createFrom, this]
  refine ⟨?_, ?_, hl _, hl _⟩
  · unfold Registry.createMicroscope; rw [key.1]
  · unfold Registry.createTrain; rw [key.2]

/-- Names and sources as in registry.py:449-468. -/
def sampleRegistry : Registry ℕ ℕ ℕ := ⟨[("relative_random", 1)], [], [("relative_random_simple", 2)]⟩

example : sampleRegistry.createEval "relative_random_simple" = .ok 2 ∧
    (sampleRegistry.registerAll [("relative_random_simple", 7), ("mine", 8), ("mine", 9)]).createEval "mine" = .ok 8 ∧
    (∀ e', sampleRegistry.createEval "mine" ≠ .ok e') := by
  refine ⟨by decide, by decide, ?_⟩
  intro e' h
  have : sampleRegistry.createEval "mine" = .error .valueError := by decide
  rw [this] at h; cases h

end PD.Props
