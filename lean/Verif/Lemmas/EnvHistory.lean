/- Histories of environment calls: protocol, step limit, and independence of the past. -/
import Verif.Lemmas.Environment

set_option linter.unusedSectionVars false
set_option linter.unusedSimpArgs false

namespace PD
open PD.Spec

section protocol
variable {σ A F : Type}

theorem run_cons_ok {I : EnvLike σ A F} {s s' : σ} {c : EnvCall A} {t : TimeStep F}
    (h : I.call c s = .ok t s') (cs : List (EnvCall A)) :
    (I.run s (c :: cs)) = ((c, .ok t) :: (I.run s' cs).1, (I.run s' cs).2) := by
  simp [EnvLike.run, h]

theorem run_cons_error {I : EnvLike σ A F} {s s' : σ} {c : EnvCall A} {e : Err}
    (h : I.call c s = .error e s') (cs : List (EnvCall A)) :
    (I.run s (c :: cs)) = ((c, .error e) :: (I.run s' cs).1, (I.run s' cs).2) := by
  simp [EnvLike.run, h]

/-- What obeying the protocol says about one call. -/
theorem Spec.Obeys.reset_ok {I : EnvLike σ A F} {b : Bool} {s s' : σ} {t : TimeStep F}
    (h : Obeys I b s) (hr : I.reset s = .ok t s') : t.stepType = .first ∧ Obeys I false s' := by
  have key : ∀ cs, StartsReturn (decide (t.stepType = .last)) (I.run s' cs).1 →
      t.stepType = .first ∧ Follows false (I.run s' cs).1 := by
    intro cs hcs
    have := h (.reset :: cs)
    rw [run_cons_ok (c := .reset) hr] at this
    have h2 := this (by simpa [StartsReturn] using hcs)
    cases b <;> simpa [Follows] using h2
  have hf := (key [] (by simp [EnvLike.run, StartsReturn])).1
  refine ⟨hf, fun cs hcs => (key cs (by simpa [hf] using hcs)).2⟩

theorem Spec.Obeys.step_ok_start {I : EnvLike σ A F} {s s' : σ} {t : TimeStep F} {a : A}
    (h : Obeys I true s) (hr : I.step a s = .ok t s') : t.stepType = .first ∧ Obeys I false s' := by
  have key : ∀ cs, StartsReturn (decide (t.stepType = .last)) (I.run s' cs).1 →
      t.stepType = .first ∧ Follows false (I.run s' cs).1 := by
    intro cs hcs
    have := h (.step a :: cs)
    rw [run_cons_ok (c := .step a) hr] at this
    simpa [Follows] using this (by simpa [StartsReturn] using hcs)
  have hf := (key [] (by simp [EnvLike.run, StartsReturn])).1
  refine ⟨hf, fun cs hcs => (key cs (by simpa [hf] using hcs)).2⟩

theorem Spec.Obeys.step_ok {I : EnvLike σ A F} {s s' : σ} {t : TimeStep F} {a : A}
    (h : Obeys I false s) (hr : I.step a s = .ok t s') :
    (t.stepType = .mid ∧ Obeys I false s') ∨ (t.stepType = .last ∧ Obeys I true s') := by
  have key : ∀ cs, StartsReturn (decide (t.stepType = .last)) (I.run s' cs).1 →
      (t.stepType = .mid ∧ Follows false (I.run s' cs).1) ∨
      (t.stepType = .last ∧ Follows true (I.run s' cs).1) := by
    intro cs hcs
    have := h (.step a :: cs)
    rw [run_cons_ok (c := .step a) hr] at this
    simpa [Follows] using this (by simpa [StartsReturn] using hcs)
  rcases key [] (by simp [EnvLike.run, StartsReturn]) with ⟨hf, _⟩ | ⟨hf, _⟩
  · refine .inl ⟨hf, fun cs hcs => ?_⟩
    rcases key cs (by simpa [hf] using hcs) with h1 | h1
    · exact h1.2
    · rw [hf] at h1; simp at h1
  · refine .inr ⟨hf, fun cs hcs => ?_⟩
    rcases key cs (by simpa [hf] using hcs) with h1 | h1
    · rw [hf] at h1; simp at h1
    · exact h1.2

theorem Spec.Obeys.step_error {I : EnvLike σ A F} {s s' : σ} {e : Err} {a : A}
    (h : Obeys I false s) (hr : I.step a s = .error e s') : Obeys I false s' := by
  intro cs hcs
  have := h (.step a :: cs)
  rw [run_cons_error (c := .step a) hr] at this
  simpa [Follows] using this (by simpa [StartsReturn] using hcs)

/-- The counter of the wrapper: `-1` after truncating, otherwise below the limit. -/
def CounterOk (l n : ℤ) : Prop := n = -1 ∨ (0 ≤ n ∧ n < l)

/-- One call of the wrapper within its protocol. -/
theorem stepLimit_call {I : EnvLike σ A F} {l : ℤ} (hl : 1 ≤ l) {b : Bool} {s : σ} {n : ℤ}
    (h : Obeys I b s) (hn : CounterOk l n) (c : EnvCall A) :
    (∃ t s' n' b', (stepLimit I (some l)).call c (s, n) = .ok t (s', n') ∧ Obeys I b' s' ∧
      CounterOk l n' ∧
      ((t.stepType = .first ∧ b' = false ∧ n' = 0 ∧ (c = .reset ∨ (b || n = -1) = true)) ∨
       ((b || n = -1) = false ∧ (∃ a, c = .step a) ∧ (b' || n' = -1) = (t.stepType = .last) ∧
        t.stepType ≠ .first ∧ n + 1 ≤ l ∧ (n + 1 = l → t.stepType = .last) ∧
        (n' = -1 ∨ n' = n + 1)))) ∨
    (∃ e s' n', (stepLimit I (some l)).call c (s, n) = .error e (s', n') ∧
      ((c = .reset ∨ (b || n = -1) = true) ∨
       (n' = n ∧ (∃ a, c = .step a) ∧ Obeys I b s'))) := by
  cases c with
  | reset =>
    cases hr : I.reset s with
    | ok t s' =>
      obtain ⟨h1, h2⟩ := h.reset_ok hr
      refine .inl ⟨t, s', 0, false, by simp [EnvLike.call, stepLimit, hr], h2,
        .inr ⟨le_rfl, by omega⟩, .inl ⟨h1, rfl, rfl, .inl rfl⟩⟩
    | error e s' =>
      exact .inr ⟨e, s', 0, by simp [EnvLike.call, stepLimit, hr], .inl (.inl rfl)⟩
  | step a =>
    by_cases hn1 : n = -1
    · subst hn1
      cases hr : I.reset s with
      | ok t s' =>
        obtain ⟨h1, h2⟩ := h.reset_ok hr
        refine .inl ⟨t, s', 0, false, by simp [EnvLike.call, stepLimit, hr, h1], h2,
          .inr ⟨le_rfl, by omega⟩, .inl ⟨h1, rfl, rfl, .inr (by simp)⟩⟩
      | error e s' =>
        exact .inr ⟨e, s', -1, by simp [EnvLike.call, stepLimit, hr], .inl (.inr (by simp))⟩
    · have hn2 : 0 ≤ n ∧ n < l := hn.resolve_left hn1
      cases hr : I.step a s with
      | error e s' =>
        refine .inr ⟨e, s', n, by simp [EnvLike.call, stepLimit, hr, hn1], ?_⟩
        cases b with
        | true => exact .inl (.inr (by simp))
        | false => exact .inr ⟨rfl, ⟨a, rfl⟩, h.step_error hr⟩
      | ok t s' =>
        cases b with
        | true =>
          obtain ⟨h1, h2⟩ := h.step_ok_start hr
          exact .inl ⟨t, s', 0, false, by simp [EnvLike.call, stepLimit, hr, h1, hn1], h2,
            .inr ⟨le_rfl, by omega⟩, .inl ⟨h1, rfl, rfl, .inr (by simp)⟩⟩
        | false =>
          by_cases hlim : n + 1 ≥ l
          · rcases h.step_ok hr with ⟨h1, h2⟩ | ⟨h1, h2⟩
            · refine .inl ⟨TimeStep.truncation t.reward t.observation t.discount, s', -1, false,
                by simp [EnvLike.call, stepLimit, hr, h1, hn1, hlim], h2, .inl rfl,
                .inr ⟨by simp [hn1], ⟨a, rfl⟩, by simp [TimeStep.truncation], by simp [TimeStep.truncation],
                  by omega, fun _ => rfl, .inl rfl⟩⟩
            · refine .inl ⟨TimeStep.truncation t.reward t.observation t.discount, s', -1, true,
                by simp [EnvLike.call, stepLimit, hr, h1, hn1, hlim], h2, .inl rfl,
                .inr ⟨by simp [hn1], ⟨a, rfl⟩, by simp [TimeStep.truncation], by simp [TimeStep.truncation],
                  by omega, fun _ => rfl, .inl rfl⟩⟩
          · rcases h.step_ok hr with ⟨h1, h2⟩ | ⟨h1, h2⟩
            · refine .inl ⟨t, s', n + 1, false,
                by simp [EnvLike.call, stepLimit, hr, h1, hn1, hlim], h2, .inr ⟨by omega, by omega⟩,
                .inr ⟨by simp [hn1], ⟨a, rfl⟩, ?_, by simp [h1], by omega, fun _ => by omega, .inr rfl⟩⟩
              have : n + 1 ≠ -1 := by omega
              simp [h1, this]
            · refine .inl ⟨t, s', n + 1, true,
                by simp [EnvLike.call, stepLimit, hr, h1, hn1, hlim], h2, .inr ⟨by omega, by omega⟩,
                .inr ⟨by simp [hn1], ⟨a, rfl⟩, by simp [h1], by simp [h1], by omega, fun _ => h1,
                  .inr rfl⟩⟩

end protocol
end PD
