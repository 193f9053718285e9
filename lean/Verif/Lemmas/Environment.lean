/- Lemmas about the environment. -/
import Verif.Spec.Environment
import Verif.Lemmas.Goal
import Verif.Lemmas.Erase

set_option linter.unusedSectionVars false
set_option linter.unusedSimpArgs false

namespace PD
open PD.Spec
variable {K G O P Img F : Type} [Field K] [LinearOrder K] [IsStrictOrderedRing K] [FloorRing K]

/-- The time a step reports, from any state. -/
theorem applyControls_elapsed (cfg : SimCfg K G O P Img) (fov : Fov K) (cs : List (BeamControl K))
    (el : Timedelta) (s s' : MatCtx K G O) (r : Timedelta)
    (h : applyControls cfg fov cs el s = .ok r s') : r = el + (cs.map (·.dwellTime)).sum := by
  induction cs generalizing el s with
  | nil =>
    simp only [applyControls, EStateM.Result.ok.injEq] at h
    simp [h.1]
  | cons c cs ih =>
    simp only [applyControls] at h
    split at h
    · cases h
    · have := ih _ _ h
      rw [this]
      simp only [List.map_cons, List.sum_cons, BeamControl.mk']
      omega

theorem step_elapsed {cfg : SimCfg K G O P Img} {cs : List (BeamControl K)} {b : Bool}
    {s s' : Sim K G O P} {o : Observation K Img} (h : Sim.step cfg cs b s = .ok o s') :
    o.elapsedTime = (cs.map (·.dwellTime)).sum + cfg.imageDuration ∨
    o.elapsedTime = (cs.map (·.dwellTime)).sum + cfg.imageDuration + cfg.imageDuration := by
  unfold Sim.step at h
  split at h
  · split at h
    · cases h
    · rename_i fov hfov
      split at h
      · cases h
      · rename_i el c hc
        have hel := applyControls_elapsed cfg fov cs 0 _ _ _ hc
        split at h
        · cases h
        · rename_i grid s1 h1
          split at h
          · cases h
          · rename_i grid' fov' el' s2 h2
            have hel' : el' = el + cfg.imageDuration ∨
                el' = el + cfg.imageDuration + cfg.imageDuration := by
              unfold Sim.recentre at h2
              split at h2
              · cases h2
              · simp only [EStateM.Result.ok.injEq, Prod.mk.injEq] at h2
                exact .inl h2.1.2.2.symm
              · split at h2
                · cases h2
                · split at h2
                  · cases h2
                  · dsimp only at h2
                    split at h2
                    · cases h2
                    · simp only [EStateM.Result.ok.injEq, Prod.mk.injEq] at h2
                      exact .inr h2.1.2.2.symm
            split at h
            · cases h
            · simp only [EStateM.Result.ok.injEq] at h
              obtain ⟨rfl, _⟩ := h
              simp only
              omega
  · cases h

/-- A reset that returned. -/
theorem envReset_ok {cfg : EnvCfg K G O P Img F} {s s' : Env K G O P Img} {t : TimeStep F}
    (h : Env.reset cfg s = .ok t s') :
    t.stepType = .first ∧ t.reward = 0 ∧ t.discount = gammaPow s'.last.elapsedTime ∧
    s'.last.elapsedTime = cfg.sim.imageDuration ∧ s'.requiresReset = false ∧
    cfg.features s'.last (.singleSilicon s'.goal) = .ok t.observation := by
  unfold Env.reset at h
  dsimp only at h
  cases hr : Sim.reset cfg.sim cfg.requiresImage s.sim with
  | error e sim => simp only [hr] at h; cases h
  | ok o sim =>
    simp only [hr] at h
    obtain ⟨_, _, _, hf⟩ := reset_ok hr
    cases hg : GoalState.reset cfg.sim.rng (Env.resetAdapter cfg ⟨sim, s.adapterRng, s.beam, s.goal, o, false⟩).last
        (Env.resetAdapter cfg ⟨sim, s.adapterRng, s.beam, s.goal, o, false⟩).goal
        (Env.resetAdapter cfg ⟨sim, s.adapterRng, s.beam, s.goal, o, false⟩).sim.ctx.g with
    | error e => simp only [hg] at h; cases h
    | ok gg =>
      obtain ⟨goal, g⟩ := gg
      simp only [hg] at h
      have hl : (Env.resetAdapter cfg ⟨sim, s.adapterRng, s.beam, s.goal, o, false⟩).last = o := by
        unfold Env.resetAdapter; split <;> rfl
      have hq : (Env.resetAdapter cfg ⟨sim, s.adapterRng, s.beam, s.goal, o, false⟩).requiresReset
          = false := by
        unfold Env.resetAdapter; split <;> rfl
      split at h
      · cases h
      · rename_i f hfeat
        simp only [EStateM.Result.ok.injEq] at h
        obtain ⟨rfl, rfl⟩ := h
        refine ⟨rfl, rfl, rfl, ?_, hq, hfeat⟩
        show (Env.resetAdapter cfg ⟨sim, s.adapterRng, s.beam, s.goal, o, false⟩).last.elapsedTime = _
        rw [hl, hf.oelapsed]

theorem envReset_flag (cfg : EnvCfg K G O P Img F) (s : Env K G O P Img) :
    (endState (Env.reset cfg s)).requiresReset = false := by
  have hq : ∀ x : Env K G O P Img, (Env.resetAdapter cfg x).requiresReset = x.requiresReset := by
    intro x; unfold Env.resetAdapter; split <;> rfl
  unfold Env.reset
  dsimp only
  cases hr : Sim.reset cfg.sim cfg.requiresImage s.sim with
  | error e sim => simp only [hr]; rfl
  | ok o sim =>
    simp only [hr]
    split
    · simp only [endState, hq]
    · split <;> simp only [endState, hq]

/-- The outcomes of a step within an episode. -/
inductive EnvStepOutcome (cfg : EnvCfg K G O P Img F) (a : List K) (s : Env K G O P Img) : Prop
  | failed (e : Err) (s' : Env K G O P Img) (h : Env.step cfg a s = .error e s')
      (flag : s'.requiresReset = false) (goal : s'.goal.goal = s.goal.goal)
  | ok (t : TimeStep F) (s' : Env K G O P Img) (h : Env.step cfg a s = .ok t s')
      (cs : List (BeamControl K)) (beam : V2 K)
      (controls : cfg.adapter.getAction s.last a s.beam = .ok cs beam)
      (sim : Sim.step cfg.sim cs cfg.requiresImage s.sim = .ok s'.last s'.sim)
      (feat : cfg.features s'.last (.singleSilicon s.goal) = .ok t.observation)
      (goal : s'.goal.goal = s.goal.goal)
      (r : GoalReturn) (reward : GoalState.calculate s'.last s.goal = .ok r s'.goal)
      (out : (r.isTerminal = true ∧ t.stepType = .last ∧ t.reward = gammaPow s'.last.elapsedTime ∧
          t.discount = 0 ∧ s'.requiresReset = true) ∨
        (r.isTerminal = false ∧ t.stepType = .mid ∧ t.reward = 0 ∧
          t.discount = gammaPow s'.last.elapsedTime ∧ s'.requiresReset = false))

theorem calculate_return {o : Observation K Img} {s s' : GoalState K} {r : GoalReturn}
    (h : GoalState.calculate o s = .ok r s') :
    r.isTruncated = false ∧ r.reward = (if r.isTerminal then gammaPow o.elapsedTime else 0) ∧
      s'.goal = s.goal := by
  unfold GoalState.calculate at h
  split at h
  · cases h
  · simp only [EStateM.Result.ok.injEq] at h
    obtain ⟨rfl, rfl⟩ := h
    exact ⟨rfl, rfl, rfl⟩

theorem envStep_end (cfg : EnvCfg K G O P Img F) (a : List K) (s : Env K G O P Img)
    (hs : s.requiresReset = false) : EnvStepOutcome cfg a s := by
  obtain ⟨sim0, ga, beam0, goal0, last0, flag0⟩ := s
  simp only at hs
  subst hs
  cases hc : cfg.adapter.getAction last0 a beam0 with
  | error e beam =>
    refine .failed e ⟨sim0, ga, beam, goal0, last0, false⟩ ?_ rfl rfl
    simp [Env.step, hc]
  | ok cs beam =>
    cases hst : Sim.step cfg.sim cs cfg.requiresImage sim0 with
    | error e sim =>
      refine .failed e ⟨sim, ga, beam, goal0, last0, false⟩ ?_ rfl rfl
      simp [Env.step, hc, hst]
    | ok o sim =>
      cases hf : cfg.features o (.singleSilicon goal0) with
      | error e =>
        refine .failed e ⟨sim, ga, beam, goal0, o, false⟩ ?_ rfl rfl
        simp [Env.step, hc, hst, hf]
      | ok f =>
        cases hg : GoalState.calculate o goal0 with
        | error e goal =>
          have hgoal : goal.goal = goal0.goal := by
            unfold GoalState.calculate at hg
            split at hg
            · simp only [EStateM.Result.error.injEq] at hg; rw [hg.2]
            · cases hg
          refine .failed e ⟨sim, ga, beam, goal, o, false⟩ ?_ rfl hgoal
          simp [Env.step, hc, hst, hf, hg]
        | ok r goal =>
          obtain ⟨h1, h2, h3⟩ := calculate_return hg
          cases ht : r.isTerminal with
          | true =>
            refine .ok (TimeStep.termination r.reward f) ⟨sim, ga, beam, goal, o, true⟩ ?_ cs beam hc
              hst hf h3 r hg (.inl ⟨ht, rfl, ?_, rfl, rfl⟩)
            · simp [Env.step, hc, hst, hf, hg, ht]
            · simp [TimeStep.termination, h2, ht]
          | false =>
            refine .ok (TimeStep.transition r.reward f (gammaPow o.elapsedTime))
              ⟨sim, ga, beam, goal, o, false⟩ ?_ cs beam hc hst hf h3 r hg
              (.inr ⟨ht, rfl, ?_, rfl, rfl⟩)
            · simp [Env.step, hc, hst, hf, hg, ht, h1]
            · simp [TimeStep.transition, h2, ht]

end PD
