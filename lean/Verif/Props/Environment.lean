/- C19-C23: the dm_env protocol, rewards, reproducibility, the step limit, failed resets. -/
import Verif.Lemmas.EnvErase
import Verif.Props.Adapters
import Verif.Props.Features

set_option linter.unusedSectionVars false
set_option linter.unusedSimpArgs false

namespace PD.Props
open PD PD.Spec
variable {K G O P Img F σ A : Type} [Field K] [LinearOrder K] [IsStrictOrderedRing K] [FloorRing K]

/-! ### C19 the episode protocol -/

theorem env_call_ok {cfg : EnvCfg K G O P Img F} {s s' : Env K G O P Img} {t : TimeStep F}
    {c : EnvCall (List K)} (h : (Env.like cfg).call c s = .ok t s') :
    s'.requiresReset = decide (t.stepType = .last) ∧
    ((c = .reset ∨ s.requiresReset = true) → t.stepType = .first) ∧
    (s.requiresReset = false → (∃ a, c = .step a) → t.stepType ≠ .first) := by
  have hreset : Env.reset cfg s = .ok t s' →
      s'.requiresReset = decide (t.stepType = .last) ∧ t.stepType = .first := by
    intro h
    obtain ⟨h1, _, _, _, h5, _⟩ := envReset_ok h
    simp [h1, h5]
  cases c with
  | reset => exact ⟨(hreset h).1, fun _ => (hreset h).2, fun _ ⟨a, ha⟩ => by cases ha⟩
  | step a =>
    have h : Env.step cfg a s = .ok t s' := h
    cases hq : s.requiresReset with
    | true =>
      have : Env.reset cfg s = .ok t s' := by simpa [Env.step, hq] using h
      exact ⟨(hreset this).1, fun _ => (hreset this).2, fun h' => by cases h'⟩
    | false =>
      cases envStep_end cfg a s hq with
      | failed e s2 h2 => rw [h] at h2; cases h2
      | ok t2 s2 h2 cs beam hcs hsim hfeat hgoal r hr out =>
        rw [h] at h2
        simp only [EStateM.Result.ok.injEq] at h2
        obtain ⟨rfl, rfl⟩ := h2
        rcases out with ⟨_, h1, _, _, h5⟩ | ⟨_, h1, _, _, h5⟩ <;> simp [h1, h5]

theorem env_call_error {cfg : EnvCfg K G O P Img F} {s s' : Env K G O P Img} {e : Err}
    {c : EnvCall (List K)} (h : (Env.like cfg).call c s = .error e s') :
    s'.requiresReset = false := by
  have hreset : Env.reset cfg s = .error e s' → s'.requiresReset = false := by
    intro h
    have := envReset_flag cfg s
    rw [h] at this
    exact this
  cases c with
  | reset => exact hreset h
  | step a =>
    have h : Env.step cfg a s = .error e s' := h
    cases hq : s.requiresReset with
    | true => exact hreset (by simpa [Env.step, hq] using h)
    | false =>
      cases envStep_end cfg a s hq with
      | failed e2 s2 h2 hf =>
        rw [h] at h2
        simp only [EStateM.Result.error.injEq] at h2
        rw [h2.2]; exact hf
      | ok t2 s2 h2 => rw [h] at h2; cases h2

/-- For every sequence of calls the step types have the form `FIRST (MID)* LAST FIRST …`: `reset`
returns FIRST, so does a step before any reset or after LAST, and any other step returns MID or
LAST.  (As long as no attempt to start an episode raised; see C23 for that case.) -/
theorem C19_protocol (cfg : EnvCfg K G O P Img F) (s : Env K G O P Img) :
    Obeys (Env.like cfg) s.requiresReset s := by
  intro cs
  induction cs generalizing s with
  | nil => intro _; simp [EnvLike.run, Follows]
  | cons c cs ih =>
    cases h : (Env.like cfg).call c s with
    | ok t s' =>
      obtain ⟨h1, h2, h3⟩ := env_call_ok h
      rw [run_cons_ok h]
      intro hst
      have ih' := ih s'
      simp only [StartsReturn] at hst
      rw [← h1] at hst
      have hf := ih' hst
      cases c with
      | reset =>
        have h4 := h2 (.inl rfl)
        rw [h1, h4] at hf
        simp only [Follows]
        exact ⟨h4, by simpa using hf⟩
      | step a =>
        cases hq : s.requiresReset with
        | true =>
          have h4 := h2 (.inr hq)
          rw [h1, h4] at hf
          simp only [Follows]
          exact ⟨h4, by simpa using hf⟩
        | false =>
          have h4 := h3 hq ⟨a, rfl⟩
          rw [h1] at hf
          simp only [Follows]
          cases ht : t.stepType with
          | first => exact absurd ht h4
          | mid => rw [ht] at hf; exact .inl ⟨rfl, by simpa using hf⟩
          | last => rw [ht] at hf; exact .inr ⟨rfl, by simpa using hf⟩
    | error e s' =>
      rw [run_cons_error h]
      intro hst
      cases c with
      | reset => simp [StartsReturn] at hst
      | step a =>
        cases hq : s.requiresReset with
        | true => simp [StartsReturn, hq] at hst
        | false =>
          simp only [StartsReturn, hq] at hst
          have hf := ih s'
          rw [env_call_error h] at hf
          simpa only [Follows] using hf hst

/-- The same for a new environment, which has to start an episode first. -/
theorem C19_new_environment (cfg : EnvCfg K G O P Img F) (g : G) (ga : Option G) (beam : V2 K)
    (goal : GoalState K) : Obeys (Env.like cfg) true (Env.fresh g ga beam goal : Env K G O P Img) :=
  C19_protocol cfg (Env.fresh g ga beam goal)

theorem env_flag_after (cfg : EnvCfg K G O P Img F) (cs : List (EnvCall (List K)))
    (s : Env K G O P Img) (h : StartsReturn s.requiresReset ((Env.like cfg).run s cs).1) :
    ((Env.like cfg).run s cs).2.requiresReset =
      mustStart s.requiresReset ((Env.like cfg).run s cs).1 := by
  induction cs generalizing s with
  | nil => rfl
  | cons c cs ih =>
    cases hc : (Env.like cfg).call c s with
    | ok t s' =>
      have h1 := (env_call_ok hc).1
      rw [run_cons_ok hc] at h ⊢
      simp only [StartsReturn] at h
      simp only [mustStart]
      rw [← h1] at h ⊢
      exact ih s' h
    | error e s' =>
      have h1 := env_call_error hc
      rw [run_cons_error hc] at h ⊢
      cases c with
      | reset => simp [StartsReturn] at h
      | step a =>
        cases hq : s.requiresReset with
        | true => simp [StartsReturn, hq] at h
        | false =>
          simp only [StartsReturn, hq] at h
          simp only [mustStart]
          rw [← h1] at h ⊢
          exact ih s' h

/-- A step that has to start an episode ignores its action: it does what `reset` does. -/
theorem C19_starting_step_is_reset (cfg : EnvCfg K G O P Img F) (s : Env K G O P Img)
    (cs : List (EnvCall (List K))) (h : StartsReturn s.requiresReset ((Env.like cfg).run s cs).1)
    (hm : mustStart s.requiresReset ((Env.like cfg).run s cs).1 = true) (a : List K) :
    Env.step cfg a ((Env.like cfg).run s cs).2 = Env.reset cfg ((Env.like cfg).run s cs).2 := by
  have := env_flag_after cfg cs s h
  simp [Env.step, this, hm]

/-! ### C20 rewards -/

/-- Every entry of a history was produced by a call. -/
theorem mem_run {I : EnvLike σ A F} {cs : List (EnvCall A)} {s : σ} {c : EnvCall A}
    {t : TimeStep F} (h : (c, .ok t) ∈ (I.run s cs).1) :
    ∃ s1 s2, I.call c s1 = .ok t s2 := by
  induction cs generalizing s with
  | nil => simp [EnvLike.run] at h
  | cons c' cs ih =>
    cases hc : I.call c' s with
    | ok t' s' =>
      rw [run_cons_ok hc] at h
      rcases List.mem_cons.1 h with h | h
      · simp only [Prod.mk.injEq, Except.ok.injEq] at h
        exact ⟨s, s', by rw [h.1, h.2, hc]⟩
      · exact ih h
    | error e s' =>
      rw [run_cons_error hc] at h
      rcases List.mem_cons.1 h with h | h
      · simp at h
      · exact ih h

/-- What a time step's reward and discount can be, `d` being the time the call took. -/
def Sparse (d : Timedelta) (t : TimeStep F) : Prop :=
  (t.stepType ≠ .last → t.reward = 0 ∧ t.discount = (9967 / 10000 : ℝ) ^ ((d : ℝ) / 1000000) ∧
      0 < t.discount ∧ t.discount ≤ 1) ∧
  (t.stepType = .last → t.reward = (9967 / 10000 : ℝ) ^ ((d : ℝ) / 1000000) ∧ 0 < t.reward ∧
      t.reward ≤ 1 ∧ t.discount = 0)

/-- Every call, whatever happened before: only LAST carries a reward, `γ ^ elapsed seconds` in
`(0, 1]`, with discount 0; any other time step has reward 0 and discount `γ ^ elapsed seconds` in
`(0, 1]`.  The elapsed time is that of the observation the call took. -/
theorem C20_sparse (cfg : EnvCfg K G O P Img F) (himg : 0 ≤ cfg.sim.imageDuration)
    (hd0 : 0 ≤ (dwellRange cfg.adapter).1)
    (hd : (dwellRange cfg.adapter).1 ≤ (dwellRange cfg.adapter).2)
    (s s' : Env K G O P Img) (c : EnvCall (List K)) (t : TimeStep F)
    (h : (Env.like cfg).call c s = .ok t s') : Sparse s'.last.elapsedTime t := by
  have hγ : ∀ d : Timedelta, gammaPow d = (9967 / 10000 : ℝ) ^ ((d : ℝ) / 1000000) := by
    intro d; simp [gammaPow, GAMMA, totalSeconds]
  have hreset : Env.reset cfg s = .ok t s' → Sparse s'.last.elapsedTime t := by
    intro h
    obtain ⟨h1, h2, h3, h4, _, _⟩ := envReset_ok h
    have h0 : 0 ≤ s'.last.elapsedTime := by rw [h4]; exact himg
    refine ⟨fun _ => ⟨h2, by rw [h3, hγ], by rw [h3]; exact gammaPow_pos _,
      by rw [h3]; exact gammaPow_le_one h0⟩, fun h => by rw [h1] at h; cases h⟩
  cases c with
  | reset => exact hreset h
  | step a =>
    have h : Env.step cfg a s = .ok t s' := h
    cases hq : s.requiresReset with
    | true => exact hreset (by simpa [Env.step, hq] using h)
    | false =>
      cases envStep_end cfg a s hq with
      | failed e s2 h2 => rw [h] at h2; cases h2
      | ok t2 s2 h2 cs beam hcs hsim hfeat hgoal r hr out =>
        rw [h] at h2
        simp only [EStateM.Result.ok.injEq] at h2
        obtain ⟨rfl, rfl⟩ := h2
        obtain ⟨c, rfl, _, hc1, _⟩ := C24_one_control_in_view cfg.adapter hd _ _ _ _ _ hcs
        have h0 : 0 ≤ s'.last.elapsedTime := by
          rcases step_elapsed hsim with h | h <;> rw [h] <;>
            simp only [List.map_cons, List.map_nil, List.sum_cons, List.sum_nil] <;> omega
        rcases out with ⟨_, h1, h3, h4, _⟩ | ⟨_, h1, h3, h4, _⟩
        · refine ⟨fun h => absurd h1 h, fun _ => ⟨by rw [h3, hγ], by rw [h3]; exact gammaPow_pos _,
            by rw [h3]; exact gammaPow_le_one h0, h4⟩⟩
        · refine ⟨fun _ => ⟨h3, by rw [h4, hγ], by rw [h4]; exact gammaPow_pos _,
            by rw [h4]; exact gammaPow_le_one h0⟩, fun h => by rw [h1] at h; cases h⟩

/-- The return of any stretch of a history before a LAST is 0; up to and including a LAST it is that
step's reward, in `(0, 1]`. -/
theorem C20_return (cfg : EnvCfg K G O P Img F) (himg : 0 ≤ cfg.sim.imageDuration)
    (hd0 : 0 ≤ (dwellRange cfg.adapter).1)
    (hd : (dwellRange cfg.adapter).1 ≤ (dwellRange cfg.adapter).2)
    (s : Env K G O P Img) (cs : List (EnvCall (List K))) (pre seg post : Trace (List K) F)
    (htr : ((Env.like cfg).run s cs).1 = pre ++ seg ++ post)
    (hseg : .last ∉ stepTypes seg) :
    (rewards seg).sum = 0 ∧
    ∀ c t post', post = (c, .ok t) :: post' → t.stepType = .last →
      (rewards (seg ++ [(c, .ok t)])).sum = t.reward ∧ 0 < t.reward ∧ t.reward ≤ 1 ∧
      t.discount = 0 := by
  have hall : ∀ c t, (c, .ok t) ∈ pre ++ seg ++ post → ∃ d, Sparse d t := by
    intro c t hm
    rw [← htr] at hm
    obtain ⟨s1, s2, h⟩ := mem_run hm
    exact ⟨_, C20_sparse cfg himg hd0 hd s1 s2 c t h⟩
  have hzero : (rewards seg).sum = 0 := by
    apply List.sum_eq_zero
    intro x hx
    obtain ⟨⟨c, r⟩, hm, hr⟩ := List.mem_filterMap.1 hx
    cases r with
    | error e => simp at hr
    | ok t =>
      obtain ⟨d, h1, _⟩ := hall c t (by simp [hm])
      simp only [Option.some.injEq] at hr
      rw [← hr]
      refine (h1 ?_).1
      intro hl
      apply hseg
      exact List.mem_filterMap.2 ⟨(c, .ok t), hm, by simp [hl]⟩
  refine ⟨hzero, ?_⟩
  intro c t post' hp hl
  obtain ⟨d, _, h2⟩ := hall c t (by simp [hp])
  obtain ⟨_, h3, h4, h5⟩ := h2 hl
  refine ⟨?_, h3, h4, h5⟩
  simp only [rewards] at hzero
  simp [rewards, List.filterMap_append, hzero]

/-- The goal does not move within an episode (C16 seen from the environment): only a reset, or a step
that starts an episode, can change it. -/
theorem C16_goal_fixed_in_episode (cfg : EnvCfg K G O P Img F) (s : Env K G O P Img)
    (hs : s.requiresReset = false) (a : List K) :
    (Env.exec cfg s (.step a)).goal.goal = s.goal.goal := by
  simp only [Env.exec]
  cases envStep_end cfg a s hs with
  | failed e s2 h2 hf hg => rw [h2]; exact hg
  | ok t2 s2 h2 cs beam hcs hsim hfeat hgoal r hr out => rw [h2]; exact hgoal

/-! ### C21 seeding and resetting erases history -/

theorem goalReset_params {rng : Rng K G} {o : Observation K Img} {s s' : GoalState K} {g g' : G}
    (h : GoalState.reset rng o s g = .ok (s', g')) :
    s'.required = s.required ∧ s'.rangeMin = s.rangeMin ∧ s'.rangeMax = s.rangeMax := by
  unfold GoalState.reset at h
  split at h
  · cases h
  · dsimp only at h
    split_ifs at h
    split at h
    · cases h
    · simp only [Except.ok.injEq, Prod.mk.injEq] at h
      rw [← h.1]; exact ⟨rfl, rfl, rfl⟩

theorem goalCalculate_params (o : Observation K Img) (s : GoalState K) :
    (endState (GoalState.calculate o s)).required = s.required ∧
    (endState (GoalState.calculate o s)).rangeMin = s.rangeMin ∧
    (endState (GoalState.calculate o s)).rangeMax = s.rangeMax := by
  unfold GoalState.calculate
  split <;> exact ⟨rfl, rfl, rfl⟩

/-- Two goals with the same settings. -/
def SameSettings (a b : GoalState K) : Prop :=
  a.required = b.required ∧ a.rangeMin = b.rangeMin ∧ a.rangeMax = b.rangeMax

theorem SameSettings.trans {a b c : GoalState K} (h : SameSettings a b) (h' : SameSettings b c) :
    SameSettings a c := ⟨h.1.trans h'.1, h.2.1.trans h'.2.1, h.2.2.trans h'.2.2⟩
theorem SameSettings.symm {a b : GoalState K} (h : SameSettings a b) : SameSettings b a :=
  ⟨h.1.symm, h.2.1.symm, h.2.2.symm⟩

theorem envReset_params (cfg : EnvCfg K G O P Img F) (s : Env K G O P Img) :
    SameSettings (endState (Env.reset cfg s)).goal s.goal := by
  have hq : ∀ x : Env K G O P Img, (Env.resetAdapter cfg x).goal = x.goal := by
    intro x; unfold Env.resetAdapter; split <;> rfl
  rw [envReset_eq]
  cases Sim.reset cfg.sim cfg.requiresImage s.sim with
  | error e sim => exact ⟨rfl, rfl, rfl⟩
  | ok o sim =>
    dsimp only
    unfold Env.resetTail
    split
    · simp only [endState, hq]; exact ⟨rfl, rfl, rfl⟩
    · rename_i goal g hg
      have hp := goalReset_params hg
      rw [hq] at hp
      dsimp only
      split <;> exact hp

theorem envStep_params (cfg : EnvCfg K G O P Img F) (a : List K) (s : Env K G O P Img) :
    SameSettings (endState (Env.step cfg a s)).goal s.goal := by
  rw [envStep_eq]
  split_ifs
  · exact envReset_params cfg s
  · split
    · exact ⟨rfl, rfl, rfl⟩
    · unfold Env.stepTail
      split
      · exact ⟨rfl, rfl, rfl⟩
      · dsimp only
        split
        · exact ⟨rfl, rfl, rfl⟩
        · split
          · rename_i o _ _ _ _ _ _ _ _ h
            have := goalCalculate_params o s.goal
            rw [h] at this
            exact this
          · rename_i o _ _ _ _ _ _ _ _ h
            have := goalCalculate_params o s.goal
            rw [h] at this
            split_ifs <;> exact this

theorem envAfter_params (cfg : EnvCfg K G O P Img F) (ops : List (EnvOp K O)) (s : Env K G O P Img) :
    SameSettings (Env.after cfg s ops).goal s.goal := by
  induction ops generalizing s with
  | nil => exact ⟨rfl, rfl, rfl⟩
  | cons op ops ih =>
    have h1 : SameSettings (Env.exec cfg s op).goal s.goal := by
      cases op with
      | reset =>
        have := envReset_params cfg s
        simp only [Env.exec]
        cases h : Env.reset cfg s <;> rw [h] at this <;> exact this
      | step a =>
        have := envStep_params cfg a s
        simp only [Env.exec]
        cases h : Env.step cfg a s <;> rw [h] at this <;> exact this
      | seed z => exact ⟨rfl, rfl, rfl⟩
      | addObserver o => exact ⟨rfl, rfl, rfl⟩
      | removeObserver i =>
        simp only [Env.exec]
        split <;> exact ⟨rfl, rfl, rfl⟩
    exact (ih (Env.exec cfg s op)).trans h1

theorem resetAdapter_none (cfg : EnvCfg K G O P Img F) {s1 s2 : Env K G O P Img}
    (hg : s1.sim.unobserved = s2.sim.unobserved) (h1 : s1.adapterRng = none)
    (h2 : s2.adapterRng = none) (hl : s1.last = s2.last) (hf : s1.requiresReset = s2.requiresReset) :
    (Env.resetAdapter cfg s1).sim.unobserved = (Env.resetAdapter cfg s2).sim.unobserved ∧
    (Env.resetAdapter cfg s1).adapterRng = none ∧ (Env.resetAdapter cfg s2).adapterRng = none ∧
    (Env.resetAdapter cfg s1).last = (Env.resetAdapter cfg s2).last ∧
    (Env.resetAdapter cfg s1).requiresReset = (Env.resetAdapter cfg s2).requiresReset ∧
    (cfg.adapter = .delta → (Env.resetAdapter cfg s1).beam = (Env.resetAdapter cfg s2).beam) ∧
    (Env.resetAdapter cfg s1).goal = s1.goal ∧ (Env.resetAdapter cfg s2).goal = s2.goal := by
  obtain ⟨⟨⟨g1, m1, o1⟩, f1, sc1, fv1, p1⟩, ga1, b1, gl1, l1, q1⟩ := s1
  obtain ⟨⟨⟨g2, m2, o2⟩, f2, sc2, fv2, p2⟩, ga2, b2, gl2, l2, q2⟩ := s2
  simp only [Sim.unobserved, MatCtx.unobserved, Sim.mk.injEq, MatCtx.mk.injEq] at *
  obtain ⟨⟨rfl, rfl, _⟩, rfl, rfl, rfl, rfl⟩ := hg
  subst h1 h2 hl hf
  have hgen : (cfg.adapter.reset cfg.sim.rng b1 g1).2 = (cfg.adapter.reset cfg.sim.rng b2 g1).2 := by
    cases cfg.adapter <;> rfl
  refine ⟨?_, rfl, rfl, rfl, rfl, ?_, rfl, rfl⟩
  · simp [Env.resetAdapter, hgen]
  · intro h
    simp [Env.resetAdapter, h, Adapter.reset]

/-- Seeding two environments with the same settings alike and resetting them gives the same result,
and environments that will behave alike. -/
theorem seed_reset (cfg : EnvCfg K G O P Img F) (z : ℤ) {s1 s2 : Env K G O P Img}
    (h : SameSettings s1.goal s2.goal) :
    (∃ t s1' s2', Env.reset cfg (Env.seed cfg z s1) = .ok t s1' ∧
      Env.reset cfg (Env.seed cfg z s2) = .ok t s2' ∧ SameFuture cfg s1' s2') ∨
    (∃ e s1' s2', Env.reset cfg (Env.seed cfg z s1) = .error e s1' ∧
      Env.reset cfg (Env.seed cfg z s2) = .error e s2') := by
  rw [envReset_eq, envReset_eq]
  rcases simReset_forgets cfg.sim cfg.requiresImage (s1 := (Env.seed cfg z s1).sim)
    (s2 := (Env.seed cfg z s2).sim) rfl with ⟨o, x1, x2, e1, e2, hu⟩ | ⟨e, x1, x2, e1, e2⟩
  · rw [e1, e2]
    dsimp only
    obtain ⟨r1, r2, r3, r4, r5, r6, r7, r8⟩ := resetAdapter_none cfg
      (s1 := ⟨x1, (Env.seed cfg z s1).adapterRng, (Env.seed cfg z s1).beam, (Env.seed cfg z s1).goal, o, false⟩)
      (s2 := ⟨x2, (Env.seed cfg z s2).adapterRng, (Env.seed cfg z s2).beam, (Env.seed cfg z s2).goal, o, false⟩)
      hu rfl rfl rfl rfl
    generalize hy1 : Env.resetAdapter cfg ⟨x1, (Env.seed cfg z s1).adapterRng, (Env.seed cfg z s1).beam, (Env.seed cfg z s1).goal, o, false⟩ = y1 at *
    generalize hy2 : Env.resetAdapter cfg ⟨x2, (Env.seed cfg z s2).adapterRng, (Env.seed cfg z s2).beam, (Env.seed cfg z s2).goal, o, false⟩ = y2 at *
    have hset : SameSettings y1.goal y2.goal := by rw [r7, r8]; exact h
    clear r7 r8 hy1 hy2 e1 e2 hu h
    obtain ⟨⟨⟨g1, m1, o1⟩, f1, sc1, fv1, p1⟩, ga1, b1, gl1, l1, q1⟩ := y1
    obtain ⟨⟨⟨g2, m2, o2⟩, f2, sc2, fv2, p2⟩, ga2, b2, gl2, l2, q2⟩ := y2
    simp only [Sim.unobserved, MatCtx.unobserved, Sim.mk.injEq, MatCtx.mk.injEq] at *
    obtain ⟨⟨rfl, rfl, _⟩, rfl, rfl, rfl, rfl⟩ := r1
    subst r2 r3 r4 r5
    obtain ⟨a1, a2, a3, a4, a5⟩ := gl1
    obtain ⟨c1, c2, c3, c4, c5⟩ := gl2
    obtain ⟨h1, h2, h3⟩ := hset
    simp only at h1 h2 h3
    subst h1 h2 h3
    have hg : ∀ x : Except Err (GoalState K × G), True := fun _ => trivial
    have hgoal : GoalState.reset cfg.sim.rng l1 ⟨a1, a2, a3, a4, a5⟩ g1 =
        GoalState.reset cfg.sim.rng l1 ⟨a1, a2, a3, c4, c5⟩ g1 := rfl
    unfold Env.resetTail
    dsimp only
    rw [← hgoal]
    cases GoalState.reset cfg.sim.rng l1 ⟨a1, a2, a3, a4, a5⟩ g1 with
    | error e => exact .inr ⟨e, _, _, rfl, rfl⟩
    | ok r =>
      obtain ⟨goal, g⟩ := r
      dsimp only
      cases cfg.features l1 (.singleSilicon goal) with
      | error e => exact .inr ⟨e, _, _, rfl, rfl⟩
      | ok f => exact .inl ⟨_, _, _, rfl, rfl, ⟨rfl, rfl, rfl, rfl, rfl, r6⟩⟩
  · rw [e1, e2]
    exact .inr ⟨e, _, _, rfl, rfl⟩

/-- Two environments with the same initial state `s`, and any two histories: after `seed(z)`, a
`reset` has the same result, and if it returns so has everything that is called from then on. -/
theorem C21_seed_reset_erases_history (cfg : EnvCfg K G O P Img F) (s : Env K G O P Img)
    (past1 past2 : List (EnvOp K O)) (z : ℤ) (cs : List (EnvCall (List K))) :
    ((Env.like cfg).run (Env.seed cfg z (Env.after cfg s past1)) [.reset]).1 =
      ((Env.like cfg).run (Env.seed cfg z (Env.after cfg s past2)) [.reset]).1 ∧
    (StartsReturn true ((Env.like cfg).run (Env.seed cfg z (Env.after cfg s past1)) [.reset]).1 →
      ((Env.like cfg).run (Env.seed cfg z (Env.after cfg s past1)) (.reset :: cs)).1 =
        ((Env.like cfg).run (Env.seed cfg z (Env.after cfg s past2)) (.reset :: cs)).1) := by
  have hs := (envAfter_params cfg past1 s).trans (envAfter_params cfg past2 s).symm
  rcases seed_reset cfg z hs with ⟨t, x1, x2, e1, e2, hf⟩ | ⟨e, x1, x2, e1, e2⟩
  · rw [run_cons_ok (I := Env.like cfg) (c := .reset) e1, run_cons_ok (I := Env.like cfg) (c := .reset) e2]
    refine ⟨rfl, fun _ => ?_⟩
    rw [run_cons_ok (I := Env.like cfg) (c := .reset) e1, run_cons_ok (I := Env.like cfg) (c := .reset) e2]
    simp only [SameFuture.run cs hf]
  · rw [run_cons_error (I := Env.like cfg) (c := .reset) e1, run_cons_error (I := Env.like cfg) (c := .reset) e2]
    exact ⟨rfl, fun h => by simp [StartsReturn] at h⟩

/-- The same with seeding among the operations: whatever two clients did before they seeded with `z`. -/
theorem C21_seeded_histories (cfg : EnvCfg K G O P Img F) (s : Env K G O P Img) (past1 past2 : List (EnvOp K O)) (z : ℤ)
    (cs : List (EnvCall (List K)))
    (h : StartsReturn true ((Env.like cfg).run (Env.after cfg s (past1 ++ [.seed z])) [.reset]).1) :
    ((Env.like cfg).run (Env.after cfg s (past1 ++ [.seed z])) (.reset :: cs)).1 =
      ((Env.like cfg).run (Env.after cfg s (past2 ++ [.seed z])) (.reset :: cs)).1 := by
  have e : ∀ past : List (EnvOp K O), Env.after cfg s (past ++ [.seed z]) = Env.seed cfg z (Env.after cfg s past) := by
    intro past
    simp only [Env.after, List.foldl_append, List.foldl_cons, List.foldl_nil, Env.exec]
  rw [e] at h
  rw [e, e]
  exact (C21_seed_reset_erases_history cfg s past1 past2 z cs).2 h

/-- In an environment whose delta adapter still has a generator of its own, a reset that returns puts the beam at two
successive draws from that generator and leaves the generator behind them. -/
theorem C25_environment_reset (cfg : EnvCfg K G O P Img F) (ha : cfg.adapter = .delta) (s s' : Env K G O P Img) (ga g1 g2 : G)
    (hown : s.adapterRng = some ga) (x y : K) (hx : cfg.sim.rng.uniform 0 1 ga = (x, g1))
    (hy : cfg.sim.rng.uniform 0 1 g1 = (y, g2)) (t : TimeStep F) (h : Env.reset cfg s = .ok t s') :
    s'.beam = ⟨x, y⟩ ∧ s'.adapterRng = some g2 := by
  unfold Env.reset at h
  dsimp only at h
  split at h
  · cases h
  · simp only [Env.resetAdapter, hown, ha, Adapter.reset, hx, hy] at h
    split at h
    · cases h
    · split at h
      · cases h
      · cases h
        exact ⟨rfl, rfl⟩

/-! ### C22 the step limit -/

theorem limit_follows {I : EnvLike σ A F} {l : ℤ} (hl : 1 ≤ l) (cs : List (EnvCall A)) {b : Bool}
    {s : σ} {n : ℤ} (h : Obeys I b s) (hn : CounterOk l n)
    (hst : StartsReturn (b || n = -1) ((stepLimit I (some l)).run (s, n) cs).1) :
    Follows (b || n = -1) ((stepLimit I (some l)).run (s, n) cs).1 := by
  induction cs generalizing b s n with
  | nil => simp [EnvLike.run, Follows]
  | cons c cs ih =>
    rcases stepLimit_call hl h hn c with ⟨t, s', n', b', e1, h1, h2, h3⟩ | ⟨e, s', n', e1, h1⟩
    · rw [run_cons_ok e1] at hst ⊢
      simp only [StartsReturn] at hst
      rcases h3 with ⟨r1, rfl, rfl, r4⟩ | ⟨r1, ⟨a, rfl⟩, r3, r4, r5, r6, r7⟩
      · have := ih (b := false) h1 h2 (by simpa [r1] using hst)
        simp only [decide_false, Bool.false_or, neg_eq_zero, zero_eq_neg, one_ne_zero] at this
        cases c with
        | reset => simp only [Follows]; exact ⟨r1, by simpa using this⟩
        | step a =>
          rcases r4 with r4 | r4
          · cases r4
          · rw [r4]
            simp only [Follows]; exact ⟨r1, by simpa using this⟩
      · have r3' : (b' || decide (n' = -1)) = decide (t.stepType = .last) := by
          rw [Bool.eq_iff_iff]; simp [r3]
        have := ih h1 h2 (by rw [r3']; exact hst)
        rw [r3'] at this
        rw [r1]
        simp only [Follows]
        cases ht : t.stepType with
        | first => exact absurd ht r4
        | mid => rw [ht] at this; exact .inl ⟨rfl, by simpa using this⟩
        | last => rw [ht] at this; exact .inr ⟨rfl, by simpa using this⟩
    · rw [run_cons_error e1] at hst ⊢
      cases c with
      | reset => simp [StartsReturn] at hst
      | step a =>
        rcases h1 with h1 | ⟨rfl, _, h1⟩
        · rcases h1 with h1 | h1
          · cases h1
          · rw [h1] at hst; simp [StartsReturn] at hst
        · cases hb : (b || decide (n' = -1)) with
          | true => rw [hb] at hst; simp [StartsReturn] at hst
          | false =>
            rw [hb] at hst
            simp only [StartsReturn] at hst
            simp only [Follows]
            have := ih h1 hn (by rw [hb]; exact hst)
            rwa [hb] at this

/-- A wrapped environment follows the protocol if the inner one does. -/
theorem C22_protocol (I : EnvLike σ A F) (l : ℤ) (hl : 1 ≤ l) (b : Bool) (s : σ) (h : Obeys I b s) :
    Obeys (stepLimit I (some l)) b (s, 0) := by
  intro cs hst
  have := limit_follows hl cs (n := 0) h (.inr ⟨le_rfl, by omega⟩)
  simpa using this (by simpa using hst)

/-- No episode has more than `l` steps after FIRST, and the `l`-th is LAST. -/
theorem C22_at_most_limit (I : EnvLike σ A F) (l : ℤ) (hl : 1 ≤ l) (b : Bool) (s : σ)
    (h : Obeys I b s) (cs : List (EnvCall A))
    (hst : StartsReturn b ((stepLimit I (some l)).run (s, 0) cs).1) :
    WithinLimit l 0 ((stepLimit I (some l)).run (s, 0) cs).1 := by
  have key : ∀ (cs : List (EnvCall A)) (b : Bool) (s : σ) (n k : ℤ), Obeys I b s → CounterOk l n →
      (n = -1 ∨ n = k) → StartsReturn (b || n = -1) ((stepLimit I (some l)).run (s, n) cs).1 →
      WithinLimit l k ((stepLimit I (some l)).run (s, n) cs).1 := by
    intro cs
    induction cs with
    | nil => intro b s n k _ _ _ _; simp [EnvLike.run, WithinLimit]
    | cons c cs ih =>
      intro b s n k h hn hk hst
      rcases stepLimit_call hl h hn c with ⟨t, s', n', b', e1, h1, h2, h3⟩ | ⟨e, s', n', e1, h1⟩
      · rw [run_cons_ok e1] at hst ⊢
        simp only [StartsReturn] at hst
        rcases h3 with ⟨r1, rfl, rfl, r4⟩ | ⟨r1, ⟨a, rfl⟩, r3, r4, r5, r6, r7⟩
        · simp only [WithinLimit, r1, if_true]
          exact ih false s' 0 0 h1 h2 (.inr rfl) (by simpa [r1] using hst)
        · have hn1 : n = k := by
            rcases hk with rfl | hk
            · simp at r1
            · exact hk
          subst hn1
          simp only [WithinLimit, r4, if_false]
          refine ⟨r5, r6, ih b' s' n' (n + 1) h1 h2 r7 ?_⟩
          have r3' : (b' || decide (n' = -1)) = decide (t.stepType = .last) := by
            rw [Bool.eq_iff_iff]; simp [r3]
          rw [r3']; exact hst
      · rw [run_cons_error e1] at hst ⊢
        cases c with
        | reset => simp [StartsReturn] at hst
        | step a =>
          rcases h1 with h1 | ⟨rfl, _, h1⟩
          · rcases h1 with h1 | h1
            · cases h1
            · rw [h1] at hst; simp [StartsReturn] at hst
          · cases hb : (b || decide (n' = -1)) with
            | true => rw [hb] at hst; simp [StartsReturn] at hst
            | false =>
              rw [hb] at hst
              simp only [StartsReturn] at hst
              simp only [WithinLimit]
              exact ih b s' n' k h1 hn hk (by rw [hb]; exact hst)
  exact key cs b s 0 0 h (.inr ⟨le_rfl, by omega⟩) (.inr rfl) (by simpa using hst)

/-- What the wrapper returns is what the inner environment returned, call by call, except that the
`l`-th step after FIRST is turned into LAST with its reward, discount and observation unchanged
(so if it reached the goal its discount is still 0).  The inner environment gets the same calls,
except that the step after such a LAST is a reset. -/
theorem C22_returns_inner (I : EnvLike σ A F) (l : ℤ) (hl : 1 ≤ l) (b : Bool) (s : σ)
    (h : Obeys I b s) (cs : List (EnvCall A))
    (hst : StartsReturn b ((stepLimit I (some l)).run (s, 0) cs).1) :
    ∃ cs', SameCalls cs cs' ∧
      Limited l 0 ((stepLimit I (some l)).run (s, 0) cs).1 (I.run s cs').1 := by
  have key : ∀ (cs : List (EnvCall A)) (b : Bool) (s : σ) (n k : ℤ), Obeys I b s →
      (n = -1 ∨ (n = k ∧ 0 ≤ n ∧ n < l)) →
      StartsReturn (b || n = -1) ((stepLimit I (some l)).run (s, n) cs).1 →
      ∃ cs', SameCalls cs cs' ∧ Limited l k ((stepLimit I (some l)).run (s, n) cs).1 (I.run s cs').1 := by
    intro cs
    induction cs with
    | nil => intro b s n k _ _ _; exact ⟨[], .nil, by simp [EnvLike.run, Limited]⟩
    | cons c cs ih =>
      intro b s n k h hn hst
      -- the call is a reset of the inner environment
      have hreset : ∀ (t : TimeStep F) (s' : σ), I.reset s = .ok t s' →
          (c = .reset ∨ n = -1) →
          ∃ cs', SameCalls (c :: cs) cs' ∧
            Limited l k ((stepLimit I (some l)).run (s, n) (c :: cs)).1 (I.run s cs').1 := by
        intro t s' hr hc
        obtain ⟨h1, h2⟩ := h.reset_ok hr
        have e1 : (stepLimit I (some l)).call c (s, n) = .ok t (s', 0) := by
          cases c with
          | reset => simp [EnvLike.call, stepLimit, hr]
          | step a =>
            have : n = -1 := by rcases hc with hc | hc; cases hc; exact hc
            simp [EnvLike.call, stepLimit, hr, h1, this]
        rw [run_cons_ok e1] at hst ⊢
        simp only [StartsReturn] at hst
        obtain ⟨cs', q1, q2⟩ := ih false s' 0 0 h2 (.inr ⟨rfl, le_rfl, by omega⟩)
          (by simpa [h1] using hst)
        refine ⟨.reset :: cs', .cons (.inr rfl) q1, ?_⟩
        rw [run_cons_ok (c := .reset) hr]
        simp only [Limited, h1, if_true]
        exact ⟨trivial, q2⟩
      cases c with
      | reset =>
        cases hr : I.reset s with
        | ok t s' => exact hreset t s' hr (.inl rfl)
        | error e s' =>
          have e1 : (stepLimit I (some l)).call .reset (s, n) = .error e (s', 0) := by
            simp [EnvLike.call, stepLimit, hr]
          rw [run_cons_error e1] at hst
          simp [StartsReturn] at hst
      | step a =>
        rcases hn with rfl | ⟨rfl, hn0, hnl⟩
        · cases hr : I.reset s with
          | ok t s' => exact hreset t s' hr (.inr rfl)
          | error e s' =>
            have e1 : (stepLimit I (some l)).call (.step a) (s, -1) = .error e (s', -1) := by
              simp [EnvLike.call, stepLimit, hr]
            rw [run_cons_error e1] at hst
            simp [StartsReturn] at hst
        · have hn1 : n ≠ -1 := by omega
          simp only [hn1, decide_false, Bool.or_false] at hst
          cases hr : I.step a s with
          | error e s' =>
            have e1 : (stepLimit I (some l)).call (.step a) (s, n) = .error e (s', n) := by
              simp [EnvLike.call, stepLimit, hr, hn1]
            rw [run_cons_error e1] at hst ⊢
            cases b with
            | true => simp [StartsReturn] at hst
            | false =>
              simp only [StartsReturn] at hst
              obtain ⟨cs', q1, q2⟩ := ih false s' n n (h.step_error hr) (.inr ⟨rfl, hn0, hnl⟩)
                (by simpa [hn1] using hst)
              refine ⟨.step a :: cs', .cons (.inl rfl) q1, ?_⟩
              rw [run_cons_error (c := .step a) hr]
              simp only [Limited]
              exact ⟨trivial, q2⟩
          | ok t s' =>
            cases b with
            | true =>
              obtain ⟨h1, h2⟩ := h.step_ok_start hr
              have e1 : (stepLimit I (some l)).call (.step a) (s, n) = .ok t (s', 0) := by
                simp [EnvLike.call, stepLimit, hr, h1, hn1]
              rw [run_cons_ok e1] at hst ⊢
              simp only [StartsReturn] at hst
              obtain ⟨cs', q1, q2⟩ := ih false s' 0 0 h2 (.inr ⟨rfl, le_rfl, by omega⟩)
                (by simpa [h1] using hst)
              refine ⟨.step a :: cs', .cons (.inl rfl) q1, ?_⟩
              rw [run_cons_ok (c := .step a) hr]
              simp only [Limited, h1, if_true]
              exact ⟨trivial, q2⟩
            | false =>
              have hb : ∃ b', Obeys I b' s' ∧ b' = decide (t.stepType = .last) ∧
                  t.stepType ≠ .first := by
                rcases h.step_ok hr with ⟨h1, h2⟩ | ⟨h1, h2⟩
                · exact ⟨false, h2, by simp [h1], by simp [h1]⟩
                · exact ⟨true, h2, by simp [h1], by simp [h1]⟩
              obtain ⟨b', h2, h3, h4⟩ := hb
              by_cases hlim : n + 1 = l
              · have e1 : (stepLimit I (some l)).call (.step a) (s, n) =
                    .ok (TimeStep.truncation t.reward t.observation t.discount) (s', -1) := by
                  have : n + 1 ≥ l := by omega
                  simp [EnvLike.call, stepLimit, hr, h4, hn1, this]
                rw [run_cons_ok e1] at hst ⊢
                simp only [StartsReturn, TimeStep.truncation, decide_true] at hst
                obtain ⟨cs', q1, q2⟩ := ih b' s' (-1) (n + 1) h2 (.inl rfl) (by simpa using hst)
                refine ⟨.step a :: cs', .cons (.inl rfl) q1, ?_⟩
                rw [run_cons_ok (c := .step a) hr]
                simp only [Limited, h4, if_false, hlim, if_true]
                rw [hlim] at q2
                exact ⟨rfl, q2⟩
              · have hlt : ¬ n + 1 ≥ l := by omega
                have e1 : (stepLimit I (some l)).call (.step a) (s, n) = .ok t (s', n + 1) := by
                  simp [EnvLike.call, stepLimit, hr, h4, hn1, hlt]
                rw [run_cons_ok e1] at hst ⊢
                simp only [StartsReturn] at hst
                have hne : n + 1 ≠ -1 := by omega
                obtain ⟨cs', q1, q2⟩ := ih b' s' (n + 1) (n + 1) h2 (.inr ⟨rfl, by omega, by omega⟩)
                  (by simpa [hne, h3] using hst)
                refine ⟨.step a :: cs', .cons (.inl rfl) q1, ?_⟩
                rw [run_cons_ok (c := .step a) hr]
                simp only [Limited, h4, if_false, hlim]
                exact ⟨trivial, q2⟩
  exact key cs b s 0 0 h (.inr ⟨rfl, le_rfl, by omega⟩) (by simpa using hst)

/-- Without a limit the wrapper changes nothing, for any environment. -/
theorem C22_no_limit (I : EnvLike σ A F) (s : σ) (cs : List (EnvCall A)) :
    ((stepLimit I none).run (s, 0) cs).1 = (I.run s cs).1 := by
  have key : ∀ (cs : List (EnvCall A)) (s : σ) (n : ℤ), 0 ≤ n →
      ((stepLimit I none).run (s, n) cs).1 = (I.run s cs).1 := by
    intro cs
    induction cs with
    | nil => intro s n _; rfl
    | cons c cs ih =>
      intro s n hn
      cases hc : I.call c s with
      | ok t s' =>
        have : ∃ n', 0 ≤ n' ∧ (stepLimit I none).call c (s, n) = .ok t (s', n') := by
          cases c with
          | reset =>
            have hc : I.reset s = .ok t s' := hc
            exact ⟨0, le_rfl, by simp [EnvLike.call, stepLimit, hc]⟩
          | step a =>
            have hc : I.step a s = .ok t s' := hc
            have hn1 : n ≠ -1 := by omega
            by_cases hf : t.stepType = .first
            · exact ⟨0, le_rfl, by simp [EnvLike.call, stepLimit, hc, hn1, hf]⟩
            · exact ⟨n + 1, by omega, by simp [EnvLike.call, stepLimit, hc, hn1, hf]⟩
        obtain ⟨n', hn', e1⟩ := this
        rw [run_cons_ok e1, run_cons_ok hc, ih s' n' hn']
      | error e s' =>
        have : ∃ n', 0 ≤ n' ∧ (stepLimit I none).call c (s, n) = .error e (s', n') := by
          cases c with
          | reset =>
            have hc : I.reset s = .error e s' := hc
            exact ⟨0, le_rfl, by simp [EnvLike.call, stepLimit, hc]⟩
          | step a =>
            have hc : I.step a s = .error e s' := hc
            have hn1 : n ≠ -1 := by omega
            exact ⟨n, hn, by simp [EnvLike.call, stepLimit, hc, hn1]⟩
        obtain ⟨n', hn', e1⟩ := this
        rw [run_cons_error e1, run_cons_error hc, ih s' n' hn']
  exact key cs s 0 le_rfl

/-- The environment `create_putting_dune_env` builds: protocol and length of episodes. -/
theorem C22_created_environment (cfg : EnvCfg K G O P Img F) (seed l : ℤ) (hl : 1 ≤ l) (g : G)
    (ga : Option G) (beam : V2 K) (goal : GoalState K) (cs : List (EnvCall (List K))) :
    let e := createEnv cfg seed l g ga beam goal
    StartsReturn true (e.1.run e.2 cs).1 →
      Follows true (e.1.run e.2 cs).1 ∧ WithinLimit l 0 (e.1.run e.2 cs).1 := by
  intro e hst
  have h : Obeys (Env.like cfg) true (Env.seed cfg seed (Env.fresh g ga beam goal)) :=
    C19_protocol cfg (Env.seed cfg seed (Env.fresh g ga beam goal))
  exact ⟨C22_protocol _ l hl true _ h cs hst, C22_at_most_limit _ l hl true _ h cs hst⟩

/-! ### C23 failed resets -/

/-- C23 fails: after a reset that raised, no step ever starts a new episode. -/
theorem C23_never_retried (cfg : EnvCfg K G O P Img F) (s s1 s2 : Env K G O P Img) (e : Err)
    (h : Env.reset cfg s = .error e s1) (a : List K) (t : TimeStep F)
    (ht : Env.step cfg a s1 = .ok t s2) : t.stepType ≠ .first := by
  have hf : s1.requiresReset = false := env_call_error (c := .reset) h
  exact (env_call_ok (c := .step a) ht).2.2 hf ⟨a, rfl⟩

/-- What does hold: an explicit `reset()` after any history, failures included, starts a new episode
if it returns. -/
theorem C23_explicit_reset_partial (cfg : EnvCfg K G O P Img F) (s : Env K G O P Img)
    (ops : List (EnvOp K O)) (t : TimeStep F) (s' : Env K G O P Img)
    (h : Env.reset cfg (Env.after cfg s ops) = .ok t s') :
    t.stepType = .first ∧ Obeys (Env.like cfg) false s' := by
  obtain ⟨h1, _, _, _, h5, _⟩ := envReset_ok h
  refine ⟨h1, ?_⟩
  have := C19_protocol cfg s'
  rwa [h5] at this

namespace EnvExample
open Witness

/-- A silicon with four carbons around it. -/
def atoms : List (V2 ℚ) := [⟨0, 0⟩, ⟨2, 0⟩, ⟨0, 2⟩, ⟨-2, 0⟩, ⟨0, -4⟩]

/-- Transitions after one second, dwell times from 0.5 s to 1.5 s, images of two seconds. -/
def cfg : EnvCfg ℚ Unit Unit Unit Unit (List ℚ) where
  sim := ⟨rng 1, fun _ o => o, pristineRates knn canon, fun _ => (atoms, ()), 5, 2000000,
    fun _ => ((), ()), fun _ _ _ _ => ((), ())⟩
  adapter := .relative 500000 1500000 2
  features := materialFeatures knn
  requiresImage := false
  seedRng := fun _ => ()

def start : Env ℚ Unit Unit Unit Unit := Env.fresh () none 0 GoalState.fresh

/-- The shortest dwell time: nothing happens; the longest: the silicon jumps to the goal. -/
def idle : EnvCall (List ℚ) := .step [0, 0, 0]
def shoot : EnvCall (List ℚ) := .step [0, 0, 1]

/-- Two episodes, the first started by a step. -/
example : stepTypes ((Env.like cfg).run start [shoot, idle, idle, shoot, idle, shoot, .reset, idle]).1 =
    [.first, .mid, .mid, .last, .first, .last, .first, .mid] := by
  decide +kernel

/-- Under a limit of two steps. -/
example : stepTypes ((stepLimit (Env.like cfg) (some 2)).run (start, 0)
      [shoot, idle, idle, shoot, idle, shoot, .reset, idle]).1 =
    [.first, .mid, .last, .first, .mid, .last, .first, .mid] := by
  decide +kernel

/-- The hypotheses about starts and times. -/
example : StartsReturn true ((Env.like cfg).run start [shoot, idle, shoot, shoot, .reset]).1 ∧
    0 ≤ cfg.sim.imageDuration ∧ 0 ≤ (dwellRange cfg.adapter).1 ∧
    (dwellRange cfg.adapter).1 ≤ (dwellRange cfg.adapter).2 := by
  refine ⟨?_, by decide, by decide, by decide⟩
  have key : ∀ (b : Bool) (tr : Trace (List ℚ) (List ℚ)),
      (tr.all fun c => match c.2 with | .ok _ => true | .error _ => false) = true →
      StartsReturn b tr := by
    intro b tr
    induction tr generalizing b with
    | nil => intro _; trivial
    | cons c tr ih =>
      obtain ⟨c, r⟩ := c
      intro h
      cases r with
      | error e => simp at h
      | ok t => simp only [List.all_cons, Bool.true_and] at h; simpa [StartsReturn] using ih _ h
  apply key
  decide +kernel

/-- A goal range in which there is never an atom. -/
def strict : Env ℚ Unit Unit Unit Unit :=
  Env.fresh () none 0 { GoalState.fresh with rangeMax := 1 / 2 }

end EnvExample

open EnvExample in
/-- C23 fails: the step that has to start the first episode raises, the second one acts in the
half-initialised episode, against the goal (0, 0) of the constructor, and is LAST. -/
theorem C23_failed_reset_not_retried :
    stepTypes ((Env.like cfg).run strict [idle, idle]).1 = [.last] ∧
    ¬ Follows true ((Env.like cfg).run strict [idle, idle]).1 := by
  have h : stepTypes ((Env.like cfg).run strict [idle, idle]).1 = [.last] := by decide +kernel
  refine ⟨h, ?_⟩
  have hc : (((Env.like cfg).run strict [idle, idle]).1.map
      fun c => match c.2 with | .ok _ => true | .error _ => false) = [false, true] := by
    decide +kernel
  revert h hc
  generalize ((Env.like cfg).run strict [idle, idle]).1 = tr
  intro h hc hf
  match tr, hc with
  | [(c1, .error e), (c2, .ok t)], _ =>
    simp only [stepTypes, List.filterMap_cons, List.filterMap_nil, List.cons.injEq, and_true] at h
    cases c1 <;> cases c2 <;> simp [Follows, h] at hf

end PD.Props
