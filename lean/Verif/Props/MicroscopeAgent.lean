/- Properties C33 and C34: the microscope agent and its logger. -/
import Verif.Spec.MicroscopeAgent
import Verif.Props.Goal
import Verif.Props.Features

set_option linter.unusedSectionVars false
set_option linter.unusedSimpArgs false

namespace PD.Props
open PD PD.Spec
variable {K G Img F α : Type} [Field K] [LinearOrder K] [IsStrictOrderedRing K] [FloorRing K]

/-! ### C33 -/

theorem features_cases {features : Observation K Img → AnyGoal K → Except Err F}
    {o : Observation K Img} (h : FeaturesFollowSilicon features o) (s : GoalState K) :
    (ShowsSilicon o ∧ ∃ f, features o (.singleSilicon s) = .ok f) ∨
    (¬ ShowsSilicon o ∧ features o (.singleSilicon s) = .error .siliconNotFound) := by
  by_cases hs : ShowsSilicon o
  · exact .inl ⟨hs, (h s).1 hs⟩
  · exact .inr ⟨hs, (h s).2 hs⟩

/-- When no silicon is visible: one control, at the image's corner with zero dwell, and nothing in
the agent changes. -/
theorem C33_rescan (cfg : MicroCfg K G Img F α) (o : Observation K Img)
    (ho : ¬ ShowsSilicon o) (hf : FeaturesFollowSilicon cfg.features o) (s : Micro K G α) :
    ∃ c : BeamControl K, Micro.step cfg o s = .ok [c] s ∧ c.position = ⟨0, 0⟩ ∧ c.dwellTime = 0 := by
  refine ⟨BeamControl.mk' ⟨0, 0⟩ 0, ?_, rfl, rfl⟩
  simp [Micro.step, (hf s.goal).2 ho, rescan]

/-- The state after a step, whatever came of it. -/
theorem micro_step_frame (cfg : MicroCfg K G Img F α) (o : Observation K Img) (hwf : o.grid.WF)
    (hf : FeaturesFollowSilicon cfg.features o) (s : Micro K G α) :
    (endState (Micro.step cfg o s)).goal = (GoalState.run [o] s.goal).2 ∧
    ((endState (Micro.step cfg o s)).isFirstStep = true ↔
      s.isFirstStep = true ∧ ¬ (ShowsSilicon o ∧ ∃ c s', Micro.step cfg o s = .ok c s')) := by
  rcases features_cases hf s.goal with ⟨hs, f, hff⟩ | ⟨hs, hff⟩
  · obtain ⟨n, hc, _, _⟩ := calculate_ok o s.goal hwf hs
    simp only [Micro.step, hff, hc, GoalState.run]
    split
    · exact ⟨rfl, by simp [endState, hs]⟩
    · split
      · exact ⟨rfl, by simp [endState, hs]⟩
      · exact ⟨rfl, by simp [endState, hs]⟩
  · have hc := calculate_error o s.goal hwf hs
    simp [Micro.step, hff, hc, GoalState.run, endState, hs]

theorem micro_run_append (cfg : MicroCfg K G Img F α) (a b : List (Observation K Img))
    (s : Micro K G α) :
    Micro.run cfg (a ++ b) s = ((Micro.run cfg a s).1 ++ (Micro.run cfg b (Micro.run cfg a s).2).1,
      (Micro.run cfg b (Micro.run cfg a s).2).2) := by
  induction a generalizing s with
  | nil => simp [Micro.run]
  | cons o a ih =>
    simp only [List.cons_append, Micro.run]
    split <;> simp [ih]

theorem micro_run_length (cfg : MicroCfg K G Img F α) (os : List (Observation K Img))
    (s : Micro K G α) : (Micro.run cfg os s).1.length = os.length := by
  induction os generalizing s with
  | nil => rfl
  | cons o os ih =>
    simp only [Micro.run]
    split <;> simp [ih]

theorem micro_run_invariant (cfg : MicroCfg K G Img F α) (os : List (Observation K Img))
    (hwf : ∀ x ∈ os, x.grid.WF) (hf : ∀ x ∈ os, FeaturesFollowSilicon cfg.features x)
    (s : Micro K G α) (hfirst : s.isFirstStep = true) :
    (Micro.run cfg os s).2.goal = (GoalState.run os s.goal).2 ∧
    ((Micro.run cfg os s).2.isFirstStep = true ↔ ¬ SomeActedOn os (Micro.run cfg os s).1) := by
  induction os using List.reverseRecOn with
  | nil => exact ⟨rfl, by simp [Micro.run, hfirst, SomeActedOn]⟩
  | append_singleton os o ih =>
    obtain ⟨ih1, ih2⟩ := ih (fun x hx => hwf x (by simp [hx])) (fun x hx => hf x (by simp [hx]))
    obtain ⟨h1, h2⟩ := micro_step_frame cfg o (hwf o (by simp)) (hf o (by simp)) (Micro.run cfg os s).2
    have hz : ∀ r, SomeActedOn (os ++ [o]) ((Micro.run cfg os s).1 ++ [r]) ↔
        SomeActedOn os (Micro.run cfg os s).1 ∨ (ShowsSilicon o ∧ ∃ c, r = .ok c) := by
      intro r
      unfold SomeActedOn
      rw [List.zip_append (micro_run_length cfg os s).symm]
      constructor
      · rintro ⟨p, hp, h⟩
        rcases List.mem_append.1 hp with hp | hp
        · exact .inl ⟨p, hp, h⟩
        · simp only [List.zip_cons_cons, List.zip_nil_right, List.mem_singleton] at hp
          subst hp
          exact .inr h
      · rintro (⟨p, hp, h⟩ | h)
        · exact ⟨p, List.mem_append.2 (.inl hp), h⟩
        · exact ⟨(o, r), List.mem_append.2 (.inr (by simp)), h⟩
    rw [micro_run_append, goalRun_append]
    rw [ih1] at h1
    constructor
    · rw [← h1]
      simp only [Micro.run]
      split <;> rename_i heq <;> simp [heq, endState]
    · rw [ih2] at h2
      simp only [Micro.run]
      cases hst : Micro.step cfg o (Micro.run cfg os s).2 with
      | ok c s' =>
        simp only [hst, endState] at h2
        simp only [hz, h2]
        constructor
        · rintro ⟨h, h'⟩ (h'' | h'')
          · exact h h''
          · exact h' ⟨h''.1, c, s', rfl⟩
        · intro h
          exact ⟨fun h' => h (.inl h'), fun h' => h (.inr ⟨h'.1, c, rfl⟩)⟩
      | error e s' =>
        simp only [hst, endState] at h2
        simp only [hz, h2]
        constructor
        · rintro ⟨h, h'⟩ (h'' | ⟨_, c, h''⟩)
          · exact h h''
          · cases h''
        · intro h
          refine ⟨fun h' => h (.inl h'), ?_⟩
          rintro ⟨_, c, s'', h''⟩
          cases h''

/-- What the wrapped agent is shown, for every history after a reset, including calls that raised
and observations without silicon in between: the observation's features in exactly one time step,
which is LAST with discount 0 when each of the last `required` silicon-showing observations was at
the goal; otherwise FIRST when no earlier silicon-showing observation was answered with controls,
and MID with the discount γ ^ seconds when one was. -/
theorem C33_time_steps_partial (cfg : MicroCfg K G Img F α) (g g' : G) (o0 : Observation K Img)
    (s0 s : Micro K G (α × List (AgentStep F)))
    (hreset : Micro.reset (recording cfg) g o0 s0 = .ok g' s)
    (os : List (Observation K Img)) (o : Observation K Img)
    (hwf : ∀ x ∈ os ++ [o], x.grid.WF)
    (hf : ∀ x ∈ os ++ [o], FeaturesFollowSilicon cfg.features x) (ho : ShowsSilicon o) :
    ∃ f, cfg.features o (.singleSilicon (Micro.run (recording cfg) os s).2.goal) = .ok f ∧
    ∃ ts, (Micro.run (recording cfg) (os ++ [o]) s).2.agent.2 =
        (Micro.run (recording cfg) os s).2.agent.2 ++ [ts] ∧
      (EndsAtGoal s.goal.goal s.goal.required ((os ++ [o]).filter (fun x => ShowsSilicon x)) →
        ts = ⟨.last, some ((9967 / 10000 : ℝ) ^ ((o.elapsedTime : ℝ) / 1000000)), some 0, f⟩) ∧
      (¬ EndsAtGoal s.goal.goal s.goal.required ((os ++ [o]).filter (fun x => ShowsSilicon x)) →
        (¬ SomeActedOn os (Micro.run (recording cfg) os s).1 → ts = ⟨.first, none, none, f⟩) ∧
        (SomeActedOn os (Micro.run (recording cfg) os s).1 →
          ts = ⟨.mid, some 0, some ((9967 / 10000 : ℝ) ^ ((o.elapsedTime : ℝ) / 1000000)), f⟩)) := by
  have hs0 : s.goal.consecutive = 0 ∧ s.isFirstStep = true := by
    unfold Micro.reset at hreset
    split at hreset
    · cases hreset
    · rename_i goal g1 heq
      simp only [EStateM.Result.ok.injEq] at hreset
      obtain ⟨_, rfl⟩ := hreset
      refine ⟨?_, rfl⟩
      unfold GoalState.reset at heq
      split at heq
      · cases heq
      · dsimp only at heq
        split at heq
        · cases heq
        · split at heq
          · cases heq
          · cases heq; rfl
  obtain ⟨hinv1, hinv2⟩ := micro_run_invariant (recording cfg) os (fun x hx => hwf x (by simp [hx]))
    (fun x hx => hf x (by simp [hx])) s hs0.2
  have hcnt := goalRun_count (os ++ [o]) hwf s.goal hs0.1 s.goal.required
  obtain ⟨n, hn⟩ := goalRun_frame os s.goal
  obtain ⟨f, hff⟩ := (hf o (by simp) (Micro.run (recording cfg) os s).2.goal).1 ho
  refine ⟨f, hff, ?_⟩
  obtain ⟨m, hc, _, _⟩ := calculate_ok o (Micro.run (recording cfg) os s).2.goal (hwf o (by simp)) ho
  have hreq : (Micro.run (recording cfg) os s).2.goal.required = s.goal.required := by
    rw [hinv1, hn]
  rw [goalRun_append] at hcnt
  rw [hreq] at hc
  simp only [GoalState.run, ← hinv1, hc] at hcnt
  set S := (Micro.run (recording cfg) os s).2 with hS
  refine ⟨Micro.timeStep S.isFirstStep o ⟨if s.goal.required ≤ m then gammaPow o.elapsedTime else 0,
    decide (s.goal.required ≤ m), false⟩ f, ?_, ?_, ?_⟩
  · rw [micro_run_append, ← hS]
    have hff' : (recording cfg).features o (.singleSilicon S.goal) = .ok f := hff
    simp only [Micro.run, Micro.step, hff', hc]
    simp only [recording]
    cases cfg.agentStep (Micro.timeStep S.isFirstStep o _ f) S.agent.1 with
    | error e a => rfl
    | ok action a =>
      dsimp only
      cases cfg.adapter.getAction o action S.beam with
      | error e b => rfl
      | ok c b => rfl
  · intro h
    rw [← hcnt] at h
    simp [Micro.timeStep, h, gammaPow, GAMMA, totalSeconds]
  · intro h
    rw [← hcnt] at h
    constructor
    · intro h'
      have := hinv2.2 h'
      simp [Micro.timeStep, h, this]
    · intro h'
      have : S.isFirstStep = false := by
        rw [Bool.eq_false_iff]
        intro h''
        exact hinv2.1 h'' h'
      simp [Micro.timeStep, h, this, gammaPow, GAMMA, totalSeconds]

/-- The material-frame features exist exactly when a silicon is visible (four or more atoms, at most
one silicon). -/
theorem C33_material_features_follow (knn : Knn K) (o : Observation K Img) (hwf : o.grid.WF)
    (hw : o.fov.width ≠ 0) (hh : o.fov.height ≠ 0) (h1 : (silicons o.grid).length ≤ 1)
    (h4 : 4 ≤ o.grid.positions.length) (hnd : o.grid.positions.Nodup) :
    FeaturesFollowSilicon (materialFeatures knn) o := by
  intro goal
  constructor
  · intro hs
    have : ∃ si, silicons o.grid = [si] := by
      unfold ShowsSilicon at hs
      match h : silicons o.grid, h1, hs with
      | [], _, hs => exact absurd rfl hs
      | [a], _, _ => exact ⟨a, rfl⟩
    obtain ⟨si, hsi⟩ := this
    obtain ⟨i, a, b, c, pa, pb, pc, h⟩ := C27_material_features knn o hwf hw hh si hsi h4 hnd goal
    exact ⟨_, by simpa using h.2.2.2.2.2.2.2.2.2⟩
  · intro hs
    have h0 : silicons (o.fov.gridToMaterial o.grid) = [] := by
      rw [silicons_place]
      have : silicons o.grid = [] := by simpa [ShowsSilicon] using hs
      simp [this]
    have hwf' : (o.fov.gridToMaterial o.grid).WF := by
      simpa [Grid.WF, Fov.gridToMaterial] using hwf
    simp [materialFeatures, getSingle_none hwf' h0]

/-- The same for the microscope-frame features. -/
theorem C33_pristine_features_follow [FloorRing ℝ] (knn : Knn ℝ) (o : Observation ℝ Img)
    (hwf : o.grid.WF) (h1 : (silicons o.grid).length ≤ 1)
    (h4 : 4 ≤ o.grid.positions.length) (hnd : o.grid.positions.Nodup) :
    FeaturesFollowSilicon (pristineFeatures knn) o := by
  intro goal
  constructor
  · intro hs
    have : ∃ si, silicons o.grid = [si] := by
      unfold ShowsSilicon at hs
      match h : silicons o.grid, h1, hs with
      | [], _, hs => exact absurd rfl hs
      | [a], _, _ => exact ⟨a, rfl⟩
    obtain ⟨si, hsi⟩ := this
    obtain ⟨i, a, b, c, pa, pb, pc, ua, ub, uc, h⟩ :=
      C27_pristine_features knn o hwf si hsi h4 hnd goal
    exact ⟨_, by simpa using h.2.2.2.2.2.2.2.2.2.2.2.2⟩
  · intro hs
    have : silicons o.grid = [] := by simpa [ShowsSilicon] using hs
    simp [pristineFeatures, getSingle_none hwf this]

/-- The image features do not: without a silicon they raise `ValueError`, which `step` passes on, so
no rescan happens.  (What is missing from C33.) -/
theorem C33_image_features_not_rescanned (cfg : MicroCfg K G Img (Img × V2 K) α) (resize : Img → Img)
    (hcfg : cfg.features = imageFeatures resize) (o : Observation K Img) (hwf : o.grid.WF)
    (ho : ¬ ShowsSilicon o) (img : Img) (himg : o.image = some img) (s : Micro K G α) :
    Micro.step cfg o s = .error .valueError s := by
  have h0 : silicons o.grid = [] := by simpa [ShowsSilicon] using ho
  have : siliconGoalDelta o.grid o.fov s.goal = .error .valueError := by
    simp [siliconGoalDelta, getSiliconPositions_eq_silicons hwf, h0]
  simp [Micro.step, hcfg, imageFeatures, himg, this]

namespace MicroExample
open GoalExample

/-- The features: the silicon's position. -/
def features (o : Observation ℚ Unit) (_ : AnyGoal ℚ) : Except Err (V2 ℚ) :=
  getSingleSiliconPosition o.grid

/-- An agent that points at the upper right corner when it sees the end of an episode, and at the
lower left one otherwise. -/
def cfg : MicroCfg ℚ Unit Unit (V2 ℚ) Unit :=
  ⟨Witness.rng 1, .direct, features,
    fun ts a => .ok (if ts.stepType = .last then [1, 1] else [0, 0]) a⟩

/-- A new agent whose goal asks for `required` steps. -/
def agent (required : ℕ) : Micro ℚ Unit Unit :=
  ⟨{ GoalState.fresh with required := required }, ⟨1/2, 1/2⟩, (), (), true⟩

/-- What the agent was shown: the step types. -/
noncomputable def shown (os : List (Observation ℚ Unit)) : List StepType :=
  match Micro.reset (recording cfg) () view ⟨(agent 1).goal, ⟨1/2, 1/2⟩, (), ((), []), true⟩ with
  | .ok _ s => (Micro.run (recording cfg) os s).2.agent.2.map (fun ts => ts.stepType)
  | .error _ _ => []

theorem follows (o : Observation ℚ Unit) (hwf : o.grid.WF) :
    FeaturesFollowSilicon features o := by
  intro goal
  constructor
  · intro h
    obtain ⟨si, h1, _⟩ := getSingle_some hwf h
    exact ⟨si, h1⟩
  · intro h
    exact getSingle_none hwf (by simpa [ShowsSilicon] using h)

/-- A lost silicon at first does not use up the FIRST step. -/
example : shown [bare, view, view, bare, there] = [.first, .mid, .last] ∧
    (∀ x ∈ [bare, view, view, bare, there], x.grid.WF) ∧
    (∀ x ∈ [bare, view, view, bare, there], FeaturesFollowSilicon cfg.features x) ∧
    ShowsSilicon there := by
  have hwf : ∀ x ∈ [bare, view, view, bare, there], x.grid.WF := by decide
  exact ⟨by decide +kernel, hwf, fun x hx => follows x (hwf x hx), by decide⟩

end MicroExample

/-! ### C34 -/

/-- The count of consecutive steps, which is what the logger disturbs, does not matter. -/
theorem micro_step_count (cfg : MicroCfg K G Img F α) (o : Observation K Img) (hwf : o.grid.WF)
    (hs : ShowsSilicon o)
    (hgoal : ∀ (gs : GoalState K) n, cfg.features o (.singleSilicon { gs with consecutive := n }) =
      cfg.features o (.singleSilicon gs))
    (a : Micro K G α) (hreq : a.goal.required ≤ 1) (n : ℕ) :
    ∃ k m, Micro.step cfg o { a with goal := { a.goal with consecutive := n } } =
      (match Micro.step cfg o a with
      | .ok c a' => .ok c { a' with goal := { a.goal with consecutive := k } }
      | .error e a' => .error e { a' with goal := { a.goal with consecutive := k } }) ∧
      (endState (Micro.step cfg o a)).goal = { a.goal with consecutive := m } := by
  obtain ⟨k1, hc1, h11, h12⟩ := calculate_ok o a.goal hwf hs
  obtain ⟨k2, hc2, h21, h22⟩ := calculate_ok o { a.goal with consecutive := n } hwf hs
  have hk : a.goal.required ≤ k1 ↔ a.goal.required ≤ k2 := by
    by_cases hat : AtGoal a.goal.goal o
    · have := h11 hat
      have := h21 hat
      omega
    · have := h12 hat
      have := h22 hat
      omega
  simp only [hk] at hc1
  cases hf : cfg.features o (.singleSilicon a.goal) with
  | error e =>
    by_cases he : e = .siliconNotFound
    · subst he
      exact ⟨n, a.goal.consecutive, by simp [Micro.step, hgoal, hf], by simp [Micro.step, hf, endState]⟩
    · refine ⟨n, a.goal.consecutive, ?_, ?_⟩
      · simp only [Micro.step, hgoal, hf]
      · simp only [Micro.step, hgoal, hf, endState]
  | ok f =>
    refine ⟨k2, k1, ?_, ?_⟩
    · simp only [Micro.step, hgoal, hf, hc1, hc2]
      cases cfg.agentStep (Micro.timeStep a.isFirstStep o _ f) a.agent with
      | error e x => rfl
      | ok action x =>
        dsimp only
        cases cfg.adapter.getAction o action a.beam with
        | error e b => rfl
        | ok c b => rfl
    · simp only [Micro.step, hf, hc1]
      cases cfg.agentStep (Micro.timeStep a.isFirstStep o _ f) a.agent with
      | error e x => rfl
      | ok action x =>
        dsimp only
        cases cfg.adapter.getAction o action a.beam with
        | error e b => rfl
        | ok c b => rfl

theorem closeEpisode_agent (l : Logger K G Img α) : l.closeEpisode.agent = l.agent := by
  unfold Logger.closeEpisode
  dsimp only
  split_ifs <;> rfl

theorem goalReset_required {rng : Rng K G} {o : Observation K Img} {s : GoalState K} {g : G}
    {r : GoalState K × G} (h : GoalState.reset rng o s g = .ok r) : r.1.required = s.required := by
  unfold GoalState.reset at h
  split at h
  · cases h
  · dsimp only at h
    split at h
    · cases h
    · split at h
      · cases h
      · cases h; rfl

/-- A logged agent answers every history of calls as the unlogged one does, when the goal asks for
at most one step and every observation stepped on shows a silicon.  (Missing from C34: goals that
ask for more steps, and lost silicons; see the two theorems after this one.) -/
theorem C34_same_behaviour_partial (cfg : MicroCfg K G Img F α)
    (hgoal : ∀ o (gs : GoalState K) n, cfg.features o (.singleSilicon { gs with consecutive := n }) =
      cfg.features o (.singleSilicon gs))
    (ops : List (AgentOp K G Img))
    (hops : ∀ o, .step o ∈ ops → o.grid.WF ∧ ShowsSilicon o)
    (a : Micro K G α) (hreq : a.goal.required ≤ 1) :
    (Logger.history cfg ops (Logger.fresh a)).1 = (Micro.history cfg ops a).1 := by
  have key : ∀ (l : Logger K G Img α) (a : Micro K G α) (n : ℕ), a.goal.required ≤ 1 →
      l.agent = { a with goal := { a.goal with consecutive := n } } →
      (Logger.history cfg ops l).1 = (Micro.history cfg ops a).1 := by
    induction ops with
    | nil => intro l a n _ _; rfl
    | cons op ops ih =>
      intro l a n hreq hl
      have ih := ih (fun o ho => hops o (List.mem_cons_of_mem _ ho))
      simp only [Logger.history, Micro.history]
      cases op with
      | flush =>
        simp only [Logger.exec, Micro.exec]
        congr 1
        refine ih _ _ n hreq ?_
        rw [← hl]
        unfold Logger.flush
        dsimp only
        split_ifs <;> rfl
      | reset g o =>
        have hr : GoalState.reset cfg.rng o { a.goal with consecutive := n } g =
            GoalState.reset cfg.rng o a.goal g := rfl
        simp only [Logger.exec, Micro.exec, Logger.reset, closeEpisode_agent, hl, Micro.reset, hr]
        cases hg : GoalState.reset cfg.rng o a.goal g with
        | error e =>
          dsimp only
          congr 1
          exact ih _ a n hreq rfl
        | ok r =>
          dsimp only
          congr 1
          refine ih _ _ r.1.consecutive ?_ rfl
          rw [goalReset_required hg]
          exact hreq
      | step o =>
        obtain ⟨hwf, hs⟩ := hops o (by simp)
        obtain ⟨k, m, hk, hm⟩ := micro_step_count cfg o hwf hs (hgoal o) a hreq n
        rw [← hl] at hk
        simp only [Logger.exec, Micro.exec, Logger.step]
        cases hst : Micro.step cfg o a with
        | error e a' =>
          rw [hst] at hk hm
          simp only [hk]
          simp only [endState] at hm
          congr 1
          refine ih _ a' k ?_ ?_
          · rw [hm]; exact hreq
          · rw [hm]
        | ok c a' =>
          rw [hst] at hk hm
          simp only [endState] at hm
          obtain ⟨k', hc, _, _⟩ := calculate_ok o { a.goal with consecutive := k } hwf hs
          simp only [hk, hc]
          congr 1
          refine ih _ a' k' ?_ ?_
          · rw [hm]; exact hreq
          · rw [hm]
  exact key _ _ a.goal.consecutive hreq rfl

/-- Lost silicons: the unlogged agent answers with a rescan, the logged one raises. -/
theorem C34_lost_silicon_raises (cfg : MicroCfg K G Img F α) (o : Observation K Img)
    (hwf : o.grid.WF) (ho : ¬ ShowsSilicon o) (hf : FeaturesFollowSilicon cfg.features o)
    (l : Logger K G Img α) :
    Micro.step cfg o l.agent = .ok rescan l.agent ∧
    Logger.step cfg o l = .error .siliconNotFound l := by
  have h : Micro.step cfg o l.agent = .ok rescan l.agent := by
    simp [Micro.step, (hf l.agent.goal).2 ho]
  exact ⟨h, by simp [Logger.step, h, calculate_error o l.agent.goal hwf ho]⟩

namespace MicroExample
open GoalExample

/-- Reset, then three observations at the goal. -/
def ops : List (AgentOp ℚ Unit Unit) := [.reset () view, .step there, .step there, .step there]

/-- Where the controls of the answers point. -/
def targets : AgentOut ℚ Unit → Option (List (V2 ℚ))
  | .step cs => some (cs.map (fun c => c.position))
  | _ => none

end MicroExample

/-- Goals that ask for three consecutive steps: the logger counts each observation twice, so the
logged agent is told the episode is over at the second observation instead of the third. -/
theorem C34_double_count :
    (Micro.history MicroExample.cfg MicroExample.ops (MicroExample.agent 3)).1.map
        MicroExample.targets =
      [none, some [⟨0, 0⟩], some [⟨0, 0⟩], some [⟨1, 1⟩]] ∧
    (Logger.history MicroExample.cfg MicroExample.ops
        (Logger.fresh (MicroExample.agent 3))).1.map MicroExample.targets =
      [none, some [⟨0, 0⟩], some [⟨1, 1⟩], some [⟨1, 1⟩]] := by
  constructor <;> decide +kernel

/-- The hypotheses of `C34_same_behaviour_partial` on a history with resets, steps and flushes. -/
example : (∀ o (gs : GoalState ℚ) n, MicroExample.cfg.features o
      (.singleSilicon { gs with consecutive := n }) = MicroExample.cfg.features o (.singleSilicon gs)) ∧
    (∀ o, AgentOp.step o ∈ MicroExample.ops → o.grid.WF ∧ ShowsSilicon o) ∧
    (MicroExample.agent 1).goal.required ≤ 1 := by
  refine ⟨fun _ _ _ => rfl, ?_, le_rfl⟩
  intro o ho
  simp only [MicroExample.ops, List.mem_cons, AgentOp.step.injEq, reduceCtorEq, List.not_mem_nil,
    or_false, false_or, or_self] at ho
  subst ho
  exact ⟨by decide, by decide⟩

/-! #### What the log says -/

theorem stepKeys_append_singleton (T : List (List (Observation K Img)))
    (C : List (Observation K Img)) : stepKeys (T ++ [C]) =
      stepKeys T ++ C.zipIdx.map (fun o => (T.length, o.2 + 1, o.1.elapsedTime)) := by
  simp [stepKeys, List.zipIdx_append]

theorem stepKeys_lt {T : List (List (Observation K Img))} {k : ℕ × ℕ × Timedelta}
    (h : k ∈ stepKeys T) : k.1 < T.length := by
  simp only [stepKeys, List.mem_flatMap, List.mem_map] at h
  obtain ⟨⟨t, i⟩, ht, o, _, rfl⟩ := h
  have := List.snd_lt_of_mem_zipIdx ht
  simpa using this

theorem rewardsOf_append (a b : List StepRecord) (i : ℕ) :
    rewardsOf (a ++ b) i = rewardsOf a i + rewardsOf b i := by
  simp [rewardsOf]

/-- The state of the log when `T` are the finished trajectories and `C` the present one. -/
structure LogInv (l : Logger K G Img α) (T : List (List (Observation K Img)))
    (C : List (Observation K Img)) : Prop where
  traj : l.trajectories = T.map .closed
  cur : l.current = C
  nonempty : ∀ t ∈ T, t ≠ []
  episode : l.episode = T.length
  step : l.episodeStep = C.length
  keys : l.stepRecords.map StepRecord.key = stepKeys (T ++ [C])
  lengths : l.episodeRecords.map (fun r => r.episodeSteps) = T.map List.length
  ids : l.episodeRecords.map (fun r => r.episode) = (List.range T.length).map (· + 1)
  returns : l.episodeRecords.map (fun r => r.episodeReturn) =
    (List.range T.length).map (rewardsOf l.stepRecords)
  curReturn : l.episodeReturn = rewardsOf l.stepRecords T.length

theorem LogInv.setAgent {l : Logger K G Img α} {T C} (h : LogInv l T C) (a : Micro K G α) :
    LogInv { l with agent := a } T C :=
  ⟨h.traj, h.cur, h.nonempty, h.episode, h.step, h.keys, h.lengths, h.ids, h.returns, h.curReturn⟩

theorem LogInv.rewards_beyond {l : Logger K G Img α} {T C} (h : LogInv l T C) (i : ℕ)
    (hi : T.length < i) : rewardsOf l.stepRecords i = 0 := by
  have : l.stepRecords.filter (fun r => r.episode = i) = [] := by
    rw [List.filter_eq_nil_iff]
    intro r hr
    have hk : StepRecord.key r ∈ stepKeys (T ++ [C]) := by
      rw [← h.keys]; exact List.mem_map_of_mem hr
    have := stepKeys_lt hk
    simp only [StepRecord.key, List.length_append, List.length_singleton] at this
    simp only [decide_eq_true_eq]
    omega
  simp [rewardsOf, this]

theorem LogInv.close {l : Logger K G Img α} {T C} (h : LogInv l T C) :
    LogInv l.closeEpisode (T ++ [C].filter (fun t => t ≠ [])) [] := by
  have hread : ∀ cur : List (Observation K Img), (T.map LoggedTrajectory.closed).map
      (fun (t : LoggedTrajectory K Img) => LoggedTrajectory.closed (t.read cur)) = T.map .closed := by
    intro cur
    simp [LoggedTrajectory.read, Function.comp_def]
  by_cases hC : C = []
  · subst hC
    have h1 : ¬ l.episodeStep > 0 := by rw [h.step]; simp
    have h2 : ¬ l.current ≠ [] := by rw [h.cur]; simp
    have e : l.closeEpisode = { l with
        episodeStep := 0
        episodeReturn := 0
        current := []
        trajectories := T.map .closed } := by
      unfold Logger.closeEpisode
      simp only [if_neg h1, if_neg h2, h.traj, hread]
    rw [e]
    simp only [ne_eq, not_true_eq_false, decide_false, Bool.false_eq_true, not_false_eq_true,
      List.filter_cons_of_neg, List.filter_nil, List.append_nil]
    refine ⟨rfl, rfl, h.nonempty, h.episode, rfl, h.keys, h.lengths, h.ids, h.returns, ?_⟩
    have : l.stepRecords.filter (fun r => r.episode = T.length) = [] := by
      rw [List.filter_eq_nil_iff]
      intro r hr
      have hk : StepRecord.key r ∈ stepKeys (T ++ [[]]) := by
        rw [← h.keys]; exact List.mem_map_of_mem hr
      rw [stepKeys_append_singleton] at hk
      simp only [List.zipIdx_nil, List.map_nil, List.append_nil] at hk
      have := stepKeys_lt hk
      simp only [StepRecord.key] at this
      simp only [decide_eq_true_eq]
      omega
    simp [rewardsOf, this]
  · have hlen : 0 < C.length := List.length_pos_iff.2 hC
    have h1 : l.episodeStep > 0 := by rw [h.step]; exact hlen
    have h2 : l.current ≠ [] := by rw [h.cur]; exact hC
    have e : l.closeEpisode = { l with
        episode := T.length + 1
        episodeStep := 0
        episodeReturn := 0
        current := []
        trajectories := (T ++ [C]).map .closed
        episodeRecords := l.episodeRecords ++ [⟨T.length + 1, C.length,
          rewardsOf l.stepRecords T.length, l.agent.goal.currentGoal⟩] } := by
      unfold Logger.closeEpisode
      simp only [if_pos h1, if_pos h2]
      simp only [h.traj, List.map_append, hread, List.map_cons,
        List.map_nil, LoggedTrajectory.read, h.cur, Logger.makeEpisodeRecord, h.episode, h.step,
        h.curReturn]
      simp
    rw [e]
    have hf : [C].filter (fun t => t ≠ []) = [C] := by simp [hC]
    rw [hf]
    refine ⟨rfl, rfl, ?_, by simp, rfl, ?_, ?_, ?_, ?_, ?_⟩
    · intro t ht
      rcases List.mem_append.1 ht with ht | ht
      · exact h.nonempty t ht
      · rw [List.mem_singleton.1 ht]; exact hC
    · rw [stepKeys_append_singleton]
      simpa using h.keys
    · simp [h.lengths]
    · simp [h.ids, List.range_succ]
    · simp [h.returns, List.range_succ]
    · simp only [List.length_append, List.length_singleton]
      exact (h.rewards_beyond _ (by omega)).symm

theorem LogInv.logStep {l : Logger K G Img α} {T C} (h : LogInv l T C) (o : Observation K Img)
    (a : Micro K G α) (r : GoalReturn) :
    LogInv { l with
        agent := a
        episodeStep := l.episodeStep + 1
        episodeReturn := l.episodeReturn + r.reward
        current := l.current ++ [o]
        stepRecords := l.stepRecords ++
          [⟨l.episode, l.episodeStep + 1, r.reward, o.elapsedTime, r.isTerminal⟩] } T (C ++ [o]) := by
  refine ⟨h.traj, by simp [h.cur], h.nonempty, h.episode, by simp [h.step], ?_, h.lengths, h.ids,
    ?_, ?_⟩
  · have hk := h.keys
    rw [stepKeys_append_singleton] at hk ⊢
    simp only [List.map_append, hk, List.zipIdx_append, List.map_cons, List.map_nil]
    simp [StepRecord.key, h.episode, h.step]
  · dsimp only
    rw [h.returns]
    refine List.map_congr_left ?_
    intro i hi
    rw [rewardsOf_append]
    have : i < T.length := by simpa using hi
    have hne : ¬ l.episode = i := by rw [h.episode]; omega
    simp [rewardsOf, hne]
  · dsimp only
    rw [rewardsOf_append, h.curReturn]
    simp [rewardsOf, h.episode]

theorem logger_history (cfg : MicroCfg K G Img F α) (ops : List (AgentOp K G Img)) (hops : NoFlush ops)
    (l : Logger K G Img α) (T : List (List (Observation K Img))) (C : List (Observation K Img))
    (h : LogInv l T C) :
    ∃ T' C', LogInv (Logger.history cfg ops l).2 T' C' ∧
      T' ++ [C'].filter (fun t => t ≠ []) =
        T ++ (stretches C ops (Logger.history cfg ops l).1).filter (fun t => t ≠ []) ∧
      (stretches C ops (Logger.history cfg ops l).1).getLast? = some C' := by
  induction ops generalizing l T C with
  | nil => exact ⟨T, C, h, rfl, rfl⟩
  | cons op ops ih =>
    have ih := ih (fun o ho => hops o (List.mem_cons_of_mem _ ho))
    simp only [Logger.history]
    cases op with
    | flush => exact absurd rfl (hops .flush (by simp))
    | reset g o =>
      have hcl := h.close
      have key : ∀ (a : Micro K G α) (out : AgentOut K G),
          ∃ T' C', LogInv (Logger.history cfg ops { l.closeEpisode with agent := a }).2 T' C' ∧
          T' ++ [C'].filter (fun t => t ≠ []) = T ++ (stretches C (.reset g o :: ops) (out ::
            (Logger.history cfg ops { l.closeEpisode with agent := a }).1)).filter (fun t => t ≠ []) ∧
          (stretches C (.reset g o :: ops) (out ::
            (Logger.history cfg ops { l.closeEpisode with agent := a }).1)).getLast? = some C' := by
        intro a out
        obtain ⟨T', C', h1, h2, h3⟩ := ih _ _ _ (hcl.setAgent a)
        refine ⟨T', C', h1, ?_, ?_⟩
        · rw [h2]
          simp only [stretches]
          rw [List.append_assoc, ← List.filter_append]
          rfl
        · simp only [stretches]
          rw [List.getLast?_cons, h3]; rfl
      simp only [Logger.exec, Logger.reset]
      cases Micro.reset cfg g o l.closeEpisode.agent with
      | error e a => exact key a _
      | ok g' a => exact key a _
    | step o =>
      simp only [Logger.exec, Logger.step]
      cases Micro.step cfg o l.agent with
      | error e a =>
        dsimp only
        exact ih _ _ _ (h.setAgent a)
      | ok c a =>
        dsimp only
        cases GoalState.calculate o a.goal with
        | error e goal =>
          dsimp only
          exact ih _ _ _ (h.setAgent _)
        | ok r goal =>
          dsimp only
          exact ih _ _ _ (h.logStep o _ r)

theorem stretches_flatten (cfg : MicroCfg K G Img F α) (cur : List (Observation K Img))
    (ops : List (AgentOp K G Img)) (outs : List (AgentOut K G)) :
    ((stretches cur ops outs).filter (fun t => t ≠ [])).flatten = cur ++ actedOn ops outs := by
  have hf : ∀ L : List (List (Observation K Img)), (L.filter (fun t => t ≠ [])).flatten = L.flatten := by
    intro L
    induction L with
    | nil => rfl
    | cons t L ih =>
      rw [List.filter_cons]
      split_ifs with h
      · rw [List.flatten_cons, List.flatten_cons, ih]
      · have : t = [] := by simpa using h
        rw [List.flatten_cons, ih, this, List.nil_append]
  rw [hf]
  induction ops generalizing cur outs with
  | nil => cases outs <;> simp [stretches, actedOn]
  | cons op ops ih =>
    cases outs with
    | nil => cases op <;> simp [stretches, actedOn]
    | cons out outs => cases op <;> cases out <;> simp [stretches, actedOn, ih]

/-- The files written by the first flush, after every history of resets and steps from a new logger:
the trajectories are the observations answered with controls, split at the resets; there is one step
record for each of them, in order, numbered by its trajectory and its place in it; and there is one
episode record per trajectory, with its number of steps and the sum of the rewards of its steps.
(Missing from C34: a second flush and the episode numbers; see the theorems after this one.) -/
theorem C34_log_partial (cfg : MicroCfg K G Img F α) (ops : List (AgentOp K G Img))
    (hops : NoFlush ops) (a : Micro K G α) :
    ∃ files, (Logger.history cfg ops (Logger.fresh a)).2.flush.files = some files ∧
      files.trajectories = (stretches [] ops (Logger.history cfg ops (Logger.fresh a)).1).filter
        (fun t => t ≠ []) ∧
      files.trajectories.flatten = actedOn ops (Logger.history cfg ops (Logger.fresh a)).1 ∧
      files.steps.map StepRecord.key = stepKeys files.trajectories ∧
      files.episodes.map (fun r => r.episodeSteps) = files.trajectories.map List.length ∧
      files.episodes.map (fun r => r.episodeReturn) =
        (List.range files.trajectories.length).map (rewardsOf files.steps) ∧
      -- the numbers in the episode records
      ((stretches [] ops (Logger.history cfg ops (Logger.fresh a)).1).getLast? = some [] →
        files.episodes.map (fun r => r.episode) =
          (List.range files.trajectories.length).map (· + 1)) ∧
      ((stretches [] ops (Logger.history cfg ops (Logger.fresh a)).1).getLast? ≠ some [] →
        files.episodes.map (fun r => r.episode) =
          (List.range (files.trajectories.length - 1)).map (· + 1) ++
            [files.trajectories.length - 1]) := by
  have h0 : LogInv (Logger.fresh a : Logger K G Img α) [] [] :=
    ⟨rfl, rfl, by simp, rfl, rfl, rfl, rfl, rfl, rfl, rfl⟩
  obtain ⟨T, C, h, h2, h3⟩ := logger_history cfg ops hops _ _ _ h0
  set L := (Logger.history cfg ops (Logger.fresh a)).2
  have hfl := stretches_flatten cfg [] ops (Logger.history cfg ops (Logger.fresh a)).1
  rw [List.nil_append] at h2 hfl
  rw [h3, hfl.symm, ← h2]
  have hread : ∀ cur : List (Observation K Img),
      (T.map LoggedTrajectory.closed).map (LoggedTrajectory.read cur) = T := by
    intro cur
    simp [LoggedTrajectory.read, Function.comp_def]
  by_cases hC : C = []
  · subst hC
    have h1 : ¬ L.episodeStep ≠ 0 := by rw [h.step]; simp
    have h2 : ¬ L.current ≠ [] := by rw [h.cur]; simp
    refine ⟨⟨T, L.stepRecords, L.episodeRecords⟩, ?_, by simp, by simp, ?_, h.lengths, h.returns, ?_, ?_⟩
    · unfold Logger.flush
      simp only [if_neg h1, if_neg h2, h.traj, hread]
    · rw [h.keys, stepKeys_append_singleton]; simp
    · intro _; exact h.ids
    · intro hne; exact absurd rfl hne
  · have hlen : 0 < C.length := List.length_pos_iff.2 hC
    have h1 : L.episodeStep ≠ 0 := by rw [h.step]; omega
    have h2 : L.current ≠ [] := by rw [h.cur]; exact hC
    have hf : [C].filter (fun t => t ≠ []) = [C] := by simp [hC]
    rw [hf]
    refine ⟨⟨T ++ [C], L.stepRecords, L.episodeRecords ++ [⟨T.length, C.length,
      rewardsOf L.stepRecords T.length, L.agent.goal.currentGoal⟩]⟩, ?_, rfl, rfl, h.keys, ?_, ?_, ?_, ?_⟩
    · unfold Logger.flush
      simp only [if_pos h1, if_pos h2]
      simp only [h.traj, List.map_append, hread, List.map_cons,
        List.map_nil, LoggedTrajectory.read, h.cur, Logger.makeEpisodeRecord, h.episode, h.step,
        h.curReturn]
    · simp [h.lengths]
    · simp [h.returns, List.range_succ]
    · intro hE; simp at hE; exact absurd hE hC
    · intro _; simp [h.ids]

/-- The episode records carry other numbers than the step records of the same episode: with two
episodes and the second still open, the steps are numbered 0 and 1 and the episode records 1 and 1. -/
theorem C34_episode_numbers_wrong :
    (((Logger.history MicroExample.cfg
        [.reset () GoalExample.view, .step GoalExample.view, .reset () GoalExample.view,
          .step GoalExample.view, .flush]
        (Logger.fresh (MicroExample.agent 1))).2.files.map
      (fun f => (f.steps.map (fun r => r.episode), f.episodes.map (fun r => r.episode))))) =
    some ([0, 1], [1, 1]) := by decide +kernel

/-- A second flush writes the present trajectory and its episode record once more. -/
theorem C34_flush_twice_duplicates (l : Logger K G Img α) (hcur : l.current ≠ [])
    (hstep : l.episodeStep ≠ 0) :
    ∃ f1 f2 r, l.flush.files = some f1 ∧ l.flush.flush.files = some f2 ∧
      f2.trajectories = f1.trajectories ++ [l.current] ∧ f1.trajectories.getLast? = some l.current ∧
      f2.episodes = f1.episodes ++ [r] ∧ f1.episodes.getLast? = some r := by
  unfold Logger.flush
  simp only [if_pos hcur, if_pos hstep]
  refine ⟨_, _, l.makeEpisodeRecord, rfl, rfl, ?_, ?_, ?_, ?_⟩
  · simp [LoggedTrajectory.read]
  · simp [LoggedTrajectory.read]
  · simp [Logger.makeEpisodeRecord]
  · simp [Logger.makeEpisodeRecord]

/-- The hypotheses of the last theorem, met after a reset and one step. -/
example : (Logger.history MicroExample.cfg [.reset () GoalExample.view, .step GoalExample.view]
      (Logger.fresh (MicroExample.agent 1))).2.episodeStep ≠ 0 ∧
    (Logger.history MicroExample.cfg [.reset () GoalExample.view, .step GoalExample.view]
      (Logger.fresh (MicroExample.agent 1))).2.current.length = 1 := by
  constructor <;> decide +kernel

end PD.Props
