/- Two environments that differ only in their observers (and, for adapters that have none, in a
beam position) behave alike; seeding and resetting brings any two environments there. -/
import Verif.Lemmas.EnvHistory

set_option linter.unusedSectionVars false
set_option linter.unusedSimpArgs false

namespace PD
open PD.Spec
variable {K G O P Img F : Type} [Field K] [LinearOrder K] [IsStrictOrderedRing K] [FloorRing K]

/-- The two environments agree on everything that can influence results. -/
structure SameFuture (cfg : EnvCfg K G O P Img F) (s1 s2 : Env K G O P Img) : Prop where
  sim : s1.sim.unobserved = s2.sim.unobserved
  rng : s1.adapterRng = s2.adapterRng
  goal : s1.goal = s2.goal
  last : s1.last = s2.last
  flag : s1.requiresReset = s2.requiresReset
  beam : cfg.adapter = .delta → s1.beam = s2.beam

/-- The results agree and the final states are related. -/
def SameResult {σ α : Type} (R : σ → σ → Prop) :
    EStateM.Result Err σ α → EStateM.Result Err σ α → Prop
  | .ok a s, .ok a' s' => a = a' ∧ R s s'
  | .error e s, .error e' s' => e = e' ∧ R s s'
  | _, _ => False

theorem sameResult_of_mapState {σ τ α : Type} {f : σ → τ} {x y : EStateM.Result Err σ α}
    (h : mapState f x = mapState f y) : SameResult (fun a b => f a = f b) x y := by
  cases x <;> cases y <;> simp [mapState] at h <;> simp [SameResult, h]

theorem simStep_same (cfg : SimCfg K G O P Img) (cs : List (BeamControl K)) (b : Bool)
    {s1 s2 : Sim K G O P} (h : s1.unobserved = s2.unobserved) :
    SameResult (fun a b => a.unobserved = b.unobserved) (Sim.step cfg cs b s1)
      (Sim.step cfg cs b s2) :=
  sameResult_of_mapState (by rw [step_unobserved, step_unobserved, h])

theorem simReset_same (cfg : SimCfg K G O P Img) (b : Bool)
    {s1 s2 : Sim K G O P} (h : s1.unobserved = s2.unobserved) :
    SameResult (fun a b => a.unobserved = b.unobserved) (Sim.reset cfg b s1)
      (Sim.reset cfg b s2) :=
  sameResult_of_mapState (by rw [reset_unobserved, reset_unobserved, h])

theorem getAction_beam (a : Adapter K) (ha : a ≠ .delta) (o : Observation K Img) (act : List K)
    (b1 b2 : V2 K) :
    (∃ cs, a.getAction o act b1 = .ok cs b1 ∧ a.getAction o act b2 = .ok cs b2) ∨
    (∃ e, a.getAction o act b1 = .error e b1 ∧ a.getAction o act b2 = .error e b2) := by
  cases a with
  | delta => exact absurd rfl ha
  | direct =>
    simp only [Adapter.getAction]
    cases action2 act with
    | error e => exact .inr ⟨e, rfl, rfl⟩
    | ok p => exact .inl ⟨_, rfl, rfl⟩
  | relative lo hi mx =>
    simp only [Adapter.getAction]
    cases oneSilicon o.grid with
    | error e => exact .inr ⟨e, rfl, rfl⟩
    | ok si =>
      dsimp only
      split_ifs
      · exact .inr ⟨_, rfl, rfl⟩
      · cases actionPrefix2 act with
        | error e => exact .inr ⟨e, rfl, rfl⟩
        | ok p =>
          cases dwellOf lo hi act with
          | error e => exact .inr ⟨e, rfl, rfl⟩
          | ok d => exact .inl ⟨_, rfl, rfl⟩
  | materialFrame lo hi mx =>
    simp only [Adapter.getAction]
    cases oneSilicon o.grid with
    | error e => exact .inr ⟨e, rfl, rfl⟩
    | ok si =>
      dsimp only
      cases actionPrefix2 act with
      | error e => exact .inr ⟨e, rfl, rfl⟩
      | ok p =>
        cases dwellOf lo hi act with
        | error e => exact .inr ⟨e, rfl, rfl⟩
        | ok d => exact .inl ⟨_, rfl, rfl⟩

theorem adapterReset_nondelta {a : Adapter K} (ha : a ≠ .delta) (rng : Rng K G) (b : V2 K) (g : G) :
    a.reset rng b g = (b, g) := by
  cases a <;> first | rfl | exact absurd rfl ha

/-- Resetting the adapter keeps the relation. -/
theorem SameFuture.resetAdapter {cfg : EnvCfg K G O P Img F} {s1 s2 : Env K G O P Img}
    (h : SameFuture cfg s1 s2) :
    SameFuture cfg (Env.resetAdapter cfg s1) (Env.resetAdapter cfg s2) := by
  obtain ⟨⟨⟨g1, m1, o1⟩, f1, sc1, fv1, p1⟩, ga1, b1, gl1, l1, q1⟩ := s1
  obtain ⟨⟨⟨g2, m2, o2⟩, f2, sc2, fv2, p2⟩, ga2, b2, gl2, l2, q2⟩ := s2
  obtain ⟨h1, h2, h3, h4, h5, h6⟩ := h
  simp only [Sim.unobserved, MatCtx.unobserved, Sim.mk.injEq, MatCtx.mk.injEq] at h1 h2 h3 h4 h5 h6
  obtain ⟨⟨rfl, rfl, _⟩, rfl, rfl, rfl, rfl⟩ := h1
  subst h2 h3 h4 h5
  by_cases hd : cfg.adapter = .delta
  · have := h6 hd
    subst this
    unfold Env.resetAdapter
    cases ga1 with
    | none => exact ⟨rfl, rfl, rfl, rfl, rfl, fun _ => rfl⟩
    | some ga => exact ⟨rfl, rfl, rfl, rfl, rfl, fun _ => rfl⟩
  · unfold Env.resetAdapter
    cases ga1 with
    | none =>
      simp only [adapterReset_nondelta hd]
      exact ⟨rfl, rfl, rfl, rfl, rfl, fun h => absurd h hd⟩
    | some ga =>
      simp only [adapterReset_nondelta hd]
      exact ⟨rfl, rfl, rfl, rfl, rfl, fun h => absurd h hd⟩

/-- The part of `Env.reset` after the simulator was reset. -/
noncomputable def Env.resetTail (cfg : EnvCfg K G O P Img F) (s2 : Env K G O P Img) :
    EStateM.Result Err (Env K G O P Img) (TimeStep F) :=
  match GoalState.reset cfg.sim.rng s2.last s2.goal s2.sim.ctx.g with
    | .error e => .error e s2
    | .ok (goal, g) =>
      let s3 := { s2 with goal := goal, sim := { s2.sim with ctx := { s2.sim.ctx with g := g } } }
      let discount := gammaPow s3.last.elapsedTime
      match cfg.features s3.last (.singleSilicon s3.goal) with
      | .error e => .error e s3
      | .ok f => .ok ⟨.first, 0, discount, f⟩ s3

theorem envReset_eq (cfg : EnvCfg K G O P Img F) (s : Env K G O P Img) :
    Env.reset cfg s = match Sim.reset cfg.sim cfg.requiresImage s.sim with
      | .error e sim => .error e { s with requiresReset := false, sim := sim }
      | .ok o sim => Env.resetTail cfg (Env.resetAdapter cfg
          { s with requiresReset := false, sim := sim, last := o }) := rfl

theorem SameFuture.resetTail {cfg : EnvCfg K G O P Img F} {s1 s2 : Env K G O P Img}
    (h : SameFuture cfg s1 s2) :
    SameResult (SameFuture cfg) (Env.resetTail cfg s1) (Env.resetTail cfg s2) := by
  have hfull := h
  obtain ⟨⟨⟨g1, m1, o1⟩, f1, sc1, fv1, p1⟩, ga1, b1, gl1, l1, q1⟩ := s1
  obtain ⟨⟨⟨g2, m2, o2⟩, f2, sc2, fv2, p2⟩, ga2, b2, gl2, l2, q2⟩ := s2
  obtain ⟨h1, h2, h3, h4, h5, h6⟩ := h
  simp only [Sim.unobserved, MatCtx.unobserved, Sim.mk.injEq, MatCtx.mk.injEq] at h1 h2 h3 h4 h5 h6
  obtain ⟨⟨rfl, rfl, _⟩, rfl, rfl, rfl, rfl⟩ := h1
  subst h2 h3 h4 h5
  unfold Env.resetTail
  dsimp only
  cases GoalState.reset cfg.sim.rng l1 gl1 g1 with
  | error e => exact ⟨rfl, hfull⟩
  | ok r =>
    obtain ⟨goal, g⟩ := r
    dsimp only
    cases cfg.features l1 (.singleSilicon goal) with
    | error e => exact ⟨rfl, rfl, rfl, rfl, rfl, rfl, h6⟩
    | ok f => exact ⟨rfl, rfl, rfl, rfl, rfl, rfl, h6⟩

theorem SameFuture.reset {cfg : EnvCfg K G O P Img F} {s1 s2 : Env K G O P Img}
    (h : SameFuture cfg s1 s2) :
    SameResult (SameFuture cfg) (Env.reset cfg s1) (Env.reset cfg s2) := by
  rw [envReset_eq, envReset_eq]
  have hs := simReset_same cfg.sim cfg.requiresImage h.sim
  cases h1 : Sim.reset cfg.sim cfg.requiresImage s1.sim with
  | error e sim1 =>
    cases h2 : Sim.reset cfg.sim cfg.requiresImage s2.sim with
    | ok o sim2 => rw [h1, h2] at hs; exact hs.elim
    | error e' sim2 =>
      rw [h1, h2] at hs
      exact ⟨hs.1, hs.2, h.rng, h.goal, h.last, rfl, h.beam⟩
  | ok o sim1 =>
    cases h2 : Sim.reset cfg.sim cfg.requiresImage s2.sim with
    | error e' sim2 => rw [h1, h2] at hs; exact hs.elim
    | ok o' sim2 =>
      rw [h1, h2] at hs
      obtain ⟨rfl, hs⟩ := hs
      exact SameFuture.resetTail (SameFuture.resetAdapter ⟨hs, h.rng, h.goal, rfl, rfl, h.beam⟩)

/-- The part of `Env.step` after the adapter. -/
noncomputable def Env.stepTail (cfg : EnvCfg K G O P Img F) (controls : List (BeamControl K))
    (s1 : Env K G O P Img) : EStateM.Result Err (Env K G O P Img) (TimeStep F) :=
  match Sim.step cfg.sim controls cfg.requiresImage s1.sim with
      | .error e sim => .error e { s1 with sim := sim }
      | .ok o sim =>
        let s2 := { s1 with sim := sim, last := o }
        match cfg.features s2.last (.singleSilicon s2.goal) with
        | .error e => .error e s2
        | .ok f =>
          match GoalState.calculate s2.last s2.goal with
          | .error e goal => .error e { s2 with goal := goal }
          | .ok r goal =>
            let s3 := { s2 with goal := goal }
            let discount := gammaPow s3.last.elapsedTime
            if r.isTerminal then
              .ok (TimeStep.termination r.reward f) { s3 with requiresReset := true }
            else if r.isTruncated then
              .ok (TimeStep.truncation r.reward f discount) { s3 with requiresReset := true }
            else .ok (TimeStep.transition r.reward f discount) s3

theorem envStep_eq (cfg : EnvCfg K G O P Img F) (a : List K) (s : Env K G O P Img) :
    Env.step cfg a s = if s.requiresReset then Env.reset cfg s else
      match cfg.adapter.getAction s.last a s.beam with
      | .error e beam => .error e { s with beam := beam }
      | .ok controls beam => Env.stepTail cfg controls { s with beam := beam } := rfl

theorem SameFuture.stepTail {cfg : EnvCfg K G O P Img F} {s1 s2 : Env K G O P Img}
    (h : SameFuture cfg s1 s2) (cs : List (BeamControl K)) :
    SameResult (SameFuture cfg) (Env.stepTail cfg cs s1) (Env.stepTail cfg cs s2) := by
  unfold Env.stepTail
  have hs := simStep_same cfg.sim cs cfg.requiresImage h.sim
  obtain ⟨hsim, h2, h3, h4, h5, h6⟩ := h
  obtain ⟨sim1, ga1, b1, gl1, l1, q1⟩ := s1
  obtain ⟨sim2, ga2, b2, gl2, l2, q2⟩ := s2
  simp only at hsim h2 h3 h4 h5 h6 hs
  subst h2 h3 h4 h5
  cases e1 : Sim.step cfg.sim cs cfg.requiresImage sim1 with
  | error e x1 =>
    cases e2 : Sim.step cfg.sim cs cfg.requiresImage sim2 with
    | ok o x2 => rw [e1, e2] at hs; exact hs.elim
    | error e' x2 =>
      rw [e1, e2] at hs
      exact ⟨hs.1, hs.2, rfl, rfl, rfl, rfl, h6⟩
  | ok o x1 =>
    cases e2 : Sim.step cfg.sim cs cfg.requiresImage sim2 with
    | error e' x2 => rw [e1, e2] at hs; exact hs.elim
    | ok o' x2 =>
      rw [e1, e2] at hs
      obtain ⟨rfl, hs⟩ := hs
      dsimp only
      cases cfg.features o (.singleSilicon gl1) with
      | error e => exact ⟨rfl, hs, rfl, rfl, rfl, rfl, h6⟩
      | ok f =>
        dsimp only
        cases GoalState.calculate o gl1 with
        | error e goal => exact ⟨rfl, hs, rfl, rfl, rfl, rfl, h6⟩
        | ok r goal =>
          dsimp only
          split_ifs
          · exact ⟨rfl, hs, rfl, rfl, rfl, rfl, h6⟩
          · exact ⟨rfl, hs, rfl, rfl, rfl, rfl, h6⟩
          · exact ⟨rfl, hs, rfl, rfl, rfl, rfl, h6⟩

theorem SameFuture.step {cfg : EnvCfg K G O P Img F} {s1 s2 : Env K G O P Img}
    (h : SameFuture cfg s1 s2) (a : List K) :
    SameResult (SameFuture cfg) (Env.step cfg a s1) (Env.step cfg a s2) := by
  have hfull := h
  obtain ⟨hsim, h2, h3, h4, h5, h6⟩ := h
  obtain ⟨sim1, ga1, b1, gl1, l1, q1⟩ := s1
  obtain ⟨sim2, ga2, b2, gl2, l2, q2⟩ := s2
  simp only at hsim h2 h3 h4 h5 h6
  subst h2 h3 h4 h5
  rw [envStep_eq, envStep_eq]
  cases q1 with
  | true => exact hfull.reset
  | false =>
    simp only [Bool.false_eq_true, if_false]
    by_cases hd : cfg.adapter = .delta
    · have := h6 hd
      subst this
      cases cfg.adapter.getAction l1 a b1 with
      | error e beam => exact ⟨rfl, hsim, rfl, rfl, rfl, rfl, fun _ => rfl⟩
      | ok cs beam =>
        exact SameFuture.stepTail (s1 := ⟨sim1, ga1, beam, gl1, l1, false⟩)
          (s2 := ⟨sim2, ga1, beam, gl1, l1, false⟩) ⟨hsim, rfl, rfl, rfl, rfl, fun _ => rfl⟩ cs
    · rcases getAction_beam cfg.adapter hd l1 a b1 b2 with ⟨cs, e1, e2⟩ | ⟨e, e1, e2⟩
      · simp only [e1, e2]
        exact SameFuture.stepTail hfull cs
      · simp only [e1, e2]
        exact ⟨rfl, hfull⟩

theorem SameFuture.run {cfg : EnvCfg K G O P Img F} (cs : List (EnvCall (List K)))
    {s1 s2 : Env K G O P Img} (h : SameFuture cfg s1 s2) :
    ((Env.like cfg).run s1 cs).1 = ((Env.like cfg).run s2 cs).1 := by
  induction cs generalizing s1 s2 with
  | nil => rfl
  | cons c cs ih =>
    have hc : SameResult (SameFuture cfg) ((Env.like cfg).call c s1) ((Env.like cfg).call c s2) := by
      cases c with
      | reset => exact h.reset
      | step a => exact h.step a
    cases e1 : (Env.like cfg).call c s1 with
    | ok t s1' =>
      cases e2 : (Env.like cfg).call c s2 with
      | error e s2' => rw [e1, e2] at hc; exact hc.elim
      | ok t' s2' =>
        rw [e1, e2] at hc
        rw [run_cons_ok e1, run_cons_ok e2, hc.1, ih hc.2]
    | error e s1' =>
      cases e2 : (Env.like cfg).call c s2 with
      | ok t' s2' => rw [e1, e2] at hc; exact hc.elim
      | error e' s2' =>
        rw [e1, e2] at hc
        rw [run_cons_error e1, run_cons_error e2, hc.1, ih hc.2]

/-- A simulator's reset depends only on the generator. -/
theorem simReset_forgets (cfg : SimCfg K G O P Img) (b : Bool) {s1 s2 : Sim K G O P}
    (h : s1.ctx.g = s2.ctx.g) :
    (∃ o s1' s2', Sim.reset cfg b s1 = .ok o s1' ∧ Sim.reset cfg b s2 = .ok o s2' ∧
      s1'.unobserved = s2'.unobserved) ∨
    (∃ e s1' s2', Sim.reset cfg b s1 = .error e s1' ∧ Sim.reset cfg b s2 = .error e s2') := by
  have hu1 := reset_unobserved cfg b s1
  have hu2 := reset_unobserved cfg b s2
  obtain ⟨⟨g1, m1, o1⟩, f1, sc1, fv1, p1⟩ := s1
  obtain ⟨⟨g2, m2, o2⟩, f2, sc2, fv2, p2⟩ := s2
  simp only at h
  subst h
  have key : (∃ o s', Sim.reset cfg.unobserved b (⟨⟨g1, m1, []⟩, f1, sc1, fv1, p1⟩ : Sim K G Unit P) = .ok o s' ∧
      Sim.reset cfg.unobserved b (⟨⟨g1, m2, []⟩, f2, sc2, fv2, p2⟩ : Sim K G Unit P) = .ok o s') ∨
      (∃ e s' s'', Sim.reset cfg.unobserved b (⟨⟨g1, m1, []⟩, f1, sc1, fv1, p1⟩ : Sim K G Unit P) = .error e s' ∧
      Sim.reset cfg.unobserved b (⟨⟨g1, m2, []⟩, f2, sc2, fv2, p2⟩ : Sim K G Unit P) = .error e s'') := by
    cases hd : dopeSheet (cfg.unobserved.generate g1).1 with
    | error e =>
      right
      have hx : ∀ m f sc fv p, ∃ s', Sim.reset cfg.unobserved b
          (⟨⟨g1, m, []⟩, f, sc, fv, p⟩ : Sim K G Unit P) = .error e s' := by
        intro m f sc fv p
        simp only [Sim.reset, Material.reset, hd]
        exact ⟨_, rfl⟩
      obtain ⟨x, hx1⟩ := hx m1 f1 sc1 fv1 p1
      obtain ⟨y, hx2⟩ := hx m2 f2 sc2 fv2 p2
      exact ⟨e, x, y, hx1, hx2⟩
    | ok sheet =>
      have heq : Sim.reset cfg.unobserved b (⟨⟨g1, m1, []⟩, f1, sc1, fv1, p1⟩ : Sim K G Unit P) =
          Sim.reset cfg.unobserved b (⟨⟨g1, m2, []⟩, f2, sc2, fv2, p2⟩ : Sim K G Unit P) := by
        cases hsi : getSiliconPositions sheet with
        | nil =>
          exfalso
          obtain ⟨i, _, _, hi⟩ := (Props.dopeSheet_ok hd).2.exists_index
          simp [hi] at hsi
        | cons p r =>
          have hr : r = [] := by
            obtain ⟨i, _, _, _, hi⟩ := (Props.dopeSheet_ok hd).2.exists_index
            rw [hi] at hsi; simp at hsi; exact hsi.2
          subst hr
          simp only [Sim.reset, Material.reset, hd, Material.getSiliconPosition, Material.read, hsi,
            Sim.observe, Material.getAtomsInBounds,
            if_true]
      cases hr : Sim.reset cfg.unobserved b (⟨⟨g1, m1, []⟩, f1, sc1, fv1, p1⟩ : Sim K G Unit P) with
      | ok o s' => exact .inl ⟨o, s', rfl, by rw [← heq, hr]⟩
      | error e s' => exact .inr ⟨e, s', s', rfl, by rw [← heq, hr]⟩
  simp only [Sim.unobserved, MatCtx.unobserved] at hu1 hu2
  rcases key with ⟨o, s', e1, e2⟩ | ⟨e, s', s'', e1, e2⟩
  · rw [e1] at hu1
    rw [e2] at hu2
    left
    cases x1 : Sim.reset cfg b (⟨⟨g1, m1, o1⟩, f1, sc1, fv1, p1⟩ : Sim K G O P) with
    | error e s => rw [x1] at hu1; cases hu1
    | ok o1 y1 =>
      cases x2 : Sim.reset cfg b (⟨⟨g1, m2, o2⟩, f2, sc2, fv2, p2⟩ : Sim K G O P) with
      | error e s => rw [x2] at hu2; cases hu2
      | ok o2 y2 =>
        rw [x1] at hu1
        rw [x2] at hu2
        simp only [mapState, EStateM.Result.ok.injEq] at hu1 hu2
        exact ⟨o, y1, y2, by rw [hu1.1], by rw [hu2.1], hu1.2.trans hu2.2.symm⟩
  · rw [e1] at hu1
    rw [e2] at hu2
    right
    cases x1 : Sim.reset cfg b (⟨⟨g1, m1, o1⟩, f1, sc1, fv1, p1⟩ : Sim K G O P) with
    | ok o s => rw [x1] at hu1; cases hu1
    | error e1 y1 =>
      cases x2 : Sim.reset cfg b (⟨⟨g1, m2, o2⟩, f2, sc2, fv2, p2⟩ : Sim K G O P) with
      | ok o s => rw [x2] at hu2; cases hu2
      | error e2 y2 =>
        rw [x1] at hu1
        rw [x2] at hu2
        simp only [mapState, EStateM.Result.error.injEq] at hu1 hu2
        exact ⟨e, y1, y2, by rw [hu1.1], by rw [hu2.1]⟩

end PD
