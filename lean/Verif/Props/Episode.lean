/- C131: every episode ends, with probability one, whatever the agent does. -/
import Verif.Lemmas.Episode
import Verif.Spec.Episode

set_option linter.unusedSectionVars false
set_option linter.unusedSimpArgs false

namespace PD.Props
open PD PD.Spec MeasureTheory

section
variable {G O P Img F : Type}

/-- In the middle of an episode on the sheet `ps`. -/
structure Mid (n : ℕ) (ps : List (V2 ℝ)) (s : Env ℝ G O P Img) : Prop where
  plays : Playing n s
  live : s.requiresReset = false
  sheet : ∃ g, s.sim.ctx.mat.grid = some g ∧ g.positions = ps
  view : ∃ p ∈ ps, ∃ sc, s.sim.fov = some (centredFov p sc) ∧ 15 ≤ sc ∧ sc ≤ 30
  aim : s.goal.goal ∈ ps
  once : s.goal.required ≤ 1

/-- The environment with another state of its generator. -/
def withG (g : G) (s : Env ℝ G O P Img) : Env ℝ G O P Img :=
  { s with sim := { s.sim with ctx := { s.sim.ctx with g := g } } }

theorem Mid.withG {n : ℕ} {ps : List (V2 ℝ)} {s : Env ℝ G O P Img} (h : Mid n ps s) (g : G) : Mid n ps (withG g s) :=
  ⟨⟨SimInv.reseed h.plays.inv g, h.plays.range, h.plays.live⟩, h.live, h.sheet, h.view, h.aim, h.once⟩

theorem Mid.of_withG {n : ℕ} {ps : List (V2 ℝ)} {s : Env ℝ G O P Img} {g : G} (h : Mid n ps (Props.withG g s)) :
    Mid n ps s :=
  ⟨⟨SimInv.reseed h.plays.inv s.sim.ctx.g, h.plays.range, h.plays.live⟩, h.live, h.sheet, h.view, h.aim, h.once⟩

theorem silicon_placed {sheet : Grid ℝ} {m : Material ℝ} (hmf : m.hasBeenReset = true) (hg : m.grid = some sheet)
    (hwf : sheet.WF) {o : Observation ℝ Img} (hw : 0 < o.fov.width) (hh : 0 < o.fov.height)
    (hatoms : m.getAtomsInBounds o.fov.lowerLeft o.fov.upperRight = .ok o.grid) {p : V2 ℝ} (hp : p ∈ silicons o.grid) :
    place o p ∈ silicons sheet := by
  obtain ⟨o', ho', -, hat, -⟩ := C03_atoms_in_view m sheet hmf hg hwf o.fov hw hh
  rw [hatoms] at ho'
  cases ho'
  have h1 : place o p ∈ silicons (o.fov.gridToMaterial o.grid) := by
    rw [silicons_place]
    exact List.mem_map_of_mem hp
  unfold silicons at h1 ⊢
  rw [hat] at h1
  obtain ⟨x, hx, he⟩ := List.mem_map.1 h1
  obtain ⟨hx1, hx2⟩ := List.mem_filter.1 hx
  exact List.mem_map.2 ⟨x, List.mem_filter.2 ⟨(List.mem_filter.1 hx1).1, hx2⟩, he⟩

/-- A step goes on with the episode or shows its last time step; it does the latter if the silicon is at the goal. -/
theorem mid_step {cfg : EnvCfg ℝ G O P Img F} {n : ℕ} (hc : PlayCfg cfg n) {off : V2 ℝ} {ang : ℝ}
    {s s' : Env ℝ G O P Img} (hm : Mid n (layOutSheet n off ang) s) {a : List ℝ} {t : TimeStep F}
    (h : Env.step cfg a s = .ok t s') :
    (t.stepType = .last ∨ Mid n (layOutSheet n off ang) s') ∧
    ∀ j, s'.sim.ctx.mat.grid = some (siliconAt (layOutSheet n off ang) j) →
      (layOutSheet n off ang)[j]? = some s.goal.goal → t.stepType = .last := by
  have hplay := (step_plays hc hm.plays a).1
  rw [h] at hplay
  simp only [endState] at hplay
  set ps := layOutSheet n off ang with hps
  obtain ⟨g, hg, hgp⟩ := hm.sheet
  obtain ⟨q, hq, sc0, hfov0, h15, h30⟩ := hm.view
  unfold Env.step at h
  simp only [hm.live, Bool.false_eq_true, if_false] at h
  cases hact : cfg.adapter.getAction s.last a s.beam with
  | error e beam => rw [hact] at h; cases h
  | ok cs beam =>
  simp only [hact] at h
  cases hs : Sim.step cfg.sim cs cfg.requiresImage s.sim with
  | error e sim => rw [hs] at h; cases h
  | ok o sim =>
  simp only [hs] at h
  obtain ⟨⟨g', hg', hgp'⟩, hfov', hwf', ⟨p', hp'⟩, hw', hh', h4, hnd, himg⟩ := step_shows hc hm.plays.inv hg hgp hs
  cases hf : cfg.features o (.singleSilicon s.goal) with
  | error e => rw [hf] at h; cases h
  | ok f =>
  simp only [hf] at h
  obtain ⟨k, hk, hat, hnat⟩ := calculate_ok o s.goal hwf' (by simp [ShowsSilicon, hp'])
  simp only [hk] at h
  obtain ⟨fov, sheet0, c, sc, evs, evs', sheet', hfov, hg0, hd, hsc, hcf, h15', h30', happ, hobs, hmf, hg1, hsc',
    hfov1, hctl, himg', hatoms, hmv⟩ := step_ok hm.plays.inv hs
  obtain ⟨hd', -⟩ := happ.doped hc.swaps.keepsDoping hd
  rw [hg'] at hg1
  cases hg1
  -- where the silicon is
  have hsil := silicon_placed hmf hg' hd'.wf hw' hh' hatoms (p := p') (by rw [hp']; simp)
  have hview : ∃ p ∈ ps, ∃ sc, sim.fov = some (centredFov p sc) ∧ 15 ≤ sc ∧ sc ≤ 30 := by
    rcases hmv with ⟨-, hof, -⟩ | ⟨si, grid1, -, -, hsi, hof, -⟩
    · refine ⟨q, hq, sc0, ?_, h15, h30⟩
      rw [hfov', hof, ← hfov, hfov0]
    · refine ⟨si, ?_, sc, by rw [hfov', hof], h15', h30'⟩
      have hread : sim.ctx.mat.read = .ok g' := by simp [Material.read, hmf, hg']
      obtain ⟨i, si', hi, hn, hsi'⟩ := hd'.exists_index
      simp only [Material.getSiliconPosition, hread, hsi', Except.ok.injEq] at hsi
      rw [hps, ← hgp', ← hsi]
      exact List.mem_of_getElem? hi
  constructor
  · by_cases hlast : s.goal.required ≤ k
    · left
      simp only [hlast, decide_true, if_true, EStateM.Result.ok.injEq] at h
      rw [← h.1]
      rfl
    · right
      simp only [hlast, decide_false, Bool.false_eq_true, if_false, EStateM.Result.ok.injEq] at h
      obtain ⟨-, rfl⟩ := h
      exact ⟨hplay, rfl, ⟨g', hg', hgp'⟩, hview, hm.aim, hm.once⟩
  · intro j hj hgoal
    have hsim : s'.sim = sim := by
      revert h
      split_ifs <;> intro h <;> simp only [EStateM.Result.ok.injEq] at h <;> rw [← h.2]
    rw [hsim, hg', Option.some.injEq] at hj
    obtain ⟨i, hi, hn⟩ := exists_silicon_index hsil
    rw [hj] at hi hn
    have hij := silicon_unique hn
    subst hij
    have hplace : place o p' = s.goal.goal := by
      rw [show (siliconAt ps i).positions = ps from rfl, hgoal, Option.some.injEq] at hi
      exact hi.symm
    have hAt : AtGoal s.goal.goal o := ⟨p', centralSilicon_singleton hp', by
      rw [hplace]; norm_num [V2.distSq, V2.normSq]⟩
    have hlast : s.goal.required ≤ k := by rw [hat hAt]; exact hm.once.trans (by omega)
    simp only [hlast, decide_true, if_true, EStateM.Result.ok.injEq] at h
    rw [← h.1]
    rfl

end

/-! ### What follows a control does not draw -/

section
variable {G O P Img F : Type} [MeasurableSpace G] {μ : Measure G}

/-- A simulator with another state of its generator. -/
def simG (g : G) (s : Sim ℝ G O P) : Sim ℝ G O P := { s with ctx := { s.ctx with g := g } }

/-- The same outcome, another final state. -/
def mapEnd {ε σ α : Type} (f : σ → σ) : EStateM.Result ε σ α → EStateM.Result ε σ α
  | .ok x s => .ok x (f s)
  | .error e s => .error e (f s)

/-- The rest of a step of the simulator, after the controls. -/
noncomputable def simRest (cfg : SimCfg ℝ G O P Img) (returnImage : Bool) (fov : Fov ℝ) (cs : List (BeamControl ℝ))
    (elapsed : Timedelta) (s : Sim ℝ G O P) : EStateM.Result Err (Sim ℝ G O P) (Observation ℝ Img) :=
  match Sim.observe cfg fov s with
  | .error e s1 => .error e s1
  | .ok grid s1 =>
    match Sim.recentre cfg fov grid (elapsed + cfg.imageDuration) s1 with
    | .error e s2 => .error e s2
    | .ok (grid', fov', elapsed') s2 =>
      match Sim.maybeImage cfg returnImage grid' fov' s2 with
      | .error e s3 => .error e s3
      | .ok img s3 => .ok ⟨grid', fov', cs, elapsed', img, none⟩ s3

theorem observe_simG (cfg : SimCfg ℝ G O P Img) (fov : Fov ℝ) (g : G) (s : Sim ℝ G O P) :
    Sim.observe cfg fov (simG g s) = mapEnd (simG g) (Sim.observe cfg fov s) := by
  unfold Sim.observe
  have e : (simG g s).ctx.mat = s.ctx.mat := rfl
  rw [e]
  cases s.ctx.mat.getAtomsInBounds fov.lowerLeft fov.upperRight <;> rfl

theorem recentre_simG (cfg : SimCfg ℝ G O P Img) (fov : Fov ℝ) (grid : Grid ℝ) (el : Timedelta) (g : G)
    (s : Sim ℝ G O P) : Sim.recentre cfg fov grid el (simG g s) = mapEnd (simG g) (Sim.recentre cfg fov grid el s) := by
  obtain ⟨ctx, hb, sc, fv, ip⟩ := s
  unfold Sim.recentre
  cases siliconOutsideOfSafeArea grid with
  | error e => rfl
  | ok b =>
    cases b with
    | false => rfl
    | true =>
      simp only [simG]
      cases ctx.mat.getSiliconPosition with
      | error e => rfl
      | ok si =>
        cases sc with
        | none => rfl
        | some scale =>
          simp only
          have := observe_simG cfg (centredFov si scale) g (⟨{ ctx with
            obs := notify cfg.handle (.fovChange (centredFov si scale)) ctx.obs }, hb, some scale,
              some (centredFov si scale), ip⟩ : Sim ℝ G O P)
          simp only [simG] at this
          rw [this]
          cases Sim.observe cfg (centredFov si scale) (⟨{ ctx with
            obs := notify cfg.handle (.fovChange (centredFov si scale)) ctx.obs }, hb, some scale,
              some (centredFov si scale), ip⟩ : Sim ℝ G O P) <;> rfl

/-- How a picture is drawn, if one is. -/
inductive Draws (cfg : SimCfg ℝ G O P Img) (returnImage : Bool) : (G → Option Img × G) → Prop
  | none : Draws cfg returnImage (fun g => (none, g))
  | some (h : returnImage = true) (grid : Grid ℝ) (fov : Fov ℝ) (p : P) :
      Draws cfg returnImage (fun g => (some (cfg.render grid fov p g).1, (cfg.render grid fov p g).2))

/-- Imaging leaves the material alone. -/
theorem recentre_mat {cfg : SimCfg ℝ G O P Img} {fov : Fov ℝ} {grid : Grid ℝ} {el : Timedelta} {s1 s2 : Sim ℝ G O P}
    {x : Grid ℝ × Fov ℝ × Timedelta} (h2 : Sim.recentre cfg fov grid el s1 = .ok x s2) : s2.ctx.mat = s1.ctx.mat := by
  unfold Sim.recentre at h2
  repeat' split at h2
  all_goals first
    | (cases h2; done)
    | (simp only [EStateM.Result.ok.injEq] at h2; rw [← h2.2]; done)
    | skip
  dsimp only at h2
  split at h2
  · cases h2
  · rename_i h3
    simp only [EStateM.Result.ok.injEq] at h2
    rw [← h2.2]
    unfold Sim.observe at h3
    split at h3
    · cases h3
    · simp only [EStateM.Result.ok.injEq] at h3
      rw [← h3.2]

/-- The rest of a step depends on the generator through the picture only. -/
theorem simRest_simG (cfg : SimCfg ℝ G O P Img) (b : Bool) (fov : Fov ℝ) (cs : List (BeamControl ℝ)) (el : Timedelta)
    (s : Sim ℝ G O P) : ∃ (draw : G → Option Img × G)
      (r : Option Img → EStateM.Result Err (Sim ℝ G O P) (Observation ℝ Img)), Draws cfg b draw ∧
      (∀ img o s', r img = .ok o s' → s'.ctx.mat = s.ctx.mat) ∧
      ∀ g, simRest cfg b fov cs el (simG g s) = mapEnd (simG (draw g).2) (r (draw g).1) := by
  cases h1 : Sim.observe cfg fov s with
  | error e s1 =>
    refine ⟨_, fun _ => .error e s1, .none, by simp, fun g => ?_⟩
    unfold simRest
    rw [observe_simG, h1]
    rfl
  | ok grid s1 =>
    have m1 : s1.ctx.mat = s.ctx.mat := by
      unfold Sim.observe at h1
      split at h1
      · cases h1
      · simp only [EStateM.Result.ok.injEq] at h1
        rw [← h1.2]
    cases h2 : Sim.recentre cfg fov grid (el + cfg.imageDuration) s1 with
    | error e s2 =>
      refine ⟨_, fun _ => .error e s2, .none, by simp, fun g => ?_⟩
      unfold simRest
      rw [observe_simG, h1]
      simp only [mapEnd]
      rw [recentre_simG, h2]
      rfl
    | ok x s2 =>
      obtain ⟨grid', fov', el'⟩ := x
      have m2 := recentre_mat h2
      have hrest : ∀ g, simRest cfg b fov cs el (simG g s) =
          match Sim.maybeImage cfg b grid' fov' (simG g s2) with
          | .error e s3 => .error e s3
          | .ok img s3 => .ok ⟨grid', fov', cs, el', img, none⟩ s3 := by
        intro g
        unfold simRest
        rw [observe_simG, h1]
        simp only [mapEnd]
        rw [recentre_simG, h2]
        rfl
      cases b with
      | false =>
        refine ⟨_, fun img => .ok ⟨grid', fov', cs, el', img, none⟩ s2, .none, ?_, fun g => ?_⟩
        · intro img o s' h
          simp only [EStateM.Result.ok.injEq] at h
          rw [← h.2, m2, m1]
        · rw [hrest]; rfl
      | true =>
        obtain ⟨ctx, hb, sc, fv, ip⟩ := s2
        cases ip with
        | none =>
          refine ⟨_, fun _ => .error .attributeError ⟨ctx, hb, sc, fv, none⟩, .none, by simp, fun g => ?_⟩
          rw [hrest]
          rfl
        | some p =>
          refine ⟨_, fun img => .ok ⟨grid', fov', cs, el', img, none⟩
            ⟨{ ctx with obs := match img with
              | none => ctx.obs
              | some i => notify cfg.handle (.generatedImage i) ctx.obs }, hb, sc, fv, some p⟩,
            .some rfl grid' fov' p, ?_, fun g => ?_⟩
          · intro img o s' h
            simp only [EStateM.Result.ok.injEq] at h
            rw [← h.2, ← m1, ← m2]
          · rw [hrest]; rfl

/-- What the environment makes of the simulator's answer. -/
noncomputable def envRest (cfg : EnvCfg ℝ G O P Img F) (s : Env ℝ G O P Img) (beam : V2 ℝ) :
    EStateM.Result Err (Sim ℝ G O P) (Observation ℝ Img) → EStateM.Result Err (Env ℝ G O P Img) (TimeStep F)
  | .error e sim => .error e { s with beam := beam, sim := sim }
  | .ok o sim =>
    match cfg.features o (.singleSilicon s.goal) with
    | .error e => .error e { s with beam := beam, sim := sim, last := o }
    | .ok f =>
      match GoalState.calculate o s.goal with
      | .error e goal => .error e { s with beam := beam, sim := sim, last := o, goal := goal }
      | .ok r goal =>
        if r.isTerminal then .ok (TimeStep.termination r.reward f)
          { s with beam := beam, sim := sim, last := o, goal := goal, requiresReset := true }
        else if r.isTruncated then .ok (TimeStep.truncation r.reward f (gammaPow o.elapsedTime))
          { s with beam := beam, sim := sim, last := o, goal := goal, requiresReset := true }
        else .ok (TimeStep.transition r.reward f (gammaPow o.elapsedTime))
          { s with beam := beam, sim := sim, last := o, goal := goal }

theorem envRest_sim {cfg : EnvCfg ℝ G O P Img F} {s s' : Env ℝ G O P Img} {beam : V2 ℝ} {t : TimeStep F}
    {r : EStateM.Result Err (Sim ℝ G O P) (Observation ℝ Img)} (h : envRest cfg s beam r = .ok t s') :
    ∃ o, r = .ok o s'.sim := by
  cases r with
  | error e sim => cases h
  | ok o sim =>
    simp only [envRest] at h
    refine ⟨o, ?_⟩
    repeat' split at h
    all_goals first
      | (cases h; done)
      | (simp only [EStateM.Result.ok.injEq] at h; rw [← h.2])

theorem envRest_withG (cfg : EnvCfg ℝ G O P Img F) (s : Env ℝ G O P Img) (beam : V2 ℝ) (g : G)
    (r : EStateM.Result Err (Sim ℝ G O P) (Observation ℝ Img)) :
    envRest cfg s beam (mapEnd (simG g) r) = mapEnd (withG g) (envRest cfg s beam r) := by
  cases r with
  | error e sim => rfl
  | ok o sim =>
    simp only [mapEnd, envRest]
    cases cfg.features o (.singleSilicon s.goal) with
    | error e => rfl
    | ok f =>
      simp only
      cases GoalState.calculate o s.goal with
      | error e goal => rfl
      | ok r goal =>
        simp only
        split_ifs <;> rfl

/-- The simulator right after a control with the given history. -/
def simAfter (cfg : SimCfg ℝ G O P Img) (s : Sim ℝ G O P) (c : BeamControl ℝ) (sheet : Grid ℝ)
    (evs : List (Timedelta × Grid ℝ)) : Sim ℝ G O P :=
  { s with ctx := ⟨s.ctx.g, ⟨true, some (lastSheet sheet evs)⟩, (notify cfg.handle (.applyControl c) s.ctx.obs).map
      (observeAll cfg.handle (evs.map (fun e => Event.transition e.1 e.2)))⟩ }

/-- A step with one control, told by the history of the control and the picture. -/
theorem step_by_history {cfg : EnvCfg ℝ G O P Img F} {s : Env ℝ G O P Img}
    (hq : s.requiresReset = false) (hreset : s.sim.hasBeenReset = true) (hmat : s.sim.ctx.mat.hasBeenReset = true)
    {fov : Fov ℝ} (hfov : s.sim.fov = some fov) {sheet : Grid ℝ} (hsheet : s.sim.ctx.mat.grid = some sheet)
    {a : List ℝ} {c : BeamControl ℝ} {beam : V2 ℝ} (hact : cfg.adapter.getAction s.last a s.beam = .ok [c] beam)
    (evs : List (Timedelta × Grid ℝ)) :
    ∃ (draw : G → Option Img × G) (r : Option Img → EStateM.Result Err (Env ℝ G O P Img) (TimeStep F)),
      Draws cfg.sim cfg.requiresImage draw ∧
      (∀ img t s1, r img = .ok t s1 → s1.sim.ctx.mat.grid = some (lastSheet sheet evs)) ∧ ∀ g g' sheet',
      Jumps cfg.sim.rng cfg.sim.rate (fov.toMaterial c.position) c.dwellTime 0 g sheet evs g' sheet' →
      ∃ rounds, ∀ fuel, rounds ≤ fuel →
        (∃ el ctx, applyControls { cfg.sim with fuel := fuel } fov [c] 0 (simG g s.sim).ctx = .ok el ctx) ∧
        Env.step { cfg with sim := { cfg.sim with fuel := fuel } } a (withG g s) =
          mapEnd (withG (draw g').2) (r (draw g').1) := by
  set c' := BeamControl.mk' (fov.toMaterial c.position) c.dwellTime with hc'
  obtain ⟨draw, r0, hdraw, hr0, hrest⟩ := simRest_simG cfg.sim cfg.requiresImage fov [c] c.dwellTime
    (simAfter cfg.sim s.sim c' sheet evs)
  refine ⟨draw, fun img => envRest cfg s beam (r0 img), hdraw, ?_, ?_⟩
  · intro img t s1 h
    obtain ⟨o, ho⟩ := envRest_sim h
    rw [hr0 _ _ _ ho]
    rfl
  intro g g' sheet' hj
  have hl := jumps_last hj
  subst hl
  obtain ⟨rounds, h1⟩ := (C72_jump_process cfg.sim.rng cfg.sim.handle cfg.sim.rate c'
    ⟨g, ⟨true, some sheet⟩, notify cfg.sim.handle (.applyControl c') s.sim.ctx.obs⟩
    (simG g' (simAfter cfg.sim s.sim c' sheet evs)).ctx sheet rfl rfl).2
    ⟨evs, _, hj, rfl, rfl, rfl⟩
  refine ⟨rounds, fun fuel hfuel => ?_⟩
  have hctx : (simG g s.sim).ctx = ⟨g, ⟨true, some sheet⟩, s.sim.ctx.obs⟩ := by
    obtain ⟨⟨⟨g0, ⟨m1, m2⟩, o0⟩, _⟩, _⟩ := s
    simp only at hmat hsheet
    subst hmat hsheet
    rfl
  have hctl : applyControls { cfg.sim with fuel := fuel } fov [c] 0 (simG g s.sim).ctx =
      .ok c.dwellTime (simG g' (simAfter cfg.sim s.sim c' sheet evs)).ctx := by
    simp only [applyControls]
    rw [hctx, ← hc']
    simp only
    rw [applyControl_more h1 fuel hfuel]
    simp [hc', BeamControl.mk']
  have hsim : Sim.step { cfg.sim with fuel := fuel } [c] cfg.requiresImage (simG g s.sim) =
      mapEnd (simG (draw g').2) (r0 (draw g').1) := by
    rw [step_eq (s := simG g s.sim) (fov := fov) hreset hfov, hctl, ← hrest]
    simp only
    unfold simRest
    have e1 : Sim.observe { cfg.sim with fuel := fuel } fov = Sim.observe (P := P) cfg.sim fov := rfl
    have e2 : Sim.recentre { cfg.sim with fuel := fuel } fov = Sim.recentre (P := P) cfg.sim fov := rfl
    have e3 : Sim.maybeImage { cfg.sim with fuel := fuel } cfg.requiresImage =
      Sim.maybeImage cfg.sim cfg.requiresImage := rfl
    simp only at e1 e2 e3
    rw [e1, e2, e3]
    have e4 : ({ simG g s.sim with ctx := (simG g' (simAfter cfg.sim s.sim c' sheet evs)).ctx } : Sim ℝ G O P) =
      simG g' (simAfter cfg.sim s.sim c' sheet evs) := rfl
    simp only at e4
    rw [e4]
    cases Sim.observe cfg.sim fov (simG g' (simAfter cfg.sim s.sim c' sheet evs)) with
    | error e s1 => rfl
    | ok grid s1 =>
      simp only
      cases Sim.recentre cfg.sim fov grid (c.dwellTime + cfg.sim.imageDuration) s1 with
      | error e s1 => rfl
      | ok x s2 =>
        simp only
        cases Sim.maybeImage cfg.sim cfg.requiresImage x.1 x.2.1 s2 <;> rfl
  have hq' : ¬ (withG g s).requiresReset = true := by
    rw [show (withG g s).requiresReset = s.requiresReset from rfl, hq]; decide
  have hact' : cfg.adapter.getAction (withG g s).last a (withG g s).beam = .ok [c] beam := hact
  refine ⟨⟨_, _, hctl⟩, ?_⟩
  rw [envStep_eq, if_neg hq', ← envRest_withG, ← hsim]
  simp only
  rw [hact']
  simp only [Env.stepTail]
  rw [show (withG g s).sim = simG g s.sim from rfl]
  cases Sim.step { cfg.sim with fuel := fuel } [c] cfg.requiresImage (simG g s.sim) with
  | error e sim => rfl
  | ok o sim =>
    simp only [envRest]
    rw [show (withG g s).goal = s.goal from rfl]
    cases cfg.features o (.singleSilicon s.goal) with
    | error e => rfl
    | ok f =>
      simp only
      cases GoalState.calculate o s.goal with
      | error e goal => rfl
      | ok r goal =>
        simp only
        split_ifs <;> rfl

/-! ### The start of an episode -/

theorem reset_required (cfg : EnvCfg ℝ G O P Img F) (s : Env ℝ G O P Img) :
    (endState (Env.reset cfg s)).goal.required = s.goal.required := by
  rw [envReset_eq]
  split
  · rfl
  · rename_i o sim _
    have hg := (resetAdapter_frame cfg { s with requiresReset := false, sim := sim, last := o }).2
    unfold Env.resetTail
    split
    · simp [endState, hg]
    · rename_i goal g hr
      rw [hg] at hr
      have : goal.required = s.goal.required := by
        unfold GoalState.reset at hr
        dsimp only at hr
        repeat' split at hr
        all_goals first
          | cases hr; done
          | (rw [Except.ok.injEq, Prod.mk.injEq] at hr; obtain ⟨rfl, _⟩ := hr; rfl)
      dsimp only
      split <;> exact this

theorem step_required (cfg : EnvCfg ℝ G O P Img F) (a : List ℝ) (s : Env ℝ G O P Img) :
    (endState (Env.step cfg a s)).goal.required = s.goal.required := by
  rw [envStep_eq]
  split_ifs
  · exact reset_required cfg s
  · split
    · rfl
    · unfold Env.stepTail
      split
      · rfl
      · dsimp only
        split
        · rfl
        · rename_i o _ _ _ _ _
          have : (endState (GoalState.calculate o s.goal)).required = s.goal.required := by
            unfold GoalState.calculate
            split <;> rfl
          split
          · rename_i hc; rw [hc] at this; exact this
          · rename_i hc; rw [hc] at this
            split_ifs <;> exact this

theorem after_required (cfg : EnvCfg ℝ G O P Img F) (ops : List (EnvOp ℝ O)) (s : Env ℝ G O P Img) :
    (Env.after cfg s ops).goal.required = s.goal.required := by
  induction ops generalizing s with
  | nil => rfl
  | cons op ops ih =>
    refine (ih (Env.exec cfg s op)).trans ?_
    cases op with
    | reset =>
      have := reset_required cfg s
      simp only [Env.exec]
      cases hs : Env.reset cfg s <;> rw [hs] at this <;> exact this
    | step a =>
      have := step_required cfg a s
      simp only [Env.exec]
      cases hs : Env.step cfg a s <;> rw [hs] at this <;> exact this
    | seed z => rfl
    | addObserver o => rfl
    | removeObserver i =>
      simp only [Env.exec, Sim.removeObserver]
      split <;> rfl

/-- After a reset an episode on some sheet is under way. -/
theorem reset_mid {cfg : EnvCfg ℝ G O P Img F} {n : ℕ} (hc : PlayCfg cfg n) {s s' : Env ℝ G O P Img} (h : Playing n s)
    (hreq : s.goal.required ≤ 1) {t : TimeStep F} (hr : Env.reset cfg s = .ok t s') :
    ∃ off ang, Mid n (layOutSheet n off ang) s' := by
  obtain ⟨t', s2, hr', hplay⟩ := reset_plays hc h
  rw [hr] at hr'
  cases hr'
  have hreq' := reset_required cfg s
  rw [hr] at hreq'
  simp only [endState] at hreq'
  obtain ⟨o, sim, g, h1, h2, h3⟩ := envReset_parts hr
  obtain ⟨sheet, si, sc, hf⟩ := reset_ok h1
  obtain ⟨off, ang, hsheet, _⟩ := C40_generated cfg.sim.rng hc.lawful n s.sim.ctx.g
  have hpos : sheet.positions = layOutSheet n off ang := by rw [hf.positions, hc.generate, hsheet]
  obtain ⟨g1, hsc⟩ := hf.scaleDraw
  have hu := hc.lawful.uniform_mem 15 30 g1 (by norm_num)
  rw [← hsc] at hu
  have hsq := centredFov_square si sc
  obtain ⟨hwf, hview⟩ := view_positions hf.matFlag hf.grid hf.doped.wf (o := o)
    (by rw [hf.ofov, hsq.1]; linarith [hu.1]) (by rw [hf.ofov, hsq.2]; linarith [hu.1]) hf.ogrid
  rw [hpos] at hview
  refine ⟨off, ang, hplay, ?_, ⟨sheet, by rw [h3]; exact hf.grid, hpos⟩, ⟨si, ?_, sc, by rw [h3]; exact hf.fov, hu.1, hu.2⟩,
    ?_, hreq'.le.trans hreq⟩
  · rw [envReset_eq, h1] at hr
    simp only [Env.resetTail] at hr
    split at hr
    · cases hr
    · split at hr
      · cases hr
      · simp only [EStateM.Result.ok.injEq] at hr
        rw [← hr.2]
        simp only [Env.resetAdapter]
        split <;> rfl
  · rw [← hpos]
    obtain ⟨i, si', hi, hn, hsi'⟩ := hf.doped.exists_index
    have := hf.silicon
    rw [hsi', List.cons.injEq] at this
    rw [← this.1]
    exact List.mem_of_getElem? hi
  · have hgoal := (resetAdapter_frame cfg { s with requiresReset := false, sim := sim, last := o })
    rw [envReset_eq, h1] at hr
    simp only [Env.resetTail] at hr
    split at hr
    · cases hr
    · rename_i goal g' hgr
      have hs' : s'.goal = goal := by
        split at hr
        · cases hr
        · simp only [EStateM.Result.ok.injEq] at hr
          rw [← hr.2]
      rw [hgoal.1, hgoal.2] at hgr
      rcases C16_goal_choice cfg.sim.rng hc.lawful o hwf s.goal h.range.1 (by linarith [h.range.2.2])
        (Env.resetAdapter cfg { s with requiresReset := false, sim := sim, last := o }).sim.ctx.g with
        ⟨_, he⟩ | ⟨c, hc, ⟨_, he⟩ | ⟨p, hp, hrange, g2, he⟩⟩
      · rw [he] at hgr; cases hgr
      · rw [he] at hgr; cases hgr
      · rw [he, Except.ok.injEq, Prod.mk.injEq] at hgr
        rw [hs', ← hgr.1]
        have := List.mem_map_of_mem (f := place o) hp
        rw [hview] at this
        exact (List.mem_filter.1 this).1

/-! ### The bound -/

theorem beam_near {ps : List (V2 ℝ)} {p : V2 ℝ} (hp : p ∈ ps) {sc : ℝ} (h0 : 15 ≤ sc) (h : sc ≤ 30) {q : V2 ℝ}
    (hq : InUnit q) : Spec.dist 0 ((centredFov p sc).toMaterial q) ≤ 2 * spread ps + 30 := by
  obtain ⟨hx, hy⟩ := le_spread hp
  rw [abs_le] at hx hy
  obtain ⟨⟨h1, h2⟩, h3, h4⟩ := hq
  simp only at h1 h2 h3 h4
  have hs := spread_nonneg ps
  rw [fov_lerp]
  refine Real.sqrt_le_iff.2 ⟨by linarith, ?_⟩
  have e0 : (0 : V2 ℝ).x = 0 := rfl
  have e1 : (0 : V2 ℝ).y = 0 := rfl
  set b := lerp (centredFov p sc).lowerLeft (centredFov p sc).upperRight q with hb
  have bx : |b.x| ≤ spread ps + 15 := by
    rw [abs_le]
    simp only [hb, lerp, centredFov, V2.sub_x, V2.add_x, V2.const]
    constructor <;> nlinarith
  have hby : |b.y| ≤ spread ps + 15 := by
    rw [abs_le]
    simp only [hb, lerp, centredFov, V2.sub_y, V2.add_y, V2.const]
    constructor <;> nlinarith
  have s1 : b.x ^ 2 ≤ (spread ps + 15) ^ 2 := sq_le_sq' (by linarith [(abs_le.1 bx).1]) (abs_le.1 bx).2
  have s2 : b.y ^ 2 ≤ (spread ps + 15) ^ 2 := sq_le_sq' (by linarith [(abs_le.1 hby).1]) (abs_le.1 hby).2
  simp only [e0, e1]
  nlinarith

/-- Drawing a picture does not make bad states of the generator more likely. -/
theorem draw_bound {cfg : SimCfg ℝ G O P Img} {b : Bool} {draw : G → Option Img × G} (h : Draws cfg b draw)
    (hi : b = true → FairImages cfg.render μ) [IsProbabilityMeasure μ] (B : Option Img → Set G) {x : ENNReal}
    (hB : ∀ i, μ (B i) ≤ x) : μ {g | (draw g).2 ∈ B (draw g).1} ≤ x := by
  cases h with
  | none => exact hB none
  | some hb grid fov p =>
    have hf := hi hb
    have := hf.countable
    set pic := cfg.render grid fov p with hpic
    have hsub : {g | (pic g).2 ∈ B (some (pic g).1)} ⊆
        ⋃ i : Img, {g | (pic g).1 = i ∧ (pic g).2 ∈ toMeasurable μ (B (some i))} := fun g hg =>
      Set.mem_iUnion.2 ⟨(pic g).1, rfl, subset_toMeasurable _ _ hg⟩
    calc μ {g | (pic g).2 ∈ B (some (pic g).1)}
        ≤ μ (⋃ i : Img, {g | (pic g).1 = i ∧ (pic g).2 ∈ toMeasurable μ (B (some i))}) := measure_mono hsub
      _ ≤ ∑' i : Img, μ {g | (pic g).1 = i ∧ (pic g).2 ∈ toMeasurable μ (B (some i))} := measure_iUnion_le _
      _ = ∑' i : Img, μ {g | (pic g).1 = i} * μ (B (some i)) := by
          refine tsum_congr fun i => ?_
          rw [hf.pictures grid fov p i _ (measurableSet_toMeasurable _ _), measure_toMeasurable]
      _ ≤ ∑' i : Img, μ {g | (pic g).1 = i} * x := ENNReal.tsum_le_tsum fun i => mul_le_mul_right (hB _) _
      _ = (∑' i : Img, μ {g | (pic g).1 = i}) * x := ENNReal.tsum_mul_right
      _ = μ (⋃ i : Img, {g | (pic g).1 = i}) * x := by
          rw [measure_iUnion]
          · intro i j hij
            refine Set.disjoint_left.2 fun g h1 h2 => hij ?_
            have h1 : (pic g).1 = i := h1
            have h2 : (pic g).1 = j := h2
            rw [← h1, h2]
          · exact fun i => hf.pictures_measurable grid fov p i
      _ ≤ 1 * x := mul_le_mul_left prob_le_one _
      _ = x := one_mul x

/-- If from each atom each other can be reached during any control with probability at least `δ`, an episode goes on
for more than `k` steps with probability at most `(1 - δ) ^ k`. -/
theorem goes_on {cfg : EnvCfg ℝ G O P Img F} {n : ℕ} (hc : PlayCfg cfg n) (hf : Fair cfg.sim.rng μ)
    (himg : cfg.requiresImage = true → FairImages cfg.sim.render μ) (hdwell : 0 < (dwellRange cfg.adapter).1) {off : V2 ℝ} {ang δ : ℝ} (hδ : 0 < δ)
    (hδ1 : δ ≤ 1)
    (hreach : ∀ i j, i < (layOutSheet n off ang).length → j < (layOutSheet n off ang).length →
      ∀ (beam : V2 ℝ) (dwell : Timedelta), Spec.dist 0 beam ≤ 2 * spread (layOutSheet n off ang) + 30 → 0 < dwell →
        dwell < 3600000000 →
        ∃ evs, lastSheet (siliconAt (layOutSheet n off ang) i) evs = siliconAt (layOutSheet n off ang) j ∧
          δ ≤ historyProb cfg.sim.rate beam dwell 0 (siliconAt (layOutSheet n off ang) i) evs)
    (policy : List (TimeStep F) → List ℝ) (hpol : ∀ shown, (policy shown).length = actionSize cfg.adapter) (k : ℕ) :
    ∀ (shown : List (TimeStep F)) (s : Env ℝ G O P Img), Mid n (layOutSheet n off ang) s →
      μ {g | ¬ EndsWithin cfg policy k shown (withG g s)} ≤ ENNReal.ofReal ((1 - δ) ^ k) := by
  set ps := layOutSheet n off ang with hps
  have : IsProbabilityMeasure μ := ⟨hf.total⟩
  induction k with
  | zero => intro shown s _; simpa using prob_le_one
  | succ k ih =>
    intro shown s hm
    obtain ⟨sheet, hg, hgp⟩ := hm.sheet
    obtain ⟨q, hq, sc, hfov, h15, h30⟩ := hm.view
    obtain ⟨-, -, hwf, ⟨p, hp⟩, hw, hh⟩ := hm.plays.live hm.live
    obtain ⟨hreset, hmat, -⟩ := hm.plays.inv.sheet _ hfov
    obtain ⟨cs, beam', hact⟩ := (C24_total cfg.adapter s.last hwf hw.ne' hh.ne' (policy shown) (hpol shown) s.beam).1
      (fun _ => by rw [hp]; rfl)
    obtain ⟨c, rfl, hunit, hdw0, hdw⟩ := C24_one_control_in_view cfg.adapter hc.dwellOrder s.last _ s.beam beam' cs hact
    have hdop := hm.plays.inv.doped sheet hg
    have hgood : GoodSheet sheet := ⟨hdop, by rw [hgp]; exact four_atoms hc.wide off ang, by
      rw [hgp]; exact (C40_honeycomb n off ang).1⟩
    obtain ⟨i, hi, hsi⟩ := doped_siliconAt hdop
    rw [hgp] at hi hsi
    obtain ⟨j, hj, hgoal⟩ := List.mem_iff_getElem.1 hm.aim
    obtain ⟨path, hlast, hprob⟩ := hreach i j hi hj _ c.dwellTime (beam_near hq h15 h30 hunit) (lt_of_lt_of_le hdwell hdw0)
      (lt_of_le_of_lt hdw hc.dwellHour)
    rw [← hsi] at hlast hprob
    have hcfg : ∀ fuel, PlayCfg { cfg with sim := { cfg.sim with fuel := fuel } } n := fun fuel =>
      ⟨hc.lawful, hc.wide, hc.generate, hc.features, hc.swaps, hc.rates, hc.dwellOrder, hc.dwellHour⟩
    have hN : ∀ evs, ∃ N : Set G, μ N ≤ ENNReal.ofReal ((1 - δ) ^ k) ∧ (evs = path → N = ∅) ∧
        ∀ g g' sheet', Jumps cfg.sim.rng cfg.sim.rate ((centredFov q sc).toMaterial c.position) c.dwellTime 0 g sheet evs
          g' sheet' → g' ∉ N → EndsWithin cfg policy (k + 1) shown (withG g s) := by
      intro evs
      obtain ⟨draw, r, hdraw, hgrid, hr⟩ := step_by_history hm.live hreset hmat hfov hg hact evs
      have hB : ∀ img, ∃ B : Set G, μ B ≤ ENNReal.ofReal ((1 - δ) ^ k) ∧ (evs = path → B = ∅) ∧
          ∀ g g' sheet', Jumps cfg.sim.rng cfg.sim.rate ((centredFov q sc).toMaterial c.position) c.dwellTime 0 g sheet evs
            g' sheet' → (draw g').1 = img → (draw g').2 ∉ B → EndsWithin cfg policy (k + 1) shown (withG g s) := by
        intro img
        by_cases hex : ∃ g g' sheet', Jumps cfg.sim.rng cfg.sim.rate ((centredFov q sc).toMaterial c.position) c.dwellTime 0
            g sheet evs g' sheet' ∧ (draw g').1 = img
        swap
        · exact ⟨∅, by simp, fun _ => rfl, fun g g' sheet' hjump hi => absurd ⟨g, g', sheet', hjump, hi⟩ hex⟩
        obtain ⟨g1, g1', sheet1, hj1, hi1⟩ := hex
        obtain ⟨rounds, hstep⟩ := hr _ _ _ hj1
        obtain ⟨⟨el, ctx, hctl⟩, hstep⟩ := hstep rounds le_rfl
        obtain ⟨o, sim, hsim⟩ := simStep_ok { cfg.sim with fuel := rounds } hc.swaps cfg.requiresImage [c] (simG g1 s.sim)
          (hm.withG g1).plays.inv _ hfov sheet hg hgood hctl
        obtain ⟨t, s', hok⟩ := envStep_ok (hcfg rounds) (hm.withG g1).plays hm.live hact hsim
        rw [hok, hi1] at hstep
        cases hrt : r img with
        | error e s1 => rw [hrt] at hstep; cases hstep
        | ok t1 s1 =>
        rw [hrt] at hstep
        simp only [mapEnd, EStateM.Result.ok.injEq] at hstep
        obtain ⟨rfl, rfl⟩ := hstep
        have hgrid := hgrid img t s1 hrt
        obtain ⟨hmid, hfin⟩ := mid_step (hcfg rounds) (hm.withG g1) hok
        refine ⟨if t.stepType = .last then ∅ else {g | ¬ EndsWithin cfg policy k (shown ++ [t]) (withG g s1)}, ?_, ?_, ?_⟩
        · split_ifs with hl
          · simp
          · exact ih _ _ (hmid.resolve_left hl).of_withG
        · rintro rfl
          rw [if_pos]
          refine hfin j ?_ (by rw [List.getElem?_eq_getElem hj, hgoal]; rfl)
          rw [← hlast]
          exact hgrid
        · intro g g' sheet' hjump hi hn
          obtain ⟨rounds', hstep'⟩ := hr _ _ _ hjump
          refine ⟨t, withG (draw g').2 s1, ⟨rounds', fun fuel hfuel => ?_⟩, ?_⟩
          · rw [(hstep' fuel hfuel).2, hi, hrt]
            rfl
          · split_ifs at hn with hl
            · exact .inl hl
            · exact .inr (not_not.1 hn)
      choose B hBb hBp hBe using hB
      refine ⟨{g | (draw g).2 ∈ B (draw g).1}, draw_bound hdraw himg B hBb, ?_, ?_⟩
      · intro he
        exact Set.eq_empty_of_forall_notMem fun g (hg : (draw g).2 ∈ B (draw g).1) => by
          rw [hBp _ he] at hg
          exact hg
      · intro g g' sheet' hjump hn
        exact hBe _ g g' sheet' hjump rfl hn
    choose N hNb hNp hNe using hN
    have := one_control (rng := cfg.sim.rng) hf hc.lawful hc.swaps hc.rates (p := (centredFov q sc).toMaterial c.position)
      (lt_of_le_of_lt hdw hc.dwellHour) hgood N (fun evs _ => hNb evs) (hNp path rfl) hδ hprob
    refine (measure_mono ?_).trans (this.trans ?_)
    · rintro g hg ⟨evs, g', sheet', hjump, hn⟩
      exact hg (hNe evs g g' sheet' hjump hn)
    · rw [← ENNReal.ofReal_mul (by linarith), pow_succ']

/-- C131.  After any history of calls, an episode that was started by a reset ends, with probability one, however the
agent chooses its actions from what it was shown so far.  The probability that it goes on for more than `k` steps is at
most `(1 - δ) ^ k`, where `δ > 0` does not depend on the agent, and so the mean number of steps is finite. -/
theorem C131_episodes_end (cfg : EnvCfg ℝ G O P Img F) (n : ℕ) (hc : PlayCfg cfg n) (hf : Fair cfg.sim.rng μ)
    (himg : cfg.requiresImage = true → FairImages cfg.sim.render μ) (hdwell : 0 < (dwellRange cfg.adapter).1)
    (hun : ∀ (ps : List (V2 ℝ)) (D : ℝ), 4 ≤ ps.length → ps.Nodup → ∃ ε B, Unstuck cfg.sim.rate ps D ε B)
    (g0 : G) (ga : Option G) (beam : V2 ℝ) (goal : GoalState ℝ) (hgoal : GoalRangeOk goal) (hreq : goal.required = 1)
    (history : List (EnvOp ℝ O)) (t0 : TimeStep F) (s0 : Env ℝ G O P Img)
    (hs : Env.reset cfg (Env.after cfg (Env.fresh g0 ga beam goal) history) = .ok t0 s0) :
    ∃ δ : ℝ, 0 < δ ∧ ∀ policy : List (TimeStep F) → List ℝ,
      (∀ shown, (policy shown).length = actionSize cfg.adapter) →
      (∀ k, μ {g | ¬ EndsWithin cfg policy k [t0] { s0 with sim := { s0.sim with ctx := { s0.sim.ctx with g := g } } }} ≤
        ENNReal.ofReal ((1 - δ) ^ k)) ∧
      ∑' k, μ {g | ¬ EndsWithin cfg policy k [t0] { s0 with sim := { s0.sim with ctx := { s0.sim.ctx with g := g } } }} ≤
        ENNReal.ofReal (1 / δ) ∧
      μ {g | ¬ ∃ k, EndsWithin cfg policy k [t0]
        { s0 with sim := { s0.sim with ctx := { s0.sim.ctx with g := g } } }} = 0 := by
  obtain ⟨off, ang, hm⟩ := reset_mid hc (after_plays hc history (fresh_plays (O := O) (P := P) (Img := Img) n g0 ga beam hgoal))
    (by rw [after_required]; exact hreq.le) hs
  obtain ⟨ε, B, hu⟩ := hun (layOutSheet n off ang) (2 * spread (layOutSheet n off ang) + 30) (four_atoms hc.wide off ang)
    (C40_honeycomb n off ang).1
  obtain ⟨δ', hδ', hreach⟩ := sheet_histories n off ang hu
  have h0 : 0 < min δ' (1 / 2) := lt_min hδ' (by norm_num)
  have h1 : min δ' (1 / 2) ≤ 1 / 2 := min_le_right _ _
  refine ⟨min δ' (1 / 2), h0, fun policy hpol => ?_⟩
  have hk := fun k => goes_on hc hf himg hdwell h0 (h1.trans (by norm_num)) (fun i j hi hj b d hb h0 hd => by
    obtain ⟨evs, he, hp⟩ := hreach i j hi hj b d hb h0 hd
    exact ⟨evs, he, (min_le_left _ _).trans hp⟩) policy hpol k [t0] s0 hm
  set δ := min δ' (1 / 2) with hδ
  have hq0 : 0 ≤ 1 - δ := by linarith
  have hq1 : 1 - δ < 1 := by linarith
  refine ⟨hk, ?_, ?_⟩
  · refine (ENNReal.tsum_le_tsum hk).trans ?_
    rw [← ENNReal.ofReal_tsum_of_nonneg (fun k => pow_nonneg hq0 k) (summable_geometric_of_lt_one hq0 hq1),
      tsum_geometric_of_lt_one hq0 hq1]
    refine ENNReal.ofReal_le_ofReal (le_of_eq ?_)
    rw [sub_sub_cancel, one_div]
  · refine le_antisymm ?_ zero_le
    have hlim : Filter.Tendsto (fun k : ℕ => ENNReal.ofReal ((1 - δ) ^ k)) Filter.atTop (nhds 0) := by
      have := ENNReal.tendsto_ofReal (tendsto_pow_atTop_nhds_zero_of_lt_one hq0 hq1)
      simpa using this
    refine ge_of_tendsto' hlim fun k => (measure_mono ?_).trans (hk k)
    intro g hg hk
    exact hg ⟨k, hk⟩

end

/-- The hypotheses can be met: the environment of C128 under the human prior's rates, after a history of calls. -/
example (t0 : TimeStep (List ℝ)) (s0 : Env ℝ (ℕ → ℝ) Unit Unit Unit)
    (hs : Env.reset (chanceCfg Unit Unit (fun _ o => o) ()) (Env.after (chanceCfg Unit Unit (fun _ o => o) ())
      (Env.fresh (fun _ => 1) none ⟨0, 0⟩ GoalState.fresh) [.reset, .step [0, 0, 1], .step [5], .seed 3, .step [1, 0, 0]]) =
      .ok t0 s0) :
    Witness.streamLaw {g | ¬ ∃ k, EndsWithin (chanceCfg Unit Unit (fun _ o => o) ())
      (fun shown => [shown.length, 1 / 2, -3]) k [t0]
      { s0 with sim := { s0.sim with ctx := { s0.sim.ctx with g := g } } }} = 0 := by
  obtain ⟨δ, -, h⟩ := C131_episodes_end (chanceCfg Unit Unit (fun _ o => o) ()) 50 (chanceCfg_ok Unit Unit (fun _ o => o) ())
    Witness.streamRng_fair (fun h => by cases h) (show (0 : ℤ) < 1500000 by decide)
    (fun ps D h4 hnd => (C130_unstuck Witness.knn ps h4 hnd D).2.1) (fun _ => 1) none ⟨0, 0⟩ GoalState.fresh
    ⟨by norm_num [GoalState.fresh], by norm_num [GoalState.fresh], by norm_num [GoalState.fresh]⟩ rfl _ t0 s0 hs
  exact (h (fun shown => [shown.length, 1 / 2, -3]) (fun _ => rfl)).2.2

/-- And such resets do return. -/
example : ∃ t0 s0, Env.reset (chanceCfg Unit Unit (fun _ o => o) ()) (Env.after (chanceCfg Unit Unit (fun _ o => o) ())
    (Env.fresh (fun _ => 1) none ⟨0, 0⟩ GoalState.fresh : Env ℝ (ℕ → ℝ) Unit Unit Unit)
      [.reset, .step [0, 0, 1], .step [5], .seed 3, .step [1, 0, 0]]) = .ok t0 s0 :=
  (C99_never_fails (chanceCfg Unit Unit (fun _ o => o) ()) 50 (chanceCfg_ok Unit Unit (fun _ o => o) ()) _ _ _ _
    ⟨by norm_num [GoalState.fresh], by norm_num [GoalState.fresh], by norm_num [GoalState.fresh]⟩ _).1

/-- An environment that shows pictures of noise: each is drawn from the generator. -/
noncomputable def noisyCfg : EnvCfg ℝ (ℕ → ℝ) Unit Unit ℕ (ℕ × V2 ℝ) where
  sim := { (chanceCfg Unit ℕ (fun _ o => o) 0).sim with render := fun _ _ _ g => Witness.streamRng.choiceP [1 / 3, 2 / 3] g }
  adapter := .relative 1500000 10000000 BOND
  features := imageFeatures id
  requiresImage := true
  seedRng := fun _ _ => 0

theorem noisyCfg_images : FairImages noisyCfg.sim.render Witness.streamLaw := by
  have hf := Witness.streamRng_fair
  have hpick : ∀ i, Witness.streamLaw {g | (Witness.streamRng.choiceP [1 / 3, 2 / 3] g).1 = i} =
      ENNReal.ofReal (([1 / 3, 2 / 3] : List ℝ).getD i 0) := by
    intro i
    have := hf.picks [1 / 3, 2 / 3] (by intro p hp; simp at hp; rcases hp with rfl | rfl <;> norm_num) (by norm_num) i
      Set.univ MeasurableSet.univ
    simpa [hf.total] using this
  refine ⟨inferInstance, fun _ _ _ => measurable_snd.comp (hf.picks_measurable _), fun _ _ _ i => ?_, fun _ _ _ i E hE => ?_⟩
  · exact (measurable_fst.comp (hf.picks_measurable [1 / 3, 2 / 3])) (measurableSet_singleton i)
  · have := hf.picks [1 / 3, 2 / 3] (by intro p hp; simp at hp; rcases hp with rfl | rfl <;> norm_num) (by norm_num) i E hE
    refine this.trans ?_
    rw [← hpick i]
    rfl

/-- The hypotheses can be met with pictures, by an agent that looks at them. -/
example (t0 : TimeStep (ℕ × V2 ℝ)) (s0 : Env ℝ (ℕ → ℝ) Unit Unit ℕ)
    (hs : Env.reset noisyCfg (Env.after noisyCfg (Env.fresh (fun _ => 1) none ⟨0, 0⟩ GoalState.fresh)
      [.reset, .step [0, 0, 1]]) = .ok t0 s0) :
    Witness.streamLaw {g | ¬ ∃ k, EndsWithin noisyCfg
      (fun shown => [((shown.map (·.observation.1)).sum : ℕ), 1 / 2, -3]) k [t0]
      { s0 with sim := { s0.sim with ctx := { s0.sim.ctx with g := g } } }} = 0 := by
  have hc : PlayCfg noisyCfg 50 :=
    ⟨Witness.streamRng_lawful, by norm_num, rfl, (C69_features_defined Witness.knn id).2.2,
      C39_pristine_swaps _ _, (C99_rates_defined Witness.knn).2.1,
      show (1500000 : ℤ) ≤ 10000000 by decide, show (10000000 : ℤ) < 3600000000 by decide⟩
  obtain ⟨δ, -, h⟩ := C131_episodes_end noisyCfg 50 hc
    Witness.streamRng_fair (fun _ => noisyCfg_images) (show (0 : ℤ) < 1500000 by decide)
    (fun ps D h4 hnd => (C130_unstuck Witness.knn ps h4 hnd D).2.1) (fun _ => 1) none ⟨0, 0⟩ GoalState.fresh
    ⟨by norm_num [GoalState.fresh], by norm_num [GoalState.fresh], by norm_num [GoalState.fresh]⟩ rfl _ t0 s0 hs
  exact (h (fun shown => [((shown.map (·.observation.1)).sum : ℕ), 1 / 2, -3]) (fun _ => rfl)).2.2

end PD.Props
