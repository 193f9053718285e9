/- Running without observers gives the same results: the simulation lemma behind C15. -/
import Verif.Lemmas.Simulator

set_option linter.unusedSectionVars false
set_option linter.unusedSimpArgs false

namespace PD
open PD.Spec
variable {K G O P Img : Type} [Field K] [LinearOrder K] [IsStrictOrderedRing K] [FloorRing K]

/-- The same material and generator without observers. -/
def MatCtx.unobserved (s : MatCtx K G O) : MatCtx K G Unit := ⟨s.g, s.mat, []⟩

/-- The same simulator without observers. -/
def Sim.unobserved (s : Sim K G O P) : Sim K G Unit P :=
  ⟨s.ctx.unobserved, s.hasBeenReset, s.fovScale, s.fov, s.imageParams⟩

/-- The same collaborators; observers (there are none) do nothing. -/
def SimCfg.unobserved (cfg : SimCfg K G O P Img) : SimCfg K G Unit P Img :=
  ⟨cfg.rng, fun _ _ => (), cfg.rate, cfg.generate, cfg.fuel, cfg.imageDuration, cfg.sampleParams,
    cfg.render⟩

/-- Map the state of a result. -/
def mapState {ε σ τ α : Type} (f : σ → τ) : EStateM.Result ε σ α → EStateM.Result ε τ α
  | .ok a s => .ok a (f s)
  | .error e s => .error e (f s)

theorem applyLoop_unobserved (rng : Rng K G) (handle : Event K Img → O → O)
    (handle' : Event K Img → Unit → Unit) (rate : RateFunction K)
    (c : BeamControl K) (fuel : ℕ) (el : Timedelta) (s : MatCtx K G O) :
    mapState MatCtx.unobserved (applyLoop rng handle rate c fuel el s) =
      applyLoop rng handle' rate c fuel el s.unobserved := by
  induction fuel generalizing el s with
  | zero =>
    rw [applyLoop, applyLoop]
    split_ifs <;> rfl
  | succ fuel ih =>
    rw [applyLoop, applyLoop]
    by_cases h : el < c.dwellTime
    swap
    · simp only [h, if_false]; rfl
    simp only [h, if_true]
    have hm : s.unobserved.mat = s.mat := rfl
    have hgg : s.unobserved.g = s.g := rfl
    rw [hm, hgg]
    cases s.mat.read with
    | error e => rfl
    | ok grid =>
      simp only
      cases rate grid c.position with
      | error e => rfl
      | ok ss =>
        simp only
        cases drawTransitionTime rng ss s.g with
        | error e => rfl
        | ok tg =>
          obtain ⟨t, g⟩ := tg
          simp only
          by_cases hle : el + t ≤ c.dwellTime
          swap
          · simp only [hle, if_false]
            rw [ih]; rfl
          · simp only [hle, if_true, performTransition]
            split_ifs with h0
            · rfl
            · cases ss[(rng.choiceP (ss.map (fun x => x.rate / totalRate ss)) g).1]? with
              | none => rfl
              | some next => simp only; rw [ih]; rfl

theorem applyControl_unobserved (rng : Rng K G) (handle : Event K Img → O → O)
    (handle' : Event K Img → Unit → Unit) (rate : RateFunction K)
    (c : BeamControl K) (fuel : ℕ) (s : MatCtx K G O) :
    mapState MatCtx.unobserved (Material.applyControl rng handle rate fuel c s) =
      Material.applyControl rng handle' rate fuel c s.unobserved := by
  unfold Material.applyControl
  have hm : s.unobserved.mat = s.mat := rfl
  rw [hm]
  split_ifs
  · exact applyLoop_unobserved ..
  · rfl

theorem applyControls_unobserved (cfg : SimCfg K G O P Img) (fov : Fov K)
    (cs : List (BeamControl K)) (el : Timedelta) (s : MatCtx K G O) :
    mapState MatCtx.unobserved (applyControls cfg fov cs el s) =
      applyControls cfg.unobserved fov cs el s.unobserved := by
  induction cs generalizing el s with
  | nil => rfl
  | cons c cs ih =>
    rw [applyControls, applyControls]
    simp only
    have this : _ = Material.applyControl cfg.unobserved.rng cfg.unobserved.handle
        cfg.unobserved.rate cfg.unobserved.fuel
        (BeamControl.mk' (fov.toMaterial c.position) c.dwellTime) ⟨s.unobserved.g, s.unobserved.mat,
          notify cfg.unobserved.handle (.applyControl
          (BeamControl.mk' (fov.toMaterial c.position) c.dwellTime)) s.unobserved.obs⟩ :=
      applyControl_unobserved cfg.rng cfg.handle cfg.unobserved.handle cfg.rate
      (BeamControl.mk' (fov.toMaterial c.position) c.dwellTime) cfg.fuel
      ⟨s.g, s.mat, notify cfg.handle
        (.applyControl (BeamControl.mk' (fov.toMaterial c.position) c.dwellTime)) s.obs⟩
    rw [← this]
    cases Material.applyControl cfg.rng cfg.handle cfg.rate cfg.fuel
      (BeamControl.mk' (fov.toMaterial c.position) c.dwellTime)
      ⟨s.g, s.mat, notify cfg.handle
        (.applyControl (BeamControl.mk' (fov.toMaterial c.position) c.dwellTime)) s.obs⟩ with
    | error e s2 => rfl
    | ok u s2 => exact ih _ _

theorem observe_unobserved (cfg : SimCfg K G O P Img) (fov : Fov K) (s : Sim K G O P) :
    mapState Sim.unobserved (Sim.observe cfg fov s) = Sim.observe cfg.unobserved fov s.unobserved := by
  unfold Sim.observe
  have hm : s.unobserved.ctx.mat = s.ctx.mat := rfl
  rw [hm]
  cases s.ctx.mat.getAtomsInBounds fov.lowerLeft fov.upperRight <;> rfl

theorem maybeImage_unobserved (cfg : SimCfg K G O P Img) (b : Bool) (grid : Grid K) (fov : Fov K)
    (s : Sim K G O P) :
    mapState Sim.unobserved (Sim.maybeImage cfg b grid fov s) =
      Sim.maybeImage cfg.unobserved b grid fov s.unobserved := by
  obtain ⟨⟨g, mat, obs⟩, flag, scl, fv, prm⟩ := s
  cases b
  · rfl
  · cases prm <;> rfl

theorem recentre_unobserved (cfg : SimCfg K G O P Img) (fov : Fov K) (grid : Grid K) (el : Timedelta)
    (s : Sim K G O P) :
    mapState Sim.unobserved (Sim.recentre cfg fov grid el s) =
      Sim.recentre cfg.unobserved fov grid el s.unobserved := by
  obtain ⟨⟨g, mat, obs⟩, flag, scl, fv, prm⟩ := s
  simp only [Sim.recentre, Sim.unobserved, MatCtx.unobserved]
  cases siliconOutsideOfSafeArea grid with
  | error e => rfl
  | ok b =>
    cases b
    · rfl
    simp only
    cases mat.getSiliconPosition with
    | error e => rfl
    | ok si =>
      simp only
      cases scl with
      | none => rfl
      | some sc =>
        simp only
        have this : _ = Sim.observe cfg.unobserved (centredFov si sc)
            ⟨⟨g, mat, notify cfg.unobserved.handle (.fovChange (centredFov si sc)) []⟩,
            flag, some sc, some (centredFov si sc), prm⟩ :=
          observe_unobserved cfg (centredFov si sc)
            ⟨⟨g, mat, notify cfg.handle (.fovChange (centredFov si sc)) obs⟩,
            flag, some sc, some (centredFov si sc), prm⟩
        rw [← this]
        cases Sim.observe cfg (centredFov si sc)
            ⟨⟨g, mat, notify cfg.handle (.fovChange (centredFov si sc)) obs⟩,
            flag, some sc, some (centredFov si sc), prm⟩ <;> rfl

theorem step_unobserved (cfg : SimCfg K G O P Img) (cs : List (BeamControl K)) (b : Bool)
    (s : Sim K G O P) :
    mapState Sim.unobserved (Sim.step cfg cs b s) = Sim.step cfg.unobserved cs b s.unobserved := by
  obtain ⟨ctx, flag, scl, fv, prm⟩ := s
  cases flag
  · rfl
  cases fv with
  | none => rfl
  | some fov =>
    simp only [Sim.step, Sim.unobserved, if_true]
    rw [← applyControls_unobserved]
    cases applyControls cfg fov cs 0 ctx with
    | error e c => rfl
    | ok el c =>
      simp only [mapState]
      have h1 : _ = Sim.observe cfg.unobserved fov ⟨c.unobserved, true, scl, some fov, prm⟩ :=
        observe_unobserved cfg fov ⟨c, true, scl, some fov, prm⟩
      rw [← h1]
      cases Sim.observe cfg fov ⟨c, true, scl, some fov, prm⟩ with
      | error e s1 => rfl
      | ok grid s1 =>
        simp only [mapState]
        have h2 : _ = Sim.recentre cfg.unobserved fov grid (el + cfg.unobserved.imageDuration)
          s1.unobserved := recentre_unobserved cfg fov grid (el + cfg.imageDuration) s1
        rw [← h2]
        cases Sim.recentre cfg fov grid (el + cfg.imageDuration) s1 with
        | error e s2 => rfl
        | ok r s2 =>
          obtain ⟨grid', fov', el'⟩ := r
          simp only [mapState]
          rw [← maybeImage_unobserved]
          cases Sim.maybeImage cfg b grid' fov' s2 <;> rfl

theorem reset_unobserved (cfg : SimCfg K G O P Img) (b : Bool) (s : Sim K G O P) :
    mapState Sim.unobserved (Sim.reset cfg b s) = Sim.reset cfg.unobserved b s.unobserved := by
  obtain ⟨⟨g, mat, obs⟩, flag, scl, fv, prm⟩ := s
  have hm : mapState MatCtx.unobserved (Material.reset cfg.generate (⟨g, mat, obs⟩ : MatCtx K G O)) =
      Material.reset cfg.unobserved.generate ⟨g, mat, []⟩ := by
    unfold Material.reset
    simp only
    show _ = (match dopeSheet (cfg.generate g).1 with | .error e => _ | .ok grid => _)
    cases dopeSheet (cfg.generate g).1 <;> rfl
  simp only [Sim.reset, Sim.unobserved, MatCtx.unobserved]
  rw [← hm]
  cases Material.reset cfg.generate (⟨g, mat, obs⟩ : MatCtx K G O) with
  | error e c => rfl
  | ok u c =>
    obtain ⟨g, mat, obs⟩ := c
    simp only [mapState, MatCtx.unobserved]
    cases mat.getSiliconPosition with
    | error e => rfl
    | ok si =>
      simp only
      cases hg : mat.grid with
      | none => rfl
      | some sheet =>
        simp only
        have hr : cfg.unobserved.rng = cfg.rng := rfl
        rw [hr]
        generalize centredFov si (cfg.rng.uniform 15 30 g).1 = F
        have h1 : _ = Sim.observe cfg.unobserved F ⟨⟨(cfg.rng.uniform 15 30 g).2, mat,
            List.map (fun o => cfg.unobserved.handle (.fovChange F)
              (cfg.unobserved.handle (.reset sheet F) o)) []⟩,
            true, some (cfg.rng.uniform 15 30 g).1, some F, prm⟩ :=
          observe_unobserved cfg F ⟨⟨(cfg.rng.uniform 15 30 g).2, mat,
            List.map (fun o => cfg.handle (.fovChange F) (cfg.handle (.reset sheet F) o)) obs⟩,
            true, some (cfg.rng.uniform 15 30 g).1, some F, prm⟩
        rw [← h1]
        cases Sim.observe cfg F ⟨⟨(cfg.rng.uniform 15 30 g).2, mat,
            List.map (fun o => cfg.handle (.fovChange F) (cfg.handle (.reset sheet F) o)) obs⟩,
            true, some (cfg.rng.uniform 15 30 g).1, some F, prm⟩ with
        | error e s5 => rfl
        | ok grid s5 =>
          obtain ⟨⟨g, mat, obs⟩, flag, scl, fv, prm⟩ := s5
          simp only [mapState, Sim.unobserved, MatCtx.unobserved]
          have h2 : _ = Sim.maybeImage cfg.unobserved b grid F
              ⟨⟨(cfg.unobserved.sampleParams g).2, mat, []⟩, flag, scl, fv,
                some (cfg.unobserved.sampleParams g).1⟩ :=
            maybeImage_unobserved cfg b grid F ⟨⟨(cfg.sampleParams g).2, mat, obs⟩, flag, scl, fv,
              some (cfg.sampleParams g).1⟩
          rw [← h2]
          cases Sim.maybeImage cfg b grid F ⟨⟨(cfg.sampleParams g).2, mat, obs⟩, flag, scl, fv,
              some (cfg.sampleParams g).1⟩ <;> rfl

end PD
