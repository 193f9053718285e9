/- Nothing the simulator or the environment does adds, removes or reorders observers: whatever
handling an event preserves about an observer is preserved by every operation. -/
import Verif.Lemmas.EnvErase

set_option linter.unusedSectionVars false
set_option linter.unusedSimpArgs false

namespace PD
open PD.Spec
variable {K G O P Img F T : Type} [Field K] [LinearOrder K] [IsStrictOrderedRing K] [FloorRing K]

/-- `tag` is a property of observers that handling an event does not change. -/
def Keeps (handle : Event K Img → O → O) (tag : O → T) : Prop := ∀ e o, tag (handle e o) = tag o

theorem Keeps.notify {handle : Event K Img → O → O} {tag : O → T} (h : Keeps handle tag)
    (e : Event K Img) (os : List O) : (PD.notify handle e os).map tag = os.map tag := by
  simp [PD.notify, Function.comp_def, h e]

theorem Keeps.observeAll {handle : Event K Img → O → O} {tag : O → T} (h : Keeps handle tag)
    (evs : List (Event K Img)) (o : O) : tag (PD.Spec.observeAll handle evs o) = tag o := by
  induction evs generalizing o with
  | nil => rfl
  | cons e evs ih => simpa [PD.Spec.observeAll, h e] using ih (handle e o)

theorem applyControl_tags {handle : Event K Img → O → O} {tag : O → T} (h : Keeps handle tag)
    (rng : Rng K G) (rate : RateFunction K) (fuel : ℕ) (c : BeamControl K) (s : MatCtx K G O) :
    (endState (Material.applyControl rng handle rate fuel c s)).obs.map tag = s.obs.map tag := by
  unfold Material.applyControl
  split_ifs
  · obtain ⟨evs, ht⟩ := applyLoop_trace rng handle rate c fuel 0 s
    rw [ht.obs]
    simp only [List.map_map]
    apply List.map_congr_left
    intro o _
    simp only [Function.comp]
    exact h.observeAll _ o
  · rfl

theorem applyControls_tags {cfg : SimCfg K G O P Img} {tag : O → T} (h : Keeps cfg.handle tag)
    (fov : Fov K) (cs : List (BeamControl K)) (el : Timedelta) (s : MatCtx K G O) :
    (endState (applyControls cfg fov cs el s)).obs.map tag = s.obs.map tag := by
  induction cs generalizing el s with
  | nil => rfl
  | cons c cs ih =>
    simp only [applyControls]
    have h1 := applyControl_tags h cfg.rng cfg.rate cfg.fuel
      (BeamControl.mk' (fov.toMaterial c.position) c.dwellTime)
      { s with obs := notify cfg.handle (.applyControl (BeamControl.mk' (fov.toMaterial c.position) c.dwellTime)) s.obs }
    rw [h.notify] at h1
    split
    · rename_i e s2 hs; rw [hs] at h1; exact h1
    · rename_i s2 hs; rw [hs] at h1; rw [ih]; exact h1

theorem observe_tags {cfg : SimCfg K G O P Img} {tag : O → T} (h : Keeps cfg.handle tag)
    (fov : Fov K) (s : Sim K G O P) :
    (endState (Sim.observe cfg fov s)).ctx.obs.map tag = s.ctx.obs.map tag := by
  unfold Sim.observe
  split
  · rfl
  · exact h.notify _ _

theorem maybeImage_tags {cfg : SimCfg K G O P Img} {tag : O → T} (h : Keeps cfg.handle tag)
    (b : Bool) (grid : Grid K) (fov : Fov K) (s : Sim K G O P) :
    (endState (Sim.maybeImage cfg b grid fov s)).ctx.obs.map tag = s.ctx.obs.map tag := by
  unfold Sim.maybeImage
  split_ifs
  · split
    · rfl
    · exact h.notify _ _
  · rfl

theorem recentre_tags {cfg : SimCfg K G O P Img} {tag : O → T} (h : Keeps cfg.handle tag)
    (fov : Fov K) (grid : Grid K) (el : Timedelta) (s : Sim K G O P) :
    (endState (Sim.recentre cfg fov grid el s)).ctx.obs.map tag = s.ctx.obs.map tag := by
  unfold Sim.recentre
  split
  · rfl
  · rfl
  · split
    · rfl
    · split
      · rfl
      · rename_i si _ _ sc _
        have h1 := observe_tags h (centredFov si sc) { s with fov := some (centredFov si sc), ctx := { s.ctx with
          obs := notify cfg.handle (.fovChange (centredFov si sc)) s.ctx.obs } }
        rw [h.notify] at h1
        dsimp only
        split
        · rename_i e s2 hs; rw [hs] at h1; exact h1
        · rename_i g s2 hs; rw [hs] at h1; exact h1

theorem simStep_tags {cfg : SimCfg K G O P Img} {tag : O → T} (h : Keeps cfg.handle tag)
    (cs : List (BeamControl K)) (b : Bool) (s : Sim K G O P) :
    (endState (Sim.step cfg cs b s)).ctx.obs.map tag = s.ctx.obs.map tag := by
  unfold Sim.step
  split_ifs
  swap
  · rfl
  split
  · rfl
  · rename_i fov _
    have h1 := applyControls_tags h fov cs 0 s.ctx
    split
    · rename_i e c hc; rw [hc] at h1; exact h1
    · rename_i el c hc
      rw [hc] at h1
      have h2 := observe_tags h fov { s with ctx := c }
      split
      · rename_i e s1 hs1; rw [hs1] at h2; exact h2.trans h1
      · rename_i grid s1 hs1
        rw [hs1] at h2
        have h3 := recentre_tags h fov grid (el + cfg.imageDuration) s1
        split
        · rename_i e s2 hs2; rw [hs2] at h3; exact h3.trans (h2.trans h1)
        · rename_i grid' fov' el' s2 hs2
          rw [hs2] at h3
          have h4 := maybeImage_tags h b grid' fov' s2
          split
          · rename_i e s3 hs3; rw [hs3] at h4; exact h4.trans (h3.trans (h2.trans h1))
          · rename_i img s3 hs3; rw [hs3] at h4; exact h4.trans (h3.trans (h2.trans h1))

theorem observe_tags' {cfg : SimCfg K G O P Img} {tag : O → T} (h : Keeps cfg.handle tag)
    {fov : Fov K} {s s' : Sim K G O P} {r : EStateM.Result Err (Sim K G O P) (Grid K)}
    (hr : Sim.observe cfg fov s = r) (hs : endState r = s') :
    s'.ctx.obs.map tag = s.ctx.obs.map tag := by
  rw [← hs, ← hr]; exact observe_tags h fov s

theorem maybeImage_tags' {cfg : SimCfg K G O P Img} {tag : O → T} (h : Keeps cfg.handle tag)
    {b : Bool} {grid : Grid K} {fov : Fov K} {s s' : Sim K G O P}
    {r : EStateM.Result Err (Sim K G O P) (Option Img)}
    (hr : Sim.maybeImage cfg b grid fov s = r) (hs : endState r = s') :
    s'.ctx.obs.map tag = s.ctx.obs.map tag := by
  rw [← hs, ← hr]; exact maybeImage_tags h b grid fov s

theorem simReset_tags {cfg : SimCfg K G O P Img} {tag : O → T} (h : Keeps cfg.handle tag)
    (b : Bool) (s : Sim K G O P) :
    (endState (Sim.reset cfg b s)).ctx.obs.map tag = s.ctx.obs.map tag := by
  unfold Sim.reset
  dsimp only
  have h0 : (endState (Material.reset cfg.generate s.ctx)).obs = s.ctx.obs := by
    unfold Material.reset
    dsimp only
    split <;> rfl
  split
  · rename_i e c hc; rw [hc] at h0; simp only [endState] at h0 ⊢; rw [h0]
  · rename_i c hc
    rw [hc] at h0
    simp only [endState] at h0
    split
    · simp only [endState]; rw [h0]
    · split
      · simp only [endState]; rw [h0]
      · rename_i si _ _ sheet hsh
        split
        · rename_i e s5 hs5
          have h1 := observe_tags' h hs5 rfl
          simp only [endState] at h1 ⊢
          rw [h1]
          simp [Function.comp_def, h _, h0]
        · rename_i grid s5 hs5
          have h1 := observe_tags' h hs5 rfl
          simp only [endState] at h1
          split
          · rename_i e s7 hs7
            have h2 := maybeImage_tags' h hs7 rfl
            simp only [endState] at h2 ⊢
            rw [h2, h1]
            simp [Function.comp_def, h _, h0]
          · rename_i img s7 hs7
            have h2 := maybeImage_tags' h hs7 rfl
            simp only [endState] at h2 ⊢
            rw [h2, h1]
            simp [Function.comp_def, h _, h0]

theorem envReset_tags {cfg : EnvCfg K G O P Img F} {tag : O → T} (h : Keeps cfg.sim.handle tag)
    (s : Env K G O P Img) :
    (endState (Env.reset cfg s)).sim.ctx.obs.map tag = s.sim.ctx.obs.map tag := by
  rw [envReset_eq]
  have h1 := simReset_tags h cfg.requiresImage s.sim
  split
  · rename_i e sim hs; rw [hs] at h1; exact h1
  · rename_i o sim hs
    rw [hs] at h1
    have hq : ∀ x : Env K G O P Img, (Env.resetAdapter cfg x).sim.ctx.obs = x.sim.ctx.obs := by
      intro x; unfold Env.resetAdapter; split <;> rfl
    unfold Env.resetTail
    split
    · simp only [endState, hq]; exact h1
    · dsimp only
      split <;> (simp only [endState, hq]; exact h1)

theorem envStep_tags {cfg : EnvCfg K G O P Img F} {tag : O → T} (h : Keeps cfg.sim.handle tag)
    (a : List K) (s : Env K G O P Img) :
    (endState (Env.step cfg a s)).sim.ctx.obs.map tag = s.sim.ctx.obs.map tag := by
  rw [envStep_eq]
  split_ifs
  · exact envReset_tags h s
  · split
    · rfl
    · rename_i cs beam _
      unfold Env.stepTail
      have h1 := simStep_tags h cs cfg.requiresImage s.sim
      split
      · rename_i e sim hs
        simp only at hs
        rw [hs] at h1; exact h1
      · rename_i o sim hs
        simp only at hs
        rw [hs] at h1
        dsimp only
        split
        · exact h1
        · split
          · exact h1
          · split_ifs <;> exact h1

end PD
