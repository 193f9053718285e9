/- Specification for C135: what is recorded of an episode of an environment. -/
import Verif.Spec.SimData
import Verif.Model.Environment

namespace PD.Spec
open PD
variable {G O P Img F : Type}

/-- Steps of an environment within an episode, made from the state `s`: the control listed in the
observation the step led to, the true sheet after the step, and that observation. -/
inductive Acted (cfg : EnvCfg ℝ G O P Img F) :
    Env ℝ G O P Img → List (BeamControl ℝ × Grid ℝ × Observation ℝ Img) → Prop
  | done (s) : Acted cfg s []
  | act {s s' t c sheet rest} (action : List ℝ) (hs : s.requiresReset = false)
      (h : Env.step cfg action s = .ok t s') (hc : s'.last.controls = [c])
      (hg : s'.sim.ctx.mat.grid = some sheet) (hr : Acted cfg s' rest) :
      Acted cfg s ((c, sheet, s'.last) :: rest)

/-- What is recorded of an episode: the true sheet at its start, the first observation, and the steps. -/
structure PlayedEpisode (Img : Type) where
  sheet : Grid ℝ
  first : Observation ℝ Img
  steps : List (BeamControl ℝ × Grid ℝ × Observation ℝ Img)

/-- The observations of an episode. -/
def PlayedEpisode.trajectory (e : PlayedEpisode Img) : List (Observation ℝ Img) :=
  e.first :: e.steps.map (fun x => x.2.2)

/-- An episode of the environment, or the beginning of one: any history of a new environment, then a
reset, then steps. -/
def PlayedIn (cfg : EnvCfg ℝ G O P Img F) (e : PlayedEpisode Img) : Prop :=
  ∃ g ga beam goal history t s,
    Env.reset cfg (Env.after cfg (Env.fresh g ga beam goal) history) = .ok t s ∧
    s.sim.ctx.mat.grid = some e.sheet ∧ s.last = e.first ∧ Acted cfg s e.steps

/-- The beam of the package's own adapters: 60 kV and 0.1 nA. -/
def UsualBeam (voltage current : Option ℝ) : Prop := voltage = some 60 ∧ current = some (1 / 10)

end PD.Spec
