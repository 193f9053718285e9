/- Winning an episode. -/
import Verif.Spec.Leading
import Verif.Spec.Goal
import Verif.Model.Environment

namespace PD.Spec
open PD

variable {G O P Img F : Type}

/-- The environment with another bound for the rounds of the loop over transitions. -/
def withFuel (cfg : EnvCfg ℝ G O P Img F) (fuel : ℕ) : EnvCfg ℝ G O P Img F :=
  { cfg with sim := { cfg.sim with fuel := fuel } }

/-- The action, in the material frame, that moves the beam from the silicon at `x` in the image `o` to the place `p`. -/
noncomputable def actionTo (o : Observation ℝ Img) (x p : V2 ℝ) : List ℝ := [p.x - (place o x).x, p.y - (place o x).y]

/-- A player who aims at one atom of the path after the other, from the silicon seen in the last observation, wins the
episode: each step returns, with the reward zero in the middle of the episode, and a last time step with the discounted
reward comes before the path has ended. -/
inductive Won (cfg : EnvCfg ℝ G O P Img F) : Env ℝ G O P Img → List (V2 ℝ) → Prop where
  | last {s s' : Env ℝ G O P Img} {x p : V2 ℝ} {path : List (V2 ℝ)} {fuel : ℕ} {t : TimeStep F}
      (seen : silicons s.last.grid = [x])
      (returned : Env.step (withFuel cfg fuel) (actionTo s.last x p) s = .ok t s')
      (ends : t.stepType = .last) (discount : t.discount = 0) (reward : t.reward = gammaPow s'.last.elapsedTime)
      (goal : AtGoal s.goal.goal s'.last) : Won cfg s (p :: path)
  | more {s s' : Env ℝ G O P Img} {x p : V2 ℝ} {path : List (V2 ℝ)} {fuel : ℕ} {t : TimeStep F}
      (seen : silicons s.last.grid = [x])
      (returned : Env.step (withFuel cfg fuel) (actionTo s.last x p) s = .ok t s')
      (goesOn : t.stepType = .mid) (reward : t.reward = 0) (same : s'.goal.goal = s.goal.goal)
      (rest : Won cfg s' path) : Won cfg s (p :: path)

/-- The environment with another state of its random generator. -/
def reseeded (s : Env ℝ G O P Img) (g : G) : Env ℝ G O P Img := { s with sim := seeded s.sim g }

end PD.Spec
