/- Winning with declared actions. -/
import Verif.Spec.Winning

namespace PD.Spec
open PD

variable {G O P Img F : Type}

/-- The action is one the adapter declares. -/
def Declared (adapter : Adapter ℝ) (action : List ℝ) : Prop :=
  List.Forall₂ (fun a range => range.1 ≤ a ∧ a ≤ range.2) action adapter.actionSpec

/-- The fraction `d` of the largest distance, or the nearest end of the range from -1 to 1. -/
noncomputable def cutFraction (d largest : ℝ) : ℝ := max (-1) (min 1 (d / largest))

/-- The action by which the beam is moved from the silicon at `x` in the image `o` to the place `p`, as far as it goes:
fractions of the largest distance, with the shortest dwell time if there is a choice, or the place in the image. -/
noncomputable def aimedAction : Adapter ℝ → Observation ℝ Img → V2 ℝ → V2 ℝ → List ℝ
  | .relative shortest longest largest, o, x, p => [cutFraction (p.x - (place o x).x) largest,
      cutFraction (p.y - (place o x).y) largest] ++ if shortest = longest then [] else [0]
  | .direct, o, _, p => [(p.x - o.fov.lowerLeft.x) / (o.fov.upperRight.x - o.fov.lowerLeft.x),
      (p.y - o.fov.lowerLeft.y) / (o.fov.upperRight.y - o.fov.lowerLeft.y)]
  | _, o, x, p => actionTo o x p

/-- The adapters with declared actions that reach every neighbour, and their shortest dwell time. -/
def Reaching (adapter : Adapter ℝ) (dwell : Timedelta) : Prop :=
  (∃ longest largest, 142 / 100 ≤ largest ∧ adapter = .relative dwell longest largest) ∨ adapter = .direct ∧ dwell = 1500000

/-- A player who aims at one atom of the path after the other wins the episode with declared actions: each step returns, with
the reward zero in the middle of the episode, and a last time step with the discounted reward comes before the path has
ended. -/
inductive WonDeclared (cfg : EnvCfg ℝ G O P Img F) : Env ℝ G O P Img → List (V2 ℝ) → Prop where
  | last {s s' : Env ℝ G O P Img} {x p : V2 ℝ} {path : List (V2 ℝ)} {fuel : ℕ} {t : TimeStep F}
      (seen : silicons s.last.grid = [x]) (declared : Declared cfg.adapter (aimedAction cfg.adapter s.last x p))
      (returned : Env.step (withFuel cfg fuel) (aimedAction cfg.adapter s.last x p) s = .ok t s')
      (ends : t.stepType = .last) (discount : t.discount = 0) (reward : t.reward = gammaPow s'.last.elapsedTime)
      (goal : AtGoal s.goal.goal s'.last) : WonDeclared cfg s (p :: path)
  | more {s s' : Env ℝ G O P Img} {x p : V2 ℝ} {path : List (V2 ℝ)} {fuel : ℕ} {t : TimeStep F}
      (seen : silicons s.last.grid = [x]) (declared : Declared cfg.adapter (aimedAction cfg.adapter s.last x p))
      (returned : Env.step (withFuel cfg fuel) (aimedAction cfg.adapter s.last x p) s = .ok t s')
      (goesOn : t.stepType = .mid) (reward : t.reward = 0) (same : s'.goal.goal = s.goal.goal)
      (rest : WonDeclared cfg s' path) : WonDeclared cfg s (p :: path)

end PD.Spec
