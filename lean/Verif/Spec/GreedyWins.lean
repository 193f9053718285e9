/- An agent that wins an episode. -/
import Verif.Spec.Winning

namespace PD.Spec
open PD

variable {G O P Img A : Type}

/-- An agent that is shown the observation of each time step, and whose action is then passed to the environment, wins the
episode within so many steps: each step returns, with the reward zero in the middle of the episode, and a last time step with
the discounted reward comes. -/
inductive AgentWins (cfg : EnvCfg ℝ G O P Img (List ℝ)) (act : List ℝ → EStateM Err A (V2 ℝ)) :
    ℕ → Env ℝ G O P Img → A → List ℝ → Prop where
  | last {m : ℕ} {s s' : Env ℝ G O P Img} {a a' : A} {obs : List ℝ} {v : V2 ℝ} {fuel : ℕ} {t : TimeStep (List ℝ)}
      (acts : act obs a = .ok v a') (returned : Env.step (withFuel cfg fuel) [v.x, v.y] s = .ok t s')
      (ends : t.stepType = .last) (discount : t.discount = 0) (reward : t.reward = gammaPow s'.last.elapsedTime)
      (goal : AtGoal s.goal.goal s'.last) : AgentWins cfg act (m + 1) s a obs
  | more {m : ℕ} {s s' : Env ℝ G O P Img} {a a' : A} {obs : List ℝ} {v : V2 ℝ} {fuel : ℕ} {t : TimeStep (List ℝ)}
      (acts : act obs a = .ok v a') (returned : Env.step (withFuel cfg fuel) [v.x, v.y] s = .ok t s')
      (goesOn : t.stepType = .mid) (reward : t.reward = 0) (same : s'.goal.goal = s.goal.goal)
      (rest : AgentWins cfg act m s' a' t.observation) : AgentWins cfg act (m + 1) s a obs

end PD.Spec
