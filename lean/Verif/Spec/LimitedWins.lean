/- Winning within a step limit. -/
import Verif.Spec.DeclaredWins

namespace PD.Spec
open PD

variable {G O P Img F : Type}

/-- What a call leaves of an environment with a step limit, whether it returned or raised.  Calls other than `reset` and `step`
go to the environment inside. -/
noncomputable def limitedCall (cfg : EnvCfg ℝ G O P Img F) (limit : ℤ) (w : Env ℝ G O P Img × ℤ) :
    EnvOp ℝ O → Env ℝ G O P Img × ℤ
  | .reset => match (stepLimit (Env.like cfg) (some limit)).reset w with | .ok _ w' => w' | .error _ w' => w'
  | .step a => match (stepLimit (Env.like cfg) (some limit)).step a w with | .ok _ w' => w' | .error _ w' => w'
  | op => (Env.exec cfg w.1 op, w.2)

/-- What a history of calls leaves. -/
noncomputable def limitedAfter (cfg : EnvCfg ℝ G O P Img F) (limit : ℤ) (w : Env ℝ G O P Img × ℤ) (history : List (EnvOp ℝ O)) :
    Env ℝ G O P Img × ℤ := history.foldl (limitedCall cfg limit) w

/-- As `WonDeclared`, with the calls going through the step limit. -/
inductive WonLimited (cfg : EnvCfg ℝ G O P Img F) (limit : ℤ) : Env ℝ G O P Img × ℤ → List (V2 ℝ) → Prop where
  | last {w w' : Env ℝ G O P Img × ℤ} {x p : V2 ℝ} {path : List (V2 ℝ)} {fuel : ℕ} {t : TimeStep F}
      (seen : silicons w.1.last.grid = [x]) (declared : Declared cfg.adapter (aimedAction cfg.adapter w.1.last x p))
      (returned : (stepLimit (Env.like (withFuel cfg fuel)) (some limit)).step (aimedAction cfg.adapter w.1.last x p) w = .ok t w')
      (ends : t.stepType = .last) (discount : t.discount = 0) (reward : t.reward = gammaPow w'.1.last.elapsedTime)
      (goal : AtGoal w.1.goal.goal w'.1.last) : WonLimited cfg limit w (p :: path)
  | more {w w' : Env ℝ G O P Img × ℤ} {x p : V2 ℝ} {path : List (V2 ℝ)} {fuel : ℕ} {t : TimeStep F}
      (seen : silicons w.1.last.grid = [x]) (declared : Declared cfg.adapter (aimedAction cfg.adapter w.1.last x p))
      (returned : (stepLimit (Env.like (withFuel cfg fuel)) (some limit)).step (aimedAction cfg.adapter w.1.last x p) w = .ok t w')
      (goesOn : t.stepType = .mid) (reward : t.reward = 0) (same : w'.1.goal.goal = w.1.goal.goal)
      (rest : WonLimited cfg limit w' path) : WonLimited cfg limit w (p :: path)

end PD.Spec
