/- Specification vocabulary for the microscope agent and its logger. -/
import Verif.Spec.Goal
import Verif.Model.MicroscopeAgent

namespace PD.Spec
variable {K G Img F α : Type} [Field K] [LinearOrder K] [FloorRing K]

/-- The same set-up with an agent that also writes down every time step it is shown. -/
def recording (cfg : MicroCfg K G Img F α) : MicroCfg K G Img F (α × List (AgentStep F)) where
  rng := cfg.rng
  adapter := cfg.adapter
  features := cfg.features
  agentStep := fun ts s => match cfg.agentStep ts s.1 with
    | .ok action a => .ok action (a, s.2 ++ [ts])
    | .error e a => .error e (a, s.2 ++ [ts])

/-- Some call returned controls for an observation that showed a silicon. -/
def SomeActedOn (os : List (Observation K Img)) (rs : List (Except Err (List (BeamControl K)))) :
    Prop :=
  ∃ p ∈ os.zip rs, ShowsSilicon p.1 ∧ ∃ c, p.2 = .ok c

/-- The features of `o` exist exactly when it shows a silicon, whatever the goal. -/
def FeaturesFollowSilicon (features : Observation K Img → AnyGoal K → Except Err F)
    (o : Observation K Img) : Prop :=
  ∀ goal : GoalState K,
    (ShowsSilicon o → ∃ f, features o (.singleSilicon goal) = .ok f) ∧
    (¬ ShowsSilicon o → features o (.singleSilicon goal) = .error .siliconNotFound)

/-- A history split at its resets: for each stretch the observations for which `step` returned
controls, `cur` being what has been collected so far in the present stretch. -/
def stretches (cur : List (Observation K Img)) :
    List (AgentOp K G Img) → List (AgentOut K G) → List (List (Observation K Img))
  | .reset _ _ :: ops, _ :: outs => cur :: stretches [] ops outs
  | .step o :: ops, .step _ :: outs => stretches (cur ++ [o]) ops outs
  | _ :: ops, _ :: outs => stretches cur ops outs
  | _, _ => [cur]

/-- The observations for which `step` returned controls, in order. -/
def actedOn : List (AgentOp K G Img) → List (AgentOut K G) → List (Observation K Img)
  | .step o :: ops, .step _ :: outs => o :: actedOn ops outs
  | _ :: ops, _ :: outs => actedOn ops outs
  | _, _ => []

/-- No call in the history is a flush. -/
def NoFlush (ops : List (AgentOp K G Img)) : Prop := ∀ op ∈ ops, op ≠ .flush

/-- The part of a step record that says which observation it is about. -/
def StepRecord.key (r : StepRecord) : ℕ × ℕ × Timedelta := (r.episode, r.episodeStep, r.elapsed)

/-- The step records that trajectories call for: episode `i` (from 0), step `j` (from 1), and the
elapsed time of the `j`-th observation of the `i`-th trajectory. -/
def stepKeys (ts : List (List (Observation K Img))) : List (ℕ × ℕ × Timedelta) :=
  ts.zipIdx.flatMap (fun t => t.1.zipIdx.map (fun o => (t.2, o.2 + 1, o.1.elapsedTime)))

/-- The sum of the rewards recorded for episode `i`. -/
noncomputable def rewardsOf (rs : List StepRecord) (i : ℕ) : ℝ :=
  ((rs.filter (fun r => r.episode = i)).map (fun r => r.reward)).sum

end PD.Spec
