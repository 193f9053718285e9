/- Specification vocabulary for evaluations: what happened, and how it is summarised. -/
import Verif.Spec.Environment
import Verif.Model.Eval

namespace PD.Spec
variable {σ α A F : Type}

/-- One round of an evaluation episode: the action, the time the agent took, what the environment
returned and how long that took. -/
structure Round (A F : Type) where
  action : A
  agentTime : Timedelta
  result : TimeStep F
  envTime : Timedelta

/-- An evaluation episode: what `reset` returned, how long it took, the rounds. -/
structure Episode (A F : Type) where
  first : TimeStep F
  firstTime : Timedelta
  rounds : List (Round A F)

/-- All time steps of an episode. -/
def Episode.timeSteps (e : Episode A F) : List (TimeStep F) := e.first :: e.rounds.map (·.result)

/-- The time step after which the episode was left. -/
def Episode.final (e : Episode A F) : TimeStep F := (e.rounds.map (·.result)).getLastD e.first

/-- The rounds really took place: the agent was shown the previous time step and chose the action,
the environment performed it. -/
inductive Played (E : EvalEnv σ A F) (ag : Agent α A F) :
    TimeStep F → σ × α → List (Round A F) → σ × α → Prop
  | nil (t p) : Played E ag t p [] p
  | cons (t : TimeStep F) (s s' : σ) (a a' : α) (r : Round A F) (rs p)
      (choose : ag.step t a = .ok (r.action, r.agentTime) a')
      (perform : E.like.step r.action s = .ok r.result s')
      (time : r.envTime = E.elapsed s')
      (rest : Played E ag r.result (s', a') rs p) : Played E ag t (s, a) (r :: rs) p

/-- The episodes really took place, one after the other: seed, reset, rounds. -/
inductive PlayedAll (E : EvalEnv σ A F) (ag : Agent α A F) :
    σ × α → List (ℤ × Episode A F) → σ × α → Prop
  | nil (p) : PlayedAll E ag p [] p
  | cons (s s1 : σ) (a : α) (z : ℤ) (e : Episode A F) (es p p')
      (start : E.like.reset (E.seed z s) = .ok e.first s1)
      (time : e.firstTime = E.elapsed s1)
      (play : Played E ag e.first (s1, a) e.rounds p)
      (rest : PlayedAll E ag p es p') : PlayedAll E ag (s, a) ((z, e) :: es) p'

/-- Time used when the first `k` rounds are over. -/
def Episode.timeAfter (e : Episode A F) (k : ℕ) : Timedelta :=
  e.firstTime + ((e.rounds.take k).map (fun r => r.agentTime + r.envTime)).sum

/-- The time limit was kept: every round began before the timeout, no round follows a LAST, and
rounds stop for one of these two reasons only. -/
structure Episode.Timely (timeout : Timedelta) (e : Episode A F) : Prop where
  before : ∀ k, k < e.rounds.length → e.timeAfter k < timeout
  notAfterLast : ∀ r ∈ e.rounds.dropLast, r.result.stepType ≠ .last
  stop : timeout ≤ e.timeAfter e.rounds.length ∨
    (e.rounds ≠ [] ∧ e.final.stepType = .last)

/-- The goal was reached: the final step ended the episode with discount zero. -/
def Episode.Reached (e : Episode A F) : Prop := e.final.stepType = .last ∧ e.final.discount = 0

/-- The result describes the episode. -/
structure Describes (r : EvalResult ℝ) (z : ℤ) (e : Episode A F) : Prop where
  seed : r.seed = z
  actions : r.numActions = e.rounds.length
  reward : r.totalReward = (e.rounds.map (·.result.reward)).sum
  reached : r.reachedGoal = true ↔ e.Reached
  seconds : e.Reached →
    r.agentSeconds = some ((((e.rounds.map (·.agentTime)).sum : ℤ) : ℝ) / 1000000) ∧
    r.envSeconds = some (((e.firstTime + (e.rounds.map (·.envTime)).sum : ℤ) : ℝ) / 1000000)
  nan : ¬ e.Reached → r.agentSeconds = none ∧ r.envSeconds = none

/-- The mean of a list, 0 for the empty list. -/
def mean {K : Type} [Field K] (xs : List K) : K := if xs = [] then 0 else xs.sum / xs.length

/-- The mean of numbers that may be NaN. -/
def nanMean {K : Type} [Field K] (xs : List (Option K)) : Option K :=
  if xs.all Option.isSome then some (mean (xs.filterMap id)) else none

end PD.Spec
