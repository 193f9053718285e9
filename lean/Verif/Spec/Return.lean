/- Specification vocabulary for discounted returns. -/
import Verif.Spec.Eval

namespace PD.Spec
variable {σ α A F : Type}

/-- The discounted return of the time steps that follow a given one, as dm_env defines it: each reward counts with the
product of the discounts of the time steps before it. -/
noncomputable def discountedReturn : List (TimeStep F) → ℝ
  | [] => 0
  | t :: ts => t.reward + t.discount * discountedReturn ts

/-- What an agent earned in the rounds it played. -/
noncomputable def earned (rs : List (Round A F)) : ℝ := discountedReturn (rs.map (·.result))

/-- The seconds the environment took for the rounds. -/
noncomputable def playSeconds (rs : List (Round A F)) : ℝ := (((rs.map (·.envTime)).sum : ℤ) : ℝ) / 1000000

/-- `0.9967` to the power of a number of seconds. -/
noncomputable def worthAfter (seconds : ℝ) : ℝ := (9967 / 10000 : ℝ) ^ seconds

/-- No round follows the end of the episode. -/
def OneEpisode (rs : List (Round A F)) : Prop := ∀ r ∈ rs.dropLast, r.result.stepType ≠ .last

/-- The last round ended the episode at the goal. -/
def EndedAtGoal (rs : List (Round A F)) : Prop :=
  ∃ r, rs.getLast? = some r ∧ r.result.stepType = .last ∧ r.result.discount = 0

end PD.Spec
