/- Specification vocabulary for the experiments of the package. -/
import Verif.Spec.Adapters
import Verif.Model.Experiments

namespace PD.Spec

/-- An action with an entry for each declared one, within its bounds. -/
def InSpec {K : Type} [LE K] (spec : List (K × K)) (action : List K) : Prop :=
  List.Forall₂ (fun b x => b.1 ≤ x ∧ x ≤ b.2) spec action

/-- The adapters and features of all experiments of the package. -/
def shippedParts (K : Type) [Field K] : List (AdaptersAndGoal K) :=
  (microscopeExperiments.map (·.2.parts)) ++ (trainExperiments.map (·.2.parts)) ++ (evalExperiments.map (·.2.parts))

/-- The distance the experiment aims at, if it aims along a bond. -/
noncomputable def aimDistance : List (String × ℝ) :=
  [("greedy_on_neighbor", 142 / 100), ("greedy_short_of_neighbor", 58 / 100),
   ("greedy_from_learned_rates_v3", 18686869 / 10000000)]

end PD.Spec
