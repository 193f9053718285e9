/- What an exposure shows, and how a prediction is scored on average. -/
import Verif.Model.Learn

namespace PD.Spec
open PD

/-- The probability that a silicon which leaves towards its neighbours with the given rates (per second) has the label
`k` after an exposure of `t` seconds: 0 means that it did not leave, `k` that it left towards neighbour `k`. -/
noncomputable def labelProb (rates : List ℝ) (t : ℝ) (k : ℕ) : ℝ :=
  if k = 0 then Real.exp (-(rates.sum * t))
  else (1 - Real.exp (-(rates.sum * t))) * (rates.getD (k - 1) 0 / rates.sum)

/-- The probability that it leaves at all. -/
noncomputable def leaveProb (rates : List ℝ) (t : ℝ) : ℝ := 1 - Real.exp (-(rates.sum * t))

/-- The loss of the raw network output `z` on average over the labels that such an exposure can have, with the weights
of the two terms of the loss. -/
noncomputable def expectedLoss (classWeight rateWeight : ℝ) (rates : List ℝ) (t : ℝ) (z : List ℝ) : ℝ :=
  ∑ k ∈ Finset.range (rates.length + 1),
    labelProb rates t k * exampleLoss classWeight rateWeight ⟨networkOutput z, k, t⟩

/-- The rates that a raw network output stands for, as the predictor reports them. -/
noncomputable def predictedRates (z : List ℝ) : List ℝ := splitRates (networkOutput z)

end PD.Spec
