/- Valid parameters of the Gaussian mixture. -/
import Verif.Model.Rates

namespace PD.Spec

/-- Mixture parameters as `sample_new` draws them: positive maximal rate, non-negative weights not
all zero, positive variances. -/
structure ValidMixture (g : Gmm) : Prop where
  maxRate : 0 < g.maxRate
  weights : ∀ c ∈ g.components, 0 ≤ c.weight
  weighted : ∃ c ∈ g.components, 0 < c.weight
  variances : ∀ c ∈ g.components, 0 < c.variance.x ∧ 0 < c.variance.y

end PD.Spec
