/- The human prior, computed with floating point numbers. -/
import Verif.Model.FloatRates

namespace PD

/-- The density of the normal distribution with the covariance of constants.py:27, a tenth in every direction. -/
noncomputable def normalDensity (x mean : V2 ℝ) : ℝ := 10 / (2 * Real.pi) * Real.exp (-(5 * V2.distSq x mean))

/-- `scipy.stats.multivariate_normal.pdf` with that covariance: any function with the error bound, which leaves room for
the rounding of 0.1, of the logarithm of the density and of its exponential, and for densities that are too small for
float64. -/
structure FloatDensity where
  pdf : V2 ℝ → V2 ℝ → ℝ
  nonneg : ∀ x mean, 0 ≤ pdf x mean
  err : ∀ x mean : V2 ℝ, |x.x| ≤ 2 ^ 18 → |x.y| ≤ 2 ^ 18 → |mean.x| ≤ 1 → |mean.y| ≤ 1 →
    |pdf x mean - normalDensity x mean| ≤ normalDensity x mean / 10 ^ 9 + 1 / 10 ^ 60

/-- constants.py:28 `np.log(2) / 3`.  The logarithm is rounded correctly for this argument. -/
noncomputable def floatMaxRate : ℝ := f64 (f64 (Real.log 2) / 3)

/-- graphene.py:121-130 `single_silicon_prior_rates` with the constants of constants.py:27-28. -/
noncomputable def floatSinglePrior (D : FloatDensity) (context mean : V2 ℝ) : ℝ :=
  let norm := f64 (floatMaxRate / D.pdf mean mean)
  let rate := D.pdf context mean
  f64 (rate * norm)

/-- graphene.py:211-227 for one neighbour, with the mean of constants.py:26. -/
noncomputable def floatPriorRate (L : FloatLib) (D : FloatDensity) (beam si nbr : V2 ℝ) : ℝ :=
  let relativeNeighbor := floatSub nbr si
  let angle := L.angle.arctan2 relativeNeighbor.y relativeNeighbor.x
  let relativeBeam := floatSub beam si
  let relativeBeam : V2 ℝ := ⟨f64 (relativeBeam.x / f64 BOND), f64 (relativeBeam.y / f64 BOND)⟩
  let rotatedMean := floatRotate L ⟨f64 (85 / 100), 0⟩ (-angle)
  floatSinglePrior D relativeBeam rotatedMean

/-- graphene.py:192-229 `HumanPriorRatePredictor.predict` with the default attributes, followed by the cast of
graphene.py:252 to float32. -/
noncomputable def floatPriorRates (L : FloatLib) (D : FloatDensity) : CanonicalRateFn ℝ := fun grid beam si idx =>
  match takeRows grid.positions idx with
  | .error e => .error e
  | .ok nbrs => .ok (nbrs.map fun n => f32 (floatPriorRate L D beam si n))

end PD
