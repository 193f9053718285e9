/- Vocabulary for statements about the Euclidean plane. -/
import Verif.Model.Basic
import Mathlib.Analysis.SpecialFunctions.Sqrt

namespace PD.Spec
open PD

/-- Euclidean length. -/
noncomputable def len (p : V2 ℝ) : ℝ := Real.sqrt (p.x ^ 2 + p.y ^ 2)

/-- Euclidean distance. -/
noncomputable def dist (p q : V2 ℝ) : ℝ := Real.sqrt ((p.x - q.x) ^ 2 + (p.y - q.y) ^ 2)

/-- Scalar product: with the lengths it determines the cosine of the angle between two vectors. -/
def dot (p q : V2 ℝ) : ℝ := p.x * q.x + p.y * q.y

/-- Signed area: with the lengths it determines the sine of the oriented angle. -/
def cross (p q : V2 ℝ) : ℝ := p.x * q.y - p.y * q.x

/-- The point at distance `d` from `p` in the direction of `q`. -/
noncomputable def towards (p q : V2 ℝ) (d : ℝ) : V2 ℝ := p + V2.smul (d / dist p q) (q - p)

/-- `q` mirrored in the horizontal line through `p`. -/
def mirror (p q : V2 ℝ) : V2 ℝ := ⟨q.x, p.y - (q.y - p.y)⟩

end PD.Spec
