/- Specification for C148: the rates of the human prior. -/
import Verif.Spec.FloatRates

namespace PD.Spec
open PD

/-- The place of the beam at which a silicon at `si` is most likely to move to `p`: at 0.85 bonds from `si` towards the
mirror image of `p` in the horizontal line through `si`.  (It should be towards `p` itself; see C37.) -/
noncomputable def priorPeak (si p : V2 ℝ) : V2 ℝ :=
  ⟨si.x + 85 / 100 * (142 / 100) * ((p.x - si.x) / dist si p), si.y - 85 / 100 * (142 / 100) * ((p.y - si.y) / dist si p)⟩

/-- The rate of a move from `si` to `p`: so that half of the silicons move within three seconds if the beam is at the
peak, and falling as a Gaussian with a variance of a tenth, in units of a bond, with the distance from the peak. -/
noncomputable def priorRateAt (beam si p : V2 ℝ) : ℝ :=
  Real.log 2 / 3 * Real.exp (-((dist beam (priorPeak si p) / (142 / 100)) ^ 2 / (2 * (1 / 10))))

/-- The successor `x` of the sheet `g` has the silicon at `p`, and the rate the human prior prescribes, up to three parts
in ten million or to the smallest float32 number. -/
def PriorMovesTo (g : Grid ℝ) (beam si : V2 ℝ) (x : Successor ℝ) (p : V2 ℝ) : Prop :=
  x.grid.positions = g.positions ∧ SingleDoped x.grid ∧ silicons x.grid = [p] ∧ f32 x.rate = x.rate ∧ 0 ≤ x.rate ∧
  |x.rate - priorRateAt beam si p| ≤ priorRateAt beam si p * (3 / 10 ^ 7) + 2 ^ (-149 : ℤ)

end PD.Spec
