/- Specification for C150: greedy play with floating point numbers. -/
import Verif.Spec.FloatRates
import Verif.Spec.FloatEnv

namespace PD.Spec
open PD

/-- The numbers `obs` tell where the silicon is, up to a hundredth of an Å, and where its neighbours and the goal are from
there, up to a ten millionth of the distance and a ten millionth of an Å. -/
def TellsNeighbours (obs : List ℝ) (si : V2 ℝ) (nbrs : List (V2 ℝ)) (b : V2 ℝ) : Prop :=
  ∃ x y x₁ y₁ x₂ y₂ x₃ y₃ gx gy, ∃ p₁ p₂ p₃ : V2 ℝ,
    obs = [x, y, x₁, y₁, x₂, y₂, x₃, y₃, gx, gy] ∧ [p₁, p₂, p₃].Perm nbrs ∧
    |x - si.x| ≤ 1 / 100 ∧ |y - si.y| ≤ 1 / 100 ∧
    (∀ d ∈ [((⟨x₁, y₁⟩, p₁) : V2 ℝ × V2 ℝ), (⟨x₂, y₂⟩, p₂), (⟨x₃, y₃⟩, p₃), (⟨gx, gy⟩, b)],
      |d.1.x - (d.2.x - si.x)| ≤ (1 + dist si d.2) / 10 ^ 7 ∧ |d.1.y - (d.2.y - si.y)| ≤ (1 + dist si d.2) / 10 ^ 7)

/-- The place that is at `m` if the origin is at the silicon and the first axis points to the neighbour `p`. -/
noncomputable def besideBond (si p m : V2 ℝ) : V2 ℝ :=
  ⟨si.x + (m.x * (p.x - si.x) - m.y * (p.y - si.y)) / dist si p,
    si.y + (m.x * (p.y - si.y) + m.y * (p.x - si.x)) / dist si p⟩

end PD.Spec
