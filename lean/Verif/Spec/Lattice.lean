/- Specification vocabulary for graphene sheets. -/
import Verif.Spec.Geometry

namespace PD.Spec

/-- A point of the honeycomb with bond length 1: half-integer columns `X / 2` and rows `Y √3 / 2`
with `X` and `Y` of the same parity (a triangular lattice), without every third column (the centres
of the hexagons). -/
def HoneycombPoint (u : V2 ℝ) : Prop :=
  ∃ X Y : ℤ, X % 2 = Y % 2 ∧ X % 3 ≠ 0 ∧ u = ⟨X / 2, Y * (Real.sqrt 3 / 2)⟩

/-- `p` has exactly three neighbours: three atoms of the sheet at distance `d`, and all others
further away. -/
def HasThreeNeighbours (sheet : List (V2 ℝ)) (d : ℝ) (p : V2 ℝ) : Prop :=
  ∃ a ∈ sheet, ∃ b ∈ sheet, ∃ c ∈ sheet, [p, a, b, c].Nodup ∧
    dist p a = d ∧ dist p b = d ∧ dist p c = d ∧
    ∀ q ∈ sheet, q ∉ [p, a, b, c] → d < dist p q

end PD.Spec
