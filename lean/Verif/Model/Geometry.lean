/- Model of the planar geometry helpers, over the real numbers. -/
import Verif.Model.Knn
import Mathlib.Analysis.SpecialFunctions.Complex.Arg

namespace PD

/-- geometry.py:33-48 `get_angles`, one row: `np.arctan2(y, x)`, the angle in `(-π, π]`
(`0` for the origin).  `Complex.arg` is the same function; signed zeros are not modelled. -/
noncomputable def getAngle (p : V2 ℝ) : ℝ := Complex.arg ⟨p.x, p.y⟩

/-- geometry.py:33-48 `get_angles`. -/
noncomputable def getAngles (ps : List (V2 ℝ)) : List ℝ := ps.map getAngle

/-- geometry.py:51-66 `rotate_coordinates`, one row: `coord @ [[c, s], [-s, c]]`. -/
noncomputable def rotate (p : V2 ℝ) (θ : ℝ) : V2 ℝ :=
  ⟨p.x * Real.cos θ + p.y * -Real.sin θ, p.x * Real.sin θ + p.y * Real.cos θ⟩

/-- geometry.py:51-66 `rotate_coordinates` (and its jax twin, geometry.py:69-84). -/
noncomputable def rotateCoordinates (ps : List (V2 ℝ)) (θ : ℝ) : List (V2 ℝ) :=
  ps.map (fun p => rotate p θ)

/-- `np.linalg.norm(v)` of a `(2,)` array. -/
noncomputable def norm2 (p : V2 ℝ) : ℝ := Real.sqrt (p.x * p.x + p.y * p.y)

end PD
