/- Model of the estimate of a lattice's scale (alignment.py:37-55). -/
import Verif.Model.Lattice
import Mathlib.Data.List.Sort

namespace PD
open Classical

/-- `np.linalg.norm` of the difference of two rows of coordinates (alignment.py:46). -/
noncomputable def coordDist (p q : V2 ℝ) : ℝ := Real.sqrt ((p.x - q.x) ^ 2 + (p.y - q.y) ^ 2)

/-- `np.sort` of one row (alignment.py:47). -/
noncomputable def sorted (xs : List ℝ) : List ℝ := xs.insertionSort (fun a b => a ≤ b)

/-- alignment.py:46-48: for each atom the distances at the places 1 to 3 of its sorted row, in one array. -/
noncomputable def neighborDistances (ps : List (V2 ℝ)) : List ℝ :=
  ps.flatMap (fun p => ((sorted (ps.map (coordDist p))).drop 1).take 3)

/-- `scipy.stats.trim_mean(xs, 0.25)`: `int(0.25 * n)` values are cut off at both ends; nan (`none`) for no values. -/
noncomputable def trimMean (xs : List ℝ) : Option ℝ :=
  let cut := xs.length / 4
  let middle := ((sorted xs).drop cut).take (xs.length - cut - cut)
  if xs.isEmpty then none else some (middle.sum / middle.length)

/-- alignment.py:37-55 `get_graphene_scale_factor`. -/
noncomputable def grapheneScaleFactor (ps : List (V2 ℝ)) : Option ℝ :=
  (trimMean (neighborDistances ps)).map (fun d => d / BOND)

end PD
