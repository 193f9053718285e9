/- The choice of goals and the test whether the silicon is at the goal, computed with floating point numbers. -/
import Verif.Model.FloatFrames
import Mathlib.Analysis.SpecialFunctions.Pow.Real

namespace PD

/-- How `x.dot(x)` is computed for two numbers.  numpy calls a BLAS library, which may fuse a multiplication and an
addition into one operation with one rounding. -/
inductive DotKind where
  | plain
  | fusedFirst
  | fusedSecond
  deriving DecidableEq, Repr

/-- The sum of the squares of two numbers. -/
noncomputable def floatDot : DotKind → V2 ℝ → ℝ
  | .plain, v => f64 (f64 (v.x * v.x) + f64 (v.y * v.y))
  | .fusedFirst, v => f64 (v.x * v.x + f64 (v.y * v.y))
  | .fusedSecond, v => f64 (f64 (v.x * v.x) + v.y * v.y)

/-- `np.linalg.norm` of two numbers.  IEEE 754 requires the root to be rounded correctly. -/
noncomputable def floatNorm (k : DotKind) (v : V2 ℝ) : ℝ := f64 (Real.sqrt (floatDot k v))

/-- goals.py:86-103: the distance in Å of the atom at `p` from the silicon at `si`, both as seen in the field of
view.  With `axis=1`, `norm` adds squares without fusing. -/
noncomputable def floatGoalRange (f : Fov ℝ) (si p : V2 ℝ) : ℝ :=
  floatNorm .plain
    ⟨f64 (f64 (f.upperRight.x - f.lowerLeft.x) * f64 (p.x - si.x)),
      f64 (f64 (f.upperRight.y - f.lowerLeft.y) * f64 (p.y - si.y))⟩

/-- goals.py:105-107: the atoms that may become the goal, with the range of goals.py:63. -/
noncomputable def floatValidGoal (f : Fov ℝ) (si p : V2 ℝ) : Bool :=
  decide (floatGoalRange f si p < f64 50) && decide (f64 (1 / 10) < floatGoalRange f si p)

/-- goals.py:148-165: whether the silicon, seen at `si`, is near the goal. -/
noncomputable def floatAtGoal (k : DotKind) (f : Fov ℝ) (si goal : V2 ℝ) : Bool :=
  let s := f.floatToMaterial si
  decide (floatNorm k ⟨f64 (s.x - goal.x), f64 (s.y - goal.y)⟩ < f64 (f64 (142 / 100) * f64 (1 / 2)))

end PD
