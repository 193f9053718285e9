/- Specification vocabulary for action adapters. -/
import Verif.Spec.Goal
import Verif.Model.Adapters

namespace PD.Spec
variable {K Img : Type}

/-- The dwell times an adapter is configured to use. -/
def dwellRange : Adapter K → Timedelta × Timedelta
  | .direct | .delta => (1500000, 1500000)
  | .relative lo hi _ | .materialFrame lo hi _ => (lo, hi)

/-- How many entries an action needs. -/
def actionSize : Adapter K → ℕ
  | .direct | .delta => 2
  | .relative lo hi _ | .materialFrame lo hi _ => if lo = hi then 2 else 3

/-- The adapters that aim relative to the silicon. -/
def SiliconRelative : Adapter K → Prop
  | .direct | .delta => False
  | .relative _ _ _ | .materialFrame _ _ _ => True

/-- The sum of a list of displacements. -/
def total [Field K] : List (V2 K) → V2 K
  | [] => 0
  | d :: ds => d + total ds

end PD.Spec
