/- Holding the beam in pieces. -/
import Verif.Spec.Chance

namespace PD.Spec
open PD

/-- The sheet after the first transition that an observer wrote down, over all controls. -/
def firstHeard (hs : List (List (Timedelta × Grid ℝ))) : Option (Grid ℝ) := hs.flatten.head?.map Prod.snd

/-- The seconds within which events count, over all controls. -/
noncomputable def exposures (cs : List (BeamControl ℝ)) : ℝ := (cs.map (fun c => exposure c.dwellTime)).sum

end PD.Spec
