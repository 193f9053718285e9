/- Model of pipeline/trajectories_to_transitions.py. -/
import Verif.Model.Simulator

namespace PD
variable {K Img : Type}

/-- microscope_utils.py:608-641 `Transition`. -/
structure Transition (K Img : Type) where
  gridBefore : Grid K
  gridAfter : Grid K
  fovBefore : Fov K
  fovAfter : Fov K
  controls : List (BeamControl K)
  imageBefore : Option Img
  imageAfter : Option Img
  labelImageBefore : Option Img
  labelImageAfter : Option Img

/-- The `*_before` variables of trajectories_to_transitions.py:57-67; they are all `None` or all
set (the images may be `None` in either case). -/
structure Before (K Img : Type) where
  grid : Grid K
  fov : Fov K
  image : Option Img
  labelImage : Option Img
  controls : List (BeamControl K)

/-- trajectories_to_transitions.py:69-97, the loop over the observations of one trajectory. -/
def transitionsLoop (previousControls : Bool) :
    Option (Before K Img) → List (Observation K Img) → List (Transition K Img)
  | _, [] => []
  | before, o :: os =>
    let new := match before with
      | none => []
      | some b => [⟨b.grid, o.grid, b.fov, o.fov,
          if !previousControls then b.controls else o.controls,
          b.image, o.image, b.labelImage, o.labelImage⟩]
    new ++ transitionsLoop previousControls
      (some ⟨o.grid, o.fov, o.image, o.labelImage, o.controls⟩) os

/-- trajectories_to_transitions.py:35-99 `trajectories_to_transitions`; a trajectory is the list of
its observations. -/
def trajectoriesToTransitions (previousControls : Bool)
    (trajectories : List (List (Observation K Img))) : List (Transition K Img) :=
  trajectories.flatMap (transitionsLoop previousControls none)

end PD
