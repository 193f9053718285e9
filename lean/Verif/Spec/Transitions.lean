/- Specification for C41. -/
import Verif.Model.Transitions

namespace PD.Spec
open PD
variable {K G O P Img : Type} [Field K] [LinearOrder K] [FloorRing K]

/-- The transition `t` joins the observations `a` and `b`. -/
structure Joins (t : Transition K Img) (a b : Observation K Img) : Prop where
  gridBefore : t.gridBefore = a.grid
  gridAfter : t.gridAfter = b.grid
  fovBefore : t.fovBefore = a.fov
  fovAfter : t.fovAfter = b.fov
  imageBefore : t.imageBefore = a.image
  imageAfter : t.imageAfter = b.image
  labelBefore : t.labelImageBefore = a.labelImage
  labelAfter : t.labelImageAfter = b.labelImage

/-- Stepping a simulator with the given lists of controls returns the given observations. -/
inductive Simulated (cfg : SimCfg K G O P Img) :
    Sim K G O P → List (List (BeamControl K)) → List (Observation K Img) → Prop
  | done (s) : Simulated cfg s [] []
  | step {s s' cs css o os} (returnImage : Bool) (h : Sim.step cfg cs returnImage s = .ok o s')
      (rest : Simulated cfg s' css os) : Simulated cfg s (cs :: css) (o :: os)

end PD.Spec
