/- Specification for C124: what the conversion program should write. -/
import Verif.Spec.Proto
import Verif.Spec.Transitions

namespace PD.Spec
open PD
variable {K Img : Type}

/-- The pairs of consecutive observations of each trajectory, in order. -/
def consecutive (ts : List (List (Observation K Img))) : List (Observation K Img × Observation K Img) :=
  ts.flatMap (fun t => t.zip t.tail)

/-- The transition from the first observation of a pair to the second, during which the controls `cs` were
applied. -/
def between (cs : List (BeamControl K)) (p : Observation K Img × Observation K Img) : Transition K Img where
  gridBefore := p.1.grid
  gridAfter := p.2.grid
  fovBefore := p.1.fov
  fovAfter := p.2.fov
  controls := cs
  imageBefore := p.1.image
  imageAfter := p.2.image
  labelImageBefore := p.1.labelImage
  labelImageAfter := p.2.labelImage

/-- An observation that can be stored: a grid of as many numbers as atoms, controls with voltage and current. -/
def Storable [Field K] [LinearOrder K] (o : Observation K Img) : Prop :=
  GridFits o.grid ∧ ∀ c ∈ o.controls, ControlFull c

/-- An observation has a label image exactly when it has an image. -/
def Labelled (o : Observation K Img) : Prop := o.image.isSome = o.labelImage.isSome

/-- A name ending in `.tfrecords`, with something before it. -/
def RecordFile (name : List Char) : Prop := ∃ stem, stem ≠ [] ∧ name = stem ++ ".tfrecords".toList

end PD.Spec
