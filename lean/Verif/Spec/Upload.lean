/- Vocabulary for recorded microscope data. -/
import Verif.Model.Upload

namespace PD.Spec
open PD
variable {K Img : Type} [Field K] [LinearOrder K] [FloorRing K]

/-- A point in label pixels as fractions of the image; label pixels are `height / labelHeight` image pixels. -/
def fraction (r : RawData K Img) (p : V2 K) : V2 K :=
  ⟨(r.height : K) / r.labelHeight * p.x / r.height, (r.height : K) / r.labelHeight * p.y / r.width⟩

/-- The shift of a frame in ångströms; none when nothing was recorded. -/
def frameShift (r : RawData K Img) (f : RawFrame K) : V2 K :=
  match f.shot with
  | none => ⟨0, 0⟩
  | some s => ⟨10 * f.fovSize * s.pixelShift.x / r.height, 10 * f.fovSize * s.pixelShift.y / r.width⟩

/-- The sum of some vectors. -/
def sumV : List (V2 K) → V2 K
  | [] => ⟨0, 0⟩
  | v :: vs => v + sumV vs

/-- The sum of the shifts of the frames up to and including number `t`. -/
def totalShift (r : RawData K Img) (t : ℕ) : V2 K := sumV ((r.frames.take (t + 1)).map (frameShift r))

/-- Grey images, one for each of at least four frames, each with atoms, and with a dopant and a beam position when a
shot was recorded. -/
structure Convertible (r : RawData K Img) : Prop where
  height : r.height ≠ 0
  width : r.width ≠ 0
  label : r.labelHeight ≠ 0
  readout : r.hasReadout = true
  grey : r.channels = none
  long : 4 ≤ r.frames.length
  images : r.images.length ≥ r.frames.length
  atoms : ∀ f ∈ r.frames, f.coords ≠ []
  dopants : ∀ f ∈ r.frames, ∀ s, f.shot = some s → s.dopants ≠ [] ∧ s.beam ≠ []

end PD.Spec
