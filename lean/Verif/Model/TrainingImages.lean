/- Model of how stored examples become training examples of the segmentation networks
(image_alignment/dataset.py:32-92 and 104-119, atom_detection/dataset.py:29-70 and 88-91) and of how the aligner
picks a time step from the network's output (alignment.py:545-551). -/
import Verif.Model.Labels

namespace PD
variable {K : Type} [Field K] [LinearOrder K]

/-- A stack of `t` frames of `h` rows and `w` columns. -/
structure Frames (α : Type) where
  t : ℕ
  h : ℕ
  w : ℕ
  px : ℕ → ℕ → ℕ → α

/-- `tf.image.resize(…, 'nearest')`: the row (column) of an image with `n` of them that row `i` of `m` is taken
from, the one with the middle of row `i` in it. -/
def sourceIndex (n m i : ℕ) : ℕ := min ((2 * i + 1) * n / (2 * m)) (n - 1)

/-- Resizing all frames to `size` rows and columns. -/
def Frames.resize {α : Type} (size : ℕ) (x : Frames α) : Frames α :=
  ⟨x.t, size, size, fun t r c => x.px t (sourceIndex x.h size r) (sourceIndex x.w size c)⟩

/-- A stored example of the alignment data: images (with values from 0 to 255 per channel), masks of atomic
numbers and drifts. -/
structure AlignmentExample (K : Type) where
  images : Frames (List ℕ)
  mask : Frames ℤ
  drift : List (K × K)

/-- `x[-1:]` -/
def lastOnly {α : Type} (l : List α) : List α := l.drop (l.length - 1)

/-- `x[-1:]` of a stack of frames. -/
def Frames.lastOnly {α : Type} (x : Frames α) : Frames α :=
  ⟨min x.t 1, x.h, x.w, fun t r c => x.px (x.t - 1 + t) r c⟩

/-- image_alignment/dataset.py:83-92 `SelectFinalTimestep` -/
def selectFinal (e : AlignmentExample K) : AlignmentExample K :=
  { e with mask := e.mask.lastOnly, drift := lastOnly e.drift }

/-- What a network is trained with: for each pixel the numbers it sees and, for each time step, the label. -/
structure TrainingExample (K : Type) where
  h : ℕ
  w : ℕ
  maskH : ℕ
  maskW : ℕ
  input : ℕ → ℕ → List K
  label : ℕ → ℕ → List (List K)
  drift : List (K × K)

/-- image_alignment/dataset.py:32-61 `ResizeImage` and 64-80 `RemapAndOneHotMask`: the images are converted to
numbers from 0 to 1, transposed so that the frames are channels, and resized if necessary; the masks are resized
if necessary, transposed and turned into labels. -/
def alignmentTraining (size : ℕ) (e : AlignmentExample K) : TrainingExample K :=
  let images := if e.images.h ≠ size ∨ e.images.w ≠ size then e.images.resize size else e.images
  let mask := if e.mask.h ≠ size ∨ e.mask.w ≠ size then e.mask.resize size else e.mask
  ⟨images.h, images.w, mask.h, mask.w,
    fun r c => (List.range images.t).flatMap (fun t => (images.px t r c).map (fun v => (v : K) / 255)),
    fun r c => (List.range mask.t).map (fun t => oneHot 3 (remapClass (mask.px t r c))),
    e.drift⟩

/-- image_alignment/dataset.py:104-119: the transformations of `make_dataset`. -/
def alignmentDataset (finalOnly : Bool) (size : ℕ) (e : AlignmentExample K) : TrainingExample K :=
  alignmentTraining size (if finalOnly then selectFinal e else e)

/-- A stored example of the detection data, as stacks of one frame. -/
structure DetectionExample (K : Type) where
  image : Frames (List K)
  mask : Frames ℤ

/-- atom_detection/dataset.py:29-70 and 88-91 -/
def detectionDataset (size : ℕ) (e : DetectionExample K) : TrainingExample K :=
  let image := e.image.resize size
  let mask := e.mask.resize size
  ⟨image.h, image.w, mask.h, mask.w, fun r c => image.px 0 r c,
    fun r c => [oneHot 3 (remapClass (mask.px 0 r c))], []⟩

/-- image_alignment/train.py:119 and 171: `logits.reshape(*batch['mask'].shape)`, the outputs for one pixel:
three for each time step in turn; an error unless there are as many as labels. -/
def trainedScores (steps : ℕ) (out : List K) : Except Err (List (List K)) :=
  if out.length = steps * 3 then .ok ((List.range steps).map (fun t => (out.drop (3 * t)).take 3))
  else .error .typeError

/-- alignment.py:549-550: `tf.reshape(logits, (…, -1, 3))[..., time_index, :]` for one pixel.  A negative index
counts from the end. -/
def scoresAt (out : List K) (timeIndex : ℤ) : Except Err (List K) :=
  if out.length % 3 ≠ 0 then .error .valueError
  else
    let steps : ℤ := out.length / 3
    let i := if timeIndex < 0 then timeIndex + steps else timeIndex
    if 0 ≤ i ∧ i < steps then .ok ((out.drop (3 * i.toNat)).take 3) else .error .indexError

end PD
