/- Model of the labels and of the reported accuracy of the segmentation networks (image_alignment/dataset.py,
atom_detection/dataset.py, image_alignment/train.py, atom_detection/train.py). -/
import Verif.Model.Detector
import Verif.Model.Imaging

namespace PD
variable {K : Type} [Field K] [LinearOrder K]

/-- image_alignment/dataset.py:73-74 and atom_detection/dataset.py:63-64: atomic numbers to classes. -/
def remapClass (m : ℤ) : ℤ :=
  let m := if m = 6 then 1 else m
  if m = 14 then 2 else m

/-- `tf.one_hot`: a row of zeros for values outside the range. -/
def oneHot (classes : ℕ) (k : ℤ) : List K :=
  (List.range classes).map (fun (j : ℕ) => if (j : ℤ) = k then 1 else 0)

/-- image_alignment/dataset.py:64-80 and atom_detection/dataset.py:54-70 `RemapAndOneHotMask`, with the three
classes of both `make_dataset`s. -/
def segmentationLabels (mask : List (List ℤ)) : List (List (List K)) :=
  mask.map (fun row => row.map (fun m => oneHot 3 (remapClass m)))

/-- `jnp.mean` of truth values (not a number for none in the code, 0 here; statements exclude it). -/
def meanTrue (bs : List Bool) : K := (bs.count true : K) / (bs.length : K)

/-- atom_detection/train.py:96-98 and 121-123: the reported accuracy, for the outputs and labels of all pixels
of a batch. -/
def detectionAccuracy (logits masks : List (List K)) : K :=
  meanTrue (List.zipWith (fun l m => decide (argmaxIndex l = argmaxIndex m)) logits masks)

/-- image_alignment/train.py:127-128 and 180-181: the reported accuracy.  `jnp.argmax(batch['mask'])` has no
axis, so it is one index into all labels of the batch in a row. -/
def alignmentAccuracy (logits masks : List (List K)) : K :=
  meanTrue (logits.map (fun l => decide (argmaxIndex l = argmaxIndex masks.flatten)))

end PD
