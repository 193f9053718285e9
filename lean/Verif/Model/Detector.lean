/- Model of atom detection: what the code makes of the class predictions of the networks (alignment.py,
atom_detector.py).  OpenCV's contours are left open. -/
import Verif.Model.PadCrop
import Mathlib.Logic.Relation

namespace PD
variable {K : Type} [Field K] [LinearOrder K] [FloorRing K]

/-- `cv2.moments` of a contour: area and first moments in x (columns) and y (rows). -/
structure Moments (K : Type) where
  m00 : K
  m10 : K
  m01 : K
  deriving DecidableEq

/-- A pixel (row, column) of a mask is set. -/
def isSet (mask : List (List Bool)) (p : ℕ × ℕ) : Bool := (mask.getD p.1 []).getD p.2 false

/-- Two set pixels touch, also at corners. -/
def Touching (mask : List (List Bool)) (p q : ℕ × ℕ) : Prop :=
  isSet mask p = true ∧ isSet mask q = true ∧ p.1 ≤ q.1 + 1 ∧ q.1 ≤ p.1 + 1 ∧ p.2 ≤ q.2 + 1 ∧ q.2 ≤ p.2 + 1

/-- `cv2.findContours` followed by `cv2.moments`: each contour runs along the pixels of one blob of set
pixels, so that its centroid, if its area is not zero, lies in the bounding box of that blob. -/
structure Contours (K : Type) [Field K] [LinearOrder K] where
  find : List (List Bool) → List (Moments K)
  box : ∀ mask, ∀ m ∈ find mask, m.m00 ≠ 0 → ∃ blob : List (ℕ × ℕ),
    (∀ p ∈ blob, isSet mask p = true) ∧
    (∀ p ∈ blob, ∀ q ∈ blob, Relation.ReflTransGen (Touching mask) p q) ∧
    (∃ p ∈ blob, (p.2 : K) ≤ m.m10 / m.m00) ∧ (∃ p ∈ blob, m.m10 / m.m00 ≤ (p.2 : K)) ∧
    (∃ p ∈ blob, (p.1 : K) ≤ m.m01 / m.m00) ∧ (∃ p ∈ blob, m.m01 / m.m00 ≤ (p.1 : K))

/-- `np.argmax` of the last axis: the first of the greatest entries. -/
def argmaxIndex (probs : List K) : ℕ := (argmin? (probs.map (fun x => -x))).getD 0

/-- `cv2.erode` with a 2×2 kernel, once: a pixel stays set if it and the ones above, to the left and above
left of it are set, as far as they lie in the image. -/
def erodeOnce (mask : List (List Bool)) : List (List Bool) :=
  mask.mapIdx (fun r row => row.mapIdx (fun c v => v &&
    (decide (r = 0) || isSet mask (r - 1, c)) && (decide (c = 0) || isSet mask (r, c - 1)) &&
    (decide (r = 0) || decide (c = 0) || isSet mask (r - 1, c - 1))))

/-- `cv2.erode(…, iterations=n)`. -/
def erode : ℕ → List (List Bool) → List (List Bool)
  | 0, mask => mask
  | n + 1, mask => erode n (erodeOnce mask)

/-- Python's `int`: towards zero. -/
def truncInt (x : K) : ℤ := if 0 ≤ x then ⌊x⌋ else ⌈x⌉

/-- alignment.py:396-404 and atom_detector.py:67-75: column and row of a contour's centroid. -/
def centroidPixel (m : Moments K) : ℤ × ℤ :=
  if m.m00 ≠ 0 then (truncInt (m.m10 / m.m00), truncInt (m.m01 / m.m00)) else (0, 0)

/-- alignment.py:369-408 `ImageAligner.compute_centroids`, for classes of shape `(h, w)`. -/
def alignerCentroids (ct : Contours K) (h w : ℕ) (classes : List (List ℕ)) (index erosions : ℕ) : List (V2 K) :=
  let mask := classes.map (fun row => row.map (fun k => decide (k = index ∧ k ≠ 0)))
  (ct.find (erode erosions mask)).map (fun m =>
    let c := centroidPixel m
    ⟨(c.1 : K) / h, 1 - (c.2 : K) / w⟩)

/-- alignment.py:410-457 `ImageAligner.process_detection_predictions`. -/
def processDetections (ct : Contours K) (h w : ℕ) (probs : List (List (List K))) (buffer : K) : Grid K :=
  let classes := probs.map (fun row => row.map argmaxIndex)
  let carbon := alignerCentroids ct h w classes 1 1
  let silicon := alignerCentroids ct h w classes 2 3
  let atoms := (carbon ++ silicon).zip (carbon.map (fun _ => (6 : ℤ)) ++ silicon.map (fun _ => (14 : ℤ)))
  let kept := atoms.filter (fun a => decide (buffer < a.1.x) && decide (buffer < a.1.y) &&
    decide (a.1.x < 1 - buffer) && decide (a.1.y < 1 - buffer))
  ⟨kept.map Prod.fst, kept.map Prod.snd⟩

/-- atom_detector.py:62-77: the positions of contours in the 256×256 image. -/
def detectorCentroids (ms : List (Moments K)) : List (V2 K) :=
  ms.map (fun m => let c := centroidPixel m; ⟨(c.1 : K) / 256, 1 - (c.2 : K) / 256⟩)

/-- atom_detector.py:164-185, the end of `AtomDetector.__call__`, from the contours of the two layers.  An
empty list is an array of one dimension, which `np.concatenate` does not join with one of two. -/
def detectorGrid (carbon silicon : List (Moments K)) : Except Err (Grid K) :=
  if decide (carbon = []) != decide (silicon = []) then .error .valueError
  else .ok ⟨detectorCentroids carbon ++ detectorCentroids silicon,
    carbon.map (fun _ => 6) ++ silicon.map (fun _ => 14)⟩

end PD
