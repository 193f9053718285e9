/- Model of the layers the stand-alone detector makes from the network's probabilities (atom_detector.py:144-163):
single-precision numbers as their bits, since the code combines them bit by bit. -/
import Verif.Model.Detector
import Mathlib.Data.Rat.Init
import Mathlib.Algebra.Order.Field.Rat

namespace PD

/-- The bits of a single-precision number: sign, exponent, mantissa. -/
structure F32 where
  neg : Bool
  exp : BitVec 8
  man : BitVec 23
  deriving DecidableEq

/-- The number the bits stand for (IEEE 754); `none` for infinities and not-a-number. -/
def F32.value (x : F32) : Option ℚ :=
  let size : Option ℚ :=
    if x.exp.toNat = 255 then none
    else if x.exp.toNat = 0 then some ((x.man.toNat : ℚ) / 2 ^ 149)
    else some (((2 ^ 23 + x.man.toNat : ℕ) : ℚ) * 2 ^ x.exp.toNat / 2 ^ 150)
  if x.neg then size.map (fun v => -v) else size

/-- `0.0`. -/
def F32.zero : F32 := ⟨false, 0, 0⟩
/-- `1.0`. -/
def F32.one : F32 := ⟨false, 127, 0⟩

/-- `cv2.bitwise_xor` of two floating-point numbers: of their bits. -/
def F32.xor (x y : F32) : F32 := ⟨x.neg ^^ y.neg, x.exp ^^^ y.exp, x.man ^^^ y.man⟩

/-- `.astype(np.uint8)` equals 1 (atom_detector.py:160 and the comparison in line 49): the number truncated
towards zero.  (Not-a-number becomes 0.) -/
def F32.truncatesToOne (x : F32) : Bool :=
  match x.value with
  | none => false
  | some v => decide (1 ≤ v ∧ v < 2)

/-- atom_detector.py:144: `cv2.threshold(…, 0.025, 1.0, THRESH_BINARY)` with 0.025 in single precision.
Not-a-number is not above it. -/
def carbonLikely (p : F32) : Bool :=
  match p.value with
  | none => false
  | some v => decide ((13421773 : ℚ) / 2 ^ 29 < v)

/-- `cv2.dilate` with a 2×2 kernel, once: a pixel is set if it or one of those above, to the left and above left
of it is. -/
def dilateOnce (mask : List (List Bool)) : List (List Bool) :=
  mask.mapIdx (fun r row => row.mapIdx (fun c v => v ||
    (decide (r ≠ 0) && isSet mask (r - 1, c)) || (decide (c ≠ 0) && isSet mask (r, c - 1)) ||
    (decide (r ≠ 0) && decide (c ≠ 0) && isSet mask (r - 1, c - 1))))

/-- `cv2.dilate(…, iterations=n)`. -/
def dilate : ℕ → List (List Bool) → List (List Bool)
  | 0, mask => mask
  | n + 1, mask => dilate n (dilateOnce mask)

/-- atom_detector.py:146-152: where carbon is considered likely when silicon is looked for. -/
def carbonRegion (carbon : List (List Bool)) : List (List Bool) := erode 2 (dilate 4 carbon)

/-- atom_detector.py:154-160: whether a pixel counts as silicon. -/
def countsAsSilicon (inRegion : Bool) (silicon : F32) : Bool :=
  (silicon.xor (if inRegion then F32.one else F32.zero)).truncatesToOne

/-- atom_detector.py:141-163: the pixels of the two layers whose contours are searched for (before the distance
transform), for the probabilities of carbon and silicon. -/
def detectorLayers (carbonProbs siliconProbs : List (List F32)) : List (List Bool) × List (List Bool) :=
  let carbon := carbonProbs.map (fun row => row.map carbonLikely)
  (carbon, (carbonRegion carbon).zipWith (fun regions probs => regions.zipWith countsAsSilicon probs) siliconProbs)

end PD
