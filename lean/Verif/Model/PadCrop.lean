/- Model of `pad_and_crop_images_by_fov` (alignment.py:203-287). -/
import Verif.Model.Fov
import Mathlib.Algebra.Order.Round

namespace PD
variable {K : Type} [Field K] [LinearOrder K] [FloorRing K] {P : Type}

/-- An image as a list of rows of pixels; `h` rows of `w` pixels.  A pixel stands for all its channels. -/
def IsImage (h w : ℕ) (img : List (List P)) : Prop := img.length = h ∧ ∀ row ∈ img, row.length = w

/-- `tf.image.resize(…, method='nearest')`: an image of the asked size, made of pixels of the given one.
It raises for sizes that are not positive (the error class is TensorFlow's). -/
structure Resizer (P : Type) where
  resize : List (List P) → ℕ → ℕ → List (List P)
  size : ∀ H W img h w, IsImage H W img → 0 < H → 0 < W → IsImage h w (resize img h w)
  pixels : ∀ H W img h w, IsImage H W img → 0 < H → 0 < W →
    ∀ row ∈ resize img h w, ∀ p ∈ row, ∃ r ∈ img, p ∈ r

/-- alignment.py:241-251: `np.pad` with `ph` rows and `pw` columns of zeros on each side of an image of
width `w`. -/
def padImage (zero : P) (ph pw w : ℕ) (img : List (List P)) : List (List P) :=
  List.replicate ph (List.replicate (pw + w + pw) zero) ++
  img.map (fun row => List.replicate pw zero ++ row ++ List.replicate pw zero) ++
  List.replicate ph (List.replicate (pw + w + pw) zero)

/-- `np.clip(x, 0, hi)`. -/
def clip0 (x hi : K) : K := min (max x 0) hi

/-- alignment.py:227-286, for an image of `h` rows and `w` columns.  The scales are arrays `(x, y)` and are
combined entry by entry with the shape `(h, w)`, so rows use the scale in x and columns that in y.  A field
of view without extent, for which numpy computes inf or nan, is an error here. -/
def padAndCrop (rs : Resizer P) (zero : P) (h w : ℕ) (img : List (List P)) (original new : Fov K) :
    Except Err (List (List P)) :=
  let originalScale := original.scale
  let newScale := new.scale
  if newScale.x = 0 ∨ newScale.y = 0 then .error .valueError
  else
    let factor : V2 K := ⟨originalScale.x / newScale.x, originalScale.y / newScale.y⟩
    let same := decide (factor.x = 1) && decide (factor.y = 1)
    let newH : ℤ := if same then h else roundHalfEven (h * factor.x)
    let newW : ℤ := if same then w else roundHalfEven (w * factor.y)
    if !same && (decide (newH ≤ 0) || decide (newW ≤ 0)) then .error .valueError
    else
      let resized := if same then img else rs.resize img newH.toNat newW.toNat
      let padded := padImage zero h w newW.toNat resized
      let xShift := new.lowerLeft.x - original.lowerLeft.x
      let yShift := new.upperRight.y - original.upperRight.y
      let start0 := -yShift * h / newScale.x + h
      let start1 := xShift * w / newScale.y + w
      let s0 := roundHalfEven (clip0 start0 (newH + 2 * h - h))
      let s1 := roundHalfEven (clip0 start1 (newW + 2 * w - w))
      .ok (((padded.drop s0.toNat).take h).map (fun row => (row.drop s1.toNat).take w))

end PD
