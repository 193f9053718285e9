/- Model of the rendering of images and masks (imaging.py).  `power x` stands for `x ** intensity_exponent`;
images are lists of rows. -/
import Verif.Model.PadCrop
import Verif.Model.Augment

namespace PD
variable {K : Type} [Field K] [LinearOrder K]

/-! ### Masks -/

/-- imaging.py:86-94: the middles of the `n` intervals of `np.linspace(lo, hi, n + 1)`. -/
def pixelCentres (lo hi : K) (n : ℕ) : List K :=
  (List.range n).map (fun i : ℕ => (lo + i * ((hi - lo) / n) + (lo + (i + 1) * ((hi - lo) / n))) / 2)

/-- imaging.py:109-111: paint one atom.  The array of distances has a row for each `y`.  Indexing with a
boolean array of another shape raises `IndexError`.  Storing in `uint8` keeps the remainder by 256. -/
def paintAtom (power : K → K) (xs ys : List K) (mask : List (List ℤ)) (a : V2 K × ℤ) : List (List ℤ) :=
  let radius := power ((a.2 : K) / 6) * (1 / 10)
  List.zipWith (fun y row => List.zipWith (fun x v =>
    if (x - a.1.x) ^ 2 + (y - a.1.y) ^ 2 < radius then a.2 % 256 else v) xs row) ys mask

/-- imaging.py:75-114 `generate_grid_mask`; the image dimensions are `(width, height)`, and the mask is made
with that shape, so `width` is its number of rows. -/
def generateGridMask (power : K → K) (grid : Grid K) (fov : Fov K) (width height : ℕ) :
    Except Err (List (List ℤ)) :=
  let xs := pixelCentres fov.lowerLeft.x fov.upperRight.x width
  let ys := pixelCentres fov.lowerLeft.y fov.upperRight.y height
  let material := fov.gridToMaterial grid
  let atoms := material.positions.zip material.numbers
  let mask := List.replicate width (List.replicate height 0)
  if !atoms.isEmpty && decide (width ≠ height) then .error .indexError
  else .ok (atoms.foldl (paintAtom power xs ys) mask).reverse

/-! ### Jitter -/

/-- `Generator.poisson(lam, size)`: that many non-negative integers; negative rates raise `ValueError`. -/
structure PoissonRng (K G : Type) where
  draw : K → ℕ → G → List ℕ × G
  length : ∀ r n g, (draw r n g).1.length = n

/-- imaging.py:188-196 `apply_jitter`; `np.stack` of nothing raises `ValueError`. -/
def applyJitter {P G : Type} (rng : PoissonRng K G) (rate : K) (img : List (List P)) (g : G) :
    Except Err (List (List P) × G) :=
  if rate < 0 then .error .valueError
  else
    let (rolls, g') := rng.draw rate img.length g
    if img.isEmpty then .error .valueError
    else .ok (List.zipWith roll img rolls, g')

/-! ### Clean images -/

variable [FloorRing K]

/-- An image given by its pixels. -/
def tabulate {P : Type} (h w : ℕ) (f : ℕ → ℕ → P) : List (List P) :=
  (List.range h).map (fun r => (List.range w).map (fun c => f r c))

/-- `image[r, c]`. -/
def at2 (img : List (List K)) (r c : ℕ) : K := (img.getD r []).getD c 0

/-- `np.histogram2d` along one axis with `n` bins on `[lo, hi]`: bins contain their left end, the last one
also its right end; other values are not counted. -/
def histBin (lo hi : K) (n : ℕ) (x : K) : Option ℕ :=
  if x < lo ∨ hi < x then none
  else if x = hi then some (n - 1)
  else some ⌊(x - lo) / ((hi - lo) / n)⌋.toNat

/-- `np.histogram2d(xs, ys, bins=n, range=((lo, hi), (lo, hi)))`: x along the first axis. -/
def histogram2d (lo hi : K) (n : ℕ) (ps : List (V2 K)) : List (List K) :=
  tabulate n n (fun i j => ((ps.filter (fun p =>
    decide (histBin lo hi n p.x = some i) && decide (histBin lo hi n p.y = some j))).length : K))

/-- `np.transpose` of an `n`×`n` image. -/
def transposeImage (n : ℕ) (img : List (List K)) : List (List K) := tabulate n n (fun r c => at2 img c r)

/-- Sum of two `n`×`n` images. -/
def addImages (n : ℕ) (a b : List (List K)) : List (List K) := tabulate n n (fun r c => at2 a r c + at2 b r c)

/-- imaging.py:131-150: the intensities before blurring, in an image of `n`×`n` pixels that shows
`[lo, hi]`².  The order of the set of atomic numbers does not matter for the sum. -/
def rawImage (power : K → K) (grid : Grid K) (lo hi : K) (n : ℕ) : List (List K) :=
  let image := grid.numbers.dedup.foldl (fun image Z =>
    let positions := ((grid.positions.zip grid.numbers).filter (fun a => a.2 = Z)).map Prod.fst
    addImages n image ((histogram2d lo hi n positions).map (fun row => row.map (fun x => x * power (Z : K)))))
    (tabulate n n (fun _ _ => 0))
  (transposeImage n image).reverse

/-- `ndimage.gaussian_filter` on images: a positive kernel. -/
structure Blur (K : Type) [Field K] [LinearOrder K] where
  blur : V2 K → List (List K) → List (List K)
  size : ∀ s h w img, IsImage h w img → IsImage h w (blur s img)
  nonneg : ∀ s img, (∀ row ∈ img, ∀ v ∈ row, 0 ≤ v) → ∀ row ∈ blur s img, ∀ v ∈ row, 0 ≤ v
  pos : ∀ s h w img r c, IsImage h w img → (∀ row ∈ img, ∀ v ∈ row, 0 ≤ v) → r < h → c < w →
    0 < (img.getD r []).getD c 0 → 0 < ((blur s img).getD r []).getD c 0
  zero : ∀ s img, (∀ row ∈ img, ∀ v ∈ row, v = 0) → ∀ row ∈ blur s img, ∀ v ∈ row, v = 0

/-- `np.max(image)`: `ValueError` for an image without pixels. -/
def imageMax (img : List (List K)) : Option K :=
  match img.flatten with
  | [] => none
  | x :: xs => some (xs.foldl max x)

/-- `image / np.max(image)` for images without negative pixels; `none` is nan. -/
def normalise (img : List (List K)) : Except Err (List (List (Option K))) :=
  match imageMax img with
  | none => .error .valueError
  | some m => .ok (img.map (fun row => row.map (fun v => if m = 0 then none else some (v / m))))

/-- imaging.py:163-168: cut out `n`×`n` pixels from `b`, `b`. -/
def cropImage {P : Type} (b n : ℕ) (img : List (List P)) : List (List P) :=
  ((img.drop b).take n).map (fun row => (row.drop b).take n)

/-- imaging.py:152-159: the standard deviations of the blur in pixels, along the rows' axis (downwards) and
along the columns' axis. -/
def blurSigma (fov : Fov K) (size : ℕ) : V2 K :=
  ⟨size / (215 / 100 * fov.width), size / (215 / 100 * fov.height)⟩

/-- imaging.py:117-173 `generate_clean_image`, for buffers that are not negative. -/
def generateCleanImage (bl : Blur K) (power : K → K) (grid : Grid K) (fov : Fov K) (size : ℕ) (buffer : K) :
    Except Err (List (List (Option K))) :=
  let bufferWidth := ⌊buffer * size⌋.toNat
  let n := size + 2 * bufferWidth
  if !grid.numbers.isEmpty && decide (grid.positions.length ≠ grid.numbers.length) then .error .indexError
  else if !grid.numbers.isEmpty && decide (n = 0) then .error .valueError
  else
    let image := rawImage power grid (-buffer) (1 + buffer) n
    if fov.width = 0 ∨ fov.height = 0 then .error .zeroDivision
    else
      normalise (cropImage bufferWidth size (bl.blur (blurSigma fov size) image))

/-! ### The first noise stages -/

/-- The pixels of an image none of which is nan. -/
def definite (img : List (List (Option K))) : Option (List (List K)) :=
  img.mapM (fun row => row.mapM id)

/-- imaging.py:211-213 `apply_blur`.  The filter spreads nan; images here have either no nan or nothing else, and
then stay so. -/
def applyBlur (bl : Blur K) (amount : K) (img : List (List (Option K))) : Except Err (List (List (Option K))) :=
  match definite img with
  | none => .ok (img.map (fun row => row.map (fun _ => none)))
  | some im => normalise (bl.blur ⟨amount, amount⟩ im)

/-- `Generator.poisson` of an array of rates: an array of the same shape of non-negative integers; `ValueError` if
a rate is negative or nan. -/
structure PoissonImages (K G : Type) where
  draw : List (List K) → G → List (List ℕ) × G
  shape : ∀ rates g, (draw rates g).1.map List.length = rates.map List.length

/-- imaging.py:199-203 `apply_poisson_noise`. -/
def applyPoisson {G : Type} (rng : PoissonImages K G) (multiplier : K) (img : List (List (Option K))) (g : G) :
    Except Err (List (List (Option K)) × G) :=
  match definite img with
  | none => .error .valueError
  | some im =>
    let rates := im.map (fun row => row.map (fun v => v * multiplier))
    if rates.any (fun row => row.any (fun v => decide (v < 0))) then .error .valueError
    else
      let (counts, g') := rng.draw rates g
      match normalise (counts.map (fun row => row.map (fun k : ℕ => (k : K)))) with
      | .error e => .error e
      | .ok out => .ok (out, g')

/-- imaging.py:29-39 `ImageGenerationParameters`, those of the stages modelled here. -/
structure ImageParams (K : Type) where
  blurAmount : K
  poissonMultiplier : K
  jitterRate : K
  imageSize : ℕ

/-- imaging.py:239-256: `generate_stem_image` up to and including the jitter.  The later stages are skimage's. -/
def stemCounts {G : Type} (bl : Blur K) (pr : PoissonImages K G) (jr : PoissonRng K G) (power : K → K) (grid : Grid K)
    (fov : Fov K) (params : ImageParams K) (g : G) (buffer : K) : Except Err (List (List (Option K)) × G) :=
  match generateCleanImage bl power grid fov params.imageSize buffer with
  | .error e => .error e
  | .ok clean =>
    match applyBlur bl params.blurAmount clean with
    | .error e => .error e
    | .ok blurred =>
      match applyPoisson pr params.poissonMultiplier blurred g with
      | .error e => .error e
      | .ok (noisy, g') => applyJitter jr params.jitterRate noisy g'

end PD
